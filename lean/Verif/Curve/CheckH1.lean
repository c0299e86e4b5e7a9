import Verif.Curve.TabCheck
import Verif.Curve.Data.TabH1

/-!
# Rows 8 to 15 of the table of multiples of the second base, checked by the kernel
-/

namespace Zk.Curve

theorem rowH8_ok : rowOk rowH8 = true := by decide +kernel

theorem rowH9_ok : rowOk rowH9 = true := by decide +kernel

theorem rowH10_ok : rowOk rowH10 = true := by decide +kernel

theorem rowH11_ok : rowOk rowH11 = true := by decide +kernel

theorem rowH12_ok : rowOk rowH12 = true := by decide +kernel

theorem rowH13_ok : rowOk rowH13 = true := by decide +kernel

theorem rowH14_ok : rowOk rowH14 = true := by decide +kernel

theorem rowH15_ok : rowOk rowH15 = true := by decide +kernel

theorem rowH8_link : linkOk rowH9 rowH8 = true := by decide +kernel

theorem rowH9_link : linkOk rowH10 rowH9 = true := by decide +kernel

theorem rowH10_link : linkOk rowH11 rowH10 = true := by decide +kernel

theorem rowH11_link : linkOk rowH12 rowH11 = true := by decide +kernel

theorem rowH12_link : linkOk rowH13 rowH12 = true := by decide +kernel

theorem rowH13_link : linkOk rowH14 rowH13 = true := by decide +kernel

theorem rowH14_link : linkOk rowH15 rowH14 = true := by decide +kernel

end Zk.Curve
