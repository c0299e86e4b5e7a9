import Verif.Curve.TabCheck
import Verif.Curve.Data.TabG1

/-!
# Rows 8 to 15 of the table of multiples of the first base, checked by the kernel
-/

namespace Zk.Curve

theorem rowG8_ok : rowOk rowG8 = true := by decide +kernel

theorem rowG9_ok : rowOk rowG9 = true := by decide +kernel

theorem rowG10_ok : rowOk rowG10 = true := by decide +kernel

theorem rowG11_ok : rowOk rowG11 = true := by decide +kernel

theorem rowG12_ok : rowOk rowG12 = true := by decide +kernel

theorem rowG13_ok : rowOk rowG13 = true := by decide +kernel

theorem rowG14_ok : rowOk rowG14 = true := by decide +kernel

theorem rowG15_ok : rowOk rowG15 = true := by decide +kernel

theorem rowG8_link : linkOk rowG9 rowG8 = true := by decide +kernel

theorem rowG9_link : linkOk rowG10 rowG9 = true := by decide +kernel

theorem rowG10_link : linkOk rowG11 rowG10 = true := by decide +kernel

theorem rowG11_link : linkOk rowG12 rowG11 = true := by decide +kernel

theorem rowG12_link : linkOk rowG13 rowG12 = true := by decide +kernel

theorem rowG13_link : linkOk rowG14 rowG13 = true := by decide +kernel

theorem rowG14_link : linkOk rowG15 rowG14 = true := by decide +kernel

end Zk.Curve
