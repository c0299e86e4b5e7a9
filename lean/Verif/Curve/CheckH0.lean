import Verif.Curve.TabCheck
import Verif.Curve.Data.TabH0

/-!
# Rows 0 to 7 of the table of multiples of the second base, checked by the kernel
-/

namespace Zk.Curve

theorem rowH0_ok : rowOk rowH0 = true := by decide +kernel

theorem rowH1_ok : rowOk rowH1 = true := by decide +kernel

theorem rowH2_ok : rowOk rowH2 = true := by decide +kernel

theorem rowH3_ok : rowOk rowH3 = true := by decide +kernel

theorem rowH4_ok : rowOk rowH4 = true := by decide +kernel

theorem rowH5_ok : rowOk rowH5 = true := by decide +kernel

theorem rowH6_ok : rowOk rowH6 = true := by decide +kernel

theorem rowH7_ok : rowOk rowH7 = true := by decide +kernel

theorem rowH0_link : linkOk rowH1 rowH0 = true := by decide +kernel

theorem rowH1_link : linkOk rowH2 rowH1 = true := by decide +kernel

theorem rowH2_link : linkOk rowH3 rowH2 = true := by decide +kernel

theorem rowH3_link : linkOk rowH4 rowH3 = true := by decide +kernel

theorem rowH4_link : linkOk rowH5 rowH4 = true := by decide +kernel

theorem rowH5_link : linkOk rowH6 rowH5 = true := by decide +kernel

theorem rowH6_link : linkOk rowH7 rowH6 = true := by decide +kernel

end Zk.Curve
