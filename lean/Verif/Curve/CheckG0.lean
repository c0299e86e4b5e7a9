import Verif.Curve.TabCheck
import Verif.Curve.Data.TabG0

/-!
# Rows 0 to 7 of the table of multiples of the first base, checked by the kernel
-/

namespace Zk.Curve

theorem rowG0_ok : rowOk rowG0 = true := by decide +kernel

theorem rowG1_ok : rowOk rowG1 = true := by decide +kernel

theorem rowG2_ok : rowOk rowG2 = true := by decide +kernel

theorem rowG3_ok : rowOk rowG3 = true := by decide +kernel

theorem rowG4_ok : rowOk rowG4 = true := by decide +kernel

theorem rowG5_ok : rowOk rowG5 = true := by decide +kernel

theorem rowG6_ok : rowOk rowG6 = true := by decide +kernel

theorem rowG7_ok : rowOk rowG7 = true := by decide +kernel

theorem rowG0_link : linkOk rowG1 rowG0 = true := by decide +kernel

theorem rowG1_link : linkOk rowG2 rowG1 = true := by decide +kernel

theorem rowG2_link : linkOk rowG3 rowG2 = true := by decide +kernel

theorem rowG3_link : linkOk rowG4 rowG3 = true := by decide +kernel

theorem rowG4_link : linkOk rowG5 rowG4 = true := by decide +kernel

theorem rowG5_link : linkOk rowG6 rowG5 = true := by decide +kernel

theorem rowG6_link : linkOk rowG7 rowG6 = true := by decide +kernel

end Zk.Curve
