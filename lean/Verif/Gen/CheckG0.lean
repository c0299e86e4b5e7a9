import Verif.Gen.Check
import Verif.Curve.Data.TabG0
import Verif.Curve.Data.TabG1
import Verif.Curve.Data.TabG2

/-!
# Rows 0 to 15 of the table of multiples of the first base, compared with the generator by the kernel
-/

namespace Zk.Gen

open Zk.Curve

theorem rowG0_gen : rowGen rowG0 = true := by decide +kernel

theorem rowG1_gen : rowGen rowG1 = true := by decide +kernel

theorem rowG2_gen : rowGen rowG2 = true := by decide +kernel

theorem rowG3_gen : rowGen rowG3 = true := by decide +kernel

theorem rowG4_gen : rowGen rowG4 = true := by decide +kernel

theorem rowG5_gen : rowGen rowG5 = true := by decide +kernel

theorem rowG6_gen : rowGen rowG6 = true := by decide +kernel

theorem rowG7_gen : rowGen rowG7 = true := by decide +kernel

theorem rowG8_gen : rowGen rowG8 = true := by decide +kernel

theorem rowG9_gen : rowGen rowG9 = true := by decide +kernel

theorem rowG10_gen : rowGen rowG10 = true := by decide +kernel

theorem rowG11_gen : rowGen rowG11 = true := by decide +kernel

theorem rowG12_gen : rowGen rowG12 = true := by decide +kernel

theorem rowG13_gen : rowGen rowG13 = true := by decide +kernel

theorem rowG14_gen : rowGen rowG14 = true := by decide +kernel

theorem rowG15_gen : rowGen rowG15 = true := by decide +kernel

theorem rowG0_dbl : genLink rowG1 rowG0 = true := by decide +kernel

theorem rowG1_dbl : genLink rowG2 rowG1 = true := by decide +kernel

theorem rowG2_dbl : genLink rowG3 rowG2 = true := by decide +kernel

theorem rowG3_dbl : genLink rowG4 rowG3 = true := by decide +kernel

theorem rowG4_dbl : genLink rowG5 rowG4 = true := by decide +kernel

theorem rowG5_dbl : genLink rowG6 rowG5 = true := by decide +kernel

theorem rowG6_dbl : genLink rowG7 rowG6 = true := by decide +kernel

theorem rowG7_dbl : genLink rowG8 rowG7 = true := by decide +kernel

theorem rowG8_dbl : genLink rowG9 rowG8 = true := by decide +kernel

theorem rowG9_dbl : genLink rowG10 rowG9 = true := by decide +kernel

theorem rowG10_dbl : genLink rowG11 rowG10 = true := by decide +kernel

theorem rowG11_dbl : genLink rowG12 rowG11 = true := by decide +kernel

theorem rowG12_dbl : genLink rowG13 rowG12 = true := by decide +kernel

theorem rowG13_dbl : genLink rowG14 rowG13 = true := by decide +kernel

theorem rowG14_dbl : genLink rowG15 rowG14 = true := by decide +kernel

theorem rowG15_dbl : genLink rowG16 rowG15 = true := by decide +kernel

end Zk.Gen
