import Verif.Gen.Check
import Verif.Curve.Data.TabH0
import Verif.Curve.Data.TabH1
import Verif.Curve.Data.TabH2

/-!
# Rows 0 to 15 of the table of multiples of the second base, compared with the generator by the kernel
-/

namespace Zk.Gen

open Zk.Curve

theorem rowH0_gen : rowGen rowH0 = true := by decide +kernel

theorem rowH1_gen : rowGen rowH1 = true := by decide +kernel

theorem rowH2_gen : rowGen rowH2 = true := by decide +kernel

theorem rowH3_gen : rowGen rowH3 = true := by decide +kernel

theorem rowH4_gen : rowGen rowH4 = true := by decide +kernel

theorem rowH5_gen : rowGen rowH5 = true := by decide +kernel

theorem rowH6_gen : rowGen rowH6 = true := by decide +kernel

theorem rowH7_gen : rowGen rowH7 = true := by decide +kernel

theorem rowH8_gen : rowGen rowH8 = true := by decide +kernel

theorem rowH9_gen : rowGen rowH9 = true := by decide +kernel

theorem rowH10_gen : rowGen rowH10 = true := by decide +kernel

theorem rowH11_gen : rowGen rowH11 = true := by decide +kernel

theorem rowH12_gen : rowGen rowH12 = true := by decide +kernel

theorem rowH13_gen : rowGen rowH13 = true := by decide +kernel

theorem rowH14_gen : rowGen rowH14 = true := by decide +kernel

theorem rowH15_gen : rowGen rowH15 = true := by decide +kernel

theorem rowH0_dbl : genLink rowH1 rowH0 = true := by decide +kernel

theorem rowH1_dbl : genLink rowH2 rowH1 = true := by decide +kernel

theorem rowH2_dbl : genLink rowH3 rowH2 = true := by decide +kernel

theorem rowH3_dbl : genLink rowH4 rowH3 = true := by decide +kernel

theorem rowH4_dbl : genLink rowH5 rowH4 = true := by decide +kernel

theorem rowH5_dbl : genLink rowH6 rowH5 = true := by decide +kernel

theorem rowH6_dbl : genLink rowH7 rowH6 = true := by decide +kernel

theorem rowH7_dbl : genLink rowH8 rowH7 = true := by decide +kernel

theorem rowH8_dbl : genLink rowH9 rowH8 = true := by decide +kernel

theorem rowH9_dbl : genLink rowH10 rowH9 = true := by decide +kernel

theorem rowH10_dbl : genLink rowH11 rowH10 = true := by decide +kernel

theorem rowH11_dbl : genLink rowH12 rowH11 = true := by decide +kernel

theorem rowH12_dbl : genLink rowH13 rowH12 = true := by decide +kernel

theorem rowH13_dbl : genLink rowH14 rowH13 = true := by decide +kernel

theorem rowH14_dbl : genLink rowH15 rowH14 = true := by decide +kernel

theorem rowH15_dbl : genLink rowH16 rowH15 = true := by decide +kernel

end Zk.Gen
