import Verif.Gen.Check
import Verif.Curve.Data.TabG2
import Verif.Curve.Data.TabG3

/-!
# Rows 16 to 31 of the table of multiples of the first base, compared with the generator by the kernel
-/

namespace Zk.Gen

open Zk.Curve

theorem rowG16_gen : rowGen rowG16 = true := by decide +kernel

theorem rowG17_gen : rowGen rowG17 = true := by decide +kernel

theorem rowG18_gen : rowGen rowG18 = true := by decide +kernel

theorem rowG19_gen : rowGen rowG19 = true := by decide +kernel

theorem rowG20_gen : rowGen rowG20 = true := by decide +kernel

theorem rowG21_gen : rowGen rowG21 = true := by decide +kernel

theorem rowG22_gen : rowGen rowG22 = true := by decide +kernel

theorem rowG23_gen : rowGen rowG23 = true := by decide +kernel

theorem rowG24_gen : rowGen rowG24 = true := by decide +kernel

theorem rowG25_gen : rowGen rowG25 = true := by decide +kernel

theorem rowG26_gen : rowGen rowG26 = true := by decide +kernel

theorem rowG27_gen : rowGen rowG27 = true := by decide +kernel

theorem rowG28_gen : rowGen rowG28 = true := by decide +kernel

theorem rowG29_gen : rowGen rowG29 = true := by decide +kernel

theorem rowG30_gen : rowGen rowG30 = true := by decide +kernel

theorem rowG31_gen : rowGen rowG31 = true := by decide +kernel

theorem rowG16_dbl : genLink rowG17 rowG16 = true := by decide +kernel

theorem rowG17_dbl : genLink rowG18 rowG17 = true := by decide +kernel

theorem rowG18_dbl : genLink rowG19 rowG18 = true := by decide +kernel

theorem rowG19_dbl : genLink rowG20 rowG19 = true := by decide +kernel

theorem rowG20_dbl : genLink rowG21 rowG20 = true := by decide +kernel

theorem rowG21_dbl : genLink rowG22 rowG21 = true := by decide +kernel

theorem rowG22_dbl : genLink rowG23 rowG22 = true := by decide +kernel

theorem rowG23_dbl : genLink rowG24 rowG23 = true := by decide +kernel

theorem rowG24_dbl : genLink rowG25 rowG24 = true := by decide +kernel

theorem rowG25_dbl : genLink rowG26 rowG25 = true := by decide +kernel

theorem rowG26_dbl : genLink rowG27 rowG26 = true := by decide +kernel

theorem rowG27_dbl : genLink rowG28 rowG27 = true := by decide +kernel

theorem rowG28_dbl : genLink rowG29 rowG28 = true := by decide +kernel

theorem rowG29_dbl : genLink rowG30 rowG29 = true := by decide +kernel

theorem rowG30_dbl : genLink rowG31 rowG30 = true := by decide +kernel

end Zk.Gen
