import Verif.Gen.Check
import Verif.Curve.Data.TabH2
import Verif.Curve.Data.TabH3

/-!
# Rows 16 to 31 of the table of multiples of the second base, compared with the generator by the kernel
-/

namespace Zk.Gen

open Zk.Curve

theorem rowH16_gen : rowGen rowH16 = true := by decide +kernel

theorem rowH17_gen : rowGen rowH17 = true := by decide +kernel

theorem rowH18_gen : rowGen rowH18 = true := by decide +kernel

theorem rowH19_gen : rowGen rowH19 = true := by decide +kernel

theorem rowH20_gen : rowGen rowH20 = true := by decide +kernel

theorem rowH21_gen : rowGen rowH21 = true := by decide +kernel

theorem rowH22_gen : rowGen rowH22 = true := by decide +kernel

theorem rowH23_gen : rowGen rowH23 = true := by decide +kernel

theorem rowH24_gen : rowGen rowH24 = true := by decide +kernel

theorem rowH25_gen : rowGen rowH25 = true := by decide +kernel

theorem rowH26_gen : rowGen rowH26 = true := by decide +kernel

theorem rowH27_gen : rowGen rowH27 = true := by decide +kernel

theorem rowH28_gen : rowGen rowH28 = true := by decide +kernel

theorem rowH29_gen : rowGen rowH29 = true := by decide +kernel

theorem rowH30_gen : rowGen rowH30 = true := by decide +kernel

theorem rowH31_gen : rowGen rowH31 = true := by decide +kernel

theorem rowH16_dbl : genLink rowH17 rowH16 = true := by decide +kernel

theorem rowH17_dbl : genLink rowH18 rowH17 = true := by decide +kernel

theorem rowH18_dbl : genLink rowH19 rowH18 = true := by decide +kernel

theorem rowH19_dbl : genLink rowH20 rowH19 = true := by decide +kernel

theorem rowH20_dbl : genLink rowH21 rowH20 = true := by decide +kernel

theorem rowH21_dbl : genLink rowH22 rowH21 = true := by decide +kernel

theorem rowH22_dbl : genLink rowH23 rowH22 = true := by decide +kernel

theorem rowH23_dbl : genLink rowH24 rowH23 = true := by decide +kernel

theorem rowH24_dbl : genLink rowH25 rowH24 = true := by decide +kernel

theorem rowH25_dbl : genLink rowH26 rowH25 = true := by decide +kernel

theorem rowH26_dbl : genLink rowH27 rowH26 = true := by decide +kernel

theorem rowH27_dbl : genLink rowH28 rowH27 = true := by decide +kernel

theorem rowH28_dbl : genLink rowH29 rowH28 = true := by decide +kernel

theorem rowH29_dbl : genLink rowH30 rowH29 = true := by decide +kernel

theorem rowH30_dbl : genLink rowH31 rowH30 = true := by decide +kernel

end Zk.Gen
