import Verif.Gen.ExactLemmas
import Verif.Gen.CheckG0
import Verif.Gen.CheckG1
import Verif.Gen.CheckH0
import Verif.Gen.CheckH1

/-!
# The committed tables are the ones the generator computes
-/

namespace Zk.Gen

open Zk Zk.Field Zk.Curve

theorem tabG_gen : TabGen rowsG := by
  refine ⟨fun b hb => ?_, fun b hb => ?_⟩
  · match b, hb with
    | 0, _ => exact rowGen_spec rowG0_gen
    | 1, _ => exact rowGen_spec rowG1_gen
    | 2, _ => exact rowGen_spec rowG2_gen
    | 3, _ => exact rowGen_spec rowG3_gen
    | 4, _ => exact rowGen_spec rowG4_gen
    | 5, _ => exact rowGen_spec rowG5_gen
    | 6, _ => exact rowGen_spec rowG6_gen
    | 7, _ => exact rowGen_spec rowG7_gen
    | 8, _ => exact rowGen_spec rowG8_gen
    | 9, _ => exact rowGen_spec rowG9_gen
    | 10, _ => exact rowGen_spec rowG10_gen
    | 11, _ => exact rowGen_spec rowG11_gen
    | 12, _ => exact rowGen_spec rowG12_gen
    | 13, _ => exact rowGen_spec rowG13_gen
    | 14, _ => exact rowGen_spec rowG14_gen
    | 15, _ => exact rowGen_spec rowG15_gen
    | 16, _ => exact rowGen_spec rowG16_gen
    | 17, _ => exact rowGen_spec rowG17_gen
    | 18, _ => exact rowGen_spec rowG18_gen
    | 19, _ => exact rowGen_spec rowG19_gen
    | 20, _ => exact rowGen_spec rowG20_gen
    | 21, _ => exact rowGen_spec rowG21_gen
    | 22, _ => exact rowGen_spec rowG22_gen
    | 23, _ => exact rowGen_spec rowG23_gen
    | 24, _ => exact rowGen_spec rowG24_gen
    | 25, _ => exact rowGen_spec rowG25_gen
    | 26, _ => exact rowGen_spec rowG26_gen
    | 27, _ => exact rowGen_spec rowG27_gen
    | 28, _ => exact rowGen_spec rowG28_gen
    | 29, _ => exact rowGen_spec rowG29_gen
    | 30, _ => exact rowGen_spec rowG30_gen
    | 31, _ => exact rowGen_spec rowG31_gen
    | n + 32, h => exact absurd h (by omega)
  · match b, hb with
    | 0, _ => exact rowG0_dbl
    | 1, _ => exact rowG1_dbl
    | 2, _ => exact rowG2_dbl
    | 3, _ => exact rowG3_dbl
    | 4, _ => exact rowG4_dbl
    | 5, _ => exact rowG5_dbl
    | 6, _ => exact rowG6_dbl
    | 7, _ => exact rowG7_dbl
    | 8, _ => exact rowG8_dbl
    | 9, _ => exact rowG9_dbl
    | 10, _ => exact rowG10_dbl
    | 11, _ => exact rowG11_dbl
    | 12, _ => exact rowG12_dbl
    | 13, _ => exact rowG13_dbl
    | 14, _ => exact rowG14_dbl
    | 15, _ => exact rowG15_dbl
    | 16, _ => exact rowG16_dbl
    | 17, _ => exact rowG17_dbl
    | 18, _ => exact rowG18_dbl
    | 19, _ => exact rowG19_dbl
    | 20, _ => exact rowG20_dbl
    | 21, _ => exact rowG21_dbl
    | 22, _ => exact rowG22_dbl
    | 23, _ => exact rowG23_dbl
    | 24, _ => exact rowG24_dbl
    | 25, _ => exact rowG25_dbl
    | 26, _ => exact rowG26_dbl
    | 27, _ => exact rowG27_dbl
    | 28, _ => exact rowG28_dbl
    | 29, _ => exact rowG29_dbl
    | 30, _ => exact rowG30_dbl
    | n + 31, h => exact absurd h (by omega)

theorem startG : ∃ f g, bigAffineToField ((curveGx : ℕ) : Int) ((curveGy : ℕ) : Int) = .ok (f, g) ∧
    tabD rowsG 0 = ⟨f, g, setInt 1⟩ := by
  have h : ∃ f g, bigAffineToField ((curveGx : ℕ) : Int) ((curveGy : ℕ) : Int) = .ok (f, g) ∧
      ent (entryN rowG31 1) = ⟨f, g, setInt 1⟩ :=
    ⟨tabField (entryN rowG31 1) 0, tabField (entryN rowG31 1) 1, by decide +kernel, by decide +kernel⟩
  exact h

theorem tabH_gen : TabGen rowsH := by
  refine ⟨fun b hb => ?_, fun b hb => ?_⟩
  · match b, hb with
    | 0, _ => exact rowGen_spec rowH0_gen
    | 1, _ => exact rowGen_spec rowH1_gen
    | 2, _ => exact rowGen_spec rowH2_gen
    | 3, _ => exact rowGen_spec rowH3_gen
    | 4, _ => exact rowGen_spec rowH4_gen
    | 5, _ => exact rowGen_spec rowH5_gen
    | 6, _ => exact rowGen_spec rowH6_gen
    | 7, _ => exact rowGen_spec rowH7_gen
    | 8, _ => exact rowGen_spec rowH8_gen
    | 9, _ => exact rowGen_spec rowH9_gen
    | 10, _ => exact rowGen_spec rowH10_gen
    | 11, _ => exact rowGen_spec rowH11_gen
    | 12, _ => exact rowGen_spec rowH12_gen
    | 13, _ => exact rowGen_spec rowH13_gen
    | 14, _ => exact rowGen_spec rowH14_gen
    | 15, _ => exact rowGen_spec rowH15_gen
    | 16, _ => exact rowGen_spec rowH16_gen
    | 17, _ => exact rowGen_spec rowH17_gen
    | 18, _ => exact rowGen_spec rowH18_gen
    | 19, _ => exact rowGen_spec rowH19_gen
    | 20, _ => exact rowGen_spec rowH20_gen
    | 21, _ => exact rowGen_spec rowH21_gen
    | 22, _ => exact rowGen_spec rowH22_gen
    | 23, _ => exact rowGen_spec rowH23_gen
    | 24, _ => exact rowGen_spec rowH24_gen
    | 25, _ => exact rowGen_spec rowH25_gen
    | 26, _ => exact rowGen_spec rowH26_gen
    | 27, _ => exact rowGen_spec rowH27_gen
    | 28, _ => exact rowGen_spec rowH28_gen
    | 29, _ => exact rowGen_spec rowH29_gen
    | 30, _ => exact rowGen_spec rowH30_gen
    | 31, _ => exact rowGen_spec rowH31_gen
    | n + 32, h => exact absurd h (by omega)
  · match b, hb with
    | 0, _ => exact rowH0_dbl
    | 1, _ => exact rowH1_dbl
    | 2, _ => exact rowH2_dbl
    | 3, _ => exact rowH3_dbl
    | 4, _ => exact rowH4_dbl
    | 5, _ => exact rowH5_dbl
    | 6, _ => exact rowH6_dbl
    | 7, _ => exact rowH7_dbl
    | 8, _ => exact rowH8_dbl
    | 9, _ => exact rowH9_dbl
    | 10, _ => exact rowH10_dbl
    | 11, _ => exact rowH11_dbl
    | 12, _ => exact rowH12_dbl
    | 13, _ => exact rowH13_dbl
    | 14, _ => exact rowH14_dbl
    | 15, _ => exact rowH15_dbl
    | 16, _ => exact rowH16_dbl
    | 17, _ => exact rowH17_dbl
    | 18, _ => exact rowH18_dbl
    | 19, _ => exact rowH19_dbl
    | 20, _ => exact rowH20_dbl
    | 21, _ => exact rowH21_dbl
    | 22, _ => exact rowH22_dbl
    | 23, _ => exact rowH23_dbl
    | 24, _ => exact rowH24_dbl
    | 25, _ => exact rowH25_dbl
    | 26, _ => exact rowH26_dbl
    | 27, _ => exact rowH27_dbl
    | 28, _ => exact rowH28_dbl
    | 29, _ => exact rowH29_dbl
    | 30, _ => exact rowH30_dbl
    | n + 31, h => exact absurd h (by omega)

theorem startH : ∃ f g, bigAffineToField ((hbX : ℕ) : Int) ((hbY : ℕ) : Int) = .ok (f, g) ∧
    tabD rowsH 0 = ⟨f, g, setInt 1⟩ := by
  have h : ∃ f g, bigAffineToField ((hbX : ℕ) : Int) ((hbY : ℕ) : Int) = .ok (f, g) ∧
      ent (entryN rowH31 1) = ⟨f, g, setInt 1⟩ :=
    ⟨tabField (entryN rowH31 1) 0, tabField (entryN rowH31 1) 1, by decide +kernel, by decide +kernel⟩
  exact h

end Zk.Gen
