import Verif.Curve.TestCurve
import Verif.Curve.TabLemmas
import Verif.Curve.CheckG0
import Verif.Curve.CheckG1
import Verif.Curve.CheckG2
import Verif.Curve.CheckG3
import Verif.Curve.CheckH0
import Verif.Curve.CheckH1
import Verif.Curve.CheckH2
import Verif.Curve.CheckH3

/-!
# The tables hold the multiples they should, and `TestCurve` implements the group
-/

namespace Zk.Curve

open Zk Zk.Field Zk.Proto

/-! ### Row by row -/

theorem row_up {row up : ℕ} {B : E} {n : ℕ} (h : rowOk row = true)
    (h1 : RepN (ptN (entryN row 1)) (256 ^ n • B)) (hl : linkOk row up = true) :
    RepN (ptN (entryN up 1)) (256 ^ (n + 1) • B) := by
  rw [pow_succ, mul_nsmul]
  exact linkOk_rep h h1 hl

/-- The x coordinate of the base of the second table (specification; btcec/secp256k1H.go:10). -/
def hbX : ℕ := 0x891df6526b0a564e83e6399b469a6b1f3a60d14f4845ab365a294868998e3daf

/-- The y coordinate of the base of the second table (specification; btcec/secp256k1H.go:10). -/
def hbY : ℕ := 0x2e683e7f3f68a40dac174b344284ca4233921aee723da913799f94d4a15c78dc

theorem on_curve {x y : ℕ} (h : y ^ 2 % P = (x ^ 3 + 7) % P) : (y : F) ^ 2 = (x : F) ^ 3 + 7 := by
  have : ((y ^ 2 : ℕ) : F) = ((x ^ 3 + 7 : ℕ) : F) := cast_eq.2 h
  push_cast at this
  exact this

theorem hb_on_curve : (hbY : F) ^ 2 = (hbX : F) ^ 3 + 7 := on_curve (by decide +kernel)

/-- The base of the second table (specification; btcec/secp256k1H.go:10). -/
def Hb : E := mk hb_on_curve

theorem RepN.of_mk {x y : ℕ} (h : (y : F) ^ 2 = (x : F) ^ 3 + 7) : RepN (x, y, 1) (mk h) :=
  (RepF.of_mk h).congr rfl rfl (by show (1 : F) = ((1 : ℕ) : F); rw [Nat.cast_one])

theorem rowG31_rep : RepN (ptN (entryN rowG31 1)) (256 ^ 0 • G) := by
  rw [pow_zero, one_nsmul, show ptN (entryN rowG31 1) = Gn by decide +kernel]
  exact Gn_rep

theorem rowH31_rep : RepN (ptN (entryN rowH31 1)) (256 ^ 0 • Hb) := by
  rw [pow_zero, one_nsmul, show ptN (entryN rowH31 1) = (hbX, hbY, 1) by decide +kernel]
  exact RepN.of_mk hb_on_curve

theorem rowG7_link : linkOk rowG8 rowG7 = true := by decide +kernel

theorem rowG15_link : linkOk rowG16 rowG15 = true := by decide +kernel

theorem rowG23_link : linkOk rowG24 rowG23 = true := by decide +kernel

theorem rowH7_link : linkOk rowH8 rowH7 = true := by decide +kernel

theorem rowH15_link : linkOk rowH16 rowH15 = true := by decide +kernel

theorem rowH23_link : linkOk rowH24 rowH23 = true := by decide +kernel

theorem rowG30_rep : RepN (ptN (entryN rowG30 1)) (256 ^ 1 • G) :=
  row_up rowG31_ok rowG31_rep rowG30_link

theorem rowG29_rep : RepN (ptN (entryN rowG29 1)) (256 ^ 2 • G) :=
  row_up rowG30_ok rowG30_rep rowG29_link

theorem rowG28_rep : RepN (ptN (entryN rowG28 1)) (256 ^ 3 • G) :=
  row_up rowG29_ok rowG29_rep rowG28_link

theorem rowG27_rep : RepN (ptN (entryN rowG27 1)) (256 ^ 4 • G) :=
  row_up rowG28_ok rowG28_rep rowG27_link

theorem rowG26_rep : RepN (ptN (entryN rowG26 1)) (256 ^ 5 • G) :=
  row_up rowG27_ok rowG27_rep rowG26_link

theorem rowG25_rep : RepN (ptN (entryN rowG25 1)) (256 ^ 6 • G) :=
  row_up rowG26_ok rowG26_rep rowG25_link

theorem rowG24_rep : RepN (ptN (entryN rowG24 1)) (256 ^ 7 • G) :=
  row_up rowG25_ok rowG25_rep rowG24_link

theorem rowG23_rep : RepN (ptN (entryN rowG23 1)) (256 ^ 8 • G) :=
  row_up rowG24_ok rowG24_rep rowG23_link

theorem rowG22_rep : RepN (ptN (entryN rowG22 1)) (256 ^ 9 • G) :=
  row_up rowG23_ok rowG23_rep rowG22_link

theorem rowG21_rep : RepN (ptN (entryN rowG21 1)) (256 ^ 10 • G) :=
  row_up rowG22_ok rowG22_rep rowG21_link

theorem rowG20_rep : RepN (ptN (entryN rowG20 1)) (256 ^ 11 • G) :=
  row_up rowG21_ok rowG21_rep rowG20_link

theorem rowG19_rep : RepN (ptN (entryN rowG19 1)) (256 ^ 12 • G) :=
  row_up rowG20_ok rowG20_rep rowG19_link

theorem rowG18_rep : RepN (ptN (entryN rowG18 1)) (256 ^ 13 • G) :=
  row_up rowG19_ok rowG19_rep rowG18_link

theorem rowG17_rep : RepN (ptN (entryN rowG17 1)) (256 ^ 14 • G) :=
  row_up rowG18_ok rowG18_rep rowG17_link

theorem rowG16_rep : RepN (ptN (entryN rowG16 1)) (256 ^ 15 • G) :=
  row_up rowG17_ok rowG17_rep rowG16_link

theorem rowG15_rep : RepN (ptN (entryN rowG15 1)) (256 ^ 16 • G) :=
  row_up rowG16_ok rowG16_rep rowG15_link

theorem rowG14_rep : RepN (ptN (entryN rowG14 1)) (256 ^ 17 • G) :=
  row_up rowG15_ok rowG15_rep rowG14_link

theorem rowG13_rep : RepN (ptN (entryN rowG13 1)) (256 ^ 18 • G) :=
  row_up rowG14_ok rowG14_rep rowG13_link

theorem rowG12_rep : RepN (ptN (entryN rowG12 1)) (256 ^ 19 • G) :=
  row_up rowG13_ok rowG13_rep rowG12_link

theorem rowG11_rep : RepN (ptN (entryN rowG11 1)) (256 ^ 20 • G) :=
  row_up rowG12_ok rowG12_rep rowG11_link

theorem rowG10_rep : RepN (ptN (entryN rowG10 1)) (256 ^ 21 • G) :=
  row_up rowG11_ok rowG11_rep rowG10_link

theorem rowG9_rep : RepN (ptN (entryN rowG9 1)) (256 ^ 22 • G) :=
  row_up rowG10_ok rowG10_rep rowG9_link

theorem rowG8_rep : RepN (ptN (entryN rowG8 1)) (256 ^ 23 • G) :=
  row_up rowG9_ok rowG9_rep rowG8_link

theorem rowG7_rep : RepN (ptN (entryN rowG7 1)) (256 ^ 24 • G) :=
  row_up rowG8_ok rowG8_rep rowG7_link

theorem rowG6_rep : RepN (ptN (entryN rowG6 1)) (256 ^ 25 • G) :=
  row_up rowG7_ok rowG7_rep rowG6_link

theorem rowG5_rep : RepN (ptN (entryN rowG5 1)) (256 ^ 26 • G) :=
  row_up rowG6_ok rowG6_rep rowG5_link

theorem rowG4_rep : RepN (ptN (entryN rowG4 1)) (256 ^ 27 • G) :=
  row_up rowG5_ok rowG5_rep rowG4_link

theorem rowG3_rep : RepN (ptN (entryN rowG3 1)) (256 ^ 28 • G) :=
  row_up rowG4_ok rowG4_rep rowG3_link

theorem rowG2_rep : RepN (ptN (entryN rowG2 1)) (256 ^ 29 • G) :=
  row_up rowG3_ok rowG3_rep rowG2_link

theorem rowG1_rep : RepN (ptN (entryN rowG1 1)) (256 ^ 30 • G) :=
  row_up rowG2_ok rowG2_rep rowG1_link

theorem rowG0_rep : RepN (ptN (entryN rowG0 1)) (256 ^ 31 • G) :=
  row_up rowG1_ok rowG1_rep rowG0_link

theorem rowH30_rep : RepN (ptN (entryN rowH30 1)) (256 ^ 1 • Hb) :=
  row_up rowH31_ok rowH31_rep rowH30_link

theorem rowH29_rep : RepN (ptN (entryN rowH29 1)) (256 ^ 2 • Hb) :=
  row_up rowH30_ok rowH30_rep rowH29_link

theorem rowH28_rep : RepN (ptN (entryN rowH28 1)) (256 ^ 3 • Hb) :=
  row_up rowH29_ok rowH29_rep rowH28_link

theorem rowH27_rep : RepN (ptN (entryN rowH27 1)) (256 ^ 4 • Hb) :=
  row_up rowH28_ok rowH28_rep rowH27_link

theorem rowH26_rep : RepN (ptN (entryN rowH26 1)) (256 ^ 5 • Hb) :=
  row_up rowH27_ok rowH27_rep rowH26_link

theorem rowH25_rep : RepN (ptN (entryN rowH25 1)) (256 ^ 6 • Hb) :=
  row_up rowH26_ok rowH26_rep rowH25_link

theorem rowH24_rep : RepN (ptN (entryN rowH24 1)) (256 ^ 7 • Hb) :=
  row_up rowH25_ok rowH25_rep rowH24_link

theorem rowH23_rep : RepN (ptN (entryN rowH23 1)) (256 ^ 8 • Hb) :=
  row_up rowH24_ok rowH24_rep rowH23_link

theorem rowH22_rep : RepN (ptN (entryN rowH22 1)) (256 ^ 9 • Hb) :=
  row_up rowH23_ok rowH23_rep rowH22_link

theorem rowH21_rep : RepN (ptN (entryN rowH21 1)) (256 ^ 10 • Hb) :=
  row_up rowH22_ok rowH22_rep rowH21_link

theorem rowH20_rep : RepN (ptN (entryN rowH20 1)) (256 ^ 11 • Hb) :=
  row_up rowH21_ok rowH21_rep rowH20_link

theorem rowH19_rep : RepN (ptN (entryN rowH19 1)) (256 ^ 12 • Hb) :=
  row_up rowH20_ok rowH20_rep rowH19_link

theorem rowH18_rep : RepN (ptN (entryN rowH18 1)) (256 ^ 13 • Hb) :=
  row_up rowH19_ok rowH19_rep rowH18_link

theorem rowH17_rep : RepN (ptN (entryN rowH17 1)) (256 ^ 14 • Hb) :=
  row_up rowH18_ok rowH18_rep rowH17_link

theorem rowH16_rep : RepN (ptN (entryN rowH16 1)) (256 ^ 15 • Hb) :=
  row_up rowH17_ok rowH17_rep rowH16_link

theorem rowH15_rep : RepN (ptN (entryN rowH15 1)) (256 ^ 16 • Hb) :=
  row_up rowH16_ok rowH16_rep rowH15_link

theorem rowH14_rep : RepN (ptN (entryN rowH14 1)) (256 ^ 17 • Hb) :=
  row_up rowH15_ok rowH15_rep rowH14_link

theorem rowH13_rep : RepN (ptN (entryN rowH13 1)) (256 ^ 18 • Hb) :=
  row_up rowH14_ok rowH14_rep rowH13_link

theorem rowH12_rep : RepN (ptN (entryN rowH12 1)) (256 ^ 19 • Hb) :=
  row_up rowH13_ok rowH13_rep rowH12_link

theorem rowH11_rep : RepN (ptN (entryN rowH11 1)) (256 ^ 20 • Hb) :=
  row_up rowH12_ok rowH12_rep rowH11_link

theorem rowH10_rep : RepN (ptN (entryN rowH10 1)) (256 ^ 21 • Hb) :=
  row_up rowH11_ok rowH11_rep rowH10_link

theorem rowH9_rep : RepN (ptN (entryN rowH9 1)) (256 ^ 22 • Hb) :=
  row_up rowH10_ok rowH10_rep rowH9_link

theorem rowH8_rep : RepN (ptN (entryN rowH8 1)) (256 ^ 23 • Hb) :=
  row_up rowH9_ok rowH9_rep rowH8_link

theorem rowH7_rep : RepN (ptN (entryN rowH7 1)) (256 ^ 24 • Hb) :=
  row_up rowH8_ok rowH8_rep rowH7_link

theorem rowH6_rep : RepN (ptN (entryN rowH6 1)) (256 ^ 25 • Hb) :=
  row_up rowH7_ok rowH7_rep rowH6_link

theorem rowH5_rep : RepN (ptN (entryN rowH5 1)) (256 ^ 26 • Hb) :=
  row_up rowH6_ok rowH6_rep rowH5_link

theorem rowH4_rep : RepN (ptN (entryN rowH4 1)) (256 ^ 27 • Hb) :=
  row_up rowH5_ok rowH5_rep rowH4_link

theorem rowH3_rep : RepN (ptN (entryN rowH3 1)) (256 ^ 28 • Hb) :=
  row_up rowH4_ok rowH4_rep rowH3_link

theorem rowH2_rep : RepN (ptN (entryN rowH2 1)) (256 ^ 29 • Hb) :=
  row_up rowH3_ok rowH3_rep rowH2_link

theorem rowH1_rep : RepN (ptN (entryN rowH1 1)) (256 ^ 30 • Hb) :=
  row_up rowH2_ok rowH2_rep rowH1_link

theorem rowH0_rep : RepN (ptN (entryN rowH0 1)) (256 ^ 31 • Hb) :=
  row_up rowH1_ok rowH1_rep rowH0_link

theorem tabG_ok : TabOk (tabPoint rowsG) G := by
  intro b hb i
  rw [mul_comm, mul_nsmul]
  match b, hb with
  | 0, _ => exact rowOk_spec rowG0_ok rowG0_rep i
  | 1, _ => exact rowOk_spec rowG1_ok rowG1_rep i
  | 2, _ => exact rowOk_spec rowG2_ok rowG2_rep i
  | 3, _ => exact rowOk_spec rowG3_ok rowG3_rep i
  | 4, _ => exact rowOk_spec rowG4_ok rowG4_rep i
  | 5, _ => exact rowOk_spec rowG5_ok rowG5_rep i
  | 6, _ => exact rowOk_spec rowG6_ok rowG6_rep i
  | 7, _ => exact rowOk_spec rowG7_ok rowG7_rep i
  | 8, _ => exact rowOk_spec rowG8_ok rowG8_rep i
  | 9, _ => exact rowOk_spec rowG9_ok rowG9_rep i
  | 10, _ => exact rowOk_spec rowG10_ok rowG10_rep i
  | 11, _ => exact rowOk_spec rowG11_ok rowG11_rep i
  | 12, _ => exact rowOk_spec rowG12_ok rowG12_rep i
  | 13, _ => exact rowOk_spec rowG13_ok rowG13_rep i
  | 14, _ => exact rowOk_spec rowG14_ok rowG14_rep i
  | 15, _ => exact rowOk_spec rowG15_ok rowG15_rep i
  | 16, _ => exact rowOk_spec rowG16_ok rowG16_rep i
  | 17, _ => exact rowOk_spec rowG17_ok rowG17_rep i
  | 18, _ => exact rowOk_spec rowG18_ok rowG18_rep i
  | 19, _ => exact rowOk_spec rowG19_ok rowG19_rep i
  | 20, _ => exact rowOk_spec rowG20_ok rowG20_rep i
  | 21, _ => exact rowOk_spec rowG21_ok rowG21_rep i
  | 22, _ => exact rowOk_spec rowG22_ok rowG22_rep i
  | 23, _ => exact rowOk_spec rowG23_ok rowG23_rep i
  | 24, _ => exact rowOk_spec rowG24_ok rowG24_rep i
  | 25, _ => exact rowOk_spec rowG25_ok rowG25_rep i
  | 26, _ => exact rowOk_spec rowG26_ok rowG26_rep i
  | 27, _ => exact rowOk_spec rowG27_ok rowG27_rep i
  | 28, _ => exact rowOk_spec rowG28_ok rowG28_rep i
  | 29, _ => exact rowOk_spec rowG29_ok rowG29_rep i
  | 30, _ => exact rowOk_spec rowG30_ok rowG30_rep i
  | 31, _ => exact rowOk_spec rowG31_ok rowG31_rep i
  | n + 32, h => omega

theorem tabH_ok : TabOk (tabPoint rowsH) Hb := by
  intro b hb i
  rw [mul_comm, mul_nsmul]
  match b, hb with
  | 0, _ => exact rowOk_spec rowH0_ok rowH0_rep i
  | 1, _ => exact rowOk_spec rowH1_ok rowH1_rep i
  | 2, _ => exact rowOk_spec rowH2_ok rowH2_rep i
  | 3, _ => exact rowOk_spec rowH3_ok rowH3_rep i
  | 4, _ => exact rowOk_spec rowH4_ok rowH4_rep i
  | 5, _ => exact rowOk_spec rowH5_ok rowH5_rep i
  | 6, _ => exact rowOk_spec rowH6_ok rowH6_rep i
  | 7, _ => exact rowOk_spec rowH7_ok rowH7_rep i
  | 8, _ => exact rowOk_spec rowH8_ok rowH8_rep i
  | 9, _ => exact rowOk_spec rowH9_ok rowH9_rep i
  | 10, _ => exact rowOk_spec rowH10_ok rowH10_rep i
  | 11, _ => exact rowOk_spec rowH11_ok rowH11_rep i
  | 12, _ => exact rowOk_spec rowH12_ok rowH12_rep i
  | 13, _ => exact rowOk_spec rowH13_ok rowH13_rep i
  | 14, _ => exact rowOk_spec rowH14_ok rowH14_rep i
  | 15, _ => exact rowOk_spec rowH15_ok rowH15_rep i
  | 16, _ => exact rowOk_spec rowH16_ok rowH16_rep i
  | 17, _ => exact rowOk_spec rowH17_ok rowH17_rep i
  | 18, _ => exact rowOk_spec rowH18_ok rowH18_rep i
  | 19, _ => exact rowOk_spec rowH19_ok rowH19_rep i
  | 20, _ => exact rowOk_spec rowH20_ok rowH20_rep i
  | 21, _ => exact rowOk_spec rowH21_ok rowH21_rep i
  | 22, _ => exact rowOk_spec rowH22_ok rowH22_rep i
  | 23, _ => exact rowOk_spec rowH23_ok rowH23_rep i
  | 24, _ => exact rowOk_spec rowH24_ok rowH24_rep i
  | 25, _ => exact rowOk_spec rowH25_ok rowH25_rep i
  | 26, _ => exact rowOk_spec rowH26_ok rowH26_rep i
  | 27, _ => exact rowOk_spec rowH27_ok rowH27_rep i
  | 28, _ => exact rowOk_spec rowH28_ok rowH28_rep i
  | 29, _ => exact rowOk_spec rowH29_ok rowH29_rep i
  | 30, _ => exact rowOk_spec rowH30_ok rowH30_rep i
  | 31, _ => exact rowOk_spec rowH31_ok rowH31_rep i
  | n + 32, h => omega

theorem scalarBaseMult_G (k : Bytes) :
    scalarBaseMult (tabPoint rowsG) k = .ok (enc (setBytes k • G)) := scalarBaseMult_spec tabG_ok k

theorem scalarBaseMult_H (k : Bytes) :
    scalarBaseMult (tabPoint rowsH) k = .ok (enc (setBytes k • Hb)) := scalarBaseMult_spec tabH_ok k

/-! ### The second generator -/

/-- The x coordinate of `TestCurve.H` (specification; zksigma.go:52). -/
def hX : ℕ := 0x35ca4c6f77dcfb43606326491ce0333e251954ca12295a8cdccbaf5c91720e6e

/-- The y coordinate of `TestCurve.H` (specification; zksigma.go:52). -/
def hY : ℕ := 0xb8fa9185eef6c9468920e9bba7aaa2cf3ea5cbea07de683372737825640b9d46

theorem h_on_curve : (hY : F) ^ 2 = (hX : F) ^ 3 + 7 := on_curve (by decide +kernel)

/-- The point `TestCurve.H` (specification; zksigma.go:52). -/
def H : E := mk h_on_curve

theorem randomPointText_eq : randomPointText =
    [84, 104, 105, 115, 32, 105, 115, 32, 116, 104, 101, 32, 110, 101, 119, 32, 114, 97, 110, 100,
      111, 109, 32, 112, 111, 105, 110, 116, 32, 105, 110, 32, 122, 107, 115, 105, 103, 109, 97] := by
  decide +kernel

theorem RepN.eq {p : ℕ × ℕ × ℕ} {A B : E} (h1 : RepN p A) (h2 : RepN p B) : A = B :=
  RepF.unique h1 h2 rfl rfl

/-- The number that is hashed into the second generator, modulo N (specification; zksigma.go:51). -/
def hLog : ℕ := setBytes hashedString % curveN

theorem H_eq_smul : H = setBytes hashedString • G := by
  rw [← mod_N_smul]
  refine RepN.eq (p := (hX, hY, 1)) (RepN.of_mk h_on_curve) ?_
  exact checkMulG_rep (by decide +kernel) (by decide +kernel) (by decide +kernel)

theorem enc_G : enc G = (((curveGx : ℕ) : Int), ((curveGy : ℕ) : Int)) := by
  rw [G, enc_mk, ZMod.val_natCast, ZMod.val_natCast]; decide +kernel

theorem enc_H : enc H = (((hX : ℕ) : Int), ((hY : ℕ) : Int)) := by
  rw [H, enc_mk, ZMod.val_natCast, ZMod.val_natCast]; decide +kernel

theorem enc_Hb : enc Hb = (((hbX : ℕ) : Int), ((hbY : ℕ) : Int)) := by
  rw [Hb, enc_mk, ZMod.val_natCast, ZMod.val_natCast]; decide +kernel

end Zk.Curve
