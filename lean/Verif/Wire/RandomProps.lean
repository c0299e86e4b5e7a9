import Verif.Wire.RandomModel
import Verif.Wire.Lemmas

/-!
# Property of `RandomUint64`
-/

namespace Zk.Wire

open Zk

/-! ### C148 -/

theorem randomUint64_eight (b0 b1 b2 b3 b4 b5 b6 b7 : UInt8) (rest : Bytes) :
    randomUint64 (b0 :: b1 :: b2 :: b3 :: b4 :: b5 :: b6 :: b7 :: rest) =
      .ok (b7.toUInt64 ||| (b6.toUInt64 <<< 8) ||| (b5.toUInt64 <<< 16) ||| (b4.toUInt64 <<< 24)
        ||| (b3.toUInt64 <<< 32) ||| (b2.toUInt64 <<< 40) ||| (b1.toUInt64 <<< 48)
        ||| (b0.toUInt64 <<< 56), none, rest) := by
  simp [randomUint64, uint64BE, readFull, beUint64, idx]

/-- `RandomUint64` takes eight bytes from the reader and returns them as a big-endian number; when the
reader fails before, it returns 0 and the error. -/
theorem C148_value (s : Bytes) :
    (∀ b rest : Bytes, b.length = 8 → s = b ++ rest →
      ∃ v, randomUint64 s = .ok (v, none, rest) ∧ v.toNat = setBytes b) ∧
    (s.length < 8 → ∃ e, randomUint64 s = .ok (0, some e, [])) := by
  constructor
  · rintro b rest hb rfl
    match b, hb with
    | [b0, b1, b2, b3, b4, b5, b6, b7], _ =>
      refine ⟨_, randomUint64_eight b0 b1 b2 b3 b4 b5 b6 b7 rest, ?_⟩
      rw [leUint64_toNat]
      simp only [setBytes, List.foldl_cons, List.foldl_nil]
      ring
  · intro h
    have : readFull 8 s = (s, some "EOF", []) := if_neg (by omega)
    exact ⟨_, by simp [randomUint64, uint64BE, this]; rfl⟩

/-- Every number is returned for exactly one string of eight bytes, so uniform bytes give a uniform
number. -/
theorem C148_uniform (v : UInt64) : ∃! b : Bytes, b.length = 8 ∧ randomUint64 b = .ok (v, none, []) := by
  have h := leUint64_put v
  refine ⟨[(v >>> 56).toUInt8, (v >>> 48).toUInt8, (v >>> 40).toUInt8, (v >>> 32).toUInt8,
    (v >>> 24).toUInt8, (v >>> 16).toUInt8, (v >>> 8).toUInt8, v.toUInt8], ⟨rfl, ?_⟩, ?_⟩
  · rw [randomUint64_eight, h]
  · rintro c ⟨hc, he⟩
    obtain ⟨w, hw, hv⟩ := (C148_value c).1 c [] hc (by simp)
    have key : ∀ b : Bytes, b.length = 8 → setBytes b = v.toNat → b = c := by
      intro b hb hs
      rw [he] at hw
      injection hw with hw
      injection hw with hw
      rw [← hw, ← hs, setBytes_eq_ofDigits, setBytes_eq_ofDigits] at hv
      have := Nat.ofDigits_inj_of_len_eq (b := 256) (by decide)
        (L1 := b.reverse.map UInt8.toNat) (L2 := c.reverse.map UInt8.toNat) (by simp [hb, hc])
        (by simp only [List.mem_map]; rintro _ ⟨x, -, rfl⟩; exact x.toNat_lt)
        (by simp only [List.mem_map]; rintro _ ⟨x, -, rfl⟩; exact x.toNat_lt) hv
      have := List.map_injective_iff.2 (fun x y h => UInt8.toNat_inj.1 h) this
      exact List.reverse_injective this
    symm
    refine key _ rfl ?_
    have h2 := congrArg UInt64.toNat h
    rw [leUint64_toNat] at h2
    rw [← h2]
    simp only [setBytes, List.foldl_cons, List.foldl_nil]
    ring

example : randomUint64 [0, 0, 0, 0, 0, 0, 1, 2, 9] = .ok (258, none, [9]) ∧
    randomUint64 [1, 2, 3] = .ok (0, some "EOF", []) := by decide +kernel

end Zk.Wire
