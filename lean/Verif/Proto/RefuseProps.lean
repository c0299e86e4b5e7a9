import Verif.Proto.AbcProps
import Verif.Proto.DisjProps
import Verif.Proto.SigmaProps

/-! # Properties C33, C38, C42, C46 in terms of the points

What the provers compare with is what `Mult` returns.  Where that is the multiple of the point, the refusals can be
stated without `Mult`. -/

namespace Zk.Proto

open Zk

variable {cp : Params} {E : Type} [AddCommGroup E]

/-- C33 for bases at which `Mult` is scalar multiplication. -/
theorem C33_refuses_points (L : Lawful cp E) (hash : Bytes → Bytes) (b1 r1 b2 r2 : E) (x u : Int)
    (o1 : L.MultOk b1) (o2 : L.MultOk b2)
    (h : (r1 ≠ x • b1 ∧ r1 ≠ -(x • b1)) ∨ (r2 ≠ x • b2 ∧ r2 ≠ -(x • b2))) :
    ∃ e, newEquivalenceProof hash cp (L.pe b1) (L.pe r1) (L.pe b2) (L.pe r2) x u = .ok (none, some e) :=
  C33_refuses L hash b1 r1 b2 r2 _ _ x u (o1 x) (o2 x) h

/-- C38 for keys at which `Mult` is scalar multiplication. -/
theorem C38_refuses_points (L : Lawful cp E) (hash : Bytes → Bytes) (cm tok pk : E) (v r u1 u2 : Int)
    (o : L.MultOk pk)
    (h : (cm ≠ v • L.g + r • L.hb ∧ cm ≠ -(v • L.g + r • L.hb)) ∨ (tok ≠ r • pk ∧ tok ≠ -(r • pk))) :
    Refuses (newConsistencyProof hash cp (L.pe cm) (L.pe tok) (L.pe pk) v r u1 u2) :=
  C38_refuses L hash cm tok pk _ _ v r u1 u2 (L.pedCommitR_pe v r) (o r) h

/-- C42 for bases at which `Mult` is scalar multiplication; an unknown side is refused at all of them. -/
theorem C42_refuses_points (L : Lawful cp E) (hash : Bytes → Bytes) (b1 r1 b2 r2 : E) (x u1 u2 u3 : Int) (side : Side)
    (h : (side ≠ Left ∧ side ≠ Right) ∨ (side = Left ∧ L.MultOk b1 ∧ r1 ≠ x • b1 ∧ r1 ≠ -(x • b1)) ∨
      (side = Right ∧ L.MultOk b2 ∧ r2 ≠ x • b2 ∧ r2 ≠ -(x • b2))) :
    Refuses (newDisjunctiveProof hash cp (L.pe b1) (L.pe r1) (L.pe b2) (L.pe r2) x side u1 u2 u3) := by
  refine C42_refuses L hash b1 r1 b2 r2 _ _ x u1 u2 u3 side (L.mult_pe x b1) (L.mult_pe x b2) ?_
  rcases h with h | ⟨h1, o, h2⟩ | ⟨h1, o, h2⟩
  · exact .inl h
  · rw [(L.multOk_iff_eff b1).1 o]; exact .inr (.inl ⟨h1, h2⟩)
  · rw [(L.multOk_iff_eff b2).1 o]; exact .inr (.inr ⟨h1, h2⟩)

/-- C46 without hypothesis for wrong sides, and for a wrong token if `Mult` is scalar multiplication at the
commitment. -/
theorem C46_refuses_points (L : Lawful cp E) (hash : Bytes → Bytes) (cm tok : E) (v sk : Int) (side : Side)
    (rnd : ABCRand)
    (h : (v = 0 ∧ side ≠ Left) ∨ (v ≠ 0 ∧ side ≠ Right) ∨
      (v = 0 ∧ side = Left ∧ L.MultOk cm ∧ tok ≠ sk • cm ∧ tok ≠ -(sk • cm))) :
    Refuses (newABCProof hash cp (L.pe cm) (L.pe tok) v sk side rnd) := by
  refine C46_refuses L hash cm tok _ v sk side rnd (L.mult_pe sk cm) ?_
  rcases h with h | h | ⟨h1, h2, o, h3⟩
  · exact .inl h
  · exact .inr (.inl h)
  · rw [(L.multOk_iff_eff cm).1 o]; exact .inr (.inr ⟨h1, h2, h3⟩)

/-- The hypotheses can be met: 3 is not a special point of the toy curve of order 7, and 5 is not 6 * 3 up to sign. -/
example : Toy.lawful.MultOk 3 ∧ (5 : ZMod 7) ≠ (6 : Int) • 3 ∧ (5 : ZMod 7) ≠ -((6 : Int) • 3) := by
  refine ⟨?_, by decide, by decide⟩
  rw [Toy.lawful.multOk_iff_eff]
  have h1 : ¬ ((3 : ZMod 7) = Toy.lawful.g ∨ (3 : ZMod 7) = -Toy.lawful.g) := by decide
  have h2 : ¬ ((3 : ZMod 7) = Toy.lawful.h ∨ (3 : ZMod 7) = -Toy.lawful.h) := by decide
  rw [Lawful.eff, if_neg h1, if_neg h2]

end Zk.Proto
