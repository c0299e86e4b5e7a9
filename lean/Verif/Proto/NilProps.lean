import Verif.Proto.NilLemmas
import Verif.Proto.SigmaProps
import Verif.Proto.Toy

/-!
# C162: missing parts of accepted proofs

"A Verify function accepts only if every coordinate and every number of the proof and of the statement is
there, so that an accepted proof can be serialized."
-/

namespace Zk.Proto

open Zk Zk.Ser

variable {cp : Params} {E : Type} [AddCommGroup E]

/-- The claim for the four kinds of proof with points that are not hashed: accepted proofs can be
serialized (gspfs.go:101-110, abc.go:225-240, rangeproof.go:325-337), and the commitment of an accepted
range proof is complete.  `InequalityProof` is `ABCProof` (inequality.go:11). -/
def AcceptedComplete (hash : Bytes → Bytes) (cp : Params) : Prop :=
  (∀ p A, gspfsVerify hash cp (some p) A = .ok accept → ∃ b, gspfsBytes p = .ok b) ∧
  (∀ p CM CMTok, abcVerify hash cp (some p) CM CMTok = .ok accept → ∃ b, abcBytes p = .ok b) ∧
  (∀ p comm, rangeVerify hash cp (some p) comm = .ok accept →
    (∃ b, rangeBytes p = .ok b) ∧ comm.X ≠ none ∧ comm.Y ≠ none)

/-- A base that has only the X coordinate of G, or of H, is as good as G, or H. -/
theorem C162_gspfs_half_base (L : Lawful cp E) (hash : Bytes → Bytes) (p : GSPFSProof) (A : ECPoint) :
    gspfsVerify hash cp (some { p with Base := ⟨cp.G.X, none⟩ }) A =
      gspfsVerify hash cp (some { p with Base := cp.G }) A ∧
    gspfsVerify hash cp (some { p with Base := ⟨cp.H.X, none⟩ }) A =
      gspfsVerify hash cp (some { p with Base := cp.H }) A := by
  have hm : ∀ (a : E) (s : Option Int), a = L.g ∨ a = L.h →
      mult cp ⟨(L.pe a).X, none⟩ s = mult cp (L.pe a) s := by
    intro a s ha
    rw [mult, mult, if_neg (by simp [Lawful.pe, pt]), if_neg (by simp [Lawful.pe, pt])]
    have he : ∀ q, equal ⟨(L.pe a).X, none⟩ q = equal (L.pe a) q := fun q => rfl
    rw [he, he]
    rcases ha with rfl | rfl
    · rw [L.G_pe, L.equal_pe, L.same_self]; rfl
    · rw [L.H_pe, L.equal_pe, L.same_self, L.G_pe, L.equal_pe]
      simp only [Go.bind_ok, if_true]
  constructor
  · simp only [gspfsVerify]
    rw [L.G_pe, hm L.g _ (.inl rfl)]
  · simp only [gspfsVerify]
    rw [L.H_pe, hm L.h _ (.inr rfl)]

/-- The token of an ABC or inequality proof is never looked at. -/
theorem C162_abc_token (hash : Bytes → Bytes) (cp : Params) (p : ABCProof) (T CM CMTok : ECPoint) :
    abcVerify hash cp (some { p with CToken := T }) CM CMTok = abcVerify hash cp (some p) CM CMTok ∧
    inequalityVerify hash cp (some { p with CToken := T }) CM CMTok =
      inequalityVerify hash cp (some p) CM CMTok := ⟨rfl, rfl⟩

/-- C162 is false, in each of the three ways: proofs whose `Bytes` panics are accepted, and so is a range
proof for a commitment with one coordinate. -/
theorem C162_refuted (L : Lawful cp E) (hash : Bytes → Bytes) :
    (∃ p A, gspfsVerify hash cp (some p) A = .ok accept ∧ p.Base.Y = none ∧ gspfsBytes p = .panic) ∧
    (∃ p CM CMTok, abcVerify hash cp (some p) CM CMTok = .ok accept ∧ p.CToken = nilPoint ∧
      abcBytes p = .panic) ∧
    (∃ p comm, rangeVerify hash cp (some p) comm = .ok accept ∧ p.ProofAggregate.Y = none ∧
      rangeBytes p = .panic ∧ comm.Y = none) ∧
    ¬ AcceptedComplete hash cp := by
  have h1 : ∃ p A, gspfsVerify hash cp (some p) A = .ok accept ∧ p.Base.Y = none ∧
      gspfsBytes p = .panic := by
    let c := L.chal hash [L.g, L.g]
    have h1 : gspfsVerify hash cp (some ⟨cp.G, L.pe L.g, some (1 - c), some c⟩) (L.pe L.g) =
        .ok accept := by
      rw [L.G_pe, L.gspfsVerify_pe_iff]
      refine ⟨rfl, ?_⟩
      rw [L.same_iff, L.eff_g]; left; module
    refine ⟨⟨⟨cp.G.X, none⟩, L.pe L.g, some (1 - c), some c⟩, L.pe L.g, ?_, rfl, ?_⟩
    · rw [← h1]
      exact (C162_gspfs_half_base L hash ⟨cp.G, L.pe L.g, some (1 - c), some c⟩ (L.pe L.g)).1
    · rw [L.G_pe]; rfl
  have h2 : ∃ p CM CMTok, abcVerify hash cp (some p) CM CMTok = .ok accept ∧ p.CToken = nilPoint ∧
      abcBytes p = .panic := by
    have hN := L.five_lt
    have e0 : L.eff 0 = 0 := by
      rw [Lawful.eff, if_neg, if_neg]
      · rintro (e | e)
        · exact L.h_ne e.symm
        · exact L.h_ne (by rw [← neg_neg L.h, ← e, neg_zero])
      · rintro (e | e)
        · exact L.g_ne e.symm
        · exact L.g_ne (by rw [← neg_neg L.g, ← e, neg_zero])
    have o0 : L.MultOk 0 := (L.multOk_iff_eff 0).2 e0
    obtain ⟨p, -, hp⟩ := C45_completeness_left_partial L hash 0 0 0 1 ⟨0, 0, 0, 0, 0, 0, 0, 0⟩
      (by rw [L.pedCommitR_pe]; congr 2; module) (by module)
      (by intro h; have := Int.le_of_dvd (by norm_num) h; omega) o0 o0 (by rw [zero_smul]; exact o0)
    refine ⟨{ p with CToken := nilPoint }, L.pe 0, L.pe 0, ?_, rfl, ?_⟩
    · rw [(C162_abc_token hash cp p nilPoint (L.pe 0) (L.pe 0)).1]; exact hp
    · have hw : writeECPoint nilPoint = .panic := rfl
      cases hb : abcBytes { p with CToken := nilPoint } with
      | panic => rfl
      | ok b =>
        simp only [abcBytes, Go.bind_eq_ok, hw] at hb
        obtain ⟨_, _, _, _, _, _, _, _, _, _, _, _, _, _, _, _, _, h, _⟩ := hb
        cases h
  have h3 : ∃ p comm, rangeVerify hash cp (some p) comm = .ok accept ∧ p.ProofAggregate.Y = none ∧
      rangeBytes p = .panic ∧ comm.Y = none := by
    obtain ⟨e, he⟩ : ∃ e, hashAll hash [] = .ok e := ⟨_, rfl⟩
    refine ⟨⟨⟨some 0, none⟩, some e, []⟩, ⟨some 0, none⟩, ?_, rfl, rfl, rfl⟩
    simp [rangeVerify, finishVerify, he, cmpEq, equal, Zero, pt, Go.bind_ok]
  refine ⟨h1, h2, h3, fun hc => ?_⟩
  obtain ⟨p, A, ha, -, hb⟩ := h1
  obtain ⟨b, hb'⟩ := hc.1 p A ha
  rw [hb] at hb'
  cases hb'

/-- C162, part: what an accepted proof and its statement do have.  Everything for equivalence, consistency
and disjunctive proofs; everything but the token for ABC and inequality proofs; everything but possibly
the Y coordinate of the base for GSPFS proofs, which can be missing only if its X coordinate is that of G
or H; for range proofs every tuple, the number E and the X coordinates of the aggregate and of the
commitment.  Missing: the rest, see `C162_refuted`. -/
theorem C162_present_partial (L : Lawful cp E) (hash : Bytes → Bytes) :
    (∀ p A, gspfsVerify hash cp (some p) A = .ok accept →
      ECPoint.Has A ∧ ECPoint.Has p.RandCommit ∧ p.HiddenValue ≠ none ∧ p.Challenge ≠ none ∧
      p.Base.X ≠ none ∧ (p.Base.Y = none → p.Base.X = cp.G.X ∨ p.Base.X = cp.H.X)) ∧
    (∀ p B1 R1 B2 R2, equivalenceVerify hash cp (some p) B1 R1 B2 R2 = .ok accept →
      (∀ q ∈ [B1, R1, B2, R2, p.UG, p.UH], ECPoint.Has q) ∧ p.Challenge ≠ none ∧
      p.HiddenValue ≠ none) ∧
    (∀ p CM CMTok PK, consistencyVerify hash cp (some p) CM CMTok PK = .ok accept →
      (∀ q ∈ [CM, CMTok, PK, p.T1, p.T2], ECPoint.Has q) ∧ p.Challenge ≠ none ∧ p.S1 ≠ none ∧
      p.S2 ≠ none) ∧
    (∀ p B1 R1 B2 R2, disjunctiveVerify hash cp (some p) B1 R1 B2 R2 = .ok accept →
      (∀ q ∈ [B1, R1, B2, R2, p.T1, p.T2], ECPoint.Has q) ∧ p.C ≠ none ∧ p.C1 ≠ none ∧ p.C2 ≠ none ∧
      p.S1 ≠ none ∧ p.S2 ≠ none) ∧
    (∀ p CM CMTok, abcVerify hash cp (some p) CM CMTok = .ok accept ∨
        inequalityVerify hash cp (some p) CM CMTok = .ok accept →
      (∀ q ∈ [CM, CMTok, p.B, p.C, p.T1, p.T2], ECPoint.Has q) ∧ p.Challenge ≠ none ∧ p.j ≠ none ∧
      p.k ≠ none ∧ p.l ≠ none ∧
      ∃ d, p.disjuncAC = some d ∧ ECPoint.Has d.T1 ∧ ECPoint.Has d.T2 ∧ d.C ≠ none ∧ d.C1 ≠ none ∧
        d.C2 ≠ none ∧ d.S1 ≠ none ∧ d.S2 ≠ none) ∧
    (∀ p comm s, VState.Reach hash cp p comm s → s.main = .ret (.ok accept) →
      (∀ t ∈ p.ProofTuples, ECPoint.Has t.C ∧ t.S ≠ none) ∧ p.ProofE ≠ none ∧
      p.ProofAggregate.X ≠ none ∧ comm.X ≠ none) := by
  have hX : ∀ a : E, a ≠ 0 → (L.pe a).X ≠ some 0 := by
    intro a ha e
    simp only [Lawful.pe, pt, Option.some.injEq] at e
    have : (L.enc a).1 = (L.enc 0).1 := by rw [e, L.enc_zero]
    rcases (L.enc_x _ _).1 this with e | e
    · exact ha e
    · exact ha (by rw [e, neg_zero])
  have hG : cp.G.X ≠ none ∧ cp.G.X ≠ some 0 := by
    rw [L.G_pe]; exact ⟨by simp [Lawful.pe, pt], hX _ L.g_ne⟩
  have hH : cp.H.X ≠ some 0 := by rw [L.H_pe]; exact hX _ L.h_ne
  refine ⟨fun p A h => gspfsVerify_acc hG.1 h, fun p B1 R1 B2 R2 h => equivalenceVerify_acc h,
    fun p CM CMTok PK h => consistencyVerify_acc h, fun p B1 R1 B2 R2 h => disjunctiveVerify_acc h,
    fun p CM CMTok h => abcVerify_acc (h.elim id id), fun p comm s hs hm => ?_⟩
  have hn := VState.acc_nonnil hs
  rw [hm] at hn
  have hn' : ∀ t ∈ p.ProofTuples, t.C.X ≠ none ∧ t.S ≠ none := by
    intro t ht
    have := hn rfl t ht
    rwa [tupleNil, Bool.or_eq_false_iff, Option.isNone_eq_false_iff, Option.isNone_eq_false_iff,
      Option.isSome_iff_ne_none, Option.isSome_iff_ne_none] at this
  exact rangeVerify_acc hG hH ((C54_schedules_partial cp hash p comm hn').1 s _ hs hm).symm

/-- C162, part: accepted equivalence, consistency and disjunctive proofs can be serialized. -/
theorem C162_serializable_partial (hash : Bytes → Bytes) (cp : Params) :
    (∀ p B1 R1 B2 R2, equivalenceVerify hash cp (some p) B1 R1 B2 R2 = .ok accept →
      ∃ b, equivalenceBytes p = .ok b) ∧
    (∀ p CM CMTok PK, consistencyVerify hash cp (some p) CM CMTok PK = .ok accept →
      ∃ b, consistencyBytes p = .ok b) ∧
    (∀ p B1 R1 B2 R2, disjunctiveVerify hash cp (some p) B1 R1 B2 R2 = .ok accept →
      ∃ b, disjunctiveBytes p = .ok b) := by
  have hp : ∀ q : ECPoint, ECPoint.Has q → ∃ b, writeECPoint q = .ok b := by
    rintro ⟨_ | x, _ | y⟩ h
    · exact absurd rfl h.1
    · exact absurd rfl h.1
    · exact absurd rfl h.2
    · exact ⟨_, rfl⟩
  have hb : ∀ q : Option Int, q ≠ none → ∃ b, writeBigInt q = .ok b := by
    rintro (_ | x) h
    · exact absurd rfl h
    · exact ⟨_, rfl⟩
  refine ⟨fun p B1 R1 B2 R2 h => ?_, fun p CM CMTok PK h => ?_, fun p B1 R1 B2 R2 h => ?_⟩
  · obtain ⟨h1, h2, h3⟩ := equivalenceVerify_acc h
    obtain ⟨a, ha⟩ := hp p.UG (h1 _ (by simp))
    obtain ⟨b, hb1⟩ := hp p.UH (h1 _ (by simp))
    obtain ⟨c, hc⟩ := hb _ h2
    obtain ⟨d, hd⟩ := hb _ h3
    simp only [equivalenceBytes, ha, hb1, hc, hd, Go.bind_ok]
    exact ⟨_, rfl⟩
  · obtain ⟨h1, h2, h3, h4⟩ := consistencyVerify_acc h
    obtain ⟨a, ha⟩ := hp p.T1 (h1 _ (by simp))
    obtain ⟨b, hb1⟩ := hp p.T2 (h1 _ (by simp))
    obtain ⟨c, hc⟩ := hb _ h2
    obtain ⟨d, hd⟩ := hb _ h3
    obtain ⟨e, he⟩ := hb _ h4
    simp only [consistencyBytes, ha, hb1, hc, hd, he, Go.bind_ok]
    exact ⟨_, rfl⟩
  · obtain ⟨h1, h2, h3, h4, h5, h6⟩ := disjunctiveVerify_acc h
    obtain ⟨a, ha⟩ := hp p.T1 (h1 _ (by simp))
    obtain ⟨b, hb1⟩ := hp p.T2 (h1 _ (by simp))
    obtain ⟨c, hc⟩ := hb _ h2
    obtain ⟨d, hd⟩ := hb _ h3
    obtain ⟨e, he⟩ := hb _ h4
    obtain ⟨f, hf⟩ := hb _ h5
    obtain ⟨g, hg⟩ := hb _ h6
    simp only [disjunctiveBytes, ha, hb1, hc, hd, he, hf, hg, Go.bind_ok]
    exact ⟨_, rfl⟩

/-- There are accepted proofs: on the toy curve of order 7, an equivalence proof for 4 = 6 * 3, 3 = 6 * 4. -/
example : equivalenceVerify (fun _ => [1]) Toy.params
    (some ⟨Toy.lawful.pe 6, Toy.lawful.pe 1, some 1, some 1⟩) (Toy.lawful.pe 3) (Toy.lawful.pe 4)
    (Toy.lawful.pe 4) (Toy.lawful.pe 3) = .ok accept := by decide +kernel

end Zk.Proto
