import Verif.Rom.Heavy
import Verif.Rom.Sim
import Verif.Rom.Props
import Verif.Proto.AbcProps

/-!
# Running the prover of an ABC proof again

The verifier of an ABC proof hashes two strings: one for the proof and one for the disjunctive proof in it.
-/

namespace Zk.Rom

open Zk Zk.Proto

variable {cp : Params} {E : Type} [AddCommGroup E]

/-! ## Several new oracles -/

/-- An answer in one of several new oracles rarely is bad for another answer. -/
theorem prob_fresh_of {Ω : Type} [Fintype Ω] [Nonempty Ω] {S : Finset Bytes} (n : Nat) (Bad : Ω → Ω → Prop)
    (κ : ℝ) (hκ : ∀ ω, num (Bad ω) ≤ κ) (j : Fin n) (x : S) (a : (Fin n → S → Ω) → Ω)
    (ha : ∀ G G' : Fin n → S → Ω, (∀ i, i ≠ j → G i = G' i) → a G = a G') :
    (prob fun G : Fin n → S → Ω => Bad (a G) (G j x)) ≤ κ / Fintype.card Ω := by
  classical
  have hX : (0 : ℝ) < Fintype.card (Fin n → S → Ω) := Nat.cast_pos.2 Fintype.card_pos
  have hW : (0 : ℝ) < Fintype.card Ω := Nat.cast_pos.2 Fintype.card_pos
  obtain ⟨ω₀⟩ : Nonempty Ω := inferInstance
  have h3 := num_hit Bad κ hκ ((j, x) : Fin n × S)
    (fun G => a (Function.update (Function.curry G) j fun _ => ω₀)) (by
      intro G G' h
      refine congrArg a ?_
      funext i
      by_cases hi : i = j
      · subst hi; simp
      · simp only [Function.update_of_ne hi]
        funext y
        exact h _ fun he => hi (congrArg Prod.fst he))
  rw [← num_equiv (Equiv.curry (Fin n) S Ω).symm, Fintype.card_congr (Equiv.curry (Fin n) S Ω)] at h3
  unfold prob
  rw [div_le_div_iff₀ hX hW]
  refine le_of_eq_of_le (congrArg (· * _) (num_congr fun G => ?_)) h3
  rw [ha G (Function.update (Function.curry ((Equiv.curry (Fin n) S Ω).symm G)) j fun _ => ω₀) fun i hi => by
    simp only [Function.update_of_ne hi]; rfl]
  rfl

theorem prob_forall {X : Type} [Fintype X] (n : Nat) (P : X → Prop) :
    (prob fun g : Fin n → X => ∀ i, P (g i)) = prob P ^ n := by
  unfold prob
  rw [num_forall, div_pow, Fintype.card_fun, Fintype.card_fin, Nat.cast_pow]

/-! ## The sizes of several points -/

/-- The sizes of the coordinates.  See crypto.go:151-153. -/
def sizes (p : ECPoint) : Fin 33 × Fin 33 := (size p.X, size p.Y)

/-- The bytes of points and their sizes determine the points. -/
theorem same_list (L : Lawful cp E) (hs : Small L) : ∀ {as as' : List E},
    (as.map L.bytes).flatten = (as'.map L.bytes).flatten →
    (as.map fun a => sizes (L.pe a)) = (as'.map fun a => sizes (L.pe a)) → as = as'
  | [], [], _, _ => rfl
  | [], _ :: _, _, h => by simp at h
  | _ :: _, [], _, h => by simp at h
  | a :: as, b :: bs, hk, h => by
    simp only [List.map_cons, List.cons.injEq, sizes, Prod.mk.injEq] at h
    simp only [List.map_cons, List.flatten_cons] at hk
    have hl1 := fun a => length_intBytes (L.enc_nonneg a).1 (hs a).1
    have hl2 := fun a => length_intBytes (L.enc_nonneg a).2 (hs a).2
    have e1 := size_eq (hl1 _) (hl1 _) h.1.1
    have e2 := size_eq (hl2 _) (hl2 _) h.1.2
    have e : (L.bytes a).length = (L.bytes b).length := by
      unfold Lawful.bytes
      rw [List.length_append, List.length_append, e1, e2]
    obtain ⟨b1, b2⟩ := List.append_inj hk e
    rw [one_point L hs b1 h.1.1, same_list L hs b2 (by simpa [sizes] using h.2)]

/-! ## The questions of the verifier -/

/-- What `Verify` hashes.  See abc.go:183-186. -/
def abcAsk (cp : Params) (CM CMTok : ECPoint) : Option ABCProof → Bytes
  | none => []
  | some p => hashed [cp.G, cp.H, CM, CMTok, p.B, p.C, p.T1, p.T2]

/-- What `Verify` of the disjunctive proof hashes.  See abc.go:177 and disjunctive.go:170-172. -/
def abcInnerAsk (cp : Params) (CM CMTok : ECPoint) : Option ABCProof → Bytes
  | none => []
  | some p =>
    match sub cp p.C cp.G with
    | .ok D => disjunctiveAsk CM CMTok cp.H D p.disjuncAC
    | _ => []

/-- The points of the proof are on the curve and `Verify` accepts.  See abc.go:173-222. -/
def AbcWins (L : Lawful cp E) (cm tok : E) (p : Option ABCProof) (hash : Bytes → Bytes) : Prop :=
  (∃ pr d B C t1 t2 d1 d2, p = some pr ∧ pr.B = L.pe B ∧ pr.C = L.pe C ∧ pr.T1 = L.pe t1 ∧
    pr.T2 = L.pe t2 ∧ pr.disjuncAC = some d ∧ d.T1 = L.pe d1 ∧ d.T2 = L.pe d2) ∧
    abcVerify hash cp p (L.pe cm) (L.pe tok) = .ok accept

/-- The content of an ABC proof of group elements.  See abc.go:44-55 and disjunctive.go:45-53. -/
structure AbcData (E : Type) where
  B : E
  C : E
  t1 : E
  t2 : E
  d1 : E
  d2 : E
  c : Int
  j : Int
  k : Int
  l : Int
  dc : Int
  dc1 : Int
  dc2 : Int
  ds1 : Int
  ds2 : Int
  ct : ECPoint

/-- The disjunctive proof.  See disjunctive.go:45-53. -/
def AbcData.disj (L : Lawful cp E) (x : AbcData E) : Option DisjunctiveProof :=
  some ⟨L.pe x.d1, L.pe x.d2, some x.dc, some x.dc1, some x.dc2, some x.ds1, some x.ds2⟩

/-- The proof.  See abc.go:44-55. -/
def AbcData.proof (L : Lawful cp E) (x : AbcData E) : Option ABCProof :=
  some ⟨L.pe x.B, L.pe x.C, L.pe x.t1, L.pe x.t2, some x.c, some x.j, some x.k, some x.l, x.ct, x.disj L⟩

theorem abc_inv (L : Lawful cp E) {cm tok : E} {p : Option ABCProof} {hash : Bytes → Bytes}
    (h : AbcWins L cm tok p hash) : ∃ x : AbcData E, p = x.proof L ∧
      disjunctiveVerify hash cp (x.disj L) (L.pe cm) (L.pe tok) (L.pe L.h) (L.pe (x.C - L.g)) = .ok accept ∧
      L.chal hash [cm, tok, L.h, x.C - L.g, x.d1, x.d2] = x.dc ∧
      L.chal hash [L.g, L.h, cm, tok, x.B, x.C, x.t1, x.t2] = x.c ∧
      L.same (x.c • L.eff cm + x.t1) (x.j • L.g + x.k • L.eff tok) = true ∧
      L.same (x.c • L.eff x.C + x.t2) (x.j • L.eff x.B + x.l • L.hb) = true := by
  obtain ⟨⟨⟨B', C', T1, T2, c, j, k, l, ct, d'⟩, d, B, C, t1, t2, d1, d2, rfl, h1, h2, h3, h4, h5, h6, h7⟩, hv⟩ := h
  simp only at h1 h2 h3 h4 h5
  subst h1 h2 h3 h4 h5
  have hcons := (C31_verify_consistent_partial hash cp).2.2.2.1 (some d) (L.pe cm) (L.pe tok) (L.pe L.h)
    (L.pe (C - L.g))
  have hd : disjunctiveVerify hash cp (some d) (L.pe cm) (L.pe tok) (L.pe L.h) (L.pe (C - L.g)) =
      .ok accept := by
    simp only [abcVerify, deref_some, Go.bind_ok, L.G_pe, L.H_pe, L.sub_pe] at hv
    cases hd : disjunctiveVerify hash cp (some d) (L.pe cm) (L.pe tok) (L.pe L.h) (L.pe (C - L.g)) with
    | panic => rw [hd] at hv; simp at hv
    | ok st =>
      rw [hd] at hv hcons
      rcases hcons st.1 st.2 rfl with ⟨h1, h2⟩ | ⟨h1, h2⟩
      · exact congrArg Go.ok (Prod.ext h1 h2)
      · have hs : st.2.isSome = true := Option.isSome_iff_ne_none.2 h2
        simp [hs, reject, accept] at hv
  obtain ⟨e1, e2, dc, dc1, dc2, ds1, ds2, hp, hc⟩ := disjunctive_inv L ⟨⟨d, d1, d2, rfl, h6, h7⟩, hd⟩
  have hrest := hv
  simp only [abcVerify, deref_some, Go.bind_ok, L.G_pe, L.H_pe, L.sub_pe, hd, accept, Option.isSome_none,
    Bool.false_eq_true, if_false, L.challengeOf₈] at hrest
  cases c with
  | none => simp [cmpEq] at hrest
  | some c =>
  cases j with
  | none =>
    simp only [cmpEq, Go.bind_ok, L.mult_pe, L.add_pe, mult_pe_none] at hrest
    split at hrest <;> simp [reject] at hrest
  | some j =>
  cases k with
  | none =>
    simp only [cmpEq, Go.bind_ok, L.mult_pe, L.add_pe, mult_pe_none] at hrest
    split at hrest <;> simp [reject] at hrest
  | some k =>
  cases l with
  | none =>
    simp only [cmpEq, Go.bind_ok, L.mult_pe, L.add_pe, mult_pe_none, L.equal_pe] at hrest
    split at hrest
    · simp [reject] at hrest
    · split at hrest <;> simp [reject] at hrest
  | some l =>
    obtain ⟨-, a1, a2, a3⟩ := (L.abcVerify_iff ..).1 hv
    rw [hp] at hd
    exact ⟨⟨B, C, t1, t2, e1, e2, c, j, k, l, dc, dc1, dc2, ds1, ds2, ct⟩, by rw [hp]; rfl, hd, hc, a1, a2, a3⟩

theorem abcAsk_proof (L : Lawful cp E) (cm tok : E) (x : AbcData E) :
    abcAsk cp (L.pe cm) (L.pe tok) (x.proof L) =
      hashed ([L.g, L.h, cm, tok, x.B, x.C, x.t1, x.t2].map L.pe) := by
  simp only [abcAsk, AbcData.proof, L.G_pe, L.H_pe, List.map_cons, List.map_nil]

theorem abcInnerAsk_proof (L : Lawful cp E) (cm tok : E) (x : AbcData E) :
    abcInnerAsk cp (L.pe cm) (L.pe tok) (x.proof L) =
      hashed ([cm, tok, L.h, x.C - L.g, x.d1, x.d2].map L.pe) := by
  simp only [abcInnerAsk, AbcData.proof, L.G_pe, L.H_pe, L.sub_pe, disjunctiveAsk, AbcData.disj, List.map_cons,
    List.map_nil]

/-! ## The extractor -/

/-- What the extractor computes from two proofs for the value.  See abc.go:193-219. -/
noncomputable def jLogs (L : Lawful cp E) : Option ABCProof → Option ABCProof → List Int
  | some ⟨_, _, _, _, some c, some j, _, _, _, _⟩, some ⟨_, _, _, _, some c', some j', _, _, _, _⟩ =>
    L.extract j c j' c'
  | _, _ => []

/-- What the extractor computes from two proofs for the inverse of the key.  See abc.go:193-207. -/
noncomputable def kLogs (L : Lawful cp E) : Option ABCProof → Option ABCProof → List Int
  | some ⟨_, _, _, _, some c, _, some k, _, _, _⟩, some ⟨_, _, _, _, some c', _, some k', _, _, _⟩ =>
    L.extract k c k' c'
  | _, _ => []

/-- What the extractor computes from two proofs for the randomness.  See abc.go:209-219. -/
noncomputable def lLogs (L : Lawful cp E) : Option ABCProof → Option ABCProof → List Int
  | some ⟨_, _, _, _, some c, _, _, some l, _, _⟩, some ⟨_, _, _, _, some c', _, _, some l', _, _⟩ =>
    L.extract l c l' c'
  | _, _ => []

/-- Three proofs give numbers with CM = v G + k CMTok and C = ±(v B + l H), for B and C of the first one.
See abc.go:193-219. -/
def AbcOpened (L : Lawful cp E) (cm tok : E) (P : Fin 3 → Option ABCProof) : Prop :=
  ∃ pr B C, P 0 = some pr ∧ pr.B = L.pe B ∧ pr.C = L.pe C ∧ ∃ p q, p ≠ q ∧
    ∃ v ∈ jLogs L (P p) (P q), ∃ κ ∈ kLogs L (P p) (P q), ∃ ℓ ∈ lLogs L (P p) (P q),
      L.eff cm = v • L.g + κ • L.eff tok ∧
      (L.eff C = v • L.eff B + ℓ • L.hb ∨ L.eff C = -(v • L.eff B + ℓ • L.hb))

/-- The disjunctive proof in an ABC proof.  See abc.go:44-55. -/
def disjOf : Option ABCProof → Option DisjunctiveProof
  | none => none
  | some p => p.disjuncAC

/-- Two proofs give a number that relates the token to the commitment or C - G to H, for C of the first one.
See abc.go:177. -/
def AbcInnerOpened (L : Lawful cp E) (cm tok : E) (p p' : Option ABCProof) : Prop :=
  (∃ x ∈ leftLogs L (disjOf p) (disjOf p'), L.eff tok = x • L.eff cm) ∨
  ∃ pr C, p = some pr ∧ pr.C = L.pe C ∧ ∃ y ∈ rightLogs L (disjOf p) (disjOf p'), L.eff (C - L.g) = y • L.hb

theorem abc_extract (L : Lawful cp E) {cm tok : E} (x : Fin 3 → AbcData E)
    (hB : ∀ i, (x i).B = (x 0).B) (hC : ∀ i, (x i).C = (x 0).C) (h1 : ∀ i, (x i).t1 = (x 0).t1)
    (h2 : ∀ i, (x i).t2 = (x 0).t2) (hr : ∀ i, 0 ≤ (x i).c ∧ (x i).c < cp.C.N)
    (hc : Function.Injective fun i => (x i).c)
    (e1 : ∀ i, L.same ((x i).c • L.eff cm + (x i).t1) ((x i).j • L.g + (x i).k • L.eff tok) = true)
    (e2 : ∀ i, L.same ((x i).c • L.eff (x i).C + (x i).t2) ((x i).j • L.eff (x i).B + (x i).l • L.hb) = true) :
    AbcOpened L cm tok fun i => (x i).proof L := by
  have h1' := fun i => L.same_sign ((L.same_comm _ _).trans (e1 i))
  have h2' := fun i => L.same_sign ((L.same_comm _ _).trans (e2 i))
  choose e he e1 using h1'
  choose f hf f1 using h2'
  simp only [hB, hC, h1, h2] at e1 f1
  obtain ⟨p, q, hpq, hs⟩ := sign_pigeonhole (fun i => e i * f i) fun i => (he i).mul (hf i)
  have hd := Lawful.not_dvd_of_ne (hr p) (hr q) fun h => hpq (hc h)
  refine ⟨_, (x 0).B, (x 0).C, rfl, rfl, rfl, p, q, hpq, _, L.mem_extract (he p) (he q), _,
    L.mem_extract (he p) (he q), _, L.mem_extract (he p) (he q), ?_, ?_⟩
  · have h3 : ((x p).c - (x q).c) • L.eff cm = (e p * (x p).j - e q * (x q).j) • L.g +
        (e p * (x p).k - e q * (x q).k) • L.eff tok := by
      linear_combination (norm := module) e1 p - e1 q
    rw [mul_smul, mul_smul, ← smul_add, ← h3, L.inv_smul hd]
  · have h3 : ((x p).c - (x q).c) • L.eff (x 0).C = (f p * (x p).j - f q * (x q).j) • L.eff (x 0).B +
        (f p * (x p).l - f q * (x q).l) • L.hb := by
      linear_combination (norm := module) f1 p - f1 q
    have h4 : L.eff (x 0).C = L.inv ((x p).c - (x q).c) • ((f p * (x p).j - f q * (x q).j) • L.eff (x 0).B +
        (f p * (x p).l - f q * (x q).l) • L.hb) := by rw [← h3, L.inv_smul hd]
    rcases sign_products (he p) (hf p) (he q) (hf q) hs with ⟨a, b⟩ | ⟨a, b⟩
    · left; rw [h4, a, b]; module
    · right; rw [h4, a, b]; module

/-! ## Running it again -/

/-- The prover, and then the question of the verifier of the disjunctive proof (specification; abc.go:177). -/
def abcAll (cp : Params) (CM CMTok : ECPoint) (A : Adv (Option ABCProof)) : Adv (Option ABCProof × List Bytes) :=
  A.andAsk fun p => [abcInnerAsk cp CM CMTok p]

/-- The other question of the verifier (specification; abc.go:183-186). -/
def abcLast (cp : Params) (CM CMTok : ECPoint) (x : Option ABCProof × List Bytes) : Bytes :=
  abcAsk cp CM CMTok x.1

open Classical in
/-- A run with new answers from one of the questions of the verifier on (specification; abc.go:177-186). -/
noncomputable def abcRerun (cp : Params) (CM CMTok : ECPoint) (A : Adv (Option ABCProof)) (S : Finset Bytes)
    (question : Option ABCProof → Bytes) (f g : S → Word) : Option ABCProof :=
  A.run (hashOf S (rerun (abcLast cp CM CMTok) (abcAll cp CM CMTok A) S
    (((abcAll cp CM CMTok A).trace (abcLast cp CM CMTok) (hashOf S f)).idxOf (question (A.run (hashOf S f)))) f g))

/-- A successful run in which a question comes at a given place and some points have given sizes
(specification; abc.go:173-222). -/
def AbcAt (L : Lawful cp E) (cm tok : E) (A : Adv (Option ABCProof)) (question : Option ABCProof → Bytes)
    (points : AbcData E → List E) {Q m : Nat} (t : Fin Q × (Fin m → Fin 33 × Fin 33)) (hash : Bytes → Bytes) :
    Prop :=
  open Classical in
  ∃ x : AbcData E, A.run hash = x.proof L ∧ AbcWins L cm tok (A.run hash) hash ∧
    ((abcAll cp (L.pe cm) (L.pe tok) A).trace (abcLast cp (L.pe cm) (L.pe tok)) hash).idxOf
      (question (A.run hash)) = t.1 ∧
    ((points x).map fun a => sizes (L.pe a)) = List.ofFn t.2

theorem abcAll_count (L : Lawful cp E) (cm tok : E) (A : Adv (Option ABCProof)) (q : Nat)
    (hq : ∀ h, A.count h ≤ q) (h : Bytes → Bytes) : (abcAll cp (L.pe cm) (L.pe tok) A).count h ≤ q + 1 := by
  rw [abcAll, A.count_andAsk]
  have := hq h
  simp only [List.length_singleton]
  omega

theorem ask_mem_trace (cm tok : ECPoint) (A : Adv (Option ABCProof)) (h : Bytes → Bytes) :
    abcAsk cp cm tok (A.run h) ∈ (abcAll cp cm tok A).trace (abcLast cp cm tok) h := by
  have := (abcAll cp cm tok A).crit_mem (crit := abcLast cp cm tok) h
  rw [abcLast, abcAll, A.run_andAsk] at this
  exact this

theorem innerAsk_mem_trace (cm tok : ECPoint) (A : Adv (Option ABCProof)) (h : Bytes → Bytes) :
    abcInnerAsk cp cm tok (A.run h) ∈ (abcAll cp cm tok A).trace (abcLast cp cm tok) h :=
  A.mem_trace_andAsk _ _ h List.mem_cons_self

theorem abcAt_of_wins (L : Lawful cp E) (cm tok : E) (A : Adv (Option ABCProof)) (q : Nat)
    (hq : ∀ h, A.count h ≤ q) {question : Option ABCProof → Bytes} {points : AbcData E → List E} {m : Nat}
    (hm : ∀ x, (points x).length = m) (hash : Bytes → Bytes)
    (hmem : question (A.run hash) ∈
      (abcAll cp (L.pe cm) (L.pe tok) A).trace (abcLast cp (L.pe cm) (L.pe tok)) hash)
    (h : AbcWins L cm tok (A.run hash) hash) :
    ∃ t : Fin (q + 2) × (Fin m → Fin 33 × Fin 33), AbcAt L cm tok A question points t hash := by
  classical
  obtain ⟨x, hx, -⟩ := abc_inv L h
  have hl := List.idxOf_lt_length_of_mem hmem
  rw [Adv.length_trace] at hl
  have := abcAll_count L cm tok A q hq hash
  obtain rfl := hm x
  refine ⟨(⟨_, lt_of_lt_of_le hl (Nat.succ_le_succ this)⟩, fun i => sizes (L.pe ((points x).get i))), x, hx, h, rfl,
    ?_⟩
  apply List.ext_getElem <;> simp

theorem proof_inj (L : Lawful cp E) {x x' : AbcData E} (h : x.proof L = x'.proof L) : x = x' := by
  cases x
  cases x'
  simp only [AbcData.proof, AbcData.disj, Option.some.injEq, ABCProof.mk.injEq, DisjunctiveProof.mk.injEq,
    L.pe_inj] at h
  simp only [AbcData.mk.injEq]
  tauto

/-- Runs that agree up to a question of the verifier, and have the same sizes, have the same question. -/
theorem abc_same (L : Lawful cp E) (cm tok : E) (A : Adv (Option ABCProof)) {S : Finset Bytes}
    {question : Option ABCProof → Bytes} {points : AbcData E → List E} {Q m : Nat}
    {t : Fin Q × (Fin m → Fin 33 × Fin 33)} {f g : S → Word}
    (hmem : ∀ hash, question (A.run hash) ∈
      (abcAll cp (L.pe cm) (L.pe tok) A).trace (abcLast cp (L.pe cm) (L.pe tok)) hash)
    {x : AbcData E} (hx : A.run (hashOf S f) = x.proof L)
    (h : AbcAt L cm tok A question points t (hashOf S f))
    (h' : AbcAt L cm tok A question points t (hashOf S (rerun (abcLast cp (L.pe cm) (L.pe tok))
      (abcAll cp (L.pe cm) (L.pe tok) A) S t.1 f g))) :
    ∃ x' : AbcData E,
      abcRerun cp (L.pe cm) (L.pe tok) A S question f g = x'.proof L ∧
      AbcWins L cm tok (x'.proof L) (hashOf S (rerun (abcLast cp (L.pe cm) (L.pe tok))
        (abcAll cp (L.pe cm) (L.pe tok) A) S t.1 f g)) ∧
      question (x'.proof L) = question (x.proof L) ∧
      ((points x').map fun a => sizes (L.pe a)) = ((points x).map fun a => sizes (L.pe a)) ∧
      ∀ y : S, y.1 = question (x.proof L) → rerun (abcLast cp (L.pe cm) (L.pe tok))
        (abcAll cp (L.pe cm) (L.pe tok) A) S t.1 f g y = g y := by
  obtain ⟨y, hy, hw, hi, hz⟩ := h
  obtain rfl := proof_inj L (hx.symm.trans hy)
  obtain ⟨x', hx', hw', hi', hz'⟩ := h'
  have hq := question_rerun le_rfl (hmem _) (hmem _) hi hi'
  refine ⟨x', ?_, hx' ▸ hw', ?_, hz'.trans hz.symm, fun y hy => ?_⟩
  · rw [abcRerun, hi]; exact hx'
  · rw [← hx', ← hx]; exact hq
  · refine rerun_new y ?_
    rw [hy, ← hx]
    exact hi.ge

/-- The points that the proof adds to what `Verify` hashes.  See abc.go:183-186. -/
def outerPoints (x : AbcData E) : List E := [x.B, x.C, x.t1, x.t2]

/-- The points that the proof adds to what `Verify` of the disjunctive proof hashes.  See abc.go:177. -/
def innerPoints (L : Lawful cp E) (x : AbcData E) : List E := [x.C - L.g, x.d1, x.d2]

theorem same_outer (L : Lawful cp E) (hs : Small L) {cm tok : E} {x x' : AbcData E}
    (hq : abcAsk cp (L.pe cm) (L.pe tok) (x'.proof L) = abcAsk cp (L.pe cm) (L.pe tok) (x.proof L))
    (hz : ((outerPoints x').map fun a => sizes (L.pe a)) = ((outerPoints x).map fun a => sizes (L.pe a))) :
    x'.B = x.B ∧ x'.C = x.C ∧ x'.t1 = x.t1 ∧ x'.t2 = x.t2 := by
  rw [abcAsk_proof, abcAsk_proof, hashed_pe, hashed_pe] at hq
  have h1 : ∀ x : AbcData E, [L.g, L.h, cm, tok, x.B, x.C, x.t1, x.t2] =
      [L.g, L.h, cm, tok] ++ outerPoints x := fun _ => rfl
  rw [h1, h1 x, List.map_append, List.map_append, List.flatten_append, List.flatten_append] at hq
  have := same_list L hs (List.append_cancel_left hq) hz
  simpa [outerPoints] using this

theorem same_inner (L : Lawful cp E) (hs : Small L) {cm tok : E} {x x' : AbcData E}
    (hq : abcInnerAsk cp (L.pe cm) (L.pe tok) (x'.proof L) = abcInnerAsk cp (L.pe cm) (L.pe tok) (x.proof L))
    (hz : ((innerPoints L x').map fun a => sizes (L.pe a)) = ((innerPoints L x).map fun a => sizes (L.pe a))) :
    x'.C = x.C ∧ x'.d1 = x.d1 ∧ x'.d2 = x.d2 := by
  rw [abcInnerAsk_proof, abcInnerAsk_proof, hashed_pe, hashed_pe] at hq
  have h1 : ∀ x : AbcData E, [cm, tok, L.h, x.C - L.g, x.d1, x.d2] =
      [cm, tok, L.h] ++ innerPoints L x := fun _ => rfl
  rw [h1, h1 x, List.map_append, List.map_append, List.flatten_append, List.flatten_append] at hq
  have := same_list L hs (List.append_cancel_left hq) hz
  simpa [innerPoints] using this

/-- Three runs. -/
theorem abc_of_runs (L : Lawful cp E) (hs : Small L) (cm tok : E) (A : Adv (Option ABCProof)) {Q : Nat}
    {S : Finset Bytes} {t : Fin Q × (Fin 4 → Fin 33 × Fin 33)} {f : S → Word} {G : Fin 2 → S → Word}
    (h : AbcAt L cm tok A (abcAsk cp (L.pe cm) (L.pe tok)) outerPoints t (hashOf S f))
    (h' : ∀ i, AbcAt L cm tok A (abcAsk cp (L.pe cm) (L.pe tok)) outerPoints t
      (hashOf S (rerun (abcLast cp (L.pe cm) (L.pe tok)) (abcAll cp (L.pe cm) (L.pe tok) A) S t.1 f (G i))))
    (y : S) (hy : y.1 = abcAsk cp (L.pe cm) (L.pe tok) (A.run (hashOf S f)))
    (b1 : ∀ i, ¬ SameChal cp.C.N (f y) (G i y)) (b2 : ¬ SameChal cp.C.N (G 0 y) (G 1 y)) :
    AbcOpened L cm tok ![A.run (hashOf S f),
      abcRerun cp (L.pe cm) (L.pe tok) A S (abcAsk cp (L.pe cm) (L.pe tok)) f (G 0),
      abcRerun cp (L.pe cm) (L.pe tok) A S (abcAsk cp (L.pe cm) (L.pe tok)) f (G 1)] := by
  have hw : AbcWins L cm tok (A.run (hashOf S f)) (hashOf S f) := by
    obtain ⟨_, _, hw, _⟩ := h
    exact hw
  obtain ⟨x, hx, -, -, c1, c2, c3⟩ := abc_inv L hw
  have hsame := fun i => abc_same L cm tok A (ask_mem_trace _ _ A) hx h (h' i)
  choose x' hx' hw' hq hz hn using hsame
  have hinv := fun i => abc_inv L (hw' i)
  have hpts := fun i => same_outer L hs (hq i) (hz i)
  have hch : x.c = chalOf cp.C.N (f y) := by
    rw [← c1]
    exact chal_hashOf L S f y _ (by rw [hy, hx, abcAsk_proof])
  have hch' : ∀ i, (x' i).c = chalOf cp.C.N (G i y) := by
    intro i
    obtain ⟨z, hzz, -, -, d1, -, -⟩ := hinv i
    obtain rfl := proof_inj L hzz
    rw [← d1, chal_hashOf L S _ y _ (by rw [hy, hx, ← hq i, abcAsk_proof]), hn i y (by rw [hy, hx])]
  have hs' : ∀ i, L.same ((x' i).c • L.eff cm + (x' i).t1) ((x' i).j • L.g + (x' i).k • L.eff tok) = true ∧
      L.same ((x' i).c • L.eff (x' i).C + (x' i).t2) ((x' i).j • L.eff (x' i).B + (x' i).l • L.hb) = true := by
    intro i
    obtain ⟨z, hzz, -, -, -, d2, d3⟩ := hinv i
    obtain rfl := proof_inj L hzz
    exact ⟨d2, d3⟩
  have hr : ∀ ω : Word, 0 ≤ chalOf cp.C.N ω ∧ chalOf cp.C.N ω < cp.C.N := fun ω =>
    ⟨Int.emod_nonneg _ (by have := L.N_pos; omega), Int.emod_lt_of_pos _ (by have := L.N_pos; omega)⟩
  have key := abc_extract L (cm := cm) (tok := tok) ![x, x' 0, x' 1]
    (by intro i; fin_cases i <;> simp [hpts]) (by intro i; fin_cases i <;> simp [hpts])
    (by intro i; fin_cases i <;> simp [hpts]) (by intro i; fin_cases i <;> simp [hpts])
    (by intro i; fin_cases i <;> simp [hch, hch', hr])
    (by
      intro i j hij
      have e1 : ∀ i, chalOf cp.C.N (f y) ≠ chalOf cp.C.N (G i y) := b1
      have e2 : chalOf cp.C.N (G 0 y) ≠ chalOf cp.C.N (G 1 y) := b2
      fin_cases i <;> fin_cases j <;> simp_all [Ne.symm])
    (by intro i; fin_cases i <;> simp [c2, hs']) (by intro i; fin_cases i <;> simp [c3, hs'])
  have hP : (fun i => ((![x, x' 0, x' 1] : Fin 3 → AbcData E) i).proof L) =
      ![A.run (hashOf S f),
        abcRerun cp (L.pe cm) (L.pe tok) A S (abcAsk cp (L.pe cm) (L.pe tok)) f (G 0),
        abcRerun cp (L.pe cm) (L.pe tok) A S (abcAsk cp (L.pe cm) (L.pe tok)) f (G 1)] := by
    funext i
    fin_cases i <;> simp [hx, hx']
  rw [← hP]
  exact key

/-- Two runs. -/
theorem abc_inner_of_runs (L : Lawful cp E) (hs : Small L) (cm tok : E) (A : Adv (Option ABCProof)) {Q : Nat}
    {S : Finset Bytes} {t : Fin Q × (Fin 3 → Fin 33 × Fin 33)} {f g : S → Word}
    (h : AbcAt L cm tok A (abcInnerAsk cp (L.pe cm) (L.pe tok)) (innerPoints L) t (hashOf S f))
    (h' : AbcAt L cm tok A (abcInnerAsk cp (L.pe cm) (L.pe tok)) (innerPoints L) t
      (hashOf S (rerun (abcLast cp (L.pe cm) (L.pe tok)) (abcAll cp (L.pe cm) (L.pe tok) A) S t.1 f g)))
    (y : S) (hy : y.1 = abcInnerAsk cp (L.pe cm) (L.pe tok) (A.run (hashOf S f)))
    (b : ¬ SameChal cp.C.N (f y) (g y)) :
    AbcInnerOpened L cm tok (A.run (hashOf S f))
      (abcRerun cp (L.pe cm) (L.pe tok) A S (abcInnerAsk cp (L.pe cm) (L.pe tok)) f g) := by
  have hw : AbcWins L cm tok (A.run (hashOf S f)) (hashOf S f) := by
    obtain ⟨_, _, hw, _⟩ := h
    exact hw
  obtain ⟨x, hx, v, c, -⟩ := abc_inv L hw
  obtain ⟨x', hx', hw', hq, hz, hn⟩ := abc_same L cm tok A (innerAsk_mem_trace _ _ A) hx h h'
  obtain ⟨z, hzz, v', c', -⟩ := abc_inv L hw'
  obtain rfl := proof_inj L hzz
  obtain ⟨hC, h1, h2⟩ := same_inner L hs hq hz
  have hch : x.dc = chalOf cp.C.N (f y) := by
    rw [← c]
    exact chal_hashOf L S f y _ (by rw [hy, hx, abcInnerAsk_proof])
  have hch' : x'.dc = chalOf cp.C.N (g y) := by
    rw [← c', chal_hashOf L S _ y _ (by rw [hy, hx, ← hq, abcInnerAsk_proof]), hn y (by rw [hy, hx])]
  rw [AbcData.disj, hC, h1, h2] at v'
  rw [AbcData.disj] at v
  rw [hx, hx']
  rcases C43_soundness L _ _ cm tok L.h (x.C - L.g) x.d1 x.d2 _ _ _ _ _ _ _ _ _ _
    (by rw [hch, hch']; exact b) v v' with ⟨w, hw1, hw2, -⟩ | ⟨w, hw1, hw2, -⟩
  · exact .inl ⟨w, hw1, hw2⟩
  · exact .inr ⟨_, x.C, rfl, rfl, w, hw1, by rw [hw2, L.eff_h]⟩

/-! ## What it means -/

/-- What the extractor finds out in four runs: CM = v G + k CMTok with explicit numbers, and the token is an
explicit multiple of CM, or v is not zero, or there is an explicit relation between G and H
(specification; abc.go:173-222). -/
def AbcKnown (L : Lawful cp E) (cm tok : E) (P : Fin 3 → Option ABCProof) (p' : Option ABCProof) : Prop :=
  ∃ p q, p ≠ q ∧ ∃ v ∈ jLogs L (P p) (P q), ∃ κ ∈ kLogs L (P p) (P q),
    L.eff cm = v • L.g + κ • L.eff tok ∧
    ((∃ x ∈ leftLogs L (disjOf (P 0)) (disjOf p'), L.eff tok = x • L.eff cm) ∨ ¬ (cp.C.N : Int) ∣ v ∨
      ∃ ℓ ∈ lLogs L (P p) (P q), ∃ y ∈ rightLogs L (disjOf (P 0)) (disjOf p'), ∃ s1 s2 s3 : Int,
        |s1| ≤ 2 ∧ |s2| ≤ 1 ∧ |s3| ≤ 1 ∧ L.g + s1 • L.h + (s2 * y + s3 * ℓ) • L.hb = 0)

theorem eff_cases (L : Lawful cp E) (a : E) :
    ((a = L.g ∨ a = -L.g) ∧ L.eff a = L.g) ∨ ((a = L.h ∨ a = -L.h) ∧ L.eff a = L.hb) ∨ L.eff a = a := by
  unfold Lawful.eff
  split
  · exact .inl ⟨‹_›, rfl⟩
  · split
    · exact .inr (.inl ⟨‹_›, rfl⟩)
    · exact .inr (.inr rfl)

theorem abc_relation (L : Lawful cp E) (C : E) (y ℓ : Int) (h1 : L.eff (C - L.g) = y • L.hb)
    (h2 : L.eff C = ℓ • L.hb ∨ L.eff C = -(ℓ • L.hb)) : ∃ s1 s2 s3 : Int,
      |s1| ≤ 2 ∧ |s2| ≤ 1 ∧ |s3| ≤ 1 ∧ L.g + s1 • L.h + (s2 * y + s3 * ℓ) • L.hb = 0 := by
  rcases eff_cases L C with ⟨hC, e⟩ | ⟨hC, e⟩ | e
  · rw [e] at h2
    rcases h2 with h2 | h2
    · exact ⟨0, 0, -1, by norm_num, by norm_num, by norm_num, by
        linear_combination (norm := module) h2⟩
    · exact ⟨0, 0, 1, by norm_num, by norm_num, by norm_num, by
        linear_combination (norm := module) h2⟩
  all_goals rcases eff_cases L (C - L.g) with ⟨hD, d⟩ | ⟨hD, d⟩ | d
  · exact ⟨0, -1, 0, by norm_num, by norm_num, by norm_num, by
      linear_combination (norm := module) h1 - d⟩
  · rcases hC with hC | hC <;> rcases hD with hD | hD
    · exact ⟨0, 0, 0, by norm_num, by norm_num, by norm_num, by
        linear_combination (norm := module) hC - hD⟩
    · exact ⟨-2, 0, 0, by norm_num, by norm_num, by norm_num, by
        linear_combination (norm := module) hC - hD⟩
    · exact ⟨2, 0, 0, by norm_num, by norm_num, by norm_num, by
        linear_combination (norm := module) hC - hD⟩
    · exact ⟨0, 0, 0, by norm_num, by norm_num, by norm_num, by
        linear_combination (norm := module) hC - hD⟩
  · rcases hC with hC | hC
    · exact ⟨-1, 1, 0, by norm_num, by norm_num, by norm_num, by
        linear_combination (norm := module) hC - h1 + d⟩
    · exact ⟨1, 1, 0, by norm_num, by norm_num, by norm_num, by
        linear_combination (norm := module) hC - h1 + d⟩
  · exact ⟨0, -1, 0, by norm_num, by norm_num, by norm_num, by
      linear_combination (norm := module) h1 - d⟩
  · rw [e] at h2
    rcases h2 with h2 | h2 <;> rcases hD with hD | hD
    · exact ⟨1, 0, -1, by norm_num, by norm_num, by norm_num, by
        linear_combination (norm := module) h2 - hD⟩
    · exact ⟨-1, 0, -1, by norm_num, by norm_num, by norm_num, by
        linear_combination (norm := module) h2 - hD⟩
    · exact ⟨1, 0, 1, by norm_num, by norm_num, by norm_num, by
        linear_combination (norm := module) h2 - hD⟩
    · exact ⟨-1, 0, 1, by norm_num, by norm_num, by norm_num, by
        linear_combination (norm := module) h2 - hD⟩
  · rw [e] at h2
    rcases h2 with h2 | h2
    · exact ⟨0, 1, -1, by norm_num, by norm_num, by norm_num, by
        linear_combination (norm := module) h2 - h1 + d⟩
    · exact ⟨0, 1, 1, by norm_num, by norm_num, by norm_num, by
        linear_combination (norm := module) h2 - h1 + d⟩

theorem abc_known (L : Lawful cp E) {cm tok : E} {P : Fin 3 → Option ABCProof} {p' : Option ABCProof}
    (h1 : AbcOpened L cm tok P) (h2 : AbcInnerOpened L cm tok (P 0) p') : AbcKnown L cm tok P p' := by
  obtain ⟨pr, B, C, hP, hB, hC, p, q, hpq, v, hv, κ, hκ, ℓ, hℓ, e1, e2⟩ := h1
  refine ⟨p, q, hpq, v, hv, κ, hκ, e1, ?_⟩
  rcases h2 with h2 | ⟨pr', C', hP', hC', y, hy, e3⟩
  · exact .inl h2
  · right
    by_cases hd : (cp.C.N : Int) ∣ v
    · right
      obtain rfl : pr = pr' := Option.some_injective _ (hP.symm.trans hP')
      obtain rfl : C = C' := L.pe_inj.1 (hC.symm.trans hC')
      have hz : v • L.eff B = 0 := by
        obtain ⟨m, rfl⟩ := hd
        rw [mul_comm, mul_smul, L.N_smul, smul_zero]
      rw [hz, zero_add] at e2
      exact ⟨ℓ, hℓ, y, hy, abc_relation L C y ℓ e3 e2⟩
    · exact .inl hd

theorem prob_two {X Y Z : Type} [Fintype X] [Fintype Y] [Fintype Z] [Nonempty Y] [Nonempty Z]
    {P : X → Prop} {Q : X → Y → Prop} {R : X → Z → Prop} {a b : ℝ} (hb : 0 ≤ b)
    (h : ∀ x, P x → a ≤ prob (Q x) ∧ b ≤ prob (R x)) :
    prob P * (a * b) ≤ prob fun t : X × Y × Z => P t.1 ∧ Q t.1 t.2.1 ∧ R t.1 t.2.2 := by
  classical
  have hY : (0 : ℝ) < Fintype.card Y := Nat.cast_pos.2 Fintype.card_pos
  have hZ : (0 : ℝ) < Fintype.card Z := Nat.cast_pos.2 Fintype.card_pos
  have h1 : ∀ x, (if P x then (1 : ℝ) else 0) * (a * b) * (Fintype.card Y * Fintype.card Z) ≤
      num fun t : Y × Z => P x ∧ Q x t.1 ∧ R x t.2 := by
    intro x
    by_cases hx : P x
    · obtain ⟨h1, h2⟩ := h x hx
      have h3 : (num fun t : Y × Z => P x ∧ Q x t.1 ∧ R x t.2) = num (Q x) * num (R x) := by
        simp only [hx, true_and, num_eq_sum, Fintype.sum_prod_type, Finset.sum_mul_sum]
        refine Finset.sum_congr rfl fun y _ => Finset.sum_congr rfl fun z _ => ?_
        by_cases hq : Q x y <;> by_cases hr : R x z <;> simp [hq, hr]
      rw [h3, if_pos hx, one_mul]
      rw [prob, le_div_iff₀ hY] at h1
      rw [prob, le_div_iff₀ hZ] at h2
      calc a * b * (Fintype.card Y * Fintype.card Z) = a * Fintype.card Y * (b * Fintype.card Z) := by ring
        _ ≤ _ := mul_le_mul h1 h2 (by positivity) num_nonneg
    · rw [if_neg hx, zero_mul, zero_mul]
      exact num_nonneg
  have h2 := Finset.sum_le_sum fun x (_ : x ∈ Finset.univ) => h1 x
  rw [← Finset.sum_mul, ← Finset.sum_mul, ← num_eq_sum, ← num_prod (X := X) (Y := Y × Z)
    (fun t => P t.1 ∧ Q t.1 t.2.1 ∧ R t.1 t.2.2)] at h2
  rcases isEmpty_or_nonempty X with hX | hX
  · have : prob P = 0 := by simp [prob]
    rw [this, zero_mul]
    exact prob_nonneg
  · have hX : (0 : ℝ) < Fintype.card X := Nat.cast_pos.2 Fintype.card_pos
    unfold prob
    rw [Fintype.card_prod, Fintype.card_prod, Nat.cast_mul, Nat.cast_mul, le_div_iff₀ (by positivity)]
    refine le_of_eq_of_le ?_ h2
    field_simp

end Zk.Rom
