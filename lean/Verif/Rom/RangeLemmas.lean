import Verif.Rom.Heavy
import Verif.Range.Props2

/-!
# Range proofs and a random hash function

What the verifier of a range proof hashes, and what two runs with the same questions show.
-/

namespace Zk.Rom

open Zk Zk.Proto

variable {cp : Params} {E : Type} [AddCommGroup E]

/-- The point `tot` of rangeproof.go:242-249. -/
def rangeTot (cp : Params) (idx : Nat) (proofE : Option Int) (rpt : RangeProofTuple) : Go ECPoint := do
  let lhs ← mult cp cp.H rpt.S
  let hp ← hpoint cp idx
  let nhp ← neg cp hp
  let rhs2 ← add cp rpt.C nhp
  let m ← mult cp rhs2 proofE
  let rhsXYNeg ← neg cp m
  add cp lhs rhsXYNeg

/-- What the verifier hashes for tuple `i`.  See rangeproof.go:251. -/
def rangeInner (cp : Params) (i : Nat) (p : Option RangeProof) : Bytes :=
  match p with
  | none => []
  | some pr =>
    match pr.ProofTuples[i]? with
    | none => []
    | some t =>
      match rangeTot cp i pr.ProofE t with
      | .ok tot => hashed [tot]
      | _ => []

/-- What the verifier hashes for `n` tuples.  See rangeproof.go:251. -/
def rangeInners (cp : Params) (n : Nat) (p : Option RangeProof) : List Bytes :=
  (List.range n).map fun i => rangeInner cp i p

/-- What the verifier hashes at the end, given the hashes for the tuples.  See rangeproof.go:253-257,
302-308. -/
def rangeOuter (cp : Params) (x : Option RangeProof × List Bytes) : Bytes :=
  match x.1 with
  | none => []
  | some pr =>
    match (pr.ProofTuples.zip x.2).mapM fun t => mult cp t.1.C (some (setBytes t.2 : Int)) with
    | .ok Rs => hashed Rs
    | _ => []

/-- The hash for tuple `i`, as a number.  See rangeproof.go:251-253. -/
def rangeHash (cp : Params) (hash : Bytes → Bytes) (i : Nat) (p : Option RangeProof) : Int :=
  (setBytes (hash (rangeInner cp i p)) : Int)

/-- A range proof of group elements.  See rangeproof.go:22-36. -/
def rangeOf (L : Lawful cp E) (n : Nat) (agg : ECPoint) (e : Int) (c : Nat → E) (s : Nat → Int) :
    Option RangeProof :=
  some ⟨agg, some e, (List.range n).map fun i => ⟨L.pe (c i), some (s i)⟩⟩

/-- The point that the verifier hashes for a tuple (`tot`, rangeproof.go:242-249). -/
noncomputable def effPoint (L : Lawful cp E) (i : Nat) (e : Int) (c : E) (s : Int) : E :=
  s • L.hb - e • L.eff (c - (2 ^ i : Int) • L.g)

theorem rangeVerify_inv (L : Lawful cp E) (hash : Bytes → Bytes) (n : Nat) (hn : n ≤ 64) (e : Int)
    (c : Nat → E) (s : Nat → Int) (agg : ECPoint) (comm : E)
    (h : rangeVerify hash cp (rangeOf L n agg e c s) (L.pe comm) = .ok accept) :
    e = L.hps hash ((List.range n).map fun i => L.hp hash (effPoint L i e (c i) (s i)) • L.eff (c i)) ∧
    (comm = ((List.range n).map c).sum ∨ comm = -((List.range n).map c).sum) := by
  have hany : ((List.range n).map fun i => (⟨L.pe (c i), some (s i)⟩ : RangeProofTuple)).any tupleNil
      = false := by simp [tupleNil, Lawful.pe, pt]
  have hRs : (((List.range n).map fun i => (⟨L.pe (c i), some (s i)⟩ : RangeProofTuple)).zipIdx.mapM
      fun t => verifyGen hash cp t.2 (some e) t.1)
      = .ok (((List.range n).map fun i =>
        L.hp hash (effPoint L i e (c i) (s i)) • L.eff (c i)).map L.pe) := by
    rw [zipIdx_map_range, List.mapM_map, List.map_map]
    refine mapM_ok_iff _ _ _ fun i hi => ?_
    have hi := List.mem_range.1 hi
    exact L.verifyGen_pe hash (show i < 64 by omega) e (s i) (c i)
  simp only [rangeOf, rangeVerify, hany, Bool.false_eq_true, if_false, hRs, Go.bind_ok, L.foldTotal_pe,
    finishVerify, L.hashAll_pe, cmpEq, Go.pure_eq] at h
  split_ifs at h with h1
  · simp [reject, accept] at h
  · obtain ⟨q, -, h⟩ := Go.bind_eq_ok.1 h
    cases q with
    | false => simp [reject, accept] at h
    | true =>
      simp only [Bool.not_true, Bool.false_eq_true, if_false, L.equal_pe, Go.bind_ok] at h
      split_ifs at h with h2
      · simp [reject, accept] at h
      · refine ⟨by simpa using h1, L.same_iff.1 (by simpa using h2)⟩

theorem rangeInner_of (L : Lawful cp E) (n : Nat) (hn : n ≤ 64) (e : Int) (c : Nat → E) (s : Nat → Int)
    (agg : ECPoint) {i : Nat} (hi : i < n) :
    rangeInner cp i (rangeOf L n agg e c s) = L.bytes (effPoint L i e (c i) (s i)) := by
  have h1 : ((List.range n).map fun i => (⟨L.pe (c i), some (s i)⟩ : RangeProofTuple))[i]? =
      some ⟨L.pe (c i), some (s i)⟩ := by simp [hi]
  have h2 : rangeTot cp i (some e) ⟨L.pe (c i), some (s i)⟩ = .ok (L.pe (effPoint L i e (c i) (s i))) := by
    simp only [rangeTot, L.multH, Go.bind_ok, L.hpoint_pe (show i < 64 by omega), L.neg_pe, L.add_pe,
      L.mult_pe, ← sub_eq_add_neg]
    rfl
  simp only [rangeInner, rangeOf, h1, h2]
  have := hashed_pe L [effPoint L i e (c i) (s i)]
  simpa using this

theorem rangeHash_of (L : Lawful cp E) (hash : Bytes → Bytes) (n : Nat) (hn : n ≤ 64) (e : Int)
    (c : Nat → E) (s : Nat → Int) (agg : ECPoint) {i : Nat} (hi : i < n) :
    rangeHash cp hash i (rangeOf L n agg e c s) = L.hp hash (effPoint L i e (c i) (s i)) := by
  rw [rangeHash, rangeInner_of L n hn e c s agg hi]
  rfl

theorem rangeOuter_of (L : Lawful cp E) (hash : Bytes → Bytes) (n : Nat) (hn : n ≤ 64) (e : Int)
    (c : Nat → E) (s : Nat → Int) (agg : ECPoint) :
    rangeOuter cp (rangeOf L n agg e c s, (rangeInners cp n (rangeOf L n agg e c s)).map hash) =
      (((List.range n).map fun i => L.hp hash (effPoint L i e (c i) (s i)) • L.eff (c i)).map L.bytes).flatten := by
  have h1 : (((List.range n).map fun i => (⟨L.pe (c i), some (s i)⟩ : RangeProofTuple)).zip
      ((rangeInners cp n (rangeOf L n agg e c s)).map hash)) = (List.range n).map fun i =>
        ((⟨L.pe (c i), some (s i)⟩ : RangeProofTuple), hash (rangeInner cp i (rangeOf L n agg e c s))) := by
    apply List.ext_getElem
    · simp [rangeInners]
    · intro i h1 h2; simp [rangeInners]
  have h2 : ((List.range n).map fun i => ((⟨L.pe (c i), some (s i)⟩ : RangeProofTuple),
        hash (rangeInner cp i (rangeOf L n agg e c s)))).mapM
        (fun t => mult cp t.1.C (some (setBytes t.2 : Int))) =
      .ok (((List.range n).map fun i => L.hp hash (effPoint L i e (c i) (s i)) • L.eff (c i)).map L.pe) := by
    rw [List.mapM_map, List.map_map]
    refine mapM_ok_iff _ _ _ fun i hi => ?_
    have hi := List.mem_range.1 hi
    have := rangeHash_of L hash n hn e c s agg hi
    rw [rangeHash] at this
    simp only [Function.comp]
    rw [L.mult_pe, this]
  rw [rangeOuter]
  change (match (((List.range n).map fun i => (⟨L.pe (c i), some (s i)⟩ : RangeProofTuple)).zip
      ((rangeInners cp n (rangeOf L n agg e c s)).map hash)).mapM
        (fun t => mult cp t.1.C (some (setBytes t.2 : Int))) with
    | .ok Rs => hashed Rs
    | _ => []) = _
  rw [h1, h2]
  exact hashed_pe L _

/-! ## The place of one point in the string -/

theorem length_bytes (L : Lawful cp E) (hs : Small L) (a : E) : (L.bytes a).length ≤ 64 := by
  have h1 := length_intBytes (L.enc_nonneg a).1 (hs a).1
  have h2 := length_intBytes (L.enc_nonneg a).2 (hs a).2
  rw [Lawful.bytes, List.length_append]
  omega

theorem length_flatten_le (L : Lawful cp E) (hs : Small L) (as : List E) :
    ((as.map L.bytes).flatten).length ≤ as.length * 64 := by
  induction as with
  | nil => simp
  | cons a as ih =>
    have := length_bytes L hs a
    simp only [List.map_cons, List.flatten_cons, List.length_append, List.length_cons]
    omega

/-- The number of bytes before point `i`, up to 4096 (specification; rangeproof.go:302-308). -/
def offset (L : Lawful cp E) (as : List E) (i : Nat) : Fin 4097 :=
  ⟨min 4096 (((as.take i).map L.bytes).flatten).length, Nat.lt_succ_of_le (Nat.min_le_left _ _)⟩

/-- Same string, same place, same sizes: same point. -/
theorem same_point (L : Lawful cp E) (hs : Small L) {as as' : List E} {i : Nat} (h : as.length ≤ 64)
    (h' : as'.length ≤ 64) {a a' : E} (ha : as[i]? = some a) (ha' : as'[i]? = some a')
    (hk : (as.map L.bytes).flatten = (as'.map L.bytes).flatten) (ho : offset L as i = offset L as' i)
    (h1 : size (L.pe a).X = size (L.pe a').X) (h2 : size (L.pe a).Y = size (L.pe a').Y) : a = a' := by
  have split : ∀ {as : List E} {a : E}, as[i]? = some a → (as.map L.bytes).flatten =
      ((as.take i).map L.bytes).flatten ++ (L.bytes a ++ ((as.drop (i + 1)).map L.bytes).flatten) := by
    intro as a ha
    obtain ⟨hi, rfl⟩ := List.getElem?_eq_some_iff.1 ha
    conv_lhs => rw [← List.take_append_drop i as, List.drop_eq_getElem_cons hi]
    simp only [List.map_append, List.map_cons, List.flatten_append, List.flatten_cons]
  have le : ∀ {as : List E}, as.length ≤ 64 → (((as.take i).map L.bytes).flatten).length ≤ 4096 := by
    intro as h
    have := length_flatten_le L hs (as.take i)
    rw [List.length_take] at this
    omega
  have hl : (((as.take i).map L.bytes).flatten).length = (((as'.take i).map L.bytes).flatten).length := by
    have := congrArg Fin.val ho
    simp only [offset] at this
    rwa [Nat.min_eq_right (le h), Nat.min_eq_right (le h')] at this
  rw [split ha, split ha'] at hk
  obtain ⟨-, hk⟩ := List.append_inj hk hl
  have hl1 := fun a => length_intBytes (L.enc_nonneg a).1 (hs a).1
  have hl2 := fun a => length_intBytes (L.enc_nonneg a).2 (hs a).2
  have e1 := size_eq (hl1 _) (hl1 _) h1
  have e2 := size_eq (hl2 _) (hl2 _) h2
  unfold Lawful.bytes at hk
  simp only [List.append_assoc] at hk
  obtain ⟨b1, hk⟩ := List.append_inj hk e1
  obtain ⟨b2, -⟩ := List.append_inj hk e2
  exact L.enc_inj _ _ (Prod.ext (intBytes_inj (L.enc_nonneg _).1 (L.enc_nonneg _).1 b1)
    (intBytes_inj (L.enc_nonneg _).2 (L.enc_nonneg _).2 b2))

/-! ## Two runs -/

/-- A 0 bit: same outer challenge, different inner challenges. -/
theorem zero_bit (L : Lawful cp E) {i : Nat} {c c' : E} {e s s' d d' : Int}
    (hT : hashedPoint L i e c s = hashedPoint L i e c' s') (hR : d • c = d' • c')
    (he : ¬ (cp.C.N : Int) ∣ e) (hd : ¬ (cp.C.N : Int) ∣ d' - d) :
    c = (L.inv e * L.inv (d' - d) * d' * (s - s')) • L.hb := by
  unfold hashedPoint at hT
  have h3 : e • (c - c') = (s - s') • L.hb := by
    linear_combination (norm := module) -hT
  have h5 : (d' - d) • c = d' • (c - c') := by
    linear_combination (norm := module) -hR
  calc c = L.inv (d' - d) • (d' - d) • c := (L.inv_smul hd c).symm
    _ = (L.inv (d' - d) * d') • (c - c') := by rw [h5, mul_smul]
    _ = (L.inv (d' - d) * d') • (L.inv e • e • (c - c')) := by rw [L.inv_smul he]
    _ = _ := by rw [h3]; module

/-- A 1 bit: same inner challenge, different outer challenges. -/
theorem one_bit (L : Lawful cp E) {i : Nat} {c c' : E} {e e' s s' d : Int}
    (hT : hashedPoint L i e c s = hashedPoint L i e' c' s') (hR : d • c = d • c')
    (hd : ¬ (cp.C.N : Int) ∣ d) (he : ¬ (cp.C.N : Int) ∣ e - e') :
    c = (2 ^ i : Int) • L.g + (L.inv (e - e') * (s - s')) • L.hb := by
  have : c = c' := by rw [← L.inv_smul hd c, hR, L.inv_smul hd]
  subst this
  exact C88_one_bit L i c e e' s s' he hT

/-- The outer and the inner challenge are the same: a relation between the two bases. -/
theorem same_hash (L : Lawful cp E) {i : Nat} {c c' : E} {e e' s s' : Int}
    (hT : hashedPoint L i e c s = hashedPoint L i e' c' s') (hR : e • c = e' • c')
    (h2 : ¬ (cp.C.N : Int) ∣ 2 ^ i * (e - e')) :
    L.g = (L.inv (2 ^ i * (e - e')) * (s' - s)) • L.hb := by
  unfold hashedPoint at hT
  have h3 : ((2 ^ i : Int) * (e - e')) • L.g = (s' - s) • L.hb := by
    linear_combination (norm := module) hT + hR
  rw [mul_smul, ← h3, L.inv_smul h2]

end Zk.Rom
