import Verif.Rom.RangeLemmas

/-!
# Running the prover of a range proof again

For every bit the prover is run again with new answers from the later of two questions on: the one for
the bit and the one for the whole proof.
-/

namespace Zk.Rom

open Zk Zk.Proto

variable {cp : Params} {E : Type} [AddCommGroup E]

/-- The prover, and then the first `n` questions of the verifier (specification; rangeproof.go:251). -/
def rangeAll (cp : Params) (n : Nat) (A : Adv (Option RangeProof)) : Adv (Option RangeProof × List Bytes) :=
  A.andAsk (rangeInners cp n)

/-- The proof has `n` tuples of group elements, for which `ok` holds, and `Verify` accepts it.
See rangeproof.go:262-322. -/
def RangeWins (L : Lawful cp E) (ok : (Nat → E) → Prop) (n : Nat) (comm : E) (p : Option RangeProof)
    (hash : Bytes → Bytes) : Prop :=
  ∃ agg e c s, p = rangeOf L n agg e c s ∧ ok c ∧ rangeVerify hash cp p (L.pe comm) = .ok accept

open Classical in
/-- The place of the last question of the verifier on which bit `i` depends (specification;
rangeproof.go:251, 302-308). -/
noncomputable def rangePlace (cp : Params) (n : Nat) (A : Adv (Option RangeProof)) (i : Nat)
    (hash : Bytes → Bytes) : Nat :=
  max (((rangeAll cp n A).trace (rangeOuter cp) hash).idxOf (rangeOuter cp ((rangeAll cp n A).run hash)))
    (((rangeAll cp n A).trace (rangeOuter cp) hash).idxOf (rangeInner cp i (A.run hash)))

/-- The second run for bit `i`: new answers from the last question on which the bit depends
(specification; rangeproof.go:251, 302-308). -/
noncomputable def rangeRerun (cp : Params) (n : Nat) (A : Adv (Option RangeProof)) (S : Finset Bytes) (i : Nat)
    (f g : S → Word) : S → Word :=
  rerun (rangeOuter cp) (rangeAll cp n A) S (rangePlace cp n A i (hashOf S f)) f g

/-- What the extractor computes for bit `i`, by the formulas `φ`, from the two runs and the hashes for the bit
(specification; rangeproof.go:239-260). -/
noncomputable def rangeExtract {X : Type} (cp : Params)
    (φ : Nat → Option RangeProof → Option RangeProof → Int → Int → X) (n : Nat)
    (A : Adv (Option RangeProof)) (S : Finset Bytes) (i : Nat) (f g : S → Word) : X :=
  φ i (A.run (hashOf S f)) (A.run (hashOf S (rangeRerun cp n A S i f g)))
    (rangeHash cp (hashOf S f) i (A.run (hashOf S f)))
    (rangeHash cp (hashOf S (rangeRerun cp n A S i f g)) i
      (A.run (hashOf S (rangeRerun cp n A S i f g))))

/-- The formulas `φ` open a bit, in the sense of `op`, from two proofs in which the verifier hashes the same
points for the bit: with the same outer challenge e and a new inner challenge that is not in a list, or with a
new outer challenge that is not in a list, where the inner challenges are equal or are the outer ones
(specification; rangeproof.go:239-260, 302-308). -/
def BitRule {X : Type} (L : Lawful cp E) (ok : (Nat → E) → Prop) (n : Nat)
    (φ : Nat → Option RangeProof → Option RangeProof → Int → Int → X)
    (op : Nat → Option RangeProof → X → Prop) (badI badO : Nat → Int → List Int) : Prop :=
  ∀ i < n, ∀ agg e c s agg' e' c' s' d d', ok c → ok c' → ¬ (cp.C.N : Int) ∣ e → ¬ (cp.C.N : Int) ∣ d →
    effPoint L i e (c i) (s i) = effPoint L i e' (c' i) (s' i) → d • L.eff (c i) = d' • L.eff (c' i) →
    (e' = e ∧ d' % (cp.C.N : Int) ∉ badI i d ∨
      e' % (cp.C.N : Int) ∉ badO i e ∧ (d' = d ∨ d = e ∧ d' = e')) →
    op i (rangeOf L n agg e c s) (φ i (rangeOf L n agg e c s) (rangeOf L n agg' e' c' s') d d')

/-- What the fork needs to know about a run: the places of the two questions, the place of the point in the
hashed string, and sizes (specification; rangeproof.go:251, 302-308). -/
abbrev RangeTag (Q : Nat) := (Fin Q × Fin Q) × Fin 4097 × Fin 33 × Fin 33 × Fin 33

/-- The points that are hashed at the end.  See rangeproof.go:253-257. -/
noncomputable def rangePoints (L : Lawful cp E) (n : Nat) (hash : Bytes → Bytes) (e : Int) (c : Nat → E) (s : Nat → Int) :
    List E :=
  (List.range n).map fun i => L.hp hash (effPoint L i e (c i) (s i)) • L.eff (c i)

open Classical in
/-- A successful run with a given tag (specification; rangeproof.go:262-322). -/
def RangeAt (L : Lawful cp E) (ok : (Nat → E) → Prop) (n : Nat) (comm : E) (A : Adv (Option RangeProof)) (Q i : Nat)
    (t : RangeTag Q) (hash : Bytes → Bytes) : Prop :=
  ∃ agg e c s, A.run hash = rangeOf L n agg e c s ∧ ok c ∧
    rangeVerify hash cp (A.run hash) (L.pe comm) = .ok accept ∧
    ((rangeAll cp n A).trace (rangeOuter cp) hash).idxOf (rangeOuter cp ((rangeAll cp n A).run hash)) =
      t.1.1 ∧
    ((rangeAll cp n A).trace (rangeOuter cp) hash).idxOf (rangeInner cp i (A.run hash)) = t.1.2 ∧
    offset L (rangePoints L n hash e c s) i = t.2.1 ∧
    size (L.pe (L.hp hash (effPoint L i e (c i) (s i)) • L.eff (c i))).X = t.2.2.1 ∧
    size (L.pe (L.hp hash (effPoint L i e (c i) (s i)) • L.eff (c i))).Y = t.2.2.2.1 ∧
    size (L.pe (effPoint L i e (c i) (s i))).X = t.2.2.2.2

theorem rangeAll_run (n : Nat) (A : Adv (Option RangeProof)) (hash : Bytes → Bytes) :
    (rangeAll cp n A).run hash = (A.run hash, (rangeInners cp n (A.run hash)).map hash) :=
  A.run_andAsk _ hash

theorem rangeAll_count (n q : Nat) (A : Adv (Option RangeProof)) (hq : ∀ h, A.count h ≤ q)
    (hash : Bytes → Bytes) : (rangeAll cp n A).count hash ≤ q + n := by
  rw [rangeAll, A.count_andAsk]
  have := hq hash
  simp only [rangeInners, List.length_map, List.length_range]
  omega

theorem inner_mem (n : Nat) (A : Adv (Option RangeProof)) (hash : Bytes → Bytes) {i : Nat} (hi : i < n) :
    rangeInner cp i (A.run hash) ∈ (rangeAll cp n A).trace (rangeOuter cp) hash :=
  A.mem_trace_andAsk _ _ hash (List.mem_map.2 ⟨i, List.mem_range.2 hi, rfl⟩)

theorem rangeAt_of_wins (L : Lawful cp E) (ok : (Nat → E) → Prop) (n : Nat) (comm : E) (A : Adv (Option RangeProof)) (q : Nat)
    (hq : ∀ h, A.count h ≤ q) {i : Nat} (hi : i < n) (hash : Bytes → Bytes)
    (h : RangeWins L ok n comm (A.run hash) hash) : ∃ t, RangeAt L ok n comm A (q + n + 1) i t hash := by
  classical
  obtain ⟨agg, e, c, s, hp, ho, hv⟩ := h
  have hl : ∀ b ∈ (rangeAll cp n A).trace (rangeOuter cp) hash,
      ((rangeAll cp n A).trace (rangeOuter cp) hash).idxOf b < q + n + 1 := by
    intro b hb
    have h1 := List.idxOf_lt_length_of_mem hb
    rw [Adv.length_trace] at h1
    have := rangeAll_count (cp := cp) n q A hq hash
    omega
  exact ⟨((⟨_, hl _ ((rangeAll cp n A).crit_mem hash)⟩, ⟨_, hl _ (inner_mem n A hash hi)⟩), _, _, _, _),
    agg, e, c, s, hp, ho, hv, rfl, rfl, rfl, rfl, rfl, rfl⟩

/-- An answer as a number. -/
theorem setBytes_hashOf {S : Finset Bytes} (N : Nat) (f : S → Word) (x : S) :
    ((setBytes (hashOf S f x.1) : Nat) : Int) % (N : Int) = chalOf N (f x) := by
  rw [hashOf, toHash, dif_pos x.2]
  rfl

theorem hashOf_congr {S : Finset Bytes} {f f' : S → Word} (x : S) (h : f' x = f x) :
    hashOf S f' x.1 = hashOf S f x.1 := by
  rw [hashOf, toHash, dif_pos x.2, hashOf, toHash, dif_pos x.2]
  exact congrArg bytesOf h

theorem not_dvd_sub {N : Nat} {a b : Int} (h : ¬ a % N = b % N) : ¬ (N : Int) ∣ a - b :=
  fun hd => h (Int.emod_eq_emod_iff_emod_sub_eq_zero.2 (Int.emod_eq_zero_of_dvd hd))

theorem not_dvd_of {N : Nat} {a : Int} (h : ¬ a % N = 0) : ¬ (N : Int) ∣ a :=
  fun hd => h (Int.emod_eq_zero_of_dvd hd)

open Classical in
/-- Two successful runs with the same tag open the bit. -/
theorem bit_of_runs {X : Type} (L : Lawful cp E) (hs : Small L) (ok : (Nat → E) → Prop) (n : Nat) (hn : n ≤ 64)
    {φ : Nat → Option RangeProof → Option RangeProof → Int → Int → X}
    {op : Nat → Option RangeProof → X → Prop} {badI badO : Nat → Int → List Int}
    (hrule : BitRule L ok n φ op badI badO) (comm : E) (A : Adv (Option RangeProof)) (Q : Nat) {i : Nat} (hi : i < n) (t : RangeTag Q) (S : Finset Bytes)
    (f g : S → Word) (xo xi : S) (hxo : xo.1 = rangeOuter cp ((rangeAll cp n A).run (hashOf S f)))
    (hxi : xi.1 = rangeInner cp i (A.run (hashOf S f)))
    (hP : RangeAt L ok n comm A Q i t (hashOf S f))
    (hP' : RangeAt L ok n comm A Q i t (hashOf S (rerun (rangeOuter cp) (rangeAll cp n A) S
      (max t.1.1 t.1.2) f g)))
    (lo : chalOf cp.C.N (f xo) ≠ 0) (li : chalOf cp.C.N (f xi) ≠ 0)
    (bo : chalOf cp.C.N (g xo) ∉ badO i (setBytes (hashOf S f xo.1) : Nat))
    (bi : chalOf cp.C.N (g xi) ∉ badI i (setBytes (hashOf S f xi.1) : Nat)) :
    op i (A.run (hashOf S f)) (rangeExtract cp φ n A S i f g) := by
  have hplace : rangePlace cp n A i (hashOf S f) = max (t.1.1 : Nat) t.1.2 := by
    obtain ⟨_, _, _, _, _, _, _, h1, h2, _⟩ := hP
    rw [rangePlace, h1, h2]
  rw [rangeExtract, rangeRerun, hplace]
  obtain ⟨agg, e, c, s, hp, ho, hv, ha, hb, hoff, hsx, hsy, hst⟩ := hP
  obtain ⟨agg', e', c', s', hp', ho', hv', ha', hb', hoff', hsx', hsy', hst'⟩ := hP'
  have hmo := (rangeAll cp n A).crit_mem (crit := rangeOuter cp) (hashOf S f)
  have hmi := inner_mem (cp := cp) n A (hashOf S f) hi
  -- the questions are the same
  have qo := question_rerun (le_max_left _ _) hmo ((rangeAll cp n A).crit_mem _) ha ha'
  have qi := question_rerun (le_max_right _ _) hmi (inner_mem n A _ hi) hb hb'
  have hoold : (t.1.1 : Nat) < t.1.2 → rerun (rangeOuter cp) (rangeAll cp n A) S (max t.1.1 t.1.2) f g xo = f xo := by
    intro h
    refine rerun_old xo ?_ (hxo ▸ hmo)
    rw [hxo, ha]; exact lt_max_of_lt_right h
  have honew : (t.1.2 : Nat) ≤ t.1.1 → rerun (rangeOuter cp) (rangeAll cp n A) S (max t.1.1 t.1.2) f g xo = g xo := by
    intro h
    refine rerun_new xo ?_
    rw [hxo, ha]; exact max_le le_rfl h
  have hiold : (t.1.2 : Nat) < t.1.1 → rerun (rangeOuter cp) (rangeAll cp n A) S (max t.1.1 t.1.2) f g xi = f xi := by
    intro h
    refine rerun_old xi ?_ (hxi ▸ hmi)
    rw [hxi, hb]; exact lt_max_of_lt_left h
  have hinew : (t.1.1 : Nat) ≤ t.1.2 → rerun (rangeOuter cp) (rangeAll cp n A) S (max t.1.1 t.1.2) f g xi = g xi := by
    intro h
    refine rerun_new xi ?_
    rw [hxi, hb]; exact max_le h le_rfl
  have heq : (t.1.1 : Nat) = t.1.2 → xo = xi := by
    intro h
    refine Subtype.ext ?_
    rw [hxo, hxi]
    have h1 := List.getElem?_idxOf hmo
    have h2 := List.getElem?_idxOf hmi
    rw [ha] at h1
    rw [hb, ← h] at h2
    exact Option.some.inj (h1.symm.trans h2)
  generalize rerun (rangeOuter cp) (rangeAll cp n A) S (max t.1.1 t.1.2) f g = f' at *
  clear ha hb ha' hb' hmo hmi
  rw [rangeAll_run, hp', rangeAll_run, hp] at qo
  rw [rangeAll_run, hp] at hxo
  rw [hp] at hv hxi qi ⊢
  rw [hp'] at hv' qi ⊢
  rw [rangeOuter_of L _ n hn e c s agg] at qo hxo
  rw [rangeOuter_of L _ n hn e' c' s' agg'] at qo
  rw [rangeInner_of L n hn e c s agg hi] at qi hxi
  rw [rangeInner_of L n hn e' c' s' agg' hi] at qi
  rw [rangeHash_of L _ n hn e c s agg hi, rangeHash_of L _ n hn e' c' s' agg' hi]
  -- the points are the same
  have hT : effPoint L i e (c i) (s i) = effPoint L i e' (c' i) (s' i) :=
    one_point L hs qi.symm (hst.trans hst'.symm)
  have hR : L.hp (hashOf S f) (effPoint L i e (c i) (s i)) • L.eff (c i) =
      L.hp (hashOf S f') (effPoint L i e' (c' i) (s' i)) • L.eff (c' i) := by
    refine same_point L hs (as := rangePoints L n (hashOf S f) e c s)
      (as' := rangePoints L n (hashOf S f') e' c' s') (i := i) (by simpa [rangePoints] using hn)
      (by simpa [rangePoints] using hn) (by simp [rangePoints, hi]) (by simp [rangePoints, hi]) qo.symm
      (hoff.trans hoff'.symm) (hsx.trans hsx'.symm) (hsy.trans hsy'.symm)
  -- the challenges
  have he : e = (setBytes (hashOf S f xo.1) : Nat) := by
    rw [hxo]; exact (rangeVerify_inv L _ n hn e c s agg comm hv).1
  have he' : e' = (setBytes (hashOf S f' xo.1) : Nat) := by
    rw [hxo, ← qo]; exact (rangeVerify_inv L _ n hn e' c' s' agg' comm hv').1
  have hd : L.hp (hashOf S f) (effPoint L i e (c i) (s i)) = (setBytes (hashOf S f xi.1) : Nat) := by
    rw [hxi]; rfl
  have hd' : L.hp (hashOf S f') (effPoint L i e' (c' i) (s' i)) =
      (setBytes (hashOf S f' xi.1) : Nat) := by
    rw [hxi, ← qi]; rfl
  have e0 : ¬ (cp.C.N : Int) ∣ e := not_dvd_of (by rw [he, setBytes_hashOf]; exact lo)
  have d0 : ¬ (cp.C.N : Int) ∣ L.hp (hashOf S f) (effPoint L i e (c i) (s i)) :=
    not_dvd_of (by rw [hd, setBytes_hashOf]; exact li)
  refine hrule i hi agg e c s agg' e' c' s' _ _ ho ho' e0 d0 hT hR ?_
  rcases lt_trichotomy (t.1.1 : Nat) t.1.2 with h | h | h
  · refine .inl ⟨by rw [he, he', hashOf_congr xo (hoold h)], ?_⟩
    rw [hd, hd', setBytes_hashOf, hinew h.le]
    exact bi
  · have hxx := heq h
    refine .inr ⟨?_, .inr ⟨by rw [hd, he, hxx], by rw [hd', he', hxx]⟩⟩
    rw [he, he', setBytes_hashOf, honew h.ge]
    exact bo
  · refine .inr ⟨?_, .inl (by rw [hd, hd', hashOf_congr xi (hiold h)])⟩
    rw [he, he', setBytes_hashOf, honew h.le]
    exact bo

end Zk.Rom
