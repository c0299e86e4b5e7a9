import Verif.Mem.PointLemmas

/-!
# The provers and verifiers on memory
-/

namespace Zk.Mem

open Zk Zk.Proto

variable {s : Cells} {e : Env} {cp : Params}

/-- A `GSPFSProof` in memory and its value (specification; gspfs.go:27-32). -/
structure GSPFSIs (s : Cells) (p : GSPFS) (v : GSPFSProof) : Prop where
  Base : PIs s p.Base v.Base
  RandCommit : PIs s p.RandCommit v.RandCommit
  HiddenValue : Is s p.HiddenValue v.HiddenValue
  Challenge : Is s p.Challenge v.Challenge

/-- An `EquivalenceProof` in memory and its value (specification; equivalence.go:29-34). -/
structure EquivalenceIs (s : Cells) (p : Equivalence) (v : EquivalenceProof) : Prop where
  UG : PIs s p.UG v.UG
  UH : PIs s p.UH v.UH
  Challenge : Is s p.Challenge v.Challenge
  HiddenValue : Is s p.HiddenValue v.HiddenValue

/-- A `ConsistencyProof` in memory and its value (specification; consistency.go:35-41). -/
structure ConsistencyIs (s : Cells) (p : Consistency) (v : ConsistencyProof) : Prop where
  T1 : PIs s p.T1 v.T1
  T2 : PIs s p.T2 v.T2
  Challenge : Is s p.Challenge v.Challenge
  S1 : Is s p.S1 v.S1
  S2 : Is s p.S2 v.S2

/-- A `DisjunctiveProof` in memory and its value (specification; disjunctive.go:45-53). -/
structure DisjunctiveIs (s : Cells) (p : Disjunctive) (v : DisjunctiveProof) : Prop where
  T1 : PIs s p.T1 v.T1
  T2 : PIs s p.T2 v.T2
  C : Is s p.C v.C
  C1 : Is s p.C1 v.C1
  C2 : Is s p.C2 v.C2
  S1 : Is s p.S1 v.S1
  S2 : Is s p.S2 v.S2

/-- An `ABCProof` in memory and its value (specification; abc.go:44-55). -/
structure ABCIs (s : Cells) (p : ABC) (v : ABCProof) : Prop where
  B : PIs s p.B v.B
  C : PIs s p.C v.C
  T1 : PIs s p.T1 v.T1
  T2 : PIs s p.T2 v.T2
  Challenge : Is s p.Challenge v.Challenge
  j : Is s p.j v.j
  k : Is s p.k v.k
  l : Is s p.l v.l
  CToken : PIs s p.CToken v.CToken
  disjuncAC : Option.Rel (DisjunctiveIs s) p.disjuncAC v.disjuncAC

/-- All numbers of the proof except the base are new (specification; gspfs.go:68). -/
structure GSPFSNew (s : Cells) (p : GSPFS) : Prop where
  RandCommit : PNew s p.RandCommit
  HiddenValue : New s p.HiddenValue
  Challenge : New s p.Challenge

/-- All numbers of the proof are new (specification; equivalence.go:73-77). -/
structure EquivalenceNew (s : Cells) (p : Equivalence) : Prop where
  UG : PNew s p.UG
  UH : PNew s p.UH
  Challenge : New s p.Challenge
  HiddenValue : New s p.HiddenValue

/-- All numbers of the proof are new (specification; consistency.go:84). -/
structure ConsistencyNew (s : Cells) (p : Consistency) : Prop where
  T1 : PNew s p.T1
  T2 : PNew s p.T2
  Challenge : New s p.Challenge
  S1 : New s p.S1
  S2 : New s p.S2

/-- All numbers of the proof are new (specification; disjunctive.go:134-151). -/
structure DisjunctiveNew (s : Cells) (p : Disjunctive) : Prop where
  T1 : PNew s p.T1
  T2 : PNew s p.T2
  C : New s p.C
  C1 : New s p.C1
  C2 : New s p.C2
  S1 : New s p.S1
  S2 : New s p.S2

/-- All numbers of the proof are new (specification; abc.go:161-168). -/
structure ABCNew (s : Cells) (p : ABC) : Prop where
  B : PNew s p.B
  C : PNew s p.C
  T1 : PNew s p.T1
  T2 : PNew s p.T2
  Challenge : New s p.Challenge
  j : New s p.j
  k : New s p.k
  l : New s p.l
  CToken : PNew s p.CToken
  disjuncAC : ∀ d, p.disjuncAC = some d → DisjunctiveNew s d

/-- What a prover returns: the proof, nil or not, and the error (specification; gspfs.go:43). -/
def Returns {α β : Type} (R : Cells → α → β → Prop) (Q : α → Prop) :
    Cells → Option α × Option Err → Option β × Option Err → Prop :=
  fun t r r' => Option.Rel (fun a b => R t a b ∧ Q a) r.1 r'.1 ∧ r.2 = r'.2

/-- Only the values of the results matter (specification; gspfs.go:72). -/
def Result {α : Type} : Cells → α → α → Prop := fun _ a b => a = b

theorem Same.result {α : Type} {s t : Cells} {a b : α} (h : Same s t a b) : Result t a b := h.2

theorem emptyConsistency_is (t : Cells) :
    ConsistencyIs t emptyConsistency Proto.emptyConsistency :=
  ⟨⟨.nil, .nil⟩, ⟨.nil, .nil⟩, .nil, .nil, .nil⟩

theorem emptyConsistency_new : ConsistencyNew s emptyConsistency :=
  ⟨⟨new_nil, new_nil⟩, ⟨new_nil, new_nil⟩, new_nil, new_nil, new_nil⟩

theorem emptyDisjunctive_is (t : Cells) :
    DisjunctiveIs t emptyDisjunctive Proto.emptyDisjunctive :=
  ⟨⟨.nil, .nil⟩, ⟨.nil, .nil⟩, .nil, .nil, .nil, .nil, .nil⟩

theorem emptyDisjunctive_new : DisjunctiveNew s emptyDisjunctive :=
  ⟨⟨new_nil, new_nil⟩, ⟨new_nil, new_nil⟩, new_nil, new_nil, new_nil, new_nil, new_nil⟩

theorem emptyABC_is (t : Cells) : ABCIs t emptyABC Proto.emptyABC :=
  ⟨⟨.nil, .nil⟩, ⟨.nil, .nil⟩, ⟨.nil, .nil⟩, ⟨.nil, .nil⟩, .nil, .nil, .nil, .nil, ⟨.nil, .nil⟩, .none⟩

theorem emptyABC_new : ABCNew s emptyABC :=
  ⟨⟨new_nil, new_nil⟩, ⟨new_nil, new_nil⟩, ⟨new_nil, new_nil⟩, ⟨new_nil, new_nil⟩, new_nil, new_nil,
    new_nil, new_nil, ⟨new_nil, new_nil⟩, fun _ h => by cases h⟩

theorem DisjunctiveIs.mono {s t : Cells} {p : Disjunctive} {v : DisjunctiveProof} (h : s ≼ t)
    (hp : DisjunctiveIs s p v) : DisjunctiveIs t p v :=
  ⟨hp.T1.mono h, hp.T2.mono h, hp.C.mono h, hp.C1.mono h, hp.C2.mono h, hp.S1.mono h, hp.S2.mono h⟩

theorem DisjunctiveNew.anti {s t : Cells} {p : Disjunctive} (h : s ≼ t) (hp : DisjunctiveNew t p) :
    DisjunctiveNew s p :=
  ⟨hp.T1.anti h, hp.T2.anti h, hp.C.anti h, hp.C1.anti h, hp.C2.anti h, hp.S1.anti h, hp.S2.anti h⟩

theorem ABCNew.anti {s t : Cells} {p : ABC} (h : s ≼ t) (hp : ABCNew t p) : ABCNew s p :=
  ⟨hp.B.anti h, hp.C.anti h, hp.T1.anti h, hp.T2.anti h, hp.Challenge.anti h, hp.j.anti h,
    hp.k.anti h, hp.l.anti h, hp.CToken.anti h, fun d hd => (hp.disjuncAC d hd).anti h⟩

/-! ### GSPFS -/

theorem newGSPFSProofBase_does (hash : Bytes → Bytes) (he : EnvIs s e cp)
    {base A : Point} {bv av : ECPoint} (hb : PIs s base bv) (hA : PIs s A av) {x : Ptr} {xv : Int}
    (hx : Is s x (some xv)) (u : Int) :
    Does (newGSPFSProofBase hash e base A x u) s (Proto.newGSPFSProofBase hash cp bv av xv u)
      (Returns GSPFSIs fun p => p.Base = base ∧ GSPFSNew s p) := by
  have hN := he.N
  refine Does.step (fresh_ok modF hx hN) ?_
  rintro modValue t1 l1 ⟨hm, -⟩
  refine Does.step (bytesOf_ok hm) ?_
  rintro k t1 - ⟨rfl, rfl⟩
  have hdef : Proto.newGSPFSProofBase hash cp bv av xv u = (do
      let q ← (do
        let c ← Proto.coords bv
        let q ← cp.C.scalarMult c.1 c.2 (intBytes (modF xv cp.C.N))
        pure (mkPt q))
      let ok ← Proto.equal q av
      if !ok then pure (none, some "the point given is not xG")
      else do
        let uG ← Proto.mult cp bv (some u)
        let c ← Proto.challengeOf hash cp [av, uG]
        pure (some ⟨bv, uG, some ((u - c * (xv % (cp.C.N : Int))) % (cp.C.N : Int)), some c⟩, none)) := by
    simp only [Proto.newGSPFSProofBase, bind_assoc, pure_bind, modF]
  rw [hdef]
  refine Does.bind (scalarMult_does (by see) (by see : PIs t1 base bv) _) ?_
  rintro C _ t2 l2 ⟨hC, -⟩
  refine Does.bind (equal_does hC (by see : PIs t2 A av)) ?_
  rintro ok _ t - ⟨rfl, rfl⟩
  cases ok with
  | false => exact .pure ⟨.none, rfl⟩
  | true =>
    refine Does.step (alloc_does u t) ?_
    rintro up t3 l3 ⟨hu, -⟩
    refine Does.bind (mult_does (by see) (by see : PIs t3 base bv) hu) ?_
    rintro uG uGv t4 l4 ⟨huG, nuG⟩
    refine Does.bind (challengeOf_does hash (by see : EnvIs t4 e cp)
      (.cons (by see : PIs t4 A av) (.cons huG .nil))) ?_
    rintro c cv t5 l5 ⟨hc, nc⟩
    refine Does.step (fresh_ok mulF hc (by see : Is t5 modValue (some (modF xv cp.C.N)))) ?_
    rintro m t6 l6 ⟨hm2, -⟩
    refine freshInto_step (by see : Is t6 up (some u)) hm2 (by see : Is t6 e.N (some cp.C.N)) ?_
    rintro v t7 l7 hv nv
    exact .pure ⟨.some ⟨⟨by see, by see, hv, by see⟩, rfl, by new, by new, by new⟩, rfl⟩

theorem gspfsVerify_does (hash : Bytes → Bytes) (hz : ZeroAdd cp.C) (he : EnvIs s e cp)
    {pr : Option GSPFS} {pv : Option GSPFSProof} (hp : Option.Rel (GSPFSIs s) pr pv) {A : Point}
    {av : ECPoint} (hA : PIs s A av) :
    Does (gspfsVerify hash e pr A) s (Proto.gspfsVerify hash cp pv av) Result := by
  cases hp with
  | none => exact .pure rfl
  | @some p v h =>
    obtain ⟨h1, h2, h3, h4⟩ := h
    refine Does.bind (challengeOf_does hash he (.cons hA (.cons h2 .nil))) ?_
    rintro c cv t1 l1 ⟨hc, -⟩
    refine Does.bind (cmpEq_does hc (by see : Is t1 p.Challenge v.Challenge)) ?_
    rintro eq _ t - ⟨rfl, rfl⟩
    cases eq with
    | false => exact .pure rfl
    | true =>
      refine Does.bind (mult_does (by see) (by see : PIs t p.Base v.Base)
        (by see : Is t p.HiddenValue v.HiddenValue)) ?_
      rintro q qv t2 l2 ⟨hq, -⟩
      refine Does.bind (mult_does (by see) (by see : PIs t2 A av)
        (by see : Is t2 p.Challenge v.Challenge)) ?_
      rintro r rv t3 l3 ⟨hr, -⟩
      refine Does.bind (add_does hz (by see) (by see : PIs t3 q qv) hr) ?_
      rintro tot totv t4 l4 ⟨ht, -⟩
      refine Does.bind (equal_does (by see : PIs t4 p.RandCommit v.RandCommit) ht) ?_
      rintro ok _ t - ⟨rfl, rfl⟩
      cases ok <;> exact .pure rfl

/-! ### Equivalence -/

theorem newEquivalenceProof_does (hash : Bytes → Bytes) (he : EnvIs s e cp)
    {B1 R1 B2 R2 : Point} {b1 r1 b2 r2 : ECPoint} (hB1 : PIs s B1 b1) (hR1 : PIs s R1 r1)
    (hB2 : PIs s B2 b2) (hR2 : PIs s R2 r2) {x : Ptr} {xv : Int} (hx : Is s x (some xv)) (u : Int) :
    Does (newEquivalenceProof hash e B1 R1 B2 R2 x u) s
      (Proto.newEquivalenceProof hash cp b1 r1 b2 r2 xv u)
      (Returns EquivalenceIs (EquivalenceNew s)) := by
  have hN := he.N
  refine Does.step (fresh_ok modF hx hN) ?_
  rintro modValue t1 l1 ⟨hm, -⟩
  refine Does.bind (mult_does (by see) (by see : PIs t1 B1 b1) hm) ?_
  rintro c1 c1v t2 l2 ⟨hc1, -⟩
  refine Does.bind (equal_does hc1 (by see : PIs t2 R1 r1)) ?_
  rintro ok _ t2 - ⟨rfl, rfl⟩
  cases ok with
  | false => exact .pure ⟨.none, rfl⟩
  | true =>
    refine Does.bind (mult_does (by see) (by see : PIs t2 B2 b2)
      (by see : Is t2 modValue (some (modF xv cp.C.N)))) ?_
    rintro c2 c2v t3 l3 ⟨hc2, -⟩
    refine Does.bind (equal_does hc2 (by see : PIs t3 R2 r2)) ?_
    rintro ok _ t3 - ⟨rfl, rfl⟩
    cases ok with
    | false => exact .pure ⟨.none, rfl⟩
    | true =>
      refine Does.step (alloc_does u t3) ?_
      rintro up t4 l4 ⟨hu, -⟩
      refine Does.bind (mult_does (by see) (by see : PIs t4 B1 b1) hu) ?_
      rintro u1 u1v t5 l5 ⟨hu1, nu1⟩
      refine Does.bind (mult_does (by see) (by see : PIs t5 B2 b2)
        (by see : Is t5 up (some u))) ?_
      rintro u2 u2v t6 l6 ⟨hu2, nu2⟩
      refine Does.bind (challengeOf_does hash (by see : EnvIs t6 e cp)
        (.cons (by see : PIs t6 B1 b1) (.cons (by see : PIs t6 R1 r1)
          (.cons (by see : PIs t6 B2 b2) (.cons (by see : PIs t6 R2 r2)
            (.cons (by see : PIs t6 u1 u1v) (.cons hu2 .nil))))))) ?_
      rintro c cv t7 l7 ⟨hc, nc⟩
      refine Does.step (fresh_ok mulF hc (by see : Is t7 modValue (some (modF xv cp.C.N)))) ?_
      rintro m t8 l8 ⟨hm2, -⟩
      refine freshInto_step (by see : Is t8 up (some u)) hm2 (by see : Is t8 e.N (some cp.C.N)) ?_
      rintro v t9 l9 hv nv
      exact .pure ⟨.some ⟨⟨by see, by see, by see, hv⟩, by new, by new, by new, by new⟩, rfl⟩

theorem equivalenceVerify_does (hash : Bytes → Bytes) (hz : ZeroAdd cp.C) (he : EnvIs s e cp)
    {pr : Option Equivalence} {pv : Option EquivalenceProof}
    (hp : Option.Rel (EquivalenceIs s) pr pv)
    {B1 R1 B2 R2 : Point} {b1 r1 b2 r2 : ECPoint} (hB1 : PIs s B1 b1) (hR1 : PIs s R1 r1)
    (hB2 : PIs s B2 b2) (hR2 : PIs s R2 r2) :
    Does (equivalenceVerify hash e pr B1 R1 B2 R2) s
      (Proto.equivalenceVerify hash cp pv b1 r1 b2 r2) Result := by
  cases hp with
  | none => exact .pure rfl
  | @some p v h =>
    obtain ⟨h1, h2, h3, h4⟩ := h
    refine Does.bind (challengeOf_does hash he (.cons hB1 (.cons hR1 (.cons hB2 (.cons hR2
      (.cons h1 (.cons h2 .nil))))))) ?_
    rintro c cv t1 l1 ⟨hc, -⟩
    refine Does.bind (cmpEq_does hc (by see : Is t1 p.Challenge v.Challenge)) ?_
    rintro eq _ t1 - ⟨rfl, rfl⟩
    cases eq with
    | false => exact .pure rfl
    | true =>
      refine Does.bind (mult_does (by see) (by see : PIs t1 B1 b1)
        (by see : Is t1 p.HiddenValue v.HiddenValue)) ?_
      rintro sG sGv t2 l2 ⟨hsG, -⟩
      refine Does.bind (mult_does (by see) (by see : PIs t2 R1 r1)
        (by see : Is t2 p.Challenge v.Challenge)) ?_
      rintro cG cGv t3 l3 ⟨hcG, -⟩
      refine Does.bind (add_does hz (by see) (by see : PIs t3 p.UG v.UG) hcG) ?_
      rintro tst tstv t4 l4 ⟨ht, -⟩
      refine Does.bind (equal_does (by see : PIs t4 sG sGv) ht) ?_
      rintro ok _ t4 - ⟨rfl, rfl⟩
      cases ok with
      | false => exact .pure rfl
      | true =>
        refine Does.bind (mult_does (by see) (by see : PIs t4 B2 b2)
          (by see : Is t4 p.HiddenValue v.HiddenValue)) ?_
        rintro sH sHv t5 l5 ⟨hsH, -⟩
        refine Does.bind (mult_does (by see) (by see : PIs t5 R2 r2)
          (by see : Is t5 p.Challenge v.Challenge)) ?_
        rintro cH cHv t6 l6 ⟨hcH, -⟩
        refine Does.bind (add_does hz (by see) (by see : PIs t6 p.UH v.UH) hcH) ?_
        rintro tst2 tst2v t7 l7 ⟨ht2, -⟩
        refine Does.bind (equal_does (by see : PIs t7 sH sHv) ht2) ?_
        rintro ok _ t - ⟨rfl, rfl⟩
        cases ok <;> exact .pure rfl

/-! ### Consistency -/

/-- Two new numbers that are both changed in place after the second has been made. -/
theorem twoInto_step {γ δ : Type} {k : Ptr → Ptr → M γ} {s : Cells} {u1 m1 c u2 m2 n : Ptr}
    {u1v m1v cv u2v m2v nv : Int} {h : Go δ} {S : Cells → γ → δ → Prop}
    (hu1 : Is s u1 (some u1v)) (hm1 : Is s m1 (some m1v)) (hc : Is s c (some cv))
    (hu2 : Is s u2 (some u2v)) (hm2 : Is s m2 (some m2v)) (hn : Is s n (some nv))
    (hk : ∀ p q t, s ≼ t → Is t p (some ((u1v + m1v * cv) % nv)) → New s p →
      Is t q (some ((u2v + m2v * cv) % nv)) → New s q → Does (k p q) t h S) :
    Does (do
      let t1 ← fresh mulF m1 c
      let s1 ← fresh addF u1 t1
      let t2 ← fresh mulF m2 c
      let s2 ← fresh addF u2 t2
      let _ ← into modF s1 s1 n
      let _ ← into modF s2 s2 n
      k s1 s2) s h S := by
  refine fresh_wp hm1 hc fun z1 h1 => ?_
  have l1 := le_put h1 (mulF m1v cv)
  refine fresh_wp (hu1.mono l1) (is_put _ _ _) fun z2 h2 => ?_
  have l2 := l1.trans (le_put h2 (addF u1v (mulF m1v cv)))
  have i2 := is_put (put s z1 (mulF m1v cv)) z2 (addF u1v (mulF m1v cv))
  refine fresh_wp (hm2.mono l2) (hc.mono l2) fun z3 h3 => ?_
  have m3 := le_put h3 (mulF m2v cv)
  have l3 := l2.trans m3
  refine fresh_wp (hu2.mono l3) (is_put _ _ _) fun z4 h4 => ?_
  have m4 := le_put h4 (addF u2v (mulF m2v cv))
  have l4 := l3.trans m4
  have i2' := (i2.mono m3).mono m4
  have n2 : s z2 = none := l1.unseen h2
  have n4 : s z4 = none := l3.unseen h4
  have h24 : z4 ≠ z2 := by
    rintro rfl
    have := m3 _ _ (put_self (put s z1 (mulF m1v cv)) z4 (addF u1v (mulF m1v cv)))
    rw [h4] at this
    cases this
  refine into_wp (.inr (.inr (.inl rfl))) i2' (hn.mono l4) ?_
  have l5 := l4.put n2 (modF (addF u1v (mulF m1v cv)) nv)
  refine into_wp (.inl rfl) (x := addF u2v (mulF m2v cv)) ?_ (hn.mono l5) ?_
  · exact .cell _ _ (by rw [put_ne _ _ h24, put_self])
  have l6 := l5.put n4 (modF (addF u2v (mulF m2v cv)) nv)
  exact Wp.mono (fun _ h => h.elim) (fun _ hr => hr.of_le l6)
    (hk (some z2) (some z4) _ l6 (.cell _ _ (by rw [put_ne _ _ (Ne.symm h24), put_self]; rfl))
      (new_some n2) (.cell _ _ (by rw [put_self]; rfl)) (new_some n4))

theorem newConsistencyProof_does (hash : Bytes → Bytes) (hz : ZeroAdd cp.C) (he : EnvIs s e cp)
    {CM CT PK : Point} {cm ct pk : ECPoint} (hCM : PIs s CM cm) (hCT : PIs s CT ct)
    (hPK : PIs s PK pk) {x r : Ptr} {xv rv : Int} (hx : Is s x (some xv)) (hr : Is s r (some rv))
    (u1 u2 : Int) :
    Does (newConsistencyProof hash e CM CT PK x r u1 u2) s
      (Proto.newConsistencyProof hash cp cm ct pk xv rv u1 u2)
      (Returns ConsistencyIs (ConsistencyNew s)) := by
  have hN := he.N
  have hG := he.G
  have hH := he.H
  refine Does.step (fresh_ok modF hx hN) ?_
  rintro modValue t1 l1 ⟨hm, -⟩
  refine Does.bind (pedCommitR_does hz (by see) (by see : Is t1 x (some xv))
    (by see : Is t1 r (some rv))) ?_
  rintro c1 c1v t2 l2 ⟨hc1, -⟩
  refine Does.bind (equal_does (by see : PIs t2 CM cm) hc1) ?_
  rintro ok _ t2 - ⟨rfl, rfl⟩
  cases ok with
  | false => exact .pure ⟨.some ⟨emptyConsistency_is _, emptyConsistency_new⟩, rfl⟩
  | true =>
    refine Does.bind (mult_does (by see) (by see : PIs t2 PK pk) (by see : Is t2 r (some rv))) ?_
    rintro c2 c2v t3 l3 ⟨hc2, -⟩
    refine Does.bind (equal_does (by see : PIs t3 CT ct) hc2) ?_
    rintro ok _ t3 - ⟨rfl, rfl⟩
    cases ok with
    | false => exact .pure ⟨.some ⟨emptyConsistency_is _, emptyConsistency_new⟩, rfl⟩
    | true =>
      refine Does.step (alloc_does u1 t3) ?_
      rintro u1p t4 l4 ⟨hu1, -⟩
      refine Does.step (alloc_does u2 t4) ?_
      rintro u2p t5 l5 ⟨hu2, -⟩
      refine Does.bind (pedCommitR_does hz (by see) (by see : Is t5 u1p (some u1)) hu2) ?_
      rintro T1 T1v t6 l6 ⟨hT1, nT1⟩
      refine Does.bind (mult_does (by see) (by see : PIs t6 PK pk) (by see : Is t6 u2p (some u2))) ?_
      rintro T2 T2v t7 l7 ⟨hT2, nT2⟩
      refine Does.bind (challengeOf_does hash (by see : EnvIs t7 e cp)
        (.cons (by see : PIs t7 e.G cp.G) (.cons (by see : PIs t7 e.H cp.H)
          (.cons (by see : PIs t7 CM cm) (.cons (by see : PIs t7 CT ct)
            (.cons (by see : PIs t7 PK pk) (.cons (by see : PIs t7 T1 T1v) (.cons hT2 .nil)))))))) ?_
      rintro c cv t8 l8 ⟨hc, nc⟩
      refine twoInto_step (by see : Is t8 u1p (some u1)) (by see : Is t8 modValue _) hc
        (by see : Is t8 u2p (some u2)) (by see : Is t8 r (some rv)) (by see : Is t8 e.N _) ?_
      rintro p q t9 l9 hp np hq nq
      exact .pure ⟨.some ⟨⟨by see, by see, by see, hp, hq⟩, by new, by new, by new, by new, by new⟩,
        rfl⟩

theorem consistencyVerify_does (hash : Bytes → Bytes) (hz : ZeroAdd cp.C) (he : EnvIs s e cp)
    {pr : Option Consistency} {pv : Option ConsistencyProof}
    (hp : Option.Rel (ConsistencyIs s) pr pv)
    {CM CT PK : Point} {cm ct pk : ECPoint} (hCM : PIs s CM cm) (hCT : PIs s CT ct)
    (hPK : PIs s PK pk) :
    Does (consistencyVerify hash e pr CM CT PK) s
      (Proto.consistencyVerify hash cp pv cm ct pk) Result := by
  have hG := he.G
  have hH := he.H
  cases hp with
  | none => exact .pure rfl
  | @some p v h =>
    obtain ⟨h1, h2, h3, h4, h5⟩ := h
    refine Does.bind (challengeOf_does hash he (.cons hG (.cons hH (.cons hCM (.cons hCT
      (.cons hPK (.cons h1 (.cons h2 .nil)))))))) ?_
    rintro c cv t1 l1 ⟨hc, -⟩
    refine Does.bind (cmpEq_does hc (by see : Is t1 p.Challenge v.Challenge)) ?_
    rintro eq _ t1 - ⟨rfl, rfl⟩
    cases eq with
    | false => exact .pure rfl
    | true =>
      refine Does.bind (pedCommitR_does hz (by see) (by see : Is t1 p.S1 v.S1)
        (by see : Is t1 p.S2 v.S2)) ?_
      rintro lhs lhsv t2 l2 ⟨hlhs, -⟩
      refine Does.bind (mult_does (by see) (by see : PIs t2 CM cm) (by see : Is t2 c (some cv))) ?_
      rintro tm tmv t3 l3 ⟨htm, -⟩
      refine Does.bind (add_does hz (by see) (by see : PIs t3 p.T1 v.T1) htm) ?_
      rintro rhs rhsv t4 l4 ⟨hrhs, -⟩
      refine Does.bind (equal_does (by see : PIs t4 lhs lhsv) hrhs) ?_
      rintro ok _ t4 - ⟨rfl, rfl⟩
      cases ok with
      | false => exact .pure rfl
      | true =>
        refine Does.bind (mult_does (by see) (by see : PIs t4 PK pk) (by see : Is t4 p.S2 v.S2)) ?_
        rintro lhs lhsv t5 l5 ⟨hlhs, -⟩
        refine Does.bind (mult_does (by see) (by see : PIs t5 CT ct) (by see : Is t5 c (some cv))) ?_
        rintro tm tmv t6 l6 ⟨htm, -⟩
        refine Does.bind (add_does hz (by see) (by see : PIs t6 p.T2 v.T2) htm) ?_
        rintro rhs rhsv t7 l7 ⟨hrhs, -⟩
        refine Does.bind (equal_does (by see : PIs t7 lhs lhsv) hrhs) ?_
        rintro ok _ t - ⟨rfl, rfl⟩
        cases ok <;> exact .pure rfl

/-! ### Disjunctive -/

/-- A sum of two new points is made of new numbers. -/
theorem OneOf.new {s a t : Cells} {p p2 P : Point} {v : ECPoint} (h : OneOf a p p2 t P v)
    (l : s ≼ a) (hp : PNew s p) (hp2 : PNew s p2) : PNew s P := by
  rcases h.2 with rfl | rfl | h
  · exact hp
  · exact hp2
  · exact h.anti l

theorem proveDisjunctive_does (hash : Bytes → Bytes) (hz : ZeroAdd cp.C) (he : EnvIs s e cp)
    {B1 R1 B2 R2 PB PR OB OR : Point} {b1 r1 b2 r2 pb pr ob or : ECPoint} (hB1 : PIs s B1 b1)
    (hR1 : PIs s R1 r1) (hB2 : PIs s B2 b2) (hR2 : PIs s R2 r2) (hPB : PIs s PB pb)
    (hPR : PIs s PR pr) (hOB : PIs s OB ob) (hOR : PIs s OR or) {x m : Ptr} {xv : Int}
    (hx : Is s x (some xv)) (hm : Is s m (some (modF xv cp.C.N))) (u1 u2 u3 : Int) (swap : Bool) :
    Does (proveDisjunctive hash e B1 R1 B2 R2 PB PR OB OR x m u1 u2 u3 swap) s
      (Proto.proveDisjunctive hash cp b1 r1 b2 r2 pb pr ob or xv u1 u2 u3 swap)
      (Returns DisjunctiveIs (DisjunctiveNew s)) := by
  have hN := he.N
  refine Does.bind (mult_does he hPB hx) ?_
  rintro q qv t1 l1 ⟨hq, -⟩
  refine Does.bind (equal_does hq (by see : PIs t1 PR pr)) ?_
  rintro ok _ t1 - ⟨rfl, rfl⟩
  cases ok with
  | false => exact .pure ⟨.some ⟨emptyDisjunctive_is _, emptyDisjunctive_new⟩, rfl⟩
  | true =>
    refine Does.step (alloc_does u1 t1) ?_
    rintro u1p t2 l2 ⟨hu1, -⟩
    refine Does.step (alloc_does u2 t2) ?_
    rintro u2p t3 l3 ⟨hu2, nu2⟩
    refine Does.step (alloc_does u3 t3) ?_
    rintro u3p t4 l4 ⟨hu3, nu3⟩
    refine negInto_step hu3 (by see : Is t4 e.N (some cp.C.N)) ?_
    rintro u3n t5 l5 hn3 -
    refine Does.bind (mult_does (by see) (by see : PIs t5 PB pb) (by see : Is t5 u1p (some u1))) ?_
    rintro T1 T1v t6 l6 ⟨hT1, nT1⟩
    refine Does.bind (mult_does (by see) (by see : PIs t6 OB ob) (by see : Is t6 u2p (some u2))) ?_
    rintro w wv t7 l7 ⟨hw, nw⟩
    refine Does.bind (mult_does (by see) (by see : PIs t7 OR or)
      (by see : Is t7 u3n (some (modF (-u3) cp.C.N)))) ?_
    rintro w2 w2v t8 l8 ⟨hw2, nw2⟩
    refine Does.bind (add_does hz (by see) (by see : PIs t8 w wv) hw2) ?_
    rintro T2 T2v t9 l9 hT2'
    have hT2 := hT2'.1
    have nT2 : PNew s T2 := hT2'.new
      (((((((l1.trans l2).trans l3).trans l4).trans l5).trans l6).trans l7).trans l8) (by new) (by new)
    cases swap with
    | false =>
      refine Does.bind (challengeOf_does hash (by see : EnvIs t9 e cp)
        (.cons (by see : PIs t9 B1 b1) (.cons (by see : PIs t9 R1 r1)
          (.cons (by see : PIs t9 B2 b2) (.cons (by see : PIs t9 R2 r2)
            (.cons (by see : PIs t9 T1 T1v) (.cons hT2 .nil))))))) ?_
      rintro c cv t10 l10 ⟨hc, nc⟩
      refine freshInto_step hc (by see : Is t10 u3p (some u3)) (by see : Is t10 e.N (some cp.C.N)) ?_
      rintro d t11 l11 hd nd
      refine Does.step (fresh_ok mulF hd (by see : Is t11 m _)) ?_
      rintro a t12 l12 ⟨ha, -⟩
      refine Does.step (fresh_ok addF (by see : Is t12 u1p (some u1)) ha) ?_
      rintro b t13 l13 ⟨hb, nb⟩
      exact .pure ⟨.some ⟨⟨by see, by see, by see, by see, by see, hb, by see⟩, by new, nT2, by new,
        by new, by new, by new, by new⟩, rfl⟩
    | true =>
      refine Does.bind (challengeOf_does hash (by see : EnvIs t9 e cp)
        (.cons (by see : PIs t9 B1 b1) (.cons (by see : PIs t9 R1 r1)
          (.cons (by see : PIs t9 B2 b2) (.cons (by see : PIs t9 R2 r2)
            (.cons hT2 (.cons (by see : PIs t9 T1 T1v) .nil))))))) ?_
      rintro c cv t10 l10 ⟨hc, nc⟩
      refine freshInto_step hc (by see : Is t10 u3p (some u3)) (by see : Is t10 e.N (some cp.C.N)) ?_
      rintro d t11 l11 hd nd
      refine Does.step (fresh_ok mulF hd (by see : Is t11 m _)) ?_
      rintro a t12 l12 ⟨ha, -⟩
      refine Does.step (fresh_ok addF (by see : Is t12 u1p (some u1)) ha) ?_
      rintro b t13 l13 ⟨hb, nb⟩
      exact .pure ⟨.some ⟨⟨by see, by see, by see, by see, by see, by see, hb⟩, nT2, by new, by new,
        by new, by new, by new, by new⟩, rfl⟩

theorem Returns.imp {α β : Type} {R : Cells → α → β → Prop} {Q Q' : α → Prop}
    (h : ∀ a, Q a → Q' a) {t : Cells} {r : Option α × Option Err} {r' : Option β × Option Err}
    (hr : Returns R Q t r r') : Returns R Q' t r r' := by
  obtain ⟨h1, h2⟩ := hr
  refine ⟨?_, h2⟩
  cases h1' : r.1 <;> cases h2' : r'.1 <;> rw [h1', h2'] at h1
  · exact .none
  · cases h1
  · cases h1
  · cases h1 with
    | some h1 => exact .some ⟨h1.1, h _ h1.2⟩

theorem newDisjunctiveProof_does (hash : Bytes → Bytes) (hz : ZeroAdd cp.C) (he : EnvIs s e cp)
    {B1 R1 B2 R2 : Point} {b1 r1 b2 r2 : ECPoint} (hB1 : PIs s B1 b1)
    (hR1 : PIs s R1 r1) (hB2 : PIs s B2 b2) (hR2 : PIs s R2 r2) {x : Ptr} {xv : Int}
    (hx : Is s x (some xv)) (o : Side) (u1 u2 u3 : Int) :
    Does (newDisjunctiveProof hash e B1 R1 B2 R2 x o u1 u2 u3) s
      (Proto.newDisjunctiveProof hash cp b1 r1 b2 r2 xv o u1 u2 u3)
      (Returns DisjunctiveIs (DisjunctiveNew s)) := by
  refine Does.step (fresh_ok modF hx he.N) ?_
  rintro m t l ⟨hm, -⟩
  unfold Proto.newDisjunctiveProof
  by_cases h1 : o = Left
  · rw [if_pos h1, if_pos h1]
    exact (proveDisjunctive_does hash hz (by see) (by see) (by see) (by see) (by see) (by see)
      (by see) (by see) (by see) (by see) hm u1 u2 u3 false).imp
        fun _ _ _ _ hp => hp.imp fun _ h => h.anti l
  · rw [if_neg h1, if_neg h1]
    by_cases h2 : o = Right
    · rw [if_pos h2, if_pos h2]
      exact (proveDisjunctive_does hash hz (by see) (by see) (by see) (by see) (by see) (by see)
        (by see) (by see) (by see) (by see) hm u1 u2 u3 true).imp
          fun _ _ _ _ hp => hp.imp fun _ h => h.anti l
    · rw [if_neg h2, if_neg h2]
      exact .pure ⟨.some ⟨emptyDisjunctive_is _, emptyDisjunctive_new⟩, rfl⟩

theorem disjunctiveVerify_does (hash : Bytes → Bytes) (hz : ZeroAdd cp.C) (he : EnvIs s e cp)
    {pr : Option Disjunctive} {pv : Option DisjunctiveProof}
    (hp : Option.Rel (DisjunctiveIs s) pr pv)
    {B1 R1 B2 R2 : Point} {b1 r1 b2 r2 : ECPoint} (hB1 : PIs s B1 b1) (hR1 : PIs s R1 r1)
    (hB2 : PIs s B2 b2) (hR2 : PIs s R2 r2) :
    Does (disjunctiveVerify hash e pr B1 R1 B2 R2) s
      (Proto.disjunctiveVerify hash cp pv b1 r1 b2 r2) Result := by
  cases hp with
  | none => exact .pure rfl
  | @some p v h =>
    obtain ⟨h1, h2, h3, h4, h5, h6, h7⟩ := h
    obtain ⟨pT1, pT2, pC, pC1, pC2, pS1, pS2⟩ := p
    obtain ⟨vT1, vT2, vC, vC1, vC2, vS1, vS2⟩ := v
    dsimp only at h1 h2 h3 h4 h5 h6 h7
    have hN := he.N
    refine Does.bind (challengeOf_does hash he (.cons hB1 (.cons hR1 (.cons hB2 (.cons hR2
      (.cons h1 (.cons h2 .nil))))))) ?_
    rintro c cv t1 l1 ⟨hc, -⟩
    refine Does.bind (cmpEq_does hc (by see : Is t1 pC vC)) ?_
    rintro eq _ t1 - ⟨rfl, rfl⟩
    cases eq with
    | false => exact .pure rfl
    | true =>
      cases h4 with
      | nil => exact fun _ _ => trivial
      | cell i1 c1 e1 =>
      cases h5 with
      | nil =>
        have k1 : Is t1 (some i1) (some c1) := (Is.cell i1 c1 e1).mono l1
        exact Does.panics (fresh_nil (β := Int) (R := fun _ _ _ => True) addF k1)
      | cell i2 c2 e2 =>
      have k1 : Is s (some i1) (some c1) := .cell i1 c1 e1
      have k2 : Is s (some i2) (some c2) := .cell i2 c2 e2
      refine freshInto_step (by see : Is t1 (some i1) (some c1)) (by see : Is t1 (some i2) (some c2))
        (by see : Is t1 e.N (some cp.C.N)) ?_
      rintro tc t2 l2 htc -
      simp only [deref_some, Go.bind_ok, Bool.not_true, Bool.false_eq_true, if_false]
      refine Does.bind (cmpEq_does htc (by see : Is t2 pC vC)) ?_
      rintro eq _ t2 - ⟨rfl, rfl⟩
      cases eq with
      | false => exact .pure rfl
      | true =>
        refine Does.bind (mult_does (by see) (by see : PIs t2 R1 r1)
          (by see : Is t2 (some i1) (some c1))) ?_
        rintro c1A c1Av t3 l3 ⟨hc1A, -⟩
        refine Does.bind (add_does hz (by see) (by see : PIs t3 pT1 vT1) hc1A) ?_
        rintro k kv t4 l4 ⟨hk, -⟩
        refine Does.bind (mult_does (by see) (by see : PIs t4 B1 b1)
          (by see : Is t4 pS1 vS1)) ?_
        rintro s1G s1Gv t5 l5 ⟨hs1G, -⟩
        refine Does.bind (equal_does (by see : PIs t5 k kv) hs1G) ?_
        rintro ok _ t5 - ⟨rfl, rfl⟩
        cases ok with
        | false => exact .pure rfl
        | true =>
          refine Does.bind (mult_does (by see) (by see : PIs t5 R2 r2)
            (by see : Is t5 (some i2) (some c2))) ?_
          rintro c2A c2Av t6 l6 ⟨hc2A, -⟩
          refine Does.bind (add_does hz (by see) hc2A (by see : PIs t6 pT2 vT2)) ?_
          rintro k2 k2v t7 l7 ⟨hk2, -⟩
          refine Does.bind (mult_does (by see) (by see : PIs t7 B2 b2)
            (by see : Is t7 pS2 vS2)) ?_
          rintro s2G s2Gv t8 l8 ⟨hs2G, -⟩
          refine Does.bind (equal_does (by see : PIs t8 k2 k2v) hs2G) ?_
          rintro ok _ t - ⟨rfl, rfl⟩
          cases ok <;> exact .pure rfl

/-! ### ABC and inequality -/

theorem load_ok {p : Ptr} {v : Int} (h : Is s p (some v)) :
    Does (load p) s (.ok v) fun t a b => t = s ∧ a = b := load_does h

/-- Chains the steps from one store to a later one. -/
macro "later" : tactic => `(tactic| repeat' first
  | assumption
  | refine Le.trans ?_ (by assumption))

theorem finishABC_does (hash : Bytes → Bytes) (hz : ZeroAdd cp.C) {s0 : Cells} (h0 : s0 ≼ s)
    (he : EnvIs s e cp)
    {CM CMTok B C CToken : Point} {cm cmTok b c cToken : ECPoint} (hCM : PIs s CM cm)
    (hCMTok : PIs s CMTok cmTok) (hB : PIs s B b) (hC : PIs s C c) (hCToken : PIs s CToken cToken)
    (nB : PNew s0 B) (nC : PNew s0 C) (nCToken : PNew s0 CToken)
    {value sk : Ptr} {vv skv : Int} (hv : Is s value (some vv)) (hsk : Is s sk (some skv))
    {d : ABCDraws} {rnd : ABCRand} (h1 : Is s d.u1 (some rnd.u1)) (h2 : Is s d.u2 (some rnd.u2))
    (h3 : Is s d.u3 (some rnd.u3)) (hb : Is s d.ub (some rnd.ub)) (hc : Is s d.uc (some rnd.uc))
    {dj : Option Disjunctive} {djv : Option DisjunctiveProof}
    (hd : Option.Rel (fun p v => DisjunctiveIs s p v ∧ DisjunctiveNew s0 p) dj djv) :
    Does (finishABC hash e CM CMTok value sk d B C CToken dj) s
      (Proto.finishABC hash cp cm cmTok vv skv rnd b c cToken djv)
      (Returns ABCIs (ABCNew s0)) := by
  have hN := he.N
  have hG := he.G
  have hH := he.H
  refine Does.bind (mult_does he hG h1) ?_
  rintro u1G u1Gv t1 l1 ⟨hu1G, nu1G⟩
  refine Does.bind (mult_does (by see) (by see : PIs t1 CMTok cmTok) (by see : Is t1 d.u2 _)) ?_
  rintro u2T u2Tv t2 l2 ⟨hu2T, nu2T⟩
  refine Does.bind (add_does hz (by see) (by see : PIs t2 u1G u1Gv) hu2T) ?_
  rintro T1 T1v t3 l3 hT1'
  have hT1 := hT1'.1
  have nT1 : PNew s T1 := hT1'.new (l1.trans l2) (by new) (by new)
  refine Does.bind (mult_does (by see) (by see : PIs t3 B b) (by see : Is t3 d.u1 _)) ?_
  rintro u1B u1Bv t4 l4 ⟨hu1B, nu1B⟩
  refine Does.bind (mult_does (by see) (by see : PIs t4 e.H cp.H) (by see : Is t4 d.u3 _)) ?_
  rintro u3H u3Hv t5 l5 ⟨hu3H, nu3H⟩
  refine Does.bind (add_does hz (by see) (by see : PIs t5 u1B u1Bv) hu3H) ?_
  rintro T2 T2v t6 l6 hT2'
  have hT2 := hT2'.1
  have nT2 : PNew s T2 := hT2'.new ((((l1.trans l2).trans l3).trans l4).trans l5) (by new) (by new)
  refine Does.bind (challengeOf_does hash (by see : EnvIs t6 e cp)
    (.cons (by see : PIs t6 e.G cp.G) (.cons (by see : PIs t6 e.H cp.H)
      (.cons (by see : PIs t6 CM cm) (.cons (by see : PIs t6 CMTok cmTok)
        (.cons (by see : PIs t6 B b) (.cons (by see : PIs t6 C c)
          (.cons (by see : PIs t6 T1 T1v) (.cons hT2 .nil))))))))) ?_
  rintro ch chv t7 l7 ⟨hch, nch⟩
  refine Does.step (fresh_ok mulF (by see : Is t7 value _) hch) ?_
  rintro a1 t8 l8 ⟨ha1, -⟩
  refine Does.step (fresh_ok addF (by see : Is t8 d.u1 _) ha1) ?_
  rintro a2 t9 l9 ⟨ha2, -⟩
  refine Does.step (fresh_ok modF ha2 (by see : Is t9 e.N _)) ?_
  rintro j t10 l10 ⟨hj, nj⟩
  refine Does.step (freshInverse_does (by see : Is t10 sk _) (by see : Is t10 e.N _)) ?_
  rintro isk t11 l11 ⟨hisk, -⟩
  cases hi : Proto.modInverse skv cp.C.N with
  | none =>
    rw [hi] at hisk
    cases hisk
    exact fun _ _ => trivial
  | some iv =>
    rw [hi] at hisk
    simp only [deref_some, Go.bind_ok]
    refine Does.step (fresh_ok mulF hisk (by see : Is t11 ch _)) ?_
    rintro a3 t12 l12 ⟨ha3, -⟩
    refine Does.step (fresh_ok addF (by see : Is t12 d.u2 _) ha3) ?_
    rintro a4 t13 l13 ⟨ha4, -⟩
    refine Does.step (fresh_ok modF ha4 (by see : Is t13 e.N _)) ?_
    rintro k t14 l14 ⟨hk, nk⟩
    refine Does.step (fresh_ok mulF (by see : Is t14 value _) (by see : Is t14 d.ub _)) ?_
    rintro a5 t15 l15 ⟨ha5, -⟩
    refine Does.step (fresh_ok subF (by see : Is t15 d.uc _) ha5) ?_
    rintro a6 t16 l16 ⟨ha6, -⟩
    refine Does.step (fresh_ok mulF ha6 (by see : Is t16 ch _)) ?_
    rintro a7 t17 l17 ⟨ha7, -⟩
    refine Does.step (fresh_ok addF (by see : Is t17 d.u3 _) ha7) ?_
    rintro l t18 l18 ⟨hl, nl⟩
    refine .pure ⟨.some ⟨⟨by see, by see, by see, by see, by see, by see, by see, hl, by see, ?_⟩,
      nB, nC, nT1.anti h0, nT2.anti h0, by new, by new, by new, by new, nCToken, ?_⟩, rfl⟩
    · cases hd with
      | none => exact .none
      | some hd =>
        refine .some (hd.1.mono ?_)
        later
    · intro x hx
      cases hd with
      | none => cases hx
      | some hd => cases hx; exact hd.2

theorem newABCProof_does (hash : Bytes → Bytes) (hz : ZeroAdd cp.C) (he : EnvIs s e cp)
    {CM CMTok : Point} {cm cmTok : ECPoint} (hCM : PIs s CM cm) (hCMTok : PIs s CMTok cmTok)
    {value sk : Ptr} {vv skv : Int} (hv : Is s value (some vv)) (hsk : Is s sk (some skv))
    (o : Side) (rnd : ABCRand) :
    Does (newABCProof hash e CM CMTok value sk o rnd) s
      (Proto.newABCProof hash cp cm cmTok vv skv o rnd) (Returns ABCIs (ABCNew s)) := by
  have hG := he.G
  have hH := he.H
  have hN := he.N
  have hZ := he.BigZero
  refine Does.step (alloc_does rnd.u1 s) ?_
  rintro u1 t1 l1 ⟨h1, -⟩
  refine Does.step (alloc_does rnd.u2 t1) ?_
  rintro u2 t2 l2 ⟨h2, -⟩
  refine Does.step (alloc_does rnd.u3 t2) ?_
  rintro u3 t3 l3 ⟨h3, -⟩
  refine Does.step (alloc_does rnd.ub t3) ?_
  rintro ub t4 l4 ⟨hb, -⟩
  refine Does.step (alloc_does rnd.uc t4) ?_
  rintro uc t5 l5 ⟨hc, -⟩
  refine Does.bind (mult_does (by see) (by see : PIs t5 e.H cp.H) (by see : Is t5 sk _)) ?_
  rintro skH skHv t6 l6 ⟨hskH, -⟩
  refine Does.bind (mult_does (by see) hskH (by see : Is t6 uc _)) ?_
  rintro CT CTv t7 l7 ⟨hCT, nCT⟩
  refine Does.step (load_ok (by see : Is t7 value _)) ?_
  rintro v t7 - ⟨rfl, rfl⟩
  refine Does.step (load_ok (by see : Is t7 e.BigZero (some 0))) ?_
  rintro z t7 - ⟨rfl, hz'⟩
  subst hz'
  by_cases hl : o = Left ∧ v = 0
  · rw [if_pos hl, if_pos hl]
    refine Does.step (alloc_does 0 t7) ?_
    rintro z0 t8 l8 ⟨hz0, -⟩
    refine Does.bind (pedCommitR_does hz (by see) hz0 (by see : Is t8 ub _)) ?_
    rintro B Bv t9 l9 ⟨hB, nB⟩
    refine Does.step (alloc_does 0 t9) ?_
    rintro z1 t10 l10 ⟨hz1, -⟩
    refine Does.bind (pedCommitR_does hz (by see) hz1 (by see : Is t10 uc _)) ?_
    rintro C Cv t11 l11 ⟨hC, nC⟩
    refine Does.bind (sub_does hz (by see) hC (by see : PIs t11 e.G cp.G)) ?_
    rintro D Dv t12 l12 ⟨hD, -⟩
    refine Does.bind (newDisjunctiveProof_does hash hz (by see : EnvIs t12 e cp)
      (by see : PIs t12 CM cm) (by see : PIs t12 CMTok cmTok) (by see : PIs t12 e.H cp.H) hD
      (by see : Is t12 sk _) Left rnd.d1 rnd.d2 rnd.d3) ?_
    rintro r rv t13 l13 ⟨hr, hr2⟩
    have l12' : s ≼ t12 := ((((((((((l1.trans l2).trans l3).trans l4).trans l5).trans l6).trans
      l7).trans l8).trans l9).trans l10).trans l11).trans l12
    rw [hr2]
    by_cases hs : rv.2.isSome
    · rw [if_pos hs, if_pos hs]
      exact .pure ⟨.some ⟨emptyABC_is _, emptyABC_new⟩, rfl⟩
    · rw [if_neg hs, if_neg hs]
      have nB' : PNew s B := by clear l12'; new
      have nC' : PNew s C := by clear l12'; new
      have nCT' : PNew s CT := by clear l12'; new
      refine finishABC_does hash hz (l12'.trans l13) (by clear l12'; see) (by clear l12'; see)
        (by clear l12'; see) (by clear l12'; see) (by clear l12'; see) (by clear l12'; see) nB' nC'
        nCT' (by clear l12'; see) (by clear l12'; see) (by clear l12'; see) (by clear l12'; see)
        (by clear l12'; see) (by clear l12'; see) (by clear l12'; see) ?_
      cases h1' : r.1 <;> cases h2' : rv.1 <;> rw [h1', h2'] at hr
      · exact .none
      · cases hr
      · cases hr
      · cases hr with
        | some hr => exact .some ⟨hr.1, hr.2.anti l12'⟩
  · rw [if_neg hl, if_neg hl]
    by_cases hR : o = Right ∧ v ≠ 0
    · rw [if_pos hR, if_pos hR]
      refine Does.step (freshInverse_does (by see : Is t7 value _) (by see : Is t7 e.N _)) ?_
      rintro inv t8 l8 ⟨hinv, -⟩
      refine Does.bind (pedCommitR_does hz (by see) hinv (by see : Is t8 ub _)) ?_
      rintro B Bv t9 l9 ⟨hB, nB⟩
      refine Does.step (alloc_does 1 t9) ?_
      rintro z1 t10 l10 ⟨hz1, -⟩
      refine Does.bind (pedCommitR_does hz (by see) hz1 (by see : Is t10 uc _)) ?_
      rintro C Cv t11 l11 ⟨hC, nC⟩
      refine Does.bind (sub_does hz (by see) hC (by see : PIs t11 e.G cp.G)) ?_
      rintro D Dv t12 l12 ⟨hD, -⟩
      refine Does.bind (newDisjunctiveProof_does hash hz (by see : EnvIs t12 e cp)
        (by see : PIs t12 CM cm) (by see : PIs t12 CMTok cmTok) (by see : PIs t12 e.H cp.H) hD
        (by see : Is t12 uc _) Right rnd.d1 rnd.d2 rnd.d3) ?_
      rintro r rv t13 l13 ⟨hr, hr2⟩
      have l12' : s ≼ t12 := ((((((((((l1.trans l2).trans l3).trans l4).trans l5).trans l6).trans
        l7).trans l8).trans l9).trans l10).trans l11).trans l12
      rw [hr2]
      by_cases hs : rv.2.isSome
      · rw [if_pos hs, if_pos hs]
        exact .pure ⟨.some ⟨emptyABC_is _, emptyABC_new⟩, rfl⟩
      · rw [if_neg hs, if_neg hs]
        have nB' : PNew s B := by clear l12'; new
        have nC' : PNew s C := by clear l12'; new
        have nCT' : PNew s CT := by clear l12'; new
        refine finishABC_does hash hz (l12'.trans l13) (by clear l12'; see) (by clear l12'; see)
          (by clear l12'; see) (by clear l12'; see) (by clear l12'; see) (by clear l12'; see) nB' nC'
          nCT' (by clear l12'; see) (by clear l12'; see) (by clear l12'; see) (by clear l12'; see)
          (by clear l12'; see) (by clear l12'; see) (by clear l12'; see) ?_
        cases h1' : r.1 <;> cases h2' : rv.1 <;> rw [h1', h2'] at hr
        · exact .none
        · cases hr
        · cases hr
        · cases hr with
          | some hr => exact .some ⟨hr.1, hr.2.anti l12'⟩
    · rw [if_neg hR, if_neg hR]
      exact .pure ⟨.some ⟨emptyABC_is _, emptyABC_new⟩, rfl⟩

theorem abcVerify_does (hash : Bytes → Bytes) (hz : ZeroAdd cp.C) (he : EnvIs s e cp)
    {pr : Option ABC} {pv : Option ABCProof} (hp : Option.Rel (ABCIs s) pr pv)
    {CM CMTok : Point} {cm cmTok : ECPoint} (hCM : PIs s CM cm) (hCMTok : PIs s CMTok cmTok) :
    Does (abcVerify hash e pr CM CMTok) s (Proto.abcVerify hash cp pv cm cmTok) Result := by
  cases hp with
  | none => trivial
  | @some p v h =>
    have hG := he.G
    have hH := he.H
    obtain ⟨hB, hC, hT1, hT2, hch, hj, hk, hl, -, hd⟩ := h
    obtain ⟨pB, pC, pT1, pT2, pCh, pj, pk, pl, pTok, pd⟩ := p
    obtain ⟨vB, vC, vT1, vT2, vCh, vj, vk, vl, vTok, vd⟩ := v
    dsimp only at hB hC hT1 hT2 hch hj hk hl hd
    unfold abcVerify Proto.abcVerify
    simp only [deref_some, Go.bind_ok]
    refine Does.step (Does.lift (.ok _) s) ?_
    rintro _ t - ⟨rfl, rfl⟩
    dsimp only
    refine Does.bind (sub_does hz he hC hG) ?_
    rintro D Dv t1 l1 ⟨hD, -⟩
    have hd1 : Option.Rel (DisjunctiveIs t1) pd vd := by
      cases hd with
      | none => exact .none
      | some hd => exact .some (hd.mono l1)
    refine Does.bind (disjunctiveVerify_does hash hz (by see) hd1 (by see : PIs t1 CM cm)
      (by see : PIs t1 CMTok cmTok) (by see : PIs t1 e.H cp.H) hD) ?_
    rintro st _ t2 l2 rfl
    by_cases hs : st.2.isSome
    · rw [if_pos hs, if_pos hs]
      exact .pure rfl
    · rw [if_neg hs, if_neg hs]
      refine Does.bind (challengeOf_does hash (by see : EnvIs t2 e cp)
        (.cons (by see : PIs t2 e.G cp.G) (.cons (by see : PIs t2 e.H cp.H)
          (.cons (by see : PIs t2 CM cm) (.cons (by see : PIs t2 CMTok cmTok)
            (.cons (by see : PIs t2 pB vB) (.cons (by see : PIs t2 pC vC)
              (.cons (by see : PIs t2 pT1 vT1) (.cons (by see : PIs t2 pT2 vT2) .nil))))))))) ?_
      rintro ch chv t3 l3 ⟨hc, -⟩
      refine Does.bind (cmpEq_does hc (by see : Is t3 pCh vCh)) ?_
      rintro eq _ t3 - ⟨rfl, rfl⟩
      cases eq with
      | false => exact .pure rfl
      | true =>
        refine Does.bind (mult_does (by see) (by see : PIs t3 CM cm) hc) ?_
        rintro a av t4 l4 ⟨ha, -⟩
        refine Does.bind (add_does hz (by see) ha (by see : PIs t4 pT1 vT1)) ?_
        rintro b bv t5 l5 ⟨hb, -⟩
        refine Does.bind (mult_does (by see) (by see : PIs t5 e.G cp.G) (by see : Is t5 pj vj)) ?_
        rintro c cv t6 l6 ⟨hjG, -⟩
        refine Does.bind (mult_does (by see) (by see : PIs t6 CMTok cmTok) (by see : Is t6 pk vk)) ?_
        rintro d dv t7 l7 ⟨hkT, -⟩
        refine Does.bind (add_does hz (by see) (by see : PIs t7 c cv) hkT) ?_
        rintro f fv t8 l8 ⟨hf, -⟩
        refine Does.bind (equal_does (by see : PIs t8 b bv) hf) ?_
        rintro ok _ t8 - ⟨rfl, rfl⟩
        cases ok with
        | false => exact .pure rfl
        | true =>
          refine Does.bind (mult_does (by see) (by see : PIs t8 pC vC) (by see : Is t8 ch _)) ?_
          rintro a av t9 l9 ⟨ha, -⟩
          refine Does.bind (add_does hz (by see) ha (by see : PIs t9 pT2 vT2)) ?_
          rintro b bv t10 l10 ⟨hb, -⟩
          refine Does.bind (mult_does (by see) (by see : PIs t10 pB vB) (by see : Is t10 pj vj)) ?_
          rintro c cv t11 l11 ⟨hjB, -⟩
          refine Does.bind (mult_does (by see) (by see : PIs t11 e.H cp.H) (by see : Is t11 pl vl)) ?_
          rintro d dv t12 l12 ⟨hlH, -⟩
          refine Does.bind (add_does hz (by see) (by see : PIs t12 c cv) hlH) ?_
          rintro f fv t13 l13 ⟨hf, -⟩
          refine Does.bind (equal_does (by see : PIs t13 b bv) hf) ?_
          rintro ok _ t - ⟨rfl, rfl⟩
          cases ok <;> exact .pure rfl

theorem newInequalityProof_does (hash : Bytes → Bytes) (hz : ZeroAdd cp.C) (he : EnvIs s e cp)
    {A B TA TB : Point} {av bv tav tbv : ECPoint} (hA : PIs s A av) (hB : PIs s B bv)
    (hTA : PIs s TA tav) (hTB : PIs s TB tbv)
    {a b sk : Ptr} {x y skv : Int} (ha : Is s a (some x)) (hb : Is s b (some y))
    (hsk : Is s sk (some skv)) (rnd : ABCRand) :
    Does (newInequalityProof hash e A B TA TB a b sk rnd) s
      (Proto.newInequalityProof hash cp av bv tav tbv x y skv rnd) (Returns ABCIs (ABCNew s)) := by
  have hq : Proto.newInequalityProof hash cp av bv tav tbv x y skv rnd =
      (Proto.cmpEq (some x) (some y) >>= fun same => if same then
        .ok (none, some "a and b should not be equal...") else do
          let CM ← Proto.sub cp av bv
          let CMTok ← Proto.sub cp tav tbv
          let r ← Proto.newABCProof hash cp CM CMTok (x - y) skv Right rnd
          if r.2.isSome then pure (none, r.2)
          else pure (r.1, none)) := by
    unfold Proto.newInequalityProof
    by_cases h : x = y
    · simp [h, Proto.cmpEq, Go.bind_ok]
    · simp [h, Proto.cmpEq, Go.bind_ok]
  rw [hq]
  refine Does.bind (cmpEq_does ha hb) ?_
  rintro same _ s - ⟨rfl, rfl⟩
  cases same with
  | true => exact .pure ⟨.none, rfl⟩
  | false =>
    refine Does.step (fresh_ok subF ha hb) ?_
    rintro v t1 l1 ⟨hv, -⟩
    refine Does.bind (sub_does hz (by see) (by see : PIs t1 A av) (by see : PIs t1 B bv)) ?_
    rintro CM CMv t2 l2 ⟨hCM, -⟩
    refine Does.bind (sub_does hz (by see) (by see : PIs t2 TA tav) (by see : PIs t2 TB tbv)) ?_
    rintro CT CTv t3 l3 ⟨hCT, -⟩
    refine Does.bind (newABCProof_does hash hz (by see) (by see : PIs t3 CM CMv) hCT
      (by see : Is t3 v _) (by see : Is t3 sk _) Right rnd) ?_
    rintro r rv t4 l4 ⟨hr, hr2⟩
    rw [hr2]
    by_cases hs : rv.2.isSome
    · rw [if_pos hs, if_pos hs]
      exact .pure ⟨.none, rfl⟩
    · rw [if_neg hs, if_neg hs]
      refine .pure ⟨?_, rfl⟩
      exact (Returns.imp (R := ABCIs) (Q := ABCNew t3) (Q' := ABCNew s)
        (fun a h => h.anti ((l1.trans l2).trans l3)) (r := (r.1, none)) (r' := (rv.1, none))
        ⟨hr, rfl⟩).1

theorem inequalityVerify_does (hash : Bytes → Bytes) (hz : ZeroAdd cp.C) (he : EnvIs s e cp)
    {pr : Option ABC} {pv : Option ABCProof} (hp : Option.Rel (ABCIs s) pr pv)
    {CM CMTok : Point} {cm cmTok : ECPoint} (hCM : PIs s CM cm) (hCMTok : PIs s CMTok cmTok) :
    Does (inequalityVerify hash e pr CM CMTok) s (Proto.inequalityVerify hash cp pv cm cmTok)
      Result := by
  cases hp with
  | none => exact .pure rfl
  | some h => exact abcVerify_does hash hz he (.some h) hCM hCMTok

end Zk.Mem
