import Verif.Mem.ParRange

/-!
# All calls with their goroutines
-/

namespace Zk.Mem

open Zk Zk.Proto

variable {Bad : Prop} {α β : Type} {hash : Bytes → Bytes} {e : Env} {cp : Params}

theorem TWp.lifted {J : Job → Cells → Slots → (Go (Point × Own) → Prop) → Prop} {x : M α} {V s : Cells}
    {O : Nat → Prop} {S : Slots} {Y : Nat → Option Pend} {g : Go β} {R : Cells → α → β → Prop}
    (hs : s ≼ V) (hx : Does x V g R) :
    TWp J Bad (liftM x : T α) ⟨V, O, S, Y⟩ (AgreesT s g R) := by
  have := TWp.does (J := J) (Bad := Bad) (k := pure) (O := O) (S := S) (Y := Y) (oMono_agreesT s g R) hx
    (fun h => h) fun a b V' h1 h2 h3 => ⟨b, h1, hs.trans h2, h3⟩
  rwa [bind_pure] at this

theorem newRangeProofPar_wp (hz : ZeroAdd cp.C) {s : Cells} (he : EnvIs s e cp) {value : Ptr}
    {v : Int} (hv : Is s value (some v)) (rnd : Nat → BitRand)
    (hbad : Proto.newRangeProof hash cp v rnd = .panic → Bad) :
    TWp (WWp hash e) Bad (newRangeProofPar hash e value rnd)
      ⟨s, fun _ => False, fun _ => none, fun _ => none⟩
      (AgreesT s (Proto.newRangeProof hash cp v rnd) RangeResIs) := by
  unfold newRangeProofPar Proto.newRangeProof
  unfold Proto.newRangeProof at hbad
  refine TWp.load' hv (TWp.load' he.BigZero ?_)
  by_cases h1 : v > 1099511627776
  · rw [if_pos h1, if_pos h1]
    exact ⟨_, rfl, .refl s, .none, .nil, rfl⟩
  · rw [if_neg h1] at hbad ⊢
    rw [if_neg h1]
    by_cases h2 : v < 0
    · rw [if_pos h2, if_pos h2]
      exact ⟨_, rfl, .refl s, .none, .nil, rfl⟩
    · rw [if_neg h2] at hbad ⊢
      rw [if_neg h2]
      generalize proofSize = n at hbad ⊢
      exact proveRangePar_wp hz he n hv rnd hbad

/-! ### RangeProof.Verify -/

/-- What a goroutine of the verifier has done (specification; rangeproof.go:239-260). -/
def PointPost (g : Go ECPoint) : Post := fun V _ P => ∃ q, g = .ok q ∧ PIs V P q

theorem pointPost_mono (g : Go ECPoint) : (PointPost g).Mono := fun _ _ _ _ _ h => h

theorem verify_wp (hz : ZeroAdd cp.C) {U : Cells} (he : EnvIs U e cp) (c idx : Nat) {E : Ptr}
    {Ev : Option Int} (hE : Is U E Ev) {rpt : RangeTuple} {rv : RangeProofTuple}
    (hC : PIs U rpt.C rv.C) (hS : Is U rpt.S rv.S)
    (hb : Proto.verifyGen hash cp idx Ev rv = .panic → Bad) :
    WWp hash e (.verify c idx E rpt) U (fun _ => none)
      (Ends Bad (PointPost (Proto.verifyGen hash cp idx Ev rv))) := by
  unfold WWp Job.body
  refine TWp.simple (M.lift_simple _ _) ?_
  show Wp (T.on (M.lift _) _) _ _ _
  rw [M.lift_on]
  refine Does.wp (verifyGen_does hash hz he idx hE hC hS) hb ?_
  intro P q t hg _ h O' _
  exact ⟨q, hg, h.1⟩

theorem goVerify_wp (hz : ZeroAdd cp.C) {V : Cells} (he : EnvIs V e cp) {c : Nat} {E : Ptr}
    {Ev : Option Int} (hE : Is V E Ev) {S : Slots} {k : Option (Bool × Option Err) → T β}
    {Q : Go (β × Own) → Prop} :
    ∀ {ts : List RangeTuple} {vs : List RangeProofTuple} {n : Nat} {O : Nat → Prop}
      {Y : Nat → Option Pend} {ps : List (Nat × Post)},
    List.Forall₂ (fun a b => PIs V a.C b.C ∧ Is V a.S b.S) ts vs →
    (∀ p ∈ ((vs.takeWhile fun t => !tupleNil t).zipIdx n),
      Proto.verifyGen hash cp p.2 Ev p.1 = .panic → Bad) →
    Y c = some (.chan ps) →
    (vs.any tupleNil = true → ∀ O' Y', TWp (WWp hash e) Bad
      (k (some (reject "entry has nil point or scalar"))) ⟨V, O', S, Y'⟩ Q) →
    (vs.any tupleNil = false → ∀ O', TWp (WWp hash e) Bad (k none) ⟨V, O', S, Function.update Y c
      (some (.chan (ps ++ (vs.zipIdx n).map fun p =>
        (p.2, PointPost (Proto.verifyGen hash cp p.2 Ev p.1)))))⟩ Q) →
    TWp (WWp hash e) Bad (goVerify c E (ts.zipIdx n) >>= k) ⟨V, O, S, Y⟩ Q := by
  intro ts
  induction ts with
  | nil =>
    intro vs n O Y ps hT _ hY _ hk
    cases hT
    have := hk rfl O
    rw [List.zipIdx_nil, List.map_nil, List.append_nil] at this
    rw [show Function.update Y c (some (.chan ps)) = Y from by
      rw [show some (Pend.chan ps) = Y c from hY.symm, Function.update_eq_self]] at this
    exact this
  | cons t ts ih =>
    intro vs n O Y ps hT hb hY hn hk
    cases hT with
    | @cons _ v _ vs h hT =>
      have hnil : (t.C.X.isNone || t.S.isNone) = tupleNil v := by
        have := tupleNil_eq (.cons h .nil : List.Forall₂ _ [t] [v])
        simpa using this
      rw [List.zipIdx_cons]
      show TWp _ _ ((if t.C.X.isNone || t.S.isNone then _ else _) >>= k) _ _
      rw [hnil]
      rw [List.any_cons] at hn hk
      cases hv : tupleNil v with
      | true =>
        rw [if_pos rfl]
        rw [hv] at hn
        exact hn rfl _ _
      | false =>
        rw [if_neg (by simp)]
        rw [hv] at hn hk
        rw [List.takeWhile_cons, hv, Bool.not_false, if_pos rfl, List.zipIdx_cons] at hb
        refine ⟨V, fun _ => none, S, PointPost (Proto.verifyGen hash cp n Ev v), _, .refl V,
          ⟨fun _ _ h => (by cases h), .refl _, fun _ => .inl rfl⟩, pointPost_mono _,
          verify_wp hz he c n hE h.1 h.2 (hb _ (List.mem_cons_self ..)), .chan hY, ?_⟩
        refine ih hT (fun p hp => hb p (List.mem_cons_of_mem _ hp)) (Function.update_self ..)
          (fun h O' Y' => hn h O' Y') ?_
        intro h O'
        have := hk h O'
        rw [List.zipIdx_cons, List.map_cons] at this
        rw [Function.update_idem, List.append_assoc]
        exact this

theorem receive_wp (hz : ZeroAdd cp.C) {c n : Nat} {g : Nat → Go ECPoint}
    {k : Point × List Point → T β} {Q : Go (β × Own) → Prop} (hQ : OMono Q) :
    ∀ {ts : List RangeTuple} {vs : List RangeProofTuple} {V : Cells} {O : Nat → Prop} {S : Slots}
      {Y : Nat → Option Pend} {js : List Nat} {total : Point} {tv : ECPoint} {Rs : List Point},
    EnvIs V e cp → List.Forall₂ (fun a b => PIs V a.C b.C ∧ Is V a.S b.S) ts vs →
    PIs V total tv → Y c = some (.chan (js.map fun i => (i, PointPost (g i)))) → js.length = ts.length →
    js.Nodup → Rs.length = n → (∀ i, i < n → i ∈ js ∨ ∃ q P, g i = .ok q ∧ Rs[i]? = some P ∧ PIs V P q) →
    (vs.foldlM (fun acc t => Proto.add cp acc t.C) tv = .panic → Q .panic) →
    (∀ V' O' S' Y' tot totv Rs', V ≼ V' → vs.foldlM (fun acc t => Proto.add cp acc t.C) tv = .ok totv →
      PIs V' tot totv → Rs'.length = n →
      (∀ i, i < n → ∃ q P, g i = .ok q ∧ Rs'[i]? = some P ∧ PIs V' P q) →
      TWp (WWp hash e) Bad (k (tot, Rs')) ⟨V', O', S', Y'⟩ Q) →
    TWp (WWp hash e) Bad (receive e c ts total Rs >>= k) ⟨V, O, S, Y⟩ Q := by
  intro ts
  induction ts with
  | nil =>
    intro vs V O S Y js total tv Rs he hT ht _ hl _ hR hg _ hk
    cases hT
    cases List.length_eq_zero_iff.1 hl
    exact hk V O S Y total tv Rs (.refl V) rfl ht hR fun i hi => (hg i hi).resolve_left (by simp)
  | cons t ts ih =>
    intro vs V O S Y js total tv Rs he hT ht hY hl hnd hR hg hp hk
    cases hT with
    | @cons _ v _ vs h hT =>
      rw [List.foldlM_cons] at hp hk
      have hne : js.map (fun i => (i, PointPost (g i))) ≠ [] := by
        intro h0
        rw [List.map_eq_nil_iff] at h0
        rw [h0] at hl
        cases hl
      refine ⟨_, hY, hne, ?_⟩
      intro pre p suf hps V' S' U P hV _ hU _ hpost
      obtain ⟨pre, j', rfl, rfl, h2⟩ := List.map_eq_append_iff.1 hps
      obtain ⟨i, suf, rfl, rfl, rfl⟩ := List.map_eq_cons_iff.1 h2
      obtain ⟨q, hq, hPq⟩ := hpost
      dsimp only at hV hq
      show TWp _ _ ((liftM (add e total t.C) >>= fun total => receive e c ts total (Rs.set i P)) >>= k) _ _
      rw [bind_assoc]
      refine TWp.does hQ (add_does hz (he.mono hV) (ht.mono hV) (h.1.mono hV)) ?_ ?_
      · intro h0
        refine hp ?_
        rw [h0]
        rfl
      · rintro tot totv V₂ h0 hV₂ ⟨htot, -⟩
        rw [h0] at hp hk
        have l2 := hV.trans hV₂
        have hnd' := List.nodup_middle.1 hnd
        rw [List.nodup_cons] at hnd'
        refine ih (js := pre ++ suf) (he.mono l2) (hT.imp fun _ _ h => ⟨h.1.mono l2, h.2.mono l2⟩) htot
          (by rw [Function.update_self, List.map_append]) ?_ hnd'.2 (by rw [List.length_set, hR]) ?_
          hp ?_
        · simp only [List.length_append, List.length_cons] at hl ⊢
          omega
        · intro j hj
          by_cases hji : j = i
          · subst hji
            refine .inr ⟨q, P, hq, ?_, hPq.mono (hU.trans hV₂)⟩
            rw [List.getElem?_set_self (by rw [hR]; exact hj)]
          · rcases hg j hj with h1 | ⟨q', P', h1, h2, h3⟩
            · left
              simp only [List.mem_append, List.mem_cons] at h1 ⊢
              rcases h1 with h1 | h1 | h1
              · exact .inl h1
              · exact absurd h1 hji
              · exact .inr h1
            · refine .inr ⟨q', P', h1, ?_, h3.mono l2⟩
              rw [List.getElem?_set_ne (Ne.symm hji)]
              exact h2
        · intro V' O' S' Y' tot' totv' Rs' h1 h2 h3 h4 h5
          exact hk V' O' S' Y' tot' totv' Rs' (l2.trans h1) h2 h3 h4 h5

theorem answer_does (hash : Bytes → Bytes) {s : Cells} {p : Range} {v : RangeProof} (h : RangeIs s p v)
    {comm : Point} {cv : ECPoint} (hc : PIs s comm cv) {Rs : List Point} {Rvs : List ECPoint}
    (hR : List.Forall₂ (PIs s) Rs Rvs) {tot : Point} {totv : ECPoint} (ht : PIs s tot totv) :
    Does (answer hash p comm Rs tot) s (finishVerify hash v cv Rvs totv) Result := by
  obtain ⟨hA, hE, -⟩ := h
  have hq : finishVerify hash v cv Rvs totv = (do
      let bs ← Rvs.mapM Proto.pointBytes
      let eq ← Proto.cmpEq v.ProofE (some (setBytes (hash bs.flatten) : Int))
      if !eq then pure (reject "calculatedE0 does not match")
      else do
        let ok ← Proto.equal totv v.ProofAggregate
        if !ok then pure (reject "ProofAggregate does not match totalPoint")
        else do
          let ok ← Proto.equal cv totv
          if !ok then pure (reject "ProofAggregate does not match commitment")
          else pure accept) := by
    unfold finishVerify hashAll
    rw [bind_assoc]
    rfl
  rw [hq]
  refine Does.bind (mapM_pointBytes_does hR) ?_
  rintro bs _ t4 - ⟨rfl, rfl⟩
  refine Does.step (alloc_does _ t4) ?_
  rintro e0 t5 l5 ⟨h0, -⟩
  refine Does.bind (cmpEq_does (hE.mono l5) h0) ?_
  rintro eq _ t5 - ⟨rfl, rfl⟩
  cases eq with
  | false => exact .pure rfl
  | true =>
    refine Does.bind (equal_does (ht.mono l5) (hA.mono l5)) ?_
    rintro ok _ t5 - ⟨rfl, rfl⟩
    cases ok with
    | false => exact .pure rfl
    | true =>
      refine Does.bind (equal_does (hc.mono l5) (ht.mono l5)) ?_
      rintro ok _ t5 - ⟨rfl, rfl⟩
      cases ok <;> exact .pure rfl

/-- A goroutine of the verifier panics (specification; rangeproof.go:277-289: those of the entries before
the first nil entry are started). -/
def WorkerPanics (hash : Bytes → Bytes) (cp : Params) (v : RangeProof) : Prop :=
  ∃ p ∈ (v.ProofTuples.takeWhile fun t => !tupleNil t).zipIdx,
    Proto.verifyGen hash cp p.2 v.ProofE p.1 = .panic

theorem got_points {t : Cells} {g : Nat → Go ECPoint} : ∀ {Rs : List Point} {n : Nat},
    (∀ i, i < Rs.length → ∃ q P, g (n + i) = .ok q ∧ Rs[i]? = some P ∧ PIs t P q) →
    ∃ Rvs, (List.range' n Rs.length).mapM g = .ok Rvs ∧ List.Forall₂ (PIs t) Rs Rvs
  | [], _, _ => ⟨[], rfl, .nil⟩
  | R :: Rs, n, h => by
    obtain ⟨q, P, h1, h2, h3⟩ := h 0 (by simp)
    cases h2
    obtain ⟨Rvs, h4, h5⟩ := got_points (t := t) (g := g) (Rs := Rs) (n := n + 1) fun i hi => by
      obtain ⟨q, P, h1, h2, h3⟩ := h (i + 1) (by simpa using hi)
      exact ⟨q, P, by rw [← h1]; congr 1; omega, by simpa using h2, h3⟩
    refine ⟨q :: Rvs, ?_, .cons h3 h5⟩
    rw [List.length_cons, List.range'_succ, List.mapM_cons, show g n = .ok q from h1, Go.bind_ok, h4]
    rfl

theorem rangeVerifyPar_wp (hz : ZeroAdd cp.C) {s : Cells} (he : EnvIs s e cp) {pr : Option Range}
    {pv : Option RangeProof} (hp : Option.Rel (RangeIs s) pr pv) {comm : Point} {cv : ECPoint}
    (hc : PIs s comm cv) (hbad : ∀ v, pv = some v → WorkerPanics hash cp v → Bad) :
    TWp (WWp hash e) Bad (rangeVerifyPar hash e pr comm)
      ⟨s, fun _ => False, fun _ => none, fun _ => none⟩
      (AgreesT s (Proto.rangeVerify hash cp pv cv) Result) := by
  cases hp with
  | none => exact ⟨_, rfl, .refl s, rfl⟩
  | @some p v h =>
    have hb := hbad v rfl
    clear hbad
    have hall := h
    obtain ⟨hA, hE, hT⟩ := h
    unfold rangeVerifyPar Proto.rangeVerify
    refine fun x hx y hy c _ => ?_
    dsimp only at hx hy ⊢
    set s2 : Cells := put (put s x 0) y 0 with hs2
    have l1 : s ≼ put s x 0 := le_put hx 0
    have l2 : put s x 0 ≼ s2 := le_put hy 0
    have l12 := l1.trans l2
    have hT2 : List.Forall₂ (fun a b => PIs s2 a.C b.C ∧ Is s2 a.S b.S) p.ProofTuples
      v.ProofTuples := hT.imp fun _ _ h => ⟨h.1.mono l12, h.2.mono l12⟩
    refine goVerify_wp hz (he.mono l12) (hE.mono l12) (ps := []) hT2 (fun p hp hpan => hb ⟨p, hp, hpan⟩)
      (Function.update_self ..) ?_ ?_
    · intro hn O' Y'
      refine ⟨_, ?_, l12, rfl⟩
      rw [if_pos hn]
    · intro hn O'
      rw [if_neg (by rw [hn]; simp)]
      set g : Nat → Go ECPoint := fun i =>
        deref v.ProofTuples[i]? >>= fun t => Proto.verifyGen hash cp i v.ProofE t with hg
      have hmap : (v.ProofTuples.zipIdx.map fun p =>
          (p.2, PointPost (Proto.verifyGen hash cp p.2 v.ProofE p.1))) =
          (List.range v.ProofTuples.length).map fun i => (i, PointPost (g i)) := by
        apply List.ext_getElem
        · simp
        · intro i h1 h2
          have hi : i < v.ProofTuples.length := by simpa using h1
          simp [hg, List.getElem?_eq_getElem hi, deref_some]
      have hmapM : (v.ProofTuples.zipIdx.mapM fun t => Proto.verifyGen hash cp t.2 v.ProofE t.1) =
          (List.range' 0 v.ProofTuples.length).mapM g := by
        apply mapM_eq_of_map_eq
        apply List.ext_getElem
        · simp
        · intro i h1 h2
          have hi : i < v.ProofTuples.length := by simpa using h1
          simp [hg, List.getElem?_eq_getElem hi, deref_some]
      rw [hmap, hmapM]
      refine receive_wp hz (oMono_agreesT _ _ _) (n := v.ProofTuples.length) (g := g) (tv := Zero)
        (he.mono l12) hT2 ⟨(is_put s x 0).mono l2, is_put _ y 0⟩ (by rw [Function.update_self]; rfl)
        (by rw [List.length_range, hT.length_eq]) List.nodup_range
        (by rw [List.length_map, hT.length_eq]) (fun i hi => .inl (List.mem_range.2 hi)) ?_ ?_
      · intro hp
        show _ = Go.panic
        rw [hp]
        cases (List.range' 0 v.ProofTuples.length).mapM g <;> rfl
      · intro V' O₂ S' Y' tot totv Rs' hV htot hPt hlen hRs
        obtain ⟨Rvs, h4, h5⟩ := got_points (t := V') (g := g) (Rs := Rs') (n := 0) fun i hi => by
          rw [Nat.zero_add]
          exact hRs i (hlen ▸ hi)
        rw [← hlen, h4, htot, Go.bind_ok, Go.bind_ok]
        have l3 := l12.trans hV
        exact TWp.lifted l3 (answer_does hash (hall.mono l3) (hc.mono l3) h5 hPt)

/-- When a call may crash the process (specification; for example rangeproof.go:288): the function
panics, or a goroutine it starts does. -/
def MayCrash (hash : Bytes → Bytes) (cp : Params) (v : VCall) : Prop :=
  runValues hash cp v = .panic ∨ ∃ pr comm, v = .verifyRange (some pr) comm ∧ WorkerPanics hash cp pr

theorem TWp.ends {J : Job → Cells → Slots → (Go (Point × Own) → Prop) → Prop} {x : T α} {f : α → Res}
    {o : Own} {s : Cells} {g : Go β} {f' : β → VRes} {R : Cells → α → β → Prop}
    (hx : TWp J Bad x o (AgreesT s g R)) (hR : ∀ t a b, R t a b → ResIs t (f a) (f' b)) :
    TWp J Bad (x >>= fun r => pure (f r)) o (AgreesT s (g >>= fun r => pure (f' r)) ResIs) := by
  refine TWp.bind (hx.imp ?_ ?_)
  · rintro V₁ O₁ O₂ S₁ Y₁ a _ ⟨b, hb, h1, h2⟩
    refine ⟨f' b, ?_, h1, hR _ _ _ h2⟩
    rw [hb]
    rfl
  · intro h
    show _ = Go.panic
    rw [show g = .panic from h]
    rfl

/-- Every call, with the goroutines it starts, does to what it sees what the function does to the
values. -/
theorem callPar_wp (hz : ZeroAdd cp.C) {s : Cells} (he : EnvIs s e cp) {c : Call} {v : VCall}
    (h : CallIs s c v) :
    TWp (WWp hash e) (MayCrash hash cp v) (callPar hash e c)
      ⟨s, fun _ => False, fun _ => none, fun _ => none⟩
      (AgreesT s (runValues hash cp v) ResIs) := by
  have hd := run_does hash hz he h
  cases h with
  | newRange rnd h1 =>
    refine TWp.ends (newRangeProofPar_wp hz he h1 rnd ?_) fun t a b h => .range h.1 h.2.1 h.2.2
    intro hp
    left
    show Proto.newRangeProof _ _ _ _ >>= _ = _
    rw [hp]
    rfl
  | verifyRange h1 h2 =>
    refine TWp.ends (rangeVerifyPar_wp hz he h1 h2 ?_) fun t a b h => ?_
    · rintro v rfl h
      exact .inr ⟨v, _, rfl, h⟩
    · cases h
      exact .verdict a
  | _ => exact TWp.lifted (.refl s) hd

end Zk.Mem
