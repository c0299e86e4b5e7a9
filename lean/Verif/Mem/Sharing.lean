import Verif.Mem.CallLemmas

/-!
# Which numbers a result may share with its arguments
-/

namespace Zk.Mem

open Zk Zk.Proto

/-- The pointers of a point, crypto.go:70-72. -/
def Point.ptrs (p : Point) : List Ptr := [p.X, p.Y]

/-- The pointers of a proof, disjunctive.go:45-53. -/
def Disjunctive.ptrs (p : Disjunctive) : List Ptr :=
  p.T1.ptrs ++ p.T2.ptrs ++ [p.C, p.C1, p.C2, p.S1, p.S2]

/-- The pointers of a result, crypto.go:86, gspfs.go:27-32, equivalence.go:29-34,
consistency.go:35-41, disjunctive.go:45-53, abc.go:44-55, rangeproof.go:35-39. -/
def Res.ptrs : Res → List Ptr
  | .bool _ => []
  | .point p => p.ptrs
  | .bytes _ => []
  | .pointNum r => r.1.ptrs ++ [r.2]
  | .verdict _ => []
  | .gspfs r => match r.1 with
    | none => []
    | some p => p.Base.ptrs ++ p.RandCommit.ptrs ++ [p.HiddenValue, p.Challenge]
  | .equivalence r => match r.1 with
    | none => []
    | some p => p.UG.ptrs ++ p.UH.ptrs ++ [p.Challenge, p.HiddenValue]
  | .consistency r => match r.1 with
    | none => []
    | some p => p.T1.ptrs ++ p.T2.ptrs ++ [p.Challenge, p.S1, p.S2]
  | .disjunctive r => match r.1 with
    | none => []
    | some p => p.ptrs
  | .abc r => match r.1 with
    | none => []
    | some p => p.B.ptrs ++ p.C.ptrs ++ p.T1.ptrs ++ p.T2.ptrs ++ [p.Challenge, p.j, p.k, p.l] ++
        p.CToken.ptrs ++ (match p.disjuncAC with | none => [] | some d => d.ptrs)
  | .range r => r.2.1 :: match r.1 with
    | none => []
    | some p => p.ProofAggregate.ptrs ++ [p.ProofE] ++ p.ProofTuples.flatMap fun t => t.C.ptrs ++ [t.S]

/-- The pointers of the arguments and parameters that the result of a call may contain (specification;
crypto.go:113-149, gspfs.go:68, rangeproof.go:79-81). -/
def mayShare (e : Env) : Call → List Ptr
  | .add p p2 => p.ptrs ++ p2.ptrs
  | .neg p => [p.X]
  | .sub p p2 => p.ptrs ++ [p2.X]
  | .newGSPFS _ _ _ => e.G.ptrs
  | .newGSPFSBase base _ _ _ => base.ptrs
  | .newRange _ _ => e.HPoints.flatMap Point.ptrs
  | _ => []

/-- Every pointer of the list is new or in the second list (specification; crypto.go:113-126). -/
def NewIn (s : Cells) (L : List Ptr) (ps : List Ptr) : Prop := ∀ p ∈ ps, New s p ∨ p ∈ L

theorem NewIn.nil {s : Cells} {L : List Ptr} : NewIn s L [] := fun _ h => by cases h

theorem NewIn.cons {s : Cells} {L ps : List Ptr} {p : Ptr} (h : New s p) (h' : NewIn s L ps) :
    NewIn s L (p :: ps) := by
  intro q hq
  rcases List.mem_cons.1 hq with rfl | hq
  · exact .inl h
  · exact h' q hq

theorem NewIn.append {s : Cells} {L ps qs : List Ptr} (h : NewIn s L ps) (h' : NewIn s L qs) :
    NewIn s L (ps ++ qs) := fun p hp => (List.mem_append.1 hp).elim (h p) (h' p)

theorem NewIn.point {s : Cells} {L : List Ptr} {p : Point} (h : PNew s p) : NewIn s L p.ptrs :=
  .cons h.x (.cons h.y .nil)

theorem NewIn.sub {s : Cells} {L ps : List Ptr} (h : ∀ p ∈ ps, p ∈ L) : NewIn s L ps :=
  fun p hp => .inr (h p hp)

theorem DisjunctiveNew.ptrs {s : Cells} {L : List Ptr} {p : Disjunctive} (h : DisjunctiveNew s p) :
    NewIn s L p.ptrs :=
  .append (.append (.point h.T1) (.point h.T2))
    (.cons h.C (.cons h.C1 (.cons h.C2 (.cons h.S1 (.cons h.S2 .nil)))))

theorem newOr_ptrs {s : Cells} {L : List Point} {p : Point} (h : NewOr s L p) :
    NewIn s (L.flatMap Point.ptrs) p.ptrs := by
  rcases h with h | h
  · exact .point h
  · exact .sub fun q hq => List.mem_flatMap.2 ⟨p, h, hq⟩

theorem Returns.of {α β : Type} {R : Cells → α → β → Prop} {Q : α → Prop} {t : Cells}
    {r : Option α × Option Err} {r' : Option β × Option Err} (h : Returns R Q t r r') :
    ∀ p, r.1 = some p → Q p := by
  obtain ⟨h, -⟩ := h
  revert h
  generalize r.1 = a, r'.1 = b
  intro h p hp
  cases h with
  | none => cases hp
  | some h => cases hp; exact h.2

theorem rel_of {α β : Type} {R : α → β → Prop} {Q : α → Prop} {a : Option α} {b : Option β}
    (h : Option.Rel (fun x y => R x y ∧ Q x) a b) : ∀ p, a = some p → Q p := by
  intro p hp
  cases h with
  | none => cases hp
  | some h => cases hp; exact h.2

theorem gspfs_ptrs {s : Cells} {base : Point} {r : Option GSPFS × Option Err}
    (h : ∀ p, r.1 = some p → p.Base = base ∧ GSPFSNew s p) : NewIn s base.ptrs (Res.gspfs r).ptrs := by
  obtain ⟨a, er⟩ := r
  cases a with
  | none => exact .nil
  | some p =>
    obtain ⟨hb, h⟩ := h p rfl
    exact .append (.append (.sub fun q hq => hb ▸ hq) (.point h.RandCommit))
      (.cons h.HiddenValue (.cons h.Challenge .nil))

theorem equivalence_ptrs {s : Cells} {L : List Ptr} {r : Option Equivalence × Option Err}
    (h : ∀ p, r.1 = some p → EquivalenceNew s p) : NewIn s L (Res.equivalence r).ptrs := by
  obtain ⟨a, er⟩ := r
  cases a with
  | none => exact .nil
  | some p =>
    have h := h p rfl
    exact .append (.append (.point h.UG) (.point h.UH)) (.cons h.Challenge (.cons h.HiddenValue .nil))

theorem consistency_ptrs {s : Cells} {L : List Ptr} {r : Option Consistency × Option Err}
    (h : ∀ p, r.1 = some p → ConsistencyNew s p) : NewIn s L (Res.consistency r).ptrs := by
  obtain ⟨a, er⟩ := r
  cases a with
  | none => exact .nil
  | some p =>
    have h := h p rfl
    exact .append (.append (.point h.T1) (.point h.T2)) (.cons h.Challenge (.cons h.S1 (.cons h.S2 .nil)))

theorem disjunctive_ptrs {s : Cells} {L : List Ptr} {r : Option Disjunctive × Option Err}
    (h : ∀ p, r.1 = some p → DisjunctiveNew s p) : NewIn s L (Res.disjunctive r).ptrs := by
  obtain ⟨a, er⟩ := r
  cases a with
  | none => exact .nil
  | some p => exact (h p rfl).ptrs

theorem abc_ptrs {s : Cells} {L : List Ptr} {r : Option ABC × Option Err}
    (h : ∀ p, r.1 = some p → ABCNew s p) : NewIn s L (Res.abc r).ptrs := by
  obtain ⟨a, er⟩ := r
  cases a with
  | none => exact .nil
  | some p =>
    have h := h p rfl
    refine .append (.append (.append (.append (.append (.append (.point h.B) (.point h.C)) (.point h.T1))
      (.point h.T2)) (.cons h.Challenge (.cons h.j (.cons h.k (.cons h.l .nil))))) (.point h.CToken)) ?_
    cases hd : p.disjuncAC with
    | none => exact .nil
    | some d => exact (h.disjuncAC d hd).ptrs

theorem range_ptrs {s : Cells} {L : List Point} {r : Option Range × Ptr × Option Err}
    (h : ∀ p, r.1 = some p → RangeNew s L p) (hv : New s r.2.1) :
    NewIn s (L.flatMap Point.ptrs) (Res.range r).ptrs := by
  obtain ⟨a, v, er⟩ := r
  refine .cons hv ?_
  cases a with
  | none => exact .nil
  | some p =>
    have h := h p rfl
    refine .append (.append (newOr_ptrs h.ProofAggregate) (.cons h.ProofE .nil)) ?_
    intro q hq
    obtain ⟨t, ht, hq⟩ := List.mem_flatMap.1 hq
    exact (NewIn.append (newOr_ptrs (h.C t ht)) (.cons (h.S t ht) .nil)) q hq

theorem oneOf_ptrs {s t : Cells} {p p2 P : Point} {v : ECPoint} (h : OneOf s p p2 t P v) :
    NewIn s (p.ptrs ++ p2.ptrs) P.ptrs := by
  rcases h.2 with rfl | rfl | h
  · exact .sub fun q hq => List.mem_append_left _ hq
  · exact .sub fun q hq => List.mem_append_right _ hq
  · exact .point h

theorem run_shares (hash : Bytes → Bytes) {s : Cells} {e : Env} {cp : Params} (hz : ZeroAdd cp.C)
    (he : EnvIs s e cp) {c : Call} {v : VCall} (hc : CallIs s c v) :
    Does (runCall hash e c) s (runValues hash cp v) fun _ r _ => NewIn s (mayShare e c) r.ptrs := by
  cases hc with
  | equal h1 h2 =>
    refine Does.bind (equal_does h1 h2) fun a b t _ h => .pure ?_
    exact .nil
  | mult h1 h2 =>
    refine Does.bind (mult_does he h1 h2) fun a b t _ h => .pure ?_
    exact .point h.2
  | add h1 h2 =>
    refine Does.bind (add_does hz he h1 h2) fun a b t _ h => .pure ?_
    exact oneOf_ptrs h
  | neg h1 =>
    refine Does.bind (neg_does he h1) fun a b t _ h => .pure ?_
    intro q hq
    rcases List.mem_cons.1 hq with rfl | hq
    · exact .inr (by rw [h.2.1]; exact List.mem_singleton.2 rfl)
    · rw [List.mem_singleton.1 hq]; exact .inl h.2.2
  | sub h1 h2 =>
    refine Does.bind (sub_does hz he h1 h2) fun a b t _ h => .pure ?_
    rcases h.2 with rfl | ⟨hx, hy⟩ | hn
    · exact .sub fun q hq => List.mem_append_left _ hq
    · intro q hq
      rcases List.mem_cons.1 hq with rfl | hq
      · exact .inr (List.mem_append_right _ (by rw [hx]; exact List.mem_singleton.2 rfl))
      · rw [List.mem_singleton.1 hq]; exact .inl hy
    · exact .point hn
  | bytes h1 =>
    refine Does.bind (pointBytes_does h1) fun a b t _ h => .pure ?_
    exact .nil
  | keyGen u h1 =>
    refine Does.bind (keyGen_does he h1 _) fun a b t _ h => .pure ?_
    exact .append (.point h.1.2) (.cons h.2.2 .nil)
  | commitR h1 h2 =>
    refine Does.bind (commitR_does he h1 h2) fun a b t _ h => .pure ?_
    exact .point h.2
  | verifyR h1 h2 h3 =>
    refine Does.bind (verifyR_does he h1 h2 h3) fun a b t _ h => .pure ?_
    exact .nil
  | pedCommitR h1 h2 =>
    refine Does.bind (pedCommitR_does hz he h1 h2) fun a b t _ h => .pure ?_
    exact .point h.2
  | pedCommit u h1 =>
    refine Does.bind (pedCommit_does hz he h1 _) fun a b t _ h => .pure ?_
    exact .append (.point h.1.2) (.cons h.2.2 .nil)
  | opens h1 h2 h3 =>
    refine Does.bind (open_does hz he h1 h2 h3) fun a b t _ h => .pure ?_
    exact .nil
  | newGSPFS u h1 h2 =>
    refine Does.bind (newGSPFSProofBase_does hash he he.G h1 h2 _) fun a b t _ h => .pure ?_
    exact gspfs_ptrs h.of
  | newGSPFSBase u h1 h2 h3 =>
    refine Does.bind (newGSPFSProofBase_does hash he h1 h2 h3 _) fun a b t _ h => .pure ?_
    exact gspfs_ptrs h.of
  | verifyGSPFS h1 h2 =>
    refine Does.bind (gspfsVerify_does hash hz he h1 h2) fun a b t _ h => .pure ?_
    exact .nil
  | newEquivalence u h1 h2 h3 h4 h5 =>
    refine Does.bind (newEquivalenceProof_does hash he h1 h2 h3 h4 h5 _) fun a b t _ h => .pure ?_
    exact equivalence_ptrs h.of
  | verifyEquivalence h1 h2 h3 h4 h5 =>
    refine Does.bind (equivalenceVerify_does hash hz he h1 h2 h3 h4 h5) fun a b t _ h => .pure ?_
    exact .nil
  | newConsistency u1 u2 h1 h2 h3 h4 h5 =>
    refine Does.bind (newConsistencyProof_does hash hz he h1 h2 h3 h4 h5 _ _) fun a b t _ h => .pure ?_
    exact consistency_ptrs h.of
  | verifyConsistency h1 h2 h3 h4 =>
    refine Does.bind (consistencyVerify_does hash hz he h1 h2 h3 h4) fun a b t _ h => .pure ?_
    exact .nil
  | newDisjunctive o u1 u2 u3 h1 h2 h3 h4 h5 =>
    refine Does.bind (newDisjunctiveProof_does hash hz he h1 h2 h3 h4 h5 _ _ _ _) fun a b t _ h => .pure ?_
    exact disjunctive_ptrs h.of
  | verifyDisjunctive h1 h2 h3 h4 h5 =>
    refine Does.bind (disjunctiveVerify_does hash hz he h1 h2 h3 h4 h5) fun a b t _ h => .pure ?_
    exact .nil
  | newABC o rnd h1 h2 h3 h4 =>
    refine Does.bind (newABCProof_does hash hz he h1 h2 h3 h4 _ _) fun a b t _ h => .pure ?_
    exact abc_ptrs h.of
  | verifyABC h1 h2 h3 =>
    refine Does.bind (abcVerify_does hash hz he h1 h2 h3) fun a b t _ h => .pure ?_
    exact .nil
  | newInequality rnd h1 h2 h3 h4 h5 h6 h7 =>
    refine Does.bind (newInequalityProof_does hash hz he h1 h2 h3 h4 h5 h6 h7 _) fun a b t _ h => .pure ?_
    exact abc_ptrs h.of
  | verifyInequality h1 h2 h3 =>
    refine Does.bind (inequalityVerify_does hash hz he h1 h2 h3) fun a b t _ h => .pure ?_
    exact .nil
  | newRange rnd h1 =>
    refine Does.bind (newRangeProof_does hash hz he h1 _) fun a b t _ h => .pure ?_
    exact range_ptrs (rel_of h.1) h.2.2.1
  | verifyRange h1 h2 =>
    refine Does.bind (rangeVerify_does hash hz he h1 h2) fun a b t _ h => .pure ?_
    exact .nil

end Zk.Mem
