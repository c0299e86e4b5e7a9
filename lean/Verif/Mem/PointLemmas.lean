import Verif.Mem.Lemmas

/-!
# The functions of crypto.go on memory
-/

namespace Zk.Mem

open Zk Zk.Proto

/-- Carries what is known about pointers over to a later store. -/
macro "see" : tactic => `(tactic| repeat' first
  | assumption
  | refine Is.mono (by assumption) ?_
  | refine PIs.mono (by assumption) ?_
  | refine EnvIs.mono (by assumption) ?_)

/-- Carries what is known about new cells over to an earlier store. -/
macro "new" : tactic => `(tactic| repeat' first
  | assumption
  | refine New.anti (by assumption) ?_
  | refine PNew.anti (by assumption) ?_)

variable {γ δ : Type} {s : Cells} {e : Env} {cp : Params}

theorem new_nil : New s none := fun a h => by cases h

/-- The result is the same, and no cell has been written or made (specification; crypto.go:78-83). -/
def Same {α : Type} (s : Cells) : Cells → α → α → Prop := fun t a b => t = s ∧ a = b

/-- The result is a point in new cells (specification; crypto.go:86-110). -/
def NewPt (s : Cells) : Cells → Point → ECPoint → Prop := fun t P p => PIs t P p ∧ PNew s P

theorem equal_does {p p2 : Point} {v v2 : ECPoint} (h : PIs s p v) (h2 : PIs s p2 v2) :
    Does (equal p p2) s (Proto.equal v v2) (Same s) := by
  refine Does.bind (cmpEq_does h.x h2.x) ?_
  rintro a _ t - ⟨rfl, rfl⟩
  cases a with
  | false => exact .pure ⟨rfl, rfl⟩
  | true =>
    refine Does.bind (cmpEq_does h2.y h2.y) ?_
    rintro b _ t - ⟨rfl, rfl⟩
    cases b <;> exact .pure ⟨rfl, rfl⟩

theorem coords_does {p : Point} {v : ECPoint} (h : PIs s p v) :
    Does (coords p) s (Proto.coords v) (Same s) := by
  refine Does.bind (load_does h.x) ?_
  rintro x _ t - ⟨rfl, rfl⟩
  refine Does.bind (load_does h.y) ?_
  rintro y _ t - ⟨rfl, rfl⟩
  exact .pure ⟨rfl, rfl⟩

theorem coords_eq {v : ECPoint} {c : Int × Int} (h : Proto.coords v = .ok c) : v = mkPt c := by
  obtain ⟨x, y⟩ := v
  cases x with
  | none => cases h
  | some x =>
    cases y with
    | none => cases h
    | some y => cases h; rfl

theorem newPoint_does (q : Int × Int) (s : Cells) :
    Does (newPoint q) s (.ok (mkPt q)) (NewPt s) := by
  refine Does.step (alloc_does q.1 s) ?_
  rintro x t h1 ⟨h2, h3⟩
  refine Does.step (alloc_does q.2 t) ?_
  rintro y u h4 ⟨h5, h6⟩
  exact Does.pure (b := mkPt q) ⟨⟨h2.mono h4, h5⟩, h3, h6.anti h1⟩

theorem bytesOf_does {p : Ptr} {v : Option Int} (h : Is s p v) :
    Does (bytesOf p) s (do let x ← deref v; pure (intBytes x)) (Same s) := by
  refine Does.bind (load_does h) ?_
  rintro x _ t - ⟨rfl, rfl⟩
  exact .pure ⟨rfl, rfl⟩

theorem bytesOf_ok {p : Ptr} {v : Int} (h : Is s p (some v)) :
    Does (bytesOf p) s (.ok (intBytes v)) (Same s) := bytesOf_does h

theorem scalarMult_does (he : EnvIs s e cp) {p : Point} {v : ECPoint} (h : PIs s p v) (k : Bytes) :
    Does (scalarMult e p k) s (do
      let c ← Proto.coords v
      let q ← cp.C.scalarMult c.1 c.2 k
      pure (mkPt q)) (NewPt s) := by
  refine Does.bind (coords_does h) ?_
  rintro c _ t - ⟨rfl, rfl⟩
  refine Does.bind (g := cp.C.scalarMult c.1 c.2 k) (by rw [he.ops]; exact Does.lift _ _) ?_
  rintro q _ t - ⟨rfl, rfl⟩
  exact newPoint_does q t

theorem scalarBaseMult_does (he : EnvIs s e cp) (k : Bytes) :
    Does (scalarBaseMult e k) s (do
      let q ← cp.C.scalarBaseMult k
      pure (mkPt q)) (NewPt s) := by
  refine Does.bind (g := cp.C.scalarBaseMult k) (by rw [he.ops]; exact Does.lift _ _) ?_
  rintro q _ t - ⟨rfl, rfl⟩
  exact newPoint_does q t

theorem scalarBaseMultH_does (he : EnvIs s e cp) (k : Bytes) :
    Does (scalarBaseMultH e k) s (do
      let q ← cp.C.scalarBaseMultH k
      pure (mkPt q)) (NewPt s) := by
  refine Does.bind (g := cp.C.scalarBaseMultH k) (by rw [he.ops]; exact Does.lift _ _) ?_
  rintro q _ t - ⟨rfl, rfl⟩
  exact newPoint_does q t

theorem NewPt.anti {s t u : Cells} {P : Point} {p : ECPoint} (h : s ≼ t) (hp : NewPt t u P p) :
    NewPt s u P p := ⟨hp.1, hp.2.anti h⟩

theorem mult_does (he : EnvIs s e cp) {p : Point} {v : ECPoint} (h : PIs s p v) {k : Ptr}
    {kv : Option Int} (hk : Is s k kv) : Does (mult e p k) s (Proto.mult cp v kv) (NewPt s) := by
  have hnil : (p.X = none ∧ p.Y = none) ↔ (v.X = none ∧ v.Y = none) := by
    obtain ⟨h1, h2⟩ := h
    cases p; cases v
    cases h1 <;> cases h2 <;> simp
  unfold mult Proto.mult
  by_cases hn : p.X = none ∧ p.Y = none
  · rw [if_pos hn, if_pos (hnil.1 hn)]
    exact Does.pure (b := nilPoint) ⟨⟨.nil, .nil⟩, new_nil, new_nil⟩
  rw [if_neg hn, if_neg (mt hnil.2 hn)]
  cases hk with
  | nil => exact fun _ _ => trivial
  | cell k kv ek =>
  refine Does.step (fresh_ok modF (.cell k kv ek) he.N) ?_
  rintro modS t h1 ⟨h2, -⟩
  rw [deref_some, Go.bind_ok]
  refine Does.bind (equal_does (h.mono h1) (he.G.mono h1)) ?_
  rintro isG _ t - ⟨rfl, rfl⟩
  cases isG with
  | true =>
    refine Does.step (bytesOf_ok h2) ?_
    rintro k t - ⟨rfl, rfl⟩
    exact (scalarBaseMult_does (he.mono h1) _).imp fun _ _ _ _ hp => hp.anti h1
  | false =>
    refine Does.bind (equal_does (h.mono h1) (he.H.mono h1)) ?_
    rintro isH _ t - ⟨rfl, rfl⟩
    cases isH with
    | true =>
      refine Does.step (bytesOf_ok h2) ?_
      rintro k t - ⟨rfl, rfl⟩
      exact (scalarBaseMultH_does (he.mono h1) _).imp fun _ _ _ _ hp => hp.anti h1
    | false =>
      refine Does.step (bytesOf_ok h2) ?_
      rintro k t - ⟨rfl, rfl⟩
      exact (scalarMult_does (he.mono h1) (h.mono h1) _).imp fun _ _ _ _ hp => hp.anti h1

theorem zeroAndOnCurve_does (he : EnvIs s e cp) {p p2 : Point} {v v2 : ECPoint} (h : PIs s p v)
    (h2 : PIs s p2 v2) :
    Does (zeroAndOnCurve e p p2) s (Proto.zeroAndOnCurve cp v v2) (Same s) := by
  refine Does.bind (equal_does h he.Zero) ?_
  rintro z _ t - ⟨rfl, rfl⟩
  cases z with
  | false => exact .pure ⟨rfl, rfl⟩
  | true =>
    refine Does.bind (coords_does h2) ?_
    rintro c _ t - ⟨rfl, rfl⟩
    rw [he.ops]
    exact Does.lift _ _

/-- The result is a point, in new cells or in those of `p` or `p2` (specification;
crypto.go:113-126). -/
def OneOf (s : Cells) (p p2 : Point) : Cells → Point → ECPoint → Prop :=
  fun t P v => PIs t P v ∧ (P = p ∨ P = p2 ∨ PNew s P)

theorem curveAdd_does (hz : ZeroAdd cp.C) (he : EnvIs s e cp) {p p2 : Point} {v v2 : ECPoint}
    (h : PIs s p v) (h2 : PIs s p2 v2) :
    Does (curveAdd e p p2) s (Proto.curveAdd cp v v2) (OneOf s p p2) := by
  refine Does.bind' (coords_does h) ?_
  rintro a _ t ha - ⟨rfl, rfl⟩
  refine Does.bind' (coords_does h2) ?_
  rintro b _ t hb - ⟨rfl, rfl⟩
  replace ha := coords_eq ha
  replace hb := coords_eq hb
  simp only [Int.sign_eq_zero_iff_zero]
  by_cases h0 : a.1 = 0 ∧ a.2 = 0
  · rw [if_pos h0, h0.1, h0.2, (hz b.1 b.2).1]
    exact Does.pure (b := mkPt b) ⟨hb ▸ h2, .inr (.inl rfl)⟩
  rw [if_neg h0]
  by_cases h1 : b.1 = 0 ∧ b.2 = 0
  · rw [if_pos h1, h1.1, h1.2, (hz a.1 a.2).2]
    exact Does.pure (b := mkPt a) ⟨ha ▸ h, .inl rfl⟩
  rw [if_neg h1]
  refine Does.bind (g := cp.C.add a.1 a.2 b.1 b.2) (by rw [he.ops]; exact Does.lift _ _) ?_
  rintro q _ t - ⟨rfl, rfl⟩
  exact (newPoint_does q t).imp fun _ _ _ _ hp => ⟨hp.1, .inr (.inr hp.2)⟩

theorem add_does (hz : ZeroAdd cp.C) (he : EnvIs s e cp) {p p2 : Point} {v v2 : ECPoint}
    (h : PIs s p v) (h2 : PIs s p2 v2) :
    Does (add e p p2) s (Proto.add cp v v2) (OneOf s p p2) := by
  refine Does.bind (zeroAndOnCurve_does he h h2) ?_
  rintro c _ t - ⟨rfl, rfl⟩
  cases c with
  | true => exact .pure ⟨h2, .inr (.inl rfl)⟩
  | false =>
    refine Does.bind (zeroAndOnCurve_does he h2 h) ?_
    rintro c _ t - ⟨rfl, rfl⟩
    cases c with
    | true => exact .pure ⟨h, .inl rfl⟩
    | false => exact curveAdd_does hz he h h2

theorem neg_does (he : EnvIs s e cp) {p : Point} {v : ECPoint} (h : PIs s p v) :
    Does (neg e p) s (Proto.neg cp v) fun t P q => PIs t P q ∧ P.X = p.X ∧ New s P.Y := by
  obtain ⟨hx, hy⟩ := h
  obtain ⟨X, Y⟩ := p
  obtain ⟨x, y⟩ := v
  dsimp only at hx hy
  cases hy with
  | nil => exact fun _ _ => trivial
  | cell a y e1 =>
    refine Does.step (freshNeg_does (.cell a y e1)) ?_
    rintro negY t h1 ⟨h2, -⟩
    refine Does.step (fresh_ok modF h2 (he.P.mono h1)) ?_
    rintro m u h3 ⟨h4, h5⟩
    exact .pure ⟨⟨(hx.mono h1).mono h3, h4⟩, rfl, h5.anti h1⟩

theorem sub_does (hz : ZeroAdd cp.C) (he : EnvIs s e cp) {p p2 : Point} {v v2 : ECPoint}
    (h : PIs s p v) (h2 : PIs s p2 v2) :
    Does (sub e p p2) s (Proto.sub cp v v2) fun t P q => PIs t P q ∧
      (P = p ∨ (P.X = p2.X ∧ New s P.Y) ∨ PNew s P) := by
  refine Does.bind (zeroAndOnCurve_does he h h2) ?_
  rintro c _ t - ⟨rfl, rfl⟩
  cases c with
  | true => exact (neg_does he h2).imp fun _ _ _ _ hp => ⟨hp.1, .inr (.inl hp.2)⟩
  | false =>
    refine Does.bind (zeroAndOnCurve_does he h2 h) ?_
    rintro c _ t - ⟨rfl, rfl⟩
    cases c with
    | true => exact .pure ⟨h, .inl rfl⟩
    | false =>
      refine Does.bind (neg_does he h2) ?_
      rintro n _ u h3 ⟨h4, h5, h6⟩
      refine (curveAdd_does hz (he.mono h3) (h.mono h3) h4).imp ?_
      rintro _ P q - ⟨h7, rfl | rfl | h8⟩
      · exact ⟨h7, .inl rfl⟩
      · exact ⟨h7, .inr (.inl ⟨h5, h6⟩)⟩
      · exact ⟨h7, .inr (.inr (h8.anti h3))⟩

theorem pointBytes_does {p : Point} {v : ECPoint} (h : PIs s p v) :
    Does (pointBytes p) s (Proto.pointBytes v) (Same s) := by
  have : Proto.pointBytes v = (do
      let x ← (do let x ← deref v.X; pure (intBytes x))
      let y ← (do let y ← deref v.Y; pure (intBytes y))
      pure (x ++ y)) := by simp only [Proto.pointBytes, bind_assoc, pure_bind]
  rw [this]
  refine Does.bind (bytesOf_does h.x) ?_
  rintro x _ t - ⟨rfl, rfl⟩
  refine Does.bind (bytesOf_does h.y) ?_
  rintro y _ t - ⟨rfl, rfl⟩
  exact .pure ⟨rfl, rfl⟩

theorem keyGen_does (he : EnvIs s e cp) {base : Point} {v : ECPoint} (h : PIs s base v) (u : Int) :
    Does (keyGen e base u) s (Proto.keyGen cp.C v u) fun t r r' =>
      NewPt s t r.1 r'.1 ∧ Is t r.2 (some r'.2) ∧ New s r.2 := by
  refine Does.step (alloc_does u s) ?_
  rintro sk t h1 ⟨h2, h3⟩
  refine Does.step (bytesOf_ok h2) ?_
  rintro k t - ⟨rfl, rfl⟩
  have : Proto.keyGen cp.C v u = (do
      let q ← (do
        let c ← Proto.coords v
        let q ← cp.C.scalarMult c.1 c.2 (intBytes u)
        pure (mkPt q))
      pure (q, u)) := by simp only [Proto.keyGen, bind_assoc, pure_bind]
  rw [this]
  refine Does.bind (scalarMult_does (he.mono h1) (h.mono h1) _) ?_
  rintro q q' w h4 ⟨h5, h6⟩
  exact .pure ⟨⟨h5, h6.anti h1⟩, h2.mono h4, h3⟩

theorem commitR_does (he : EnvIs s e cp) {pk : Point} {v : ECPoint} (h : PIs s pk v) {r : Ptr}
    {rv : Int} (hr : Is s r (some rv)) :
    Does (commitR e pk r) s (Proto.commitR cp v rv) (NewPt s) := by
  refine Does.step (fresh_ok modF hr he.N) ?_
  rintro m t h1 ⟨h2, -⟩
  refine Does.step (bytesOf_ok h2) ?_
  rintro k t - ⟨rfl, rfl⟩
  exact (scalarMult_does (he.mono h1) (h.mono h1) _).imp fun _ _ _ _ hp => hp.anti h1

theorem verifyR_does (he : EnvIs s e cp) {rt pk : Point} {v w : ECPoint} (hw : PIs s rt w)
    (h : PIs s pk v) {r : Ptr} {rv : Int} (hr : Is s r (some rv)) :
    Does (verifyR e rt pk r) s (Proto.verifyR cp w v rv) fun _ a b => a = b := by
  refine Does.bind (commitR_does he h hr) ?_
  rintro p _ t h1 ⟨h2, -⟩
  exact (equal_does h2 (hw.mono h1)).imp fun _ _ _ _ hp => hp.2

theorem pedCommitR_does (hz : ZeroAdd cp.C) (he : EnvIs s e cp) {value r : Ptr} {v rv : Option Int}
    (hv : Is s value v) (hr : Is s r rv) :
    Does (pedCommitR e value r) s (Proto.pedCommitR cp v rv) (NewPt s) := by
  cases hv with
  | nil => exact fun _ _ => trivial
  | cell a v ea =>
  refine Does.step (fresh_ok modF (.cell a v ea) he.N) ?_
  rintro m t h1 ⟨h2, -⟩
  cases hr with
  | nil => exact fun _ _ => trivial
  | cell b rv eb =>
  refine Does.step (fresh_ok modF ((Is.cell b rv eb).mono h1) (he.N.mono h1)) ?_
  rintro m' t' h3 ⟨h4, -⟩
  have he' := (he.mono h1).mono h3
  rw [Proto.pedCommitR, deref_some, Go.bind_ok, deref_some, Go.bind_ok]
  refine Does.bind (mult_does he' he'.G (h2.mono h3)) ?_
  rintro lhs _ t2 h5 ⟨h6, h7⟩
  refine Does.bind (mult_does (he'.mono h5) (he'.H.mono h5) (h4.mono h5)) ?_
  rintro rhs _ t3 h8 ⟨h9, h10⟩
  refine (add_does hz ((he'.mono h5).mono h8) (h6.mono h8) h9).imp ?_
  rintro _ P q - ⟨h11, rfl | rfl | h12⟩
  · exact ⟨h11, by new⟩
  · exact ⟨h11, by new⟩
  · exact ⟨h11, by new⟩

theorem pedCommit_does (hz : ZeroAdd cp.C) (he : EnvIs s e cp) {value : Ptr} {v : Int}
    (hv : Is s value (some v)) (u : Int) :
    Does (pedCommit e value u) s (Proto.pedCommit cp v u) fun t r r' =>
      NewPt s t r.1 r'.1 ∧ Is t r.2 (some r'.2) ∧ New s r.2 := by
  refine Does.step (alloc_does u s) ?_
  rintro r t h1 ⟨h2, h3⟩
  refine Does.bind (pedCommitR_does hz (he.mono h1) (hv.mono h1) h2) ?_
  rintro c _ t' h4 h5
  exact .pure ⟨h5.anti h1, h2.mono h4, h3⟩

theorem open_does (hz : ZeroAdd cp.C) (he : EnvIs s e cp) {value r : Ptr} {v rv : Int}
    (hv : Is s value (some v)) (hr : Is s r (some rv)) {pc : Point} {c : ECPoint} (hc : PIs s pc c) :
    Does (open' e value r pc) s (Proto.open' cp v rv c) fun _ a b => a = b := by
  refine Does.bind (pedCommitR_does hz he hv hr) ?_
  rintro p _ t h1 ⟨h2, -⟩
  exact (equal_does h2 (hc.mono h1)).imp fun _ _ _ _ hp => hp.2

theorem mapM_pointBytes_does {ps : List Point} {vs : List ECPoint} (h : List.Forall₂ (PIs s) ps vs) :
    Does (ps.mapM pointBytes) s (vs.mapM Proto.pointBytes) (Same s) := by
  induction h with
  | nil => exact .pure ⟨rfl, rfl⟩
  | cons h _ ih =>
    rw [List.mapM_cons, List.mapM_cons]
    refine Does.bind (pointBytes_does h) ?_
    rintro b _ t - ⟨rfl, rfl⟩
    refine Does.bind ih ?_
    rintro bs _ t - ⟨rfl, rfl⟩
    exact .pure ⟨rfl, rfl⟩

/-- The result is a new number (specification; crypto.go:92). -/
def NewNum (s : Cells) : Cells → Ptr → Int → Prop := fun t p v => Is t p (some v) ∧ New s p

theorem challengeOf_does (hash : Bytes → Bytes) (he : EnvIs s e cp) {ps : List Point}
    {vs : List ECPoint} (h : List.Forall₂ (PIs s) ps vs) :
    Does (challengeOf hash e ps) s (Proto.challengeOf hash cp vs) (NewNum s) := by
  refine Does.bind (mapM_pointBytes_does h) ?_
  rintro bs _ t - ⟨rfl, rfl⟩
  refine Does.step (alloc_does _ t) ?_
  rintro c u h1 ⟨h2, -⟩
  exact (fresh_ok modF h2 (he.N.mono h1)).imp fun _ _ _ _ hp => ⟨hp.1, hp.2.anti h1⟩

end Zk.Mem
