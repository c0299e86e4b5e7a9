import Verif.Mem.ProtoLemmas

/-!
# The range prover and verifier on memory
-/

namespace Zk.Mem

open Zk Zk.Proto

variable {s : Cells} {e : Env} {cp : Params}

/-- A slot of the prover in memory and its value (specification; rangeproof.go:42-47). -/
structure SlotIs (s : Cells) (m : Slot) (v : Proto.Slot) : Prop where
  R : PIs s m.R v.R
  B : PIs s m.B v.B
  k : Is s m.k v.k
  v : Is s m.v v.v

/-- The point is new or is one of the points of the list (specification; rangeproof.go:79-81). -/
def NewOr (s : Cells) (L : List Point) (P : Point) : Prop := PNew s P ∨ P ∈ L

/-- All numbers of the slot are new, except that `B` may be a point of the parameters (specification;
rangeproof.go:79-81). -/
structure SlotNew (s : Cells) (L : List Point) (m : Slot) : Prop where
  R : PNew s m.R
  B : NewOr s L m.B
  k : New s m.k
  v : New s m.v

theorem SlotIs.mono {s t : Cells} {m : Slot} {v : Proto.Slot} (h : s ≼ t) (hm : SlotIs s m v) :
    SlotIs t m v := ⟨hm.R.mono h, hm.B.mono h, hm.k.mono h, hm.v.mono h⟩

theorem NewOr.anti {s t : Cells} {L : List Point} {P : Point} (h : s ≼ t) (hp : NewOr t L P) :
    NewOr s L P := hp.imp (fun h' => h'.anti h) id

theorem SlotNew.anti {s t : Cells} {L : List Point} {m : Slot} (h : s ≼ t) (hm : SlotNew t L m) :
    SlotNew s L m := ⟨hm.R.anti h, hm.B.anti h, hm.k.anti h, hm.v.anti h⟩

theorem hashMod_does (hash : Bytes → Bytes) (he : EnvIs s e cp) {p : Point} {v : ECPoint}
    (h : PIs s p v) :
    Does (hashMod hash e p) s (do
      let h ← hashPoint hash v
      pure (h % (cp.C.N : Int))) (NewNum s) := by
  have hq : (do
      let h ← hashPoint hash v
      pure (h % (cp.C.N : Int)) : Go Int) = (do
      let b ← Proto.pointBytes v
      pure ((setBytes (hash b) : Int) % (cp.C.N : Int))) := by
    unfold hashPoint
    rw [bind_assoc]
    rfl
  rw [hq]
  refine Does.bind (pointBytes_does h) ?_
  rintro b _ t - ⟨rfl, rfl⟩
  have hN := he.N
  refine alloc_wp _ fun z hz => ?_
  refine ⟨_, put_self _ _ _, ?_⟩
  have hN' := hN.mono (le_put hz (setBytes (hash b) : Int))
  refine load_wp hN' ⟨.inl rfl, ?_⟩
  rw [put_put]
  exact ⟨le_put hz _, is_put _ _ _, new_some hz⟩

theorem hpoint_does (he : EnvIs s e cp) (idx : Nat) :
    Does (hpoint e idx) s (Proto.hpoint cp idx) fun t P p => t = s ∧ PIs s P p ∧ P ∈ e.HPoints := by
  have hl := he.HPoints
  unfold hpoint Proto.hpoint
  by_cases hi : idx < e.HPoints.length
  · have hi' : idx < cp.HPoints.length := hl.length_eq ▸ hi
    rw [List.getElem?_eq_getElem hi, List.getElem?_eq_getElem hi']
    exact ⟨.refl s, rfl, List.forall₂_iff_get.1 hl |>.2 idx hi hi', List.getElem_mem hi⟩
  · have hi' : ¬ idx < cp.HPoints.length := hl.length_eq ▸ hi
    rw [List.getElem?_eq_none (not_lt.1 hi), List.getElem?_eq_none (not_lt.1 hi')]
    trivial

theorem genA_does (hash : Bytes → Bytes) (hz : ZeroAdd cp.C) (he : EnvIs s e cp) (idx : Nat)
    (bit : Bool) (rnd : BitRand) :
    Does (genA hash e idx bit rnd) s (runW (progA hash cp idx bit rnd) emptySlot)
      fun t m v => SlotIs t m v ∧ SlotNew s e.HPoints m := by
  have hH := he.H
  cases bit with
  | false =>
    have hq : runW (progA hash cp idx false rnd) emptySlot =
        (Proto.mult cp cp.H (some rnd.k) >>= fun R => .ok ⟨R, nilPoint, some rnd.k, none⟩) := by
      simp only [runW, progA, Bool.not_false, if_true, Go.bind_ok, emptySlot]
      cases Proto.mult cp cp.H (some rnd.k) <;> rfl
    rw [hq]
    refine Does.step (alloc_does rnd.k s) ?_
    rintro k t1 l1 ⟨hk, nk⟩
    refine Does.bind (mult_does (by see) (by see : PIs t1 e.H cp.H) hk) ?_
    rintro R Rv t2 l2 ⟨hR, nR⟩
    exact .pure ⟨⟨hR, ⟨.nil, .nil⟩, by see, .nil⟩, by new, .inl ⟨new_nil, new_nil⟩, by new, new_nil⟩
  | true =>
    have hq : runW (progA hash cp idx true rnd) emptySlot = (do
        let R ← Proto.mult cp cp.H (some rnd.v)
        let hp ← Proto.hpoint cp idx
        let B ← Proto.curveAdd cp hp R
        let temp ← Proto.mult cp cp.H (some rnd.k)
        let ei ← (do
          let h ← hashPoint hash temp
          pure (h % (cp.C.N : Int)))
        let q ← (do
          let b ← Proto.coords B
          let q ← cp.C.scalarMult b.1 b.2 (intBytes ei)
          pure (mkPt q))
        .ok ⟨q, B, some rnd.k, some rnd.v⟩) := by
      simp only [runW, progA, Bool.not_true, Bool.false_eq_true, if_false, Go.bind_ok, emptySlot]
      cases Proto.mult cp cp.H (some rnd.v) with
      | panic => rfl
      | ok R =>
        show _ = _
        simp only [Go.bind_ok, Go.pure_eq]
        cases Proto.hpoint cp idx with
        | panic => rfl
        | ok hp =>
          simp only [Go.bind_ok]
          cases Proto.curveAdd cp hp R with
          | panic => rfl
          | ok B =>
            simp only [Go.bind_ok]
            cases Proto.mult cp cp.H (some rnd.k) with
            | panic => rfl
            | ok temp =>
              simp only [Go.bind_ok]
              cases hashPoint hash temp with
              | panic => rfl
              | ok h =>
                simp only [Go.bind_ok]
                cases Proto.coords B with
                | panic => rfl
                | ok b =>
                  simp only [Go.bind_ok]
                  cases cp.C.scalarMult b.1 b.2 (intBytes (h % (cp.C.N : Int))) <;> rfl
    rw [hq]
    refine Does.step (alloc_does rnd.v s) ?_
    rintro v t1 l1 ⟨hv, nv⟩
    refine Does.bind (mult_does (by see) (by see : PIs t1 e.H cp.H) hv) ?_
    rintro R Rv t2 l2 ⟨hR, nR⟩
    refine Does.bind (hpoint_does (by see) idx) ?_
    rintro hp hpv t2 - ⟨rfl, hhp, mem⟩
    refine Does.bind (curveAdd_does hz (by see) hhp hR) ?_
    rintro B Bv t3 l3 ⟨hB, nB⟩
    have nB' : NewOr s e.HPoints B := by
      rcases nB with rfl | rfl | h
      · exact .inr mem
      · exact .inl (by new)
      · exact .inl (by new)
    refine Does.step (alloc_does rnd.k t3) ?_
    rintro k t4 l4 ⟨hk, nk⟩
    refine Does.bind (mult_does (by see) (by see : PIs t4 e.H cp.H) hk) ?_
    rintro temp tempv t5 l5 ⟨ht, -⟩
    refine Does.bind (hashMod_does hash (by see) ht) ?_
    rintro ei eiv t6 l6 ⟨hei, -⟩
    refine Does.step (bytesOf_ok hei) ?_
    rintro eb t6 - ⟨rfl, rfl⟩
    refine Does.bind (scalarMult_does (by see) (by see : PIs t6 B Bv) _) ?_
    rintro q qv t7 l7 ⟨hq', nq⟩
    exact .pure ⟨⟨hq', by see, by see, by see⟩, by new, nB', by new, by new⟩

theorem genInverse_does (hash : Bytes → Bytes) (hz : ZeroAdd cp.C) (he : EnvIs s e cp) (idx : Nat)
    {e0 j : Ptr} {e0v jv : Int} (h0 : Is s e0 (some e0v)) (hj : Is s j (some jv)) :
    Does (genInverse hash e idx e0 j) s (inverseEI hash cp idx e0v jv)
      fun t p w => Is t p w ∧ New s p := by
  have hN := he.N
  have hH := he.H
  have hq : inverseEI hash cp idx e0v jv = (do
      let rhs ← (do
        let q ← cp.C.scalarBaseMult (intBytes (modF (mulF e0v (expF idx cp.C.N)) cp.C.N))
        pure (mkPt q))
      let lhs ← Proto.mult cp cp.H (some jv)
      let tot ← Proto.curveAdd cp lhs rhs
      let ei ← (do
        let h ← hashPoint hash tot
        pure (h % (cp.C.N : Int)))
      .ok (modInverse ei cp.C.N)) := by
    unfold inverseEI
    simp only [modF, mulF, expF, Int.toNat_natCast]
    cases cp.C.scalarBaseMult (intBytes (e0v * (2 ^ idx % (cp.C.N : Int)) % (cp.C.N : Int))) with
    | panic => rfl
    | ok q =>
      simp only [Go.bind_ok, Go.pure_eq]
      cases Proto.mult cp cp.H (some jv) with
      | panic => rfl
      | ok lhs =>
        simp only [Go.bind_ok]
        cases Proto.curveAdd cp lhs (mkPt q) with
        | panic => rfl
        | ok tot =>
          simp only [Go.bind_ok]
          cases hashPoint hash tot <;> rfl
  rw [hq]
  refine Does.step (alloc_does (idx : Int) s) ?_
  rintro i t1 l1 ⟨hi, -⟩
  refine Does.step (fresh_ok expF hi (by see : Is t1 e.N _)) ?_
  rintro m2 t2 l2 ⟨hm2, -⟩
  refine freshInto_step (by see : Is t2 e0 (some e0v)) hm2 (by see : Is t2 e.N _) ?_
  rintro em t3 l3 hem -
  refine Does.step (bytesOf_ok hem) ?_
  rintro eb t3 - ⟨rfl, rfl⟩
  refine Does.bind (scalarBaseMult_does (by see) _) ?_
  rintro rhs rhsv t4 l4 ⟨hr, -⟩
  refine Does.bind (mult_does (by see) (by see : PIs t4 e.H cp.H) (by see : Is t4 j _)) ?_
  rintro lhs lhsv t5 l5 ⟨hl, -⟩
  refine Does.bind (curveAdd_does hz (by see) hl (by see : PIs t5 rhs rhsv)) ?_
  rintro tot totv t6 l6 ⟨ht, -⟩
  refine Does.bind (hashMod_does hash (by see) ht) ?_
  rintro ei eiv t7 l7 ⟨hei, -⟩
  exact (freshInverse_does hei (by see : Is t7 e.N _)).imp fun _ _ _ _ hp => ⟨hp.1, by
    have := hp.2
    new⟩

/-! ### Writing to a number made before -/

theorem Is.put {t : Cells} {p : Ptr} {o : Option Int} (h : Is t p o) {a : Nat} (hp : p ≠ some a)
    (w : Int) : Is (Mem.put t a w) p o := by
  cases h with
  | nil => exact .nil
  | cell b v hb =>
    refine .cell b v ?_
    rw [put_ne _ _ (fun h => hp (by rw [h]))]
    exact hb

theorem PIs.put {t : Cells} {P : Point} {o : ECPoint} (h : PIs t P o) {a : Nat}
    (hx : P.X ≠ some a) (hy : P.Y ≠ some a) (w : Int) : PIs (Mem.put t a w) P o :=
  ⟨h.x.put hx w, h.y.put hy w⟩

theorem New.ne {s : Cells} {p : Ptr} (h : New s p) {a : Nat} (ha : s a ≠ none) : p ≠ some a :=
  fun e => ha (h a e)

theorem Is.ne {s : Cells} {p : Ptr} {o : Option Int} (h : Is s p o) {a : Nat} (ha : s a = none) :
    p ≠ some a := by
  rintro rfl
  cases h with
  | cell b v hb => rw [ha] at hb; cases hb

theorem genBody_does (hash : Bytes → Bytes) (hz : ZeroAdd cp.C) (he : EnvIs s e cp) (idx : Nat)
    {e0 j : Ptr} {e0v jv : Int} (h0 : Is s e0 (some e0v)) (hj : Is s j (some jv)) {m : Slot}
    {sv : Proto.Slot} (hm : SlotIs s m sv) :
    Does (genBody hash e idx e0 j m) s (do
      let inv ← inverseEI hash cp idx e0v jv
      let i ← deref inv
      let k ← deref sv.k
      let B ← Proto.mult cp sv.R inv
      .ok ((⟨sv.R, B, sv.k, some (i * k)⟩ : Proto.Slot), k * (e0v * i)))
      fun t r r' => SlotIs t r.1 r'.1 ∧ Is t r.2 (some r'.2) ∧ r.1.R = m.R ∧ r.1.k = m.k ∧
        PNew s r.1.B ∧ New s r.1.v := by
  obtain ⟨hR, hB, hk, hv⟩ := hm
  obtain ⟨mR, mB, mk, mv⟩ := m
  obtain ⟨vR, vB, vk, vv⟩ := sv
  dsimp only at hR hB hk hv ⊢
  refine Does.bind (genInverse_does hash hz he idx h0 hj) ?_
  rintro inv invv t1 l1 ⟨hi, -⟩
  cases hi with
  | nil => exact fun _ _ => trivial
  | cell ia iv hia =>
    have hi : Is t1 (some ia) (some iv) := .cell ia iv hia
    cases hk with
    | nil =>
      exact Does.panics (fresh_nil (β := Int) (R := fun _ _ _ => True) mulF hi)
    | cell ka kv hka =>
      have hk : Is s (some ka) (some kv) := .cell ka kv hka
      simp only [deref_some, Go.bind_ok]
      refine Does.step (fresh_ok mulF hi (by see : Is t1 (some ka) (some kv))) ?_
      rintro v t2 l2 ⟨hv', nv⟩
      refine Does.bind (mult_does (by see) (by see : PIs t2 mR vR) (by see : Is t2 (some ia) (some iv))) ?_
      rintro B Bv t3 l3 ⟨hB', nB⟩
      refine Does.step (fresh_ok mulF (by see : Is t3 e0 (some e0v)) (by see : Is t3 (some ia) (some iv))) ?_
      rintro t t4 l4 ⟨ht, -⟩
      refine Does.step (fresh_ok mulF (by see : Is t4 (some ka) (some kv)) ht) ?_
      rintro t' t5 l5 ⟨ht', -⟩
      exact .pure ⟨⟨by see, by see, by see, by see⟩, ht', rfl, rfl, by new, by new⟩

theorem progB_false (hash : Bytes → Bytes) (cp : Params) (idx : Nat) (e0 : Int) (rnd : BitRand)
    (sv : Proto.Slot) :
    runW (progB hash cp idx false e0 rnd) sv = ((do
      let inv ← inverseEI hash cp idx e0 rnd.j
      let i ← deref inv
      let k ← deref sv.k
      let B ← Proto.mult cp sv.R inv
      .ok ((⟨sv.R, B, sv.k, some (i * k)⟩ : Proto.Slot), k * (e0 * i))) >>= fun r =>
        .ok { r.1 with k := some (rnd.j + r.2) }) := by
  simp only [runW, progB, Bool.not_false, if_true]
  cases inverseEI hash cp idx e0 rnd.j with
  | panic => rfl
  | ok inv =>
    simp only [Go.bind_ok]
    cases inv with
    | none => rfl
    | some i =>
      simp only [deref_some, Go.bind_ok]
      cases hk : sv.k with
      | none => rfl
      | some k =>
        simp only [deref_some, Go.bind_ok, Go.pure_eq]
        cases Proto.mult cp sv.R (some i) with
        | panic => rfl
        | ok B => simp only [Go.bind_ok, deref_some]

theorem genB_does (hash : Bytes → Bytes) (hz : ZeroAdd cp.C) (he : EnvIs s e cp) (idx : Nat)
    (bit : Bool) {e0 : Ptr} {e0v : Int} (h0 : Is s e0 (some e0v)) (rnd : BitRand) {m : Slot}
    {sv : Proto.Slot} (hm : SlotIs s m sv) {s0 : Cells} (l0 : s0 ≼ s) (hn : SlotNew s0 e.HPoints m) :
    Does (genB hash e idx bit e0 rnd m) s (runW (progB hash cp idx bit e0v rnd) sv)
      fun t m v => SlotIs t m v ∧ SlotNew s0 e.HPoints m := by
  cases bit with
  | true =>
    obtain ⟨hR, hB, hk, hv⟩ := hm
    obtain ⟨mR, mB, mk, mv⟩ := m
    obtain ⟨vR, vB, vk, vv⟩ := sv
    dsimp only at hR hB hk hv
    have hq : runW (progB hash cp idx true e0v rnd) ⟨vR, vB, vk, vv⟩ = (do
        let k ← deref vk
        let v ← deref vv
        .ok ⟨vR, vB, some (k + e0v * v), vv⟩) := by
      simp only [runW, progB, Bool.not_true, Bool.false_eq_true, if_false]
      cases vk with
      | none => rfl
      | some k =>
        cases vv <;> rfl
    rw [hq]
    show Does (fresh mulF e0 mv >>= fun t => fresh addF mk t >>= fun k =>
      pure (⟨mR, mB, k, mv⟩ : Slot)) _ _ _
    cases hv with
    | nil =>
      have e1 := Does.panics (k := fun t => fresh addF mk t >>= fun k =>
          pure (⟨mR, mB, k, none⟩ : Slot)) (δ := Proto.Slot)
          (S := fun t m v => SlotIs t m v ∧ SlotNew s0 e.HPoints m)
          (fresh_nil (β := Int) mulF h0 (R := fun _ _ _ => True))
      cases vk with
      | none => exact e1
      | some k => exact e1
    | cell va vv hva =>
      have hv : Is s (some va) (some vv) := .cell va vv hva
      refine Does.step (fresh_ok mulF h0 hv) ?_
      rintro t t1 l1 ⟨ht, -⟩
      cases hk with
      | nil => exact fun _ _ => trivial
      | cell ka kv hka =>
        have hk : Is s (some ka) (some kv) := .cell ka kv hka
        simp only [deref_some, Go.bind_ok]
        refine Does.step (fresh_ok addF (by see : Is t1 (some ka) (some kv)) ht) ?_
        rintro k t2 l2 ⟨hk', nk⟩
        exact .pure ⟨⟨by see, by see, hk', by see⟩, hn.R, hn.B, by new, hn.v⟩
  | false =>
    rw [progB_false]
    show Does (draw rnd.j >>= fun j => genBody hash e idx e0 j m >>= fun r => into addF j j r.2 >>=
      fun k => pure { r.1 with k := k }) _ _ _
    refine alloc_wp _ fun z nz => ?_
    have l1 := le_put nz rnd.j
    refine Does.wp (genBody_does hash hz (he.mono l1) idx (h0.mono l1) (is_put s z rnd.j) (hm.mono l1))
      ?_ ?_
    · intro hp
      rw [hp]
      trivial
    · rintro r r' t hg l2 ⟨⟨hR, hB, hk, hv⟩, ht, eR, ek, nB, nv⟩
      rw [hg, Go.bind_ok]
      have ls : Mem.put s z rnd.j z ≠ none := by rw [put_self]; simp
      refine into_wp (.inl rfl) ((is_put s z rnd.j).mono l2) ht ?_
      refine ⟨(l1.trans l2).put nz _, ⟨?_, ?_, ?_, ?_⟩, ?_, ?_, ?_, ?_⟩
      · have : PIs s r.1.R sv.R := by rw [eR]; exact hm.R
        exact PIs.put (by rw [eR] at hR ⊢; exact hR) (this.x.ne nz) (this.y.ne nz) _
      · exact hB.put (nB.x.ne ls) (nB.y.ne ls) _
      · exact .cell _ _ (put_self _ _ _)
      · exact hv.put (nv.ne ls) _
      · show PNew s0 r.1.R
        rw [eR]
        exact hn.R
      · exact .inl (nB.anti (l0.trans l1))
      · exact (new_some nz).anti l0
      · exact nv.anti (l0.trans l1)

/-! ### Lists -/

theorem mapM_does {α β γ δ : Type} {f : α → M γ} {g : β → Go δ} {Q : Cells → α → β → Prop}
    {R : Cells → γ → δ → Prop} (hR : ∀ t u a b, t ≼ u → R t a b → R u a b)
    (hQ : ∀ t u a b, t ≼ u → Q t a b → Q u a b) {as : List α} {bs : List β} :
    ∀ {s : Cells}, List.Forall₂ (Q s) as bs →
    (∀ a b t, s ≼ t → Q t a b → Does (f a) t (g b) R) →
    Does (as.mapM f) s (bs.mapM g) fun t xs ys => List.Forall₂ (R t) xs ys := by
  induction as generalizing bs with
  | nil =>
    intro s h hf
    cases h
    exact .pure .nil
  | cons a as ih =>
    intro s h hf
    cases h with
    | @cons _ b _ bs h1 h2 =>
      rw [List.mapM_cons, List.mapM_cons]
      refine Does.bind (hf a b s (.refl s) h1) ?_
      rintro x y t l hx
      refine Does.bind (ih (s := t) (h2.imp fun a b => hQ s t a b l)
        fun a b u l' => hf a b u (l.trans l')) ?_
      rintro xs ys u l' hxs
      exact .pure (.cons (hR t u x y l' hx) hxs)

theorem forall₂_zipIdx {α β : Type} {Q : α → β → Prop} {as : List α} {bs : List β}
    (h : List.Forall₂ Q as bs) (n : Nat) :
    List.Forall₂ (fun a b => Q a.1 b.1 ∧ a.2 = b.2) (as.zipIdx n) (bs.zipIdx n) := by
  induction h generalizing n with
  | nil => exact .nil
  | cons h _ ih => exact .cons ⟨h, rfl⟩ (ih (n + 1))

theorem mapM_slotR_does {ms : List Slot} {vs : List Proto.Slot}
    (h : List.Forall₂ (SlotIs s) ms vs) :
    Does (ms.mapM fun m => pointBytes m.R) s ((vs.map Proto.Slot.R).mapM Proto.pointBytes)
      (Same s) := by
  induction h with
  | nil => exact .pure ⟨rfl, rfl⟩
  | cons h _ ih =>
    rw [List.mapM_cons, List.map_cons, List.mapM_cons]
    refine Does.bind (pointBytes_does h.R) ?_
    rintro b _ t - ⟨rfl, rfl⟩
    refine Does.bind ih ?_
    rintro bs _ t - ⟨rfl, rfl⟩
    exact .pure ⟨rfl, rfl⟩

/-! ### The sums -/

/-- All cells except `a` are kept (specification; rangeproof.go:217). -/
def Frame (a : Nat) (t u : Cells) : Prop :=
  ∀ (b : Nat) (v : Int), b ≠ a → t b = some v → u b = some v

theorem Frame.is {a : Nat} {t u : Cells} (h : Frame a t u) {p : Ptr} {o : Option Int}
    (hp : Is t p o) (hn : p ≠ some a) : Is u p o := by
  cases hp with
  | nil => exact .nil
  | cell b v hb => exact .cell b v (h b v (fun e => hn (by rw [e])) hb)

/-- What the sums read of a slot, none of it in cell `a` (specification; rangeproof.go:215-221). -/
structure SumIs (a : Nat) (t : Cells) (m : Slot) (v : Proto.Slot) : Prop where
  B : PIs t m.B v.B
  v : Is t m.v v.v
  nv : m.v ≠ some a
  nx : m.B.X ≠ some a
  ny : m.B.Y ≠ some a

theorem into_nil_wp {γ : Type} {f : Int → Int → Int} {s : Cells} {z a : Ptr} {x : Int} {k : Ptr → M γ}
    {O : Nat → Prop} {Q : Go (γ × Cells) → Prop} (ha : Is s a (some x)) (h : Q .panic) :
    Wp (into f z a none >>= k) s O Q := by
  cases ha with
  | cell a x ea => exact ⟨x, ea, h⟩

/-- How the sums end (specification; rangeproof.go:215-221). -/
def SumEnds (a : Nat) (t : Cells) (agg : Point) (ms : List Slot) (g : Go (Int × ECPoint))
    (r : Go (Point × Cells)) : Prop :=
  match g, r with
  | .panic, .panic => True
  | .ok q, .ok (P, u) => Frame a t u ∧ u a = some q.1 ∧ PIs u P q.2 ∧
      (P = agg ∨ (∃ m ∈ ms, P = m.B) ∨ PNew t P)
  | _, _ => False

theorem sumUp_wp (hz : ZeroAdd cp.C) {s0 : Cells} (he : EnvIs s0 e cp) {a : Nat}
    (ha : s0 a = none) {O : Nat → Prop} (hO : O a) : ∀ {ms : List Slot} {vs : List Proto.Slot}
    {t : Cells} {acc : Int}
    {agg : Point} {aggv : ECPoint}, s0 ≼ t → t a = some acc → PIs t agg aggv →
    agg.X ≠ some a → agg.Y ≠ some a → List.Forall₂ (SumIs a t) ms vs →
    Wp (sumUp e (some a) ms agg) t O (SumEnds a t agg ms
      (vs.foldlM (fun (acc : Int × ECPoint) s => do
        let v ← deref s.v
        let agg ← Proto.add cp acc.2 s.B
        pure (acc.1 + v, agg)) (acc, aggv) : Go (Int × ECPoint))) := by
  intro ms
  induction ms with
  | nil =>
    intro vs t acc agg aggv l0 hacc hagg hx hy hms
    cases hms
    exact ⟨fun _ _ _ h => h, hacc, hagg, .inl rfl⟩
  | cons m ms ih =>
    intro vs t acc agg aggv l0 hacc hagg hx hy hms
    cases hms with
    | @cons _ sv _ vs hm hms =>
      rw [List.foldlM_cons]
      have hvt : Is t (some a) (some acc) := .cell a acc hacc
      obtain ⟨hmB, hmv, hv1, hB1, hB2⟩ := hm
      cases hsv : sv.v with
      | none =>
        rw [hsv] at hmv
        generalize hmv' : m.v = mv at hmv
        cases hmv
        rw [sumUp, hmv']
        exact into_nil_wp hvt trivial
      | some vv =>
        rw [hsv] at hmv
        rw [deref_some, Go.bind_ok, sumUp]
        refine into_wp hO hvt hmv ?_
        set t1 := Mem.put t a (addF acc vv) with ht1
        have l1 : s0 ≼ t1 := l0.put ha _
        have f1 : Frame a t t1 := by
          intro b v hb h
          rw [ht1, put_ne _ _ hb]
          exact h
        have hagg1 : PIs t1 agg aggv := hagg.put hx hy _
        have hB' : PIs t1 m.B sv.B := hmB.put hB1 hB2 _
        refine Does.wp (add_does hz (he.mono l1) hagg1 hB') ?_ ?_
        · intro hp
          rw [hp]
          trivial
        · rintro Q q t2 hq l2 ⟨hQ, nQ⟩
          rw [hq]
          have hacc1 : t1 a = some (acc + vv) := put_self _ _ _
          have hlt1 : t1 a ≠ none := by rw [hacc1]; simp
          have f2 : Frame a t t2 := fun b v hb h => l2 b v (f1 b v hb h)
          have hQx : Q.X ≠ some a ∧ Q.Y ≠ some a := by
            rcases nQ with rfl | rfl | n
            · exact ⟨hx, hy⟩
            · exact ⟨hB1, hB2⟩
            · exact ⟨n.x.ne hlt1, n.y.ne hlt1⟩
          have := ih (vs := vs) (t := t2) (acc := acc + vv) (agg := Q) (aggv := q) (l1.trans l2)
            (l2 a _ hacc1) hQ hQx.1 hQx.2 (hms.imp fun m' v' h => ⟨⟨f2.is h.B.x h.nx, f2.is h.B.y h.ny⟩,
              f2.is h.v h.nv, h.nv, h.nx, h.ny⟩)
          have nn : ∀ {b}, t2 b = none → t b = none := by
            intro b hb
            by_cases hba : b = a
            · subst hba; rw [l2 b _ hacc1] at hb; cases hb
            · cases htb : t b with
              | none => rfl
              | some v => rw [f2 b v hba htb] at hb; cases hb
          have nn1 : ∀ {b}, t1 b = none → t b = none := by
            intro b hb
            by_cases hba : b = a
            · subst hba; exact absurd hb hlt1
            · cases htb : t b with
              | none => rfl
              | some v => rw [f1 b v hba htb] at hb; cases hb
          refine Wp.mono (fun _ h => h) ?_ this
          intro r hr
          rw [Go.bind_ok, Go.pure_eq, Go.bind_ok]
          revert hr
          generalize (vs.foldlM (fun (acc : Int × ECPoint) s => do
            let v ← deref s.v
            let agg ← Proto.add cp acc.2 s.B
            pure (acc.1 + v, agg)) (acc + vv, q) : Go (Int × ECPoint)) = g
          intro hr
          cases g <;> rcases r with ⟨P, u⟩ | _
          · obtain ⟨f3, h4, h5, h6⟩ := hr
            refine ⟨fun b v hb h => f3 b v hb (f2 b v hb h), h4, h5, ?_⟩
            rcases h6 with rfl | ⟨m', hm', rfl⟩ | n
            · rcases nQ with rfl | rfl | n
              · exact .inl rfl
              · exact .inr (.inl ⟨m, by simp, rfl⟩)
              · exact .inr (.inr ⟨fun b hb => nn1 (n.x b hb), fun b hb => nn1 (n.y b hb)⟩)
            · exact .inr (.inl ⟨m', by simp [hm'], rfl⟩)
            · exact .inr (.inr ⟨fun b hb => nn (n.x b hb), fun b hb => nn (n.y b hb)⟩)
          · exact hr
          · exact hr
          · exact hr

/-! ### The prover -/

/-- A `RangeProof` in memory and its value (specification; rangeproof.go:36-40). -/
structure RangeIs (s : Cells) (p : Range) (v : RangeProof) : Prop where
  ProofAggregate : PIs s p.ProofAggregate v.ProofAggregate
  ProofE : Is s p.ProofE v.ProofE
  ProofTuples : List.Forall₂ (fun a b => PIs s a.C b.C ∧ Is s a.S b.S) p.ProofTuples v.ProofTuples

/-- All numbers of the proof are new, except that a point may be one of the list (specification;
rangeproof.go:223-228). -/
structure RangeNew (s : Cells) (L : List Point) (p : Range) : Prop where
  ProofAggregate : NewOr s L p.ProofAggregate
  ProofE : New s p.ProofE
  C : ∀ t ∈ p.ProofTuples, NewOr s L t.C
  S : ∀ t ∈ p.ProofTuples, New s t.S

theorem NewOr.ne {s t : Cells} (he : EnvIs s e cp) {P : Point}
    (h : NewOr t e.HPoints P) {a : Nat} (hs : s a = none) (ha : t a ≠ none) :
    P.X ≠ some a ∧ P.Y ≠ some a := by
  rcases h with h | h
  · exact ⟨h.x.ne ha, h.y.ne ha⟩
  · obtain ⟨i, hi, rfl⟩ := List.getElem_of_mem h
    obtain ⟨h1, h2⟩ := List.forall₂_iff_get.1 he.HPoints
    have := h2 i hi (h1 ▸ hi)
    exact ⟨this.x.ne hs, this.y.ne hs⟩

theorem forall₂_same {α : Type} {Q : α → α → Prop} (h : ∀ a, Q a a) : ∀ L : List α, List.Forall₂ Q L L
  | [] => .nil
  | a :: L => .cons (h a) (forall₂_same h L)

theorem proveRange_does (hash : Bytes → Bytes) (hz : ZeroAdd cp.C) (he : EnvIs s e cp) (n : Nat)
    (value : Int) (rnd : Nat → BitRand) :
    Does (proveRange hash e n value rnd) s (Proto.proveRange hash cp n value rnd)
      fun t r r' => Option.Rel (fun a b => RangeIs t a b ∧ RangeNew s e.HPoints a) r.1 r'.1 ∧
        Is t r.2.1 r'.2.1 ∧ New s r.2.1 ∧ r.2.2 = r'.2.2 := by
  have hN := he.N
  refine alloc_wp 0 fun vt hvt => ?_
  set sv : Cells := Mem.put s vt 0 with hsv
  have lv : s ≼ sv := le_put hvt 0
  have lvt : sv vt ≠ none := by rw [hsv, put_self]; simp
  have hA : Does ((List.range n).mapM fun i => genA hash e i (bitOf value i) (rnd i)) sv
      ((List.range n).mapM fun i => runW (progA hash cp i (bitOf value i) (rnd i)) emptySlot)
      fun t xs ys => List.Forall₂ (fun m v => SlotIs t m v ∧ SlotNew sv e.HPoints m) xs ys := by
    refine mapM_does (Q := fun _ a b => a = b)
      (R := fun t m v => SlotIs t m v ∧ SlotNew sv e.HPoints m)
      (fun t u a b l h => ⟨h.1.mono l, h.2⟩) (fun _ _ _ _ _ h => h)
      (forall₂_same (fun _ => rfl) _) ?_
    rintro a b t l rfl
    exact (genA_does hash hz (he.mono (lv.trans l)) a _ _).imp fun _ _ _ _ h => ⟨h.1, h.2.anti l⟩
  unfold Proto.proveRange
  refine Does.wp hA (by intro h; rw [h]; trivial) ?_
  rintro slotsA vsA tA hgA lA hA
  rw [hgA, Go.bind_ok]
  unfold hashAll
  refine Does.wp (mapM_slotR_does (hA.imp fun _ _ h => h.1)) (by intro h; rw [h]; trivial) ?_
  rintro bs _ tA hgR - ⟨rfl, rfl⟩
  rw [hgR, Go.bind_ok, Go.pure_eq, Go.bind_ok]
  set h : Int := ((setBytes (hash bs.flatten) : Nat) : Int) with hh
  refine alloc_wp _ fun ea hea => ?_
  refine into_wp (.inl rfl) (is_put _ _ _) (((hN.mono lv).mono lA).mono (le_put hea _)) ?_
  rw [put_put]
  set tE : Cells := Mem.put tA ea (modF h cp.C.N) with htE
  have lE : tA ≼ tE := le_put hea _
  refine alloc_wp _ fun xa hxa => ?_
  set tX : Cells := Mem.put tE xa 0 with htX
  have lX : tE ≼ tX := le_put hxa _
  refine alloc_wp _ fun ya hya => ?_
  set tY : Cells := Mem.put tX ya 0 with htY
  have lY : tX ≼ tY := le_put hya _
  have lAY : tA ≼ tY := (lE.trans lX).trans lY
  have hE : Is tY (some ea) (some (h % (cp.C.N : Int))) :=
    ((is_put tA ea _).mono lX).mono lY
  have hA' : List.Forall₂ (fun m v => SlotIs tY m v ∧ SlotNew sv e.HPoints m) slotsA vsA :=
    hA.imp fun _ _ h => ⟨h.1.mono lAY, h.2⟩
  have hB : Does (slotsA.zipIdx.mapM fun s =>
        genB hash e s.2 (bitOf value s.2) (some ea) (rnd s.2) s.1) tY
      (vsA.zipIdx.mapM fun s =>
        runW (progB hash cp s.2 (bitOf value s.2) (h % (cp.C.N : Int)) (rnd s.2)) s.1)
      fun t xs ys => List.Forall₂ (fun m v => SlotIs t m v ∧ SlotNew sv e.HPoints m) xs ys := by
    refine mapM_does
      (Q := fun t (a : Slot × Nat) (b : Proto.Slot × Nat) =>
        (SlotIs t a.1 b.1 ∧ SlotNew sv e.HPoints a.1) ∧ a.2 = b.2)
      (R := fun t m v => SlotIs t m v ∧ SlotNew sv e.HPoints m)
      (fun t u a b l h => ⟨h.1.mono l, h.2⟩) (fun _ _ _ _ l h => ⟨⟨h.1.1.mono l, h.1.2⟩, h.2⟩)
      (forall₂_zipIdx hA' 0) ?_
    rintro ⟨a, i⟩ ⟨b, _⟩ t l ⟨⟨h1, h2⟩, rfl⟩
    exact genB_does hash hz (he.mono (((lv.trans lA).trans lAY).trans l)) i _ (hE.mono l) (rnd i) h1
      ((lA.trans lAY).trans l) h2
  dsimp only
  refine Does.wp hB (by intro hp; rw [hp]; trivial) ?_
  rintro slotsB vsB tB hgB lB hB
  rw [hgB, Go.bind_ok]
  have lvB : sv ≼ tB := (lA.trans lAY).trans lB
  have hv0 : tB vt = some 0 := lvB _ _ (put_self _ _ _)
  have neA : ∀ {c : Nat}, tA c = none → c ≠ vt := by
    rintro c hc rfl
    rw [lA _ _ (put_self s c 0)] at hc
    cases hc
  have nea := neA hea
  have nxa := neA (lE.unseen hxa)
  have nya := neA (lE.unseen (lX.unseen hya))
  refine Wp.bind ?_
  refine Wp.mono (fun _ h => h) ?_ (sumUp_wp hz he hvt
    (.inr (.inr (.inr (.inl rfl)))) (ms := slotsB) (vs := vsB) (t := tB)
    (acc := 0) (agg := ⟨some xa, some ya⟩) (aggv := Zero) (lv.trans lvB) hv0
    ⟨((is_put tE xa 0).mono lY).mono lB, (is_put tX ya 0).mono lB⟩
    (by simpa using nxa) (by simpa using nya)
    (hB.imp fun m v h => ⟨h.1.B, h.1.v, h.2.v.ne lvt, (h.2.B.ne he hvt lvt).1,
      (h.2.B.ne he hvt lvt).2⟩))
  unfold finishRange
  generalize (vsB.foldlM (fun (acc : Int × ECPoint) s => do
    let v ← deref s.v
    let agg ← Proto.add cp acc.2 s.B
    pure (acc.1 + v, agg)) ((0 : Int), Zero) : Go (Int × ECPoint)) = g
  rintro r hr
  cases g with
  | panic =>
    rcases r with ⟨P, u⟩ | _
    · exact hr.elim
    · trivial
  | ok q =>
    rcases r with ⟨P, u⟩ | _
    · obtain ⟨f1, h2, h3, h4⟩ := hr
      have nn : ∀ {c : Nat}, tA c = none → s c = none := fun hc => lv.unseen (lA.unseen hc)
      have lu : s ≼ u := by
        intro b v hb
        refine f1 b v ?_ ((lv.trans lvB) b v hb)
        rintro rfl
        rw [hvt] at hb
        cases hb
      refine ⟨lu, ?_, .cell _ _ h2, new_some hvt, rfl⟩
      apply Option.Rel.some
      refine ⟨RangeIs.mk h3 ?_ ?_, RangeNew.mk ?_ ?_ ?_ ?_⟩
      · exact f1.is (hE.mono lB) (by simpa using nea)
      · rw [List.forall₂_map_left_iff, List.forall₂_map_right_iff]
        refine hB.imp fun m v h => ⟨⟨f1.is h.1.B.x ?_, f1.is h.1.B.y ?_⟩, f1.is h.1.k ?_⟩
        · exact (h.2.B.ne he hvt lvt).1
        · exact (h.2.B.ne he hvt lvt).2
        · exact h.2.k.ne lvt
      · rcases h4 with rfl | ⟨m, hm, rfl⟩ | n
        · exact .inl ⟨new_some (nn (lE.unseen hxa)), new_some (nn (lE.unseen (lX.unseen hya)))⟩
        · obtain ⟨i, hi, rfl⟩ := List.getElem_of_mem hm
          obtain ⟨g1, g2⟩ := List.forall₂_iff_get.1 hB
          exact (g2 i hi (g1 ▸ hi)).2.B.anti lv
        · exact .inl (n.anti (lv.trans lvB))
      · exact new_some (nn hea)
      · intro t ht
        obtain ⟨m, hm, rfl⟩ := List.mem_map.1 ht
        obtain ⟨i, hi, rfl⟩ := List.getElem_of_mem hm
        obtain ⟨g1, g2⟩ := List.forall₂_iff_get.1 hB
        exact (g2 i hi (g1 ▸ hi)).2.B.anti lv
      · intro t ht
        obtain ⟨m, hm, rfl⟩ := List.mem_map.1 ht
        obtain ⟨i, hi, rfl⟩ := List.getElem_of_mem hm
        obtain ⟨g1, g2⟩ := List.forall₂_iff_get.1 hB
        exact (g2 i hi (g1 ▸ hi)).2.k.anti lv
    · exact hr.elim

theorem newRangeProof_does (hash : Bytes → Bytes) (hz : ZeroAdd cp.C) (he : EnvIs s e cp)
    {value : Ptr} {v : Int} (hv : Is s value (some v)) (rnd : Nat → BitRand) :
    Does (newRangeProof hash e value rnd) s (Proto.newRangeProof hash cp v rnd)
      fun t r r' => Option.Rel (fun a b => RangeIs t a b ∧ RangeNew s e.HPoints a) r.1 r'.1 ∧
        Is t r.2.1 r'.2.1 ∧ New s r.2.1 ∧ r.2.2 = r'.2.2 := by
  have hZ := he.BigZero
  refine Does.step (load_ok hv) ?_
  rintro v s - ⟨rfl, rfl⟩
  refine Does.step (load_ok hZ) ?_
  rintro z s - ⟨rfl, hz'⟩
  subst hz'
  unfold Proto.newRangeProof
  by_cases h1 : v > 1099511627776
  · rw [if_pos h1, if_pos h1]
    exact .pure ⟨.none, .nil, new_nil, rfl⟩
  · rw [if_neg h1, if_neg h1]
    by_cases h2 : v < 0
    · rw [if_pos h2, if_pos h2]
      exact .pure ⟨.none, .nil, new_nil, rfl⟩
    · rw [if_neg h2, if_neg h2]
      exact proveRange_does hash hz he proofSize v rnd

/-! ### The verifier -/

theorem verifyGen_does (hash : Bytes → Bytes) (hz : ZeroAdd cp.C) (he : EnvIs s e cp) (idx : Nat)
    {pe : Ptr} {pev : Option Int} (hpe : Is s pe pev) {r : RangeTuple} {rv : RangeProofTuple}
    (hC : PIs s r.C rv.C) (hS : Is s r.S rv.S) :
    Does (verifyGen hash e idx pe r) s (Proto.verifyGen hash cp idx pev rv) (NewPt s) := by
  have hH := he.H
  refine Does.bind (mult_does he hH hS) ?_
  rintro lhs lhsv t1 l1 ⟨hl, -⟩
  refine Does.bind (hpoint_does (by see) idx) ?_
  rintro hp hpv t1 - ⟨rfl, hhp, -⟩
  refine Does.bind (neg_does (by see) hhp) ?_
  rintro nhp nhpv t2 l2 ⟨hn, -⟩
  refine Does.bind (add_does hz (by see) (by see : PIs t2 r.C rv.C) hn) ?_
  rintro rhs2 rhs2v t3 l3 ⟨hr, -⟩
  refine Does.bind (mult_does (by see) hr (by see : Is t3 pe pev)) ?_
  rintro m mv t4 l4 ⟨hm, -⟩
  refine Does.bind (neg_does (by see) hm) ?_
  rintro nm nmv t5 l5 ⟨hnm, -⟩
  refine Does.bind (add_does hz (by see) (by see : PIs t5 lhs lhsv) hnm) ?_
  rintro tot totv t6 l6 ⟨ht, -⟩
  have hq : (do
      let e1 ← hashPoint hash totv
      Proto.mult cp rv.C (some e1) : Go ECPoint) = (do
      let b ← Proto.pointBytes totv
      Proto.mult cp rv.C (some (setBytes (hash b) : Int))) := by
    unfold hashPoint
    rw [bind_assoc]
    rfl
  rw [hq]
  refine Does.bind (pointBytes_does ht) ?_
  rintro b _ t6 - ⟨rfl, rfl⟩
  refine Does.step (alloc_does _ t6) ?_
  rintro e1 t7 l7 ⟨he1, -⟩
  refine (mult_does (by see) (by see : PIs t7 r.C rv.C) he1).imp fun _ _ _ _ hp => ⟨hp.1, ?_⟩
  have := hp.2
  new

theorem sumPoints_does (hz : ZeroAdd cp.C) {ts : List RangeTuple} {vs : List RangeProofTuple} :
    ∀ {s : Cells} {total : Point} {tv : ECPoint}, EnvIs s e cp →
    List.Forall₂ (fun a b => PIs s a.C b.C ∧ Is s a.S b.S) ts vs → PIs s total tv →
    Does (sumPoints e ts total) s (vs.foldlM (fun acc t => Proto.add cp acc t.C) tv)
      fun t P p => PIs t P p := by
  induction ts generalizing vs with
  | nil =>
    intro s total tv he h ht
    cases h
    exact .pure ht
  | cons a ts ih =>
    intro s total tv he h ht
    cases h with
    | cons h1 h2 =>
      rw [List.foldlM_cons]
      refine Does.bind (add_does hz he ht h1.1) ?_
      rintro q qv t l ⟨hq, -⟩
      exact ih (he.mono l) (h2.imp fun _ _ h => ⟨h.1.mono l, h.2.mono l⟩) hq

theorem tupleNil_eq {ts : List RangeTuple} {vs : List RangeProofTuple}
    (h : List.Forall₂ (fun a b => PIs s a.C b.C ∧ Is s a.S b.S) ts vs) :
    ts.any (fun t => t.C.X.isNone || t.S.isNone) = vs.any tupleNil := by
  induction h with
  | nil => rfl
  | @cons a b _ _ h _ ih =>
    rw [List.any_cons, List.any_cons, ih]
    congr 1
    obtain ⟨⟨h1, -⟩, h2⟩ := h
    obtain ⟨⟨aX, aY⟩, aS⟩ := a
    obtain ⟨⟨bX, bY⟩, bS⟩ := b
    dsimp only at h1 h2
    cases h1 <;> cases h2 <;> rfl

theorem rangeVerify_does (hash : Bytes → Bytes) (hz : ZeroAdd cp.C) (he : EnvIs s e cp)
    {pr : Option Range} {pv : Option RangeProof} (hp : Option.Rel (RangeIs s) pr pv)
    {comm : Point} {cv : ECPoint} (hc : PIs s comm cv) :
    Does (rangeVerify hash e pr comm) s (Proto.rangeVerify hash cp pv cv) Result := by
  cases hp with
  | none => exact .pure rfl
  | @some p v h =>
    obtain ⟨hA, hE, hT⟩ := h
    unfold rangeVerify Proto.rangeVerify
    dsimp only
    rw [tupleNil_eq hT]
    by_cases hn : v.ProofTuples.any tupleNil
    · rw [if_pos hn, if_pos hn]
      exact .pure rfl
    · rw [if_neg hn, if_neg hn]
      refine Does.step (alloc_does 0 s) ?_
      rintro x t1 l1 ⟨hx, -⟩
      refine Does.step (alloc_does 0 t1) ?_
      rintro y t2 l2 ⟨hy, -⟩
      have l12 := l1.trans l2
      have hT2 : List.Forall₂ (fun a b => PIs t2 a.C b.C ∧ Is t2 a.S b.S) p.ProofTuples
        v.ProofTuples := hT.imp fun _ _ h => ⟨h.1.mono l12, h.2.mono l12⟩
      have hE2 := hE.mono l12
      have he2 := he.mono l12
      have hz2 : PIs t2 ⟨x, y⟩ Zero := ⟨hx.mono l2, hy⟩
      have hA2 := hA.mono l12
      have hc2 := hc.mono l12
      clear l1 l12 hT hE he hA hc
      refine Does.bind (mapM_does
        (Q := fun t (a : RangeTuple × Nat) (b : RangeProofTuple × Nat) =>
          (PIs t a.1.C b.1.C ∧ Is t a.1.S b.1.S) ∧ a.2 = b.2)
        (R := fun t P q => PIs t P q) (fun _ _ _ _ l h => h.mono l)
        (fun _ _ _ _ l h =>
          ⟨⟨h.1.1.mono l, h.1.2.mono l⟩, h.2⟩) (forall₂_zipIdx hT2 0) ?_) ?_
      · rintro ⟨a, i⟩ ⟨b, _⟩ t l ⟨⟨h1, h2⟩, rfl⟩
        exact (verifyGen_does hash hz (he2.mono l) i (hE2.mono l) h1 h2).imp fun _ _ _ _ h => h.1
      · rintro Rs Rvs t3 l3 hRs
        refine Does.bind (sumPoints_does hz (he2.mono l3)
          (hT2.imp fun _ _ h => ⟨h.1.mono l3, h.2.mono l3⟩) (hz2.mono l3)) ?_
        rintro tot totv t4 l4 htot
        have hq : finishVerify hash v cv Rvs totv = (do
            let bs ← Rvs.mapM Proto.pointBytes
            let eq ← Proto.cmpEq v.ProofE (some (setBytes (hash bs.flatten) : Int))
            if !eq then pure (reject "calculatedE0 does not match")
            else do
              let ok ← Proto.equal totv v.ProofAggregate
              if !ok then pure (reject "ProofAggregate does not match totalPoint")
              else do
                let ok ← Proto.equal cv totv
                if !ok then pure (reject "ProofAggregate does not match commitment")
                else pure accept) := by
          unfold finishVerify hashAll
          rw [bind_assoc]
          rfl
        rw [hq]
        refine Does.bind (mapM_pointBytes_does (hRs.imp fun _ _ h => h.mono l4)) ?_
        rintro bs _ t4 - ⟨rfl, rfl⟩
        refine Does.step (alloc_does _ t4) ?_
        rintro e0 t5 l5 ⟨h0, -⟩
        refine Does.bind (cmpEq_does (by see : Is t5 p.ProofE v.ProofE) h0) ?_
        rintro eq _ t5 - ⟨rfl, rfl⟩
        cases eq with
        | false => exact .pure rfl
        | true =>
          refine Does.bind (equal_does (by see : PIs t5 tot totv)
            (by see : PIs t5 p.ProofAggregate v.ProofAggregate)) ?_
          rintro ok _ t5 - ⟨rfl, rfl⟩
          cases ok with
          | false => exact .pure rfl
          | true =>
            refine Does.bind (equal_does (by see : PIs t5 comm cv) (by see : PIs t5 tot totv)) ?_
            rintro ok _ t5 - ⟨rfl, rfl⟩
            cases ok <;> exact .pure rfl

end Zk.Mem
