import Verif.Rom.IneqProps
import Verif.Range.Props

/-!
# How often honest provers succeed: counting

Bounds for the draws and answers at which the range and ABC provers of the code fail.
-/

namespace Zk.Rom

open Zk Zk.Proto

/-! ## Averages -/

section

variable {X Y : Type} [Fintype X] [Fintype Y]

/-- A bound for all rows is a bound. -/
theorem prob_rows {P : X × Y → Prop} {r : ℝ} (hr : 0 ≤ r) (h : ∀ x, (prob fun y => P (x, y)) ≤ r) :
    prob P ≤ r := by
  rcases isEmpty_or_nonempty Y with he | hne
  · have : num P ≤ 0 := by
      have := num_le_card (P := P)
      rwa [Fintype.card_prod, Fintype.card_eq_zero (α := Y), Nat.mul_zero, Nat.cast_zero] at this
    exact (div_nonpos_of_nonpos_of_nonneg this (Nat.cast_nonneg _)).trans hr
  rcases isEmpty_or_nonempty X with he | hne'
  · have : num P ≤ 0 := by
      have := num_le_card (P := P)
      rwa [Fintype.card_prod, Fintype.card_eq_zero (α := X), Nat.zero_mul, Nat.cast_zero] at this
    exact (div_nonpos_of_nonpos_of_nonneg this (Nat.cast_nonneg _)).trans hr
  have hX : (0 : ℝ) < Fintype.card X := Nat.cast_pos.2 Fintype.card_pos
  have hY : (0 : ℝ) < Fintype.card Y := Nat.cast_pos.2 Fintype.card_pos
  rw [prob, num_prod, Fintype.card_prod, Nat.cast_mul, div_le_iff₀ (by positivity)]
  refine (Finset.sum_le_card_nsmul _ _ (r * Fintype.card Y) fun x _ => (div_le_iff₀ hY).1 (h x)).trans
    (le_of_eq ?_)
  rw [Finset.card_univ, nsmul_eq_mul]
  ring

/-- A bound for all columns is a bound. -/
theorem prob_cols {P : X × Y → Prop} {r : ℝ} (hr : 0 ≤ r) (h : ∀ y, (prob fun x => P (x, y)) ≤ r) :
    prob P ≤ r := by
  have := prob_equiv (Equiv.prodComm Y X) P
  rw [← this]
  exact prob_rows hr h

/-- Each row may be permuted. -/
theorem prob_permute (σ : X → Y ≃ Y) (P : X × Y → Prop) :
    (prob fun z : X × Y => P (z.1, σ z.1 z.2)) = prob P := by
  rw [prob, prob, num_prod, num_prod]
  congr 1
  exact Finset.sum_congr rfl fun x _ => num_equiv (σ x) fun y => P (x, y)

end

/-- One coordinate of a vector. -/
theorem prob_coord {n M : Nat} (hM : 0 < M) (i : Fin n) (Q : Fin M → Prop) (κ : ℝ) (h : num Q ≤ κ) :
    (prob fun k : Fin n → Fin M => Q (k i)) ≤ κ / M := by
  classical
  have : Nonempty (Fin M) := ⟨⟨0, hM⟩⟩
  have h1 := num_hit (ι := Fin n) (fun _ => Q) κ (fun _ => h) i (fun _ => ⟨0, hM⟩) fun _ _ _ => rfl
  have hX : (0 : ℝ) < Fintype.card (Fin n → Fin M) := Nat.cast_pos.2 Fintype.card_pos
  rw [prob, div_le_div_iff₀ hX (Nat.cast_pos.2 hM)]
  rwa [Fintype.card_fin] at h1

theorem prob_union {X : Type} [Fintype X] {P A B : X → Prop} {a b : ℝ} (h : ∀ x, P x → A x ∨ B x) (hA : prob A ≤ a)
    (hB : prob B ≤ b) : prob P ≤ a + b :=
  (prob_mono h).trans (prob_or.trans (add_le_add hA hB))

/-! ## Special points -/

section

variable {cp : Params} {E : Type} [AddCommGroup E]

/-- The points at which `Mult` is wrong. -/
theorem special_of (L : Lawful cp E) {a : E} (h : ¬ L.MultOk a) : a = -L.g ∨ a = L.h ∨ a = -L.h := by
  rw [L.multOk_iff_eff, Lawful.eff] at h
  split at h
  · rename_i h'
    rcases h' with h' | h'
    · exact (h h'.symm).elim
    · exact .inl h'
  · split at h
    · rename_i h'
      exact .inr h'
    · exact (h rfl).elim

/-- At most three multiples are special. -/
theorem num_special (L : Lawful cp E) (a c : E) (hc : c ≠ 0) :
    (num fun b : Fin cp.C.N => ¬ L.MultOk (a + ((b : Nat) : Int) • c)) ≤ 3 := by
  have h1 : ∀ s : E, (num fun b : Fin cp.C.N => a + ((b : Nat) : Int) • c = s) ≤ 1 := fun s =>
    num_le_one fun x y hx hy => fin_eq_of_smul L hc (add_left_cancel (hx.trans hy.symm))
  refine (num_mono fun b hb => special_of L hb).trans (num_or.trans ?_)
  linarith [h1 (-L.g), h1 L.h, h1 (-L.h), num_or (P := fun b : Fin cp.C.N => a + ((b : Nat) : Int) • c = L.h)
    (Q := fun b : Fin cp.C.N => a + ((b : Nat) : Int) • c = -L.h)]

/-- One point is rarely a multiple by an answer. -/
theorem num_multiple (L : Lawful cp E) (s t : E) (hs : s ≠ 0) :
    (num fun ω : Word => (setBytes (bytesOf ω) : Int) • s = t) ≤ perChal cp.C.N := by
  by_cases h : ∃ ω : Word, (setBytes (bytesOf ω) : Int) • s = t
  · obtain ⟨ω, h⟩ := h
    refine (num_mono fun ω' h' => ?_).trans (num_chal cp.C.N (chalOf cp.C.N ω))
    exact (L.smul_eq_smul hs).1 (h'.trans h.symm)
  · refine (num_mono (Q := fun ω : Word => chalOf cp.C.N ω = 0) fun ω h' => (h ⟨ω, h'⟩).elim).trans (num_chal _ _)

/-- The answers that are not below N. -/
theorem num_large (N : Nat) :
    (num fun ω : Word => N ≤ setBytes (bytesOf ω)) ≤ (2 ^ 256 - N : ℕ) :=
  num_le_of_inj (fun ω => setBytes (bytesOf ω) - N) _
    (fun ω h => by have := setBytes_word_lt ω; omega)
    fun ω ω' h1 h2 h => Subtype.ext (Zk.Ec.setBytes_inj_len (ω.2.trans ω'.2.symm)
      (show setBytes (bytesOf ω) = setBytes (bytesOf ω') by omega))

/-! ## Range proofs -/

/-- The draws of the range prover: k, v and j for each bit.  See rangeproof.go:63, 71, 84, 112. -/
def drawn {n N : Nat} (k v j : Fin n → Fin N) (i : Nat) : BitRand :=
  if h : i < n then ⟨(k ⟨i, h⟩ : Nat), (v ⟨i, h⟩ : Nat), (j ⟨i, h⟩ : Nat)⟩ else ⟨0, 0, 0⟩

/-- Answers to the inner question of a 0 bit for which the prover fails, given k.
See rangeproof.go:117-147. -/
def BadInner (L : Lawful cp E) (i : Nat) (k : Int) (e : Int) : Prop :=
  e • L.g = 0 ∨ (∃ s ∈ [-L.g, L.h, -L.h], e • s = k • L.hb) ∨
    ∃ s ∈ [-L.g, L.h, -L.h], s + (2 ^ i : Int) • L.g ≠ 0 ∧ e • (s + (2 ^ i : Int) • L.g) = k • L.hb

theorem num_badInner (L : Lawful cp E) (i : Nat) (k : Int) :
    (num fun ω : Word => BadInner L i k (setBytes (bytesOf ω))) ≤ 7 * perChal cp.C.N := by
  have hp : (0 : ℝ) ≤ perChal cp.C.N := Nat.cast_nonneg _
  have h1 := num_multiple L L.g 0 L.g_ne
  have h2 : ∀ s : E, s ≠ 0 → _ := fun s hs => num_multiple L s (k • L.hb) hs
  have h3 : ∀ s : E, (num fun ω : Word => s + (2 ^ i : Int) • L.g ≠ 0 ∧
      (setBytes (bytesOf ω) : Int) • (s + (2 ^ i : Int) • L.g) = k • L.hb) ≤ perChal cp.C.N := by
    intro s
    by_cases hs : s + (2 ^ i : Int) • L.g = 0
    · refine (num_mono (Q := fun ω : Word => (setBytes (bytesOf ω) : Int) • L.g = 0)
        fun ω h' => (h'.1 hs).elim).trans h1
    · exact (num_mono fun ω h' => h'.2).trans (h2 _ hs)
  have h4 := h2 _ (neg_ne_zero.2 L.g_ne)
  have h5 := h2 _ L.h_ne
  have h6 := h2 _ (neg_ne_zero.2 L.h_ne)
  have h7 := h3 (-L.g)
  have h8 := h3 L.h
  have h9 := h3 (-L.h)
  simp only [BadInner, List.mem_cons, List.not_mem_nil, or_false, exists_eq_or_imp, exists_eq_left]
  refine num_or.trans (le_trans (add_le_add h1 (num_or.trans (add_le_add
    (num_or.trans (add_le_add h4 (num_or.trans (add_le_add h5 h6))))
    (num_or.trans (add_le_add h7 (num_or.trans (add_le_add h8 h9))))))) (le_of_eq ?_))
  ring

/-- What can go wrong for one bit: a bad answer for a 0 bit, or a bad k or v.  See rangeproof.go:51-151. -/
def BadBit (L : Lawful cp E) (hash : Bytes → Bytes) (n : Nat) (value : Int) (rnd : Nat → BitRand) (i : Nat) : Prop :=
  (bitOf value i = false ∧ BadInner L i (rnd i).k (L.eiOf hash n value rnd i)) ∨
  (bitOf value i = false ∧ ((rnd i).k • L.hb = 0 ∨ ¬ L.MultOk (0 + (rnd i).k • L.hb))) ∨
  (bitOf value i = true ∧ (¬ L.MultOk ((2 ^ i : Int) • L.g + (rnd i).v • L.hb) ∨
    ¬ L.MultOk (0 + (rnd i).v • L.hb)))

/-- If nothing goes wrong, the draws are not unlucky. -/
theorem lucky_of (L : Lawful cp E) (hash : Bytes → Bytes) (n : Nat) (value : Int) (rnd : Nat → BitRand)
    (h1 : ∀ i < n, ¬ BadBit L hash n value rnd i)
    (h2 : L.hps hash ((List.range n).map (L.rOf hash value rnd)) < cp.C.N) : LuckyDraws L hash n value rnd := by
  have key : ∀ i < n, bitOf value i = false → ¬ (cp.C.N : Int) ∣ L.eiOf hash n value rnd i := by
    intro i hi hb hd
    exact h1 i hi (.inl ⟨hb, .inl ((L.smul_eq_zero L.g_ne).2 hd)⟩)
  have hinv : ∀ i < n, bitOf value i = false → ∀ a : E, L.eiOf hash n value rnd i •
      (L.inv (L.eiOf hash n value rnd i) * (rnd i).k) • a = (rnd i).k • a := by
    intro i hi hb a
    rw [mul_smul, smul_comm, L.inv_smul (key i hi hb)]
  have hmem : ∀ {a : E}, ¬ L.MultOk a → a ∈ [-L.g, L.h, -L.h] := by
    intro a h
    simpa using special_of L h
  refine ⟨key, h2, ?_, ?_, ?_⟩
  · intro i hi hb
    by_contra hk
    rw [← zero_add ((rnd i).k • L.hb)] at hk
    exact h1 i hi (.inr (.inl ⟨hb, .inr hk⟩))
  · intro i hi
    by_contra hk
    cases hb : bitOf value i with
    | true =>
      simp only [bitCommitment, blinding, Lawful.vOf, hb, if_true] at hk
      exact h1 i hi (.inr (.inr ⟨hb, .inl hk⟩))
    | false =>
      simp only [bitCommitment, blinding, Lawful.vOf, hb, Bool.false_eq_true, if_false, zero_smul, zero_add] at hk
      exact h1 i hi (.inl ⟨hb, .inr (.inl ⟨_, hmem hk, hinv i hi hb _⟩)⟩)
  · intro i hi
    by_contra hk
    cases hb : bitOf value i with
    | true =>
      simp only [bitCommitment, blinding, Lawful.vOf, hb, if_true, add_sub_cancel_left] at hk
      exact h1 i hi (.inr (.inr ⟨hb, .inr (by rwa [zero_add])⟩))
    | false =>
      simp only [bitCommitment, blinding, Lawful.vOf, hb, Bool.false_eq_true, if_false, zero_smul, zero_add] at hk
      have he : L.eiOf hash n value rnd i • ((L.inv (L.eiOf hash n value rnd i) * (rnd i).k) • L.hb -
          (2 ^ i : Int) • L.g + (2 ^ i : Int) • L.g) = (rnd i).k • L.hb := by
        rw [sub_add_cancel, hinv i hi hb]
      by_cases hz : (L.inv (L.eiOf hash n value rnd i) * (rnd i).k) • L.hb -
          (2 ^ i : Int) • L.g + (2 ^ i : Int) • L.g = 0
      · rw [hz, smul_zero] at he
        exact h1 i hi (.inr (.inl ⟨hb, .inl he.symm⟩))
      · exact h1 i hi (.inl ⟨hb, .inr (.inr ⟨_, hmem hk, hz, he⟩)⟩)

theorem rOf_congr (L : Lawful cp E) (hash : Bytes → Bytes) (value : Int) {n : Nat} (k v j j' : Fin n → Fin cp.C.N)
    (i : Nat) : L.rOf hash value (drawn k v j) i = L.rOf hash value (drawn k v j') i := by
  simp only [Lawful.rOf, drawn]
  by_cases h : i < n <;> simp only [h, dif_pos, dif_neg, not_false_eq_true]

theorem e0Of_congr (L : Lawful cp E) (hash : Bytes → Bytes) (value : Int) {n : Nat} (k v j j' : Fin n → Fin cp.C.N) :
    L.e0Of hash n value (drawn k v j) = L.e0Of hash n value (drawn k v j') := by
  rw [Lawful.e0Of, Lawful.e0Of, show L.rOf hash value (drawn k v j) = L.rOf hash value (drawn k v j') from
    funext fun i => rOf_congr L hash value k v j j' i]

/-- The strings that the range prover and verifier hash for `n` bits: those of at most `n` points.
See rangeproof.go:51-151, 191-200. -/
def RangeStrings (L : Lawful cp E) (n : Nat) (S : Finset Bytes) : Prop :=
  ∀ as : List E, as.length ≤ n → hashed (as.map L.pe) ∈ S

theorem bytes_mem (L : Lawful cp E) {n : Nat} {S : Finset Bytes} (hS : RangeStrings L n S) (hn : 0 < n) (a : E) :
    L.bytes a ∈ S := by
  have := hS [a] hn
  rw [hashed_pe] at this
  simpa using this

theorem hp_hashOf (L : Lawful cp E) {S : Finset Bytes} (f : S → Word) (a : E) (h : L.bytes a ∈ S) :
    L.hp (hashOf S f) a = (setBytes (bytesOf (f ⟨_, h⟩)) : Int) := by
  rw [Lawful.hp, hashOf_mem S f ⟨_, h⟩]

/-- The inner questions rarely get bad answers. -/
theorem prob_inner (L : Lawful cp E) (n : Nat) (value : Int) (S : Finset Bytes) (hS : RangeStrings L n S) (i : Fin n) :
    (prob fun z : (S → Word) × (Fin n → Fin cp.C.N) × (Fin n → Fin cp.C.N) × (Fin n → Fin cp.C.N) =>
      BadInner L i (drawn z.2.1 z.2.2.1 z.2.2.2 i).k
        (L.eiOf (hashOf S z.1) n value (drawn z.2.1 z.2.2.1 z.2.2.2) i)) ≤ 7 * perChal cp.C.N / 2 ^ 256 := by
  have hn : 0 < n := i.pos
  have hr : (0 : ℝ) ≤ 7 * perChal cp.C.N / 2 ^ 256 := by positivity
  have : Fact (Nat.card E).Prime := ⟨by rw [L.card]; exact L.prime⟩
  obtain ⟨t, ht⟩ := AddSubgroup.mem_zmultiples_iff.1
    (show L.g ∈ AddSubgroup.zmultiples L.hb from mem_zmultiples_of_prime_card (p := Nat.card E) rfl L.hb_ne)
  let σ : (S → Word) × (Fin n → Fin cp.C.N) × (Fin n → Fin cp.C.N) → (Fin n → Fin cp.C.N) ≃ (Fin n → Fin cp.C.N) :=
    fun x => Equiv.piCongrRight fun i => shiftFin cp.C.N L.prime.pos
      (L.e0Of (hashOf S x.1) n value (drawn x.2.1 x.2.2 x.2.1) * 2 ^ (i : Nat) * t)
  let P : ((S → Word) × (Fin n → Fin cp.C.N) × (Fin n → Fin cp.C.N)) × (Fin n → Fin cp.C.N) → Prop :=
    fun y => BadInner L i ((y.1.2.1 i : Nat) : Int) (L.hp (hashOf S y.1.1) (((y.2 i : Nat) : Int) • L.hb))
  let e1 : ((S → Word) × (Fin n → Fin cp.C.N) × (Fin n → Fin cp.C.N) × (Fin n → Fin cp.C.N)) ≃
      ((S → Word) × (Fin n → Fin cp.C.N) × (Fin n → Fin cp.C.N)) × (Fin n → Fin cp.C.N) :=
    ⟨fun z => ((z.1, z.2.1, z.2.2.1), z.2.2.2), fun y => (y.1.1, y.1.2.1, y.1.2.2, y.2), fun _ => rfl, fun _ => rfl⟩
  have h1 : ∀ z, BadInner L i (drawn z.2.1 z.2.2.1 z.2.2.2 i).k
      (L.eiOf (hashOf S z.1) n value (drawn z.2.1 z.2.2.1 z.2.2.2) i) ↔ P ((e1 z).1, σ (e1 z).1 (e1 z).2) := by
    rintro ⟨f, k, v, j⟩
    have hi : ∀ k v j : Fin n → Fin cp.C.N, drawn k v j i = ⟨(k i : Nat), (v i : Nat), (j i : Nat)⟩ := by
      intro k v j
      simp [drawn]
    have h2 : (((σ (f, k, v) j i : Fin cp.C.N) : Nat) : Int) • L.hb = ((j i : Nat) : Int) • L.hb +
        (L.e0Of (hashOf S f) n value (drawn k v j) * 2 ^ (i : Nat)) • L.g := by
      simp only [σ, Equiv.piCongrRight_apply, Pi.map_apply, val_shiftFin, L.smul_mod, add_smul, mul_smul _ t, ht]
      rw [e0Of_congr L _ value k v k j]
    simp only [e1, P, Equiv.coe_fn_mk, Lawful.eiOf, hi]
    rw [h2]
  rw [show (prob fun z : (S → Word) × (Fin n → Fin cp.C.N) × (Fin n → Fin cp.C.N) × (Fin n → Fin cp.C.N) =>
      BadInner L i (drawn z.2.1 z.2.2.1 z.2.2.2 i).k
        (L.eiOf (hashOf S z.1) n value (drawn z.2.1 z.2.2.1 z.2.2.2) i)) =
      prob fun z => P ((e1 z).1, σ (e1 z).1 (e1 z).2) from congrArg prob (funext fun z => propext (h1 z)),
    prob_equiv e1 fun y => P (y.1, σ y.1 y.2), prob_permute σ P, ← prob_equiv e1 P]
  refine prob_cols hr ?_
  rintro ⟨k, v, j⟩
  have hm := bytes_mem L hS hn (((j i : Nat) : Int) • L.hb)
  have := prob_fresh (S := S) (fun ω : Word => BadInner L i ((k i : Nat) : Int) (setBytes (bytesOf ω))) _
    (num_badInner L i ((k i : Nat) : Int)) ⟨_, hm⟩
  rw [card_word] at this
  rw [Nat.cast_pow, Nat.cast_ofNat] at this
  refine le_trans (le_of_eq (congrArg prob (funext fun f => ?_))) this
  simp only [P, e1, Equiv.coe_fn_mk, hp_hashOf L f _ hm]

/-- The prover's questions in the first phase (specification; rangeproof.go:51-102). -/
noncomputable def phaseA (L : Lawful cp E) (n : Nat) (rnd : Nat → BitRand) : Adv (List Bytes) :=
  askList ((List.range n).map fun i => L.bytes ((rnd i).k • L.hb)) .out

/-- The hash of the R points is rarely as large as N. -/
theorem prob_outer (L : Lawful cp E) (n : Nat) (value : Int) (S : Finset Bytes) (hS : RangeStrings L n S)
    (rnd : Nat → BitRand) :
    (prob fun f : S → Word => (cp.C.N : Int) ≤
      L.hps (hashOf S f) ((List.range n).map (L.rOf (hashOf S f) value rnd))) ≤
      (n + 1 : ℕ) * (2 ^ 256 - cp.C.N : ℕ) / 2 ^ 256 := by
  let pts : List Bytes → List E := fun ds => (List.range n).map fun i =>
    if bitOf value i then (setBytes (ds.getD i []) : Int) • ((2 ^ i : Int) • L.g + (rnd i).v • L.hb)
      else (rnd i).k • L.hb
  let crit : List Bytes → Bytes := fun ds => ((pts ds).map L.bytes).flatten
  have h := prob_lucky (word := bytesOf) (S := S) (crit := crit) (A := phaseA L n rnd) (q := n)
    (κ := ((2 ^ 256 - cp.C.N : ℕ) : ℝ))
    (fun h => by rw [phaseA, count_askList]; simp [Adv.count]) (Nat.cast_nonneg _)
    (fun _ (ω : Word) => cp.C.N ≤ setBytes (bytesOf ω)) fun _ => num_large _
  rw [card_word] at h
  have hp : ∀ f : S → Word, pts ((phaseA L n rnd).run (hashOf S f)) =
      (List.range n).map (L.rOf (hashOf S f) value rnd) := by
    intro f
    rw [phaseA, run_askList]
    refine List.map_congr_left fun i hi => ?_
    rw [List.mem_range] at hi
    simp only [Adv.run, Lawful.rOf, Lawful.hp]
    simp [List.getD_eq_getElem?_getD, hi]
  refine (prob_mono fun f hf => ?_).trans (h.trans (le_of_eq (by push_cast; ring)))
  have hm : crit ((phaseA L n rnd).run (hashOf S f)) ∈ S := by
    have := hS (pts ((phaseA L n rnd).run (hashOf S f))) (by simp [pts])
    rwa [hashed_pe] at this
  refine ⟨⟨_, hm⟩, rfl, ?_⟩
  have : L.hps (hashOf S f) (pts ((phaseA L n rnd).run (hashOf S f))) =
      (setBytes (bytesOf (f ⟨_, hm⟩)) : Int) := by
    rw [Lawful.hps]
    exact congrArg (fun b => ((setBytes b : Nat) : Int)) (hashOf_mem S f ⟨_, hm⟩)
  rw [← hp, this] at hf
  exact_mod_cast hf

/-- One bit rarely goes wrong. -/
theorem prob_bit (L : Lawful cp E) (n : Nat) (value : Int) (S : Finset Bytes) (hS : RangeStrings L n S) (i : Fin n) :
    (prob fun z : (S → Word) × (Fin n → Fin cp.C.N) × (Fin n → Fin cp.C.N) × (Fin n → Fin cp.C.N) =>
      BadBit L (hashOf S z.1) n value (drawn z.2.1 z.2.2.1 z.2.2.2) i) ≤
      7 * perChal cp.C.N / 2 ^ 256 + 6 / cp.C.N := by
  have hN : (0 : ℝ) < cp.C.N := Nat.cast_pos.2 L.prime.pos
  have hk : ∀ k v j : Fin n → Fin cp.C.N, drawn k v j i = ⟨(k i : Nat), (v i : Nat), (j i : Nat)⟩ := by
    intro k v j
    simp [drawn]
  have h1 := prob_inner L n value S hS i
  have hκ : (0 : ℝ) ≤ 7 * perChal cp.C.N / 2 ^ 256 := by positivity
  generalize (7 * perChal cp.C.N / 2 ^ 256 : ℝ) = κ at h1 hκ ⊢
  cases hb : bitOf value i with
  | false =>
    have h2 : (prob fun z : (S → Word) × (Fin n → Fin cp.C.N) × (Fin n → Fin cp.C.N) × (Fin n → Fin cp.C.N) =>
        ((z.2.1 i : Nat) : Int) • L.hb = 0 ∨ ¬ L.MultOk (0 + ((z.2.1 i : Nat) : Int) • L.hb)) ≤ 4 / cp.C.N := by
      refine prob_rows (by positivity) fun f => prob_cols (by positivity) fun y => ?_
      refine prob_coord L.prime.pos i (fun a => ((a : Nat) : Int) • L.hb = 0 ∨
        ¬ L.MultOk (0 + ((a : Nat) : Int) • L.hb)) 4 (num_or.trans ?_)
      have h3 : (num fun a : Fin cp.C.N => ((a : Nat) : Int) • L.hb = 0) ≤ 1 :=
        num_le_one fun x y hx hy => fin_eq_of_smul L L.hb_ne (hx.trans hy.symm)
      linarith [num_special L 0 L.hb L.hb_ne]
    refine (prob_union ?_ h1 h2).trans ?_
    · intro z hz
      simp only [BadBit, hb, true_and, Bool.false_eq_true, false_and, or_false] at hz
      rcases hz with hz | hz
      · exact .inl hz
      · rw [hk] at hz
        exact .inr hz
    · gcongr
      norm_num
  | true =>
    have h2 : (prob fun z : (S → Word) × (Fin n → Fin cp.C.N) × (Fin n → Fin cp.C.N) × (Fin n → Fin cp.C.N) =>
        ¬ L.MultOk ((2 ^ (i : Nat) : Int) • L.g + ((z.2.2.1 i : Nat) : Int) • L.hb) ∨
        ¬ L.MultOk (0 + ((z.2.2.1 i : Nat) : Int) • L.hb)) ≤ 6 / cp.C.N := by
      refine prob_rows (by positivity) fun f => prob_rows (by positivity) fun k => prob_cols (by positivity) fun y => ?_
      refine prob_coord L.prime.pos i (fun a => ¬ L.MultOk ((2 ^ (i : Nat) : Int) • L.g + ((a : Nat) : Int) • L.hb) ∨
        ¬ L.MultOk (0 + ((a : Nat) : Int) • L.hb)) 6 (num_or.trans ?_)
      linarith [num_special L 0 L.hb L.hb_ne, num_special L ((2 ^ (i : Nat) : Int) • L.g) L.hb L.hb_ne]
    refine le_trans ((prob_mono fun z hz => ?_).trans h2) (le_add_of_nonneg_left hκ)
    simp only [BadBit, hb, true_and, Bool.true_eq_false, false_and, false_or] at hz
    rwa [hk] at hz

theorem prob_luckyDraws_of (L : Lawful cp E) (n : Nat) (value : Int) (S : Finset Bytes) (κ l : ℝ) (hl : 0 ≤ l)
    (h1 : ∀ i : Fin n, (prob fun z : (S → Word) × (Fin n → Fin cp.C.N) × (Fin n → Fin cp.C.N) × (Fin n → Fin cp.C.N) =>
      BadBit L (hashOf S z.1) n value (drawn z.2.1 z.2.2.1 z.2.2.2) i) ≤ κ)
    (h2 : ∀ rnd : Nat → BitRand, (prob fun f : S → Word => (cp.C.N : Int) ≤
      L.hps (hashOf S f) ((List.range n).map (L.rOf (hashOf S f) value rnd))) ≤ l) :
    1 - (n * κ + l) ≤
      prob fun z : (S → Word) × (Fin n → Fin cp.C.N) × (Fin n → Fin cp.C.N) × (Fin n → Fin cp.C.N) =>
        LuckyDraws L (hashOf S z.1) n value (drawn z.2.1 z.2.2.1 z.2.2.2) := by
  have : Nonempty (Fin cp.C.N) := ⟨⟨0, L.prime.pos⟩⟩
  have h3 := prob_exists n (fun i (z : (S → Word) × (Fin n → Fin cp.C.N) × (Fin n → Fin cp.C.N) ×
    (Fin n → Fin cp.C.N)) => BadBit L (hashOf S z.1) n value (drawn z.2.1 z.2.2.1 z.2.2.2) i) κ
    fun i hi => h1 ⟨i, hi⟩
  have h4 : (prob fun z : (S → Word) × (Fin n → Fin cp.C.N) × (Fin n → Fin cp.C.N) × (Fin n → Fin cp.C.N) =>
    (cp.C.N : Int) ≤ L.hps (hashOf S z.1) ((List.range n).map (L.rOf (hashOf S z.1) value
      (drawn z.2.1 z.2.2.1 z.2.2.2)))) ≤ l :=
    prob_cols hl fun y => h2 (drawn y.1 y.2.1 y.2.2)
  refine prob_not ?_ (prob_union (fun _ h => h) h3 h4)
  intro z hz
  rw [not_or, not_le] at hz
  exact lucky_of L _ n value _ (fun i hi hb => hz.1 ⟨i, hi, hb⟩) hz.2

/-- The draws are rarely unlucky. -/
theorem prob_luckyDraws (L : Lawful cp E) (n : Nat) (value : Int) (S : Finset Bytes) (hS : RangeStrings L n S) :
    1 - (n * (7 * perChal cp.C.N / 2 ^ 256 + 6 / cp.C.N) + (n + 1 : ℕ) * (2 ^ 256 - cp.C.N : ℕ) / 2 ^ 256) ≤
      prob fun z : (S → Word) × (Fin n → Fin cp.C.N) × (Fin n → Fin cp.C.N) × (Fin n → Fin cp.C.N) =>
        LuckyDraws L (hashOf S z.1) n value (drawn z.2.1 z.2.2.1 z.2.2.2) :=
  prob_luckyDraws_of L n value S _ _ (by positivity) (prob_bit L n value S hS) (prob_outer L n value S hS)

end

end Zk.Rom
