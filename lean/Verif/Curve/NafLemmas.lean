import Verif.Curve.Model
import Verif.Go
import Mathlib.Tactic.Ring
import Mathlib.Tactic.Linarith

/-!
# `NAF` of btcec/btcec.go
-/

namespace Zk.Curve

open Zk Zk.Field

/-- The inner loop of `NAF` (btcec/btcec.go:706-749) on carry, the two bytes written and the current
byte; `n` is the lowest bit of the next byte. -/
def bitStep (n : Bool) (s : Bool × UInt8 × UInt8 × UInt8) (j : Nat) : Bool × UInt8 × UInt8 × UInt8 :=
  let cur := decide (s.2.2.2 &&& 1 = 1)
  let next := if j = 7 then n else decide (s.2.2.2 &&& 2 = 2)
  let bit : UInt8 := 1 <<< UInt8.ofNat j
  let c' := s.2.2.2 >>> 1
  if s.1 then
    if cur then (s.1, s.2.1, s.2.2.1, c')
    else if next then (s.1, s.2.1, s.2.2.1 + bit, c')
    else (false, s.2.1 + bit, s.2.2.1, c')
  else if cur then
    if next then (true, s.2.1, s.2.2.1 + bit, c')
    else (s.1, s.2.1 + bit, s.2.2.1, c')
  else (s.1, s.2.1, s.2.2.1, c')

/-- The inner loop of `NAF`, btcec/btcec.go:704-751, as a function of one byte. -/
def byteNaf (n : Bool) (carry : Bool) (c : UInt8) : Bool × UInt8 × UInt8 × UInt8 :=
  (List.range 8).foldl (bitStep n) (carry, 0, 0, c)

/-- Whether digit `j` is in use.  See btcec/btcec.go:689-757. -/
def used (p q j : Nat) : Bool := p.testBit j || q.testBit j

set_option maxRecDepth 100000 in
theorem byteNaf_all : ∀ c : Fin 256, ∀ n carry : Bool,
    let r := byteNaf n carry (UInt8.ofNat c)
    (r.2.1.toNat + 256 * r.1.toNat = c.val + carry.toNat + r.2.2.1.toNat) ∧
    (∀ j < 8, ¬(r.2.1.toNat.testBit j = true ∧ r.2.2.1.toNat.testBit j = true)) ∧
    (∀ j < 7, ¬(used r.2.1.toNat r.2.2.1.toNat j = true ∧
      used r.2.1.toNat r.2.2.1.toNat (j + 1) = true)) ∧
    (used r.2.1.toNat r.2.2.1.toNat 0 = true → carry ≠ c.val.testBit 0) ∧
    (used r.2.1.toNat r.2.2.1.toNat 7 = true → r.1 = n) := by
  decide +kernel

theorem addAt_set {l : Bytes} {i : Nat} (p v : UInt8) (h : i < l.length) :
    addAt (l.set i p) i v = l.set i (p + v) := by
  rw [addAt]
  apply List.ext_getElem?
  intro j
  rw [List.getElem?_modify, List.getElem?_set, List.getElem?_set]
  by_cases hj : i = j
  · subst hj; simp [h]
  · simp [hj]

/-- The state with the bytes at `i + 1` replaced.  See btcec/btcec.go:689-757. -/
def setState (a b : Bytes) (i : Nat) (s : Bool × UInt8 × UInt8 × UInt8) : NafState :=
  ⟨s.1, a.set (i + 1) s.2.1, b.set (i + 1) s.2.2.1, s.2.2.2⟩

/-- The lowest bit of the byte before `i`.  See btcec/btcec.go:689-757. -/
def nextBit (k : Bytes) (i : Nat) : Bool :=
  if i = 0 then false else decide ((k.getD (i - 1) 0) &&& 1 = 1)

theorem nafBit_set (k a b : Bytes) (i : Nat) (ha : i + 1 < a.length) (hb : i + 1 < b.length)
    (s : Bool × UInt8 × UInt8 × UInt8) (j : Nat) :
    nafBit k i (setState a b i s) j = setState a b i (bitStep (nextBit k i) s j) := by
  obtain ⟨c, p, q, cur⟩ := s
  have hn : (if j = 7 then if i = 0 then false else decide (k.getD (i - 1) 0 &&& 1 = 1)
      else decide (cur &&& 2 = 2)) = if j = 7 then nextBit k i else decide (cur &&& 2 = 2) := rfl
  unfold nafBit bitStep setState
  extract_lets curA nextA bit s curB nextB c'
  have e1 : nextA = nextB := hn
  have e2 : curA = curB := rfl
  subst s
  clear_value nextB curB bit nextA curA
  subst e1 e2
  cases c <;> cases curA <;> cases nextA <;>
    simp only [if_true, if_false, addAt_set _ _ ha, addAt_set _ _ hb, Bool.false_eq_true] <;> rfl

theorem nafByte_set (k a b : Bytes) (i : Nat) (ha : i + 1 < a.length) (hb : i + 1 < b.length)
    (ha0 : a[i + 1]? = some 0) (hb0 : b[i + 1]? = some 0) (carry : Bool) (cur : UInt8) :
    nafByte k ⟨carry, a, b, cur⟩ i =
      setState a b i (byteNaf (nextBit k i) carry (k.getD i 0)) := by
  have key : ∀ (js : List Nat) s, js.foldl (nafBit k i) (setState a b i s) =
      setState a b i (js.foldl (bitStep (nextBit k i)) s) := by
    intro js
    induction js with
    | nil => intro s; rfl
    | cons j js ih => intro s; rw [List.foldl_cons, List.foldl_cons, nafBit_set _ _ _ _ ha hb, ih]
  rw [nafByte, byteNaf, ← key]
  congr 1
  have h1 : a.set (i + 1) 0 = a := by
    apply List.ext_getElem?
    intro j
    rw [List.getElem?_set]
    split_ifs with h
    · subst h; exact ha0.symm
    · rfl
  have h2 : b.set (i + 1) 0 = b := by
    apply List.ext_getElem?
    intro j
    rw [List.getElem?_set]
    split_ifs with h
    · subst h; exact hb0.symm
    · rfl
  simp only [setState, h1, h2]

theorem byteNaf_spec (n carry : Bool) (c : UInt8) :
    let r := byteNaf n carry c
    (r.2.1.toNat + 256 * r.1.toNat = c.toNat + carry.toNat + r.2.2.1.toNat) ∧
    (∀ j < 8, ¬(r.2.1.toNat.testBit j = true ∧ r.2.2.1.toNat.testBit j = true)) ∧
    (∀ j < 7, ¬(used r.2.1.toNat r.2.2.1.toNat j = true ∧
      used r.2.1.toNat r.2.2.1.toNat (j + 1) = true)) ∧
    (used r.2.1.toNat r.2.2.1.toNat 0 = true → carry ≠ c.toNat.testBit 0) ∧
    (used r.2.1.toNat r.2.2.1.toNat 7 = true → r.1 = n) := by
  have := byteNaf_all ⟨c.toNat, c.toNat_lt⟩ n carry
  rwa [UInt8.ofNat_toNat] at this

/-- What holds after the bytes from index `i` on have been processed; `t`, `u` are the bytes
written.  See btcec/btcec.go:689-757. -/
structure NafInv (k : Bytes) (i : Nat) (s : NafState) (t u : Bytes) : Prop where
  pos : s.retPos = List.replicate (i + 1) 0 ++ t
  neg : s.retNeg = List.replicate (i + 1) 0 ++ u
  lent : t.length = k.length - i
  lenu : u.length = k.length - i
  value : setBytes t + 256 ^ (k.length - i) * s.carry.toNat = setBytes (k.drop i) + setBytes u
  disj : ∀ j, ¬((setBytes t).testBit j = true ∧ (setBytes u).testBit j = true)
  nonadj : ∀ j, ¬(used (setBytes t) (setBytes u) j = true ∧ used (setBytes t) (setBytes u) (j + 1) = true)
  top : ∀ j, j + 1 = 8 * (k.length - i) → used (setBytes t) (setBytes u) j = true →
    s.carry = nextBit k i

theorem set_replicate (i : Nat) (p : UInt8) (t : Bytes) :
    (List.replicate (i + 2) 0 ++ t).set (i + 1) p = List.replicate (i + 1) 0 ++ p :: t := by
  rw [List.replicate_succ', List.append_assoc, List.set_append_right _ _ (by simp)]
  simp

theorem setBytes_cons (p : UInt8) (t : Bytes) :
    setBytes (p :: t) = p.toNat * 256 ^ t.length + setBytes t := by
  rw [← List.singleton_append, setBytes_append]
  simp [setBytes]

theorem pow_256 (m : Nat) : 256 ^ m = 2 ^ (8 * m) := by
  rw [show (256 : ℕ) = 2 ^ 8 by norm_num, ← pow_mul]

theorem testBit_cons (p : UInt8) (t : Bytes) (j : Nat) :
    (setBytes (p :: t)).testBit j =
      if j < 8 * t.length then (setBytes t).testBit j else p.toNat.testBit (j - 8 * t.length) := by
  rw [setBytes_cons, pow_256, mul_comm, Nat.testBit_two_pow_mul_add]
  rw [← pow_256]; exact setBytes_lt t

theorem testBit_high (p : UInt8) {j : Nat} (h : 8 ≤ j) : p.toNat.testBit j = false :=
  Nat.testBit_lt_two_pow (lt_of_lt_of_le p.toNat_lt 
    (Nat.pow_le_pow_right (by decide) h : 2 ^ 8 ≤ 2 ^ j))

theorem used_cons (p q : UInt8) (t u : Bytes) (h : u.length = t.length) (j : Nat) :
    used (setBytes (p :: t)) (setBytes (q :: u)) j =
      if j < 8 * t.length then used (setBytes t) (setBytes u) j
      else used p.toNat q.toNat (j - 8 * t.length) := by
  simp only [used, testBit_cons, h]
  split_ifs <;> rfl

theorem get_replicate {i : Nat} {a t : Bytes} (h : a = List.replicate (i + 1 + 1) 0 ++ t) :
    a[i + 1]? = some 0 := by
  rw [h, List.getElem?_append_left (by rw [List.length_replicate]; omega), List.getElem?_replicate,
    if_pos (by omega)]

theorem naf_step {k : Bytes} {i : Nat} (hi : i < k.length) {s : NafState} {t u : Bytes}
    (h : NafInv k (i + 1) s t u) :
    ∃ t' u', NafInv k i (nafByte k s i) t' u' := by
  obtain ⟨carry, a, b, cur⟩ := s
  obtain ⟨ha, hb, lt, lu, hv, hd, hn, ht⟩ := h
  dsimp only at ha hb hv ht
  have hk : k.getD i 0 = k[i] := by
    rw [List.getD_eq_getElem?_getD, List.getElem?_eq_getElem hi, Option.getD_some]
  have hl : u.length = t.length := by rw [lt, lu]
  have e1 : k.length - i = t.length + 1 := by omega
  rw [nafByte_set k a b i (by rw [ha, List.length_append, List.length_replicate]; omega)
    (by rw [hb, List.length_append, List.length_replicate]; omega) (get_replicate ha)
    (get_replicate hb)]
  obtain ⟨s1, s2, s3, s4, s5⟩ := byteNaf_spec (nextBit k i) carry (k.getD i 0)
  generalize hr : byteNaf (nextBit k i) carry (k.getD i 0) = r at s1 s2 s3 s4 s5
  obtain ⟨carry', p, q, cur'⟩ := r
  dsimp only at s1 s2 s3 s4 s5
  refine ⟨p :: t, q :: u, ?_, ?_, ?_, ?_, ?_, ?_, ?_, ?_⟩
  · rw [setState, ha, set_replicate]
  · rw [setState, hb, set_replicate]
  · rw [List.length_cons, e1]
  · rw [List.length_cons, e1, hl]
  · rw [List.drop_eq_getElem_cons hi, setBytes_cons, setBytes_cons, setBytes_cons, List.length_drop,
      ← lt, hl, e1, pow_succ, ← hk]
    rw [← lt] at hv
    show _ + _ * carry'.toNat = _
    generalize 256 ^ t.length = M at hv ⊢
    have := congrArg (· * M) s1
    nlinarith [this, hv]
  · intro j
    rw [testBit_cons, testBit_cons, hl]
    split_ifs with hj
    · exact hd j
    · by_cases h8 : j - 8 * t.length < 8
      · exact s2 _ h8
      · rw [testBit_high p (by omega)]; simp
  · intro j
    rw [used_cons p q t u hl, used_cons p q t u hl]
    by_cases hj : j + 1 < 8 * t.length
    · rw [if_pos hj, if_pos (by omega)]; exact hn j
    · rw [if_neg hj]
      by_cases hj' : j < 8 * t.length
      · rw [if_pos hj', show j + 1 - 8 * t.length = 0 by omega]
        rintro ⟨h1, h2⟩
        have := ht j (by rw [← lt]; omega) h1
        have h4 := s4 h2
        apply h4
        rw [this, nextBit, if_neg (by omega), show i + 1 - 1 = i by omega]
        rw [Nat.testBit_zero, decide_eq_decide]
        generalize k.getD i 0 = c
        rw [← UInt8.toNat_inj, UInt8.toNat_and]
        show c.toNat &&& 1 = 1 ↔ _
        rw [Nat.and_one_is_mod]
      · rw [if_neg hj', show j + 1 - 8 * t.length = j - 8 * t.length + 1 by omega]
        by_cases h7 : j - 8 * t.length < 7
        · exact s3 _ h7
        · rintro ⟨_, h2⟩
          rw [used, testBit_high p (by omega), testBit_high q (by omega)] at h2
          cases h2
  · intro j hj
    rw [used_cons p q t u hl, if_neg (by omega), show j - 8 * t.length = 7 by omega]
    exact s5

theorem naf_loop (k : Bytes) : ∀ m, m ≤ k.length → ∀ s t u, NafInv k m s t u →
    ∃ t' u', NafInv k 0 ((List.range m).reverse.foldl (nafByte k) s) t' u' := by
  intro m
  induction m with
  | zero => intro _ s t u h; exact ⟨t, u, h⟩
  | succ m ih =>
    intro hm s t u h
    rw [List.range_succ, List.reverse_append, List.reverse_singleton, List.singleton_append,
      List.foldl_cons]
    obtain ⟨t', u', h'⟩ := naf_step (by omega) h
    exact ih (by omega) _ _ _ h'

theorem naf_spec (k : Bytes) :
    (naf k).1.length = (naf k).2.length ∧
    setBytes (naf k).1 = setBytes k + setBytes (naf k).2 ∧
    (∀ j, ¬((setBytes (naf k).1).testBit j = true ∧ (setBytes (naf k).2).testBit j = true)) ∧
    ∀ j, ¬(used (setBytes (naf k).1) (setBytes (naf k).2) j = true ∧
      used (setBytes (naf k).1) (setBytes (naf k).2) (j + 1) = true) := by
  obtain ⟨t, u, h⟩ := naf_loop k k.length le_rfl
    ⟨false, List.replicate (k.length + 1) 0, List.replicate (k.length + 1) 0, 0⟩ [] []
    ⟨by simp, by simp, by simp, by simp, by simp [setBytes], by simp [setBytes],
      by simp [setBytes, used], by simp [setBytes, used]⟩
  obtain ⟨hp, hq, lt, lu, hv, hd, hn, ht⟩ := h
  unfold naf
  extract_lets s0 s1
  generalize hs : s1 = s
  change (List.range k.length).reverse.foldl (nafByte k)
    ⟨false, List.replicate (k.length + 1) 0, List.replicate (k.length + 1) 0, 0⟩ = s at hs
  rw [hs] at hp hq hv ht
  rw [Nat.sub_zero, List.drop_zero] at hv
  rw [Nat.sub_zero] at lt lu ht
  have hl : u.length = t.length := by rw [lt, lu]
  have e1 : List.replicate (0 + 1) (0 : UInt8) = [0] := rfl
  rw [hp, hq, e1]
  cases hc : s.carry
  · rw [if_neg (by simp)]
    rw [hc] at hv
    show t.length = u.length ∧ _
    refine ⟨hl.symm, ?_, hd, hn⟩
    simpa using hv
  · rw [if_pos rfl]
    rw [hc] at hv ht
    show (1 :: t).length = (0 :: u).length ∧ setBytes (1 :: t) = _ + setBytes (0 :: u) ∧ _
    refine ⟨by simp [hl], ?_, ?_, ?_⟩
    · rw [setBytes_cons, setBytes_cons, lt]
      simp at hv ⊢
      omega
    · intro j
      show ¬((setBytes (1 :: t)).testBit j = true ∧ (setBytes (0 :: u)).testBit j = true)
      rw [testBit_cons, testBit_cons, hl]
      split_ifs with hj
      · exact hd j
      · simp
    · intro j
      show ¬(used (setBytes (1 :: t)) (setBytes (0 :: u)) j = true ∧
        used (setBytes (1 :: t)) (setBytes (0 :: u)) (j + 1) = true)
      rw [used_cons 1 0 t u hl, used_cons 1 0 t u hl]
      by_cases hj : j + 1 < 8 * t.length
      · rw [if_pos hj, if_pos (by omega)]; exact hn j
      · rw [if_neg hj]
        by_cases hj' : j < 8 * t.length
        · rw [if_pos hj']
          rintro ⟨h1, _⟩
          have := ht j (by omega) h1
          simp [nextBit] at this
        · rw [if_neg hj', show j + 1 - 8 * t.length = j - 8 * t.length + 1 by omega]
          rintro ⟨_, h2⟩
          simp [used, Nat.testBit_succ] at h2

end Zk.Curve
