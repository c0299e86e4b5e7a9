import Mathlib.Data.Nat.Digits.Lemmas
import Mathlib.Tactic.Ring
import Mathlib.Tactic.Linarith

/-!
# Go values used by every layer

Outcomes of Go calls, nil pointers, `big.Int` and its byte conversions.
-/

namespace Zk

/-- Outcome of running Go code: it returns a value or it panics.  Errors that Go functions
*return* are ordinary values (see `Err`), only run-time panics are `panic`.
Simplification: a fatal out-of-memory error is also `panic`.  A Go semantics definition used for all of
the code, for example crypto.go:78-83, which panics on nil coordinates. -/
inductive Go (α : Type) where
  | ok (a : α)
  | panic
deriving DecidableEq, Repr

namespace Go
/-- Sequencing: a panic aborts.  Statements one after the other, for example crypto.go:255-261. -/
def bind {α β : Type} : Go α → (α → Go β) → Go β
  | ok a, f => f a
  | panic, _ => panic

instance : Monad Go where
  pure := ok
  bind := bind

@[simp] theorem pure_eq {α : Type} (a : α) : (pure a : Go α) = ok a := rfl
@[simp] theorem bind_ok {α β : Type} (a : α) (f : α → Go β) : (ok a >>= f) = f a := rfl
@[simp] theorem bind_panic {α β : Type} (f : α → Go β) : ((panic : Go α) >>= f) = panic := rfl
@[simp] theorem map_ok {α β : Type} (a : α) (f : α → β) : (f <$> ok a) = ok (f a) := rfl
@[simp] theorem map_panic {α β : Type} (f : α → β) : (f <$> (panic : Go α)) = panic := rfl

instance : LawfulMonad Go := LawfulMonad.mk'
  (id_map := by intro α x; cases x <;> rfl)
  (pure_bind := by intros; rfl)
  (bind_assoc := by intro α β γ x f g; cases x <;> rfl)

theorem bind_eq_ok {α β : Type} {x : Go α} {f : α → Go β} {b : β} :
    (x >>= f) = ok b ↔ ∃ a, x = ok a ∧ f a = ok b := by
  cases x <;> simp

end Go

/-- Dereferencing a pointer: nil panics; for example `p.X.Bytes()`, crypto.go:152. -/
def deref {α : Type} : Option α → Go α
  | some a => .ok a
  | none => .panic

@[simp] theorem deref_some {α : Type} (a : α) : deref (some a) = .ok a := rfl
@[simp] theorem deref_none {α : Type} : deref (none : Option α) = .panic := rfl

/-- A non-nil Go `error`; the text is kept only to tell errors apart; see
`errorProof`, crypto.go:27-34. -/
abbrev Err := String

/-- A Go byte slice seen as a value, for example crypto.go:254. -/
abbrev Bytes := List UInt8

/-- `(*big.Int).SetBytes` (math/big): big-endian unsigned value of a byte slice; used at
crypto.go:175, 194, 259. -/
def setBytes (b : Bytes) : Nat := b.foldl (fun acc x => acc * 256 + x.toNat) 0

/-- `(*big.Int).Bytes` on a natural number (math/big): minimal big-endian bytes, empty for 0;
used at crypto.go:60, 99, 104, 108. -/
def natBytes (n : Nat) : Bytes := ((Nat.digits 256 n).map UInt8.ofNat).reverse

/-- `(*big.Int).Bytes` (math/big): big-endian bytes of the absolute value; used at crypto.go:152,
157, 161, 184. -/
def intBytes (x : Int) : Bytes := natBytes x.natAbs

/-- Big-endian value of `setBytes` as a little-endian digit sum. -/
theorem setBytes_eq_ofDigits (b : Bytes) :
    setBytes b = Nat.ofDigits 256 (b.reverse.map UInt8.toNat) := by
  unfold setBytes
  induction b using List.reverseRecOn with
  | nil => rfl
  | append_singleton xs x ih =>
    rw [List.foldl_append, ih]
    simp [Nat.ofDigits_cons]
    ring

theorem setBytes_natBytes (n : Nat) : setBytes (natBytes n) = n := by
  rw [setBytes_eq_ofDigits, natBytes, List.reverse_reverse, List.map_map]
  have : ((Nat.digits 256 n).map (UInt8.toNat ∘ UInt8.ofNat)) = Nat.digits 256 n := by
    conv_rhs => rw [← List.map_id (Nat.digits 256 n)]
    apply List.map_congr_left
    intro a ha
    have := Nat.digits_lt_base (by norm_num : 1 < 256) ha
    simp [Nat.mod_eq_of_lt this]
  rw [this, Nat.ofDigits_digits]

theorem setBytes_intBytes (x : Int) : setBytes (intBytes x) = x.natAbs := setBytes_natBytes _

theorem setBytes_append (a b : Bytes) :
    setBytes (a ++ b) = setBytes a * 256 ^ b.length + setBytes b := by
  rw [setBytes_eq_ofDigits, setBytes_eq_ofDigits, setBytes_eq_ofDigits]
  simp [Nat.ofDigits_append]
  ring

theorem setBytes_lt (b : Bytes) : setBytes b < 256 ^ b.length := by
  rw [setBytes_eq_ofDigits]
  have := Nat.ofDigits_lt_base_pow_length (b := 256) (l := b.reverse.map UInt8.toNat)
    (by norm_num) (by
      intro x hx
      simp only [List.mem_map] at hx
      obtain ⟨a, _, rfl⟩ := hx
      exact a.toNat_lt)
  simpa using this

@[simp] theorem natBytes_zero : natBytes 0 = [] := by simp [natBytes]

theorem natBytes_length_le {n k : Nat} (h : n < 256 ^ k) : (natBytes n).length ≤ k := by
  simp only [natBytes, List.length_reverse, List.length_map]
  exact (Nat.digits_length_le_iff (by norm_num) n).2 h

/-- The bytes of a positive number do not start with a zero byte. -/
theorem natBytes_ne_nil {n : Nat} (h : n ≠ 0) : natBytes n ≠ [] := by
  simp [natBytes, Nat.digits_ne_nil_iff_ne_zero, h]

end Zk
