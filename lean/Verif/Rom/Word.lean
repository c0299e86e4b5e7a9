import Verif.Rom.Runs
import Verif.Ec.KeyLemmas
import Verif.Proto.DisjProps
import Mathlib.Data.Fintype.Vector

/-!
# Answers of 32 bytes, challenges and what is hashed
-/

namespace Zk.Rom

open Zk Zk.Proto

instance : Fintype UInt8 := Fintype.ofEquiv (Fin 256)
  ⟨UInt8.ofFin, UInt8.toFin, fun _ => rfl, fun _ => rfl⟩

/-- What SHA-256 returns: 32 bytes.  See crypto.go:254-262. -/
abbrev Word := List.Vector UInt8 32

/-- The bytes of an answer.  See crypto.go:254-262. -/
def bytesOf (ω : Word) : Bytes := ω.1

/-- A random hash function on the strings in `S`.  See crypto.go:254-262. -/
abbrev hashOf (S : Finset Bytes) (f : S → Word) : Bytes → Bytes := toHash bytesOf S f

theorem card_word : Fintype.card Word = 2 ^ 256 := by
  rw [card_vector, Fintype.card_congr (⟨UInt8.toFin, UInt8.ofFin, fun _ => rfl, fun _ => rfl⟩ :
    UInt8 ≃ Fin 256), Fintype.card_fin]
  norm_num

instance : Nonempty Word := ⟨List.Vector.replicate 32 0⟩

/-- The challenge that an answer stands for.  See crypto.go:254-262. -/
def chalOf (N : Nat) (ω : Word) : Int := (setBytes (bytesOf ω) : Int) % (N : Int)

/-- How many answers give one challenge at most.  See crypto.go:254-262. -/
def perChal (N : Nat) : Nat := 2 ^ 256 / N + 1

theorem setBytes_word_lt (ω : Word) : setBytes (bytesOf ω) < 2 ^ 256 := by
  have := setBytes_lt (bytesOf ω)
  rw [show (bytesOf ω).length = 32 from ω.2] at this
  calc _ < _ := this
    _ = _ := by norm_num

theorem eq_of_div_of_emod {a b N : Nat} (h : a / N = b / N) (hm : (a : Int) % N = (b : Int) % N) :
    a = b := by
  have hm' : a % N = b % N := by exact_mod_cast hm
  rw [← Nat.div_add_mod a N, hm', h, Nat.div_add_mod]

theorem num_le_of_inj {X : Type} [Fintype X] {P : X → Prop} (φ : X → Nat) (k : Nat)
    (h1 : ∀ x, P x → φ x < k) (h2 : ∀ x y, P x → P y → φ x = φ y → x = y) : num P ≤ k := by
  classical
  rw [num_eq, Nat.cast_le, ← Finset.card_range k]
  refine Finset.card_le_card_of_injOn φ (fun x hx => ?_) fun x hx y hy h => ?_
  · simpa using h1 x (by simpa using hx)
  · exact h2 x y (by simpa using hx) (by simpa using hy) h

theorem num_chal (N : Nat) (r : Int) : (num fun ω : Word => chalOf N ω = r) ≤ perChal N :=
  num_le_of_inj (fun ω => setBytes (bytesOf ω) / N) _
    (fun ω _ => Nat.lt_succ_of_le (Nat.div_le_div_right (setBytes_word_lt ω).le))
    fun ω ω' h1 h2 h => Subtype.ext (Zk.Ec.setBytes_inj_len (ω.2.trans ω'.2.symm)
      (eq_of_div_of_emod h (h1.trans h2.symm)))

/-- A set of at most `m` challenges. -/
theorem num_chals (N : Nat) (C : Set Int) (m : Nat) (hC : C.encard ≤ m) :
    (num fun ω : Word => chalOf N ω ∈ C) ≤ m * perChal N := by
  have hf : C.Finite := Set.finite_of_encard_le_coe hC
  have h1 := num_exists hf.toFinset fun r (ω : Word) => chalOf N ω = r
  refine (num_mono ?_).trans (h1.trans ?_)
  · intro ω h
    exact ⟨_, hf.mem_toFinset.2 h, rfl⟩
  · refine (Finset.sum_le_card_nsmul _ _ _ fun r _ => num_chal N r).trans ?_
    rw [nsmul_eq_mul]
    refine mul_le_mul_of_nonneg_right ?_ (Nat.cast_nonneg _)
    rw [Nat.cast_le]
    rw [hf.encard_eq_coe_toFinset_card] at hC
    exact_mod_cast hC

/-- The bytes of points one after another, as they are hashed.  See crypto.go:254-262. -/
def hashed (ps : List ECPoint) : Bytes :=
  match ps.mapM pointBytes with
  | .ok bs => bs.flatten
  | _ => []

/-- The number of bytes of a coordinate, up to 32.  See crypto.go:151-153. -/
def size (x : Option Int) : Fin 33 :=
  ⟨min 32 (intBytes (x.getD 0)).length, Nat.lt_succ_of_le (Nat.min_le_left _ _)⟩

variable {cp : Params} {E : Type} [AddCommGroup E]

/-- The coordinates fit into 32 bytes (specification; crypto.go:254-262). -/
def Small (L : Lawful cp E) : Prop := ∀ a, (L.enc a).1 < 2 ^ 256 ∧ (L.enc a).2 < 2 ^ 256

theorem hashed_pe (L : Lawful cp E) (as : List E) :
    hashed (as.map L.pe) = (as.map L.bytes).flatten := by
  have : (as.map L.pe).mapM pointBytes = .ok (as.map L.bytes) := by
    induction as with
    | nil => rfl
    | cons a as ih => simp [List.mapM_cons, L.pointBytes_pe, ih]
  rw [hashed, this]

theorem length_intBytes {x : Int} (h0 : 0 ≤ x) (h : x < 2 ^ 256) : (intBytes x).length ≤ 32 := by
  refine natBytes_length_le ?_
  have : x.natAbs < 2 ^ 256 := by omega
  calc _ < _ := this
    _ = _ := by norm_num

theorem size_eq {x y : Int} (hx : (intBytes x).length ≤ 32) (hy : (intBytes y).length ≤ 32)
    (h : size (some x) = size (some y)) : (intBytes x).length = (intBytes y).length := by
  have := congrArg Fin.val h
  simpa [size, Nat.min_eq_right hx, Nat.min_eq_right hy] using this

theorem intBytes_inj {x y : Int} (hx : 0 ≤ x) (hy : 0 ≤ y) (h : intBytes x = intBytes y) : x = y := by
  have := congrArg setBytes h
  rw [setBytes_intBytes, setBytes_intBytes] at this
  omega

/-- The bytes of two points and the sizes of the first three coordinates determine the points. -/
theorem two_points (L : Lawful cp E) (hs : Small L) {t1 t2 t1' t2' : E}
    (hb : L.bytes t1 ++ L.bytes t2 = L.bytes t1' ++ L.bytes t2')
    (h1 : size (L.pe t1).X = size (L.pe t1').X) (h2 : size (L.pe t1).Y = size (L.pe t1').Y)
    (h3 : size (L.pe t2).X = size (L.pe t2').X) : t1 = t1' ∧ t2 = t2' := by
  have hl1 := fun a => length_intBytes (L.enc_nonneg a).1 (hs a).1
  have hl2 := fun a => length_intBytes (L.enc_nonneg a).2 (hs a).2
  have e1 := size_eq (hl1 _) (hl1 _) h1
  have e2 := size_eq (hl2 _) (hl2 _) h2
  have e3 := size_eq (hl1 _) (hl1 _) h3
  unfold Lawful.bytes at hb
  simp only [List.append_assoc] at hb
  obtain ⟨b1, hb⟩ := List.append_inj hb e1
  obtain ⟨b2, hb⟩ := List.append_inj hb e2
  obtain ⟨b3, b4⟩ := List.append_inj hb e3
  have i1 := fun {a b} => intBytes_inj (L.enc_nonneg a).1 (L.enc_nonneg b).1
  have i2 := fun {a b} => intBytes_inj (L.enc_nonneg a).2 (L.enc_nonneg b).2
  exact ⟨L.enc_inj _ _ (Prod.ext (i1 b1) (i2 b2)), L.enc_inj _ _ (Prod.ext (i1 b3) (i2 b4))⟩

/-- The bytes of a point and the size of the first coordinate determine the point. -/
theorem one_point (L : Lawful cp E) (hs : Small L) {t t' : E} (hb : L.bytes t = L.bytes t')
    (h1 : size (L.pe t).X = size (L.pe t').X) : t = t' := by
  have hl1 := fun a => length_intBytes (L.enc_nonneg a).1 (hs a).1
  have e1 := size_eq (hl1 _) (hl1 _) h1
  unfold Lawful.bytes at hb
  obtain ⟨b1, b2⟩ := List.append_inj hb e1
  exact L.enc_inj _ _ (Prod.ext (intBytes_inj (L.enc_nonneg _).1 (L.enc_nonneg _).1 b1)
    (intBytes_inj (L.enc_nonneg _).2 (L.enc_nonneg _).2 b2))

/-- The challenge that a verifier computes under a random hash function. -/
theorem chal_hashOf (L : Lawful cp E) (S : Finset Bytes) (f : S → Word) (x : S) (as : List E)
    (hx : x.1 = hashed (as.map L.pe)) : L.chal (hashOf S f) as = chalOf cp.C.N (f x) := by
  rw [hashed_pe] at hx
  have hm : (as.map L.bytes).flatten ∈ S := hx ▸ x.2
  have : (⟨_, hm⟩ : S) = x := Subtype.ext hx.symm
  rw [Lawful.chal, generateChallenge, hashOf, toHash, dif_pos hm, this]
  rfl

end Zk.Rom
