import Verif.Field.BytesLemmas
import Verif.Field.Prime
import Mathlib.Algebra.Field.ZMod
import Mathlib.FieldTheory.Finite.Basic

/-!
# Field values as elements of the field with p elements
-/

namespace Zk.Field

theorem P_eq : P = 115792089237316195423570985008687907853269984665640564039457584007908834671663 := by
  decide

instance : Fact (Nat.Prime P) := ⟨P_eq ▸ prime_P⟩

/-- The field with p elements, btcec/field.go:105-107. -/
abbrev F := ZMod P

/-- The field element a field value (btcec/field.go:105-137) stands for. -/
def fz (f : FieldVal) : F := (val f : ℕ)

/-- `f` has magnitude `m` and stands for `a` (btcec/field.go:105-137). -/
structure R (f : FieldVal) (m : ℕ) (a : F) : Prop where
  mag : Mag f m
  eq : fz f = a

/-- `f` is normalised, as after btcec/field.go:248-370, and stands for `a`. -/
structure Nm (f : FieldVal) (a : F) : Prop where
  canon : Canon f
  lt : val f < P
  eq : fz f = a

theorem P_cast : (P : F) = 0 := ZMod.natCast_self P

theorem R.mono {f : FieldVal} {m n : ℕ} {a : F} (h : R f m a) (hmn : m ≤ n) : R f n a :=
  ⟨h.mag.mono hmn, h.eq⟩

theorem Nm.R {f : FieldVal} {a : F} (h : Nm f a) : R f 1 a := ⟨h.canon.mag, h.eq⟩

theorem R.congr {f : FieldVal} {m : ℕ} {a b : F} (h : R f m a) (hab : a = b) : R f m b := hab ▸ h

theorem Nm.congr {f : FieldVal} {a b : F} (h : Nm f a) (hab : a = b) : Nm f b := hab ▸ h

section

variable {f g : FieldVal} {m n : ℕ} {a b : F}

theorem R.add2 (hf : R f m a) (hg : R g n b) (h : m + n ≤ 63) : R (add2 f g) (m + n) (a + b) := by
  obtain ⟨h1, h2⟩ := add2_spec hf.mag hg.mag h
  refine ⟨h2, ?_⟩
  rw [fz, h1, ← hf.eq, ← hg.eq, fz, fz, Nat.cast_add]

theorem R.add (hf : R f m a) (hg : R g n b) (h : m + n ≤ 63) : R (add f g) (m + n) (a + b) :=
  hf.add2 hg h

theorem R.addInt (hf : R f m a) {u : UInt64} (hu : u.toNat ≤ 2 ^ 26) (h : m + 1 ≤ 63) :
    R (addInt f u) (m + 1) (a + (u.toNat : F)) := by
  obtain ⟨h1, h2⟩ := addInt_spec hf.mag hu h
  refine ⟨h2, ?_⟩
  rw [fz, h1, ← hf.eq, fz, Nat.cast_add]

theorem R.mulInt (hf : R f m a) {k : UInt64} (hk : k.toNat < 2 ^ 32) (h : k.toNat * m ≤ 63) :
    R (mulInt f k) (k.toNat * m) ((k.toNat : F) * a) := by
  obtain ⟨h1, h2⟩ := mulInt_spec hf.mag hk h
  refine ⟨h2, ?_⟩
  rw [fz, h1, ← hf.eq, fz, Nat.cast_mul]

theorem R.negateVal (hf : R f m a) {k : UInt32} (hm : m ≤ k.toNat) (hk : k.toNat ≤ 62) :
    R (negateVal f k) (k.toNat + 1) (-a) := by
  obtain ⟨h1, h2⟩ := negateVal_spec hf.mag hm hk
  refine ⟨h2, ?_⟩
  rw [eq_neg_iff_add_eq_zero, fz, ← hf.eq, fz, ← Nat.cast_add, h1, Nat.cast_mul, P_cast, mul_zero]

theorem R.negate (hf : R f m a) {k : UInt32} (hm : m ≤ k.toNat) (hk : k.toNat ≤ 62) :
    R (negate f k) (k.toNat + 1) (-a) := hf.negateVal hm hk

theorem R.mul2 (hf : R f m a) (hg : R g n b) (hm : m ≤ 8) (hn : n ≤ 8) : R (mul2 f g) 1 (a * b) := by
  obtain ⟨h1, q, h2⟩ := mul_spec (hf.mag.mono hm) (hg.mag.mono hn)
  refine ⟨h1, ?_⟩
  have := congrArg (Nat.cast : ℕ → F) h2
  rw [Nat.cast_add, Nat.cast_mul, P_cast, mul_zero, add_zero, Nat.cast_mul] at this
  rw [fz, this, ← hf.eq, ← hg.eq, fz, fz]

theorem R.mul (hf : R f m a) (hg : R g n b) (hm : m ≤ 8) (hn : n ≤ 8) : R (mul f g) 1 (a * b) :=
  hf.mul2 hg hm hn

theorem R.squareVal (hf : R f m a) (hm : m ≤ 8) : R (squareVal f) 1 (a ^ 2) := by
  obtain ⟨h1, q, h2⟩ := square_spec (hf.mag.mono hm)
  refine ⟨h1, ?_⟩
  have := congrArg (Nat.cast : ℕ → F) h2
  rw [Nat.cast_add, Nat.cast_mul, P_cast, mul_zero, add_zero, Nat.cast_mul] at this
  rw [fz, this, ← hf.eq, fz, pow_two]

theorem R.square (hf : R f m a) (hm : m ≤ 8) : R (square f) 1 (a ^ 2) := hf.squareVal hm

theorem R.normalize (hf : R f m a) (hm : m ≤ 63) : Nm (normalize f) a := by
  obtain ⟨h1, h2⟩ := normalize_spec (hf.mag.loose hm)
  refine ⟨h2, ?_, ?_⟩
  · rw [h1]; exact Nat.mod_lt _ (by decide)
  · rw [fz, h1, ZMod.natCast_mod, ← hf.eq, fz]

end

theorem Canon.val_inj {f g : FieldVal} (hf : Canon f) (hg : Canon g) (h : val f = val g) :
    f = g := by
  obtain ⟨f0, f1, f2, f3, f4, f5, f6, f7, f8, f9⟩ := hf
  obtain ⟨g0, g1, g2, g3, g4, g5, g6, g7, g8, g9⟩ := hg
  simp only [val] at h
  ext1 <;> rw [← UInt32.toNat_inj]
  · omega
  · omega
  · omega
  · omega
  · omega
  · omega
  · omega
  · omega
  · omega
  · omega

theorem Nm.fval {f : FieldVal} {a : F} (h : Nm f a) : val f = a.val := by
  rw [← h.eq, fz, ZMod.val_natCast_of_lt h.lt]

theorem Nm.unique {f g : FieldVal} {a : F} (hf : Nm f a) (hg : Nm g a) : f = g :=
  hf.canon.val_inj hg.canon (hf.fval.trans hg.fval.symm)

theorem or_eq_zero {x y : UInt32} : x ||| y = 0 ↔ x = 0 ∧ y = 0 := by
  constructor
  · intro h
    have h' := congrArg UInt32.toNat h
    rw [UInt32.toNat_or] at h'
    have := Nat.or_eq_zero_iff.1 h'
    exact ⟨UInt32.toNat_inj.1 this.1, UInt32.toNat_inj.1 this.2⟩
  · rintro ⟨rfl, rfl⟩; rfl

theorem xor_eq_zero {x y : UInt32} : x ^^^ y = 0 ↔ x = y := UInt32.xor_eq_zero_iff

theorem equals_iff {f g : FieldVal} : equals f g = true ↔ f = g := by
  simp only [equals, decide_eq_true_eq, or_eq_zero, xor_eq_zero, FieldVal.ext_iff, and_assoc]

theorem isZero_iff {f : FieldVal} : isZero f = true ↔ val f = 0 := by
  simp only [isZero, decide_eq_true_eq, or_eq_zero, val]
  simp only [← UInt32.toNat_inj]
  show (((((((((_ = 0 ∧ _ = 0) ∧ _ = 0) ∧ _ = 0) ∧ _ = 0) ∧ _ = 0) ∧ _ = 0) ∧ _ = 0) ∧ _ = 0) ∧ _ = 0) ↔ _
  omega

theorem R.of_isZero {f : FieldVal} {m : ℕ} {a : F} (h : R f m a) (hz : isZero f = true) : a = 0 := by
  rw [← h.eq, fz, isZero_iff.1 hz, Nat.cast_zero]

theorem Nm.equals {f g : FieldVal} {a b : F} (hf : Nm f a) (hg : Nm g b) :
    equals f g = decide (a = b) := by
  rw [Bool.eq_iff_iff, equals_iff, decide_eq_true_eq]
  constructor
  · rintro rfl; exact hf.eq.symm.trans hg.eq
  · rintro rfl; exact hf.unique hg

theorem Nm.isZero {f : FieldVal} {a : F} (hf : Nm f a) : isZero f = decide (a = 0) := by
  rw [Bool.eq_iff_iff, isZero_iff, decide_eq_true_eq, hf.fval, ZMod.val_eq_zero]

theorem Nm.isOdd {f : FieldVal} {a : F} (hf : Nm f a) : isOdd f = decide (a.val % 2 = 1) := by
  rw [Bool.eq_iff_iff, decide_eq_true_eq, ← hf.fval, Field.isOdd, decide_eq_true_eq,
    ← UInt32.toNat_inj, and_pow (k := 1) rfl]
  show _ = 1 ↔ _
  simp only [val]
  omega

theorem R_setInt {u : UInt64} (hu : u.toNat ≤ 2 ^ 26) : R (setInt u) 1 (u.toNat : F) := by
  obtain ⟨h1, h2⟩ := setInt_spec hu
  exact ⟨h2, by rw [fz, h1]⟩

theorem Nm_zero : Nm zero 0 := ⟨⟨by decide, by decide, by decide, by decide, by decide, by decide,
  by decide, by decide, by decide, by decide⟩, by decide, rfl⟩

theorem Nm_one : Nm (setInt 1) 1 := ⟨⟨by decide, by decide, by decide, by decide, by decide, by decide,
  by decide, by decide, by decide, by decide⟩, by decide, by
    rw [fz, (setInt_spec (u := 1) (by decide)).1]; exact Nat.cast_one⟩

theorem square10_spec {f : FieldVal} {a : F} {e : ℕ} (h : R f 1 (a ^ e)) :
    R (square10 f) 1 (a ^ (1024 * e)) := by
  have l : 1 ≤ 8 := by decide
  refine ((((((((((h.square l).square l).square l).square l).square l).square l).square l).square
    l).square l).square l).congr ?_
  simp only [← pow_mul]
  congr 1
  ring

theorem step_spec {f g : FieldVal} {a : F} {e k : ℕ} (h : R f 1 (a ^ e)) (hg : R g 1 (a ^ k)) :
    R (mul (square10 f) g) 1 (a ^ (1024 * e + k)) :=
  ((square10_spec h).mul hg (by decide) (by decide)).congr (pow_add _ _ _).symm

theorem mul_pow_spec {f g : FieldVal} {m n : ℕ} {a : F} {e k : ℕ} (h : R f m (a ^ e))
    (hg : R g n (a ^ k)) (hm : m ≤ 8) (hn : n ≤ 8) : R (mul2 f g) 1 (a ^ (e + k)) :=
  (h.mul2 hg hm hn).congr (pow_add _ _ _).symm

theorem sq_pow_spec {f : FieldVal} {m : ℕ} {a : F} {e : ℕ} (h : R f m (a ^ e)) (hm : m ≤ 8) :
    R (squareVal f) 1 (a ^ (2 * e)) :=
  (h.squareVal hm).congr (by rw [← pow_mul, mul_comm])

theorem inverse_pow {f : FieldVal} {m : ℕ} {a : F} (h : R f m a) (hm : m ≤ 8) :
    R (inverse f) 1 (a ^ (P - 2)) := by
  have l : 1 ≤ 8 := by decide
  have h1 : R f m (a ^ 1) := h.congr (pow_one a).symm
  unfold inverse
  extract_lets a2 a3 a4 a10 a11 a21 a42 a45 a63 a1019 a1023 f0 f1 f2 f3 f4 f5 f6 f7 f8 f9 f10 f11 f12 f13 f14 f15 f16 f17 f18 f19 f20 f21 f22 f23 f24
  have r2 : R a2 1 (a ^ 2) := sq_pow_spec h1 hm
  clear_value a2
  have r3 : R a3 1 (a ^ 3) := mul_pow_spec r2 h1 l hm
  clear_value a3
  have r4 : R a4 1 (a ^ 4) := sq_pow_spec r2 l
  clear_value a4
  have r10 : R a10 1 (a ^ 10) := mul_pow_spec (sq_pow_spec r4 l) r2 l l
  clear_value a10
  have r11 : R a11 1 (a ^ 11) := mul_pow_spec r10 h1 l hm
  clear_value a11
  have r21 : R a21 1 (a ^ 21) := mul_pow_spec r10 r11 l l
  clear_value a21
  have r42 : R a42 1 (a ^ 42) := sq_pow_spec r21 l
  clear_value a42
  have r45 : R a45 1 (a ^ 45) := mul_pow_spec r42 r3 l l
  clear_value a45
  have r63 : R a63 1 (a ^ 63) := mul_pow_spec r42 r21 l l
  have g0 : R f0 1 (a ^ 63) := r63
  clear_value a63
  have r1019 : R a1019 1 (a ^ 1019) :=
    (mul_pow_spec (sq_pow_spec (sq_pow_spec (sq_pow_spec (sq_pow_spec r63 l) l) l) l) r11 l l).congr
      (congrArg (a ^ ·) (by norm_num))
  clear_value a1019
  have r1023 : R a1023 1 (a ^ 1023) :=
    (mul_pow_spec r1019 r4 l l).congr (congrArg (a ^ ·) (by norm_num))
  clear_value a1023 f0
  have g1 : R f1 1 (a ^ 65535) :=
    (step_spec g0 r1023).congr (congrArg (a ^ ·) (by norm_num))
  clear_value f1
  have g2 : R f2 1 (a ^ 67108863) :=
    (step_spec g1 r1023).congr (congrArg (a ^ ·) (by norm_num))
  clear_value f2
  have g3 : R f3 1 (a ^ 68719476735) :=
    (step_spec g2 r1023).congr (congrArg (a ^ ·) (by norm_num))
  clear_value f3
  have g4 : R f4 1 (a ^ 70368744177663) :=
    (step_spec g3 r1023).congr (congrArg (a ^ ·) (by norm_num))
  clear_value f4
  have g5 : R f5 1 (a ^ 72057594037927935) :=
    (step_spec g4 r1023).congr (congrArg (a ^ ·) (by norm_num))
  clear_value f5
  have g6 : R f6 1 (a ^ 73786976294838206463) :=
    (step_spec g5 r1023).congr (congrArg (a ^ ·) (by norm_num))
  clear_value f6
  have g7 : R f7 1 (a ^ 75557863725914323419135) :=
    (step_spec g6 r1023).congr (congrArg (a ^ ·) (by norm_num))
  clear_value f7
  have g8 : R f8 1 (a ^ 77371252455336267181195263) :=
    (step_spec g7 r1023).congr (congrArg (a ^ ·) (by norm_num))
  clear_value f8
  have g9 : R f9 1 (a ^ 79228162514264337593543950335) :=
    (step_spec g8 r1023).congr (congrArg (a ^ ·) (by norm_num))
  clear_value f9
  have g10 : R f10 1 (a ^ 81129638414606681695789005144063) :=
    (step_spec g9 r1023).congr (congrArg (a ^ ·) (by norm_num))
  clear_value f10
  have g11 : R f11 1 (a ^ 83076749736557242056487941267521535) :=
    (step_spec g10 r1023).congr (congrArg (a ^ ·) (by norm_num))
  clear_value f11
  have g12 : R f12 1 (a ^ 85070591730234615865843651857942052863) :=
    (step_spec g11 r1023).congr (congrArg (a ^ ·) (by norm_num))
  clear_value f12
  have g13 : R f13 1 (a ^ 87112285931760246646623899502532662132735) :=
    (step_spec g12 r1023).congr (congrArg (a ^ ·) (by norm_num))
  clear_value f13
  have g14 : R f14 1 (a ^ 89202980794122492566142873090593446023921663) :=
    (step_spec g13 r1023).congr (congrArg (a ^ ·) (by norm_num))
  clear_value f14
  have g15 : R f15 1 (a ^ 91343852333181432387730302044767688728495783935) :=
    (step_spec g14 r1023).congr (congrArg (a ^ ·) (by norm_num))
  clear_value f15
  have g16 : R f16 1 (a ^ 93536104789177786765035829293842113257979682750463) :=
    (step_spec g15 r1023).congr (congrArg (a ^ ·) (by norm_num))
  clear_value f16
  have g17 : R f17 1 (a ^ 95780971304118053647396689196894323976171195136475135) :=
    (step_spec g16 r1023).congr (congrArg (a ^ ·) (by norm_num))
  clear_value f17
  have g18 : R f18 1 (a ^ 98079714615416886934934209737619787751599303819750539263) :=
    (step_spec g17 r1023).congr (congrArg (a ^ ·) (by norm_num))
  clear_value f18
  have g19 : R f19 1 (a ^ 100433627766186892221372630771322662657637687111424552206335) :=
    (step_spec g18 r1023).congr (congrArg (a ^ ·) (by norm_num))
  clear_value f19
  have g20 : R f20 1 (a ^ 102844034832575377634685573909834406561420991602098741459288063) :=
    (step_spec g19 r1023).congr (congrArg (a ^ ·) (by norm_num))
  clear_value f20
  have g21 : R f21 1 (a ^ 105312291668557186697918027683670432318895095400549111254310977535) :=
    (step_spec g20 r1023).congr (congrArg (a ^ ·) (by norm_num))
  clear_value f21
  have g22 : R f22 1 (a ^ 107839786668602559178668060348078522694548577690162289924414440996859) :=
    (step_spec g21 r1019).congr (congrArg (a ^ ·) (by norm_num))
  clear_value f22
  have g23 : R f23 1 (a ^ 110427941548649020598956093796432407239217743554726184882600387580784639) :=
    (step_spec g22 r1023).congr (congrArg (a ^ ·) (by norm_num))
  clear_value f23
  have g24 : R f24 1 (a ^ 113078212145816597093331040047546785012958969400039613319782796882723471359) :=
    (step_spec g23 r1023).congr (congrArg (a ^ ·) (by norm_num))
  clear_value f24
  exact (step_spec g24 r45).congr (congrArg (a ^ ·) (by rw [P_eq]))

theorem R.inverse {f : FieldVal} {m : ℕ} {a : F} (h : R f m a) (hm : m ≤ 8) :
    R (inverse f) 1 a⁻¹ := by
  refine (inverse_pow h hm).congr ?_
  by_cases ha : a = 0
  · rw [ha, inv_zero, zero_pow (by decide)]
  · have h1 : a ^ (P - 1) = 1 := ZMod.pow_card_sub_one_eq_one ha
    rw [eq_comm, inv_eq_iff_eq_inv, eq_comm, inv_eq_iff_eq_inv, eq_comm]
    refine inv_eq_of_mul_eq_one_left ?_
    rw [← pow_succ]
    exact h1

theorem beVal_eq (b : Vector UInt8 32) : beVal b = Zk.setBytes b.toList := by
  have h : b.toList = [b[0], b[1], b[2], b[3], b[4], b[5], b[6], b[7], b[8], b[9], b[10], b[11], b[12], b[13], b[14], b[15], b[16], b[17], b[18], b[19], b[20], b[21], b[22], b[23], b[24], b[25], b[26], b[27], b[28], b[29], b[30], b[31]] := by
    have : b = #v[b[0], b[1], b[2], b[3], b[4], b[5], b[6], b[7], b[8], b[9], b[10], b[11], b[12], b[13], b[14], b[15], b[16], b[17], b[18], b[19], b[20], b[21], b[22], b[23], b[24], b[25], b[26], b[27], b[28], b[29], b[30], b[31]] := by
      ext i hi
      interval_cases i <;> rfl
    conv_lhs => rw [this]
    rfl
  rw [h]
  simp only [Zk.setBytes, List.foldl, beVal]
  omega

theorem setBytes_zeros (n : ℕ) (b : Bytes) :
    Zk.setBytes (List.replicate n 0 ++ b) = Zk.setBytes b := by
  rw [Zk.setBytes_append]
  have : ∀ n, Zk.setBytes (List.replicate n 0) = 0 := by
    intro n
    rw [Zk.setBytes_eq_ofDigits]
    induction n with
    | zero => rfl
    | succ n ih =>
      rw [List.replicate_succ', List.reverse_append]
      simp only [List.reverse_cons, List.reverse_nil, List.nil_append, List.cons_append,
        List.map_cons, Nat.ofDigits_cons, ih]
      rfl
  rw [this, zero_mul, zero_add]

theorem packBytes_ok {b : Bytes} (hb : b.length ≤ 32) :
    ∃ v : Vector UInt8 32, packBytes b = .ok v ∧ v.toList = List.replicate (32 - b.length) 0 ++ b := by
  rw [packBytes, if_pos hb]
  refine ⟨_, rfl, ?_⟩
  apply List.ext_getElem
  · simp; omega
  · intro i h1 h2
    simp only [Vector.length_toList] at h1
    simp only [Vector.getElem_toList, Vector.getElem_ofFn, List.getElem_append, List.length_replicate]
    split_ifs with h3 h4 h4
    · omega
    · simp only [List.length_append, List.length_replicate] at h2
      rw [List.getD_eq_getElem?_getD, List.getElem?_eq_getElem (by omega), Option.getD_some]
    · simp
    · omega

theorem setByteSlice_ok {b : Bytes} (hb : b.length ≤ 32) :
    ∃ f, setByteSlice b = .ok f ∧ Canon f ∧ val f = Zk.setBytes b := by
  obtain ⟨v, h1, h2⟩ := packBytes_ok hb
  refine ⟨setBytes32 v, by rw [setByteSlice, h1]; rfl, setBytes_canon v, ?_⟩
  rw [setBytes_val, beVal_eq, h2, setBytes_zeros]

theorem setByteSlice_panic {b : Bytes} (hb : 32 < b.length) : setByteSlice b = .panic := by
  rw [setByteSlice, packBytes, if_neg (by omega)]; rfl

theorem Nm.bytes {f : FieldVal} {a : F} (h : Nm f a) : Zk.setBytes (fieldBytes f).toList = a.val := by
  rw [← beVal_eq, fieldBytes_val h.canon, h.fval]

end Zk.Field
