import Verif.Range.Sched

/-!
# Range proofs over a lawful curve

What the steps of prover and verifier compute, in terms of group elements.
-/

namespace Zk.Proto

open Zk

namespace Lawful

variable {cp : Params} {E : Type} [AddCommGroup E] (L : Lawful cp E)

omit [AddCommGroup E] in
theorem dvd_emod_self {a b : Int} : b ∣ a % b ↔ b ∣ a := by
  rw [Int.dvd_iff_emod_eq_zero, Int.emod_emod, ← Int.dvd_iff_emod_eq_zero]

/-- The hash of one group element, as a number.  See rangeproof.go:51-102. -/
def hp (L : Lawful cp E) (hash : Bytes → Bytes) (a : E) : Int := setBytes (hash (L.bytes a))

/-- The hash of a list of group elements, as a number.  See rangeproof.go:51-102. -/
def hps (L : Lawful cp E) (hash : Bytes → Bytes) (as : List E) : Int :=
  setBytes (hash (as.map L.bytes).flatten)

include L

theorem hashPoint_pe (hash : Bytes → Bytes) (a : E) :
    hashPoint hash (L.pe a) = .ok (L.hp hash a) := by
  simp [hashPoint, L.pointBytes_pe, hp]

theorem hashAll_pe (hash : Bytes → Bytes) (as : List E) :
    hashAll hash (as.map L.pe) = .ok (L.hps hash as) := by
  have : (as.map L.pe).mapM pointBytes = .ok (as.map L.bytes) := by
    induction as with
    | nil => rfl
    | cons a as ih => simp [List.mapM_cons, L.pointBytes_pe, ih]
  simp [hashAll, this, hps]

theorem hpoint_pe {i : Nat} (hi : i < 64) : hpoint cp i = .ok (L.pe ((2 ^ i : Int) • L.g)) := by
  have : (2 ^ i : Int) • L.g = (2 ^ i : Nat) • L.g := by
    rw [← natCast_zsmul]; push_cast; rfl
  rw [hpoint, L.HPoints_get i hi, this]; rfl

theorem hpoint_panic {i : Nat} (hi : 64 ≤ i) : hpoint cp i = .panic := by
  have : cp.HPoints[i]? = none := by
    rw [List.getElem?_eq_none_iff, L.HPoints_len]; exact hi
  simp [hpoint, this]

theorem multH (s : Int) : mult cp cp.H (some s) = .ok (L.pe (s • L.hb)) := by
  rw [L.H_pe, L.mult_pe, L.eff_h]

/-- What a goroutine of the verifier computes. -/
theorem verifyGen_pe (hash : Bytes → Bytes) {i : Nat} (hi : i < 64) (e s : Int) (c : E) :
    verifyGen hash cp i (some e) ⟨L.pe c, some s⟩ =
      .ok (L.pe (L.hp hash (s • L.hb - e • L.eff (c - (2 ^ i : Int) • L.g)) • L.eff c)) := by
  simp only [verifyGen, L.multH, Go.bind_ok, L.hpoint_pe hi, L.neg_pe, L.add_pe, L.mult_pe,
    L.hashPoint_pe, sub_eq_add_neg]

/-- First phase for a 0 bit. -/
theorem runA_zero (hash : Bytes → Bytes) (i : Nat) (rnd : BitRand) :
    runW (progA hash cp i false rnd) emptySlot =
      .ok ⟨L.pe (rnd.k • L.hb), nilPoint, some rnd.k, none⟩ := by
  simp [progA, runW, emptySlot, L.multH]

/-- First phase for a 1 bit. -/
theorem runA_one (hash : Bytes → Bytes) {i : Nat} (hi : i < 64) (rnd : BitRand) :
    runW (progA hash cp i true rnd) emptySlot =
      .ok ⟨L.pe (L.hp hash (rnd.k • L.hb) • ((2 ^ i : Int) • L.g + rnd.v • L.hb)),
        L.pe ((2 ^ i : Int) • L.g + rnd.v • L.hb), some rnd.k, some rnd.v⟩ := by
  simp [progA, runW, emptySlot, L.multH, L.hpoint_pe hi, L.curveAdd_pe, L.hashPoint_pe, L.coords_pe,
    L.scalarMult_pe, L.mk_enc]

/-- The inverse used for a 0 bit. -/
theorem inverseEI_pe (hash : Bytes → Bytes) (i : Nat) (e0 j : Int) :
    inverseEI hash cp i e0 j =
      .ok (modInverse (L.hp hash (j • L.hb + (e0 * 2 ^ i) • L.g) % (cp.C.N : Int)) cp.C.N) := by
  have h : (e0 * (2 ^ i % (cp.C.N : Int)) % (cp.C.N : Int)) = (e0 * 2 ^ i) % (cp.C.N : Int) := by
    rw [Int.mul_emod, Int.emod_emod, ← Int.mul_emod]
  simp only [inverseEI, L.multH, Go.bind_ok, L.scalarBaseMult_eq, h, L.setBytes_mod_smul, L.mk_enc,
    L.curveAdd_pe, L.hashPoint_pe, Go.pure_eq]

/-! ### The honest prover -/

/-- The point R of bit `i` after the first phase.  See rangeproof.go:51-102. -/
noncomputable def rOf (L : Lawful cp E) (hash : Bytes → Bytes) (value : Int) (rnd : Nat → BitRand)
    (i : Nat) : E :=
  if bitOf value i then
    L.hp hash ((rnd i).k • L.hb) • ((2 ^ i : Int) • L.g + (rnd i).v • L.hb)
  else (rnd i).k • L.hb

/-- The challenge of the proof.  See rangeproof.go:154-231. -/
noncomputable def e0Of (L : Lawful cp E) (hash : Bytes → Bytes) (n : Nat) (value : Int)
    (rnd : Nat → BitRand) : Int :=
  L.hps hash ((List.range n).map (L.rOf hash value rnd)) % (cp.C.N : Int)

/-- The inner challenge of a 0 bit, which the prover has to invert.  See rangeproof.go:105-151. -/
noncomputable def eiOf (L : Lawful cp E) (hash : Bytes → Bytes) (n : Nat) (value : Int)
    (rnd : Nat → BitRand) (i : Nat) : Int :=
  L.hp hash ((rnd i).j • L.hb + (L.e0Of hash n value rnd * 2 ^ i) • L.g)

/-- The blinding factor of bit `i`; `w` is the inverse of the inner challenge.
See rangeproof.go:105-151. -/
def vOf (_ : Lawful cp E) (value : Int) (rnd : Nat → BitRand) (w : Nat → Int) (i : Nat) : Int :=
  if bitOf value i then (rnd i).v else w i * (rnd i).k

/-- The commitment to bit `i`.  See rangeproof.go:105-151. -/
def cOf (L : Lawful cp E) (value : Int) (rnd : Nat → BitRand) (w : Nat → Int) (i : Nat) : E :=
  (if bitOf value i then (2 ^ i : Int) else 0) • L.g + L.vOf value rnd w i • L.hb

/-- The response for bit `i`.  See rangeproof.go:105-151. -/
noncomputable def sOf (L : Lawful cp E) (hash : Bytes → Bytes) (n : Nat) (value : Int)
    (rnd : Nat → BitRand) (w : Nat → Int) (i : Nat) : Int :=
  if bitOf value i then (rnd i).k + L.e0Of hash n value rnd * (rnd i).v
  else (rnd i).j + (rnd i).k * (L.e0Of hash n value rnd * w i)

theorem finishRange_pe (e0 : Int) (l : List Nat) (c : Nat → E) (v s : Nat → Int)
    (r : Nat → ECPoint) :
    finishRange cp e0 (l.map fun i => ⟨r i, L.pe (c i), some (s i), some (v i)⟩) =
      .ok (some ⟨L.pe (l.map c).sum, some e0, l.map fun i => ⟨L.pe (c i), some (s i)⟩⟩,
        some (l.map v).sum, none) := by
  have key : ∀ (a : Int) (b : E),
      (l.map fun i => (⟨r i, L.pe (c i), some (s i), some (v i)⟩ : Slot)).foldlM
        (fun (acc : Int × ECPoint) s => do
          let v ← deref s.v
          let agg ← add cp acc.2 s.B
          pure (acc.1 + v, agg)) (a, L.pe b)
        = .ok (a + (l.map v).sum, L.pe (b + (l.map c).sum)) := by
    induction l with
    | nil => intro a b; simp
    | cons i l ih =>
      intro a b
      simp only [List.map_cons, List.foldlM_cons, deref_some, Go.bind_ok, L.add_pe]
      refine (ih _ _).trans ?_
      simp only [List.sum_cons, add_assoc]
  have := key 0 0
  rw [L.pe_zero, zero_add, zero_add] at this
  rw [finishRange, this]
  simp only [Go.bind_ok, Go.pure_eq, List.map_map]
  rfl

theorem foldTotal_pe (l : List Nat) (c : Nat → E) (s : Nat → Option Int) :
    (l.map fun i => (⟨L.pe (c i), s i⟩ : RangeProofTuple)).foldlM
      (fun acc t => add cp acc t.C) Zero = .ok (L.pe (l.map c).sum) := by
  have key : ∀ b : E, (l.map fun i => (⟨L.pe (c i), s i⟩ : RangeProofTuple)).foldlM
      (fun acc t => add cp acc t.C) (L.pe b) = .ok (L.pe (b + (l.map c).sum)) := by
    induction l with
    | nil => intro b; simp
    | cons i l ih =>
      intro b
      simp only [List.map_cons, List.foldlM_cons, Go.bind_ok, L.add_pe, ih, List.sum_cons, add_assoc]
  have := key 0
  rwa [L.pe_zero, zero_add] at this

theorem runA (hash : Bytes → Bytes) {i : Nat} (hi : i < 64) (value : Int) (rnd : Nat → BitRand) :
    runW (progA hash cp i (bitOf value i) (rnd i)) emptySlot =
      .ok ⟨L.pe (L.rOf hash value rnd i),
        if bitOf value i then L.pe ((2 ^ i : Int) • L.g + (rnd i).v • L.hb) else nilPoint,
        some (rnd i).k, if bitOf value i then some (rnd i).v else none⟩ := by
  cases hb : bitOf value i with
  | false => rw [L.runA_zero]; simp [rOf, hb]
  | true => rw [L.runA_one hash hi]; simp [rOf, hb]

/-- The prover, when the inner challenges can be inverted. -/
theorem proveRange_honest (hash : Bytes → Bytes) (n : Nat) (hn : n ≤ 64) (value : Int)
    (rnd : Nat → BitRand)
    (hinv : ∀ i < n, bitOf value i = false → ¬ (cp.C.N : Int) ∣ L.eiOf hash n value rnd i)
    (hk : ∀ i < n, bitOf value i = false → L.MultOk ((rnd i).k • L.hb)) :
    ∃ w : Nat → Int,
      (∀ i < n, bitOf value i = false →
        (w i * L.eiOf hash n value rnd i) % (cp.C.N : Int) = 1 % (cp.C.N : Int)) ∧
      proveRange hash cp n value rnd =
        .ok (some ⟨L.pe ((List.range n).map (L.cOf value rnd w)).sum,
            some (L.e0Of hash n value rnd),
            (List.range n).map fun i =>
              ⟨L.pe (L.cOf value rnd w i), some (L.sOf hash n value rnd w i)⟩⟩,
          some ((List.range n).map (L.vOf value rnd w)).sum, none) := by
  have hw : ∀ i, ∃ w, i < n → bitOf value i = false →
      modInverse (L.eiOf hash n value rnd i % (cp.C.N : Int)) cp.C.N = some w ∧
        (w * L.eiOf hash n value rnd i) % (cp.C.N : Int) = 1 % (cp.C.N : Int) := by
    intro i
    by_cases h : i < n ∧ bitOf value i = false
    · have h1 := hinv i h.1 h.2
      have h2 : ¬ (cp.C.N : Int) ∣ L.eiOf hash n value rnd i % (cp.C.N : Int) := by
        rwa [dvd_emod_self]
      obtain ⟨w, hw1, hw2⟩ := modInverse_some L.prime h2
      refine ⟨w, fun _ _ => ⟨hw1, ?_⟩⟩
      rw [← hw2, Int.mul_emod, Int.mul_emod w (_ % _), Int.emod_emod]
    · exact ⟨0, fun a b => absurd ⟨a, b⟩ h⟩
  choose w hw using hw
  refine ⟨w, fun i hi hb => (hw i hi hb).2, ?_⟩
  have hA : ∀ i < n, runW (progA hash cp i (bitOf value i) (rnd i)) emptySlot = .ok _ :=
    fun i hi => L.runA hash (by omega) value rnd
  have hh := L.hashAll_pe hash ((List.range n).map (L.rOf hash value rnd))
  rw [List.map_map] at hh
  rw [proveRange_eq₂ hash cp n value rnd _
    (fun i => ⟨L.pe (L.rOf hash value rnd i), L.pe (L.cOf value rnd w i),
      some (L.sOf hash n value rnd w i), some (L.vOf value rnd w i)⟩) _ hA hh]
  · exact L.finishRange_pe ..
  · intro i hi
    change runW (progB hash cp i (bitOf value i) (L.e0Of hash n value rnd) (rnd i)) _ = _
    cases hb : bitOf value i with
    | true => simp [progB, runW, hb, sOf, vOf, cOf]
    | false =>
      have h1 := (hw i hi hb).1
      rw [eiOf] at h1
      have h2 := (L.multOk_iff_eff _).1 (hk i hi hb)
      simp [progB, runW, hb, sOf, vOf, cOf, L.inverseEI_pe, h1, rOf, L.mult_pe, h2, ← mul_smul]

/-- A zero inner challenge makes the prover panic. -/
theorem proveRange_panics (hash : Bytes → Bytes) (n : Nat) (hn : n ≤ 64) (value : Int)
    (rnd : Nat → BitRand) {i : Nat} (hi : i < n) (hb : bitOf value i = false)
    (hd : (cp.C.N : Int) ∣ L.eiOf hash n value rnd i) :
    proveRange hash cp n value rnd = .panic := by
  have hA : ∀ i < n, runW (progA hash cp i (bitOf value i) (rnd i)) emptySlot = .ok _ :=
    fun i hi => L.runA hash (by omega) value rnd
  have hh := L.hashAll_pe hash ((List.range n).map (L.rOf hash value rnd))
  rw [List.map_map] at hh
  rw [proveRange_eq _ _ _ _ _ _ hA]
  have hh' : hashAll hash ((List.range n).map fun i => L.pe (L.rOf hash value rnd i)) = .ok _ := hh
  simp only [hh', Go.bind_ok]
  rw [mapM_panic _ _ (List.mem_range.2 hi)]
  · rfl
  · change runW (progB hash cp i (bitOf value i) (L.e0Of hash n value rnd) (rnd i)) _ = _
    have h0 : modInverse (L.eiOf hash n value rnd i % (cp.C.N : Int)) cp.C.N = none :=
      modInverse_none L.prime (dvd_emod_self.2 hd)
    rw [eiOf] at h0
    simp [progB, runW, hb, L.inverseEI_pe, h0]

omit [AddCommGroup E] L in
/-- The bits of a value add up to it. -/
theorem sum_bits (value : Int) (n : Nat) (h0 : 0 ≤ value) (h : value < 2 ^ n) :
    ((List.range n).map fun i => if bitOf value i then (2 ^ i : Int) else 0).sum = value := by
  have key : ∀ n : Nat, ((List.range n).map fun i => if bitOf value i then (2 ^ i : Int) else 0).sum
      = ((value.toNat % 2 ^ n : Nat) : Int) := by
    intro n
    induction n with
    | zero => simp [Nat.mod_one]
    | succ n ih =>
      rw [List.range_succ, List.map_append, List.sum_append, ih, Nat.mod_pow_succ, ← Nat.toNat_testBit]
      simp only [bitOf, List.map_cons, List.map_nil, List.sum_cons, List.sum_nil]
      by_cases hb : value.toNat.testBit n = true
      · simp [hb]
      · simp [hb]
  rw [key, Nat.mod_eq_of_lt]
  · exact Int.toNat_of_nonneg h0
  · have : (value.toNat : Int) < ((2 ^ n : Nat) : Int) := by
      rw [Int.toNat_of_nonneg h0]; push_cast; exact h
    exact_mod_cast this

theorem sum_cOf (value : Int) (rnd : Nat → BitRand) (w : Nat → Int) (n : Nat) (h0 : 0 ≤ value)
    (h : value < 2 ^ n) :
    ((List.range n).map (L.cOf value rnd w)).sum
      = value • L.g + ((List.range n).map (L.vOf value rnd w)).sum • L.hb := by
  have hv : value • L.g = ((List.range n).map fun i =>
      if bitOf value i then (2 ^ i : Int) else 0).sum • L.g := by rw [sum_bits value n h0 h]
  rw [hv]
  clear hv
  generalize List.range n = l
  induction l with
  | nil => simp
  | cons i l ih =>
    simp only [List.map_cons, List.sum_cons, ih, add_smul, cOf]
    module

end Lawful

end Zk.Proto
