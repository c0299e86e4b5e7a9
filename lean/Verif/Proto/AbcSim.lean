import Verif.Proto.AbcProps
import Mathlib.Data.Fintype.BigOperators
import Mathlib.Data.Fin.VecNotation

/-! # Property C87: what an ABC proof would hide if its responses were reduced -/

namespace Zk.Proto

open Zk

variable {cp : Params} {E : Type} [AddCommGroup E]

/-! ## Several uniform draws -/

/-- All draws of `n` numbers from [0, N).  See abc.go:61-170. -/
def drawsN (n N : Nat) : Multiset (Fin n → Nat) := (Fintype.piFinset fun _ => Finset.range N).val

theorem drawsN_zmod (n N : Nat) [NeZero N] :
    drawsN n N = (Finset.univ : Finset (Fin n → ZMod N)).val.map fun z i => (z i).val := by
  refine (Multiset.Nodup.ext (Finset.nodup _) ?_).2 ?_
  · refine Multiset.Nodup.map ?_ Finset.univ.nodup
    intro a b h
    funext i
    exact ZMod.val_injective N (congrFun h i)
  · intro a
    simp only [Finset.mem_val, Fintype.mem_piFinset, Finset.mem_range, Multiset.mem_map,
      Finset.mem_univ, true_and]
    constructor
    · intro h
      exact ⟨fun i => (a i : ZMod N), funext fun i => ZMod.val_cast_of_lt (h i)⟩
    · rintro ⟨z, rfl⟩ i
      exact ZMod.val_lt _

open Classical in
/-- Two images of some of the draws agree if a bijection of the draws relates them. -/
theorem dist_filter {α : Type} (n N : Nat) [NeZero N] (P Q : (Fin n → Nat) → Prop)
    (f g : (Fin n → Nat) → α) (e : (Fin n → ZMod N) ≃ (Fin n → ZMod N))
    (hPQ : ∀ z, P (fun i => (z i).val) ↔ Q fun i => (e z i).val)
    (h : ∀ z, P (fun i => (z i).val) → f (fun i => (z i).val) = g fun i => (e z i).val) :
    ((drawsN n N).filter P).map f = ((drawsN n N).filter Q).map g := by
  rw [drawsN_zmod]
  conv_rhs => rw [← Multiset.map_univ_val_equiv e, Multiset.map_map]
  rw [Multiset.filter_map, Multiset.filter_map, Multiset.map_map, Multiset.map_map]
  have hf : Multiset.filter (P ∘ fun (z : Fin n → ZMod N) i => (z i).val)
      (Finset.univ : Finset (Fin n → ZMod N)).val =
      Multiset.filter (Q ∘ ((fun z i => (z i).val) ∘ e)) Finset.univ.val :=
    Multiset.filter_congr fun z _ => hPQ z
  rw [← hf]
  refine Multiset.map_congr rfl fun z hz => ?_
  exact h z (Multiset.mem_filter.1 hz).2

theorem dist_eqN {α : Type} (n N : Nat) [NeZero N] (f g : (Fin n → Nat) → α)
    (e : (Fin n → ZMod N) ≃ (Fin n → ZMod N))
    (h : ∀ z, f (fun i => (z i).val) = g fun i => (e z i).val) :
    (drawsN n N).map f = (drawsN n N).map g := by
  rw [drawsN_zmod, Multiset.map_map, Multiset.map_map]
  conv_rhs => rw [← Multiset.map_univ_val_equiv e, Multiset.map_map]
  exact Multiset.map_congr rfl fun z _ => h z

/-! ## The simulator -/

/-- The proof with its third response and the responses of the nested proof reduced modulo N.
See abc.go:61-170. -/
def reduceABC (N : Nat) (r : Go (Option ABCProof × Option Err)) : Go (Option ABCProof × Option Err) := do
  let p ← r
  pure (p.1.map fun pr => { pr with
    l := pr.l.map (· % (N : Int))
    disjuncAC := pr.disjuncAC.map fun d =>
      { d with S1 := d.S1.map (· % (N : Int)), S2 := d.S2.map (· % (N : Int)) } }, p.2)

/-- The random numbers of a right proof, in the order of `ABCRand`.  See abc.go:61-170. -/
def abcRandOf (u : Fin 8 → Nat) : ABCRand := ⟨u 0, u 1, u 2, u 3, u 4, u 5, u 6, u 7⟩

/-- A simulator of right proofs that knows neither the value nor the secret key nor the opening of
the commitment: it is given the statement, the public key and the challenge `c`, and draws the
responses `s 0, s 1, s 2` of the main proof, those of the nested proof `s 5, s 6`, one challenge of the
nested proof `s 7`, and the points B and C by `s 3, s 4`.  See abc.go:61-170. -/
def simABC (cp : Params) (CM CMTok PubKey : ECPoint) (c : Int) (s : Fin 8 → Nat) :
    Go (Option ABCProof × Option Err) := do
  let B ← mult cp cp.H (some (s 3))
  let C ← pedCommitR cp (some 1) (some (s 4))
  let CToken ← mult cp PubKey (some (s 4))
  let D ← sub cp C cp.G
  let c2 := (c - s 7) % (cp.C.N : Int)
  let a ← mult cp CM (some (s 5))
  let b ← mult cp CMTok (some (s 7))
  let t1 ← sub cp a b
  let a ← mult cp cp.H (some (s 6))
  let b ← commitR cp D c2
  let t2 ← sub cp a b
  let jG ← mult cp cp.G (some (s 0))
  let kT ← mult cp CMTok (some (s 1))
  let x ← add cp jG kT
  let y ← commitR cp CM c
  let T1 ← sub cp x y
  let jB ← mult cp B (some (s 0))
  let lH ← mult cp cp.H (some (s 2))
  let x ← add cp jB lH
  let y ← commitR cp C c
  let T2 ← sub cp x y
  pure (some ⟨B, C, T1, T2, some c, some (s 0), some (s 1), some (s 2), CToken,
    some ⟨t1, t2, some c, some (s 7), some c2, some (s 5), some (s 6)⟩⟩, none)

theorem newABCProof_right' (L : Lawful cp E) (hash : Bytes → Bytes) (cm tok : E) (v w sk isk : Int)
    (rnd : ABCRand) (hv : v ≠ 0) (hw : modInverse v cp.C.N = some w)
    (hs : modInverse sk cp.C.N = some isk) (c : Int)
    (hc : ∀ arr, generateChallenge hash cp arr = c) :
    newABCProof hash cp (L.pe cm) (L.pe tok) v sk Right rnd =
      .ok (some ⟨L.pe (w • L.g + rnd.ub • L.hb), L.pe (L.g + rnd.uc • L.hb),
        L.pe (rnd.u1 • L.g + rnd.u2 • L.eff tok),
        L.pe (rnd.u1 • L.eff (w • L.g + rnd.ub • L.hb) + rnd.u3 • L.hb), some c,
        some ((rnd.u1 + v * c) % (cp.C.N : Int)), some ((rnd.u2 + isk * c) % (cp.C.N : Int)),
        some (rnd.u3 + (rnd.uc - v * rnd.ub) * c), L.pe (rnd.uc • L.eff (sk • L.hb)),
        some ⟨L.pe (rnd.d2 • L.eff cm - rnd.d3 • L.eff tok), L.pe (rnd.d1 • L.hb), some c,
          some rnd.d3, some ((c - rnd.d3) % (cp.C.N : Int)), some rnd.d2,
          some (rnd.d1 + (c - rnd.d3) % (cp.C.N : Int) * (rnd.uc % (cp.C.N : Int)))⟩⟩, none) := by
  have hsame : L.same (rnd.uc • L.eff L.h) (rnd.uc • L.hb) = true := by rw [L.eff_h, L.same_self]
  have e : L.g + rnd.uc • L.hb - L.g = rnd.uc • L.hb := by abel
  have hch : ∀ as, L.chal hash as = c := fun as => hc _
  simp only [newABCProof, L.H_pe, L.mult_pe, L.eff_h, Go.bind_ok, and_false, if_false, Ne, hv,
    not_false_eq_true, and_self, if_true, hw, L.pedCommitR_pe, one_smul, L.G_pe, L.sub_pe, e,
    newDisjunctiveProof_right L hash cm tok L.h (rnd.uc • L.hb) rnd.uc rnd.d1 rnd.d2 rnd.d3 hsame,
    Option.isSome_none, Bool.false_eq_true, L.finishABC_pe _ _ _ _ _ _ _ _ _ _ _ hs, hch, rightProof]

open Classical in
/-- C87, what holds: if the third response and the responses of the nested proof were reduced modulo
N, then, for every challenge, the right proofs over all draws would be those of one simulator
that knows the statement and the public key only.  So they would show nothing of the value beyond
the statement itself.  Draws for which `Mult` mistakes B for a generator are left out on both sides.
Missing: the code does not reduce the responses. -/
theorem C87_reduced_simulatable_partial (L : Lawful cp E) (hash : Bytes → Bytes) (c : Int)
    (hc : ∀ arr, generateChallenge hash cp arr = c) (cm tok : E) (v w ua sk : Int)
    (hcm : pedCommitR cp (some v) (some ua) = .ok (L.pe cm)) (htok : tok = (ua * sk) • L.hb)
    (hv : ¬ (cp.C.N : Int) ∣ v) (hsk : ¬ (cp.C.N : Int) ∣ sk) (o : L.MultOk tok)
    (hw : modInverse v cp.C.N = some w) :
    ((drawsN 8 cp.C.N).filter fun u => L.MultOk (w • L.g + u 3 • L.hb)).map (fun u =>
      reduceABC cp.C.N (newABCProof hash cp (L.pe cm) (L.pe tok) v sk Right (abcRandOf u))) =
    ((drawsN 8 cp.C.N).filter fun s => L.MultOk (s 3 • L.hb)).map (fun s =>
      simABC cp (L.pe cm) (L.pe tok) (L.pe (sk • L.hb)) c s) := by
  have : NeZero cp.C.N := ⟨L.prime.ne_zero⟩
  have hv0 : v ≠ 0 := by rintro rfl; exact hv (dvd_zero _)
  obtain ⟨isk, hi, hi'⟩ := modInverse_some L.prime hsk
  obtain ⟨w', hw1, hw2⟩ := modInverse_some L.prime hv
  rw [hw, Option.some.injEq] at hw1
  subst hw1
  rw [L.pedCommitR_pe, Go.ok.injEq, L.pe_inj] at hcm
  have : Fact (Nat.card E).Prime := ⟨by rw [L.card]; exact L.prime⟩
  have hmem : L.g ∈ AddSubgroup.zmultiples L.hb :=
    mem_zmultiples_of_prime_card (p := Nat.card E) rfl L.hb_ne
  obtain ⟨d, hd⟩ := AddSubgroup.mem_zmultiples_iff.1 hmem
  let e : (Fin 8 → ZMod cp.C.N) ≃ (Fin 8 → ZMod cp.C.N) :=
    { toFun := fun u => ![u 0 + v * c, u 1 + isk * c, u 2 + (u 4 - v * u 3) * c, u 3 + w * d, u 4,
        u 6, u 5 + (c - u 7) * u 4, u 7]
      invFun := fun s => ![s 0 - v * c, s 1 - isk * c, s 2 - (s 4 - v * (s 3 - w * d)) * c,
        s 3 - w * d, s 4, s 6 - (c - s 7) * s 4, s 5, s 7]
      left_inv := fun u => by funext i; fin_cases i <;> simp
      right_inv := fun u => by funext i; fin_cases i <;> simp }
  have hB : ∀ z : Fin 8 → ZMod cp.C.N, (e z 3).val • L.hb = w • L.g + (z 3).val • L.hb := by
    intro z
    have h1 : (((e z 3).val : Nat) : Int) = ((z 3).val + w * d) % (cp.C.N : Int) := by
      refine val_eq_of_cast ?_
      push_cast; rw [ZMod.natCast_zmod_val]; rfl
    rw [← natCast_zsmul, h1, L.smul_mod, ← hd, ← natCast_zsmul]; module
  refine dist_filter 8 cp.C.N _ _ _ _ e (fun z => by rw [hB]) fun z hz => ?_
  rw [L.multOk_iff_eff] at o hz
  have s0 : (((e z 0).val : Nat) : Int) = ((z 0).val + v * c) % (cp.C.N : Int) :=
    val_eq_of_cast (by push_cast; rw [ZMod.natCast_zmod_val]; rfl)
  have s1 : (((e z 1).val : Nat) : Int) = ((z 1).val + isk * c) % (cp.C.N : Int) :=
    val_eq_of_cast (by push_cast; rw [ZMod.natCast_zmod_val]; rfl)
  have s2 : (((e z 2).val : Nat) : Int) =
      ((z 2).val + ((z 4).val - v * (z 3).val) * c) % (cp.C.N : Int) :=
    val_eq_of_cast (by push_cast; simp only [ZMod.natCast_zmod_val]; rfl)
  have s6 : (((e z 6).val : Nat) : Int) =
      ((z 5).val + (c - (z 7).val) % (cp.C.N : Int) * ((z 4).val % (cp.C.N : Int))) %
        (cp.C.N : Int) := by
    rw [add_mul_mod_emod, add_mod_mul_emod]
    exact val_eq_of_cast (by push_cast; simp only [ZMod.natCast_zmod_val]; rfl)
  have s4 : e z 4 = z 4 := rfl
  have s5 : e z 5 = z 6 := rfl
  have s7 : e z 7 = z 7 := rfl
  have hB' : (((e z 3).val : Nat) : Int) • L.hb = w • L.g + ((z 3).val : Int) • L.hb := by
    rw [natCast_zsmul, natCast_zsmul, hB]
  rw [← natCast_zsmul] at hz
  rw [newABCProof_right' L hash cm tok v w sk isk _ hv0 hw hi c hc]
  simp only [simABC, L.H_pe, L.G_pe, L.mult_pe, L.eff_h, L.eff_g, L.pedCommitR_pe, L.commitR_pe,
    L.add_pe, L.sub_pe, Go.bind_ok, Go.pure_eq, reduceABC, Option.map_some, abcRandOf]
  have e1 : ((z 0).val : Int) • L.g + ((z 1).val : Int) • L.eff tok =
      (((z 0).val + v * c) % (cp.C.N : Int)) • L.g +
        (((z 1).val + isk * c) % (cp.C.N : Int)) • L.eff tok - c • cm := by
    have h1 : (isk * sk) • L.hb = L.hb := by rw [L.smul_congr hi', one_smul]
    have h2 : isk • tok = ua • L.hb := by
      rw [htok, smul_smul, show isk * (ua * sk) = ua * (isk * sk) by ring, mul_smul, h1]
    rw [L.smul_mod, L.smul_mod, o, ← hcm]
    linear_combination (norm := module) (-c) • h2
  have e2 : ((z 0).val : Int) • L.eff (w • L.g + ((z 3).val : Int) • L.hb) + ((z 2).val : Int) • L.hb =
      (((z 0).val + v * c) % (cp.C.N : Int)) • L.eff (w • L.g + ((z 3).val : Int) • L.hb) +
        (((z 2).val + ((z 4).val - v * (z 3).val) * c) % (cp.C.N : Int)) • L.hb -
        c • (L.g + ((z 4).val : Int) • L.hb) := by
    have h1 : (w * v) • L.g = L.g := by rw [L.smul_congr hw2, one_smul]
    rw [L.smul_mod, L.smul_mod, hz]
    linear_combination (norm := module) (-c) • h1
  have e3 : ((z 5).val : Int) • L.hb =
      (((z 5).val + (c - (z 7).val) % (cp.C.N : Int) * ((z 4).val % (cp.C.N : Int))) %
        (cp.C.N : Int)) • L.hb - ((c - (z 7).val) % (cp.C.N : Int)) • ((z 4).val : Int) • L.hb := by
    rw [L.smul_mod, add_smul, mul_smul, L.smul_mod (z 4).val]; abel
  have e4 : ((z 6).val : Int) % (cp.C.N : Int) = (z 6).val :=
    Int.emod_eq_of_lt (by omega) (by exact_mod_cast ZMod.val_lt _)
  have e5 : L.g + ((z 4).val : Int) • L.hb - L.g = ((z 4).val : Int) • L.hb := by abel
  simp only [s0, s1, s2, s4, s5, s6, s7, hB', one_smul, e5, e4, ← e1, ← e2, ← e3]

/-- The hypotheses can be met, and draws are left. -/
example : ∃ w, modInverse 2 Toy.params.C.N = some w ∧
    pedCommitR Toy.params (some 2) (some 1) = .ok (Toy.lawful.pe 5) ∧
    (3 : ZMod 7) = ((1 : Int) * 1) • Toy.lawful.hb ∧ Toy.lawful.MultOk 3 ∧
    ∃ u ∈ drawsN 8 Toy.params.C.N, Toy.lawful.MultOk (w • Toy.lawful.g + u 3 • Toy.lawful.hb) := by
  obtain ⟨w, hw, hw'⟩ := modInverse_some Toy.lawful.prime (z := 2) (by decide)
  have ok3 : Toy.lawful.MultOk 3 := by
    rw [Toy.lawful.multOk_iff_eff]
    have h1 : ¬ ((3 : ZMod 7) = Toy.lawful.g ∨ (3 : ZMod 7) = -Toy.lawful.g) := by decide
    have h2 : ¬ ((3 : ZMod 7) = Toy.lawful.h ∨ (3 : ZMod 7) = -Toy.lawful.h) := by decide
    rw [Lawful.eff, if_neg h1, if_neg h2]
  have hw7 : w % 7 = 4 := by
    have h : (w * 2) % 7 = 1 := hw'
    omega
  refine ⟨w, hw, ?_, by decide, ok3, fun _ => 2, ?_, ?_⟩
  · rw [Toy.lawful.pedCommitR_pe, Go.ok.injEq, Toy.lawful.pe_inj]; decide
  · rw [drawsN, Finset.mem_val, Fintype.mem_piFinset]
    intro i; decide
  · have h1 : w • Toy.lawful.g + 2 • Toy.lawful.hb = 3 := by
      have : w • Toy.lawful.g = (4 : Int) • Toy.lawful.g :=
        Toy.lawful.smul_congr (s := w) (t := 4) (by
          change w % 7 = 4 % 7
          omega) _
      rw [this]; decide
    rw [h1]; exact ok3

/-! ## Left proofs -/

/-- A simulator of left proofs, as `simABC`.  See abc.go:61-170. -/
def simABCLeft (cp : Params) (CM CMTok PubKey : ECPoint) (c : Int) (s : Fin 8 → Nat) :
    Go (Option ABCProof × Option Err) := do
  let B ← mult cp cp.H (some (s 3))
  let C ← mult cp cp.H (some (s 4))
  let CToken ← mult cp PubKey (some (s 4))
  let D ← sub cp C cp.G
  let c1 := (c - s 7) % (cp.C.N : Int)
  let a ← mult cp CM (some (s 5))
  let b ← mult cp CMTok (some c1)
  let t1 ← sub cp a b
  let a ← mult cp cp.H (some (s 6))
  let b ← mult cp D (some (s 7))
  let t2 ← sub cp a b
  let jG ← mult cp cp.G (some (s 0))
  let kT ← mult cp CMTok (some (s 1))
  let x ← add cp jG kT
  let y ← commitR cp CM c
  let T1 ← sub cp x y
  let jB ← mult cp B (some (s 0))
  let lH ← mult cp cp.H (some (s 2))
  let x ← add cp jB lH
  let y ← commitR cp C c
  let T2 ← sub cp x y
  pure (some ⟨B, C, T1, T2, some c, some (s 0), some (s 1), some (s 2), CToken,
    some ⟨t1, t2, some c, some c1, some (s 7), some (s 5), some (s 6)⟩⟩, none)

theorem newABCProof_left' (L : Lawful cp E) (hash : Bytes → Bytes) (cm tok : E) (sk isk : Int)
    (rnd : ABCRand) (h : L.same (sk • L.eff cm) tok = true)
    (hs : modInverse sk cp.C.N = some isk) (c : Int)
    (hc : ∀ arr, generateChallenge hash cp arr = c) :
    newABCProof hash cp (L.pe cm) (L.pe tok) 0 sk Left rnd =
      .ok (some ⟨L.pe (rnd.ub • L.hb), L.pe (rnd.uc • L.hb),
        L.pe (rnd.u1 • L.g + rnd.u2 • L.eff tok),
        L.pe (rnd.u1 • L.eff (rnd.ub • L.hb) + rnd.u3 • L.hb), some c,
        some ((rnd.u1 + 0 * c) % (cp.C.N : Int)), some ((rnd.u2 + isk * c) % (cp.C.N : Int)),
        some (rnd.u3 + (rnd.uc - 0 * rnd.ub) * c), L.pe (rnd.uc • L.eff (sk • L.hb)),
        some ⟨L.pe (rnd.d1 • L.eff cm), L.pe (rnd.d2 • L.hb - rnd.d3 • L.eff (rnd.uc • L.hb - L.g)),
          some c, some ((c - rnd.d3) % (cp.C.N : Int)), some rnd.d3,
          some (rnd.d1 + (c - rnd.d3) % (cp.C.N : Int) * (sk % (cp.C.N : Int))), some rnd.d2⟩⟩,
        none) := by
  have hch : ∀ as, L.chal hash as = c := fun as => hc _
  simp only [newABCProof, L.H_pe, L.mult_pe, L.eff_h, Go.bind_ok, and_self, if_true, L.pedCommitR_pe,
    zero_smul, zero_add, L.G_pe, L.sub_pe,
    newDisjunctiveProof_left L hash cm tok L.h (rnd.uc • L.hb - L.g) sk rnd.d1 rnd.d2 rnd.d3 h,
    Option.isSome_none, Bool.false_eq_true, if_false, L.finishABC_pe _ _ _ _ _ _ _ _ _ _ _ hs, hch,
    leftProof]

/-- C87 for left proofs (value 0), what holds: with reduced responses they would be those of a
simulator that knows the statement and the public key only, for every draw.  Missing: the code does
not reduce the responses. -/
theorem C87_reduced_simulatable_left_partial (L : Lawful cp E) (hash : Bytes → Bytes) (c : Int)
    (hc : ∀ arr, generateChallenge hash cp arr = c) (cm tok : E) (ua sk : Int)
    (hcm : pedCommitR cp (some 0) (some ua) = .ok (L.pe cm)) (htok : tok = (ua * sk) • L.hb)
    (hsk : ¬ (cp.C.N : Int) ∣ sk) (o : L.MultOk cm) (o' : L.MultOk tok) :
    (drawsN 8 cp.C.N).map (fun u =>
      reduceABC cp.C.N (newABCProof hash cp (L.pe cm) (L.pe tok) 0 sk Left (abcRandOf u))) =
    (drawsN 8 cp.C.N).map (fun s =>
      simABCLeft cp (L.pe cm) (L.pe tok) (L.pe (sk • L.hb)) c s) := by
  have : NeZero cp.C.N := ⟨L.prime.ne_zero⟩
  obtain ⟨isk, hi, hi'⟩ := modInverse_some L.prime hsk
  rw [L.pedCommitR_pe, Go.ok.injEq, L.pe_inj, zero_smul, zero_add] at hcm
  rw [L.multOk_iff_eff] at o o'
  have hct : sk • cm = tok := by rw [htok, ← hcm, smul_smul, mul_comm]
  have hsame : L.same (sk • L.eff cm) tok = true := by rw [o, hct, L.same_self]
  let e : (Fin 8 → ZMod cp.C.N) ≃ (Fin 8 → ZMod cp.C.N) :=
    { toFun := fun u => ![u 0, u 1 + isk * c, u 2 + u 4 * c, u 3, u 4,
        u 5 + (c - u 7) * sk, u 6, u 7]
      invFun := fun s => ![s 0, s 1 - isk * c, s 2 - s 4 * c, s 3, s 4, s 5 - (c - s 7) * sk, s 6,
        s 7]
      left_inv := fun u => by funext i; fin_cases i <;> simp
      right_inv := fun u => by funext i; fin_cases i <;> simp }
  refine dist_eqN 8 cp.C.N _ _ e fun z => ?_
  have lt : ∀ i, ((z i).val : Int) % (cp.C.N : Int) = (z i).val := fun i =>
    Int.emod_eq_of_lt (by omega) (by exact_mod_cast ZMod.val_lt _)
  have s0 : e z 0 = z 0 := rfl
  have s3 : e z 3 = z 3 := rfl
  have s4 : e z 4 = z 4 := rfl
  have s6 : e z 6 = z 6 := rfl
  have s7 : e z 7 = z 7 := rfl
  have s1 : (((e z 1).val : Nat) : Int) = ((z 1).val + isk * c) % (cp.C.N : Int) :=
    val_eq_of_cast (by push_cast; rw [ZMod.natCast_zmod_val]; rfl)
  have s2 : (((e z 2).val : Nat) : Int) = ((z 2).val + (z 4).val * c) % (cp.C.N : Int) :=
    val_eq_of_cast (by push_cast; simp only [ZMod.natCast_zmod_val]; rfl)
  have s5 : (((e z 5).val : Nat) : Int) =
      ((z 5).val + (c - (z 7).val) % (cp.C.N : Int) * (sk % (cp.C.N : Int))) % (cp.C.N : Int) := by
    rw [add_mul_mod_emod, add_mod_mul_emod]
    exact val_eq_of_cast (by push_cast; simp only [ZMod.natCast_zmod_val]; rfl)
  rw [newABCProof_left' L hash cm tok sk isk _ hsame hi c hc]
  simp only [simABCLeft, L.H_pe, L.G_pe, L.mult_pe, L.eff_h, L.eff_g, L.commitR_pe,
    L.add_pe, L.sub_pe, Go.bind_ok, Go.pure_eq, reduceABC, Option.map_some, abcRandOf]
  have e1 : ((z 0).val : Int) • L.g + ((z 1).val : Int) • L.eff tok =
      ((z 0).val : Int) • L.g + (((z 1).val + isk * c) % (cp.C.N : Int)) • L.eff tok - c • cm := by
    have h1 : (isk * sk) • L.hb = L.hb := by rw [L.smul_congr hi', one_smul]
    have h2 : isk • tok = cm := by
      rw [htok, smul_smul, show isk * (ua * sk) = ua * (isk * sk) by ring, mul_smul, h1, hcm]
    rw [L.smul_mod, o']
    linear_combination (norm := module) (-c) • h2
  have e2 : ∀ x : E, ((z 0).val : Int) • x + ((z 2).val : Int) • L.hb =
      ((z 0).val : Int) • x + (((z 2).val + (z 4).val * c) % (cp.C.N : Int)) • L.hb -
        c • ((z 4).val : Int) • L.hb := by
    intro x
    rw [L.smul_mod]; module
  have e3 : ((z 5).val : Int) • L.eff cm =
      (((z 5).val + (c - (z 7).val) % (cp.C.N : Int) * (sk % (cp.C.N : Int))) % (cp.C.N : Int)) •
        L.eff cm - ((c - (z 7).val) % (cp.C.N : Int)) • L.eff tok := by
    rw [L.smul_mod, add_smul, mul_smul, L.smul_mod sk, o, o', hct]; abel
  simp only [s0, s1, s2, s3, s4, s5, s6, s7, ← e1, ← e2, ← e3, zero_mul, add_zero, sub_zero, lt]

example : pedCommitR Toy.params (some 0) (some 1) = .ok (Toy.lawful.pe 3) ∧
    (3 : ZMod 7) = ((1 : Int) * 1) • Toy.lawful.hb := by
  rw [Toy.lawful.pedCommitR_pe, Go.ok.injEq, Toy.lawful.pe_inj]; decide

end Zk.Proto
