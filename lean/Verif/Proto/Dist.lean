import Verif.Proto.Toy
import Mathlib.Data.Multiset.Bind
import Mathlib.Data.Fintype.EquivFin
import Mathlib.Data.Fintype.Prod
import Mathlib.Algebra.Module.ZMod

/-!
# Uniform draws

A uniform draw from [0, N) is the multiset `range N`; two functions of draws have the same
distribution when their images with multiplicity agree.  Lemmas to reindex such images by
bijections given over `ZMod N`.
-/

namespace Zk.Proto

theorem range_eq_zmod (N : Nat) [NeZero N] :
    Multiset.range N = (Finset.univ : Finset (ZMod N)).val.map ZMod.val := by
  refine (Multiset.Nodup.ext (Multiset.nodup_range N) ?_).2 ?_
  · exact Multiset.Nodup.map (ZMod.val_injective N) Finset.univ.nodup
  · intro a
    simp only [Multiset.mem_range, Multiset.mem_map, Finset.mem_val, Finset.mem_univ, true_and]
    constructor
    · intro h; exact ⟨(a : ZMod N), ZMod.val_cast_of_lt h⟩
    · rintro ⟨z, rfl⟩; exact ZMod.val_lt z

theorem map_range {α : Type} (N : Nat) [NeZero N] (f : Nat → α) :
    (Multiset.range N).map f = (Finset.univ : Finset (ZMod N)).val.map fun z => f z.val := by
  rw [range_eq_zmod, Multiset.map_map]; rfl

/-- Two images of one draw agree if a bijection of the draws relates them. -/
theorem dist_eq₁ {α : Type} (N : Nat) [NeZero N] (f g : Nat → α) (e : ZMod N ≃ ZMod N)
    (h : ∀ z : ZMod N, f z.val = g (e z).val) :
    (Multiset.range N).map f = (Multiset.range N).map g := by
  rw [map_range, map_range]
  conv_rhs => rw [← Multiset.map_univ_val_equiv e, Multiset.map_map]
  exact Multiset.map_congr rfl fun z _ => h z

theorem product_zmod (N : Nat) [NeZero N] :
    Multiset.range N ×ˢ Multiset.range N =
      (Finset.univ : Finset (ZMod N × ZMod N)).val.map fun z => (z.1.val, z.2.val) := by
  have : (Finset.univ : Finset (ZMod N × ZMod N)).val =
      (Finset.univ : Finset (ZMod N)).val ×ˢ (Finset.univ : Finset (ZMod N)).val := rfl
  rw [this]
  refine (Multiset.Nodup.ext ?_ ?_).2 ?_
  · exact Multiset.Nodup.product (Multiset.nodup_range N) (Multiset.nodup_range N)
  · refine Multiset.Nodup.map ?_ (Multiset.Nodup.product Finset.univ.nodup Finset.univ.nodup)
    rintro ⟨a, b⟩ ⟨c, d⟩ h
    simp only [Prod.mk.injEq] at h
    exact Prod.ext (ZMod.val_injective N h.1) (ZMod.val_injective N h.2)
  · rintro ⟨a, b⟩
    simp only [Multiset.mem_product, Multiset.mem_range, Multiset.mem_map, Finset.mem_val,
      Finset.mem_univ, true_and, Prod.mk.injEq, Prod.exists, and_self]
    constructor
    · rintro ⟨h1, h2⟩
      exact ⟨a, b, ZMod.val_cast_of_lt h1, ZMod.val_cast_of_lt h2⟩
    · rintro ⟨x, y, rfl, rfl⟩; exact ⟨ZMod.val_lt x, ZMod.val_lt y⟩

theorem dist_eq₂ {α : Type} (N : Nat) [NeZero N] (f g : Nat × Nat → α)
    (e : ZMod N × ZMod N ≃ ZMod N × ZMod N)
    (h : ∀ z, f (z.1.val, z.2.val) = g ((e z).1.val, (e z).2.val)) :
    (Multiset.range N ×ˢ Multiset.range N).map f =
      (Multiset.range N ×ˢ Multiset.range N).map g := by
  rw [product_zmod, Multiset.map_map, Multiset.map_map]
  conv_rhs => rw [← Multiset.map_univ_val_equiv e, Multiset.map_map]
  exact Multiset.map_congr rfl fun z _ => h z

theorem product₃_zmod (N : Nat) [NeZero N] :
    Multiset.range N ×ˢ (Multiset.range N ×ˢ Multiset.range N) =
      (Finset.univ : Finset (ZMod N × ZMod N × ZMod N)).val.map
        fun z => (z.1.val, z.2.1.val, z.2.2.val) := by
  refine (Multiset.Nodup.ext ?_ ?_).2 ?_
  · exact Multiset.Nodup.product (Multiset.nodup_range N)
      (Multiset.Nodup.product (Multiset.nodup_range N) (Multiset.nodup_range N))
  · refine Multiset.Nodup.map ?_ Finset.univ.nodup
    rintro ⟨a, b, c⟩ ⟨a', b', c'⟩ h
    simp only [Prod.mk.injEq] at h
    rw [ZMod.val_injective N h.1, ZMod.val_injective N h.2.1, ZMod.val_injective N h.2.2]
  · rintro ⟨a, b, c⟩
    simp only [Multiset.mem_product, Multiset.mem_range, Multiset.mem_map, Finset.mem_val,
      Finset.mem_univ, true_and, Prod.mk.injEq, Prod.exists]
    constructor
    · rintro ⟨h1, h2, h3⟩
      exact ⟨a, b, c, ZMod.val_cast_of_lt h1, ZMod.val_cast_of_lt h2, ZMod.val_cast_of_lt h3⟩
    · rintro ⟨x, y, z, rfl, rfl, rfl⟩; exact ⟨ZMod.val_lt x, ZMod.val_lt y, ZMod.val_lt z⟩

theorem dist_eq₃ {α : Type} (N : Nat) [NeZero N] (f g : Nat × Nat × Nat → α)
    (e : ZMod N × ZMod N × ZMod N ≃ ZMod N × ZMod N × ZMod N)
    (h : ∀ z, f (z.1.val, z.2.1.val, z.2.2.val) =
      g ((e z).1.val, (e z).2.1.val, (e z).2.2.val)) :
    (Multiset.range N ×ˢ (Multiset.range N ×ˢ Multiset.range N)).map f =
      (Multiset.range N ×ˢ (Multiset.range N ×ˢ Multiset.range N)).map g := by
  rw [product₃_zmod, Multiset.map_map, Multiset.map_map]
  conv_rhs => rw [← Multiset.map_univ_val_equiv e, Multiset.map_map]
  exact Multiset.map_congr rfl fun z _ => h z

/-- The representative of a class, as an integer, is the reduction of any integer of the class. -/
theorem val_intCast (N : Nat) [NeZero N] (z : Int) : (((z : ZMod N).val : Nat) : Int) = z % N :=
  ZMod.val_intCast z

end Zk.Proto
