import Verif.Spec.Basic
import Mathlib.SetTheory.Cardinal.Finite
import Mathlib.Data.Fintype.BigOperators
import Mathlib.Data.BitVec
/-!
Counting: a function that is injective in `n` consecutive bytes and has `256^n` values takes each of them
equally often.
-/
namespace XXH.Uniform

/-- Byte strings of a given length. -/
abbrev Bytes (n : Nat) := {l : List Byte // l.length = n}

theorem card_bitvec (w : Nat) : Nat.card (BitVec w) = 2^w := by
  rw [Nat.card_congr (BitVec.equivFin (m := w)).toEquiv, Nat.card_eq_fintype_card, Fintype.card_fin]

instance finite_bitvec (w : Nat) : Finite (BitVec w) := Finite.of_equiv _ (BitVec.equivFin (m := w)).toEquiv.symm

noncomputable instance fintype_byte : Fintype Byte := Fintype.ofFinite _

theorem card_bytes (n : Nat) : Nat.card (Bytes n) = 256^n := by
  have h : Nat.card (List.Vector Byte n) = 256^n := by
    rw [Nat.card_eq_fintype_card, card_vector, ← Nat.card_eq_fintype_card, card_bitvec, show (2^8 : Nat) = 256 from rfl]
  exact h

instance finite_bytes (n : Nat) : Finite (Bytes n) := Nat.finite_of_card_ne_zero (by
  rw [card_bytes]; exact Nat.pos_iff_ne_zero.mp (Nat.pow_pos (by decide)))

theorem bijective_of_injective {V : Type} [Finite V] {n : Nat} (hV : Nat.card V = 256^n) {g : Bytes n → V}
    (h : Function.Injective g) : Function.Bijective g :=
  h.bijective_of_nat_card_le (by rw [hV, card_bytes])

/-- The two ends of a message whose value is `v`. -/
def ends {V : Type} {a n m : Nat} (f : List Byte → V) (v : V)
    (x : {x : List Byte // x.length = a + n + m ∧ f x = v}) : Bytes a × Bytes m :=
  (⟨x.val.take a, by rw [List.length_take, x.property.1]; omega⟩,
   ⟨x.val.drop (a+n), by rw [List.length_drop, x.property.1]; omega⟩)

theorem balanced {V : Type} [Finite V] {a n m : Nat} (hV : Nat.card V = 256^n) (f : List Byte → V)
    (hf : ∀ u w w' z : List Byte, u.length = a → w.length = n → w'.length = n → z.length = m → 
      f (u ++ w ++ z) = f (u ++ w' ++ z) → w = w') (v : V) :
    Nat.card {x : List Byte // x.length = a + n + m ∧ f x = v} = 256^(a+m) := by
  rw [Nat.card_eq_of_bijective (ends (a := a) (n := n) (m := m) f v), Nat.card_prod, card_bytes, card_bytes,
    Nat.pow_add]
  have split : ∀ z : List Byte, z = z.take a ++ (z.drop a).take n ++ z.drop (a+n) := by
    intro z
    rw [List.append_assoc, ← List.drop_drop, List.take_append_drop, List.take_append_drop]
  constructor
  · rintro ⟨x, hx, hvx⟩ ⟨y, hy, hvy⟩ he
    simp only [ends, Prod.mk.injEq, Subtype.mk.injEq] at he
    apply Subtype.ext
    show x = y
    have hxs := split x
    have hys := split y
    have hm : (x.drop a).take n = (y.drop a).take n := by
      refine hf (x.take a) _ _ (x.drop (a+n)) ?_ ?_ ?_ ?_ ?_
      · rw [List.length_take]; omega
      · rw [List.length_take, List.length_drop]; omega
      · rw [List.length_take, List.length_drop]; omega
      · rw [List.length_drop]; omega
      · rw [← hxs, he.1, he.2, ← hys, hvx, hvy]
    rw [hxs, hys, hm, he.1, he.2]
  · rintro ⟨⟨u, hu⟩, ⟨z, hz⟩⟩
    have hinj : Function.Injective fun w : Bytes n => f (u ++ w.val ++ z) := fun w w' h =>
      Subtype.ext (hf u w.val w'.val z hu w.property w'.property hz h)
    obtain ⟨w, hw⟩ := (bijective_of_injective hV hinj).2 v
    refine ⟨⟨u ++ w.val ++ z, by rw [List.length_append, List.length_append, hu, w.property, hz], hw⟩, ?_⟩
    simp only [ends, Prod.mk.injEq, Subtype.mk.injEq]
    constructor
    · rw [List.append_assoc, ← hu, List.take_left']
      rfl
    · rw [List.drop_left']
      rw [List.length_append, hu, w.property]
end XXH.Uniform
