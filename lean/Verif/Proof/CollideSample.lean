import Verif.Model.Collide
import Mathlib.Data.List.Sublists
import Mathlib.Data.List.Pairwise
import Mathlib.Data.List.Sort
import Mathlib.Data.List.Chain
import Mathlib.Data.List.Nodup
import Mathlib.Data.Nat.Choose.Basic
/-!
The samples of the collision tester: the sparse generator goes through all sets of up to 14 bits, the slab generator
does not repeat itself.
-/
namespace XXH.Proof.Collide
open XXH.Model XXH.Model.Collide
open Bench (Run)

/-! ### Sets of bits, as decreasing lists -/

/-- The smallest position above the elements of `p`. -/
def start : List ℕ → ℕ
  | [] => 0
  | y :: _ => y + 1

/-- The sets of `k` positions below `max` in the order of the generator. -/
def enumR : ℕ → ℕ → List (List ℕ)
  | 0, _ => [[]]
  | k+1, max => (enumR k (max - 1)).flatMap fun p => (List.range' (start p) (max - start p)).map (· :: p)

theorem start_le {p : List ℕ} {x : ℕ} (hp : p.Pairwise (· > ·)) : start p ≤ x ↔ ∀ y ∈ p, y < x := by
  cases p with
  | nil => simp [start]
  | cons y p =>
    simp only [start, List.mem_cons, forall_eq_or_imp, List.pairwise_cons] at *
    constructor
    · intro h; exact ⟨by omega, fun z hz => by have := hp.1 z hz; omega⟩
    · intro h; omega

theorem mem_enumR {k max : ℕ} {r : List ℕ} :
    r ∈ enumR k max ↔ r.length = k ∧ r.Pairwise (· > ·) ∧ ∀ x ∈ r, x < max := by
  induction k generalizing max r with
  | zero =>
    simp only [enumR, List.mem_singleton, List.length_eq_zero_iff]
    constructor
    · rintro rfl; simp
    · exact fun h => h.1
  | succ k ih =>
    simp only [enumR, List.mem_flatMap, List.mem_map, List.mem_range'_1, ih]
    constructor
    · rintro ⟨p, ⟨h1, h2, h3⟩, x, ⟨h4, h5⟩, rfl⟩
      have hx := (start_le h2).1 h4
      refine ⟨by simp [h1], List.pairwise_cons.2 ⟨hx, h2⟩, ?_⟩
      intro y hy
      rcases List.mem_cons.1 hy with rfl | hy
      · omega
      · have := hx y hy; omega
    · rintro ⟨h1, h2, h3⟩
      cases r with
      | nil => simp at h1
      | cons x p =>
        obtain ⟨h4, h5⟩ := List.pairwise_cons.1 h2
        have hx := h3 x (by simp)
        have hs := (start_le h5).2 h4
        refine ⟨p, ⟨by simpa using h1, h5, fun y hy => by have := h4 y hy; omega⟩, x, ⟨hs, by omega⟩, rfl⟩

theorem nodup_enumR (k max : ℕ) : (enumR k max).Nodup := by
  induction k generalizing max with
  | zero => simp [enumR]
  | succ k ih =>
    rw [enumR, List.nodup_flatMap]
    refine ⟨fun p _ => List.Nodup.map (fun a b h => by simpa using h) List.nodup_range', ?_⟩
    refine (ih (max - 1)).imp ?_
    intro p q hpq
    simp only [List.disjoint_left, List.mem_map, Function.onFun]
    rintro _ ⟨x, _, rfl⟩ ⟨y, _, h⟩
    exact hpq (by simpa using (List.cons.inj h).2.symm)

theorem length_enumR (k max : ℕ) : (enumR k max).length = max.choose k := by
  have h : (enumR k max).Perm ((List.sublistsLen k (List.range max)).map List.reverse) := by
    rw [List.perm_ext_iff_of_nodup (nodup_enumR k max)
      ((List.nodup_sublistsLen k List.nodup_range).map List.reverse_injective)]
    intro r
    rw [mem_enumR]
    simp only [List.mem_map, List.mem_sublistsLen]
    constructor
    · rintro ⟨h1, h2, h3⟩
      refine ⟨r.reverse, ⟨?_, by simpa using h1⟩, by simp⟩
      have hs : r.reverse.Pairwise (· < ·) := by rw [List.pairwise_reverse]; exact h2
      refine List.sublist_of_subperm_of_pairwise (r := (· < ·)) ?_ hs List.pairwise_lt_range
      refine (List.subperm_ext_iff.2 ?_)
      intro x hx
      have hnd : r.reverse.Nodup := hs.imp (fun h => Nat.ne_of_lt h)
      rw [List.count_eq_one_of_mem hnd hx]
      exact List.one_le_count_iff.2 (List.mem_range.2 (h3 x (by simpa using hx)))
    · rintro ⟨l, ⟨h1, h2⟩, rfl⟩
      refine ⟨by simpa using h2, ?_, ?_⟩
      · rw [List.pairwise_reverse]
        exact List.Pairwise.sublist h1 List.pairwise_lt_range
      · intro x hx
        exact List.mem_range.1 (h1.subset (by simpa using hx))
  rw [h.length_eq, List.length_map, List.length_sublistsLen, List.length_range]

/-- The set behind `r`. -/
def succR : ℕ → List ℕ → Option (List ℕ)
  | _, [] => none
  | max, x :: p => if x < max - 1 then some ((x + 1) :: p) else (succR (max - 1) p).map fun p' => start p' :: p'

/-- The list is what `f` goes through. -/
def Steps {α : Type} (f : α → Option α) : List α → Prop
  | [] => False
  | [a] => f a = none
  | a :: b :: l => f a = some b ∧ Steps f (b :: l)

theorem steps_append {α : Type} {f : α → Option α} {l : List α} {a b : α} {m : List α}
    (hl : List.IsChain (fun x y => f x = some y) (l ++ [a])) (hab : f a = some b) (hm : Steps f (b :: m)) :
    Steps f (l ++ [a] ++ b :: m) := by
  induction l with
  | nil => exact ⟨hab, hm⟩
  | cons x l ih =>
    cases l with
    | nil =>
      simp only [List.cons_append, List.nil_append, List.isChain_cons_cons] at hl
      exact ⟨hl.1, hab, hm⟩
    | cons y l =>
      simp only [List.cons_append, List.isChain_cons_cons] at hl
      exact ⟨hl.1, ih hl.2⟩

theorem steps_end {α : Type} {f : α → Option α} {l : List α} {a : α}
    (hl : List.IsChain (fun x y => f x = some y) (l ++ [a])) (ha : f a = none) : Steps f (l ++ [a]) := by
  induction l with
  | nil => exact ha
  | cons x l ih =>
    cases l with
    | nil =>
      simp only [List.cons_append, List.nil_append, List.isChain_cons_cons] at hl
      exact ⟨hl.1, ha⟩
    | cons y l =>
      simp only [List.cons_append, List.isChain_cons_cons] at hl
      exact ⟨hl.1, ih hl.2⟩

/-- The positions possible above `p`. -/
theorem block_eq {p : List ℕ} {max : ℕ} (h : start p < max) :
    (List.range' (start p) (max - start p)).map (· :: p) =
      (List.range' (start p) (max - 1 - start p)).map (· :: p) ++ [(max - 1) :: p] := by
  have : max - start p = (max - 1 - start p) + 1 := by omega
  rw [this, List.range'_concat, List.map_append]
  simp only [List.map_cons, List.map_nil, one_mul]
  congr 3
  omega

theorem block_chain {p : List ℕ} {max : ℕ} (h : start p < max) :
    List.IsChain (fun x y => succR max x = some y)
      ((List.range' (start p) (max - 1 - start p)).map (· :: p) ++ [(max - 1) :: p]) := by
  rw [← block_eq h]
  have key : ∀ n s, s + n ≤ max → List.IsChain (fun x y => succR max x = some y) ((List.range' s n).map (· :: p)) := by
    intro n
    induction n with
    | zero => intro s _; simp
    | succ n ih =>
      intro s hs
      cases n with
      | zero => simp
      | succ n =>
        have := ih (s + 1) (by omega)
        simp only [List.range'_succ, List.map_cons, List.isChain_cons_cons] at this ⊢
        refine ⟨?_, this⟩
        simp only [succR]
        rw [if_pos (by omega)]
  exact key _ _ (by omega)

theorem block_head {p : List ℕ} {max : ℕ} (h : start p < max) :
    ∃ l, (List.range' (start p) (max - 1 - start p)).map (· :: p) ++ [(max - 1) :: p] = (start p :: p) :: l := by
  rw [← block_eq h]
  have : max - start p = (max - start p - 1) + 1 := by omega
  rw [this, List.range'_succ]
  exact ⟨_, rfl⟩

theorem steps_enumR {k max : ℕ} (h : k ≤ max) : Steps (succR max) (enumR k max) := by
  induction k generalizing max with
  | zero => exact rfl
  | succ k ih =>
    have hs := ih (max := max - 1) (by omega)
    have hb : ∀ p ∈ enumR k (max - 1), start p < max := by
      intro p hp
      obtain ⟨_, h2, h3⟩ := mem_enumR.1 hp
      have := (start_le h2).2 h3
      omega
    rw [enumR]
    generalize enumR k (max - 1) = L at hs hb
    induction L with
    | nil => exact hs.elim
    | cons p L ihL =>
      have hp := hb p (by simp)
      cases L with
      | nil =>
        simp only [List.flatMap_cons, List.flatMap_nil, List.append_nil]
        rw [block_eq hp]
        refine steps_end (block_chain hp) ?_
        have : succR (max - 1) p = none := hs
        simp [succR, this]
      | cons q L =>
        obtain ⟨h1, h2⟩ := hs
        have := ihL h2 (fun r hr => hb r (by simp [List.mem_cons.1 hr]))
        simp only [List.flatMap_cons] at this ⊢
        have hq := hb q (by simp)
        rw [block_eq hp]
        rw [block_eq hq] at this ⊢
        obtain ⟨l, hl⟩ := block_head hq
        rw [hl] at this ⊢
        refine steps_append (block_chain hp) ?_ this
        simp [succR, h1]

/-- The first set of `k` positions. -/
def firstR : ℕ → List ℕ
  | 0 => []
  | k+1 => k :: firstR k

theorem start_firstR (k : ℕ) : start (firstR k) = k := by cases k <;> rfl

theorem head_enumR {k max : ℕ} (h : k ≤ max) : ∃ l, enumR k max = firstR k :: l := by
  induction k generalizing max with
  | zero => exact ⟨[], rfl⟩
  | succ k ih =>
    obtain ⟨l, hl⟩ := ih (max := max - 1) (by omega)
    rw [enumR, hl, List.flatMap_cons, block_eq (by rw [start_firstR]; omega)]
    obtain ⟨m, hm⟩ := block_head (p := firstR k) (max := max) (by rw [start_firstR]; omega)
    rw [hm, start_firstR]
    exact ⟨_, rfl⟩

/-! ### Flipped bits -/

/-- One bit flipped. -/
def flip (b : List Byte) (i : ℕ) : List Byte := b.modify (i / 8) (· ^^^ ((1 : Byte) <<< (i % 8)))

theorem flipbit_eq {b : List Byte} {i : ℕ} (h : i < 8 * b.length) : flipbit b i = some (flip b i) := by
  rw [flipbit, if_pos (by omega)]; rfl

@[simp] theorem length_flip (b : List Byte) (i : ℕ) : (flip b i).length = b.length := by simp [flip]

theorem flip_flip (b : List Byte) (i : ℕ) : flip (flip b i) i = b := by
  apply List.ext_getElem
  · simp
  · intro n h1 h2
    simp only [flip, List.getElem_modify]
    split <;> simp [BitVec.xor_assoc]

/-- The bits of `r` flipped. -/
def flips (base : List Byte) (r : List ℕ) : List Byte := r.foldr (fun i b => flip b i) base

@[simp] theorem length_flips (base : List Byte) (r : List ℕ) : (flips base r).length = base.length := by
  induction r with
  | nil => rfl
  | cons x r ih => simpa [flips] using ih

/-- A bit of a message. -/
def bitOf (b : List Byte) (i : ℕ) : Bool := (b.getD (i / 8) 0).getLsbD (i % 8)

theorem bitOf_flip {b : List Byte} {i j : ℕ} (hi : i < 8 * b.length) :
    bitOf (flip b i) j = (bitOf b j ^^ decide (i = j)) := by
  have hm : i % 8 < 8 := Nat.mod_lt _ (by norm_num)
  have hn : j % 8 < 8 := Nat.mod_lt _ (by norm_num)
  by_cases h : i / 8 = j / 8
  · have hj : j / 8 < b.length := by omega
    simp only [bitOf, flip, List.getD_eq_getElem?_getD, List.getElem?_modify, h, if_true,
      List.getElem?_eq_getElem hj, Option.map_eq_map, Option.map_some, Option.getD_some, BitVec.getLsbD_xor]
    congr 1
    have hbit : ∀ a < 8, ∀ c < 8, ((1 : BitVec 8) <<< a).getLsbD c = decide (a = c) := by decide
    rw [hbit _ hm _ hn]
    by_cases h2 : i % 8 = j % 8
    · have : i = j := by omega
      simp [this]
    · have : i ≠ j := by rintro rfl; exact h2 rfl
      simp [h2, this]
  · have : i ≠ j := by rintro rfl; exact h rfl
    simp only [bitOf, flip, List.getD_eq_getElem?_getD, List.getElem?_modify, h, if_false, this, decide_false,
      Bool.xor_false]
    congr 2
    cases b[j / 8]? <;> rfl

theorem bitOf_flips {base : List Byte} {r : List ℕ} {j : ℕ} (hn : r.Nodup) (hr : ∀ x ∈ r, x < 8 * base.length) :
    bitOf (flips base r) j = (bitOf base j ^^ decide (j ∈ r)) := by
  induction r with
  | nil => simp [flips]
  | cons x r ih =>
    obtain ⟨h1, h2⟩ := List.nodup_cons.1 hn
    have : flips base (x :: r) = flip (flips base r) x := rfl
    rw [this, bitOf_flip (by rw [length_flips]; exact hr x (by simp)), ih h2 (fun y hy => hr y (by simp [hy]))]
    rw [Bool.xor_assoc]
    congr 1
    by_cases h : x = j
    · subst h; simp [h1]
    · have h' : j ≠ x := fun hh => h hh.symm
      simp [h, h']

theorem flips_inj {base : List Byte} {r s : List ℕ} (hr : r.Pairwise (· > ·)) (hs : s.Pairwise (· > ·))
    (hr' : ∀ x ∈ r, x < 8 * base.length) (hs' : ∀ x ∈ s, x < 8 * base.length) (h : flips base r = flips base s) :
    r = s := by
  have hrn : r.Nodup := hr.imp (fun h => Nat.ne_of_gt h)
  have hsn : s.Nodup := hs.imp (fun h => Nat.ne_of_gt h)
  have hmem : ∀ j, j ∈ r ↔ j ∈ s := by
    intro j
    have := congrArg (bitOf · j) h
    simp only [bitOf_flips hrn hr', bitOf_flips hsn hs'] at this
    have := (Bool.xor_right_inj).1 this
    simpa using this
  exact ((List.perm_ext_iff_of_nodup hrn hsn).2 hmem).eq_of_pairwise
    (fun a b _ _ h1 h2 => absurd h1 (by omega)) hr hs

/-! ### The generator -/

/-- `bitIdx` holds the positions of `r`. -/
def Idx (b : List ℕ) : List ℕ → Prop
  | [] => True
  | x :: p => b[p.length + 1]? = some x ∧ Idx b p

theorem idx_set {b p : List ℕ} {j v : ℕ} (h : Idx b p) (hj : p.length < j) : Idx (b.set j v) p := by
  induction p with
  | nil => trivial
  | cons x p ih =>
    simp only [List.length_cons] at hj
    refine ⟨?_, ih h.2 (by omega)⟩
    rw [List.getElem?_set_ne (by omega)]
    exact h.1

/-- A set of positions below `max`. -/
def Below (max : ℕ) (r : List ℕ) : Prop := r.Pairwise (· > ·) ∧ ∀ x ∈ r, x < max

theorem succR_below {max : ℕ} {r r' : List ℕ} (hr : Below max r) (h : succR max r = some r') :
    Below max r' ∧ r'.length = r.length := by
  induction r generalizing max r' with
  | nil => simp [succR] at h
  | cons x p ih =>
    obtain ⟨h1, h2⟩ := List.pairwise_cons.1 hr.1
    have hx := hr.2 x (by simp)
    simp only [succR] at h
    split at h
    · simp only [Option.some.injEq] at h
      subst h
      refine ⟨⟨List.pairwise_cons.2 ⟨fun y hy => ?_, h2⟩, ?_⟩, by simp⟩
      · have := h1 y hy; omega
      · intro y hy
        rcases List.mem_cons.1 hy with rfl | hy
        · omega
        · exact hr.2 y (by simp [hy])
    · simp only [Option.map_eq_some_iff] at h
      obtain ⟨p', hp', rfl⟩ := h
      obtain ⟨⟨h3, h4⟩, h5⟩ := ih (max := max - 1) ⟨h2, fun y hy => by have := h1 y hy; omega⟩ hp'
      have hs := (start_le h3).1 (le_refl _)
      have hs' := (start_le h3).2 h4
      refine ⟨⟨List.pairwise_cons.2 ⟨hs, h3⟩, ?_⟩, by simp [h5]⟩
      intro y hy
      rcases List.mem_cons.1 hy with rfl | hy
      · omega
      · have := h4 y hy; omega

theorem updateBit_ok {base : List Byte} {max : ℕ} {r b : List ℕ} (hr : Below max r) (hb : max ≤ 8 * base.length)
    (hi : Idx b r) (hbl : b.length = 15) (hrl : r.length ≤ 14) :
    match succR max r with
    | some r' => ∃ b', updateBit (flips base r) b r.length max = some (flips base r', b', true) ∧ Idx b' r' ∧
        b'.length = 15
    | none => ∃ b', updateBit (flips base r) b r.length max = some (base, b', false) ∧ b'.length = 15 := by
  induction r generalizing max b with
  | nil => exact ⟨b, rfl, hbl⟩
  | cons x p ih =>
    obtain ⟨h1, h2⟩ := List.pairwise_cons.1 hr.1
    have hx := hr.2 x (by simp)
    have hp : Below (max - 1) p := ⟨h2, fun y hy => by have := h1 y hy; omega⟩
    simp only [List.length_cons] at hrl
    have hflip : flipbit (flips base (x :: p)) x = some (flips base p) := by
      rw [flipbit_eq (by rw [length_flips]; omega)]
      exact congrArg some (flip_flip _ _)
    have hm : (assert (0 < max) : Option Unit) = some () := by simp [assert]; omega
    simp only [List.length_cons, updateBit, hi.1, hflip, Option.bind_eq_bind, Option.bind_some, hm, succR]
    split
    · rename_i r' hr'
      split at hr'
      · rename_i hlt
        simp only [Option.some.injEq] at hr'
        subst hr'
        rw [if_pos hlt, flipbit_eq (by rw [length_flips]; omega)]
        refine ⟨b.set (p.length + 1) (x + 1), rfl, ⟨?_, idx_set hi.2 (by omega)⟩, by simpa using hbl⟩
        rw [List.getElem?_set_self (by omega)]
      · rename_i hlt
        simp only [Option.map_eq_some_iff] at hr'
        obtain ⟨p', hp', rfl⟩ := hr'
        have := ih hp (by omega) hi.2 hbl (by omega)
        rw [hp'] at this
        obtain ⟨b', hu, hi', hl'⟩ := this
        obtain ⟨hbel, hlen⟩ := succR_below hp hp'
        have hs := (start_le hbel.1).2 hbel.2
        rw [if_neg hlt, hu]
        simp only [Option.bind_some, if_true]
        cases p' with
        | nil =>
          have : p = [] := List.length_eq_zero_iff.1 (by simpa using hlen.symm)
          subst this
          simp [succR] at hp'
        | cons y q =>
          have hg : b'[p.length]? = some y := by rw [← hlen]; exact hi'.1
          rw [hg]
          simp only [Option.bind_some]
          simp only [start] at hs
          rw [flipbit_eq (by rw [length_flips]; omega)]
          refine ⟨b'.set (p.length + 1) (y + 1), rfl, ⟨?_, idx_set hi' (by omega)⟩, by simpa using hl'⟩
          rw [hlen, List.getElem?_set_self (by omega)]
          rfl
    · rename_i hr'
      split at hr'
      · exact absurd hr' (by simp)
      · rename_i hlt
        simp only [Option.map_eq_none_iff] at hr'
        have := ih hp (by omega) hi.2 hbl (by omega)
        rw [hr'] at this
        obtain ⟨b', hu, hl'⟩ := this
        rw [if_neg hlt, hu]
        exact ⟨b', rfl, hl'⟩

theorem firstR_length (k : ℕ) : (firstR k).length = k := by
  induction k with
  | zero => rfl
  | succ k ih => simp [firstR, ih]

theorem firstR_below (k : ℕ) : Below k (firstR k) := by
  induction k with
  | zero => exact ⟨List.Pairwise.nil, by simp [firstR]⟩
  | succ k ih =>
    refine ⟨List.pairwise_cons.2 ⟨fun y hy => ih.2 y hy, ih.1⟩, ?_⟩
    intro x hx
    rcases List.mem_cons.1 hx with rfl | hx
    · omega
    · have := ih.2 x hx; omega

theorem setBits_ok {base : List Byte} {n k : ℕ} {b : List ℕ} (hi : Idx b (firstR k)) (hbl : b.length = 15)
    (hn : k + n ≤ 14) (hb : k + n ≤ 8 * base.length) :
    ∃ b', setBits (flips base (firstR k)) b n (k + 1) = some (flips base (firstR (k + n)), b') ∧
      Idx b' (firstR (k + n)) ∧ b'.length = 15 := by
  induction n generalizing k b with
  | zero => exact ⟨b, rfl, hi, hbl⟩
  | succ n ih =>
    simp only [setBits, Nat.add_sub_cancel, Option.bind_eq_bind]
    rw [flipbit_eq (by rw [length_flips]; omega)]
    have hs : Idx (b.set (k + 1) k) (firstR (k + 1)) := by
      refine ⟨?_, idx_set hi (by rw [firstR_length]; omega)⟩
      rw [firstR_length, List.getElem?_set_self (by omega)]
    have := ih (k := k + 1) hs (by simpa using hbl) (by omega) (by omega)
    rw [show k + (n + 1) = k + 1 + n by omega]
    exact this

/-- The state in which the bits of `r` are flipped. -/
structure Rep (base : List Byte) (max : ℕ) (f : Factory) (r : List ℕ) : Prop where
  level : f.level = r.length
  max : f.maxBitIdx = max
  buffer : f.buffer = flips base r
  idx : Idx f.bitIdx r
  len : f.bitIdx.length = 15

/-- The set behind `r`, with one more position when there is none. -/
def next (max : ℕ) (r : List ℕ) : List ℕ := (succR max r).getD (firstR (r.length + 1))

theorem updateFactory_ok {base : List Byte} {max : ℕ} {f : Factory} {r : List ℕ} (hf : Rep base max f r)
    (hr : Below max r) (hb : max ≤ 8 * base.length) (hm : 14 ≤ max) (hl : (next max r).length ≤ 14) :
    ∃ f', updateFactory f = .done f' ∧ Rep base max f' (next max r) := by
  obtain ⟨buf, idx, lev, mx⟩ := f
  obtain ⟨h1, h2, h3, h4, h5⟩ := hf
  simp only at h1 h2 h3 h4 h5
  subst h1 h2 h3
  simp only [next] at hl ⊢
  have hrl : r.length ≤ 14 := by
    cases h : succR mx r with
    | none => rw [h] at hl; simp only [Option.getD_none, firstR_length] at hl; omega
    | some r' => rw [h] at hl; simp only [Option.getD_some] at hl; rw [(succR_below hr h).2] at hl; exact hl
  have hu := updateBit_ok (base := base) hr hb h4 h5 hrl
  cases h : succR mx r with
  | some r' =>
    rw [h] at hu
    obtain ⟨b', hu, hi, hbl⟩ := hu
    simp only [updateFactory, hu]
    exact ⟨_, rfl, ⟨(succR_below hr h).2.symm, rfl, rfl, hi, hbl⟩⟩
  | none =>
    rw [h] at hu hl
    obtain ⟨b', hu, hbl⟩ := hu
    simp only [Option.getD_none, firstR_length] at hl
    obtain ⟨b2, hs, hi2, hbl2⟩ := setBits_ok (base := base) (n := r.length + 1) (k := 0) (b := b') trivial hbl
      (by omega) (by omega)
    rw [Nat.zero_add, Nat.zero_add] at hs
    rw [Nat.zero_add] at hi2
    simp only [updateFactory, hu]
    refine ⟨⟨flips base (firstR (r.length + 1)), b2, r.length + 1, mx⟩, ?_, ⟨(firstR_length _).symm, rfl, rfl, hi2, hbl2⟩⟩
    have hc : check (r.length + 1 < SPARSE_LEVEL_MAX) = .done () := if_pos (by unfold SPARSE_LEVEL_MAX; omega)
    have hs' : setBits base b' (r.length + 1) 1 = some (flips base (firstR (r.length + 1)), b2) := hs
    show ((check (r.length + 1 < SPARSE_LEVEL_MAX)) >>= fun _ => Run.of (setBits base b' (r.length + 1) 1) >>= _) = _
    rw [hc, hs']
    rfl

/-- The buffers after the next calls. -/
inductive Gen : Factory → List (List Byte) → Prop
  | nil (f : Factory) : Gen f []
  | cons {f f' : Factory} {ms : List (List Byte)} : updateFactory f = .done f' → Gen f' ms → Gen f (f'.buffer :: ms)

theorem gen_of_chain {base : List Byte} {max : ℕ} (hb : max ≤ 8 * base.length) (hm : 14 ≤ max) {r : List ℕ}
    {l : List (List ℕ)} {f : Factory} (hf : Rep base max f r)
    (hc : List.IsChain (fun x y => next max x = y) (r :: l)) (hl : ∀ x ∈ r :: l, Below max x ∧ x.length ≤ 14) :
    Gen f (l.map (flips base)) := by
  induction l generalizing r f with
  | nil => exact Gen.nil f
  | cons s l ih =>
    simp only [List.isChain_cons_cons] at hc
    obtain ⟨f', hu, hr⟩ := updateFactory_ok hf (hl r (by simp)).1 hb hm
      (by rw [hc.1]; exact (hl s (by simp)).2)
    rw [hc.1] at hr
    rw [List.map_cons, ← hr.buffer]
    exact Gen.cons hu (ih hr hc.2 (fun x hx => hl x (List.mem_cons_of_mem _ hx)))

/-- All sets of up to `n` positions. -/
def sets (max n : ℕ) : List (List ℕ) := (List.range' 1 n).flatMap fun k => enumR k max

theorem length_sets (max n : ℕ) : (sets max n).length = ((List.range' 1 n).map fun k => max.choose k).sum := by
  simp only [sets, List.length_flatMap, length_enumR]

theorem chain_of_steps {max : ℕ} {L : List (List ℕ)} {m : List (List ℕ)} {k : ℕ} (hk : ∀ r ∈ L, r.length = k)
    (hL : Steps (succR max) L) (hm : List.IsChain (fun x y => next max x = y) (firstR (k + 1) :: m)) :
    List.IsChain (fun x y => next max x = y) (L ++ firstR (k + 1) :: m) := by
  induction L with
  | nil => exact hm
  | cons a L ih =>
    cases L with
    | nil =>
      simp only [List.cons_append, List.nil_append, List.isChain_cons_cons]
      refine ⟨?_, hm⟩
      have : succR max a = none := hL
      rw [next, this, Option.getD_none, hk a (by simp)]
    | cons b L =>
      simp only [List.cons_append, List.isChain_cons_cons] at ih ⊢
      refine ⟨?_, ih (fun r hr => hk r (List.mem_cons_of_mem _ hr)) hL.2⟩
      rw [next, hL.1]
      rfl

theorem chain_last {max : ℕ} {L : List (List ℕ)} (hL : Steps (succR max) L) :
    List.IsChain (fun x y => next max x = y) L := by
  induction L with
  | nil => exact hL.elim
  | cons a L ih =>
    cases L with
    | nil => simp
    | cons b L =>
      simp only [List.isChain_cons_cons] at ih ⊢
      exact ⟨by rw [next, hL.1]; rfl, ih hL.2⟩

theorem chain_sets {max n : ℕ} (h : n ≤ max) : List.IsChain (fun x y => next max x = y) ([] :: sets max n) := by
  have key : ∀ n s, s + n ≤ max → List.IsChain (fun x y => next max x = y)
      (enumR s max ++ (List.range' (s + 1) n).flatMap fun k => enumR k max) := by
    intro n
    induction n with
    | zero =>
      intro s hs
      simp only [List.range'_zero, List.flatMap_nil, List.append_nil]
      exact chain_last (steps_enumR (by omega))
    | succ n ih =>
      intro s hs
      have := ih (s + 1) (by omega)
      rw [List.range'_succ, List.flatMap_cons]
      obtain ⟨l, hl⟩ := head_enumR (k := s + 1) (max := max) (by omega)
      rw [hl, List.cons_append] at this ⊢
      exact chain_of_steps (fun r hr => (mem_enumR.1 hr).1) (steps_enumR (by omega)) this
  exact key n 0 (by omega)

theorem mem_sets {max n : ℕ} {r : List ℕ} (h : r ∈ sets max n) : Below max r ∧ r.length ≤ n := by
  simp only [sets, List.mem_flatMap, List.mem_range'_1] at h
  obtain ⟨k, hk, hr⟩ := h
  obtain ⟨h1, h2, h3⟩ := mem_enumR.1 hr
  exact ⟨⟨h2, h3⟩, by omega⟩

theorem nodup_sets (max n : ℕ) : (sets max n).Nodup := by
  rw [sets, List.nodup_flatMap]
  refine ⟨fun k _ => nodup_enumR k max, ?_⟩
  refine List.Pairwise.imp ?_ List.nodup_range'
  intro a b hab
  simp only [List.disjoint_left, Function.onFun]
  intro r h1 h2
  exact hab ((mem_enumR.1 h1).1.symm.trans (mem_enumR.1 h2).1)

/-- The messages of the tests. -/
def samples (base : List Byte) (n : ℕ) : List (List Byte) :=
  ((sets (8 * base.length) 14).take n).map (flips base)

theorem length_samples {base : List Byte} {n : ℕ}
    (hn : n ≤ ((List.range' 1 14).map fun k => (8 * base.length).choose k).sum) : (samples base n).length = n := by
  rw [samples, List.length_map, List.length_take, length_sets]
  omega

theorem samples_len {base : List Byte} {n : ℕ} : ∀ m ∈ samples base n, m.length = base.length := by
  intro m hm
  simp only [samples, List.mem_map] at hm
  obtain ⟨r, _, rfl⟩ := hm
  exact length_flips _ _

theorem nodup_samples (base : List Byte) (n : ℕ) : (samples base n).Nodup := by
  rw [samples]
  refine List.Nodup.map_on ?_ ((nodup_sets _ _).sublist (List.take_sublist _ _))
  intro r hr s hs h
  have hr := (mem_sets (List.mem_of_mem_take hr)).1
  have hs := (mem_sets (List.mem_of_mem_take hs)).1
  exact flips_inj hr.1 hs.1 hr.2 hs.2 h

theorem gen_samples {base : List Byte} {n : ℕ} {f : Factory} (hb : 14 ≤ 8 * base.length)
    (hf : Rep base (8 * base.length) f []) : Gen f (samples base n) := by
  refine gen_of_chain (le_refl _) hb hf ?_ ?_
  · have := chain_sets hb
    have h2 : ([] :: sets (8 * base.length) 14).take (n + 1) = [] :: (sets (8 * base.length) 14).take n := rfl
    rw [← h2]
    exact this.take _
  · intro x hx
    rcases List.mem_cons.1 hx with rfl | hx
    · exact ⟨⟨List.Pairwise.nil, by simp⟩, by simp⟩
    · exact mem_sets (List.mem_of_mem_take hx)

end XXH.Proof.Collide
