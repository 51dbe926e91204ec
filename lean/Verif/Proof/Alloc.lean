import Verif.Model.Alloc
/-!
Lemmas about the allocation model.
-/
namespace XXH.AllocP
open Model Model.Alloc

theorem any_has {h : Heap} {a : Nat} {b : Block} (hb : b ∈ h.blocks) (ha : b.Has a) :
    h.blocks.any (fun b => decide (b.Has a)) = true :=
  List.any_eq_true.mpr ⟨b, hb, decide_eq_true ha⟩

theorem store_eq {h : Heap} {a : Nat} {b : Block} (hb : b ∈ h.blocks) (ha : b.Has a) (x : Byte) :
    store h a x = some { h with mem := fun a' => if a' = a then x else h.mem a' } := by
  unfold store; rw [if_pos (any_has hb ha)]

theorem load_eq {h : Heap} {a : Nat} {b : Block} (hb : b ∈ h.blocks) (ha : b.Has a) :
    load h a = some (h.mem a) := by
  unfold load; rw [if_pos (any_has hb ha)]

theorem storeBytes_eq {b : Block} : ∀ (xs : List Byte) (h : Heap) (a : Nat), b ∈ h.blocks →
    b.base ≤ a → a + xs.length ≤ b.base + b.size →
    ∃ m, storeBytes h a xs = some ⟨h.blocks, m⟩ ∧
      (∀ a', (a' < a ∨ a + xs.length ≤ a') → m a' = h.mem a') ∧
      (∀ i, i < xs.length → m (a + i) = xs.getD i 0)
  | [], h, a, _, _, _ => ⟨h.mem, rfl, fun _ _ => rfl, fun i hi => absurd hi (Nat.not_lt_zero i)⟩
  | x :: xs, h, a, hb, h1, h2 => by
    rw [List.length_cons] at h2
    have hs := store_eq hb (show b.Has a from ⟨h1, by omega⟩) x
    obtain ⟨m, e, f1, f2⟩ := storeBytes_eq xs { h with mem := fun a' => if a' = a then x else h.mem a' } (a + 1) hb
      (by omega) (by omega)
    refine ⟨m, ?_, ?_, ?_⟩
    · simp only [storeBytes, hs, Option.bind_eq_bind, Option.bind_some]; exact e
    · intro a' ha'
      rw [List.length_cons] at ha'
      rw [f1 a' (by omega)]
      show (if a' = a then x else h.mem a') = _
      rw [if_neg (by omega)]
    · intro i hi
      cases i with
      | zero =>
        rw [f1 _ (by omega)]
        show (if a + 0 = a then x else h.mem (a + 0)) = _
        rw [if_pos (by omega)]; rfl
      | succ i =>
        rw [List.length_cons] at hi
        have := f2 i (by omega)
        rw [show a + (i + 1) = a + 1 + i by omega, this]; rfl

theorem and_mod {k x : Nat} : x &&& (2 ^ k - 1) = x % 2 ^ k := Nat.and_two_pow_sub_one_eq_mod x k

/-- The arithmetic of the alignment. -/
theorem offset_facts {align base : Nat} (ha : 0 < align) :
    let offset := align - base % align
    0 < offset ∧ offset ≤ align ∧ (base + offset) % align = 0 := by
  have h := Nat.mod_lt base ha
  refine ⟨by show 0 < _ - _; omega, by show _ - _ ≤ _; omega, ?_⟩
  show (base + (align - base % align)) % align = 0
  have e := Nat.div_add_mod base align
  rw [show base + (align - base % align) = align * (base / align) + align by omega]
  simp

/-- The result of a successful `XXH_alignedMalloc`. -/
theorem alignedMalloc_some {cfg : Cfg} {h : Heap} {s k base : Nat} {junk : Nat → Byte} (hk : 3 ≤ k) (hk' : k ≤ 7)
    (hs : s ≠ 0) (hf : s + 2 ^ k < 2 ^ cfg.sizeBits) (hr : Answer cfg h (s + 2 ^ k) (some base)) :
    ∃ ptr m, alignedMalloc cfg h s (2 ^ k) (some base) junk = some (⟨⟨base, s + 2 ^ k⟩ :: h.blocks, m⟩, ptr) ∧
      base < ptr ∧ ptr ≤ base + 2 ^ k ∧ ptr % 2 ^ k = 0 ∧ (m (ptr - 1)).toNat = ptr - base ∧
      (∀ a, ¬ (Block.mk base (s + 2 ^ k)).Has a → m a = h.mem a) := by
  have hp3 : 2 ^ 3 ≤ 2 ^ k := Nat.pow_le_pow_right (by decide) hk
  have hp7 : 2 ^ k ≤ 2 ^ 7 := Nat.pow_le_pow_right (by decide) hk'
  have hz : cfg.size (s + 2 ^ k) = s + 2 ^ k := Nat.mod_eq_of_lt hf
  have hb0 : base ≠ 0 := hr.1
  obtain ⟨o1, o2, o3⟩ := offset_facts (align := 2 ^ k) (base := base) (by omega)
  have hst := store_eq (h := (malloc h (s + 2 ^ k) (some base) junk).1)
    (a := base + (2 ^ k - base % 2 ^ k) - 1) (b := ⟨base, s + 2 ^ k⟩) (by simp [malloc])
    ⟨by show base ≤ _; omega, by show _ < base + (s + 2 ^ k); omega⟩ (BitVec.ofNat 8 (2 ^ k - base % 2 ^ k))
  refine ⟨base + (2 ^ k - base % 2 ^ k),
    fun a' => if a' = base + (2 ^ k - base % 2 ^ k) - 1 then BitVec.ofNat 8 (2 ^ k - base % 2 ^ k)
      else (malloc h (s + 2 ^ k) (some base) junk).1.mem a', ?_, by omega, by omega, o3, ?_, ?_⟩
  · have c1 : decide (2 ^ k ≤ 128 ∧ 8 ≤ 2 ^ k) = true := decide_eq_true ⟨by omega, by omega⟩
    have c2 : (2 ^ k % 2 ^ k == 0) = true := by rw [Nat.mod_self]; rfl
    have c3 : decide (s ≠ 0 ∧ s < s + 2 ^ k) = true := decide_eq_true ⟨hs, by omega⟩
    have c4 : ((base + (2 ^ k - base % 2 ^ k)) % 2 ^ k == 0) = true := by rw [o3]; rfl
    unfold alignedMalloc
    simp only [hz, c1, c2, c3, assert, if_true, Option.bind_eq_bind, Option.bind_some, and_mod]
    have e : malloc h (s + 2 ^ k) (some base) junk = ((malloc h (s + 2 ^ k) (some base) junk).1, base) := rfl
    rw [e]
    simp only [hb0, ne_eq, not_false_eq_true, if_true, c4, Option.bind_some, hst]
    rfl
  · simp only [if_true]
    rw [BitVec.toNat_ofNat, Nat.mod_eq_of_lt (by omega)]
    omega
  · intro a ha
    have h1 : a ≠ base + (2 ^ k - base % 2 ^ k) - 1 := by
      rintro rfl
      exact ha ⟨by show base ≤ _; omega, by show _ < base + (s + 2 ^ k); omega⟩
    simp only [h1, if_false, malloc, ha]

theorem alignedMalloc_none {cfg : Cfg} {h : Heap} {s k : Nat} {junk : Nat → Byte} (hk : 3 ≤ k) (hk' : k ≤ 7)
    (hs : s ≠ 0) (hf : s + 2 ^ k < 2 ^ cfg.sizeBits) :
    alignedMalloc cfg h s (2 ^ k) none junk = some (h, 0) := by
  have hp3 : 2 ^ 3 ≤ 2 ^ k := Nat.pow_le_pow_right (by decide) hk
  have hp7 : 2 ^ k ≤ 2 ^ 7 := Nat.pow_le_pow_right (by decide) hk'
  have hz : cfg.size (s + 2 ^ k) = s + 2 ^ k := Nat.mod_eq_of_lt hf
  have hand : (2 ^ k &&& (2 ^ k - 1)) = 0 := by rw [and_mod, Nat.mod_self]
  have c1 : decide (2 ^ k ≤ 128 ∧ 8 ≤ 2 ^ k) = true := decide_eq_true ⟨by omega, by omega⟩
  have c2 : ((2 ^ k &&& (2 ^ k - 1)) == 0) = true := by rw [hand]; rfl
  have c3 : decide (s ≠ 0 ∧ s < s + 2 ^ k) = true := decide_eq_true ⟨hs, by omega⟩
  unfold alignedMalloc
  simp only [hz, c1, c2, c3, assert, if_true, Option.bind_eq_bind, Option.bind_some, malloc]
  rfl

/-- What remains true of a state between `XXH3_createState` and `XXH3_freeState`: it lies in a live block, aligned,
and the byte before it says how far the block starts before it. -/
structure Live (L : Layout) (h : Heap) (base ptr : Nat) : Prop where
  block : ⟨base, L.size + 64⟩ ∈ h.blocks
  base0 : base ≠ 0
  before : base < ptr
  inside : ptr + L.size ≤ base + (L.size + 64)
  align : ptr % 64 = 0
  byte : (h.mem (ptr - 1)).toNat = ptr - base

theorem createState_some {cfg : Cfg} {L : Layout} (hL : L.Valid cfg) {h : Heap} {base : Nat} {junk : Nat → Byte}
    (hr : Answer cfg h (L.size + 64) (some base)) :
    ∃ ptr m, XXH3_createState cfg L h (some base) junk = some (⟨⟨base, L.size + 64⟩ :: h.blocks, m⟩, ptr) ∧
      Live L ⟨⟨base, L.size + 64⟩ :: h.blocks, m⟩ base ptr ∧
      (∀ i, i < 8 → m (ptr + L.seedOff + i) = 0) ∧ (∀ i, i < L.ptrSize → m (ptr + L.extOff + i) = 0) ∧
      (∀ a, ¬ (Block.mk base (L.size + 64)).Has a → m a = h.mem a) := by
  obtain ⟨ptr, m, e, p1, p2, p3, p4, p5⟩ := alignedMalloc_some (k := 6) (junk := junk) (by decide) (by decide)
    hL.pos hL.fits hr
  have l1 := hL.seed
  have l2 := hL.ext
  simp only [show (2:Nat) ^ 6 = 64 from rfl] at *
  obtain ⟨m1, e1, f1, f1'⟩ := storeBytes_eq (b := ⟨base, L.size + 64⟩) (List.replicate 8 0)
    ⟨⟨base, L.size + 64⟩ :: h.blocks, m⟩ (ptr + L.seedOff) (by simp) (by show base ≤ _; omega)
    (by rw [List.length_replicate]; show _ ≤ base + (L.size + 64); omega)
  obtain ⟨m2, e2, f2, f2'⟩ := storeBytes_eq (b := ⟨base, L.size + 64⟩) (List.replicate L.ptrSize 0)
    ⟨⟨base, L.size + 64⟩ :: h.blocks, m1⟩ (ptr + L.extOff) (by simp) (by show base ≤ _; omega)
    (by rw [List.length_replicate]; show _ ≤ base + (L.size + 64); omega)
  rw [List.length_replicate] at f1 f1' f2 f2'
  have g0 : ∀ n i, (List.replicate n (0 : Byte)).getD i 0 = 0 := by
    intro n i
    rw [List.getD_eq_getElem?_getD, List.getElem?_replicate]
    split <;> rfl
  refine ⟨ptr, m2, ?_, ⟨by simp, hr.1, p1, by omega, p3, ?_⟩, ?_, ?_, ?_⟩
  · unfold XXH3_createState
    rw [e]
    simp only [Option.bind_eq_bind, Option.bind_some]
    rw [if_neg (by omega)]
    simp only [e1, e2, Option.bind_some]
    rfl
  · show (m2 (ptr - 1)).toNat = _
    rw [f2 _ (by omega)]
    show (m1 (ptr - 1)).toNat = _
    rw [f1 _ (by omega)]
    exact p4
  · intro i hi
    rw [f2 _ (by omega)]
    show m1 _ = 0
    rw [f1' i hi, g0]
  · intro i hi
    rw [f2' i hi, g0]
  · intro a ha
    have ha' : ¬ (base ≤ a ∧ a < base + (L.size + 64)) := ha
    rw [f2 _ (by omega)]
    show m1 _ = _
    rw [f1 _ (by omega)]
    exact p5 a ha

theorem freeState_eq {L : Layout} {h : Heap} {base ptr : Nat} (hl : Live L h base ptr) :
    XXH3_freeState h ptr = some ({ h with blocks := h.blocks.filter fun b => b.base != base }, .ok) := by
  have h1 := hl.before
  have h2 := hl.inside
  have hload := load_eq hl.block (a := ptr - 1) ⟨by show base ≤ _; omega, by show _ < base + (L.size + 64); omega⟩
  have hany : h.blocks.any (fun b => b.base == base) = true :=
    List.any_eq_true.mpr ⟨_, hl.block, by simp⟩
  unfold XXH3_freeState alignedFree
  rw [if_pos (by omega), hload]
  simp only [Option.bind_eq_bind, Option.bind_some, hl.byte]
  rw [show ptr - (ptr - base) = base by omega]
  unfold free
  rw [if_neg hl.base0, if_pos hany]
  rfl

end XXH.AllocP
