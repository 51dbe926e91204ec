import Verif.Proof.Alloc
import Verif.Props.Examples
/-!
Properties of state allocation: C29.
-/
namespace XXH.Props
open XXH.Model XXH.Model.Alloc XXH.Examples

/-- **C29.** `XXH_alignedMalloc`, every size, every alignment it accepts, every allocator: on failure `NULL` and no
effect; on success an aligned area of `s` bytes inside the new block, with at least one byte of the block before it
that holds the distance to the start of the block. -/
theorem C29_alignedMalloc {cfg : Cfg} {h : Heap} {s k : Nat} (hk : 3 ≤ k) (hk' : k ≤ 7) (hs : s ≠ 0)
    (hf : s + 2 ^ k < 2 ^ cfg.sizeBits) {r : Option Nat} (hr : Answer cfg h (s + 2 ^ k) r) (junk : Nat → Byte) :
    ∃ h' ptr, alignedMalloc cfg h s (2 ^ k) r junk = some (h', ptr) ∧
      match r with
      | none => h' = h ∧ ptr = 0
      | some base => ⟨base, s + 2 ^ k⟩ ∈ h'.blocks ∧ ptr % 2 ^ k = 0 ∧ base < ptr ∧
          ptr + s ≤ base + (s + 2 ^ k) ∧ (h'.mem (ptr - 1)).toNat = ptr - base := by
  cases r with
  | none => exact ⟨h, 0, AllocP.alignedMalloc_none hk hk' hs hf, rfl, rfl⟩
  | some base =>
    obtain ⟨ptr, m, e, p1, p2, p3, p4, _⟩ := AllocP.alignedMalloc_some (junk := junk) hk hk' hs hf hr
    exact ⟨_, ptr, e, by simp, p3, p1, by omega, p4⟩

/-- **C29.** `XXH3_createState` returns `NULL` and changes nothing if the allocator fails. -/
theorem C29_createState_null {cfg : Cfg} {L : Layout} (hL : L.Valid cfg) (h : Heap) (junk : Nat → Byte) :
    XXH3_createState cfg L h none junk = some (h, 0) := by
  have := AllocP.alignedMalloc_none (cfg := cfg) (h := h) (junk := junk) (k := 6) (by decide) (by decide) hL.pos hL.fits
  unfold XXH3_createState
  rw [show (64 : Nat) = 2 ^ 6 from rfl, this]
  rfl

/-- **C29.** Otherwise it returns the address of a 64-byte aligned state that lies entirely in one new block, with
`seed` and `extSecret` zero; memory outside the new block is untouched. -/
theorem C29_createState_some {cfg : Cfg} {L : Layout} (hL : L.Valid cfg) {h : Heap} {base : Nat}
    (hr : Answer cfg h (L.size + 64) (some base)) (junk : Nat → Byte) :
    ∃ h' ptr, XXH3_createState cfg L h (some base) junk = some (h', ptr) ∧ ptr ≠ 0 ∧ ptr % 64 = 0 ∧
      h'.blocks = ⟨base, L.size + 64⟩ :: h.blocks ∧
      (∀ a, ptr ≤ a → a < ptr + L.size → (Block.mk base (L.size + 64)).Has a) ∧
      (∀ i, i < 8 → h'.mem (ptr + L.seedOff + i) = 0) ∧
      (∀ i, i < L.ptrSize → h'.mem (ptr + L.extOff + i) = 0) ∧
      (∀ a, ¬ (Block.mk base (L.size + 64)).Has a → h'.mem a = h.mem a) := by
  obtain ⟨ptr, m, e, hl, f1, f2, f3⟩ := AllocP.createState_some (junk := junk) hL hr
  have h1 := hl.before
  have h2 := hl.inside
  exact ⟨_, ptr, e, by omega, hl.align, rfl,
    fun a h3 h4 => ⟨by show base ≤ a; omega, by show a < base + (L.size + 64); omega⟩, f1, f2, f3⟩

/-- **C29.** `XXH3_freeState(NULL)` does nothing and returns `XXH_OK`. -/
theorem C29_freeState_null (h : Heap) : XXH3_freeState h 0 = some (h, .ok) := rfl

/-- One step of a program that creates, uses and frees states. States are named by their position in the list of
live states. -/
inductive AllocOp where
  /-- `XXH3_createState`, the allocator answering `r` -/
  | create (r : Option Nat) (junk : Nat → Byte)
  /-- any library function writes a byte inside state `i` -/
  | write (i : Nat) (off : Nat) (x : Byte)
  /-- `XXH3_freeState` of state `i` -/
  | free (i : Nat)
  /-- `XXH3_freeState(NULL)` -/
  | freeNull

/-- Execute a program: the live states and the final heap; `none` is undefined behaviour. -/
def runAlloc (cfg : Cfg) (L : Layout) : Heap → List Nat → List AllocOp → Option (Heap × List Nat)
  | h, ps, [] => some (h, ps)
  | h, ps, .create r junk :: ops => do
    let (h, p) ← XXH3_createState cfg L h r junk
    runAlloc cfg L h (if p = 0 then ps else ps ++ [p]) ops
  | h, ps, .write i off x :: ops => do
    let h ← store h (ps.getD i 0 + off) x
    runAlloc cfg L h ps ops
  | h, ps, .free i :: ops => do
    let (h, _) ← XXH3_freeState h (ps.getD i 0)
    runAlloc cfg L h (ps.eraseIdx i) ops
  | h, ps, .freeNull :: ops => do
    let (h, _) ← XXH3_freeState h 0
    runAlloc cfg L h ps ops

/-- The program is correct: it uses and frees only live states and stays inside them; and the allocator's answers
are legal. The first argument are the blocks live before, the second the blocks of the live states. -/
inductive AllocLegal (cfg : Cfg) (L : Layout) : List Block → List Nat → List AllocOp → Prop where
  | nil {bl bases} : AllocLegal cfg L bl bases []
  | createNull {bl bases junk ops} : AllocLegal cfg L bl bases ops →
      AllocLegal cfg L bl bases (.create none junk :: ops)
  | create {bl bases base junk ops} : Answer cfg ⟨bl, junk⟩ (L.size + 64) (some base) →
      AllocLegal cfg L (⟨base, L.size + 64⟩ :: bl) (bases ++ [base]) ops →
      AllocLegal cfg L bl bases (.create (some base) junk :: ops)
  | write {bl bases i off x ops} : i < bases.length → off < L.size → AllocLegal cfg L bl bases ops →
      AllocLegal cfg L bl bases (.write i off x :: ops)
  | free {bl bases i ops} : i < bases.length →
      AllocLegal cfg L (bl.filter fun b => b.base != bases.getD i 0) (bases.eraseIdx i) ops →
      AllocLegal cfg L bl bases (.free i :: ops)
  | freeNull {bl bases ops} : AllocLegal cfg L bl bases ops → AllocLegal cfg L bl bases (.freeNull :: ops)


/-- The invariant: `zs` are the live states with their blocks, `B0` the blocks that existed before. -/
structure AllocInv (L : Layout) (B0 : List Block) (h : Heap) (zs : List (Nat × Nat)) : Prop where
  live : ∀ z ∈ zs, AllocP.Live L h z.1 z.2
  disj : zs.Pairwise fun x y => ∀ a, (Block.mk x.1 (L.size + 64)).Has a → ¬ (Block.mk y.1 (L.size + 64)).Has a
  mem : ∀ b, b ∈ h.blocks ↔ b ∈ B0 ∨ ∃ z ∈ zs, b = ⟨z.1, L.size + 64⟩
  old : ∀ b ∈ B0, ∀ z ∈ zs, b.base ≠ z.1

theorem pairwise_erase {α : Type} {R : α → α → Prop} (hs : ∀ x y, R x y → R y x) {l : List α} (h : l.Pairwise R)
    {i : Nat} (hi : i < l.length) {z : α} (hz : z ∈ l.eraseIdx i) : R l[i] z := by
  obtain ⟨j, hne, hj⟩ := List.mem_eraseIdx_iff_getElem?.mp hz
  obtain ⟨hjl, rfl⟩ := List.getElem?_eq_some_iff.mp hj
  rw [List.pairwise_iff_getElem] at h
  rcases Nat.lt_or_gt_of_ne hne with h' | h'
  · exact hs _ _ (h j i hjl hi h')
  · exact h i j hi hjl h'

theorem map_eraseIdx' {α β : Type} (f : α → β) : ∀ (l : List α) (i : Nat),
    (l.map f).eraseIdx i = (l.eraseIdx i).map f
  | [], _ => rfl
  | _ :: _, 0 => rfl
  | _ :: l, i + 1 => congrArg _ (map_eraseIdx' f l i)

theorem live_base_has {L : Layout} {h : Heap} {x y : Nat} (_ : AllocP.Live L h x y) :
    (Block.mk x (L.size + 64)).Has x := ⟨Nat.le_refl _, by show x < x + (L.size + 64); omega⟩

theorem runAlloc_inv {cfg : Cfg} {L : Layout} (hL : L.Valid cfg) {B0 : List Block} (h0 : ∀ b ∈ B0, 0 < b.size) :
    ∀ (ops : List AllocOp) (h : Heap) (zs : List (Nat × Nat)), AllocInv L B0 h zs →
      AllocLegal cfg L h.blocks (zs.map (·.1)) ops →
      ∃ h' zs', runAlloc cfg L h (zs.map (·.2)) ops = some (h', zs'.map (·.2)) ∧ AllocInv L B0 h' zs'
  | [], h, zs, hi, _ => ⟨h, zs, rfl, hi⟩
  | .create none junk :: ops, h, zs, hi, hlg => by
    cases hlg with
    | createNull hlg =>
      obtain ⟨h', zs', e, hi'⟩ := runAlloc_inv hL h0 ops h zs hi hlg
      refine ⟨h', zs', ?_, hi'⟩
      simp only [runAlloc, C29_createState_null hL, Option.bind_eq_bind, Option.bind_some, if_true]
      exact e
  | .create (some base) junk :: ops, h, zs, hi, hlg => by
    cases hlg with
    | create hans hlg =>
      have hans' : Answer cfg h (L.size + 64) (some base) := hans
      obtain ⟨ptr, m, e, hl, _, _, hm⟩ := AllocP.createState_some (junk := junk) hL hans'
      have hnew : ∀ z ∈ zs, ∀ a, (Block.mk z.1 (L.size + 64)).Has a → ¬ (Block.mk base (L.size + 64)).Has a :=
        fun z hz => hans'.2.2 _ (hi.live z hz).block
      have hi1 : AllocInv L B0 ⟨⟨base, L.size + 64⟩ :: h.blocks, m⟩ (zs ++ [(base, ptr)]) := by
        refine ⟨?_, ?_, ?_, ?_⟩
        · intro z hz
          rcases List.mem_append.mp hz with hz | hz
          · have hlz := hi.live z hz
            have b1 := hlz.before
            have b2 := hlz.inside
            refine ⟨List.mem_cons_of_mem _ hlz.block, hlz.base0, hlz.before, hlz.inside, hlz.align, ?_⟩
            show (m (z.2 - 1)).toNat = _
            rw [hm _ (hnew z hz _ ⟨by show z.1 ≤ _; omega, by show _ < z.1 + (L.size + 64); omega⟩)]
            exact hlz.byte
          · rw [List.mem_singleton] at hz; subst hz; exact hl
        · refine List.pairwise_append.mpr ⟨hi.disj, List.pairwise_singleton _ _, ?_⟩
          intro x hx y hy
          rw [List.mem_singleton] at hy; subst hy
          exact hnew x hx
        · intro b
          show b ∈ _ :: _ ↔ _
          rw [List.mem_cons, hi.mem b]
          constructor
          · rintro (h | h | ⟨z, hz, h⟩)
            · exact .inr ⟨_, List.mem_append_right _ (List.mem_singleton.mpr rfl), h⟩
            · exact .inl h
            · exact .inr ⟨z, List.mem_append_left _ hz, h⟩
          · rintro (h | ⟨z, hz, h⟩)
            · exact .inr (.inl h)
            · rcases List.mem_append.mp hz with hz | hz
              · exact .inr (.inr ⟨z, hz, h⟩)
              · rw [List.mem_singleton] at hz; subst hz; exact .inl h
        · intro b hb z hz
          rcases List.mem_append.mp hz with hz | hz
          · exact hi.old b hb z hz
          · rw [List.mem_singleton] at hz; subst hz
            intro hbe
            have hbe : b.base = base := hbe
            have hpos := h0 b hb
            exact hans'.2.2 b ((hi.mem b).mpr (.inl hb)) b.base ⟨Nat.le_refl _, by omega⟩
              ⟨by show base ≤ _; omega, by show _ < base + (L.size + 64); omega⟩
      obtain ⟨h', zs', e', hi'⟩ := runAlloc_inv hL h0 ops _ _ hi1 (by simpa using hlg)
      refine ⟨h', zs', ?_, hi'⟩
      have hp0 : ptr ≠ 0 := by have := hl.before; omega
      simp only [runAlloc, e, Option.bind_eq_bind, Option.bind_some, hp0, if_false]
      simpa using e'
  | .write i off x :: ops, h, zs, hi, hlg => by
    cases hlg with
    | write hilt hoff hlg =>
      have hilt : i < zs.length := by simpa using hilt
      have hget : (zs.map (·.2)).getD i 0 = zs[i].2 := by
        rw [List.getD_eq_getElem?_getD, List.getElem?_map, List.getElem?_eq_getElem hilt]; rfl
      have hlz := hi.live zs[i] (List.getElem_mem hilt)
      have b1 := hlz.before
      have b2 := hlz.inside
      have hin : (Block.mk zs[i].1 (L.size + 64)).Has (zs[i].2 + off) :=
        ⟨by show zs[i].1 ≤ _; omega, by show _ < zs[i].1 + (L.size + 64); omega⟩
      have hst := AllocP.store_eq hlz.block hin x
      have hi1 : AllocInv L B0 { h with mem := fun a' => if a' = zs[i].2 + off then x else h.mem a' } zs := by
        refine ⟨?_, hi.disj, hi.mem, hi.old⟩
        intro z hz
        have hlz' := hi.live z hz
        have c1 := hlz'.before
        have c2 := hlz'.inside
        refine ⟨hlz'.block, hlz'.base0, hlz'.before, hlz'.inside, hlz'.align, ?_⟩
        show (if z.2 - 1 = zs[i].2 + off then x else h.mem (z.2 - 1)).toNat = _
        rw [if_neg, hlz'.byte]
        intro heq
        obtain ⟨j, hj, rfl⟩ := List.mem_iff_getElem.mp hz
        have hinj : (Block.mk zs[j].1 (L.size + 64)).Has (zs[j].2 - 1) :=
          ⟨by show zs[j].1 ≤ _; omega, by show _ < zs[j].1 + (L.size + 64); omega⟩
        have hpw := List.pairwise_iff_getElem.mp hi.disj
        rcases Nat.lt_trichotomy i j with hij | hij | hij
        · exact hpw i j hilt hj hij _ hin (heq ▸ hinj)
        · subst hij; omega
        · exact hpw j i hj hilt hij _ hinj (heq ▸ hin)
      obtain ⟨h', zs', e', hi'⟩ := runAlloc_inv hL h0 ops _ _ hi1 hlg
      refine ⟨h', zs', ?_, hi'⟩
      simp only [runAlloc, hget, hst, Option.bind_eq_bind, Option.bind_some]
      exact e'
  | .free i :: ops, h, zs, hi, hlg => by
    cases hlg with
    | free hilt hlg =>
      have hilt : i < zs.length := by simpa using hilt
      have hget : (zs.map (·.2)).getD i 0 = zs[i].2 := by
        rw [List.getD_eq_getElem?_getD, List.getElem?_map, List.getElem?_eq_getElem hilt]; rfl
      have hget1 : (zs.map (·.1)).getD i 0 = zs[i].1 := by
        rw [List.getD_eq_getElem?_getD, List.getElem?_map, List.getElem?_eq_getElem hilt]; rfl
      have hlz := hi.live zs[i] (List.getElem_mem hilt)
      have hne : ∀ z ∈ zs.eraseIdx i, z.1 ≠ zs[i].1 := by
        intro z hz heq
        have hd := pairwise_erase (R := fun x y : Nat × Nat => ∀ a, (Block.mk x.1 (L.size + 64)).Has a →
          ¬ (Block.mk y.1 (L.size + 64)).Has a) (fun x y hxy a h1 h2 => hxy a h2 h1) hi.disj hilt hz
        refine hd zs[i].1 (live_base_has hlz) ?_
        rw [heq]; exact live_base_has hlz
      have hi1 : AllocInv L B0 { h with blocks := h.blocks.filter fun b => b.base != zs[i].1 } (zs.eraseIdx i) := by
        refine ⟨?_, ?_, ?_, ?_⟩
        · intro z hz
          have hl := hi.live z (List.mem_of_mem_eraseIdx hz)
          exact ⟨List.mem_filter.mpr ⟨hl.block, by simpa using hne z hz⟩, hl.base0, hl.before, hl.inside, hl.align,
            hl.byte⟩
        · exact hi.disj.sublist (List.eraseIdx_sublist zs i)
        · intro b
          show b ∈ List.filter _ _ ↔ _
          rw [List.mem_filter, hi.mem b]
          constructor
          · rintro ⟨h | ⟨z, hz, h⟩, hb⟩
            · exact .inl h
            · refine .inr ⟨z, ?_, h⟩
              obtain ⟨j, hj, rfl⟩ := List.mem_iff_getElem.mp hz
              refine List.mem_eraseIdx_iff_getElem?.mpr ⟨j, ?_, List.getElem?_eq_getElem hj⟩
              rintro rfl
              rw [h] at hb
              simp at hb
          · rintro (h | ⟨z, hz, h⟩)
            · exact ⟨.inl h, by simpa using hi.old b h _ (List.getElem_mem hilt)⟩
            · refine ⟨.inr ⟨z, List.mem_of_mem_eraseIdx hz, h⟩, ?_⟩
              rw [h]; simpa using hne z hz
        · exact fun b hb z hz => hi.old b hb z (List.mem_of_mem_eraseIdx hz)
      rw [hget1, map_eraseIdx'] at hlg
      obtain ⟨h', zs', e', hi'⟩ := runAlloc_inv hL h0 ops _ _ hi1 hlg
      refine ⟨h', zs', ?_, hi'⟩
      simp only [runAlloc, hget, AllocP.freeState_eq hlz, Option.bind_eq_bind, Option.bind_some, map_eraseIdx']
      exact e'
  | .freeNull :: ops, h, zs, hi, hlg => by
    cases hlg with
    | freeNull hlg =>
      obtain ⟨h', zs', e, hi'⟩ := runAlloc_inv hL h0 ops h zs hi hlg
      exact ⟨h', zs', by simp only [runAlloc, C29_freeState_null, Option.bind_eq_bind, Option.bind_some]; exact e, hi'⟩

/-- **C29.** Whatever the allocator answers and however creations, uses and frees of any number of states are
interleaved: nothing undefined happens (in particular `free` only ever receives what `malloc` returned); all
states that are live at the end are aligned and do not overlap each other's blocks; the live blocks at the end
are those of the beginning plus one for each state that was not freed. -/
theorem C29_histories {cfg : Cfg} {L : Layout} (hL : L.Valid cfg) {h : Heap} (h0 : ∀ b ∈ h.blocks, 0 < b.size)
    {ops : List AllocOp} (hlg : AllocLegal cfg L h.blocks [] ops) :
    ∃ (h' : Heap) (zs : List (Nat × Nat)), runAlloc cfg L h [] ops = some (h', zs.map Prod.snd) ∧
      (∀ z ∈ zs, z.2 % 64 = 0 ∧ z.1 < z.2 ∧ z.2 + L.size ≤ z.1 + (L.size + 64)) ∧
      (zs.Pairwise fun x y => ∀ a, (Block.mk x.1 (L.size + 64)).Has a → ¬ (Block.mk y.1 (L.size + 64)).Has a) ∧
      ∀ b, b ∈ h'.blocks ↔ b ∈ h.blocks ∨ ∃ z ∈ zs, b = ⟨z.1, L.size + 64⟩ := by
  obtain ⟨h', zs, e, hi⟩ := runAlloc_inv hL h0 ops h [] ⟨by simp, List.Pairwise.nil, by simp, by simp⟩ hlg
  exact ⟨h', zs, e, fun z hz => ⟨(hi.live z hz).align, (hi.live z hz).before, (hi.live z hz).inside⟩, hi.disj, hi.mem⟩

/-- **C29**, no leak: once every state has been freed the allocator holds exactly the blocks it held before. -/
theorem C29_no_leak {cfg : Cfg} {L : Layout} (hL : L.Valid cfg) {h h' : Heap} (h0 : ∀ b ∈ h.blocks, 0 < b.size)
    {ops : List AllocOp} (hlg : AllocLegal cfg L h.blocks [] ops) (he : runAlloc cfg L h [] ops = some (h', [])) :
    ∀ b, b ∈ h'.blocks ↔ b ∈ h.blocks := by
  obtain ⟨h2, zs, e, _, _, hm⟩ := C29_histories hL h0 hlg
  rw [he] at e
  simp only [Option.some.injEq, Prod.mk.injEq] at e
  obtain ⟨rfl, e⟩ := e
  have : zs = [] := by
    cases zs with
    | nil => rfl
    | cons z zs => simp at e
  subst this
  simpa using hm

/-- **C29**, `XXH32_createState`/`XXH64_createState` (no alignment): the block is handed back to the allocator, and
freeing `NULL` is accepted. -/
theorem C29_plain_create_free {cfg : Cfg} {h : Heap} {size base : Nat} (hr : Answer cfg h size (some base))
    (hs : 0 < size) (h0 : ∀ b ∈ h.blocks, 0 < b.size) (junk : Nat → Byte) :
    (XXH_createState h size (some base) junk).2 = base ∧
    ∃ h', XXH_freeState (XXH_createState h size (some base) junk).1 base = some (h', .ok) ∧ h'.blocks = h.blocks := by
  refine ⟨rfl, ?_⟩
  have hne : ∀ b ∈ h.blocks, b.base ≠ base := by
    intro b hb heq
    have := h0 b hb
    exact hr.2.2 b hb b.base ⟨Nat.le_refl _, by omega⟩ ⟨by show base ≤ _; omega, by show _ < base + size; omega⟩
  have hb0 : base ≠ 0 := by have := hr.1; omega
  refine ⟨{ (XXH_createState h size (some base) junk).1 with blocks := h.blocks }, ?_, rfl⟩
  have hf : List.filter (fun b : Block => b.base != base) (⟨base, size⟩ :: h.blocks) = h.blocks := by
    rw [List.filter_cons, if_neg (by simp)]
    exact List.filter_eq_self.mpr fun b hb => by simpa using hne b hb
  simp only [XXH_freeState, XXH_createState, malloc, free, hb0, if_false, List.any_cons, beq_self_eq_true, Bool.true_or,
    if_true, hf]
  rfl

theorem C29_plain_free_null (h : Heap) : XXH_freeState h 0 = some (h, .ok) := rfl

/-! ### The hypotheses can be met -/

/-- The layout on 64-bit platforms. -/
def layout64 : Layout := ⟨576, 552, 568, 8⟩

theorem layout64_valid : layout64.Valid x64 := by constructor <;> decide

/-- An allocator that returns addresses aligned to 16 only; two states, one freed. -/
def prog : List AllocOp :=
  [.create (some 0x10010) (fun _ => 7), .create none (fun _ => 7), .create (some 0x20030) (fun _ => 9),
   .write 0 0 0xff, .write 1 575 0xee, .free 0, .freeNull]

theorem prog_legal : AllocLegal x64 layout64 [] [] prog := by
  refine .create ⟨by decide, by decide, by simp⟩ (.createNull (.create ⟨by decide, by decide, ?_⟩ ?_))
  · intro b hb a h1 h2
    simp only [List.mem_singleton] at hb
    subst hb
    have h1 : 0x10010 ≤ a ∧ a < 0x10010 + (576 + 64) := h1
    have h2 : 0x20030 ≤ a ∧ a < 0x20030 + (576 + 64) := h2
    omega
  · exact .write (by decide) (by decide) (.write (by decide) (by decide) (.free (by decide) (.freeNull .nil)))

/-- The second state of `prog` is live at the end, at the next multiple of 64. -/
example : (runAlloc x64 layout64 ⟨[], fun _ => 0⟩ [] prog).map (·.2) = some [0x20040] := by decide +kernel

/-- Freed as well, nothing is left. -/
example (h' : Heap) (he : runAlloc x64 layout64 ⟨[], fun _ => 0⟩ [] (prog ++ [.free 0]) = some (h', [])) :
    ∀ b, b ∉ h'.blocks := fun b hb => by
  have hl : AllocLegal x64 layout64 [] [] (prog ++ [.free 0]) := by
    refine .create ⟨by decide, by decide, by simp⟩ (.createNull (.create ⟨by decide, by decide, ?_⟩ ?_))
    · intro b hb a h1 h2
      simp only [List.mem_singleton] at hb
      subst hb
      have h1 : 0x10010 ≤ a ∧ a < 0x10010 + (576 + 64) := h1
      have h2 : 0x20030 ≤ a ∧ a < 0x20030 + (576 + 64) := h2
      omega
    · exact .write (by decide) (by decide) (.write (by decide) (by decide) (.free (by decide) (.freeNull
        (.free (by decide) .nil))))
  exact List.not_mem_nil ((C29_no_leak layout64_valid (by simp) hl he b).mp hb)
example : (runAlloc x64 layout64 ⟨[], fun _ => 0⟩ [] (prog ++ [.free 0])).map (·.2) = some [] := by decide +kernel

/-! ### The theorems applied -/

/-- The block at 0x10010, with the state at the next multiple of 64. -/
example : ∃ h' ptr, XXH3_createState x64 layout64 ⟨[], fun _ => 0⟩ (some 0x10010) (fun _ => 7) = some (h', ptr) ∧ ptr % 64 = 0 ∧
    ∀ i, i < 8 → h'.mem (ptr + 552 + i) = 0 := by
  obtain ⟨h', ptr, h, -, h1, -, -, h2, -⟩ := C29_createState_some layout64_valid (h := ⟨[], fun _ => 0⟩) (base := 0x10010)
    ⟨by decide, by decide, by simp⟩ (fun _ => 7)
  exact ⟨h', ptr, h, h1, h2⟩

example : (XXH_createState ⟨[], fun _ => 0⟩ 48 (some 0x10010) (fun _ => 7)).2 = 0x10010 :=
  (C29_plain_create_free (cfg := x64) ⟨by decide, by decide, by simp⟩ (by decide) (by simp) _).1

end XXH.Props
