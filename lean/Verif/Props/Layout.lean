import Verif.Proof.Layout
import Verif.Props.XXH3Stream
/-!
**C61.** The state objects as bytes: the structs are laid out as the code assumes, for every ABI considered, and the functions
that treat a state as raw memory (`memset` over a range of members, `memcpy` of the object) have the effect on the members that
the models of the streaming functions give them.
-/
namespace XXH.Examples
open Model.Layout

/-- x86-64 System V. -/
def lp64 : Abi := ⟨8, 8, 4, 8, 8, 8, true⟩
/-- i386 System V: 64-bit integers in structs are aligned to 4. -/
def ia32 : Abi := ⟨4, 4, 4, 4, 4, 4, true⟩
/-- 32-bit ARM. -/
def arm32 : Abi := ⟨4, 4, 4, 8, 4, 4, true⟩
/-- An 8-bit target with a compiler that cannot align. -/
def avr : Abi := ⟨2, 2, 1, 1, 1, 1, false⟩
/-- 128-bit capabilities as pointers. -/
def cheri : Abi := ⟨8, 16, 4, 8, 8, 16, true⟩

theorem lp64_valid : lp64.Valid := by constructor <;> decide
theorem ia32_valid : ia32.Valid := by constructor <;> decide
theorem arm32_valid : arm32.Valid := by constructor <;> decide
theorem avr_valid : avr.Valid := by constructor <;> decide
theorem cheri_valid : cheri.Valid := by constructor <;> decide

end XXH.Examples

namespace XXH.Props
open Model Model.Layout Examples
open LayoutP

/-- **C61.** The members of `XXH3_state_t` the vector code works on are where it expects them, multiples of 64 from the start of
the state; this holds also where the compiler cannot be told to align. -/
theorem C61_offsets {abi : Abi} (hv : abi.Valid) :
    offsetof abi .acc = 0 ∧ offsetof abi .customSecret = 64 ∧ offsetof abi .buffer = 256 ∧ offsetof abi .bufferedSize = 512 ∧
      offsetof abi .useSeed = 516 ∧ offsetof abi .nbStripesSoFar = 520 := by
  obtain ⟨o0, o1, o2, o3, o4, o5, -⟩ := offs hv
  exact ⟨o0, o1, o2, o3, o4, o5⟩

/-- The offsets of all members, and the size, for five targets. -/
example : [lp64, ia32, arm32, avr, cheri].map (fun a => (offsets 0 (members3 a), sizeof (members3 a))) =
    [([0, 64, 256, 512, 516, 520, 528, 536, 544, 552, 560, 568], 576),
      ([0, 64, 256, 512, 516, 520, 524, 532, 536, 540, 548, 556], 576),
      ([0, 64, 256, 512, 516, 520, 528, 536, 540, 544, 552, 560], 576),
      ([0, 64, 256, 512, 516, 520, 522, 530, 532, 534, 542, 550], 552),
      ([0, 64, 256, 512, 516, 520, 528, 536, 544, 552, 560, 576], 640)] := by
  decide +kernel

example : offsetof avr .customSecret = 64 := (C61_offsets avr_valid).2.1

/-- Members do not overlap: each ends before every later one starts. -/
theorem C61_disjoint {abi : Abi} (hv : abi.Valid) {f g : F3} (h : f.index < g.index) :
    offsetof abi f + sizeofMember abi f ≤ offsetof abi g := by
  obtain ⟨o0, o1, o2, o3, o4, o5, o6, o7, o8, o9, o10, o11, o12⟩ := offs hv
  have e : ∀ f : F3, sizeofMember abi f = match f with
      | .acc => 64 | .customSecret => 192 | .buffer => 256 | .bufferedSize => 4 | .useSeed => 4 | .nbStripesSoFar => abi.sizeT
      | .totalLen => 8 | .nbStripesPerBlock => abi.sizeT | .secretLimit => abi.sizeT | .seed => 8 | .reserved64 => 8
      | .extSecret => abi.ptr := by
    intro f
    cases hx : abi.xxhAlign <;> cases f <;>
      simp [sizeofMember, members3, F3.index, Abi.align64Member, hx, Member.array, Abi.u32, Abi.u64, Abi.size]
  rw [e]
  cases f <;> cases g <;> simp only [F3.index] at h <;> first | omega | (simp only; omega)

example : offsetof ia32 .totalLen + 8 ≤ offsetof ia32 .secretLimit := C61_disjoint ia32_valid (f := .totalLen) (by decide)

/-- All members lie in the object. -/
theorem C61_inside {abi : Abi} (hv : abi.Valid) (f : F3) : offsetof abi f + sizeofMember abi f ≤ sizeof (members3 abi) := by
  by_cases h : f = .extSecret
  · subst h
    exact (offs hv).size
  · have h1 := C61_disjoint hv (f := f) (g := .extSecret) (by revert h; cases f <;> decide)
    have h2 := (offs hv).size
    omega

example : offsetof cheri .extSecret + 16 ≤ 640 := C61_inside cheri_valid .extSecret

/-- Every member is aligned as its type asks for, relative to the start of the state. -/
theorem C61_aligned (abi : Abi) (f : F3) :
    offsetof abi f % ((members3 abi).map Member.align).getD f.index 1 = 0 := by
  cases f <;> exact roundUp_mod _ _

example : offsetof arm32 .totalLen % 8 = 0 := C61_aligned arm32 .totalLen

/-- With `XXH_ALIGN` the size of a state is a multiple of 64, so all the states of an array are aligned if the first one is. -/
theorem C61_array {abi : Abi} (hv : abi.Valid) (hx : abi.xxhAlign = true) :
    alignof (members3 abi) = 64 ∧ sizeof (members3 abi) % 64 = 0 ∧
      ∀ addr i : Nat, addr % 64 = 0 → (addr + i * sizeof (members3 abi)) % 64 = 0 := by
  have h : alignof (members3 abi) = 64 := by
    have c1 := le4 hv.align32
    have c2 := le8 hv.align64
    have c3 := le8 hv.alignT.1
    have c4 := le16 hv.alignPtr.1
    simp only [alignof, members3, List.foldr_cons, List.foldr_nil, Abi.align64Member, hx, if_true, Abi.u32, Abi.u64, Abi.size]
    omega
  have h' : sizeof (members3 abi) % 64 = 0 := by
    have := roundUp_mod (stop 0 (members3 abi)) (alignof (members3 abi))
    rw [h] at this
    unfold sizeof
    rw [h]
    exact this
  refine ⟨h, h', fun addr i ha => ?_⟩
  rw [Nat.add_mod, Nat.mul_mod, ha, h']
  simp

example : (0x10000 + 3 * sizeof (members3 cheri)) % 64 = 0 := (C61_array cheri_valid rfl).2.2 0x10000 3 (by decide)

/-- Without `XXH_ALIGN` that is not so: 552 bytes. -/
example : sizeof (members3 avr) % 64 = 40 := by decide +kernel

/-- The size of a state, where pointers are at most 64 bits: 576 bytes. -/
theorem C61_size {abi : Abi} (hv : abi.Valid) (hx : abi.xxhAlign = true) (hp : abi.ptr ≤ 8) : sizeof (members3 abi) = 576 := by
  obtain ⟨o0, o1, o2, o3, o4, o5, o6, o7, o8, o9, o10, o11, o12⟩ := offs hv
  obtain ⟨p64, d64⟩ := dvd8 hv.align64
  obtain ⟨pT, dT⟩ := dvd8 hv.alignT.1
  obtain ⟨pP, dP⟩ := dvd8 (a := abi.alignPtr) (by
    have h1 := hv.alignPtr
    simp only [List.mem_cons, List.not_mem_nil, or_false] at h1 ⊢
    omega)
  have hT : abi.sizeT ≤ 8 := by
    have := hv.sizeT
    simp only [List.mem_cons, List.not_mem_nil, or_false] at this
    omega
  have h1 : offsetof abi .totalLen ≤ 528 := by
    refine roundUp_le (n := offsetof abi .nbStripesSoFar + abi.sizeT) p64 ?_ (Dvd.dvd.trans d64 (by decide))
    omega
  have h2 : offsetof abi .nbStripesPerBlock ≤ 536 := by
    refine roundUp_le (n := offsetof abi .totalLen + 8) pT ?_ (Dvd.dvd.trans dT (by decide))
    omega
  have h3 : offsetof abi .secretLimit ≤ 544 := by
    refine roundUp_le (n := offsetof abi .nbStripesPerBlock + abi.sizeT) pT ?_ (Dvd.dvd.trans dT (by decide))
    omega
  have h4 : offsetof abi .seed ≤ 552 := by
    refine roundUp_le (n := offsetof abi .secretLimit + abi.sizeT) p64 ?_ (Dvd.dvd.trans d64 (by decide))
    omega
  have h5 : offsetof abi .reserved64 ≤ 560 := by
    refine roundUp_le (n := offsetof abi .seed + 8) p64 ?_ (Dvd.dvd.trans d64 (by decide))
    omega
  have h6 : offsetof abi .extSecret ≤ 568 := by
    refine roundUp_le (n := offsetof abi .reserved64 + 8) pP ?_ (Dvd.dvd.trans dP (by decide))
    omega
  obtain ⟨ha, hm, -⟩ := C61_array hv hx
  have h7 : sizeof (members3 abi) ≤ 576 := by
    refine roundUp_le (n := offsetof abi .extSecret + abi.ptr) (alignof_pos _) ?_ (by rw [ha]; decide)
    omega
  omega

example : sizeof (members3 ia32) = 576 := C61_size ia32_valid rfl (by decide)

/-- The states of XXH32 and XXH64 have no padding: 48 and 88 bytes; their buffers `mem32` and `mem64` are aligned for the aligned
reads of the digests. -/
theorem C61_small {abi : Abi} (hv : abi.Valid) :
    offsets 0 (members32 abi) = [0, 4, 8, 24, 40, 44] ∧ sizeof (members32 abi) = 48 ∧
      offsets 0 (members64 abi) = [0, 8, 40, 72, 76, 80] ∧ sizeof (members64 abi) = 88 ∧
      24 % abi.align32 = 0 ∧ 40 % abi.align64 = 0 := by
  refine ⟨(offs32 hv).1, (offs32 hv).2, (offs64 hv).1, (offs64 hv).2, ?_, ?_⟩
  · have := hv.align32
    simp only [List.mem_cons, List.not_mem_nil, or_false] at this
    rcases this with e | e | e <;> rw [e]
  · have := hv.align64
    simp only [List.mem_cons, List.not_mem_nil, or_false] at this
    rcases this with e | e | e | e <;> rw [e]

example : sizeof (members32 avr) = 48 ∧ sizeof (members64 ia32) = 88 :=
  ⟨(C61_small avr_valid).2.1, (C61_small ia32_valid).2.2.2.1⟩

/-- `XXH128_hash_t` has no padding, so comparing its bytes compares the two halves. -/
theorem C61_hash128 {abi : Abi} (hv : abi.Valid) : offsets 0 (members128 abi) = [0, 8] ∧ sizeof (members128 abi) = 16 := by
  have := hv.align64
  simp only [List.mem_cons, List.not_mem_nil, or_false] at this
  unfold members128 Abi.u64
  rcases this with e | e | e | e <;> rw [e] <;> decide

example : sizeof (members128 arm32) = 16 := (C61_hash128 arm32_valid).2

/-- The static assertions on the canonical types hold (xxhash.h:3226, 3669, 6979): their sizes are those of the hashes, and they
can be at any address. -/
theorem C61_canonical {abi : Abi} (hv : abi.Valid) :
    (membersCanonical abi).map sizeof = [4, 8, sizeof (members128 abi)] ∧ (membersCanonical abi).map alignof = [1, 1, 1] := by
  unfold membersCanonical
  rw [(C61_hash128 hv).2]
  rw [show abi.u64.size = 8 from rfl]
  decide

example : (membersCanonical lp64).map sizeof = [4, 8, 16] := (C61_canonical lp64_valid).1

/-- The layout meets what the proofs about `XXH3_createState` ask for. -/
theorem C61_alloc {cfg : Cfg} {abi : Abi} (hv : abi.Valid) (hs : cfg.sizeBits = 8 * abi.sizeT) :
    (allocLayout abi).Valid cfg := by
  obtain ⟨o0, o1, o2, o3, o4, o5, o6, o7, o8, o9, o10, o11, o12⟩ := offs hv
  have hlt : sizeof (members3 abi) + 64 < 2 ^ 16 := by
    obtain ⟨p32, -⟩ := dvd4 hv.align32
    obtain ⟨p64, -⟩ := dvd8 hv.align64
    obtain ⟨pT, -⟩ := dvd8 hv.alignT.1
    have pP := dvd16 hv.alignPtr.1
    have h1 := roundUp_lt (offsetof abi .nbStripesSoFar + abi.sizeT) p64
    have h2 := roundUp_lt (offsetof abi .totalLen + 8) pT
    have h3 := roundUp_lt (offsetof abi .nbStripesPerBlock + abi.sizeT) pT
    have h4 := roundUp_lt (offsetof abi .secretLimit + abi.sizeT) p64
    have h5 := roundUp_lt (offsetof abi .seed + 8) p64
    have h6 := roundUp_lt (offsetof abi .reserved64 + 8) pP
    have h7 := roundUp_lt (offsetof abi .extSecret + abi.ptr) (alignof_pos (members3 abi))
    change offsetof abi .totalLen < _ at h1
    change offsetof abi .nbStripesPerBlock < _ at h2
    change offsetof abi .secretLimit < _ at h3
    change offsetof abi .seed < _ at h4
    change offsetof abi .reserved64 < _ at h5
    change offsetof abi .extSecret < _ at h6
    change sizeof (members3 abi) < _ at h7
    have ha : alignof (members3 abi) ≤ 64 := by
      have c1 := le4 hv.align32
      have c2 := le8 hv.align64
      have c3 := le8 hv.alignT.1
      have c4 := le16 hv.alignPtr.1
      clear h1 h2 h3 h4 h5 h6 h7 o6 o7 o8 o9 o10 o11 o12
      cases hx : abi.xxhAlign <;>
        simp only [alignof, members3, List.foldr_cons, List.foldr_nil, Abi.align64Member, hx, if_true, Bool.false_eq_true, if_false,
          Abi.u32, Abi.u64, Abi.size, Member.array] <;> omega
    have b1 : abi.align64 ≤ 8 := le8 hv.align64
    have b2 : abi.alignT ≤ 8 := le8 hv.alignT.1
    have b3 : abi.ptr ≤ 16 := by
      have := hv.ptr
      simp only [List.mem_cons, List.not_mem_nil, or_false] at this
      omega
    have b4 : abi.alignPtr ≤ 16 := Nat.le_trans hv.alignPtr.2 b3
    have b5 : abi.sizeT ≤ 8 := by
      have := hv.sizeT
      simp only [List.mem_cons, List.not_mem_nil, or_false] at this
      omega
    clear hs hv
    omega
  refine ⟨by simp only [allocLayout]; omega, o12, by simp only [allocLayout]; omega, ?_⟩
  simp only [allocLayout]
  refine Nat.lt_of_lt_of_le hlt (Nat.pow_le_pow_right (by decide) ?_)
  have := hv.sizeT
  simp only [List.mem_cons, List.not_mem_nil, or_false] at this
  omega

example : (allocLayout lp64).Valid x64 := C61_alloc lp64_valid (by decide)

/-- **C61.** `XXH3_reset_internal`: the `memset` from `bufferedSize` up to `nbStripesPerBlock` and the assignments after it have
the effect on the members that the model of the streaming functions gives them; the reserved member stays as it was. -/
theorem C61_reset_internal {cfg : Cfg} {abi : Abi} (hv : abi.Valid) {obj : List Byte} {seed : W64} {secret size : Nat}
    (hl : obj.length = sizeof (members3 abi)) (hp : secret < 2 ^ (8 * abi.ptr)) (hz : size < 2 ^ (8 * abi.sizeT))
    (deref : Nat → Ptr) (addr : Nat) :
    (Layout.reset_internal cfg abi obj seed secret size).map (fields3 cfg abi deref addr) =
        XXH3.reset_internal (some (fields3 cfg abi deref addr obj)) seed (deref secret) size ∧
      ∀ obj', Layout.reset_internal cfg abi obj seed secret size = some obj' → obj'.length = obj.length ∧
        slice obj' (offsetof abi .reserved64) 8 = slice obj (offsetof abi .reserved64) 8 := by
  by_cases h : 136 ≤ size
  · obtain ⟨obj', h1, h2, h3, h4⟩ := reset_internal_ok (cfg := cfg) (seed := seed) hv hl hp hz h deref addr
    rw [h1]
    refine ⟨?_, fun o ho => by cases ho; exact ⟨h2, h3⟩⟩
    rw [Option.map_some, h4]
    have : XXH3.SECRET_SIZE_MIN ≤ size := h
    simp [XXH3.reset_internal, assert, this]
  · rw [reset_internal_small (by omega)]
    refine ⟨?_, by simp⟩
    have : ¬ XXH3.SECRET_SIZE_MIN ≤ size := h
    simp [XXH3.reset_internal, assert, this]

/-- The end of a state that held junk before: little endian with 64 bits, then big endian with 16-bit pointers. -/
example : ((Layout.reset_internal x64 lp64 (List.replicate 576 0xA5) 7 0x123456 200).map fun o => (slice o 512 64).map BitVec.toNat) =
      some ([0, 0, 0, 0, 1, 0, 0, 0, 0, 0, 0, 0, 0, 0, 0, 0, 0, 0, 0, 0, 0, 0, 0, 0, 17, 0, 0, 0, 0, 0, 0, 0, 136, 0, 0, 0, 0, 0,
        0, 0, 7, 0, 0, 0, 0, 0, 0, 0] ++ List.replicate 8 165 ++ [0x56, 0x34, 0x12, 0, 0, 0, 0, 0]) ∧
    ((Layout.reset_internal be32 avr (List.replicate 552 0xA5) 7 0x1234 200).map fun o => (slice o 512 64).map BitVec.toNat) =
      some ([0, 0, 0, 0, 0, 0, 0, 1, 0, 0, 0, 0, 0, 0, 0, 0, 0, 0, 0, 17, 0, 136, 0, 0, 0, 0, 0, 0, 0, 7] ++
        List.replicate 8 165 ++ [0x12, 0x34]) := by
  decide +kernel

example (deref : Nat → Ptr) : (Layout.reset_internal x64 lp64 (List.replicate 576 0xA5) 7 0x123456 200).map
      (fields3 x64 lp64 deref 0x10000) =
    XXH3.reset_internal (some (fields3 x64 lp64 deref 0x10000 (List.replicate 576 0xA5))) 7 (deref 0x123456) 200 :=
  (C61_reset_internal lp64_valid (by rw [List.length_replicate]; decide +kernel) (by decide) (by decide) deref 0x10000).1

/-- A memory with the default secret and one byte at every other address but 0. -/
def someMemory (p : Nat) : Ptr :=
  if p = 0 then none else if p = x64.kSecretAddr then some (XXH3.kSecret x64) else some ⟨p, [0]⟩

theorem someMemory_null (p : Nat) : someMemory p = none ↔ p = 0 := by
  unfold someMemory
  split
  · simp_all
  · split <;> simp_all

theorem junk576_length : (List.replicate 576 (0xA5 : Byte)).length = sizeof (members3 lp64) := by
  rw [List.length_replicate]
  decide +kernel

/-- `XXH3_64bits_reset` on the bytes of a state. -/
theorem C61_reset {cfg : Cfg} {abi : Abi} (hv : abi.Valid) {obj : List Byte} (hl : obj.length = sizeof (members3 abi))
    {deref : Nat → Ptr} (hk : deref cfg.kSecretAddr = some (XXH3.kSecret cfg)) (hkp : cfg.kSecretAddr < 2 ^ (8 * abi.ptr))
    (addr : Nat) :
    ∃ obj', Layout.reset_internal cfg abi obj 0 cfg.kSecretAddr 192 = some obj' ∧ obj'.length = obj.length ∧
      XXH3.reset cfg (some (fields3 cfg abi deref addr obj)) = some (some (fields3 cfg abi deref addr obj'), .ok) := by
  have hz : 192 < 2 ^ (8 * abi.sizeT) := by
    refine Nat.lt_of_lt_of_le (by decide : 192 < 2 ^ 16) (Nat.pow_le_pow_right (by decide) ?_)
    have := hv.sizeT
    simp only [List.mem_cons, List.not_mem_nil, or_false] at this
    omega
  obtain ⟨obj', h1, h2, -, h4⟩ := reset_internal_ok (cfg := cfg) (seed := 0) hv hl hkp hz (by decide) deref addr
  refine ⟨obj', h1, h2, ?_⟩
  rw [h4, hk]
  rfl

example := C61_reset (cfg := x64) lp64_valid junk576_length (deref := someMemory) rfl (by decide) 0x10000

/-- `XXH3_64bits_reset_withSeed` on the bytes of a state at a multiple of 64: the test of the seed and of the pointer stored in the
state, the new secret, and the reset. -/
theorem C61_reset_withSeed {cfg : Cfg} (hc : cfg.Valid) {abi : Abi} (hv : abi.Valid) {obj : List Byte}
    (hl : obj.length = sizeof (members3 abi)) {deref : Nat → Ptr} (hn : ∀ p, deref p = none ↔ p = 0)
    (hk : deref cfg.kSecretAddr = some (XXH3.kSecret cfg)) (hkp : cfg.kSecretAddr < 2 ^ (8 * abi.ptr))
    {addr : Nat} (ha : addr % 64 = 0) (seed : W64) :
    ∃ obj', Layout.reset_withSeed cfg abi addr obj seed = some obj' ∧ obj'.length = obj.length ∧
      XXH3.reset_withSeed cfg (some (fields3 cfg abi deref addr obj)) seed =
        some (some (fields3 cfg abi deref addr obj'), .ok) := by
  unfold Layout.reset_withSeed XXH3.reset_withSeed
  by_cases h0 : seed = 0
  · subst h0
    rw [if_pos rfl]
    simp only [if_true]
    exact C61_reset hv hl hk hkp addr
  rw [if_neg h0]
  simp only [if_neg h0]
  have hz : 192 < 2 ^ (8 * abi.sizeT) := by
    refine Nat.lt_of_lt_of_le (by decide : 192 < 2 ^ 16) (Nat.pow_le_pow_right (by decide) ?_)
    have := hv.sizeT
    simp only [List.mem_cons, List.not_mem_nil, or_false] at this
    omega
  have hp0 : 0 < 2 ^ (8 * abi.ptr) := Nat.two_pow_pos _
  have e1 : offsetof abi .customSecret = 64 := (offs hv).customSecret
  have hcond : (seed.toNat ≠ load cfg obj (offsetof abi .seed) 8 ∨ load cfg obj (offsetof abi .extSecret) abi.ptr ≠ 0) ↔
      (seed ≠ (fields3 cfg abi deref addr obj).seed ∨ (fields3 cfg abi deref addr obj).extSecret.isSome = true) := by
    have hlt : load cfg obj (offsetof abi .seed) 8 < 2 ^ 64 := BitVec.isLt _
    refine or_congr (not_congr ?_) ?_
    · simp only [fields3]
      constructor
      · intro h; rw [← h]; simp
      · intro h; rw [h, BitVec.toNat_ofNat, Nat.mod_eq_of_lt hlt]
    · simp only [fields3]
      rw [Option.isSome_iff_ne_none]
      exact not_congr (hn _).symm
  have hlen : (slice obj (offsetof abi .customSecret) 192).length = 192 := by
    refine LayoutP.slice_length ?_
    obtain ⟨o0, o1, o2, o3, o4, o5, o6, o7, o8, o9, o10, o11, o12⟩ := offs hv
    omega
  have hd0 : deref 0 = none := (hn 0).mpr rfl
  by_cases hcd : seed.toNat ≠ load cfg obj (offsetof abi .seed) 8 ∨ load cfg obj (offsetof abi .extSecret) abi.ptr ≠ 0
  · rw [if_pos hcd, if_pos (hcond.mp hcd)]
    have hi := XXH3P.initCustomSecret_eq hlen seed hc (SimdP.secAlign_ok (cfg := cfg) (a := addr + 64) (by omega))
    obtain ⟨o1, h1, h2, h3⟩ := store_custom (cfg := cfg) hv hl (XXH3P.derive_length seed) deref addr
    obtain ⟨o2, h4, h5, -, h6⟩ := reset_internal_ok (cfg := cfg) (seed := seed) hv (h2.trans hl) hp0 hz (by decide) deref addr
    refine ⟨o2, ?_, h5.trans h2, ?_⟩
    · rw [e1] at hi ⊢
      rw [e1] at h1
      simp only [Option.bind_eq_bind, hi, Option.bind_some, h1, h4]
    · have hi' : XXH3.initCustomSecret cfg ((fields3 cfg abi deref addr obj).addr + 64)
          (fields3 cfg abi deref addr obj).customSecret seed = some (Spec.XXH3.deriveSecret seed) := hi
      simp only [Option.bind_eq_bind, hi', Option.bind_some]
      rw [h6, hd0, h3]
      rfl
  · rw [if_neg hcd, if_neg (fun h => hcd (hcond.mpr h))]
    obtain ⟨o2, h4, h5, -, h6⟩ := reset_internal_ok (cfg := cfg) (seed := seed) hv hl hp0 hz (by decide) deref addr
    refine ⟨o2, ?_, h5, ?_⟩
    · simp only [Option.bind_eq_bind, Option.bind_some, h4]
    · simp only [Option.bind_eq_bind, Option.bind_some]
      rw [h6, hd0]
      rfl

example := C61_reset_withSeed x64_valid lp64_valid junk576_length someMemory_null rfl (by decide) (addr := 0x10000)
  (by decide) 7

/-- The junk 0xA5... happens to be the seed, and the pointer is not null: the secret is computed again. -/
example : ((Layout.reset_withSeed x64 lp64 0x10000 (List.replicate 576 0xA5) 0xA5A5A5A5A5A5A5A5).map fun o =>
    slice o 64 192 == Spec.XXH3.deriveSecret 0xA5A5A5A5A5A5A5A5) = some true := by
  decide +kernel

/-- `XXH3_64bits_reset_withSecretandSeed` on the bytes of a state, for a secret it accepts. -/
theorem C61_reset_withSecretandSeed {cfg : Cfg} {abi : Abi} (hv : abi.Valid) {obj : List Byte}
    (hl : obj.length = sizeof (members3 abi)) {deref : Nat → Ptr} {secret size : Nat} (hs : deref secret ≠ none)
    (hp : secret < 2 ^ (8 * abi.ptr)) (hz : size < 2 ^ (8 * abi.sizeT)) (h : 136 ≤ size) (addr : Nat) (seed : W64) :
    ∃ obj', Layout.reset_withSecretandSeed cfg abi obj secret size seed = some obj' ∧ obj'.length = obj.length ∧
      XXH3.reset_withSecretandSeed (some (fields3 cfg abi deref addr obj)) (deref secret) size seed =
        some (some (fields3 cfg abi deref addr obj'), .ok) := by
  obtain ⟨o1, h1, h2, -, h3⟩ := reset_internal_ok (cfg := cfg) (seed := seed) hv hl hp hz h deref addr
  obtain ⟨o2, h4, h5, h6⟩ := store_useSeed (cfg := cfg) hv (h2.trans hl) deref addr
  refine ⟨o2, ?_, h5.trans h2, ?_⟩
  · unfold Layout.reset_withSecretandSeed
    simp only [h1, Option.bind_eq_bind, Option.bind_some, h4]
  · have h' : XXH3.SECRET_SIZE_MIN ≤ size := h
    have h'' : ¬ size < XXH3.SECRET_SIZE_MIN := by omega
    unfold XXH3.reset_withSecretandSeed
    rw [if_neg (by simp), if_neg (by simpa using hs), if_neg h'', h6, h3]
    simp [XXH3.reset_internal, assert, h']

example := C61_reset_withSecretandSeed (cfg := x64) lp64_valid junk576_length (deref := someMemory) (secret := 0x123456) (size := 200)
  (by decide +kernel) (by decide) (by decide) (by decide) 0x10000 0

/-- `useSeed` is 1 also with seed 0. -/
example : ((Layout.reset_withSecretandSeed x64 lp64 (List.replicate 576 0xA5) 0x123456 200 0).map fun o => load x64 o 516 4) =
    some 1 := by
  decide +kernel

/-- `XXH3_INITSTATE` on the bytes of a state. -/
theorem C61_initState {cfg : Cfg} {abi : Abi} (hv : abi.Valid) {obj : List Byte} (hl : obj.length = sizeof (members3 abi))
    {deref : Nat → Ptr} (h0 : deref 0 = none) (addr : Nat) :
    ∃ obj', initState cfg abi obj = some obj' ∧ obj'.length = obj.length ∧
      fields3 cfg abi deref addr obj' = XXH3.INITSTATE (fields3 cfg abi deref addr obj) :=
  initState_ok hv hl h0 addr

example := C61_initState (cfg := x64) lp64_valid junk576_length (deref := someMemory) rfl 0x10000

/-- "or a memset()": a state set to zero bytes is as good as one after `XXH3_INITSTATE`. -/
theorem C61_memset {cfg : Cfg} {abi : Abi} (hv : abi.Valid) {deref : Nat → Ptr} (h0 : deref 0 = none) (addr : Nat) :
    (fields3 cfg abi deref addr (List.replicate (sizeof (members3 abi)) 0)).seed = 0 ∧
      (fields3 cfg abi deref addr (List.replicate (sizeof (members3 abi)) 0)).extSecret = none ∧
      (fields3 cfg abi deref addr (List.replicate (sizeof (members3 abi)) 0)).customSecret.length = 192 ∧
      (fields3 cfg abi deref addr (List.replicate (sizeof (members3 abi)) 0)).buffer.length = 256 := by
  obtain ⟨o0, o1, o2, o3, o4, o5, o6, o7, o8, o9, o10, o11, o12⟩ := offs hv
  unfold fields3
  simp only
  rw [load_zeros (slice_replicate (by omega)), load_zeros (slice_replicate (by omega)), slice_replicate (by omega),
    slice_replicate (by omega)]
  exact ⟨rfl, h0, List.length_replicate, List.length_replicate⟩

example := C61_memset (cfg := x64) cheri_valid (deref := someMemory) rfl 0x10000

/-- Any bytes at a multiple of 64 are a state the streaming functions can start from. -/
theorem C61_typed {cfg : Cfg} {abi : Abi} (hv : abi.Valid) {obj : List Byte} (hl : obj.length = sizeof (members3 abi))
    (deref : Nat → Ptr) {addr : Nat} (ha : addr % 64 = 0) : (fields3 cfg abi deref addr obj).Typed := by
  obtain ⟨o0, o1, o2, o3, o4, o5, o6, o7, o8, o9, o10, o11, o12⟩ := offs hv
  exact ⟨ha, LayoutP.slice_length (by omega), LayoutP.slice_length (by omega)⟩

example := C61_typed (cfg := x64) lp64_valid junk576_length someMemory (addr := 0x10000) (by decide)

/-- `XXH32_reset` on the bytes of a state. -/
theorem C61_reset32 {cfg : Cfg} {abi : Abi} (hv : abi.Valid) {obj : List Byte} (hl : obj.length = sizeof (members32 abi))
    (seed : W32) (s : XXH32.State) :
    ∃ obj', reset32 cfg abi obj seed = some obj' ∧ obj'.length = obj.length ∧
      XXH32.reset (some s) seed = some (fields32 cfg abi obj', .ok) := by
  obtain ⟨obj', h1, h2, -, h3⟩ := reset32_ok (cfg := cfg) hv seed hl
  exact ⟨obj', h1, h2, by rw [h3]; rfl⟩

example (s : XXH32.State) := C61_reset32 (cfg := be32) avr_valid (obj := List.replicate 48 0xA5) (by decide +kernel) 7 s

example : (reset32 be32 avr (List.replicate 48 0xA5) 0).map (fun o => (slice o 8 16).map BitVec.toNat) =
    some [0x24, 0x23, 0x44, 0x28, 0x85, 0xEB, 0xCA, 0x77, 0, 0, 0, 0, 0x61, 0xC8, 0x86, 0x4F] := by
  decide +kernel

/-- `XXH64_reset` on the bytes of a state. -/
theorem C61_reset64 {cfg : Cfg} {abi : Abi} (hv : abi.Valid) {obj : List Byte} (hl : obj.length = sizeof (members64 abi))
    (seed : W64) (s : XXH64.State) :
    ∃ obj', reset64 cfg abi obj seed = some obj' ∧ obj'.length = obj.length ∧
      XXH64.reset (some s) seed = some (fields64 cfg abi obj', .ok) := by
  obtain ⟨obj', h1, h2, -, h3⟩ := reset64_ok (cfg := cfg) hv seed hl
  exact ⟨obj', h1, h2, by rw [h3]; rfl⟩

example (s : XXH64.State) := C61_reset64 (cfg := x64) ia32_valid (obj := List.replicate 88 0xA5) (by decide +kernel) 7 s

/-- After a reset the bytes of an XXH32 or XXH64 state depend on the seed alone, padding and reserved members included: two states
reset with the same seed are equal under `memcmp`. -/
theorem C61_reset_bytes {cfg : Cfg} {abi : Abi} {a b : List Byte} :
    (∀ seed, a.length = sizeof (members32 abi) → b.length = a.length → reset32 cfg abi a seed = reset32 cfg abi b seed) ∧
      (∀ seed, a.length = sizeof (members64 abi) → b.length = a.length → reset64 cfg abi a seed = reset64 cfg abi b seed) := by
  have h : ∀ (n : Nat) (st : List (Nat × List Byte)), a.length = n → b.length = a.length →
      store a ((0, List.replicate n 0) :: st) = store b ((0, List.replicate n 0) :: st) := by
    intro n st h1 h2
    simp only [store]
    rw [writeBytes_eq (by simp; omega), writeBytes_eq (by simp; omega)]
    simp [h1, h2, List.drop_eq_nil_of_le]
  exact ⟨fun seed h1 h2 => h _ _ h1 h2, fun seed h1 h2 => h _ _ h1 h2⟩

example : reset32 x64 lp64 (List.replicate 48 0xA5) 7 = reset32 x64 lp64 (List.replicate 48 0) 7 :=
  C61_reset_bytes.1 7 (by decide +kernel) (by decide +kernel)

/-- Whereas an XXH3 state keeps earlier bytes: `customSecret`, `buffer` and `reserved64` are not touched by a reset without seed. -/
theorem C61_reset_keeps {cfg : Cfg} {abi : Abi} (hv : abi.Valid) {obj obj' : List Byte} {secret size : Nat}
    (hl : obj.length = sizeof (members3 abi)) (hp : secret < 2 ^ (8 * abi.ptr)) (hz : size < 2 ^ (8 * abi.sizeT)) {seed : W64}
    (h : Layout.reset_internal cfg abi obj seed secret size = some obj') {f : F3}
    (hf : f = .customSecret ∨ f = .buffer ∨ f = .reserved64) :
    slice obj' (offsetof abi f) (sizeofMember abi f) = slice obj (offsetof abi f) (sizeofMember abi f) := by
  by_cases hs : 136 ≤ size
  · obtain ⟨o, h1, -, h3, h4⟩ := reset_internal_ok (cfg := cfg) (seed := seed) hv hl hp hz hs (fun _ => none) 0
    rw [h] at h1
    cases h1
    have e : sizeofMember abi .customSecret = 192 ∧ sizeofMember abi .buffer = 256 ∧ sizeofMember abi .reserved64 = 8 := by
      cases hx : abi.xxhAlign <;>
        simp [sizeofMember, members3, F3.index, Abi.align64Member, hx, Member.array, Abi.u64]
    rcases hf with rfl | rfl | rfl
    · rw [e.1]; exact congrArg XXH3.State.customSecret h4
    · rw [e.2.1]; exact congrArg XXH3.State.buffer h4
    · rw [e.2.2]; exact h3
  · rw [reset_internal_small (by omega)] at h
    cases h

example : ((Layout.reset_internal x64 lp64 (List.replicate 576 0xA5) 0 0x123456 200).map fun o => slice o 256 256) =
    some (List.replicate 256 0xA5) := by
  decide +kernel

example (obj' : List Byte) (h : Layout.reset_internal x64 lp64 (List.replicate 576 0xA5) 0 0x123456 200 = some obj') :=
  C61_reset_keeps lp64_valid junk576_length (by decide) (by decide) h (f := .buffer) (by decide)

/-- **C61.** The three `copyState` functions: the copy has the bytes of the original, hence the same members. -/
theorem C61_copy {size : Nat} {dst src : List Byte} (hd : dst.length = size) (hs : src.length = size) :
    copyObj size dst src = some src := by
  unfold copyObj
  have h1 : readBytes ⟨0, src⟩ 0 size = some src := by
    simp [readBytes, hs, List.take_of_length_le]
  rw [h1]
  simp only [Option.bind_eq_bind, Option.bind_some]
  rw [writeBytes_eq (by simp; omega)]
  simp [hs, hd]

example : copyObj 48 (List.replicate 48 0) (List.replicate 48 0xA5) = some (List.replicate 48 0xA5) :=
  C61_copy (by decide) (by decide)

end XXH.Props
