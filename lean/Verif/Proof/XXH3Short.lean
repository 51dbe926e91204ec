import Verif.Proof.Mul
import Verif.Spec.XXH3
/-!
The short and mid-size paths of XXH3 compute the specification.
-/
namespace XXH
open Model Spec

/-- The object `b` starts with the bytes `msg`. -/
def Holds (b : Buf) (msg : List Byte) : Prop := msg <+: b.bytes

theorem Holds.self (b : Buf) : Holds b b.bytes := List.prefix_rfl

theorem Holds.le {b : Buf} {msg : List Byte} (h : Holds b msg) : msg.length ≤ b.bytes.length :=
  h.length_le

theorem Holds.slice {b : Buf} {msg : List Byte} (h : Holds b msg) {i j : Nat} (hj : j ≤ msg.length) :
    Spec.slice b.bytes i j = Spec.slice msg i j := by
  obtain ⟨t, ht⟩ := h
  rw [← ht, slice_append_left _ _ _ _ hj]

theorem Holds.getD {b : Buf} {msg : List Byte} (h : Holds b msg) {i : Nat} (hi : i < msg.length) :
    b.bytes.getD i 0 = msg.getD i 0 := by
  obtain ⟨t, ht⟩ := h
  rw [← ht, List.getD_eq_getElem?_getD, List.getD_eq_getElem?_getD, List.getElem?_append_left hi]

theorem Holds.readLE32 {cfg : Cfg} (hc : cfg.Valid) {b : Buf} {msg : List Byte} (h : Holds b msg)
    {off : Nat} (ho : off + 4 ≤ msg.length) :
    Model.readLE32 cfg b off = some (u32 (Spec.slice msg off (off+4))) := by
  rw [readLE32_eq hc (Nat.le_trans ho h.le), h.slice ho]

theorem Holds.readLE64 {cfg : Cfg} (hc : cfg.Valid) {b : Buf} {msg : List Byte} (h : Holds b msg)
    {off : Nat} (ho : off + 8 ≤ msg.length) :
    Model.readLE64 cfg b off = some (u64 (Spec.slice msg off (off+8))) := by
  rw [readLE64_eq hc (Nat.le_trans ho h.le), h.slice ho]

theorem Holds.read8 {b : Buf} {msg : List Byte} (h : Holds b msg) {off : Nat}
    (ho : off < msg.length) : Model.read8 b off = some (msg.getD off 0) := by
  rw [read8_eq (Nat.lt_of_lt_of_le ho h.le), h.getD ho]

theorem Holds.readBytes {b : Buf} {msg : List Byte} (h : Holds b msg) {off n : Nat}
    (ho : off + n ≤ msg.length) : Model.readBytes b off n = some (Spec.slice msg off (off+n)) := by
  rw [readBytes_eq (Nat.le_trans ho h.le), h.slice ho]

theorem assert_true : assert true = some () := rfl

namespace XXH3P
open XXH.Spec.XXH3 (hash64_1to3 hash64_4to8 hash64_9to16 hash64_17to128 hash64_129to240 hash128_1to3
  hash128_4to8 hash128_9to16 hash128_17to128 hash128_129to240 empty64 empty128 mixStep mixTwoChunks)

variable {cfg : Cfg} (hc : cfg.Valid) {b s : Buf} {msg sec : List Byte} (hb : Holds b msg)
  (hs : Holds s sec) (hl : 136 ≤ sec.length)

theorem avalanche64_eq (x : W64) : Model.XXH64.avalanche x = Spec.XXH3.avalanche_XXH64 x := rfl
theorem P1 : Model.XXH64.PRIME64_1 = Spec.XXH64.PRIME64_1 := rfl
theorem P2 : Model.XXH64.PRIME64_2 = Spec.XXH64.PRIME64_2 := rfl
theorem P3 : Model.XXH64.PRIME64_3 = Spec.XXH64.PRIME64_3 := rfl
theorem P4 : Model.XXH64.PRIME64_4 = Spec.XXH64.PRIME64_4 := rfl
theorem P5 : Model.XXH64.PRIME64_5 = Spec.XXH64.PRIME64_5 := rfl
theorem MX2 : Model.XXH3.PRIME_MX2 = Spec.XXH3.PRIME_MX2 := rfl
theorem avalanche_eq (x : W64) : Model.XXH3.avalanche x = Spec.XXH3.avalanche x := rfl

theorem add_shift_or (x y : W32) :
    x.setWidth 64 + (y.setWidth 64 <<< 32) = x.setWidth 64 ||| (y.setWidth 64 <<< 32) := by
  apply BitVec.add_eq_or_of_and_eq_zero
  apply BitVec.eq_of_getLsbD_eq
  intro i hi
  by_cases h : i < 32
  · simp [h]
  · simp [BitVec.getLsbD_of_ge x i (by omega)]

theorem or_perm (a b c d : W32) : a ||| b ||| c ||| d = c ||| d ||| a ||| b := by ac_rfl

include hb in
theorem combine1to3_eq (h1 : 1 ≤ msg.length) (h3 : msg.length ≤ 3) :
    Model.XXH3.combine1to3 b msg.length = some (Spec.XXH3.combined1to3 msg) := by
  have e1 : msg.length >>> 1 < msg.length := by rw [Nat.shiftRight_eq_div_pow]; omega
  simp only [Model.XXH3.combine1to3, hb.read8 (off := 0) (by omega), hb.read8 e1,
    hb.read8 (off := msg.length - 1) (by omega), Option.bind_eq_bind, Option.bind_some,
    Option.pure_def, Spec.XXH3.combined1to3, Spec.XXH3.byteAt]
  rw [BitVec.shiftLeft_zero, or_perm]

include hc hb hs hl in
theorem len_1to3_64b_eq (h1 : 1 ≤ msg.length) (h3 : msg.length ≤ 3) (seed : W64) :
    Model.XXH3.len_1to3_64b cfg b msg.length s seed = some (hash64_1to3 msg sec seed) := by
  simp (disch := omega) only [Model.XXH3.len_1to3_64b, h1, h3, decide_true, Bool.and_true, assert_true,
    combine1to3_eq hb h1 h3, hs.readLE32 hc, Option.bind_eq_bind, Option.bind_some, Option.pure_def,
    hash64_1to3, word32_slice, avalanche64_eq, Nat.reduceMul, Nat.reduceAdd]
  rw [BitVec.xor_comm]

include hc hb hs hl in
theorem len_4to8_64b_eq (h1 : 4 ≤ msg.length) (h3 : msg.length ≤ 8) (seed : W64) :
    Model.XXH3.len_4to8_64b cfg b msg.length s seed = some (hash64_4to8 msg sec seed) := by
  have e : msg.length - 4 + 4 = msg.length := by omega
  simp (disch := omega) only [Model.XXH3.len_4to8_64b, h1, h3, decide_true, Bool.and_true, assert_true,
    hs.readLE64 hc, hb.readLE32 hc, Option.bind_eq_bind, Option.bind_some, Option.pure_def,
    hash64_4to8, word64_slice, Nat.reduceMul, Nat.reduceAdd, e, Model.XXH3.rrmxmx,
    Model.XXH3.xorshift64, add_shift_or, swap32_eq, rotl64_eq, Spec.XXH3.modifiedSeed, MX2]
  rw [BitVec.xor_comm (_ ||| _)]
  simp only [BitVec.xor_assoc]

include hc hb hs hl in
theorem len_9to16_64b_eq (h1 : 9 ≤ msg.length) (h3 : msg.length ≤ 16) (seed : W64) :
    Model.XXH3.len_9to16_64b cfg b msg.length s seed = some (hash64_9to16 msg sec seed) := by
  have e : msg.length - 8 + 8 = msg.length := by omega
  simp (disch := omega) only [Model.XXH3.len_9to16_64b, h1, h3, decide_true, Bool.and_true, assert_true,
    hs.readLE64 hc, hb.readLE64 hc, Option.bind_eq_bind, Option.bind_some, Option.pure_def,
    hash64_9to16, word64_slice, Nat.reduceMul, Nat.reduceAdd, e, mul128_fold64_eq, swap64_eq,
    avalanche_eq]
  rw [BitVec.xor_comm (u64 _), BitVec.xor_comm (u64 (Spec.slice msg _ _))]

include hc hb hs hl in
theorem len_0to16_64b_eq (h3 : msg.length ≤ 16) (seed : W64) :
    Model.XXH3.len_0to16_64b cfg b msg.length s seed =
      some (if msg.length = 0 then empty64 sec seed
        else if msg.length ≤ 3 then hash64_1to3 msg sec seed
        else if msg.length ≤ 8 then hash64_4to8 msg sec seed
        else hash64_9to16 msg sec seed) := by
  simp only [Model.XXH3.len_0to16_64b, h3, decide_true, assert_true, Option.bind_eq_bind,
    Option.bind_some]
  by_cases h8 : 8 < msg.length
  · rw [if_pos h8, if_neg (by omega), if_neg (by omega), if_neg (by omega),
      len_9to16_64b_eq hc hb hs hl h8 h3]
  · rw [if_neg h8]
    by_cases h4 : 4 ≤ msg.length
    · rw [if_pos h4, if_neg (by omega), if_neg (by omega), if_pos (by omega),
        len_4to8_64b_eq hc hb hs hl h4 (by omega)]
    · rw [if_neg h4]
      by_cases h0 : msg.length = 0
      · rw [if_neg (by omega), if_pos h0]
        simp (disch := omega) only [hs.readLE64 hc, Option.bind_some, Option.pure_def, empty64,
          word64_slice, Nat.reduceMul, Nat.reduceAdd, avalanche64_eq, BitVec.xor_assoc]
      · rw [if_pos h0, if_neg h0, if_pos (by omega), len_1to3_64b_eq hc hb hs hl (by omega) (by omega)]

/-! ### 128-bit, up to 16 bytes -/

include hc hb hs hl in
theorem len_1to3_128b_eq (h1 : 1 ≤ msg.length) (h3 : msg.length ≤ 3) (seed : W64) :
    Model.XXH3.len_1to3_128b cfg b msg.length s seed = some (hash128_1to3 msg sec seed) := by
  simp (disch := omega) only [Model.XXH3.len_1to3_128b, h1, h3, decide_true, Bool.and_true, assert_true,
    combine1to3_eq hb h1 h3, hs.readLE32 hc, Option.bind_eq_bind, Option.bind_some, Option.pure_def,
    hash128_1to3, word32_slice, avalanche64_eq, Nat.reduceMul, Nat.reduceAdd, swap32_eq, rotl32_eq]
  rw [BitVec.xor_comm, BitVec.xor_comm (BitVec.setWidth 64 (BitVec.rotateLeft _ _))]

include hc hb hs hl in
theorem len_4to8_128b_eq (h1 : 4 ≤ msg.length) (h3 : msg.length ≤ 8) (seed : W64) :
    Model.XXH3.len_4to8_128b cfg b msg.length s seed = some (hash128_4to8 msg sec seed) := by
  have e : msg.length - 4 + 4 = msg.length := by omega
  simp (disch := omega) only [Model.XXH3.len_4to8_128b, h1, h3, decide_true, Bool.and_true, assert_true,
    hs.readLE64 hc, hb.readLE32 hc, Option.bind_eq_bind, Option.bind_some, Option.pure_def,
    hash128_4to8, word64_slice, Nat.reduceMul, Nat.reduceAdd, e, mult64to128_eq,
    Model.XXH3.xorshift64, add_shift_or, swap32_eq, Spec.XXH3.modifiedSeed, P1, MX2, avalanche_eq]
  rw [BitVec.xor_comm (_ ||| _)]

theorem high_split (x : W64) : x = (higher32 x <<< 32) + lower32 x := by
  apply BitVec.eq_of_toNat_eq
  have := x.isLt
  rw [BitVec.toNat_add, BitVec.toNat_shiftLeft, lower32_toNat, higher32_toNat, Nat.shiftLeft_eq]
  omega

theorem high_mask (x : W64) : x &&& 0xFFFFFFFF00000000#64 = higher32 x <<< 32 := by
  have h : higher32 x = x >>> 32 := by
    apply BitVec.eq_of_toNat_eq; rw [higher32_toNat, shift32_toNat]
  rw [h]
  apply BitVec.eq_of_getLsbD_eq
  intro i hi
  have hm : (0xFFFFFFFF00000000#64).getLsbD i = decide (32 ≤ i) := by
    interval_cases i <;> rfl
  by_cases h : i < 32
  · have : ¬ 32 ≤ i := by omega
    simp [hm, h, this]
  · have h' : 32 ≤ i := by omega
    simp only [BitVec.getLsbD_and, hm, h', decide_true, Bool.and_true, BitVec.getLsbD_shiftLeft, hi,
      h, decide_false, Bool.not_false, Bool.true_and, BitVec.getLsbD_ushiftRight]
    rw [show 32 + (i - 32) = i by omega]

theorem input_hi_mul (x : W64) : x + Model.XXH3.mult32to64 x (Model.XXH3.PRIME32_2 - 1)
    = (higher32 x <<< 32) + lower32 x * Spec.XXH3.PRIME32_2 := by
  have h1 : lower32 (Model.XXH3.PRIME32_2 - 1) = Spec.XXH3.PRIME32_2 - 1 := by decide
  rw [mult32to64_eq, h1]
  conv => lhs; lhs; rw [high_split x]
  rw [BitVec.add_assoc]
  congr 1
  rw [BitVec.mul_sub, show lower32 x * 1 = lower32 x from BitVec.mul_one _, BitVec.add_comm, BitVec.sub_add_cancel]

theorem input_hi_mul32 (x : W64) :
    (x &&& 0xFFFFFFFF00000000#64) + Model.XXH3.mult32to64 x Model.XXH3.PRIME32_2
    = (higher32 x <<< 32) + lower32 x * Spec.XXH3.PRIME32_2 := by
  have h1 : lower32 Model.XXH3.PRIME32_2 = Spec.XXH3.PRIME32_2 := by decide
  rw [mult32to64_eq, h1, high_mask]

include hc hb hs hl in
theorem len_9to16_128b_eq (h1 : 9 ≤ msg.length) (h3 : msg.length ≤ 16) (seed : W64) :
    Model.XXH3.len_9to16_128b cfg b msg.length s seed = some (hash128_9to16 msg sec seed) := by
  have e : msg.length - 8 + 8 = msg.length := by omega
  simp (disch := omega) only [Model.XXH3.len_9to16_128b, h1, h3, decide_true, Bool.and_true, assert_true,
    hs.readLE64 hc, hb.readLE64 hc, Option.bind_eq_bind, Option.bind_some, Option.pure_def,
    hash128_9to16, word64_slice, Nat.reduceMul, Nat.reduceAdd, e, mult64to128_eq, swap64_eq,
    avalanche_eq, P1, P2, input_hi_mul, input_hi_mul32, ite_self]
  generalize u64 (Spec.slice msg 0 8) = x
  generalize u64 (Spec.slice msg (msg.length - 8) msg.length) = y
  generalize (u64 (Spec.slice sec 32 40) ^^^ u64 (Spec.slice sec 40 48)) - seed = f
  generalize (u64 (Spec.slice sec 48 56) ^^^ u64 (Spec.slice sec 56 64)) + seed = g
  rw [BitVec.xor_comm y g, BitVec.xor_comm (x ^^^ y) f, ← BitVec.xor_assoc]
  simp only [BitVec.add_assoc]

include hc hb hs hl in
theorem len_0to16_128b_eq (h3 : msg.length ≤ 16) (seed : W64) :
    Model.XXH3.len_0to16_128b cfg b msg.length s seed =
      some (if msg.length = 0 then empty128 sec seed
        else if msg.length ≤ 3 then hash128_1to3 msg sec seed
        else if msg.length ≤ 8 then hash128_4to8 msg sec seed
        else hash128_9to16 msg sec seed) := by
  simp only [Model.XXH3.len_0to16_128b, h3, decide_true, assert_true, Option.bind_eq_bind,
    Option.bind_some]
  by_cases h8 : 8 < msg.length
  · rw [if_pos h8, if_neg (by omega), if_neg (by omega), if_neg (by omega),
      len_9to16_128b_eq hc hb hs hl h8 h3]
  · rw [if_neg h8]
    by_cases h4 : 4 ≤ msg.length
    · rw [if_pos h4, if_neg (by omega), if_neg (by omega), if_pos (by omega),
        len_4to8_128b_eq hc hb hs hl h4 (by omega)]
    · rw [if_neg h4]
      by_cases h0 : msg.length = 0
      · rw [if_neg (by omega), if_pos h0]
        simp (disch := omega) only [hs.readLE64 hc, Option.bind_some, Option.pure_def, empty128,
          word64_slice, Nat.reduceMul, Nat.reduceAdd, avalanche64_eq, BitVec.xor_assoc]
      · rw [if_pos h0, if_neg h0, if_pos (by omega), len_1to3_128b_eq hc hb hs hl (by omega) (by omega)]

/-! ### Loops -/

theorem forLoop_eq {σ : Type} {cond : Nat → Bool} {inc : Nat} {body : σ → Nat → Option σ}
    {f : σ → Nat → σ} :
    ∀ (n fuel i : Nat) (st : σ), n < fuel → (∀ k, k < n → cond (i + k * inc) = true) →
      cond (i + n * inc) = false → (∀ st k, k < n → body st (i + k * inc) = some (f st k)) →
      forLoop cond inc body fuel i st = some ((List.range n).foldl f st)
  | 0, fuel+1, i, st, _, _, h2, _ => by
    rw [Nat.zero_mul, Nat.add_zero] at h2
    simp [forLoop, h2]
  | n+1, fuel+1, i, st, hf, h1, h2, h3 => by
    have e1 := h1 0 (by omega)
    have e3 := h3 st 0 (by omega)
    rw [Nat.zero_mul, Nat.add_zero] at e1 e3
    rw [forLoop, if_pos e1, e3, Option.bind_some]
    have e : ∀ k, i + inc + k * inc = i + (k+1) * inc := fun k => by ring
    rw [forLoop_eq (f := fun st k => f st (k+1)) n fuel (i + inc) (f st 0) (by omega)
      (fun k hk => by rw [e]; exact h1 (k+1) (by omega)) (by rw [e]; exact h2)
      (fun st k hk => by rw [e]; exact h3 st (k+1) (by omega))]
    rw [List.range_succ_eq_map, List.foldl_cons, List.foldl_map]

theorem foldlM_some {σ α : Type} {body : σ → α → Option σ} {f : σ → α → σ} :
    ∀ (l : List α) (st : σ), (∀ st, ∀ a ∈ l, body st a = some (f st a)) →
      l.foldlM body st = some (l.foldl f st)
  | [], st, _ => rfl
  | a :: l, st, h => by
    rw [List.foldlM_cons, h st a (by simp), List.foldl_cons]
    exact foldlM_some l (f st a) fun st a ha => h st a (by simp [ha])

theorem downFrom_succ (n : Nat) : Spec.XXH3.downFrom (n+1) = n :: Spec.XXH3.downFrom n := by
  simp [Spec.XXH3.downFrom, List.range_succ]

theorem doDown_eq {σ : Type} {body : σ → Nat → Option σ} {f : σ → Nat → σ} :
    ∀ (n : Nat) (st : σ), (∀ st k, k ≤ n → body st k = some (f st k)) →
      Model.XXH3.doDown body n st = some ((Spec.XXH3.downFrom (n+1)).foldl f st)
  | 0, st, h => by rw [Model.XXH3.doDown, h st 0 (by omega)]; rfl
  | n+1, st, h => by
    rw [Model.XXH3.doDown, h st (n+1) (by omega), downFrom_succ, List.foldl_cons, Option.bind_some]
    exact doDown_eq n _ fun st k hk => h st k (by omega)

/-! ### 64-bit, 17 to 240 bytes -/

include hc hb hs in
theorem mix16B_eq {i j : Nat} (hi : i + 16 ≤ msg.length) (hj : j + 16 ≤ sec.length) (seed : W64) :
    Model.XXH3.mix16B cfg b i s j seed =
      some (mixStep sec (Spec.slice msg i (i+16)) j seed) := by
  simp (disch := omega) only [Model.XXH3.mix16B, hs.readLE64 hc, hb.readLE64 hc, Option.bind_eq_bind,
    Option.bind_some, Option.pure_def, mixStep, word64_slice, mul128_fold64_eq, Nat.mul_zero,
    Nat.mul_one, Nat.add_zero]

/-- One round of the 17 to 128 byte path. -/
def step64 (msg sec : List Byte) (seed acc : W64) (i : Nat) : W64 :=
  acc + mixStep sec (Spec.slice msg (i*16) (i*16+16)) (i*32) seed
    + mixStep sec (Spec.slice msg (msg.length - i*16 - 16) (msg.length - i*16 - 16 + 16)) (i*32+16) seed

include hc hb hs hl in
theorem mixPair_eq {i : Nat} (hi : 16 * i + 16 ≤ msg.length) (h3 : i ≤ 3) (seed acc : W64) :
    Model.XXH3.mixPair cfg b msg.length s seed acc i = some (step64 msg sec seed acc i) := by
  have e : msg.length - 16 * (i + 1) = msg.length - i * 16 - 16 := by omega
  have e2 : 16 * i = i * 16 := by omega
  have e3 : 32 * i = i * 32 := by omega
  simp (disch := omega) only [Model.XXH3.mixPair, e, e2, e3, mix16B_eq hc hb hs, Option.bind_eq_bind,
    Option.bind_some, Option.pure_def, step64]

include hc hb hs hl in
theorem len_17to128_64b_eq (h1 : 16 < msg.length) (h3 : msg.length ≤ 128) (seed : W64) :
    Model.XXH3.len_17to128_64b cfg b msg.length s sec.length seed =
      some (hash64_17to128 msg sec seed) := by
  have hf : hash64_17to128 msg sec seed = Spec.XXH3.avalanche
    ((Spec.XXH3.downFrom (((msg.length - 1) >>> 5) + 1)).foldl (step64 msg sec seed)
      (BitVec.ofNat 64 msg.length * Spec.XXH64.PRIME64_1)) := rfl
  rw [Nat.shiftRight_eq_div_pow] at hf
  have hl' : Model.XXH3.SECRET_SIZE_MIN ≤ sec.length := hl
  simp only [Model.XXH3.len_17to128_64b, hl', h1, h3, decide_true, Bool.and_true, assert_true,
    Option.bind_eq_bind, Option.bind_some, Option.pure_def, hf, P1, avalanche_eq]
  generalize BitVec.ofNat 64 msg.length * Spec.XXH64.PRIME64_1 = acc
  split
  · rw [doDown_eq (f := step64 msg sec seed) _ _ fun st k hk => mixPair_eq hc hb hs hl (by omega) (by omega) _ _]
    rfl
  · have step : ∀ (i : Nat), 16 * i + 16 ≤ msg.length → i ≤ 3 → ∀ acc,
        Model.XXH3.mixPair cfg b msg.length s seed acc i = some (step64 msg sec seed acc i) :=
      fun i hi h3 acc => mixPair_eq hc hb hs hl hi h3 seed acc
    have h0 := step 0 (by omega) (by omega)
    unfold Model.XXH3.len_17to128_unrolled
    by_cases c1 : 96 < msg.length
    · rw [show (msg.length - 1) / 2^5 + 1 = 4 by omega]
      simp only [c1, show 64 < msg.length by omega, show 32 < msg.length by omega, if_true,
        step 3 (by omega) (by omega), step 2 (by omega) (by omega), step 1 (by omega) (by omega), h0,
        Option.bind_eq_bind, Option.bind_some]
      rfl
    by_cases c2 : 64 < msg.length
    · rw [show (msg.length - 1) / 2^5 + 1 = 3 by omega]
      simp only [c1, c2, show 32 < msg.length by omega, if_true, if_false, Option.pure_def,
        step 2 (by omega) (by omega), step 1 (by omega) (by omega), h0,
        Option.bind_eq_bind, Option.bind_some]
      rfl
    by_cases c3 : 32 < msg.length
    · rw [show (msg.length - 1) / 2^5 + 1 = 2 by omega]
      simp only [c1, c2, c3, if_true, if_false, Option.pure_def, step 1 (by omega) (by omega), h0,
        Option.bind_eq_bind, Option.bind_some]
      rfl
    · rw [show (msg.length - 1) / 2^5 + 1 = 1 by omega]
      simp only [c1, c2, c3, if_false, Option.pure_def, h0, Option.bind_eq_bind, Option.bind_some]
      rfl

theorem foldl_add_init {l : List Nat} {g : Nat → W64} (a c : W64) :
    a + l.foldl (fun acc i => acc + g i) c = l.foldl (fun acc i => acc + g i) (a + c) := by
  induction l generalizing c with
  | nil => rfl
  | cons x l ih => rw [List.foldl_cons, ih, List.foldl_cons, BitVec.add_assoc]

include hc hb hs hl in
theorem len_129to240_64b_eq (h1 : 128 < msg.length) (h3 : msg.length ≤ 240) (seed : W64) :
    Model.XXH3.len_129to240_64b cfg b msg.length s sec.length seed =
      some (hash64_129to240 msg sec seed) := by
  have hl' : Model.XXH3.SECRET_SIZE_MIN ≤ sec.length := hl
  have h3' : msg.length ≤ Model.XXH3.MIDSIZE_MAX := h3
  have h8 : 8 ≤ msg.length / 16 := by omega
  have e : msg.length - 16 + 16 = msg.length := by omega
  simp only [Model.XXH3.len_129to240_64b, hl', h1, h3', h8, decide_true, Bool.and_true, assert_true,
    Option.bind_eq_bind, Option.bind_some, Option.pure_def]
  rw [forLoop_eq (f := fun acc k => acc + mixStep sec (Spec.slice msg (k*16) (k*16+16)) (k*16) seed) 8
    _ _ _ (by omega) (fun k hk => by simpa using hk) (by simp) (fun st k hk => by
      rw [show 0 + k * 1 = k by omega, show 16 * k = k * 16 by omega,
        mix16B_eq hc hb hs (by omega) (by omega)]; rfl), Option.bind_some,
    mix16B_eq hc hb hs (by omega) (by simp [Model.XXH3.SECRET_SIZE_MIN, Model.XXH3.MIDSIZE_LASTOFFSET]; omega),
    Option.bind_some]
  rw [forLoop_eq (f := fun acc k => acc + mixStep sec (Spec.slice msg ((8+k)*16) ((8+k)*16+16))
        ((8+k-8)*16+3) seed) (msg.length / 16 - 8)
    _ _ _ (by omega) (fun k hk => by simp; omega) (by simp; omega) (fun st k hk => by
      rw [show 8 + k * 1 = 8 + k by omega, show 16 * (8 + k) = (8 + k) * 16 by omega,
        show 16 * (8 + k - 8) = (8 + k - 8) * 16 by omega, Model.XXH3.MIDSIZE_STARTOFFSET,
        mix16B_eq hc hb hs (by omega) (by omega)]; rfl), Option.bind_some]
  simp only [hash64_129to240, avalanche_eq, P1, e]
  rw [show Model.XXH3.SECRET_SIZE_MIN - Model.XXH3.MIDSIZE_LASTOFFSET = 119 from rfl,
    Nat.shiftRight_eq_div_pow, List.range'_eq_map_range, List.foldl_map, foldl_add_init,
    BitVec.add_comm (List.foldl _ _ (List.range (msg.length / 2^4 - 8))), foldl_add_init,
    BitVec.add_comm (mixStep _ _ _ _)]

/-! ### 128-bit, 17 to 240 bytes -/

def toH (p : W64 × W64) : H128 := ⟨p.1, p.2⟩
def ofH (h : H128) : W64 × W64 := (h.low64, h.high64)

theorem foldl_toH {α : Type} (g : W64 × W64 → α → W64 × W64) (l : List α) (p : W64 × W64) :
    l.foldl (fun a k => toH (g (ofH a) k)) (toH p) = toH (l.foldl g p) := by
  induction l generalizing p with
  | nil => rfl
  | cons x l ih => rw [List.foldl_cons, List.foldl_cons, ← ih]; rfl

include hc hb hs in
theorem mix32B_eq {i1 i2 j : Nat} (h1 : i1 + 16 ≤ msg.length) (h2 : i2 + 16 ≤ msg.length)
    (hj : j + 32 ≤ sec.length) (seed : W64) (a : H128) :
    Model.XXH3.mix32B cfg b s a i1 i2 j seed =
      some (toH (mixTwoChunks sec (ofH a) (Spec.slice msg i1 (i1+16)) (Spec.slice msg i2 (i2+16)) j
        seed)) := by
  simp (disch := omega) only [Model.XXH3.mix32B, mix16B_eq hc hb hs, hb.readLE64 hc,
    Option.bind_eq_bind, Option.bind_some, Option.pure_def, mixTwoChunks, toH, ofH, word64_slice,
    Nat.mul_zero, Nat.mul_one, Nat.add_zero]

theorem mid128_end_eq (p : W64 × W64) (n : Nat) (seed : W64) :
    Model.XXH3.mid128_end (toH p) n seed = Spec.XXH3.final128_17to240 p n seed := rfl

/-- One round of the 17 to 128 byte path. -/
def step128 (msg sec : List Byte) (seed : W64) (acc : W64 × W64) (i : Nat) : W64 × W64 :=
  mixTwoChunks sec acc (Spec.slice msg (i*16) (i*16+16))
    (Spec.slice msg (msg.length - i*16 - 16) (msg.length - i*16 - 16 + 16)) (i*32) seed

include hc hb hs hl in
theorem mixPair128_eq {i : Nat} (hi : 16 * i + 16 ≤ msg.length) (h3 : i ≤ 3) (seed : W64) (acc : H128) :
    Model.XXH3.mixPair128 cfg b msg.length s seed acc i =
      some (toH (step128 msg sec seed (ofH acc) i)) := by
  have e : msg.length - 16 * (i + 1) = msg.length - i * 16 - 16 := by omega
  have e2 : 16 * i = i * 16 := by omega
  have e3 : 32 * i = i * 32 := by omega
  simp (disch := omega) only [Model.XXH3.mixPair128, e, e2, e3, mix32B_eq hc hb hs, step128]

include hc hb hs hl in
theorem len_17to128_128b_eq (h1 : 16 < msg.length) (h3 : msg.length ≤ 128) (seed : W64) :
    Model.XXH3.len_17to128_128b cfg b msg.length s sec.length seed =
      some (hash128_17to128 msg sec seed) := by
  have hf : hash128_17to128 msg sec seed = Spec.XXH3.final128_17to240
    ((Spec.XXH3.downFrom (((msg.length - 1) >>> 5) + 1)).foldl (step128 msg sec seed)
      (BitVec.ofNat 64 msg.length * Spec.XXH64.PRIME64_1, 0)) msg.length seed := rfl
  rw [Nat.shiftRight_eq_div_pow] at hf
  have hl' : Model.XXH3.SECRET_SIZE_MIN ≤ sec.length := hl
  simp only [Model.XXH3.len_17to128_128b, hl', h1, h3, decide_true, Bool.and_true, assert_true,
    Option.bind_eq_bind, Option.bind_some, Option.pure_def, hf, P1, ← mid128_end_eq]
  rw [show (⟨BitVec.ofNat 64 msg.length * Spec.XXH64.PRIME64_1, 0⟩ : H128) =
    toH (BitVec.ofNat 64 msg.length * Spec.XXH64.PRIME64_1, 0) from rfl]
  generalize (BitVec.ofNat 64 msg.length * Spec.XXH64.PRIME64_1, (0 : W64)) = acc
  split
  · rw [doDown_eq (f := fun a k => toH (step128 msg sec seed (ofH a) k)) _ _
      fun st k hk => mixPair128_eq hc hb hs hl (by omega) (by omega) _ _, foldl_toH]
    rfl
  · have step : ∀ (i : Nat), 16 * i + 16 ≤ msg.length → i ≤ 3 → ∀ acc,
        Model.XXH3.mixPair128 cfg b msg.length s seed acc i =
          some (toH (step128 msg sec seed (ofH acc) i)) :=
      fun i hi h3 acc => mixPair128_eq hc hb hs hl hi h3 seed acc
    have h0 := step 0 (by omega) (by omega)
    unfold Model.XXH3.len_17to128_128b_unrolled
    by_cases c1 : 96 < msg.length
    · rw [show (msg.length - 1) / 2^5 + 1 = 4 by omega]
      simp only [c1, show 64 < msg.length by omega, show 32 < msg.length by omega, if_true,
        step 3 (by omega) (by omega), step 2 (by omega) (by omega), step 1 (by omega) (by omega), h0,
        Option.bind_eq_bind, Option.bind_some]
      rfl
    by_cases c2 : 64 < msg.length
    · rw [show (msg.length - 1) / 2^5 + 1 = 3 by omega]
      simp only [c1, c2, show 32 < msg.length by omega, if_true, if_false, Option.pure_def,
        step 2 (by omega) (by omega), step 1 (by omega) (by omega), h0,
        Option.bind_eq_bind, Option.bind_some]
      rfl
    by_cases c3 : 32 < msg.length
    · rw [show (msg.length - 1) / 2^5 + 1 = 2 by omega]
      simp only [c1, c2, c3, if_true, if_false, Option.pure_def, step 1 (by omega) (by omega), h0,
        Option.bind_eq_bind, Option.bind_some]
      rfl
    · rw [show (msg.length - 1) / 2^5 + 1 = 1 by omega]
      simp only [c1, c2, c3, if_false, Option.pure_def, h0, Option.bind_eq_bind, Option.bind_some]
      rfl

include hc hb hs hl in
theorem len_129to240_128b_eq (h1 : 128 < msg.length) (h3 : msg.length ≤ 240) (seed : W64) :
    Model.XXH3.len_129to240_128b cfg b msg.length s sec.length seed =
      some (hash128_129to240 msg sec seed) := by
  have hl' : Model.XXH3.SECRET_SIZE_MIN ≤ sec.length := hl
  have h3' : msg.length ≤ Model.XXH3.MIDSIZE_MAX := h3
  simp only [Model.XXH3.len_129to240_128b, hl', h1, h3', decide_true, Bool.and_true, assert_true,
    Option.bind_eq_bind, Option.bind_some, Option.pure_def]
  rw [show (⟨BitVec.ofNat 64 msg.length * Model.XXH64.PRIME64_1, 0⟩ : H128) =
    toH (BitVec.ofNat 64 msg.length * Spec.XXH64.PRIME64_1, 0) from rfl]
  rw [forLoop_eq (f := fun acc k => toH (mixTwoChunks sec (ofH acc) (Spec.slice msg (k*32) (k*32+16))
      (Spec.slice msg (k*32+16) (k*32+16+16)) (k*32) seed)) 4
    _ _ _ (by omega) (fun k hk => by simp; omega) (by simp) (fun st k hk => by
      rw [show 32 + k * 32 - 32 = k * 32 by omega, show 32 + k * 32 - 16 = k * 32 + 16 by omega,
        mix32B_eq hc hb hs (by omega) (by omega) (by omega)]), Option.bind_some,
    foldl_toH (fun acc k => mixTwoChunks sec acc (Spec.slice msg (k*32) (k*32+16))
      (Spec.slice msg (k*32+16) (k*32+16+16)) (k*32) seed)]
  generalize hacc : List.foldl (fun acc k => mixTwoChunks sec acc (Spec.slice msg (k*32) (k*32+16))
      (Spec.slice msg (k*32+16) (k*32+16+16)) (k*32) seed) _ (List.range 4) = acc1
  rw [show (⟨Model.XXH3.avalanche (toH acc1).low64, Model.XXH3.avalanche (toH acc1).high64⟩ : H128) =
    toH (Spec.XXH3.avalanche acc1.1, Spec.XXH3.avalanche acc1.2) from rfl]
  rw [forLoop_eq (f := fun acc k => toH (mixTwoChunks sec (ofH acc)
      (Spec.slice msg ((4+k)*32) ((4+k)*32+16))
      (Spec.slice msg ((4+k)*32+16) ((4+k)*32+16+16)) ((4+k-4)*32+3) seed)) (msg.length / 32 - 4)
    _ _ _ (by omega) (fun k hk => by simp; omega) (by simp; omega) (fun st k hk => by
      rw [show 160 + k * 32 - 32 = (4 + k) * 32 by omega,
        show 160 + k * 32 - 16 = (4 + k) * 32 + 16 by omega, Model.XXH3.MIDSIZE_STARTOFFSET,
        show 3 + (160 + k * 32) - 160 = (4 + k - 4) * 32 + 3 by omega,
        mix32B_eq hc hb hs (by omega) (by omega) (by omega)]), Option.bind_some,
    foldl_toH (fun acc k => mixTwoChunks sec acc (Spec.slice msg ((4+k)*32) ((4+k)*32+16))
      (Spec.slice msg ((4+k)*32+16) ((4+k)*32+16+16)) ((4+k-4)*32+3) seed)]
  rw [show Model.XXH3.SECRET_SIZE_MIN - Model.XXH3.MIDSIZE_LASTOFFSET - 16 = 103 from rfl,
    mix32B_eq hc hb hs (by omega) (by omega) (by omega), Option.bind_some, mid128_end_eq]
  simp only [hash128_129to240]
  rw [Nat.shiftRight_eq_div_pow, List.range'_eq_map_range, List.foldl_map, hacc]
  rw [show msg.length - 16 + 16 = msg.length by omega, show msg.length - 32 + 16 = msg.length - 16 by omega]
  rfl

end XXH3P
end XXH
