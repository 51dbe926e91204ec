import Verif.Spec.Basic
import Verif.Model.Mem
import Mathlib.Tactic.IntervalCases
import Mathlib.Tactic.Ring
/-!
Bit-level facts about byte strings and words.
-/
namespace XXH
open Spec Model

theorem leNat_testBit (bs : List Byte) (i : Nat) :
    (leNat bs).testBit i = (bs.getD (i/8) 0).getLsbD (i%8) := by
  induction bs generalizing i with
  | nil => simp [leNat]
  | cons b bs ih =>
    have h := Nat.testBit_two_pow_mul_add (leNat bs) (b := b.toNat) (i := 8) b.isLt i
    rw [leNat, Nat.add_comm, show (256:Nat) = 2^8 from rfl, h]
    split
    · next hi =>
      rw [Nat.div_eq_of_lt hi, Nat.mod_eq_of_lt hi]; simp [BitVec.getLsbD]
    · next hi =>
      rw [ih, show i / 8 = (i-8)/8 + 1 by omega, show i % 8 = (i-8) % 8 by omega]; simp

theorem getLsbD_ofNat_leNat (w : Nat) (bs : List Byte) (i : Nat) :
    (BitVec.ofNat w (leNat bs)).getLsbD i =
      (decide (i < w) && (bs.getD (i/8) 0).getLsbD (i%8)) := by
  rw [BitVec.getLsbD_ofNat, leNat_testBit]

theorem leNat_lt (bs : List Byte) : leNat bs < 256 ^ bs.length := by
  induction bs with
  | nil => simp [leNat]
  | cons b bs ih =>
    have := b.isLt
    simp only [leNat, List.length_cons, Nat.pow_succ]
    omega

theorem ofLE_eq (w : Nat) (bs : List Byte) : ofLE w bs = BitVec.ofNat w (leNat bs) := by
  induction bs with
  | nil => simp [ofLE, leNat]
  | cons b bs ih =>
    have : ofLE w (b :: bs) = ofLE w bs <<< 8 ||| b.setWidth w := rfl
    rw [this, ih]
    ext i hi
    rw [← BitVec.getLsbD_eq_getElem, ← BitVec.getLsbD_eq_getElem, getLsbD_ofNat_leNat,
      BitVec.getLsbD_or, BitVec.getLsbD_shiftLeft, getLsbD_ofNat_leNat, BitVec.getLsbD_setWidth]
    by_cases h8 : i < 8
    · simp [hi, h8, Nat.div_eq_of_lt, Nat.mod_eq_of_lt]
    · rw [show i / 8 = (i-8)/8 + 1 by omega, show i % 8 = (i-8) % 8 by omega]
      have : b.getLsbD i = false := BitVec.getLsbD_of_ge _ _ (by omega)
      simp [hi, h8, this, show i - 8 < w by omega]

theorem getLsbD_u32 (bs : List Byte) (i : Nat) :
    (u32 bs).getLsbD i = (decide (i < 32) && (bs.getD (i/8) 0).getLsbD (i%8)) :=
  getLsbD_ofNat_leNat 32 bs i

theorem getLsbD_u64 (bs : List Byte) (i : Nat) :
    (u64 bs).getLsbD i = (decide (i < 64) && (bs.getD (i/8) 0).getLsbD (i%8)) :=
  getLsbD_ofNat_leNat 64 bs i

theorem getLsbD_swap32 (x : W32) (i : Nat) :
    (swap32 x).getLsbD i = (decide (i < 32) && x.getLsbD (8 * (3 - i/8) + i%8)) := by
  by_cases hi : i < 32
  · interval_cases i <;> simp [swap32]
  · simp [BitVec.getLsbD_of_ge (swap32 x) i (by omega), hi]

theorem getLsbD_swap64 (x : W64) (i : Nat) :
    (swap64 x).getLsbD i = (decide (i < 64) && x.getLsbD (8 * (7 - i/8) + i%8)) := by
  by_cases hi : i < 64
  · interval_cases i <;> simp [swap64]
  · simp [BitVec.getLsbD_of_ge (swap64 x) i (by omega), hi]

theorem leBytes_length (n : Nat) {w : Nat} (x : BitVec w) : (leBytes n x).length = n := by
  simp [leBytes]

theorem leBytes_getD (n : Nat) {w : Nat} (x : BitVec w) (j k : Nat) (hj : j < n) (hk : k < 8) :
    ((leBytes n x).getD j 0).getLsbD k = x.getLsbD (8*j+k) := by
  simp only [leBytes, List.getD_eq_getElem?_getD, List.getElem?_map, List.getElem?_range hj,
    Option.map_some, Option.getD_some, BitVec.getLsbD_ofNat, hk, decide_true, Bool.true_and]
  rw [show 256 ^ j = 2 ^ (8*j) by rw [Nat.pow_mul], Nat.testBit_div_two_pow, BitVec.getLsbD]
  congr 1; omega

theorem getD_reverse {bs : List Byte} {n j : Nat} (h : bs.length = n) (hj : j < n) :
    bs.reverse.getD j 0 = bs.getD (n - 1 - j) 0 := by
  simp only [List.getD_eq_getElem?_getD]
  rw [List.getElem?_reverse (by omega), h]

theorem beBytes_getD (n : Nat) {w : Nat} (x : BitVec w) (j k : Nat) (hj : j < n) (hk : k < 8) :
    ((beBytes n x).getD j 0).getLsbD k = x.getLsbD (8*(n-1-j)+k) := by
  rw [beBytes, getD_reverse (leBytes_length n x) hj, leBytes_getD _ _ _ _ (by omega) hk]

theorem bytes_ext {xs ys : List Byte} (n : Nat) (hx : xs.length = n) (hy : ys.length = n)
    (h : ∀ i, i < n → ∀ k, k < 8 → (xs.getD i 0).getLsbD k = (ys.getD i 0).getLsbD k) :
    xs = ys := by
  apply List.ext_getElem (by omega)
  intro i h1 h2
  have := BitVec.eq_of_getLsbD_eq (h i (by omega))
  simpa [List.getD_eq_getElem?_getD, h1, h2] using this

theorem swap32_eq (x : W32) : swap32 x = bswap32 x := by
  apply BitVec.eq_of_getLsbD_eq
  intro i hi
  rw [getLsbD_swap32, bswap32, getLsbD_u32, beBytes_getD _ _ _ _ (by omega) (by omega)]

theorem swap64_eq (x : W64) : swap64 x = bswap64 x := by
  apply BitVec.eq_of_getLsbD_eq
  intro i hi
  rw [getLsbD_swap64, bswap64, getLsbD_u64, beBytes_getD _ _ _ _ (by omega) (by omega)]

theorem swap32_u32_reverse (bs : List Byte) (h : bs.length = 4) :
    swap32 (u32 bs.reverse) = u32 bs := by
  apply BitVec.eq_of_getLsbD_eq
  intro i hi
  rw [getLsbD_swap32, getLsbD_u32, getLsbD_u32, getD_reverse h (by omega)]
  rw [show (8 * (3 - i / 8) + i % 8) % 8 = i % 8 by omega,
    show 4 - 1 - (8 * (3 - i / 8) + i % 8)/8 = i/8 by omega]
  simp [hi]; omega

theorem swap64_u64_reverse (bs : List Byte) (h : bs.length = 8) :
    swap64 (u64 bs.reverse) = u64 bs := by
  apply BitVec.eq_of_getLsbD_eq
  intro i hi
  rw [getLsbD_swap64, getLsbD_u64, getLsbD_u64, getD_reverse h (by omega)]
  rw [show (8 * (7 - i / 8) + i % 8) % 8 = i % 8 by omega,
    show 8 - 1 - (8 * (7 - i / 8) + i % 8)/8 = i/8 by omega]
  simp [hi]; omega

theorem swap32_swap32 (x : W32) : swap32 (swap32 x) = x := by
  apply BitVec.eq_of_getLsbD_eq
  intro i hi
  rw [getLsbD_swap32, getLsbD_swap32]
  rw [show 8 * (3 - (8 * (3 - i / 8) + i % 8) / 8) + (8 * (3 - i / 8) + i % 8) % 8 = i by omega]
  simp [hi]; omega

theorem swap64_swap64 (x : W64) : swap64 (swap64 x) = x := by
  apply BitVec.eq_of_getLsbD_eq
  intro i hi
  rw [getLsbD_swap64, getLsbD_swap64]
  rw [show 8 * (7 - (8 * (7 - i / 8) + i % 8) / 8) + (8 * (7 - i / 8) + i % 8) % 8 = i by omega]
  simp [hi]; omega

theorem rotl32_eq (x : W32) (r : Nat) (h : r < 32) : rotl32 x r = x.rotateLeft r := by
  rw [rotl32, BitVec.rotateLeft_def, Nat.mod_eq_of_lt h]

theorem rotl64_eq (x : W64) (r : Nat) (h : r < 64) : rotl64 x r = x.rotateLeft r := by
  rw [rotl64, BitVec.rotateLeft_def, Nat.mod_eq_of_lt h]

theorem beBytes_length (n : Nat) {w : Nat} (x : BitVec w) : (beBytes n x).length = n := by
  simp [beBytes, leBytes]

theorem nativeBytes_le {n w : Nat} (x : BitVec w) :
    ((List.range n).map fun i => (x >>> (8*i)).setWidth 8) = leBytes n x := by
  simp only [leBytes]
  apply List.map_congr_left
  intro i _
  apply BitVec.eq_of_toNat_eq
  simp [Nat.shiftRight_eq_div_pow, Nat.pow_mul]

theorem leBytes_swap32 (x : W32) : leBytes 4 (swap32 x) = beBytes 4 x := by
  apply bytes_ext 4 (leBytes_length _ _) (beBytes_length _ _)
  intro i h1 k hk
  rw [leBytes_getD _ _ _ _ h1 hk, beBytes_getD _ _ _ _ h1 hk, getLsbD_swap32]
  rw [show (8 * i + k) / 8 = i by omega, show (8 * i + k) % 8 = k by omega]
  simp; omega

theorem leBytes_swap64 (x : W64) : leBytes 8 (swap64 x) = beBytes 8 x := by
  apply bytes_ext 8 (leBytes_length _ _) (beBytes_length _ _)
  intro i h1 k hk
  rw [leBytes_getD _ _ _ _ h1 hk, beBytes_getD _ _ _ _ h1 hk, getLsbD_swap64]
  rw [show (8 * i + k) / 8 = i by omega, show (8 * i + k) % 8 = k by omega]
  simp; omega

theorem u32_leBytes (x : W32) : u32 (leBytes 4 x) = x := by
  apply BitVec.eq_of_getLsbD_eq
  intro i hi
  rw [getLsbD_u32, leBytes_getD _ _ _ _ (by omega) (by omega)]
  rw [show 8 * (i/8) + i%8 = i by omega]; simp [hi]

theorem u64_leBytes (x : W64) : u64 (leBytes 8 x) = x := by
  apply BitVec.eq_of_getLsbD_eq
  intro i hi
  rw [getLsbD_u64, leBytes_getD _ _ _ _ (by omega) (by omega)]
  rw [show 8 * (i/8) + i%8 = i by omega]; simp [hi]

theorem leBytes_u32 (bs : List Byte) (h : bs.length = 4) : leBytes 4 (u32 bs) = bs := by
  apply bytes_ext 4 (leBytes_length _ _) h
  intro i h1 k hk
  rw [leBytes_getD _ _ _ _ h1 hk, getLsbD_u32]
  rw [show (8 * i + k) / 8 = i by omega, show (8 * i + k) % 8 = k by omega]
  simp; omega

theorem leBytes_u64 (bs : List Byte) (h : bs.length = 8) : leBytes 8 (u64 bs) = bs := by
  apply bytes_ext 8 (leBytes_length _ _) h
  intro i h1 k hk
  rw [leBytes_getD _ _ _ _ h1 hk, getLsbD_u64]
  rw [show (8 * i + k) / 8 = i by omega, show (8 * i + k) % 8 = k by omega]
  simp; omega

theorem beNat_eq (bs : List Byte) : beNat bs = leNat bs.reverse := by
  have h : ∀ (bs : List Byte) (n : Nat),
      bs.foldl (fun n b => 256 * n + b.toNat) n = leNat bs.reverse + 256 ^ bs.length * n := by
    intro bs
    induction bs with
    | nil => intro n; simp [leNat]
    | cons b bs ih =>
      intro n
      have happ : ∀ (xs : List Byte) (b : Byte),
          leNat (xs ++ [b]) = leNat xs + 256 ^ xs.length * b.toNat := by
        intro xs b
        induction xs with
        | nil => simp [leNat]
        | cons x xs ih => simp only [List.cons_append, leNat, ih, List.length_cons]; ring
      rw [List.foldl_cons, ih, List.reverse_cons, happ, List.length_reverse, List.length_cons]
      ring
  have := h bs 0
  simpa [beNat] using this

theorem leNat_leBytes {n w : Nat} (x : BitVec w) (h : w ≤ 8 * n) : leNat (leBytes n x) = x.toNat := by
  apply Nat.eq_of_testBit_eq
  intro i
  rw [leNat_testBit]
  by_cases hi : i < 8 * n
  · rw [leBytes_getD _ _ _ _ (by omega) (by omega), show 8 * (i/8) + i%8 = i by omega]; rfl
  · have : (leBytes n x).getD (i/8) 0 = 0 := by
      simp [List.getD_eq_getElem?_getD, List.getElem?_eq_none_iff.2 (show (leBytes n x).length ≤ i/8 by rw [leBytes_length]; omega)]
    have hx : x.toNat.testBit i = x.getLsbD i := rfl
    have hx2 : x.getLsbD i = false := BitVec.getLsbD_of_ge _ _ (by omega)
    rw [this, hx, hx2]
    simp

theorem beNat_beBytes32 (x : W32) : beNat (beBytes 4 x) = x.toNat := by
  rw [beNat_eq, beBytes, List.reverse_reverse, leNat_leBytes x (by decide)]

theorem beNat_beBytes64 (x : W64) : beNat (beBytes 8 x) = x.toNat := by
  rw [beNat_eq, beBytes, List.reverse_reverse, leNat_leBytes x (by decide)]

/-! ### Slices -/

theorem slice_length {xs : List Byte} {a b : Nat} (h : b ≤ xs.length) :
    (slice xs a b).length = b - a := by
  simp [slice]; omega

theorem slice_getD (xs : List Byte) (a b j : Nat) (h : j < b - a) :
    (slice xs a b).getD j 0 = xs.getD (a + j) 0 := by
  simp [slice, List.getD_eq_getElem?_getD, h]

theorem slice_slice (xs : List Byte) (a b c d : Nat) (h : a + d ≤ b) :
    slice (slice xs a b) c d = slice xs (a + c) (a + d) := by
  apply List.ext_getElem?
  intro i
  simp only [slice, List.getElem?_take, List.getElem?_drop]
  split
  · rw [if_pos (by omega), if_pos (by omega)]; congr 1; omega
  · rw [if_neg (by omega)]

theorem slice_drop (xs : List Byte) (n a b : Nat) :
    slice (xs.drop n) a b = slice xs (n + a) (n + b) := by
  simp only [slice, List.drop_drop]; congr 1; omega

theorem slice_all (xs : List Byte) (n : Nat) (h : xs.length ≤ n) : slice xs 0 n = xs := by
  simp [slice, List.take_of_length_le h]

theorem slice_append_left (xs ys : List Byte) (a b : Nat) (h : b ≤ xs.length) :
    slice (xs ++ ys) a b = slice xs a b := by
  by_cases hab : a ≤ b
  · simp only [slice]
    rw [List.drop_append_of_le_length (by omega), List.take_append_of_le_length (by simp; omega)]
  · simp [slice, show b - a = 0 by omega]

theorem slice_append_right (xs ys : List Byte) (a b : Nat) (h : xs.length ≤ a) :
    slice (xs ++ ys) a b = slice ys (a - xs.length) (b - xs.length) := by
  simp only [slice]
  rw [List.drop_append, List.drop_eq_nil_of_le h, List.nil_append]
  congr 1; omega

theorem word32_slice (xs : List Byte) (a b i : Nat) (h : a + (4*i+4) ≤ b) :
    word32 (slice xs a b) i = u32 (slice xs (a+4*i) (a+4*i+4)) := by
  rw [word32, slice_slice _ _ _ _ _ h]; rfl

theorem word64_slice (xs : List Byte) (a b i : Nat) (h : a + (8*i+8) ≤ b) :
    word64 (slice xs a b) i = u64 (slice xs (a+8*i) (a+8*i+8)) := by
  rw [word64, slice_slice _ _ _ _ _ h]; rfl

theorem slice_eq4 {xs : List Byte} {off : Nat} (h : off + 4 ≤ xs.length) :
    ∃ a b c d, slice xs off (off+4) = [a, b, c, d] ∧ xs[off]? = some a ∧ xs[off+1]? = some b ∧
      xs[off+2]? = some c ∧ xs[off+3]? = some d := by
  refine ⟨xs[off], xs[off+1], xs[off+2], xs[off+3], ?_, ?_, ?_, ?_, ?_⟩
  · apply List.ext_getElem
    · simp [slice]; omega
    · intro i h1 h2
      simp only [List.length_cons, List.length_nil] at h2
      rcases i with _ | _ | _ | _ | i <;> simp [slice]
      omega
  all_goals simp

theorem slice_eq8 {xs : List Byte} {off : Nat} (h : off + 8 ≤ xs.length) :
    ∃ a b c d e f g k, slice xs off (off+8) = [a, b, c, d, e, f, g, k] ∧ xs[off]? = some a ∧
      xs[off+1]? = some b ∧ xs[off+2]? = some c ∧ xs[off+3]? = some d ∧ xs[off+4]? = some e ∧
      xs[off+5]? = some f ∧ xs[off+6]? = some g ∧ xs[off+7]? = some k := by
  refine ⟨xs[off], xs[off+1], xs[off+2], xs[off+3], xs[off+4], xs[off+5], xs[off+6], xs[off+7],
    ?_, ?_, ?_, ?_, ?_, ?_, ?_, ?_, ?_⟩
  · apply List.ext_getElem
    · simp [slice]; omega
    · intro i h1 h2
      simp only [List.length_cons, List.length_nil] at h2
      rcases i with _ | _ | _ | _ | _ | _ | _ | _ | i <;> simp [slice]
      omega
  all_goals simp

/-! ### Reads -/

theorem byteshift32 (a b c d : Byte) :
    a.setWidth 32 ||| (b.setWidth 32 <<< 8) ||| (c.setWidth 32 <<< 16) |||
      (d.setWidth 32 <<< 24) = u32 [a, b, c, d] := by
  apply BitVec.eq_of_getLsbD_eq
  intro i hi
  rw [getLsbD_u32]
  interval_cases i <;> simp

theorem byteshift64 (a b c d e f g h : Byte) :
    a.setWidth 64 ||| (b.setWidth 64 <<< 8) ||| (c.setWidth 64 <<< 16) |||
      (d.setWidth 64 <<< 24) ||| (e.setWidth 64 <<< 32) ||| (f.setWidth 64 <<< 40) |||
      (g.setWidth 64 <<< 48) ||| (h.setWidth 64 <<< 56) = u64 [a, b, c, d, e, f, g, h] := by
  apply BitVec.eq_of_getLsbD_eq
  intro i hi
  rw [getLsbD_u64]
  interval_cases i <;> simp

theorem readBytes_eq {b : Buf} {off n : Nat} (h : off + n ≤ b.bytes.length) :
    readBytes b off n = some (slice b.bytes off (off+n)) := by
  simp [readBytes, h, slice]

theorem readBytes_none {b : Buf} {off n : Nat} (h : b.bytes.length < off + n) :
    readBytes b off n = none := by
  simp [readBytes]; omega

theorem read8_eq {b : Buf} {off : Nat} (h : off < b.bytes.length) :
    read8 b off = some (b.bytes.getD off 0) := by
  simp [read8, h]

theorem native32 (cfg : Cfg) (bs : List Byte) :
    native cfg 32 bs = if cfg.littleEndian then u32 bs else u32 bs.reverse := by
  simp only [native, ofLE_eq]; rfl

theorem native64 (cfg : Cfg) (bs : List Byte) :
    native cfg 64 bs = if cfg.littleEndian then u64 bs else u64 bs.reverse := by
  simp only [native, ofLE_eq]; rfl

theorem read32_eq {cfg : Cfg} (hc : cfg.Valid) {b : Buf} {off : Nat}
    (h : off + 4 ≤ b.bytes.length) :
    read32 cfg b off = some (native cfg 32 (slice b.bytes off (off+4))) := by
  have hd := hc.direct
  simp only [read32, readBytes_eq h]
  rw [if_neg (by rintro ⟨h1, h2⟩; simp [hd h1] at h2)]; rfl

theorem read64_eq {cfg : Cfg} (hc : cfg.Valid) {b : Buf} {off : Nat}
    (h : off + 8 ≤ b.bytes.length) :
    read64 cfg b off = some (native cfg 64 (slice b.bytes off (off+8))) := by
  have hd := hc.direct
  simp only [read64, readBytes_eq h]
  rw [if_neg (by rintro ⟨h1, h2⟩; simp [hd h1] at h2)]; rfl

theorem readLE32_eq {cfg : Cfg} (hc : cfg.Valid) {b : Buf} {off : Nat}
    (h : off + 4 ≤ b.bytes.length) :
    readLE32 cfg b off = some (u32 (slice b.bytes off (off+4))) := by
  unfold readLE32
  split
  · obtain ⟨x0, x1, x2, x3, hs, h0, h1, h2, h3⟩ := slice_eq4 h
    simp [read8, h0, h1, h2, h3, hs, byteshift32]
  · rw [read32_eq hc h, native32]
    by_cases hl : cfg.littleEndian <;> simp [hl]
    exact swap32_u32_reverse _ (by rw [slice_length h]; omega)

theorem readBE32_eq {cfg : Cfg} (hc : cfg.Valid) {b : Buf} {off : Nat}
    (h : off + 4 ≤ b.bytes.length) :
    readBE32 cfg b off = some (u32 (slice b.bytes off (off+4)).reverse) := by
  unfold readBE32
  split
  · obtain ⟨x0, x1, x2, x3, hs, h0, h1, h2, h3⟩ := slice_eq4 h
    simp [read8, h0, h1, h2, h3, hs, byteshift32]
  · rw [read32_eq hc h, native32]
    by_cases hl : cfg.littleEndian <;> simp [hl]
    have := swap32_u32_reverse (slice b.bytes off (off+4)).reverse
      (by rw [List.length_reverse, slice_length h]; omega)
    simpa using this

theorem readLE64_eq {cfg : Cfg} (hc : cfg.Valid) {b : Buf} {off : Nat}
    (h : off + 8 ≤ b.bytes.length) :
    readLE64 cfg b off = some (u64 (slice b.bytes off (off+8))) := by
  unfold readLE64
  split
  · obtain ⟨x0, x1, x2, x3, x4, x5, x6, x7, hs, h0, h1, h2, h3, h4, h5, h6, h7⟩ := slice_eq8 h
    simp [read8, h0, h1, h2, h3, h4, h5, h6, h7, hs, byteshift64]
  · rw [read64_eq hc h, native64]
    by_cases hl : cfg.littleEndian <;> simp [hl]
    exact swap64_u64_reverse _ (by rw [slice_length h]; omega)

theorem readBE64_eq {cfg : Cfg} (hc : cfg.Valid) {b : Buf} {off : Nat}
    (h : off + 8 ≤ b.bytes.length) :
    readBE64 cfg b off = some (u64 (slice b.bytes off (off+8)).reverse) := by
  unfold readBE64
  split
  · obtain ⟨x0, x1, x2, x3, x4, x5, x6, x7, hs, h0, h1, h2, h3, h4, h5, h6, h7⟩ := slice_eq8 h
    simp [read8, h0, h1, h2, h3, h4, h5, h6, h7, hs, byteshift64]
  · rw [read64_eq hc h, native64]
    by_cases hl : cfg.littleEndian <;> simp [hl]
    have := swap64_u64_reverse (slice b.bytes off (off+8)).reverse
      (by rw [List.length_reverse, slice_length h]; omega)
    simpa using this

/-- An `XXH_alignment` argument tells the truth about an address. -/
def Align.Ok (align : Align) (n addr : Nat) : Prop := align = .aligned → addr % n = 0

theorem readLE32_align_eq {cfg : Cfg} (hc : cfg.Valid) {b : Buf} {off : Nat} {align : Align}
    (ha : Align.Ok align 4 (b.addr + off)) (h : off + 4 ≤ b.bytes.length) :
    readLE32_align cfg b off align = some (u32 (slice b.bytes off (off+4))) := by
  unfold readLE32_align
  split
  · exact readLE32_eq hc h
  · next hu =>
    have : align = .aligned := by cases align <;> simp_all
    simp only [deref32, ha this, assert, readBytes_eq h, native32]
    by_cases hl : cfg.littleEndian <;> simp [hl]
    exact swap32_u32_reverse _ (by rw [slice_length h]; omega)

theorem readLE64_align_eq {cfg : Cfg} (hc : cfg.Valid) {b : Buf} {off : Nat} {align : Align}
    (ha : Align.Ok align 8 (b.addr + off)) (h : off + 8 ≤ b.bytes.length) :
    readLE64_align cfg b off align = some (u64 (slice b.bytes off (off+8))) := by
  unfold readLE64_align
  split
  · exact readLE64_eq hc h
  · next hu =>
    have : align = .aligned := by cases align <;> simp_all
    simp only [deref64, ha this, assert, readBytes_eq h, native64]
    by_cases hl : cfg.littleEndian <;> simp [hl]
    exact swap64_u64_reverse _ (by rw [slice_length h]; omega)

theorem writeBytes_eq {dst : List Byte} {off : Nat} {src : List Byte}
    (h : off + src.length ≤ dst.length) :
    writeBytes dst off src = some (dst.take off ++ src ++ dst.drop (off + src.length)) := by
  simp [writeBytes, h]

theorem size_lt {cfg : Cfg} (hc : cfg.Valid) {b : Buf} (hf : b.Fits cfg) {m : Nat} (hm : m ≤ 256) :
    cfg.size (m + b.bytes.length) = m + b.bytes.length := by
  have h1 := hc.sizeLo
  have h2 : 2 ^ cfg.sizeBits = 2 ^ (cfg.sizeBits - 1) * 2 := by
    rw [← Nat.pow_succ]; congr 1; omega
  have h3 : 2 ^ 15 ≤ 2 ^ (cfg.sizeBits - 1) := Nat.pow_le_pow_right (by decide) (by omega)
  unfold Buf.Fits at hf
  exact Nat.mod_eq_of_lt (by omega)

end XXH
