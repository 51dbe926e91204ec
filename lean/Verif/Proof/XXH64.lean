import Verif.Spec.XXH64
import Verif.Model.XXH64
import Verif.Proof.Bytes
import Verif.Props.Common
/-!
XXH64: the model computes the specification.
-/
namespace XXH.Proof.XXH64
open XXH.Model XXH.Spec

abbrev toSpec (v : V4 64) : Spec.XXH64.Accs := ⟨v.v1, v.v2, v.v3, v.v4⟩

theorem toSpec_initV (seed : W64) : toSpec (Model.XXH64.initV seed) = Spec.XXH64.init seed := rfl

theorem round_eq (a x : W64) : Model.XXH64.round a x = Spec.XXH64.round a x := by
  simp only [Model.XXH64.round, rotl64_eq _ 31 (by decide)]; rfl

theorem avalanche_eq (h : W64) : Model.XXH64.avalanche h = Spec.XXH64.avalanche h := rfl

theorem mergeRound_eq (a v : W64) :
    Model.XXH64.mergeRound a v = Spec.XXH64.mergeAccumulator a v := by
  simp only [Model.XXH64.mergeRound, round_eq]; rfl

theorem mergeV_eq (v : V4 64) : Model.XXH64.mergeV v = Spec.XXH64.converge (toSpec v) := by
  simp only [Model.XXH64.mergeV, rotl64_eq _ _ (show 1 < 64 by decide),
    rotl64_eq _ _ (show 7 < 64 by decide), rotl64_eq _ _ (show 12 < 64 by decide),
    rotl64_eq _ _ (show 18 < 64 by decide), mergeRound_eq]; rfl

/-! ### Tail -/

abbrev step1 (h : W64) (c : Byte) : W64 :=
  (h ^^^ c.setWidth 64 * Spec.XXH64.PRIME64_5).rotateLeft 11 * Spec.XXH64.PRIME64_1
abbrev step4 (h : W64) (w : W32) : W64 :=
  (h ^^^ w.setWidth 64 * Spec.XXH64.PRIME64_1).rotateLeft 23 * Spec.XXH64.PRIME64_2
    + Spec.XXH64.PRIME64_3
abbrev step8 (h : W64) (w : W64) : W64 :=
  (h ^^^ Spec.XXH64.round 0 w).rotateLeft 27 * Spec.XXH64.PRIME64_1 + Spec.XXH64.PRIME64_4

theorem slice_split {xs : List Byte} {off k n : Nat} (hn : k ≤ n) :
    slice xs off (off+n) = slice xs off (off+k) ++ slice xs (off+k) (off+n) := by
  simp only [slice]
  rw [show off + n - off = k + (off + n - (off + k)) by omega, List.take_add, List.drop_drop,
    show off + k - off = k by omega]

theorem slice_cons {xs : List Byte} {off n : Nat} (hn : 0 < n) (h : off + n ≤ xs.length) :
    slice xs off (off+n) = xs.getD off 0 :: slice xs (off+1) (off+n) := by
  simp only [slice]
  rw [List.drop_eq_getElem_cons (by omega), show off + n - off = (off+n-(off+1)) + 1 by omega,
    List.take_succ_cons]
  simp [show off < xs.length by omega]

theorem word64_append (xs ys : List Byte) (i : Nat) (h : 8 * i + 8 ≤ xs.length) :
    word64 (xs ++ ys) i = word64 xs i := by
  rw [word64, word64, slice_append_left _ _ _ _ h]

theorem word64_append_right (xs ys : List Byte) (i : Nat) (h : xs.length = 8) :
    word64 (xs ++ ys) (i+1) = word64 ys i := by
  rw [word64, word64, slice_append_right _ _ _ _ (by omega)]
  congr 2 <;> omega

theorem remaining_append (xs ys : List Byte) (h : xs.length = 8) (acc : W64) :
    Spec.XXH64.remaining acc (xs ++ ys) = Spec.XXH64.remaining (step8 acc (u64 xs)) ys := by
  have hn : (xs ++ ys).length / 8 = ys.length / 8 + 1 := by rw [List.length_append]; omega
  have h0 : word64 (xs ++ ys) 0 = u64 xs := by
    rw [word64_append _ _ _ (by omega), word64, slice_all _ _ (by omega)]
  simp only [Spec.XXH64.remaining, hn, List.range_succ_eq_map, List.foldl_cons, List.foldl_map, h0,
    Nat.succ_eq_add_one, word64_append_right xs ys _ h]
  rw [List.drop_append, List.drop_eq_nil_of_le (by omega), List.nil_append,
    show 8 * (ys.length/8 + 1) - xs.length = 8 * (ys.length/8) by omega]
  rfl

theorem remaining_eight {xs : List Byte} {off n : Nat} (hn : 8 ≤ n) (h : off + n ≤ xs.length)
    (acc : W64) :
    Spec.XXH64.remaining acc (slice xs off (off+n)) =
      Spec.XXH64.remaining (step8 acc (u64 (slice xs off (off+8)))) (slice xs (off+8) (off+n)) := by
  rw [slice_split hn, remaining_append _ _ (by rw [slice_length (by omega)]; omega)]

theorem remaining_lt8 {bs : List Byte} (h : bs.length < 8) (acc : W64) :
    Spec.XXH64.remaining acc bs = Spec.XXH64.remaining4 acc bs := by
  simp [Spec.XXH64.remaining, Nat.div_eq_of_lt h]

theorem remaining4_four {xs : List Byte} {off n : Nat} (hn : 4 ≤ n) (h : off + n ≤ xs.length)
    (acc : W64) :
    Spec.XXH64.remaining4 acc (slice xs off (off+n)) =
      Spec.XXH64.remaining1 (step4 acc (u32 (slice xs off (off+4)))) (slice xs (off+4) (off+n)) := by
  obtain ⟨a, b, c, d, h4, _⟩ := slice_eq4 (xs := xs) (off := off) (by omega)
  rw [slice_split hn, h4]
  simp only [List.cons_append, List.nil_append, Spec.XXH64.remaining4]

theorem remaining4_lt4 {bs : List Byte} (h : bs.length < 4) (acc : W64) :
    Spec.XXH64.remaining4 acc bs = Spec.XXH64.remaining1 acc bs := by
  refine Spec.XXH64.remaining4.eq_2 acc bs ?_
  rintro b0 b1 b2 b3 rest rfl
  simp only [List.length_cons] at h
  omega

theorem alignOk_add {align : Align} {n a k : Nat} (h : Align.Ok align n a) (hk : k % n = 0) :
    Align.Ok align n (a + k) := by
  intro hal
  rw [Nat.add_mod, h hal, hk]; simp

theorem loop8_eq {cfg : Cfg} (hc : cfg.Valid) {b : Buf} {align : Align} (fuel : Nat) :
    ∀ (acc : W64) (off len : Nat), len < fuel → off + len ≤ b.bytes.length →
    Align.Ok align 8 (b.addr + off) →
    ∃ acc', Model.XXH64.loop8 cfg b align fuel (acc, off) len =
        some ((acc', off + len/8*8), len % 8) ∧
      Spec.XXH64.remaining acc (slice b.bytes off (off+len)) =
        Spec.XXH64.remaining acc' (slice b.bytes (off + len/8*8) (off+len)) := by
  induction fuel with
  | zero => intro _ _ _ h; omega
  | succ fuel ih =>
    intro acc off len hf hlen ha
    unfold Model.XXH64.loop8
    split
    · next h8 =>
      rw [readLE64_align_eq hc ha (by omega)]
      obtain ⟨acc', h1, h2⟩ := ih (step8 acc (u64 (slice b.bytes off (off+8)))) (off+8) (len-8)
        (by omega) (by omega) (by rw [← Nat.add_assoc]; exact alignOk_add ha (by decide))
      have e1 : off + 8 + (len-8)/8*8 = off + len/8*8 := by omega
      refine ⟨acc', ?_, ?_⟩
      · simp only [Option.bind_eq_bind, Option.bind_some, round_eq,
          rotl64_eq _ _ (show 27 < 64 by decide)]
        rw [show (len - 8) % 8 = len % 8 by omega, e1] at h1
        exact h1
      · rw [remaining_eight h8 hlen]
        rw [e1, show off + 8 + (len - 8) = off + len by omega] at h2
        exact h2
    · next h8 =>
      refine ⟨acc, ?_, ?_⟩
      · rw [Nat.div_eq_of_lt (by omega), Nat.mod_eq_of_lt (by omega)]; simp
      · rw [Nat.div_eq_of_lt (by omega)]; simp

theorem loop1_eq {b : Buf} (fuel : Nat) :
    ∀ (acc : W64) (off len : Nat), len < fuel → off + len ≤ b.bytes.length →
    Model.XXH64.loop1 b fuel (acc, off) len =
      some (Spec.XXH64.remaining1 acc (slice b.bytes off (off+len)), off + len) := by
  induction fuel with
  | zero => intro _ _ _ h; omega
  | succ fuel ih =>
    intro acc off len hf hlen
    unfold Model.XXH64.loop1
    split
    · next h0 =>
      rw [read8_eq (by omega)]
      simp only [Option.bind_eq_bind, Option.bind_some, rotl64_eq _ _ (show 11 < 64 by decide)]
      rw [ih _ _ _ (by omega) (by omega), slice_cons h0 hlen,
        show off + 1 + (len - 1) = off + len by omega]
      rfl
    · next h0 =>
      have : len = 0 := by omega
      subst this
      simp [slice, Spec.XXH64.remaining1]

theorem and31 (n : Nat) : n &&& 31 = n % 32 := Nat.and_two_pow_sub_one_eq_mod n 5

theorem finalize_eq {cfg : Cfg} (hc : cfg.Valid) {b : Buf} {align : Align} (acc : W64)
    {isNull : Bool} {off len : Nat} (hnull : isNull = true → len = 0)
    (hlen : off + len % 32 ≤ b.bytes.length) (ha : Align.Ok align 8 (b.addr + off)) :
    Model.XXH64.finalize cfg acc isNull b off len align =
      some (Spec.XXH64.avalanche
        (Spec.XXH64.remaining acc (slice b.bytes off (off + len % 32)))) := by
  unfold Model.XXH64.finalize
  have hassert : assert (!isNull || len == 0) = some () := by
    cases isNull <;> simp_all [assert]
  simp only [hassert, Option.bind_eq_bind, Option.bind_some, and31]
  have hlt : len % 32 < 32 := Nat.mod_lt _ (by decide)
  generalize len % 32 = n at hlen hlt
  obtain ⟨acc', h1, h2⟩ := loop8_eq hc (b := b) (align := align) (n+1) acc off n (by omega)
    (by omega) ha
  rw [h1, h2, remaining_lt8 (by rw [slice_length hlen]; omega)]
  simp only [Option.bind_some]
  have ha4 : Align.Ok align 4 (b.addr + (off + n/8*8)) := by
    intro hal
    have := ha hal
    omega
  generalize hoff : off + n/8*8 = off' at *
  have hm : off + n = off' + n % 8 := by omega
  rw [hm]
  by_cases h4 : 4 ≤ n % 8
  · rw [if_pos h4, readLE32_align_eq hc ha4 (by omega)]
    simp only [Option.bind_some, Option.pure_def]
    rw [loop1_eq _ _ _ _ (by omega) (by omega), remaining4_four h4 (by omega),
      rotl64_eq _ _ (show 23 < 64 by decide), show off' + 4 + (n % 8 - 4) = off' + n % 8 by omega]
    rfl
  · rw [if_neg h4]
    simp only [Option.bind_some, Option.pure_def]
    rw [loop1_eq _ _ _ _ (by omega) (by omega),
      remaining4_lt4 (by rw [slice_length (by omega)]; omega)]
    rfl

/-! ### Stripes -/

theorem stripe_eq {cfg : Cfg} (hc : cfg.Valid) {b : Buf} {align : Align} {p : Nat} (v : V4 64)
    (ha : Align.Ok align 8 (b.addr + p)) (h : p + 32 ≤ b.bytes.length) :
    ∃ v', Model.XXH64.stripe cfg b align v p = some v' ∧
      toSpec v' = Spec.XXH64.stripe (toSpec v) (slice b.bytes p (p+32)) := by
  have ha' : ∀ k, k % 8 = 0 → Align.Ok align 8 (b.addr + (p + k)) := fun k hk => by
    rw [← Nat.add_assoc]; exact alignOk_add ha hk
  unfold Model.XXH64.stripe
  rw [readLE64_align_eq hc ha (by omega), readLE64_align_eq hc (ha' 8 rfl) (by omega),
    readLE64_align_eq hc (ha' 16 rfl) (by omega), readLE64_align_eq hc (ha' 24 rfl) (by omega)]
  refine ⟨_, rfl, ?_⟩
  simp only [toSpec, Spec.XXH64.stripe, round_eq, word64_slice _ _ _ 0 (show p + (8*0+8) ≤ p+32 by omega),
    word64_slice _ _ _ 1 (show p + (8*1+8) ≤ p+32 by omega),
    word64_slice _ _ _ 2 (show p + (8*2+8) ≤ p+32 by omega),
    word64_slice _ _ _ 3 (show p + (8*3+8) ≤ p+32 by omega), Nat.reduceMul, Nat.add_zero,
    Nat.add_assoc, Nat.reduceAdd]

theorem stripes_zero (a : Spec.XXH64.Accs) (xs : List Byte) : Spec.XXH64.stripes a xs 0 = a := rfl

theorem stripes_succ' (a : Spec.XXH64.Accs) (xs : List Byte) (n : Nat) :
    Spec.XXH64.stripes a xs (n+1) =
      Spec.XXH64.stripes (Spec.XXH64.stripe a (slice xs 0 32)) (xs.drop 32) n := by
  simp only [Spec.XXH64.stripes, List.range_succ_eq_map, List.foldl_cons, List.foldl_map,
    slice_drop, Nat.mul_zero, Nat.zero_add, Nat.succ_eq_add_one, Nat.mul_add, Nat.mul_one,
    Nat.add_comm]

theorem stripes_add (a : Spec.XXH64.Accs) (xs : List Byte) (n m : Nat) :
    Spec.XXH64.stripes a xs (n+m) =
      Spec.XXH64.stripes (Spec.XXH64.stripes a xs n) (xs.drop (32*n)) m := by
  induction n generalizing a xs with
  | zero => simp [stripes_zero]
  | succ n ih =>
    rw [show n + 1 + m = (n + m) + 1 by omega, stripes_succ', ih, stripes_succ', List.drop_drop]
    rw [show 32 * (n+1) = 32 + 32 * n by omega]

theorem stripes_append (a : Spec.XXH64.Accs) (xs ys : List Byte) (n : Nat)
    (h : 32 * n ≤ xs.length) :
    Spec.XXH64.stripes a (xs ++ ys) n = Spec.XXH64.stripes a xs n := by
  induction n generalizing a xs with
  | zero => simp only [stripes_zero]
  | succ n ih =>
    rw [stripes_succ', stripes_succ', slice_append_left _ _ _ _ (by omega),
      List.drop_append_of_le_length (by omega), ih _ _ (by simp; omega)]

theorem stripeLoop_eq {cfg : Cfg} (hc : cfg.Valid) {b : Buf} {align : Align} {len : Nat}
    (hlen : len = b.bytes.length) (fuel : Nat) :
    ∀ (v : V4 64) (p : Nat), p + 32 ≤ len → len < fuel + p + 32 →
    Align.Ok align 8 (b.addr + p) →
    ∃ v', Model.XXH64.stripeLoop cfg b align (len - 31) fuel v p =
        some (v', p + 32 * ((len - p)/32)) ∧
      toSpec v' = Spec.XXH64.stripes (toSpec v) (b.bytes.drop p) ((len - p)/32) := by
  induction fuel with
  | zero => intro v p h1 h2; omega
  | succ fuel ih =>
    intro v p hp hf ha
    obtain ⟨v1, hv1, hv1'⟩ := stripe_eq hc v ha (by omega)
    unfold Model.XXH64.stripeLoop
    simp only [hv1, Option.bind_eq_bind, Option.bind_some]
    have en : (len - p)/32 = (len - (p+32))/32 + 1 := by omega
    split
    · next hlt =>
      obtain ⟨v2, hv2, hv2'⟩ := ih v1 (p+32) (by omega) (by omega)
        (by rw [← Nat.add_assoc]; exact alignOk_add ha rfl)
      refine ⟨v2, ?_, ?_⟩
      · rw [hv2, en]; congr 2; omega
      · rw [hv2', en, stripes_succ', hv1', slice_drop, List.drop_drop]; rfl
    · next hlt =>
      have : (len - (p+32))/32 = 0 := by omega
      refine ⟨v1, ?_, ?_⟩
      · rw [en, this]
      · rw [en, this, stripes_succ', stripes_zero, slice_drop]; exact hv1'

theorem updateLoop_eq {cfg : Cfg} (hc : cfg.Valid) {b : Buf} {len : Nat}
    (hlen : len = b.bytes.length) (fuel : Nat) :
    ∀ (v : V4 64) (p : Nat), p + 32 ≤ len → len < fuel + p + 32 →
    ∃ v', Model.XXH64.updateLoop cfg b (len - 32) fuel v p =
        some (v', p + 32 * ((len - p)/32)) ∧
      toSpec v' = Spec.XXH64.stripes (toSpec v) (b.bytes.drop p) ((len - p)/32) := by
  induction fuel with
  | zero => intro v p h1 h2; omega
  | succ fuel ih =>
    intro v p hp hf
    obtain ⟨v1, hv1, hv1'⟩ := stripe_eq hc v (align := .unaligned) (p := p) (b := b)
      (by intro h; cases h) (by omega)
    unfold Model.XXH64.updateLoop
    simp only [hv1, Option.bind_eq_bind, Option.bind_some]
    have en : (len - p)/32 = (len - (p+32))/32 + 1 := by omega
    split
    · next hlt =>
      obtain ⟨v2, hv2, hv2'⟩ := ih v1 (p+32) (by omega) (by omega)
      refine ⟨v2, ?_, ?_⟩
      · rw [hv2, en]; congr 2; omega
      · rw [hv2', en, stripes_succ', hv1', slice_drop, List.drop_drop]; rfl
    · next hlt =>
      have : (len - (p+32))/32 = 0 := by omega
      refine ⟨v1, ?_, ?_⟩
      · rw [en, this]
      · rw [en, this, stripes_succ', stripes_zero, slice_drop]; exact hv1'

/-! ### One-shot -/

theorem endian_align_eq {cfg : Cfg} (hc : cfg.Valid) {input : Ptr} {len : Nat} {align : Align}
    (hlen : input.buf.bytes.length = len) (seed : W64)
    (ha : Align.Ok align 8 input.buf.addr) :
    Model.XXH64.endian_align cfg input len seed align =
      some (Spec.XXH64.hash input.buf.bytes seed) := by
  unfold Model.XXH64.endian_align
  have hnull : input.isNone = true → len = 0 := by
    cases input <;> simp [Ptr.buf] at hlen ⊢; exact hlen.symm
  have hassert : assert (!input.isNone || len == 0) = some () := by
    cases h : input.isNone <;> simp_all [assert]
  simp only [hassert, Option.bind_eq_bind, Option.bind_some]
  generalize hb : input.buf = b at hlen ha
  by_cases h16 : 32 ≤ len
  · simp only [h16, if_true]
    obtain ⟨v, hv, hv'⟩ := stripeLoop_eq hc (align := align) hlen.symm len (Model.XXH64.initV seed) 0
      (by omega) (by omega) (by simpa using ha)
    rw [hv]
    simp only [Option.bind_some, Option.pure_def]
    rw [finalize_eq hc _ (by intro h; simp [hnull h]) (by omega)
      (alignOk_add ha (by omega)), mergeV_eq, hv']
    simp only [Spec.XXH64.hash, hlen]
    rw [if_neg (by omega)]
    congr 3
    · simp only [slice, Nat.zero_add]
      rw [List.take_of_length_le (by simp; omega), show 32 * ((len - 0)/32) = len/32*32 by omega]
  · simp only [h16, if_false, Option.bind_some, Option.pure_def]
    rw [finalize_eq hc _ (by intro h; simp [hnull h]) (by omega) (by simpa using ha)]
    simp only [Spec.XXH64.hash, hlen]
    rw [if_pos (by omega)]
    congr 3
    simp only [slice]
    rw [show len / 32 * 32 = 0 by omega, List.take_of_length_le (by simp; omega)]

/-! ### Streaming -/

/-- The state represents the message `msg` hashed with `seed`. -/
structure Repr (seed : W64) (msg : List Byte) (s : Model.XXH64.State) : Prop where
  total : s.total_len = BitVec.ofNat 64 msg.length
  lanes : toSpec s.v = Spec.XXH64.stripes (Spec.XXH64.init seed) msg (msg.length/32)
  memLen : s.mem64.length = 32
  size : s.memsize = msg.length % 32
  tail : s.mem64.take s.memsize = msg.drop (msg.length/32*32)

theorem reset_repr (s0 : Model.XXH64.State) (seed : W64) :
    ∃ s, Model.XXH64.reset (some s0) seed = some (s, .ok) ∧ Repr seed [] s := by
  refine ⟨_, rfl, ?_⟩
  constructor <;> simp [stripes_zero, toSpec_initV]

theorem updateFill_eq {cfg : Cfg} (hc : cfg.Valid) {b : Buf} {s : Model.XXH64.State}
    (hms : s.mem64.length = 32) (hm : s.memsize < 32) (hb : 32 ≤ s.memsize + b.bytes.length) :
    ∃ s1, Model.XXH64.updateFill cfg s b = some (s1, (32 - s.memsize) % 32) ∧
      toSpec s1.v = (if s.memsize = 0 then toSpec s.v else
        Spec.XXH64.stripe (toSpec s.v) ((s.mem64.take s.memsize ++ b.bytes).take 32)) ∧
      s1.memsize = 0 ∧ s1.mem64.length = 32 ∧ s1.total_len = s.total_len := by
  unfold Model.XXH64.updateFill
  by_cases h0 : s.memsize = 0
  · rw [if_neg (by simpa using h0)]
    exact ⟨s, by simp [h0], by simp [h0], h0, hms, rfl⟩
  · rw [if_pos h0, readBytes_eq (by omega)]
    simp only [Option.bind_eq_bind, Option.bind_some, Nat.zero_add]
    rw [writeBytes_eq (by rw [slice_length (by omega)]; omega)]
    simp only [Option.bind_some]
    rw [slice_length (by omega), show s.memsize + (32 - s.memsize - 0) = 32 by omega,
      List.drop_of_length_le (by omega), List.append_nil]
    have hl16 : (s.mem64.take s.memsize ++ slice b.bytes 0 (32 - s.memsize)).length = 32 := by
      simp [slice]; omega
    obtain ⟨v, hv, hv'⟩ := stripe_eq hc (align := .unaligned) (p := 0) s.v
      (b := ⟨0, s.mem64.take s.memsize ++ slice b.bytes 0 (32 - s.memsize)⟩)
      (by intro h; cases h) (by simp only; omega)
    rw [hv]
    refine ⟨{ s with mem64 := _, v := v, memsize := 0 }, ?_, ?_, rfl, hl16, rfl⟩
    · rw [Nat.mod_eq_of_lt (by omega)]; rfl
    · rw [if_neg h0]
      simp only []
      rw [hv', Nat.zero_add, slice_all _ _ hl16.le]
      congr 1
      have hl : (s.mem64.take s.memsize).length = s.memsize := by simp; omega
      rw [List.take_append, hl, List.take_of_length_le (l := s.mem64.take s.memsize) (by omega)]
      simp [slice]

theorem updateBulk_eq {cfg : Cfg} (hc : cfg.Valid) {b : Buf} (s : Model.XXH64.State) (p : Nat) :
    ∃ v, Model.XXH64.updateBulk cfg s b p b.bytes.length =
        some ({ s with v := v }, p + 32 * ((b.bytes.length - p)/32)) ∧
      toSpec v = Spec.XXH64.stripes (toSpec s.v) (b.bytes.drop p) ((b.bytes.length - p)/32) := by
  unfold Model.XXH64.updateBulk
  split
  · next h =>
    obtain ⟨v, hv, hv'⟩ := updateLoop_eq hc (b := b) rfl b.bytes.length s.v p h (by omega)
    refine ⟨v, ?_, hv'⟩
    simp [hv]
  · next h =>
    refine ⟨s.v, ?_, ?_⟩
    · rw [show (b.bytes.length - p)/32 = 0 by omega]; rfl
    · rw [show (b.bytes.length - p)/32 = 0 by omega]; rfl

theorem updateRest_eq {b : Buf} (s : Model.XXH64.State) (p : Nat) (hms : s.mem64.length = 32)
    (h0 : s.memsize = 0) (hp : b.bytes.length < p + 32) :
    ∃ mem, Model.XXH64.updateRest s b p b.bytes.length =
        some { s with mem64 := mem, memsize := b.bytes.length - p } ∧
      mem.length = 32 ∧ mem.take (b.bytes.length - p) = b.bytes.drop p := by
  unfold Model.XXH64.updateRest
  split
  · next h =>
    rw [readBytes_eq (by omega)]
    simp only [Option.bind_eq_bind, Option.bind_some]
    rw [writeBytes_eq (by rw [slice_length (by omega)]; omega)]
    refine ⟨_, rfl, ?_, ?_⟩
    · simp [slice]; omega
    · rw [show p + (b.bytes.length - p) = b.bytes.length by omega]
      simp only [slice, List.take_zero, List.nil_append]
      rw [List.take_append_of_le_length (by simp), List.take_of_length_le (by simp),
        List.take_of_length_le (by simp)]
  · next h =>
    refine ⟨s.mem64, ?_, hms, ?_⟩
    · rw [show b.bytes.length - p = 0 by omega, ← h0]; rfl
    · rw [show b.bytes.length - p = 0 by omega, List.drop_eq_nil_of_le (by omega)]; rfl

theorem update_repr {cfg : Cfg} (hc : cfg.Valid) {seed : W64} {msg : List Byte}
    {s : Model.XXH64.State} (hr : Repr seed msg s) {p : Ptr} {len : Nat}
    (hp : Readable cfg p len) :
    ∃ s', Model.XXH64.update cfg s p len = some (s', .ok) ∧ Repr seed (msg ++ contents p) s' := by
  cases p with
  | none =>
    have h0 : len = 0 := by have := hp.length; simpa [Ptr.buf] using this.symm
    subst h0
    refine ⟨s, rfl, ?_⟩
    simpa [contents, Ptr.buf] using hr
  | some b =>
    obtain rfl : b.bytes.length = len := hp.length
    have hsz := size_lt hc (b := b) hp.fits (m := s.memsize) (by rw [hr.size]; omega)
    have hm := hr.size
    have hms := hr.memLen
    have htot : s.total_len + BitVec.ofNat 64 b.bytes.length
        = BitVec.ofNat 64 (msg ++ b.bytes).length := by
      rw [hr.total, ← BitVec.ofNat_add, List.length_append]
    show ∃ s', Model.XXH64.update cfg s (some b) b.bytes.length = some (s', .ok) ∧
      Repr seed (msg ++ b.bytes) s'
    unfold Model.XXH64.update
    simp only [hsz, Option.bind_eq_bind, Option.pure_def]
    by_cases hsmall : s.memsize + b.bytes.length < 32
    · -- everything fits in the buffer
      rw [if_pos hsmall, readBytes_eq (by omega)]
      simp only [Option.bind_some]
      rw [writeBytes_eq (by rw [slice_length (by omega)]; omega)]
      refine ⟨_, rfl, ?_⟩
      have hdiv : (msg ++ b.bytes).length / 32 = msg.length / 32 := by
        rw [List.length_append]; omega
      constructor
      · exact htot
      · rw [hdiv, stripes_append _ _ _ _ (by omega)]; exact hr.lanes
      · simp [slice, hms]; omega
      · simp only [List.length_append]; omega
      · simp only [hdiv]
        rw [List.drop_append_of_le_length (by omega), ← hr.tail]
        rw [Nat.zero_add, slice_all _ _ (by omega), List.take_append_of_le_length]
        · rw [List.take_of_length_le]
          simp
        · simp; omega
    · rw [if_neg hsmall]
      obtain ⟨s1, hs1, hv1, hms1, hmem1, htl1⟩ := updateFill_eq hc (b := b)
        (s := { total_len := s.total_len + BitVec.ofNat 64 b.bytes.length,
                v := s.v, mem64 := s.mem64, memsize := s.memsize }) hms (by simp only; omega)
        (by simp only; omega)
      simp only at hs1 hv1 htl1
      rw [hs1]
      simp only [Option.bind_some]
      generalize hp1 : (32 - s.memsize) % 32 = p1
      obtain ⟨v2, hs2, hv2⟩ := updateBulk_eq hc (b := b) s1 p1
      rw [hs2]
      simp only [Option.bind_some]
      obtain ⟨mem, hs3, hml, htl⟩ := updateRest_eq (b := b) { s1 with v := v2 }
        (p1 + 32 * ((b.bytes.length - p1)/32)) hmem1 hms1 (by omega)
      rw [hs3]
      refine ⟨_, rfl, ?_⟩
      -- lanes after the first stage
      obtain ⟨k, hk, hk1⟩ : ∃ k, 32 * k = msg.length + p1 ∧
          toSpec s1.v = Spec.XXH64.stripes (Spec.XXH64.init seed) (msg ++ b.bytes) k := by
        by_cases h0 : s.memsize = 0
        · refine ⟨msg.length/32, by omega, ?_⟩
          rw [hv1, if_pos h0, stripes_append _ _ _ _ (by omega)]; exact hr.lanes
        · refine ⟨msg.length/32 + 1, by omega, ?_⟩
          rw [hv1, if_neg h0, stripes_add, stripes_append _ _ _ _ (by omega), stripes_succ',
            stripes_zero, hr.lanes, hr.tail]
          congr 1
          rw [show 32 * (msg.length/32) = msg.length/32*32 by omega,
            List.drop_append_of_le_length (by omega)]
          rfl
      have hdiv : (msg ++ b.bytes).length / 32 = k + (b.bytes.length - p1)/32 := by
        rw [List.length_append]; omega
      have hle : msg.length ≤ 32 * k := by omega
      constructor
      · exact htl1.trans htot
      · rw [hdiv, stripes_add, ← hk1, hv2, List.drop_append, List.drop_eq_nil_of_le hle,
          List.nil_append, show 32 * k - msg.length = p1 by omega]
      · exact hml
      · simp only [List.length_append]; omega
      · simp only []
        rw [htl, hdiv, List.drop_append,
          List.drop_eq_nil_of_le (as := msg) (by omega), List.nil_append]
        congr 1; omega

theorem digest_repr {cfg : Cfg} (hc : cfg.Valid) {seed : W64} {msg : List Byte}
    (hmsg : msg.length < 2^64) {s : Model.XXH64.State} (hr : Repr seed msg s) :
    Model.XXH64.digest cfg s = some (Spec.XXH64.hash msg seed) := by
  have hm := hr.size
  have hms := hr.memLen
  have htn : s.total_len.toNat = msg.length := by
    rw [hr.total, BitVec.toNat_ofNat, Nat.mod_eq_of_lt hmsg]
  have hsz : cfg.size s.total_len.toNat % 32 = s.memsize := by
    rw [htn, Cfg.size, hm]
    have h1 := hc.sizeLo
    rw [show cfg.sizeBits = (cfg.sizeBits - 5) + 5 by omega, Nat.pow_add, Nat.mul_comm]
    exact Nat.mod_mul_right_mod _ _ _
  unfold Model.XXH64.digest
  rw [finalize_eq hc _ (by intro h; cases h)
    (by simp only [Model.XXH64.State.buf]; omega) (by intro _; rfl)]
  have htail : slice s.buf.bytes 0 (0 + cfg.size s.total_len.toNat % 32)
      = msg.drop (msg.length/32*32) := by
    rw [← hr.tail, hsz]
    simp [slice, Model.XXH64.State.buf]
  rw [htail, htn, hr.total]
  by_cases h32 : 32 ≤ msg.length
  · rw [if_pos h32, mergeV_eq, hr.lanes]
    simp only [Spec.XXH64.hash]
    rw [if_neg (by omega)]
  · rw [if_neg h32]
    have hl := hr.lanes
    rw [show msg.length/32 = 0 by omega, stripes_zero] at hl
    have h3 : s.v.v3 = seed := (congrArg Spec.XXH64.Accs.acc3 hl).trans (BitVec.add_zero seed)
    simp only [Spec.XXH64.hash]
    rw [if_pos (by omega), h3]
    rfl

/-- Whatever the length, a digest is defined. -/
theorem digest_defined {cfg : Cfg} (hc : cfg.Valid) {seed : W64} {msg : List Byte}
    {s : Model.XXH64.State} (hr : Repr seed msg s) : ∃ h, Model.XXH64.digest cfg s = some h := by
  have hms := hr.memLen
  refine ⟨_, finalize_eq hc _ (by intro h; cases h) ?_ (by intro _; rfl)⟩
  simp only [Model.XXH64.State.buf]
  omega

theorem XXH64_eq {cfg : Cfg} (hc : cfg.Valid) {p : Ptr} {len : Nat} (hp : Readable cfg p len)
    (seed : W64) :
    Model.XXH64.XXH64 cfg p len seed = some (Spec.XXH64.hash (contents p) seed) := by
  unfold Model.XXH64.XXH64
  split
  · obtain ⟨s1, h1, hr1⟩ := reset_repr ⟨0, ⟨0, 0, 0, 0⟩, List.replicate 32 0, 0⟩ seed
    obtain ⟨s2, h2, hr2⟩ := update_repr hc hr1 hp
    simp only [h1, h2, Option.bind_eq_bind, Option.bind_some]
    refine digest_repr hc ?_ hr2
    have h3 := hp.fits
    have h4 := hc.sizeHi
    have h5 : 2 ^ (cfg.sizeBits - 1) ≤ 2 ^ 64 := Nat.pow_le_pow_right (by decide) (by omega)
    unfold Buf.Fits at h3
    exact Nat.lt_of_lt_of_le h3 h5
  · split
    · next h =>
      refine endian_align_eq hc hp.length seed ?_
      intro _
      rw [← h.2]
      exact (Nat.and_two_pow_sub_one_eq_mod _ 3).symm
    · exact endian_align_eq hc hp.length seed (by intro h; cases h)

/-! ### Canonical form -/

theorem canonicalFromHash_eq (cfg : Cfg) (h : W64) :
    Model.XXH64.canonicalFromHash cfg h = beBytes 8 h := by
  unfold Model.XXH64.canonicalFromHash nativeBytes
  simp only [nativeBytes_le]
  by_cases hl : cfg.littleEndian
  · simp only [hl, if_true, leBytes_swap64]
  · simp only [hl]; rfl

end XXH.Proof.XXH64
