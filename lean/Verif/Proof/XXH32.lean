import Verif.Spec.XXH32
import Verif.Model.XXH32
import Verif.Proof.Bytes
import Verif.Props.Common
/-!
XXH32: the model computes the specification.
-/
namespace XXH.Proof.XXH32
open XXH.Model XXH.Spec

abbrev toSpec (v : V4 32) : Spec.XXH32.Accs := ⟨v.v1, v.v2, v.v3, v.v4⟩

theorem toSpec_initV (seed : W32) : toSpec (Model.XXH32.initV seed) = Spec.XXH32.init seed := rfl

theorem round_eq (a x : W32) : Model.XXH32.round a x = Spec.XXH32.round a x := by
  simp only [Model.XXH32.round, rotl32_eq _ 13 (by decide)]; rfl

theorem avalanche_eq (h : W32) : Model.XXH32.avalanche h = Spec.XXH32.avalanche h := rfl

theorem mergeV_eq (v : V4 32) : Model.XXH32.mergeV v = Spec.XXH32.converge (toSpec v) := by
  simp only [Model.XXH32.mergeV, rotl32_eq _ _ (show 1 < 32 by decide),
    rotl32_eq _ _ (show 7 < 32 by decide), rotl32_eq _ _ (show 12 < 32 by decide),
    rotl32_eq _ _ (show 18 < 32 by decide)]; rfl

/-! ### Tail -/

abbrev step1 (h : W32) (c : Byte) : W32 :=
  (h + c.setWidth 32 * Spec.XXH32.PRIME32_5).rotateLeft 11 * Spec.XXH32.PRIME32_1
abbrev step4 (h : W32) (w : W32) : W32 :=
  (h + w * Spec.XXH32.PRIME32_3).rotateLeft 17 * Spec.XXH32.PRIME32_4

theorem remaining_four {xs : List Byte} {off n : Nat} (hn : 4 ≤ n) (h : off + n ≤ xs.length)
    (acc : W32) :
    Spec.XXH32.remaining acc (slice xs off (off+n)) =
      Spec.XXH32.remaining (step4 acc (u32 (slice xs off (off+4)))) (slice xs (off+4) (off+n)) := by
  have hs : slice xs off (off+n) = slice xs off (off+4) ++ slice xs (off+4) (off+n) := by
    simp only [slice]
    rw [show off + n - off = 4 + (off + n - (off + 4)) by omega, List.take_add, List.drop_drop,
      show off + 4 - off = 4 by omega]
  obtain ⟨a, b, c, d, h4, _⟩ := slice_eq4 (xs := xs) (off := off) (by omega)
  rw [hs, h4]
  simp only [List.cons_append, List.nil_append, Spec.XXH32.remaining]

theorem slice_cons {xs : List Byte} {off n : Nat} (hn : 0 < n) (h : off + n ≤ xs.length) :
    slice xs off (off+n) = xs.getD off 0 :: slice xs (off+1) (off+n) := by
  simp only [slice]
  rw [List.drop_eq_getElem_cons (by omega), show off + n - off = (off+n-(off+1)) + 1 by omega,
    List.take_succ_cons]
  simp [show off < xs.length by omega]

theorem remaining_one {xs : List Byte} {off n : Nat} (hn : 0 < n) (hn4 : n < 4)
    (h : off + n ≤ xs.length) (acc : W32) :
    Spec.XXH32.remaining acc (slice xs off (off+n)) =
      Spec.XXH32.remaining (step1 acc (xs.getD off 0)) (slice xs (off+1) (off+n)) := by
  rw [slice_cons hn h]
  have hl : (slice xs (off+1) (off+n)).length < 3 := by rw [slice_length h]; omega
  rcases hrest : slice xs (off+1) (off+n) with _ | ⟨a, _ | ⟨b, _ | ⟨c, rest⟩⟩⟩
  · simp [Spec.XXH32.remaining]
  · simp [Spec.XXH32.remaining]
  · simp [Spec.XXH32.remaining]
  · rw [hrest] at hl; simp at hl; omega

theorem remaining_zero (xs : List Byte) (off : Nat) (acc : W32) :
    Spec.XXH32.remaining acc (slice xs off off) = acc := by
  simp [slice, Spec.XXH32.remaining]

theorem process1_eq {b : Buf} {off : Nat} (h : off < b.bytes.length) (acc : W32) :
    Model.XXH32.process1 b (acc, off) = some (step1 acc (b.bytes.getD off 0), off + 1) := by
  simp only [Model.XXH32.process1, read8_eq h, rotl32_eq _ _ (show 11 < 32 by decide)]; rfl

theorem process4_eq {cfg : Cfg} (hc : cfg.Valid) {b : Buf} {align : Align} {off : Nat}
    (ha : Align.Ok align 4 (b.addr + off)) (h : off + 4 ≤ b.bytes.length) (acc : W32) :
    Model.XXH32.process4 cfg b align (acc, off) =
      some (step4 acc (u32 (slice b.bytes off (off+4))), off + 4) := by
  simp only [Model.XXH32.process4, readLE32_align_eq hc ha h,
    rotl32_eq _ _ (show 17 < 32 by decide)]; rfl

theorem alignOk_add {align : Align} {n a k : Nat} (h : Align.Ok align n a) (hk : k % n = 0) :
    Align.Ok align n (a + k) := by
  intro hal
  rw [Nat.add_mod, h hal, hk]; simp

theorem loop4_eq {cfg : Cfg} (hc : cfg.Valid) {b : Buf} {align : Align} (fuel : Nat) :
    ∀ (acc : W32) (off len : Nat), len < fuel → off + len ≤ b.bytes.length →
    Align.Ok align 4 (b.addr + off) →
    ∃ acc', Model.XXH32.loop4 cfg b align fuel (acc, off) len =
        some ((acc', off + len/4*4), len % 4) ∧
      Spec.XXH32.remaining acc (slice b.bytes off (off+len)) =
        Spec.XXH32.remaining acc' (slice b.bytes (off + len/4*4) (off+len)) := by
  induction fuel with
  | zero => intro _ _ _ h; omega
  | succ fuel ih =>
    intro acc off len hf hlen ha
    unfold Model.XXH32.loop4
    split
    · next h4 =>
      rw [process4_eq hc ha (by omega)]
      obtain ⟨acc', h1, h2⟩ := ih (step4 acc (u32 (slice b.bytes off (off+4)))) (off+4) (len-4)
        (by omega) (by omega) (by rw [← Nat.add_assoc]; exact alignOk_add ha (by decide))
      refine ⟨acc', ?_, ?_⟩
      · simp only [Option.bind_eq_bind, Option.bind_some]
        rw [h1]
        have e1 : off + 4 + (len-4)/4*4 = off + len/4*4 := by omega
        have e2 : (len - 4) % 4 = len % 4 := by omega
        rw [e1, e2]
      · rw [remaining_four h4 hlen]
        have e1 : off + 4 + (len-4)/4*4 = off + len/4*4 := by omega
        have e2 : off + 4 + (len - 4) = off + len := by omega
        rw [e1, e2] at h2
        exact h2
    · next h4 =>
      refine ⟨acc, ?_, ?_⟩
      · rw [Nat.div_eq_of_lt (by omega), Nat.mod_eq_of_lt (by omega)]; simp
      · rw [Nat.div_eq_of_lt (by omega)]; simp

theorem loop1_eq {b : Buf} (fuel : Nat) :
    ∀ (acc : W32) (off len : Nat), len < fuel → len < 4 → off + len ≤ b.bytes.length →
    Model.XXH32.loop1 b fuel (acc, off) len =
      some (Spec.XXH32.remaining acc (slice b.bytes off (off+len)), off + len) := by
  induction fuel with
  | zero => intro _ _ _ h; omega
  | succ fuel ih =>
    intro acc off len hf h4 hlen
    unfold Model.XXH32.loop1
    split
    · next h0 =>
      rw [process1_eq (by omega)]
      simp only [Option.bind_eq_bind, Option.bind_some]
      rw [ih _ _ _ (by omega) (by omega) (by omega), remaining_one h0 h4 hlen]
      have e : off + 1 + (len - 1) = off + len := by omega
      rw [e]
    · next h0 =>
      have : len = 0 := by omega
      subst this
      simp [remaining_zero]

theorem and15 (n : Nat) : n &&& 15 = n % 16 := Nat.and_two_pow_sub_one_eq_mod n 4

theorem finalize_eq {cfg : Cfg} (hc : cfg.Valid) {b : Buf} {align : Align} (acc : W32)
    {isNull : Bool} {off len : Nat} (hnull : isNull = true → len = 0)
    (hlen : off + len % 16 ≤ b.bytes.length) (ha : Align.Ok align 4 (b.addr + off)) :
    Model.XXH32.finalize cfg acc isNull b off len align =
      some (Spec.XXH32.avalanche
        (Spec.XXH32.remaining acc (slice b.bytes off (off + len % 16)))) := by
  unfold Model.XXH32.finalize
  have hassert : assert (!isNull || len == 0) = some () := by
    cases isNull <;> simp_all [assert]
  simp only [hassert, Option.bind_eq_bind, Option.bind_some, and15]
  have hlt : len % 16 < 16 := Nat.mod_lt _ (by decide)
  generalize len % 16 = n at hlen hlt
  by_cases hj : cfg.endJmp
  · simp only [hj, Bool.not_true, Bool.false_eq_true, if_false]
    have hs4 : ∀ (acc : W32) (k : Nat), k % 4 = 0 → k + 4 ≤ n →
        Model.XXH32.process4 cfg b align (acc, off + k) =
          some (step4 acc (u32 (slice b.bytes (off+k) (off+k+4))), off + k + 4) :=
      fun acc k hk hkn => process4_eq hc (by rw [← Nat.add_assoc]; exact alignOk_add ha hk)
        (by omega) acc
    have hs1 : ∀ (acc : W32) (k : Nat), k < n →
        Model.XXH32.process1 b (acc, off + k) =
          some (step1 acc (b.bytes.getD (off+k) 0), off + k + 1) :=
      fun acc k hkn => process1_eq (by omega) acc
    have hr4 : ∀ (acc : W32) (k : Nat), k + 4 ≤ n →
        Spec.XXH32.remaining acc (slice b.bytes (off+k) (off+n)) =
          Spec.XXH32.remaining (step4 acc (u32 (slice b.bytes (off+k) (off+k+4))))
            (slice b.bytes (off+k+4) (off+n)) := by
      intro acc k hk
      have := remaining_four (xs := b.bytes) (off := off+k) (n := n-k) (by omega) (by omega) acc
      rwa [show off + k + (n-k) = off + n by omega] at this
    have hr1 : ∀ (acc : W32) (k : Nat), k < n → n < k + 4 →
        Spec.XXH32.remaining acc (slice b.bytes (off+k) (off+n)) =
          Spec.XXH32.remaining (step1 acc (b.bytes.getD (off+k) 0))
            (slice b.bytes (off+k+1) (off+n)) := by
      intro acc k hk hk4
      have := remaining_one (xs := b.bytes) (off := off+k) (n := n-k) (by omega) (by omega)
        (by omega) acc
      rwa [show off + k + (n-k) = off + n by omega] at this
    have hs40 := fun acc => hs4 acc 0 rfl
    have hs10 := fun acc => hs1 acc 0
    have hr40 := fun acc => hr4 acc 0
    have hr10 := fun acc => hr1 acc 0
    simp only [Nat.add_zero] at hs40 hs10 hr40 hr10
    interval_cases n
    all_goals
      simp (disch := omega) only [hs4, hs1, hr4, hr1, hs40, hs10, hr40, hr10, Option.bind_some,
        Nat.add_assoc, Nat.reduceAdd, avalanche_eq, remaining_zero, Nat.add_zero, Option.pure_def]
  · simp only [hj, Bool.not_false, if_true]
    obtain ⟨acc', h1, h2⟩ := loop4_eq hc (b := b) (align := align) (n+1) acc off n (by omega)
      (by omega) ha
    rw [h1]
    simp only [Option.bind_some]
    rw [loop1_eq _ _ _ _ (by omega) (by omega) (by omega), h2]
    rw [show off + n/4*4 + n%4 = off + n by omega]
    rfl

/-! ### Stripes -/

theorem stripe_eq {cfg : Cfg} (hc : cfg.Valid) {b : Buf} {align : Align} {p : Nat} (v : V4 32)
    (ha : Align.Ok align 4 (b.addr + p)) (h : p + 16 ≤ b.bytes.length) :
    ∃ v', Model.XXH32.stripe cfg b align v p = some v' ∧
      toSpec v' = Spec.XXH32.stripe (toSpec v) (slice b.bytes p (p+16)) := by
  have ha' : ∀ k, k % 4 = 0 → Align.Ok align 4 (b.addr + (p + k)) := fun k hk => by
    rw [← Nat.add_assoc]; exact alignOk_add ha hk
  unfold Model.XXH32.stripe
  rw [readLE32_align_eq hc ha (by omega), readLE32_align_eq hc (ha' 4 rfl) (by omega),
    readLE32_align_eq hc (ha' 8 rfl) (by omega), readLE32_align_eq hc (ha' 12 rfl) (by omega)]
  refine ⟨_, rfl, ?_⟩
  simp only [toSpec, Spec.XXH32.stripe, round_eq, word32_slice _ _ _ 0 (show p + (4*0+4) ≤ p+16 by omega),
    word32_slice _ _ _ 1 (show p + (4*1+4) ≤ p+16 by omega),
    word32_slice _ _ _ 2 (show p + (4*2+4) ≤ p+16 by omega),
    word32_slice _ _ _ 3 (show p + (4*3+4) ≤ p+16 by omega), Nat.reduceMul, Nat.add_zero,
    Nat.add_assoc, Nat.reduceAdd]

theorem stripes_zero (a : Spec.XXH32.Accs) (xs : List Byte) : Spec.XXH32.stripes a xs 0 = a := rfl

theorem stripes_succ' (a : Spec.XXH32.Accs) (xs : List Byte) (n : Nat) :
    Spec.XXH32.stripes a xs (n+1) =
      Spec.XXH32.stripes (Spec.XXH32.stripe a (slice xs 0 16)) (xs.drop 16) n := by
  simp only [Spec.XXH32.stripes, List.range_succ_eq_map, List.foldl_cons, List.foldl_map,
    slice_drop, Nat.mul_zero, Nat.zero_add, Nat.succ_eq_add_one, Nat.mul_add, Nat.mul_one,
    Nat.add_comm]

theorem stripes_add (a : Spec.XXH32.Accs) (xs : List Byte) (n m : Nat) :
    Spec.XXH32.stripes a xs (n+m) =
      Spec.XXH32.stripes (Spec.XXH32.stripes a xs n) (xs.drop (16*n)) m := by
  induction n generalizing a xs with
  | zero => simp [stripes_zero]
  | succ n ih =>
    rw [show n + 1 + m = (n + m) + 1 by omega, stripes_succ', ih, stripes_succ', List.drop_drop]
    rw [show 16 * (n+1) = 16 + 16 * n by omega]

theorem stripes_append (a : Spec.XXH32.Accs) (xs ys : List Byte) (n : Nat)
    (h : 16 * n ≤ xs.length) :
    Spec.XXH32.stripes a (xs ++ ys) n = Spec.XXH32.stripes a xs n := by
  induction n generalizing a xs with
  | zero => simp only [stripes_zero]
  | succ n ih =>
    rw [stripes_succ', stripes_succ', slice_append_left _ _ _ _ (by omega),
      List.drop_append_of_le_length (by omega), ih _ _ (by simp; omega)]

theorem stripeLoop_eq {cfg : Cfg} (hc : cfg.Valid) {b : Buf} {align : Align} {len : Nat}
    (hlen : len = b.bytes.length) (fuel : Nat) :
    ∀ (v : V4 32) (p : Nat), p + 16 ≤ len → len < fuel + p + 16 →
    Align.Ok align 4 (b.addr + p) →
    ∃ v', Model.XXH32.stripeLoop cfg b align (len - 15) fuel v p =
        some (v', p + 16 * ((len - p)/16)) ∧
      toSpec v' = Spec.XXH32.stripes (toSpec v) (b.bytes.drop p) ((len - p)/16) := by
  induction fuel with
  | zero => intro v p h1 h2; omega
  | succ fuel ih =>
    intro v p hp hf ha
    obtain ⟨v1, hv1, hv1'⟩ := stripe_eq hc v ha (by omega)
    unfold Model.XXH32.stripeLoop
    simp only [hv1, Option.bind_eq_bind, Option.bind_some]
    have en : (len - p)/16 = (len - (p+16))/16 + 1 := by omega
    split
    · next hlt =>
      obtain ⟨v2, hv2, hv2'⟩ := ih v1 (p+16) (by omega) (by omega)
        (by rw [← Nat.add_assoc]; exact alignOk_add ha rfl)
      refine ⟨v2, ?_, ?_⟩
      · rw [hv2, en]; congr 2; omega
      · rw [hv2', en, stripes_succ', hv1', slice_drop, List.drop_drop]; rfl
    · next hlt =>
      have : (len - (p+16))/16 = 0 := by omega
      refine ⟨v1, ?_, ?_⟩
      · rw [en, this]
      · rw [en, this, stripes_succ', stripes_zero, slice_drop]; exact hv1'

theorem updateLoop_eq {cfg : Cfg} (hc : cfg.Valid) {b : Buf} {len : Nat}
    (hlen : len = b.bytes.length) (fuel : Nat) :
    ∀ (v : V4 32) (p : Nat), p + 16 ≤ len → len < fuel + p + 16 →
    ∃ v', Model.XXH32.updateLoop cfg b (len - 16) fuel v p =
        some (v', p + 16 * ((len - p)/16)) ∧
      toSpec v' = Spec.XXH32.stripes (toSpec v) (b.bytes.drop p) ((len - p)/16) := by
  induction fuel with
  | zero => intro v p h1 h2; omega
  | succ fuel ih =>
    intro v p hp hf
    obtain ⟨v1, hv1, hv1'⟩ := stripe_eq hc v (align := .unaligned) (p := p) (b := b)
      (by intro h; cases h) (by omega)
    unfold Model.XXH32.updateLoop
    simp only [hv1, Option.bind_eq_bind, Option.bind_some]
    have en : (len - p)/16 = (len - (p+16))/16 + 1 := by omega
    split
    · next hlt =>
      obtain ⟨v2, hv2, hv2'⟩ := ih v1 (p+16) (by omega) (by omega)
      refine ⟨v2, ?_, ?_⟩
      · rw [hv2, en]; congr 2; omega
      · rw [hv2', en, stripes_succ', hv1', slice_drop, List.drop_drop]; rfl
    · next hlt =>
      have : (len - (p+16))/16 = 0 := by omega
      refine ⟨v1, ?_, ?_⟩
      · rw [en, this]
      · rw [en, this, stripes_succ', stripes_zero, slice_drop]; exact hv1'

/-! ### One-shot -/

theorem endian_align_eq {cfg : Cfg} (hc : cfg.Valid) {input : Ptr} {len : Nat} {align : Align}
    (hlen : input.buf.bytes.length = len) (seed : W32)
    (ha : Align.Ok align 4 input.buf.addr) :
    Model.XXH32.endian_align cfg input len seed align =
      some (Spec.XXH32.hash input.buf.bytes seed) := by
  unfold Model.XXH32.endian_align
  have hnull : input.isNone = true → len = 0 := by
    cases input <;> simp [Ptr.buf] at hlen ⊢; exact hlen.symm
  have hassert : assert (!input.isNone || len == 0) = some () := by
    cases h : input.isNone <;> simp_all [assert]
  simp only [hassert, Option.bind_eq_bind, Option.bind_some, and15]
  generalize hb : input.buf = b at hlen ha
  by_cases h16 : 16 ≤ len
  · simp only [h16, if_true]
    obtain ⟨v, hv, hv'⟩ := stripeLoop_eq hc (align := align) hlen.symm len (Model.XXH32.initV seed) 0
      (by omega) (by omega) (by simpa using ha)
    rw [hv]
    simp only [Option.bind_some, Option.pure_def]
    rw [finalize_eq hc _ (by intro h; simp [hnull h]) (by omega)
      (alignOk_add ha (by omega)), mergeV_eq, hv']
    simp only [Spec.XXH32.hash, hlen]
    rw [if_neg (by omega)]
    congr 3
    · simp only [slice, Nat.mod_mod, Nat.zero_add]
      rw [List.take_of_length_le (by simp; omega), show 16 * ((len - 0)/16) = len/16*16 by omega]
  · simp only [h16, if_false, Option.bind_some, Option.pure_def]
    rw [finalize_eq hc _ (by intro h; simp [hnull h]) (by omega) (by simpa using ha)]
    simp only [Spec.XXH32.hash, hlen]
    rw [if_pos (by omega)]
    congr 3
    simp only [slice]
    rw [show len / 16 * 16 = 0 by omega, List.take_of_length_le (by simp; omega)]

/-! ### Streaming -/

/-- The state represents the message `msg` hashed with `seed`. -/
structure Repr (seed : W32) (msg : List Byte) (s : Model.XXH32.State) : Prop where
  total : s.total_len_32 = BitVec.ofNat 32 msg.length
  large : s.large_len ≠ 0 ↔ 16 ≤ msg.length
  lanes : toSpec s.v = Spec.XXH32.stripes (Spec.XXH32.init seed) msg (msg.length/16)
  memLen : s.mem32.length = 16
  size : s.memsize = msg.length % 16
  tail : s.mem32.take s.memsize = msg.drop (msg.length/16*16)

theorem reset_repr (s0 : Model.XXH32.State) (seed : W32) :
    ∃ s, Model.XXH32.reset (some s0) seed = some (s, .ok) ∧ Repr seed [] s := by
  refine ⟨_, rfl, ?_⟩
  constructor <;> simp [stripes_zero, toSpec_initV]

theorem large_update {seed : W32} {msg : List Byte} {s : Model.XXH32.State} (hr : Repr seed msg s)
    (data : List Byte) :
    (s.large_len ||| (if 16 ≤ data.length ∨
        16 ≤ (s.total_len_32 + BitVec.ofNat 32 data.length).toNat then 1#32 else 0#32)) ≠ 0 ↔
      16 ≤ (msg ++ data).length := by
  have hl := hr.large
  have ht : (s.total_len_32 + BitVec.ofNat 32 data.length).toNat
      = (msg.length + data.length) % 2^32 := by
    rw [hr.total, ← BitVec.ofNat_add, BitVec.toNat_ofNat]
  rw [ht, List.length_append]
  have hor : ∀ x : W32, x ||| 1#32 ≠ 0 := by
    intro x hx
    have := congrArg (fun y => y.getLsbD 0) hx
    simp at this
  split
  · next h =>
    refine ⟨fun _ => ?_, fun _ => hor _⟩
    rcases h with h | h
    · omega
    · have := Nat.mod_le (msg.length + data.length) (2^32); omega
  · next h =>
    have h1 : data.length < 16 := by omega
    rw [show s.large_len ||| 0#32 = s.large_len by simp, hl]
    refine ⟨fun h => by omega, fun h2 => ?_⟩
    by_cases h3 : 16 ≤ msg.length
    · exact h3
    · rw [Nat.mod_eq_of_lt (by omega)] at h
      omega

theorem updateFill_eq {cfg : Cfg} (hc : cfg.Valid) {b : Buf} {s : Model.XXH32.State}
    (hms : s.mem32.length = 16) (hm : s.memsize < 16) (hb : 16 ≤ s.memsize + b.bytes.length) :
    ∃ s1, Model.XXH32.updateFill cfg s b = some (s1, (16 - s.memsize) % 16) ∧
      toSpec s1.v = (if s.memsize = 0 then toSpec s.v else
        Spec.XXH32.stripe (toSpec s.v) ((s.mem32.take s.memsize ++ b.bytes).take 16)) ∧
      s1.memsize = 0 ∧ s1.mem32.length = 16 ∧ s1.total_len_32 = s.total_len_32 ∧
      s1.large_len = s.large_len := by
  unfold Model.XXH32.updateFill
  by_cases h0 : s.memsize = 0
  · rw [if_neg (by simpa using h0)]
    exact ⟨s, by simp [h0], by simp [h0], h0, hms, rfl, rfl⟩
  · rw [if_pos h0, readBytes_eq (by omega)]
    simp only [Option.bind_eq_bind, Option.bind_some, Nat.zero_add]
    rw [writeBytes_eq (by rw [slice_length (by omega)]; omega)]
    simp only [Option.bind_some]
    rw [slice_length (by omega), show s.memsize + (16 - s.memsize - 0) = 16 by omega,
      List.drop_of_length_le (by omega), List.append_nil]
    have hl16 : (s.mem32.take s.memsize ++ slice b.bytes 0 (16 - s.memsize)).length = 16 := by
      simp [slice]; omega
    obtain ⟨v, hv, hv'⟩ := stripe_eq hc (align := .unaligned) (p := 0) s.v
      (b := ⟨0, s.mem32.take s.memsize ++ slice b.bytes 0 (16 - s.memsize)⟩)
      (by intro h; cases h) (by simp only; omega)
    rw [hv]
    refine ⟨{ s with mem32 := _, v := v, memsize := 0 }, ?_, ?_, rfl, hl16, rfl, rfl⟩
    · rw [Nat.mod_eq_of_lt (by omega)]; rfl
    · rw [if_neg h0]
      simp only []
      rw [hv', Nat.zero_add, slice_all _ _ hl16.le]
      congr 1
      have hl : (s.mem32.take s.memsize).length = s.memsize := by simp; omega
      rw [List.take_append, hl, List.take_of_length_le (l := s.mem32.take s.memsize) (by omega)]
      simp [slice]

theorem updateBulk_eq {cfg : Cfg} (hc : cfg.Valid) {b : Buf} (s : Model.XXH32.State) (p : Nat) :
    ∃ v, Model.XXH32.updateBulk cfg s b p b.bytes.length =
        some ({ s with v := v }, p + 16 * ((b.bytes.length - p)/16)) ∧
      toSpec v = Spec.XXH32.stripes (toSpec s.v) (b.bytes.drop p) ((b.bytes.length - p)/16) := by
  unfold Model.XXH32.updateBulk
  split
  · next h =>
    obtain ⟨v, hv, hv'⟩ := updateLoop_eq hc (b := b) rfl b.bytes.length s.v p h (by omega)
    refine ⟨v, ?_, hv'⟩
    simp [hv]
  · next h =>
    refine ⟨s.v, ?_, ?_⟩
    · rw [show (b.bytes.length - p)/16 = 0 by omega]; rfl
    · rw [show (b.bytes.length - p)/16 = 0 by omega]; rfl

theorem updateRest_eq {b : Buf} (s : Model.XXH32.State) (p : Nat) (hms : s.mem32.length = 16)
    (h0 : s.memsize = 0) (hp : b.bytes.length < p + 16) :
    ∃ mem, Model.XXH32.updateRest s b p b.bytes.length =
        some { s with mem32 := mem, memsize := b.bytes.length - p } ∧
      mem.length = 16 ∧ mem.take (b.bytes.length - p) = b.bytes.drop p := by
  unfold Model.XXH32.updateRest
  split
  · next h =>
    rw [readBytes_eq (by omega)]
    simp only [Option.bind_eq_bind, Option.bind_some]
    rw [writeBytes_eq (by rw [slice_length (by omega)]; omega)]
    refine ⟨_, rfl, ?_, ?_⟩
    · simp [slice]; omega
    · rw [show p + (b.bytes.length - p) = b.bytes.length by omega]
      simp only [slice, List.take_zero, List.nil_append]
      rw [List.take_append_of_le_length (by simp), List.take_of_length_le (by simp),
        List.take_of_length_le (by simp)]
  · next h =>
    refine ⟨s.mem32, ?_, hms, ?_⟩
    · rw [show b.bytes.length - p = 0 by omega, ← h0]; rfl
    · rw [show b.bytes.length - p = 0 by omega, List.drop_eq_nil_of_le (by omega)]; rfl

theorem update_repr {cfg : Cfg} (hc : cfg.Valid) {seed : W32} {msg : List Byte}
    {s : Model.XXH32.State} (hr : Repr seed msg s) {p : Ptr} {len : Nat}
    (hp : Readable cfg p len) :
    ∃ s', Model.XXH32.update cfg s p len = some (s', .ok) ∧ Repr seed (msg ++ contents p) s' := by
  cases p with
  | none =>
    have h0 : len = 0 := by have := hp.length; simpa [Ptr.buf] using this.symm
    subst h0
    refine ⟨s, rfl, ?_⟩
    simpa [contents, Ptr.buf] using hr
  | some b =>
    obtain rfl : b.bytes.length = len := hp.length
    have hsz := size_lt hc (b := b) hp.fits (m := s.memsize) (by rw [hr.size]; omega)
    have hlarge := large_update hr b.bytes
    have hm := hr.size
    have hms := hr.memLen
    have htot : s.total_len_32 + BitVec.ofNat 32 b.bytes.length
        = BitVec.ofNat 32 (msg ++ b.bytes).length := by
      rw [hr.total, ← BitVec.ofNat_add, List.length_append]
    show ∃ s', Model.XXH32.update cfg s (some b) b.bytes.length = some (s', .ok) ∧
      Repr seed (msg ++ b.bytes) s'
    unfold Model.XXH32.update
    simp only [hsz, Option.bind_eq_bind, Option.pure_def]
    by_cases hsmall : s.memsize + b.bytes.length < 16
    · -- everything fits in the buffer
      rw [if_pos hsmall, readBytes_eq (by omega)]
      simp only [Option.bind_some]
      rw [writeBytes_eq (by rw [slice_length (by omega)]; omega)]
      refine ⟨_, rfl, ?_⟩
      have hdiv : (msg ++ b.bytes).length / 16 = msg.length / 16 := by
        rw [List.length_append]; omega
      constructor
      · exact htot
      · exact hlarge
      · rw [hdiv, stripes_append _ _ _ _ (by omega)]; exact hr.lanes
      · simp [slice, hms]; omega
      · simp only [List.length_append]; omega
      · simp only [hdiv]
        rw [List.drop_append_of_le_length (by omega), ← hr.tail]
        rw [Nat.zero_add, slice_all _ _ (by omega), List.take_append_of_le_length]
        · rw [List.take_of_length_le]
          simp
        · simp; omega
    · rw [if_neg hsmall]
      obtain ⟨s1, hs1, hv1, hms1, hmem1, htl1, hll1⟩ := updateFill_eq hc (b := b)
        (s := { total_len_32 := s.total_len_32 + BitVec.ofNat 32 b.bytes.length,
                large_len := s.large_len ||| (if 16 ≤ b.bytes.length ∨
                    16 ≤ (s.total_len_32 + BitVec.ofNat 32 b.bytes.length).toNat then 1 else 0),
                v := s.v, mem32 := s.mem32, memsize := s.memsize }) hms (by simp only; omega)
        (by simp only; omega)
      simp only at hs1 hv1 htl1 hll1
      rw [hs1]
      simp only [Option.bind_some]
      generalize hp1 : (16 - s.memsize) % 16 = p1
      obtain ⟨v2, hs2, hv2⟩ := updateBulk_eq hc (b := b) s1 p1
      rw [hs2]
      simp only [Option.bind_some]
      obtain ⟨mem, hs3, hml, htl⟩ := updateRest_eq (b := b) { s1 with v := v2 }
        (p1 + 16 * ((b.bytes.length - p1)/16)) hmem1 hms1 (by omega)
      rw [hs3]
      refine ⟨_, rfl, ?_⟩
      -- lanes after the first stage
      obtain ⟨k, hk, hk1⟩ : ∃ k, 16 * k = msg.length + p1 ∧
          toSpec s1.v = Spec.XXH32.stripes (Spec.XXH32.init seed) (msg ++ b.bytes) k := by
        by_cases h0 : s.memsize = 0
        · refine ⟨msg.length/16, by omega, ?_⟩
          rw [hv1, if_pos h0, stripes_append _ _ _ _ (by omega)]; exact hr.lanes
        · refine ⟨msg.length/16 + 1, by omega, ?_⟩
          rw [hv1, if_neg h0, stripes_add, stripes_append _ _ _ _ (by omega), stripes_succ',
            stripes_zero, hr.lanes, hr.tail]
          congr 1
          rw [show 16 * (msg.length/16) = msg.length/16*16 by omega,
            List.drop_append_of_le_length (by omega)]
          rfl
      have hdiv : (msg ++ b.bytes).length / 16 = k + (b.bytes.length - p1)/16 := by
        rw [List.length_append]; omega
      have hle : msg.length ≤ 16 * k := by omega
      constructor
      · exact htl1.trans htot
      · rw [hll1]; exact hlarge
      · rw [hdiv, stripes_add, ← hk1, hv2, List.drop_append, List.drop_eq_nil_of_le hle,
          List.nil_append, show 16 * k - msg.length = p1 by omega]
      · exact hml
      · simp only [List.length_append]; omega
      · simp only []
        rw [htl, hdiv, List.drop_append,
          List.drop_eq_nil_of_le (as := msg) (by omega), List.nil_append]
        congr 1; omega

theorem digest_repr {cfg : Cfg} (hc : cfg.Valid) {seed : W32} {msg : List Byte}
    {s : Model.XXH32.State} (hr : Repr seed msg s) :
    Model.XXH32.digest cfg s = some (Spec.XXH32.hash msg seed) := by
  have hm := hr.size
  have hms := hr.memLen
  unfold Model.XXH32.digest
  rw [finalize_eq hc _ (by intro h; cases h)
    (by simp only [Model.XXH32.State.buf]; omega) (by intro _; rfl)]
  have htail : slice s.buf.bytes 0 (0 + s.memsize % 16) = msg.drop (msg.length/16*16) := by
    rw [← hr.tail, Nat.mod_eq_of_lt (by omega)]
    simp [slice, Model.XXH32.State.buf]
  rw [htail, hr.total]
  by_cases h16 : 16 ≤ msg.length
  · rw [if_pos (hr.large.2 h16), mergeV_eq, hr.lanes]
    simp only [Spec.XXH32.hash]
    rw [if_neg (by omega)]
  · rw [if_neg (fun h => h16 (hr.large.1 h))]
    have hl := hr.lanes
    rw [show msg.length/16 = 0 by omega, stripes_zero] at hl
    have h3 : s.v.v3 = seed := (congrArg Spec.XXH32.Accs.acc3 hl).trans (BitVec.add_zero seed)
    simp only [Spec.XXH32.hash]
    rw [if_pos (by omega), h3]
    rfl

theorem XXH32_eq {cfg : Cfg} (hc : cfg.Valid) {p : Ptr} {len : Nat} (hp : Readable cfg p len)
    (seed : W32) :
    Model.XXH32.XXH32 cfg p len seed = some (Spec.XXH32.hash (contents p) seed) := by
  unfold Model.XXH32.XXH32
  split
  · obtain ⟨s1, h1, hr1⟩ := reset_repr ⟨0, 0, ⟨0, 0, 0, 0⟩, List.replicate 16 0, 0⟩ seed
    obtain ⟨s2, h2, hr2⟩ := update_repr hc hr1 hp
    simp only [h1, h2, Option.bind_eq_bind, Option.bind_some]
    exact digest_repr hc hr2
  · split
    · next h =>
      refine endian_align_eq hc hp.length seed ?_
      intro _
      rw [← h.2]
      exact (Nat.and_two_pow_sub_one_eq_mod _ 2).symm
    · exact endian_align_eq hc hp.length seed (by intro h; cases h)

/-! ### Canonical form -/

theorem canonicalFromHash_eq (cfg : Cfg) (h : W32) :
    Model.XXH32.canonicalFromHash cfg h = beBytes 4 h := by
  unfold Model.XXH32.canonicalFromHash nativeBytes
  simp only [nativeBytes_le]
  by_cases hl : cfg.littleEndian
  · simp only [hl, if_true, leBytes_swap32]
  · simp only [hl]; rfl

end XXH.Proof.XXH32
