import Verif.Proof.Limits
import Verif.Props.XXH64
import Verif.Props.XXH3
/-!
C46: what the hashes do not guarantee. For every seed and every secret there are explicit families of
different messages with equal hashes. These are the limits of C23-C26: the single-bit guarantee of XXH32
does not extend to XXH64 or XXH3, the 8 bytes of XXH3_64bits are not 16, and the 16 bytes of XXH3_128bits
are not 32. Two calls may be made by two different builds.
-/
namespace XXH.Props
open Model Spec Examples

/-- `y` is `x` with one bit flipped. -/
def OneBitApart (x y : List Byte) : Prop :=
  ∃ i j, i < x.length ∧ j < 8 ∧ y = x.modify i (· ^^^ (1#8 <<< j))

theorem OneBitApart.ne {x y : List Byte} (h : OneBitApart x y) : x ≠ y := by
  obtain ⟨i, j, hi, hj, rfl⟩ := h
  intro he
  have h1 := congrArg (fun l : List Byte => l[i]?) he
  simp only [List.getElem?_modify_eq, List.getElem?_eq_getElem hi, Option.map_eq_map, Option.map_some,
    Option.some.injEq] at h1
  generalize x[i] = b at h1
  have h2 : ∀ j < 8, 1#8 <<< j ≠ 0#8 := by decide
  have h3 := congrArg (b ^^^ ·) h1
  simp only [BitVec.xor_self, ← BitVec.xor_assoc, BitVec.zero_xor] at h3
  exact h2 j hj h3.symm

/-! ### XXH64 -/

theorem leBytes_flip (w : W64) : leBytes 8 (w ^^^ 1#64) = (leBytes 8 w).modify 0 (· ^^^ (1#8 <<< 0)) := by
  simp only [leBytes, List.range, List.range.loop, List.map_cons, List.map_nil, List.modify_zero_cons,
    List.cons.injEq, and_true]
  have h : ∀ j, 0 < j → (w ^^^ 1#64).toNat / 256^j = w.toNat / 256^j := by
    intro j hj
    rw [BitVec.toNat_xor, show (256 : Nat) = 2^8 from rfl, ← Nat.pow_mul, Nat.xor_div_two_pow,
      show (1#64).toNat = 1 from rfl, Nat.div_eq_of_lt (a := 1) (Nat.one_lt_two_pow (by omega)), Nat.xor_zero]
  refine ⟨?_, ?_, ?_, ?_, ?_, ?_, ?_, ?_⟩
  · apply BitVec.eq_of_getLsbD_eq
    intro i hi
    have hi : i < 8 := hi
    simp [BitVec.getLsbD_one]
  all_goals rw [h _ (by decide)]

theorem modify_append_right (u v : List Byte) (n : Nat) (f : Byte → Byte) :
    (u ++ v).modify (u.length + n) f = u ++ v.modify n f := by
  induction u with
  | nil => simp
  | cons a u ih =>
    rw [List.length_cons, show u.length + 1 + n = u.length + n + 1 by omega, List.cons_append,
      List.modify_succ_cons, ih]
    rfl

theorem modify_append_at {u : List Byte} {k : Nat} (h : u.length = k) (v : List Byte) (f : Byte → Byte) :
    (u ++ v).modify k f = u ++ v.modify 0 f := by
  subst h
  exact modify_append_right u v 0 f

theorem modify_append_left (u v : List Byte) (n : Nat) (f : Byte → Byte) (h : n < u.length) :
    (u ++ v).modify n f = u.modify n f ++ v := by
  induction u generalizing n with
  | nil => exact absurd h (Nat.not_lt_zero _)
  | cons a u ih =>
    cases n with
    | zero => rfl
    | succ n =>
      rw [List.cons_append, List.modify_succ_cons, ih n (Nat.lt_of_succ_lt_succ h)]
      rfl

theorem stripe_flip (a : Spec.XXH64.Accs) :
    Limits.X64.stripeFor' a = (Limits.X64.stripeFor a).modify 8 (· ^^^ (1#8 <<< 0)) := by
  unfold Limits.X64.stripeFor' Limits.X64.stripeFor Limits.X64.bytes
  simp only
  rw [modify_append_at (leBytes_length ..), modify_append_left _ _ _ _ (by rw [leBytes_length]; decide), leBytes_flip]

/-- **C46.** For every seed, every beginning of whole 32-byte stripes and every end of less than a stripe
there is a stripe in which flipping one bit does not change XXH64: there are messages of every length from
32 in which a single-bit error goes unnoticed. (C23 excludes this for XXH32.) -/
theorem C46_XXH64_one_bit (seed : W64) {pre post : List Byte} (hpre : 32 ∣ pre.length) (hpost : post.length < 32) :
    ∃ x y : List Byte, x.length = 32 ∧ OneBitApart (pre ++ x ++ post) (pre ++ y ++ post) ∧
      ∀ {cfg cfg' : Cfg}, cfg.Valid → cfg'.Valid → ∀ {p q : Ptr} {len : Nat}, Readable cfg p len →
        Readable cfg' q len → contents p = pre ++ x ++ post → contents q = pre ++ y ++ post →
        Model.XXH64.XXH64 cfg p len seed = Model.XXH64.XXH64 cfg' q len seed := by
  obtain ⟨k, hk⟩ := hpre
  obtain ⟨a, ha⟩ : ∃ a, a = Spec.XXH64.stripes (Spec.XXH64.init seed) pre k := ⟨_, rfl⟩
  have hx : (Limits.X64.stripeFor a).length = 32 := Limits.X64.bytes_length ..
  refine ⟨Limits.X64.stripeFor a, Limits.X64.stripeFor' a, hx, ⟨pre.length + 8, 0, ?_, by decide, ?_⟩, ?_⟩
  · simp only [List.length_append]; omega
  · rw [stripe_flip, List.append_assoc pre _ post, List.append_assoc pre _ post, modify_append_right,
      modify_append_left _ _ _ _ (by omega)]
  · intro cfg cfg' hc hc' p q len hp hq hcp hcq
    have h := Limits.X64.hash_stripe (seed := seed) (y := Limits.X64.stripeFor' a) hk hx
      (Limits.X64.bytes_length ..) hpost (by rw [← ha]; exact Limits.X64.converge_stripeFor a)
    rw [C02_XXH64_eq_spec hc hp, C02_XXH64_eq_spec hc' hq, hcp, hcq, h]

/-! ### XXH3 -/

/-- The two messages cannot be told apart by any XXH3 function with this seed. -/
def SameUnderSeed64 (seed : W64) (x y : List Byte) : Prop :=
  ∀ {cfg cfg' : Cfg}, cfg.Valid → cfg'.Valid → ∀ {p q : Ptr} {len : Nat}, Readable cfg p len →
    Readable cfg' q len → contents p = x → contents q = y →
    Model.XXH3.XXH3_64bits_withSeed cfg p len seed = Model.XXH3.XXH3_64bits_withSeed cfg' q len seed

@[inherit_doc SameUnderSeed64]
def SameUnderSeed128 (seed : W64) (x y : List Byte) : Prop :=
  ∀ {cfg cfg' : Cfg}, cfg.Valid → cfg'.Valid → ∀ {p q : Ptr} {len : Nat}, Readable cfg p len →
    Readable cfg' q len → contents p = x → contents q = y →
    Model.XXH3.XXH3_128bits_withSeed cfg p len seed = Model.XXH3.XXH3_128bits_withSeed cfg' q len seed

/-- The two messages cannot be told apart with this secret. -/
def SameUnderSecret64 (secret x y : List Byte) : Prop :=
  ∀ {cfg cfg' : Cfg}, cfg.Valid → cfg'.Valid → ∀ {p q s s' : Ptr} {len size : Nat}, Readable cfg p len →
    Readable cfg' q len → Readable cfg s size → Readable cfg' s' size → 136 ≤ size →
    contents p = x → contents q = y → contents s = secret → contents s' = secret →
    Model.XXH3.XXH3_64bits_withSecret cfg p len s size = Model.XXH3.XXH3_64bits_withSecret cfg' q len s' size

@[inherit_doc SameUnderSecret64]
def SameUnderSecret128 (secret x y : List Byte) : Prop :=
  ∀ {cfg cfg' : Cfg}, cfg.Valid → cfg'.Valid → ∀ {p q s s' : Ptr} {len size : Nat}, Readable cfg p len →
    Readable cfg' q len → Readable cfg s size → Readable cfg' s' size → 136 ≤ size →
    contents p = x → contents q = y → contents s = secret → contents s' = secret →
    Model.XXH3.XXH3_128bits_withSecret cfg p len s size = Model.XXH3.XXH3_128bits_withSecret cfg' q len s' size

theorem same64 {seed : W64} {x y : List Byte} (h : Spec.XXH3.XXH3_64_withSeed x seed = Spec.XXH3.XXH3_64_withSeed y seed) :
    SameUnderSeed64 seed x y := by
  intro cfg cfg' hc hc' p q len hp hq h1 h2
  rw [C03_XXH3_64bits_withSeed_eq_spec hc hp, C03_XXH3_64bits_withSeed_eq_spec hc' hq, h1, h2, h]

theorem same128 {seed : W64} {x y : List Byte}
    (h : Spec.XXH3.XXH3_128_withSeed x seed = Spec.XXH3.XXH3_128_withSeed y seed) : SameUnderSeed128 seed x y := by
  intro cfg cfg' hc hc' p q len hp hq h1 h2
  rw [C04_XXH3_128bits_withSeed_eq_spec hc hp, C04_XXH3_128bits_withSeed_eq_spec hc' hq, h1, h2, h]

theorem sameS64 {secret x y : List Byte}
    (h : 136 ≤ secret.length → Spec.XXH3.XXH3_64_withSecret x secret = Spec.XXH3.XXH3_64_withSecret y secret) :
    SameUnderSecret64 secret x y := by
  intro cfg cfg' hc hc' p q s s' len size hp hq hs hs' hz h1 h2 h3 h4
  rw [C03_XXH3_64bits_withSecret_eq_spec hc hp hs hz, C03_XXH3_64bits_withSecret_eq_spec hc' hq hs' hz, h1, h2, h3, h4,
    h (by rw [← h3, hs.length]; exact hz)]

theorem sameS128 {secret x y : List Byte}
    (h : 136 ≤ secret.length → Spec.XXH3.XXH3_128_withSecret x secret = Spec.XXH3.XXH3_128_withSecret y secret) :
    SameUnderSecret128 secret x y := by
  intro cfg cfg' hc hc' p q s s' len size hp hq hs hs' hz h1 h2 h3 h4
  rw [C04_XXH3_128bits_withSecret_eq_spec hc hp hs hz, C04_XXH3_128bits_withSecret_eq_spec hc' hq hs' hz, h1, h2, h3,
    h4, h (by rw [← h3, hs.length]; exact hz)]

/-- Two little-endian words and a rest. -/
def twoWords (a b : W64) (rest : List Byte) : List Byte := leBytes 8 a ++ leBytes 8 b ++ rest

theorem twoWords_length (a b : W64) (r : List Byte) : (twoWords a b r).length = 16 + r.length := by
  simp only [twoWords, List.length_append, leBytes_length]

theorem twoWords_word (a b : W64) (r : List Byte) : word64 (twoWords a b r) 0 = a ∧ word64 (twoWords a b r) 1 = b := by
  have hl := leBytes_length 8 (w := 64)
  have all : ∀ i : W64, slice (leBytes 8 i) 0 8 = leBytes 8 i := fun i => slice_all _ _ (by rw [hl])
  unfold word64 twoWords
  constructor
  · rw [List.append_assoc, slice_append_left _ _ _ _ (by rw [hl]), all, u64_leBytes]
  · rw [List.append_assoc, slice_append_right _ _ _ _ (by rw [hl]), slice_append_left _ _ _ _ (by rw [hl, hl]), hl]
    simp only [Nat.mul_one, Nat.reduceAdd, Nat.reduceSub]
    rw [all, u64_leBytes]

theorem twoWords_slice (a b a' b' : W64) (r : List Byte) (i j : Nat) (h : 16 ≤ i) :
    slice (twoWords a b r) i j = slice (twoWords a' b' r) i j := by
  have hl : ∀ a b : W64, (leBytes 8 a ++ leBytes 8 b).length = 16 := by
    intro a b; simp only [List.length_append, leBytes_length]
  unfold twoWords
  rw [slice_append_right _ _ _ _ (by rw [hl]; exact h), slice_append_right _ _ _ _ (by rw [hl]; exact h), hl, hl]

theorem twoWords_inj {a b a' b' : W64} {r : List Byte} (h : twoWords a b r = twoWords a' b' r) : a = a' ∧ b = b' := by
  have h1 := twoWords_word a b r
  rw [h] at h1
  have h2 := twoWords_word a' b' r
  exact ⟨h1.1.symm.trans h2.1, h1.2.symm.trans h2.2⟩

theorem midLen {a b : W64} {r : List Byte} (h : r.length = 16 ∨ (32 ≤ r.length ∧ r.length ≤ 224)) :
    Limits.MidLen (twoWords a b r).length := by
  rw [twoWords_length]; unfold Limits.MidLen; omega

/-- **C46.** Messages of 32 or of 48 to 240 bytes under XXH3_64bits: when the first word cancels the first
word of the secret, the second is ignored. For every seed there are 2^64 messages with one hash. -/
theorem C46_XXH3_64_second_word_ignored (seed : W64) {rest : List Byte}
    (hr : rest.length = 16 ∨ (32 ≤ rest.length ∧ rest.length ≤ 224)) (b b' : W64) :
    SameUnderSeed64 seed (twoWords (word64 Spec.XXH3.defaultSecret 0 + seed) b rest)
      (twoWords (word64 Spec.XXH3.defaultSecret 0 + seed) b' rest) :=
  same64 (Limits.hash64_mid (by simp only [twoWords_length]) (midLen hr)
    (fun i j h => twoWords_slice _ _ _ _ _ i j h) (.inl (twoWords_word ..).1) (.inl (twoWords_word ..).1) _)

/-- **C46.** The same with the second word cancelling, where the first is ignored. -/
theorem C46_XXH3_64_first_word_ignored (seed : W64) {rest : List Byte}
    (hr : rest.length = 16 ∨ (32 ≤ rest.length ∧ rest.length ≤ 224)) (a a' : W64) :
    SameUnderSeed64 seed (twoWords a (word64 Spec.XXH3.defaultSecret 1 - seed) rest)
      (twoWords a' (word64 Spec.XXH3.defaultSecret 1 - seed) rest) :=
  same64 (Limits.hash64_mid (by simp only [twoWords_length]) (midLen hr)
    (fun i j h => twoWords_slice _ _ _ _ _ i j h) (.inr (twoWords_word ..).2) (.inr (twoWords_word ..).2) _)

/-- **C46.** The same with any secret. -/
theorem C46_XXH3_64_secret_word_ignored (secret : List Byte) {rest : List Byte}
    (hr : rest.length = 16 ∨ (32 ≤ rest.length ∧ rest.length ≤ 224)) (b b' : W64) :
    SameUnderSecret64 secret (twoWords (word64 secret 0) b rest) (twoWords (word64 secret 0) b' rest) :=
  sameS64 fun _ => (Limits.hash64_mid (by simp only [twoWords_length]) (midLen hr)
    (fun i j h => twoWords_slice _ _ _ _ _ i j h) (.inl ((twoWords_word ..).1.trans (BitVec.add_zero _).symm))
    (.inl ((twoWords_word ..).1.trans (BitVec.add_zero _).symm)) _)

/-- **C46.** For every seed, and every length 32 or 48 to 240, a single-bit change of some message is
not seen by XXH3_64bits. -/
theorem C46_XXH3_64_one_bit (seed : W64) {rest : List Byte}
    (hr : rest.length = 16 ∨ (32 ≤ rest.length ∧ rest.length ≤ 224)) :
    ∃ x y, x.length = 16 + rest.length ∧ OneBitApart x y ∧ SameUnderSeed64 seed x y := by
  refine ⟨_, _, twoWords_length _ _ _, ⟨8, 0, ?_, by decide, ?_⟩, C46_XXH3_64_second_word_ignored seed hr 0#64 (0#64 ^^^ 1#64)⟩
  · rw [twoWords_length]; omega
  · unfold twoWords
    rw [List.append_assoc, List.append_assoc, modify_append_at (leBytes_length ..),
      modify_append_left _ _ _ _ (by rw [leBytes_length]; decide), leBytes_flip]

theorem sum_swap (a b c : W64) : a + (b + c) = a + c + b := by ac_rfl

theorem add_left_zero (k c : W64) (h : k + c = k) : c = 0#64 := by
  have h2 : k + c - k = k - k := congrArg (· - k) h
  rwa [BitVec.sub_self, BitVec.add_comm, BitVec.add_sub_cancel] at h2

/-- **C46.** XXH3_128bits of the same lengths: two messages, one with the first, the other with the second
word cancelling, and with equal sums of the two words. One such pair for every seed and every `c`. -/
theorem C46_XXH3_128_pair (seed c : W64) {rest : List Byte}
    (hr : rest.length = 16 ∨ (32 ≤ rest.length ∧ rest.length ≤ 224)) :
    SameUnderSeed128 seed
      (twoWords (word64 Spec.XXH3.defaultSecret 0 + seed) (word64 Spec.XXH3.defaultSecret 1 - seed + c) rest)
      (twoWords (word64 Spec.XXH3.defaultSecret 0 + seed + c) (word64 Spec.XXH3.defaultSecret 1 - seed) rest) ∧
    (c ≠ 0 →
      (twoWords (word64 Spec.XXH3.defaultSecret 0 + seed) (word64 Spec.XXH3.defaultSecret 1 - seed + c) rest) ≠
      (twoWords (word64 Spec.XXH3.defaultSecret 0 + seed + c) (word64 Spec.XXH3.defaultSecret 1 - seed) rest)) := by
  refine ⟨same128 (Limits.hash128_mid (by simp only [twoWords_length]) (midLen hr)
    (fun i j h => twoWords_slice _ _ _ _ _ i j h) (.inl (twoWords_word ..).1) (.inr (twoWords_word ..).2) ?_ _), ?_⟩
  · rw [(twoWords_word ..).1, (twoWords_word ..).2, (twoWords_word ..).1, (twoWords_word ..).2]
    exact sum_swap _ _ _
  · intro hc he
    have h := (twoWords_inj he).2
    apply hc
    exact add_left_zero _ _ h

/-- **C46.** The same with any secret. -/
theorem C46_XXH3_128_secret_pair (secret : List Byte) (c : W64) {rest : List Byte}
    (hr : rest.length = 16 ∨ (32 ≤ rest.length ∧ rest.length ≤ 224)) :
    SameUnderSecret128 secret (twoWords (word64 secret 0) (word64 secret 1 + c) rest)
      (twoWords (word64 secret 0 + c) (word64 secret 1) rest) := by
  refine sameS128 fun _ => (Limits.hash128_mid (by simp only [twoWords_length]) (midLen hr)
    (fun i j h => twoWords_slice _ _ _ _ _ i j h) (.inl ((twoWords_word ..).1.trans (BitVec.add_zero _).symm))
    (.inr ((twoWords_word ..).2.trans (BitVec.sub_zero _).symm)) ?_ _)
  rw [(twoWords_word ..).1, (twoWords_word ..).2, (twoWords_word ..).1, (twoWords_word ..).2]
  ac_rfl

/-! #### Large inputs -/

/-- A message of more than 240 bytes: the first word of the first stripe has low half `lo` and high half
`h`, the first word of the second stripe has low half `lo'` and high half `c - h`. -/
def twoStripes (lo lo' c h : W32) (mid rest : List Byte) : List Byte :=
  leBytes 8 (h ++ lo : W64) ++ (mid ++ (leBytes 8 (c - h ++ lo' : W64) ++ rest))

section
variable {lo lo' c h h' : W32} {mid rest : List Byte}

theorem twoStripes_length (hm : mid.length = 56) : (twoStripes lo lo' c h mid rest).length = 72 + rest.length := by
  simp only [twoStripes, List.length_append, leBytes_length]; omega

theorem twoStripes_word (hm : mid.length = 56) : word64 (twoStripes lo lo' c h mid rest) 0 = h ++ lo ∧
    word64 (twoStripes lo lo' c h mid rest) 8 = c - h ++ lo' := by
  have hl := leBytes_length 8 (w := 64)
  have all : ∀ i : W64, slice (leBytes 8 i) 0 8 = leBytes 8 i := fun i => slice_all _ _ (by rw [hl])
  unfold word64 twoStripes
  constructor
  · rw [slice_append_left _ _ _ _ (by rw [hl]), all, u64_leBytes]
  · rw [slice_append_right _ _ _ _ (by rw [hl]; decide), slice_append_right _ _ _ _ (by rw [hl, hm]),
      slice_append_left _ _ _ _ (by rw [hl, hl, hm])]
    simp only [hl, hm, Nat.reduceMul, Nat.reduceAdd, Nat.reduceSub]
    rw [all, u64_leBytes]

theorem get_outside {a a' b b' : List Byte} (ha : a.length = 8) (ha' : a'.length = 8) (hb : b.length = 8)
    (hb' : b'.length = 8) (hm : mid.length = 56) (i : Nat) (h1 : ¬ i < 8) (h2 : ¬ (64 ≤ i ∧ i < 72)) :
    (a ++ (mid ++ (b ++ rest)))[i]? = (a' ++ (mid ++ (b' ++ rest)))[i]? := by
  rw [List.getElem?_append_right (l₁ := a) (by omega), List.getElem?_append_right (l₁ := a') (by omega), ha, ha']
  by_cases h3 : i < 64
  · rw [List.getElem?_append_left (by omega), List.getElem?_append_left (by omega)]
  · rw [List.getElem?_append_right (l₁ := mid) (by omega), List.getElem?_append_right (l₁ := mid) (by omega),
      List.getElem?_append_right (l₁ := b) (by omega), List.getElem?_append_right (l₁ := b') (by omega), hb, hb']

theorem twoStripes_get (hm : mid.length = 56) (i : Nat) (h1 : ¬ i < 8) (h2 : ¬ (64 ≤ i ∧ i < 72)) :
    (twoStripes lo lo' c h mid rest)[i]? = (twoStripes lo lo' c h' mid rest)[i]? :=
  get_outside (leBytes_length ..) (leBytes_length ..) (leBytes_length ..) (leBytes_length ..) hm i h1 h2

theorem append_low (a b : W32) : ((a ++ b : W64)).setWidth 32 = b := SimdP.lo32_join a b

theorem append_nat (a b : W32) : (a ++ b : W64).toNat = a.toNat * 2^32 + b.toNat := SimdP.join_toNat a b

theorem append_sum : (h ++ lo : W64) + (c - h ++ lo' : W64) = (h' ++ lo : W64) + (c - h' ++ lo' : W64) := by
  apply BitVec.eq_of_toNat_eq
  rw [BitVec.toNat_add, BitVec.toNat_add, append_nat, append_nat, append_nat, append_nat, BitVec.toNat_sub,
    BitVec.toNat_sub]
  have := h.isLt
  have := h'.isLt
  have := c.isLt
  omega

theorem twoStripes_inj (hm : mid.length = 56)
    (he : twoStripes lo lo' c h mid rest = twoStripes lo lo' c h' mid rest) : h = h' := by
  have h1 := (twoStripes_word (lo := lo) (lo' := lo') (c := c) (h := h) (rest := rest) hm).1
  rw [he, (twoStripes_word (lo := lo) (lo' := lo') (c := c) (h := h') (rest := rest) hm).1] at h1
  have h2 := congrArg BitVec.toNat h1
  rw [append_nat, append_nat] at h2
  apply BitVec.eq_of_toNat_eq
  omega

/-- **C46.** Messages of more than 240 bytes with any secret: when the low halves of the first words of the
first two stripes cancel the secret, the high halves matter by their sum only. For every secret, every
length and every content of the other bytes there are 2^32 messages with one 64-bit hash ... -/
theorem C46_XXH3_64_long (secret : List Byte) (hm : mid.length = 56) (hr : 169 ≤ rest.length) (c h h' : W32) :
    SameUnderSecret64 secret
      (twoStripes ((word64 secret 0).setWidth 32) ((word64 secret 1).setWidth 32) c h mid rest)
      (twoStripes ((word64 secret 0).setWidth 32) ((word64 secret 1).setWidth 32) c h' mid rest) :=
  sameS64 fun hs => Limits.hash64_long (by rw [twoStripes_length hm, twoStripes_length hm])
    (by rw [twoStripes_length hm]; omega) hs (twoStripes_get hm)
    (by rw [(twoStripes_word hm).1, append_low]) (by rw [(twoStripes_word hm).1, append_low])
    (by rw [(twoStripes_word hm).2, append_low]) (by rw [(twoStripes_word hm).2, append_low])
    (by rw [(twoStripes_word hm).1, (twoStripes_word hm).1, (twoStripes_word hm).2, (twoStripes_word hm).2, append_sum])
    _ _

/-- **C46.** ... and one 128-bit hash. -/
theorem C46_XXH3_128_long (secret : List Byte) (hm : mid.length = 56) (hr : 169 ≤ rest.length) (c h h' : W32) :
    SameUnderSecret128 secret
      (twoStripes ((word64 secret 0).setWidth 32) ((word64 secret 1).setWidth 32) c h mid rest)
      (twoStripes ((word64 secret 0).setWidth 32) ((word64 secret 1).setWidth 32) c h' mid rest) :=
  sameS128 fun hs => Limits.hash128_long (by rw [twoStripes_length hm, twoStripes_length hm])
    (by rw [twoStripes_length hm]; omega) hs (twoStripes_get hm)
    (by rw [(twoStripes_word hm).1, append_low]) (by rw [(twoStripes_word hm).1, append_low])
    (by rw [(twoStripes_word hm).2, append_low]) (by rw [(twoStripes_word hm).2, append_low])
    (by rw [(twoStripes_word hm).1, (twoStripes_word hm).1, (twoStripes_word hm).2, (twoStripes_word hm).2, append_sum])
    _ _

/-- **C46.** The same for every seed: 2^32 different messages with any given end, which all have
the same 64-bit and 128-bit hash. -/
theorem C46_XXH3_seed_long (seed : W64) (hm : mid.length = 56) (hr : 169 ≤ rest.length) :
    ∃ f : W32 → List Byte, Function.Injective f ∧ (∀ h, (f h).length = 72 + rest.length) ∧
      (∀ h, (f h).drop 72 = rest) ∧
      ∀ h h', SameUnderSeed64 seed (f h) (f h') ∧ SameUnderSeed128 seed (f h) (f h') := by
  obtain ⟨s, hs⟩ : ∃ s, s = Spec.XXH3.deriveSecret seed := ⟨_, rfl⟩
  have h192 : 136 ≤ s.length := by rw [hs, XXH3P.derive_length]; decide
  refine ⟨fun h => twoStripes ((word64 s 0).setWidth 32) ((word64 s 1).setWidth 32) 0 h mid rest,
    fun h h' he => twoStripes_inj hm he, fun h => twoStripes_length hm, ?_, ?_⟩
  · intro h
    unfold twoStripes
    rw [show 72 = 8 + (56 + 8) from rfl, ← List.drop_drop, List.drop_left' (leBytes_length ..), ← List.drop_drop,
      List.drop_left' hm, List.drop_left' (leBytes_length ..)]
  · intro h h'
    constructor
    · apply same64
      unfold Spec.XXH3.XXH3_64_withSeed
      rw [← hs]
      exact Limits.hash64_long (by rw [twoStripes_length hm, twoStripes_length hm])
        (by rw [twoStripes_length hm]; omega) h192 (twoStripes_get hm)
        (by rw [(twoStripes_word hm).1, append_low]) (by rw [(twoStripes_word hm).1, append_low])
        (by rw [(twoStripes_word hm).2, append_low]) (by rw [(twoStripes_word hm).2, append_low])
        (by rw [(twoStripes_word hm).1, (twoStripes_word hm).1, (twoStripes_word hm).2, (twoStripes_word hm).2,
              append_sum]) _ _
    · apply same128
      unfold Spec.XXH3.XXH3_128_withSeed
      rw [← hs]
      exact Limits.hash128_long (by rw [twoStripes_length hm, twoStripes_length hm])
        (by rw [twoStripes_length hm]; omega) h192 (twoStripes_get hm)
        (by rw [(twoStripes_word hm).1, append_low]) (by rw [(twoStripes_word hm).1, append_low])
        (by rw [(twoStripes_word hm).2, append_low]) (by rw [(twoStripes_word hm).2, append_low])
        (by rw [(twoStripes_word hm).1, (twoStripes_word hm).1, (twoStripes_word hm).2, (twoStripes_word hm).2,
              append_sum]) _ _
end

/-! #### 16 bytes -/

/-- **C46.** XXH3_64bits on 16 bytes: when one word cancels, the other enters the sum unmultiplied. So for
every seed and every `h` the following two messages have the same hash. (C25: up to 8 bytes there is no
such pair; C25: no such pair of 16 bytes for XXH3_128bits.) -/
theorem C46_XXH3_64_sixteen (seed h : W64) :
    SameUnderSeed64 seed
      (twoWords ((word64 Spec.XXH3.defaultSecret 3 ^^^ word64 Spec.XXH3.defaultSecret 4) + seed)
        (((word64 Spec.XXH3.defaultSecret 5 ^^^ word64 Spec.XXH3.defaultSecret 6) - seed) ^^^ h) [])
      (twoWords (((word64 Spec.XXH3.defaultSecret 3 ^^^ word64 Spec.XXH3.defaultSecret 4) + seed) ^^^ bswap64 h)
        ((word64 Spec.XXH3.defaultSecret 5 ^^^ word64 Spec.XXH3.defaultSecret 6) - seed) []) := by
  apply same64
  have hb : bswap64 0#64 = 0#64 := by decide
  have hbb : bswap64 (bswap64 h) = h := by
    unfold bswap64 beBytes
    rw [leBytes_u64 _ (by rw [List.length_reverse, leBytes_length]), List.reverse_reverse, u64_leBytes]
  unfold Spec.XXH3.XXH3_64_withSeed Spec.XXH3.hash64
  simp only [twoWords_length, List.length_nil]
  simp only [Nat.add_zero, Nat.reduceEqDiff, Nat.reduceLeDiff, if_false, if_true]
  unfold Spec.XXH3.hash64_9to16
  simp only [twoWords_length, List.length_nil, Nat.add_zero, Nat.reduceSub]
  have w0 : ∀ z : List Byte, u64 (slice z 0 8) = word64 z 0 := fun _ => rfl
  have w1 : ∀ z : List Byte, u64 (slice z 8 16) = word64 z 1 := fun _ => rfl
  simp only [w0, w1, (twoWords_word ..).1, (twoWords_word ..).2]
  have ws : ∀ k, k < 4 → word64 (slice Spec.XXH3.defaultSecret 24 56) k = word64 Spec.XXH3.defaultSecret (3+k) := by
    intro k hk
    rw [word64_slice _ 24 56 k (by omega)]
    unfold word64
    rw [show 24 + 8*k = 8*(3+k) by omega]
  rw [ws 0 (by decide), ws 1 (by decide), ws 2 (by decide), ws 3 (by decide)]
  simp only [Nat.reduceAdd]
  generalize (word64 Spec.XXH3.defaultSecret 3 ^^^ word64 Spec.XXH3.defaultSecret 4) + seed = k1
  generalize (word64 Spec.XXH3.defaultSecret 5 ^^^ word64 Spec.XXH3.defaultSecret 6) - seed = k2
  rw [BitVec.xor_self, BitVec.xor_self, ← BitVec.xor_assoc, ← BitVec.xor_assoc, BitVec.xor_self, BitVec.xor_self,
    BitVec.zero_xor, BitVec.zero_xor, Limits.mul_zero_left, Limits.mul_zero_right, hb, hbb]
  simp only [BitVec.add_zero]

/-! ### Concrete cases -/

/-- A buffer with given bytes at an odd address. -/
def at1001 (bs : List Byte) : Ptr := some ⟨1001, bs⟩

theorem at1001_readable {cfg : Cfg} (hc : cfg.Valid) (bs : List Byte) (h : bs.length ≤ 1000) :
    Readable cfg (at1001 bs) bs.length := by
  refine ⟨rfl, ?_⟩
  have h1 := hc.sizeLo
  have h2 : 2 ^ 15 ≤ 2 ^ (cfg.sizeBits - 1) := Nat.pow_le_pow_right (by decide) (by omega)
  unfold Buf.Fits
  simp only [at1001, Ptr.buf, Option.getD_some] at *
  omega

-- 32 bytes and one flipped bit, with the same XXH64 on two builds.
example : ∃ x y : List Byte, x ≠ y ∧ x.length = 32 ∧ y.length = 32 ∧
    Model.XXH64.XXH64 x64 (at1001 x) 32 0 = Model.XXH64.XXH64 be32 (at1001 y) 32 0 := by
  obtain ⟨x, y, hx, hb, h⟩ := C46_XXH64_one_bit 0 (pre := []) (post := []) ⟨0, rfl⟩ (by decide)
  rw [List.nil_append, List.append_nil, List.nil_append, List.append_nil] at hb
  have hy : y.length = 32 := by
    obtain ⟨i, j, _, _, rfl⟩ := hb
    rw [List.length_modify, hx]
  refine ⟨x, y, hb.ne, hx, hy, h x64_valid be32_valid ?_ ?_ ?_ ?_⟩
  · exact hx ▸ at1001_readable x64_valid x (by omega)
  · exact hy ▸ at1001_readable be32_valid y (by omega)
  · rw [List.nil_append, List.append_nil]; rfl
  · rw [List.nil_append, List.append_nil]; rfl

-- The values themselves, by the specification.
example : Spec.XXH64.hash (Limits.X64.stripeFor (Spec.XXH64.init 0)) 0 =
    Spec.XXH64.hash (Limits.X64.stripeFor' (Spec.XXH64.init 0)) 0 := by decide +kernel

-- 100 bytes: two different inputs, one XXH3_64bits on two builds.
example (seed : W64) : Model.XXH3.XXH3_64bits_withSeed x64
      (at1001 (twoWords (word64 Spec.XXH3.defaultSecret 0 + seed) 1 (List.replicate 84 0))) 100 seed =
    Model.XXH3.XXH3_64bits_withSeed be32
      (at1001 (twoWords (word64 Spec.XXH3.defaultSecret 0 + seed) 2 (List.replicate 84 0))) 100 seed :=
  C46_XXH3_64_second_word_ignored seed (.inr (by rw [List.length_replicate]; decide)) 1 2 x64_valid be32_valid
    (by have := at1001_readable x64_valid (twoWords (word64 Spec.XXH3.defaultSecret 0 + seed) 1 (List.replicate 84 0))
          (by rw [twoWords_length, List.length_replicate]; decide)
        rwa [twoWords_length, List.length_replicate] at this)
    (by have := at1001_readable be32_valid (twoWords (word64 Spec.XXH3.defaultSecret 0 + seed) 2 (List.replicate 84 0))
          (by rw [twoWords_length, List.length_replicate]; decide)
        rwa [twoWords_length, List.length_replicate] at this) rfl rfl

-- 128 bits, seed 0, two different inputs of 32 bytes.
example : Spec.XXH3.XXH3_128 (twoWords (word64 Spec.XXH3.defaultSecret 0) (word64 Spec.XXH3.defaultSecret 1 + 1)
      (List.replicate 16 7)) =
    Spec.XXH3.XXH3_128 (twoWords (word64 Spec.XXH3.defaultSecret 0 + 1) (word64 Spec.XXH3.defaultSecret 1)
      (List.replicate 16 7)) := by decide +kernel

-- 400 bytes with a secret of 136 bytes: two different inputs, one 128-bit hash.
example : Spec.XXH3.XXH3_128_withSecret (twoStripes ((word64 (contents secret136) 0).setWidth 32)
      ((word64 (contents secret136) 1).setWidth 32) 5 1 (List.replicate 56 3) (List.replicate 328 9))
      (contents secret136) =
    Spec.XXH3.XXH3_128_withSecret (twoStripes ((word64 (contents secret136) 0).setWidth 32)
      ((word64 (contents secret136) 1).setWidth 32) 5 2 (List.replicate 56 3) (List.replicate 328 9))
      (contents secret136) := by
  have h1 := at1001_readable x64_valid (twoStripes ((word64 (contents secret136) 0).setWidth 32)
      ((word64 (contents secret136) 1).setWidth 32) 5 1 (List.replicate 56 3) (List.replicate 328 9))
      (by rw [twoStripes_length List.length_replicate, List.length_replicate]; decide)
  have h2 := at1001_readable x64_valid (twoStripes ((word64 (contents secret136) 0).setWidth 32)
      ((word64 (contents secret136) 1).setWidth 32) 5 2 (List.replicate 56 3) (List.replicate 328 9))
      (by rw [twoStripes_length List.length_replicate, List.length_replicate]; decide)
  rw [twoStripes_length List.length_replicate, List.length_replicate] at h1 h2
  have hs := secret136_readable x64 x64_valid
  have he := C46_XXH3_128_long (contents secret136) (mid := List.replicate 56 3) (rest := List.replicate 328 9)
    List.length_replicate (by rw [List.length_replicate]; decide) 5 1 2 x64_valid x64_valid h1 h2 hs hs (by decide) rfl rfl rfl rfl
  rw [C04_XXH3_128bits_withSecret_eq_spec x64_valid h1 hs (by decide),
    C04_XXH3_128bits_withSecret_eq_spec x64_valid h2 hs (by decide)] at he
  exact Option.some.inj he

-- 16 bytes, seed 0.
example : Spec.XXH3.XXH3_64 (twoWords (word64 Spec.XXH3.defaultSecret 3 ^^^ word64 Spec.XXH3.defaultSecret 4)
      ((word64 Spec.XXH3.defaultSecret 5 ^^^ word64 Spec.XXH3.defaultSecret 6) ^^^ 0x01#64) []) =
    Spec.XXH3.XXH3_64 (twoWords ((word64 Spec.XXH3.defaultSecret 3 ^^^ word64 Spec.XXH3.defaultSecret 4) ^^^
      0x0100000000000000#64) (word64 Spec.XXH3.defaultSecret 5 ^^^ word64 Spec.XXH3.defaultSecret 6) []) := by
  decide +kernel

/-! ### The theorems applied -/

/-- The theorems applied: 48, 32, 240 and 1072 bytes. -/

example (seed : W64) : SameUnderSeed64 seed (twoWords 1 (word64 Spec.XXH3.defaultSecret 1 - seed) (List.replicate 32 7))
    (twoWords 2 (word64 Spec.XXH3.defaultSecret 1 - seed) (List.replicate 32 7)) :=
  C46_XXH3_64_first_word_ignored seed (by decide) 1 2

example (secret : List Byte) : SameUnderSecret64 secret (twoWords (word64 secret 0) 1 (List.replicate 16 7))
    (twoWords (word64 secret 0) 2 (List.replicate 16 7)) :=
  C46_XXH3_64_secret_word_ignored secret (by decide) 1 2

example : ∃ x y, x.length = 240 ∧ OneBitApart x y ∧ SameUnderSeed64 42 x y := by
  obtain ⟨x, y, h, h'⟩ := C46_XXH3_64_one_bit 42 (rest := List.replicate 224 7) (by rw [List.length_replicate]; decide)
  exact ⟨x, y, by rw [h, List.length_replicate], h'⟩

example : twoWords (word64 Spec.XXH3.defaultSecret 0 + 42) (word64 Spec.XXH3.defaultSecret 1 - 42 + 1) (List.replicate 32 7) ≠
    twoWords (word64 Spec.XXH3.defaultSecret 0 + 42 + 1) (word64 Spec.XXH3.defaultSecret 1 - 42) (List.replicate 32 7) :=
  (C46_XXH3_128_pair 42 1 (by decide)).2 (by decide)

example (secret : List Byte) : SameUnderSecret128 secret (twoWords (word64 secret 0) (word64 secret 1 + 1) (List.replicate 32 7))
    (twoWords (word64 secret 0 + 1) (word64 secret 1) (List.replicate 32 7)) :=
  C46_XXH3_128_secret_pair secret 1 (by decide)

example (secret : List Byte) : SameUnderSecret64 secret
    (twoStripes ((word64 secret 0).setWidth 32) ((word64 secret 1).setWidth 32) 5 1 (List.replicate 56 1) (List.replicate 1000 7))
    (twoStripes ((word64 secret 0).setWidth 32) ((word64 secret 1).setWidth 32) 5 2 (List.replicate 56 1) (List.replicate 1000 7)) :=
  C46_XXH3_64_long secret (by decide) (by rw [List.length_replicate]; decide) 5 1 2

example : ∃ f : W32 → List Byte, Function.Injective f ∧
    ∀ h h', (f h).length = 1072 ∧ SameUnderSeed64 42 (f h) (f h') ∧ SameUnderSeed128 42 (f h) (f h') := by
  obtain ⟨f, hf, hl, -, h⟩ := C46_XXH3_seed_long 42 (mid := List.replicate 56 1) (rest := List.replicate 1000 7) (by decide)
    (by rw [List.length_replicate]; decide)
  exact ⟨f, hf, fun a b => ⟨by rw [hl a, List.length_replicate], h a b⟩⟩

end XXH.Props
