import Verif.Proof.Wrap
import Verif.Props.XXH3Stream
/-!
C58: streams of `2^64` bytes and more, which C07-C09 leave out. XXH32 has no limit (C06). XXH64 and XXH3 keep the length
in 64 bits (xxhash.h:1680, 1766), and decide by it whether the message was short (xxhash.h:3648, 6426, 6924).
-/
namespace XXH.Props
open XXH.Model XXH.Examples
open Model.XXH3 (State)

/-! ### XXH64 -/

/-- **C58** (XXH64). Streams of any length: the digest is the specified hash, unless the message has at least `2^64` bytes
and at most 31 more than a multiple of that. -/
theorem C58_XXH64_stream {cfg : Cfg} (hc : cfg.Valid) (s0 : Model.XXH64.State) (seed : W64)
    {chunks : List (Ptr × Nat)} (hr : ∀ c ∈ chunks, Readable cfg c.1 c.2)
    (hlen : (message chunks).length < 2 ^ 64 ∨ 32 ≤ (message chunks).length % 2 ^ 64) :
    stream64 cfg s0 seed chunks = some (Spec.XXH64.hash (message chunks) seed) := by
  obtain ⟨s1, h1, hr1⟩ := Proof.XXH64.reset_repr s0 seed
  obtain ⟨s2, h2, hr2⟩ := feed_repr (lenOk := fun _ => True) (cfg := cfg)
    (Rep := Proof.XXH64.Repr seed) (fun _ _ _ _ => trivial)
    (fun s msg p len hr hp _ => Proof.XXH64.update_repr hc hr hp) chunks s1 [] hr1 hr trivial
  simp only [stream64, h1, h2, Option.bind_eq_bind, Option.bind_some]
  rw [List.nil_append] at hr2
  rw [Proof.XXH64.digest_any hc hr2, if_neg (by
    rintro ⟨h3, h4⟩
    rcases hlen with h | h
    · rw [Nat.mod_eq_of_lt h] at h4; omega
    · omega)]

/-- **C58** (XXH64). The other lengths: no round of merging, and of the four accumulators only the third counts. -/
theorem C58_XXH64_wrapped {cfg : Cfg} (hc : cfg.Valid) (s0 : Model.XXH64.State) (seed : W64)
    {chunks : List (Ptr × Nat)} (hr : ∀ c ∈ chunks, Readable cfg c.1 c.2)
    (hlong : 2 ^ 64 ≤ (message chunks).length) (hlen : (message chunks).length % 2 ^ 64 < 32) :
    stream64 cfg s0 seed chunks = some (Spec.XXH64.avalanche (Spec.XXH64.remaining
      ((Spec.XXH64.stripes (Spec.XXH64.init seed) (message chunks) ((message chunks).length / 32)).acc3 +
        Spec.XXH64.PRIME64_5 + BitVec.ofNat 64 (message chunks).length)
      ((message chunks).drop ((message chunks).length / 32 * 32)))) := by
  obtain ⟨s1, h1, hr1⟩ := Proof.XXH64.reset_repr s0 seed
  obtain ⟨s2, h2, hr2⟩ := feed_repr (lenOk := fun _ => True) (cfg := cfg)
    (Rep := Proof.XXH64.Repr seed) (fun _ _ _ _ => trivial)
    (fun s msg p len hr hp _ => Proof.XXH64.update_repr hc hr hp) chunks s1 [] hr1 hr trivial
  simp only [stream64, h1, h2, Option.bind_eq_bind, Option.bind_some]
  rw [List.nil_append] at hr2
  rw [Proof.XXH64.digest_any hc hr2, if_pos ⟨by omega, hlen⟩]

/-- What such a digest depends on: the bytes 16 to 23 of every 32, and the bytes after the last multiple of 32. -/
structure SameSeen (m m' : List Byte) : Prop where
  length : m.length = m'.length
  bytes : ∀ j, (16 ≤ j % 32 ∧ j % 32 < 24) ∨ m.length / 32 * 32 ≤ j → m[j]? = m'[j]?

/-- **C58** (XXH64). Three quarters of such a message are ignored: messages that differ there only have the same digest,
for every seed. -/
theorem C58_XXH64_collision {cfg : Cfg} (hc : cfg.Valid) (s0 s0' : Model.XXH64.State) (seed : W64)
    {chunks chunks' : List (Ptr × Nat)} (hr : ∀ c ∈ chunks, Readable cfg c.1 c.2)
    (hr' : ∀ c ∈ chunks', Readable cfg c.1 c.2)
    (hlong : 2 ^ 64 ≤ (message chunks).length) (hlen : (message chunks).length % 2 ^ 64 < 32)
    (hsame : SameSeen (message chunks) (message chunks')) :
    stream64 cfg s0 seed chunks = stream64 cfg s0' seed chunks' := by
  have hl := hsame.length
  rw [C58_XXH64_wrapped hc s0 seed hr hlong hlen,
    C58_XXH64_wrapped hc s0' seed hr' (by omega) (by omega), ← hl]
  rw [Proof.XXH64.drop_congr fun j hj => hsame.bytes j (Or.inr hj), Proof.XXH64.acc3_congr fun j h => hsame.bytes j (Or.inl h)]

/-! ### XXH3 -/

/-- `short` has the length that the 64-bit field holds, and consists of bytes from near the end of `msg` (and of older
ones, where fewer are left). -/
structure Leftover (msg short : List Byte) : Prop where
  length : short.length = msg.length % 2 ^ 64
  bytes : ∃ k, 64 * k < msg.length ∧ msg.length ≤ 64 * k + 256 ∧
    ∀ j, j < short.length → 64 * k + j < msg.length → short.getD j 0 = msg.getD (64 * k + j) 0

variable {cfg : Cfg} {s0 : State} {a : ResetArg} {chunks : List (Ptr × Nat)}

/-- **C58** (XXH3, 64 bits). Streams of any length: the digest is the specified hash, unless the message has at least
`2^64` bytes and at most 240 more than a multiple of that. -/
theorem C58_XXH3_64_stream (hc : cfg.Valid) (ht : s0.Typed) (hok : a.Ok cfg)
    (hinit : ∀ sd, a = .seed sd → s0.extSecret = none ∧ s0.seed = 0) (hr : ∀ c ∈ chunks, Readable cfg c.1 c.2)
    (hlen : (message chunks).length < 2 ^ 64 ∨ 240 < (message chunks).length % 2 ^ 64) :
    (do Model.XXH3.bits64_digest cfg (← stream3 cfg s0 a chunks)) = some (a.spec64 (message chunks)) := by
  obtain ⟨s, h1, h⟩ := stream3_repr hc ht hok (fun sd h => initialised_fresh ht (hinit sd h)) hr
  simp only [h1, Option.bind_eq_bind, Option.bind_some]
  rcases hlen with hl | hl
  · rw [XXH3P.digest64_repr hc h hl, value64_eq]
  · rw [XXH3P.digest64_big hc h hl, value64_eq]

/-- **C58** (XXH3, 128 bits). -/
theorem C58_XXH3_128_stream (hc : cfg.Valid) (ht : s0.Typed) (hok : a.Ok cfg)
    (hinit : ∀ sd, a = .seed sd → s0.extSecret = none ∧ s0.seed = 0) (hr : ∀ c ∈ chunks, Readable cfg c.1 c.2)
    (hlen : (message chunks).length < 2 ^ 64 ∨ 240 < (message chunks).length % 2 ^ 64) :
    (do Model.XXH3.bits128_digest cfg (← stream3 cfg s0 a chunks)) = some (a.spec128 (message chunks)) := by
  obtain ⟨s, h1, h⟩ := stream3_repr hc ht hok (fun sd h => initialised_fresh ht (hinit sd h)) hr
  simp only [h1, Option.bind_eq_bind, Option.bind_some]
  rcases hlen with hl | hl
  · rw [XXH3P.digest128_repr hc h hl, value128_eq]
  · rw [XXH3P.digest128_big hc h hl, value128_eq]

/-- **C58** (XXH3). The other lengths: both digests are those of a short message, made of bytes from the end. -/
theorem C58_XXH3_wrapped (hc : cfg.Valid) (ht : s0.Typed) (hok : a.Ok cfg)
    (hinit : ∀ sd, a = .seed sd → s0.extSecret = none ∧ s0.seed = 0) (hr : ∀ c ∈ chunks, Readable cfg c.1 c.2)
    (hlong : 2 ^ 64 ≤ (message chunks).length) (hlen : (message chunks).length % 2 ^ 64 ≤ 240) :
    ∃ short, Leftover (message chunks) short ∧
      (do Model.XXH3.bits64_digest cfg (← stream3 cfg s0 a chunks)) = some (a.spec64 short) ∧
      (do Model.XXH3.bits128_digest cfg (← stream3 cfg s0 a chunks)) = some (a.spec128 short) := by
  obtain ⟨s, h1, h⟩ := stream3_repr hc ht hok (fun sd h => initialised_fresh ht (hinit sd h)) hr
  simp only [h1, Option.bind_eq_bind, Option.bind_some]
  obtain ⟨h3, h4, k, h5, h6, h7⟩ := XXH3P.leftover h (by omega) hlen
  refine ⟨s.buffer.take ((message chunks).length % 2 ^ 64), ⟨h3, k, h5, h6, fun j hj => h7 j (by omega)⟩, ?_, ?_⟩
  · rw [XXH3P.digest64_small hc h hlen h3 h4, value64_eq]
  · rw [XXH3P.digest128_small hc h hlen h3 h4, value128_eq]

/-- **C58** (XXH3). All messages of exactly `2^64` bytes, or a multiple of that, have the hashes of the empty message. -/
theorem C58_XXH3_empty (hc : cfg.Valid) (ht : s0.Typed) (hok : a.Ok cfg)
    (hinit : ∀ sd, a = .seed sd → s0.extSecret = none ∧ s0.seed = 0) (hr : ∀ c ∈ chunks, Readable cfg c.1 c.2)
    (hlen : (message chunks).length % 2 ^ 64 = 0) :
    (do Model.XXH3.bits64_digest cfg (← stream3 cfg s0 a chunks)) = some (a.spec64 []) ∧
    (do Model.XXH3.bits128_digest cfg (← stream3 cfg s0 a chunks)) = some (a.spec128 []) := by
  by_cases h0 : (message chunks).length < 2 ^ 64
  · have hn : message chunks = [] := by
      rw [Nat.mod_eq_of_lt h0] at hlen
      exact List.length_eq_zero_iff.mp hlen
    refine ⟨?_, ?_⟩
    · rw [C58_XXH3_64_stream hc ht hok hinit hr (Or.inl h0), hn]
    · rw [C58_XXH3_128_stream hc ht hok hinit hr (Or.inl h0), hn]
  · obtain ⟨short, hs, h1, h2⟩ := C58_XXH3_wrapped hc ht hok hinit hr (by omega) (by omega)
    have hn : short = [] := List.length_eq_zero_iff.mp (by rw [hs.length, hlen])
    exact ⟨hn ▸ h1, hn ▸ h2⟩

/-! ### Examples: four chunks of `2^62` bytes -/

/-- `2^62` times the byte `b`. -/
def huge (b : Byte) : Ptr := some ⟨0, List.replicate (2 ^ 62) b⟩

theorem huge_readable (b : Byte) : Readable x64 (huge b) (2 ^ 62) :=
  ⟨List.length_replicate, by
    show (List.replicate (2 ^ 62) b).length < 2 ^ (64 - 1)
    rw [List.length_replicate]; norm_num⟩

/-- `2^64` bytes. -/
def hugeChunks (b : Byte) : List (Ptr × Nat) := List.replicate 4 (huge b, 2 ^ 62)

theorem hugeChunks_readable (b : Byte) : ∀ c ∈ hugeChunks b, Readable x64 c.1 c.2 := fun c hc => by
  rw [List.eq_of_mem_replicate hc]
  exact huge_readable b

theorem hugeChunks_message (b : Byte) : message (hugeChunks b) = List.replicate (2 ^ 64) b := by
  have h : ∀ n, message (List.replicate n (huge b, 2 ^ 62)) = List.replicate (n * 2 ^ 62) b := by
    intro n
    induction n with
    | zero => rw [Nat.zero_mul]; rfl
    | succ n ih =>
      rw [List.replicate_succ]
      show List.replicate (2 ^ 62) b ++ message (List.replicate n (huge b, 2 ^ 62)) = _
      rw [ih, List.replicate_append_replicate]
      congr 1
      omega
  exact h 4

/-- `2^64` zero bytes and `2^64` one bytes have the same XXH3 hash. -/
example : (do Model.XXH3.bits64_digest x64 (← stream3 x64 junk .default (hugeChunks 0))) =
    (do Model.XXH3.bits64_digest x64 (← stream3 x64 junk .default (hugeChunks 1))) := by
  have h : ∀ b, (message (hugeChunks b)).length % 2 ^ 64 = 0 := fun b => by
    rw [hugeChunks_message, List.length_replicate, Nat.mod_self]
  rw [(C58_XXH3_empty x64_valid junk_typed (a := ResetArg.default) trivial (by rintro _ ⟨⟩) (hugeChunks_readable 0)
    (h 0)).1, (C58_XXH3_empty x64_valid junk_typed (a := ResetArg.default) trivial (by rintro _ ⟨⟩)
    (hugeChunks_readable 1) (h 1)).1]

/-- The byte `b`, and zeros up to `2^64` bytes. -/
def markedChunks (b : Byte) : List (Ptr × Nat) :=
  (some ⟨0, [b]⟩, 1) :: (some ⟨0, List.replicate (2 ^ 62 - 1) 0⟩, 2 ^ 62 - 1) :: List.replicate 3 (huge 0, 2 ^ 62)

theorem markedChunks_readable (b : Byte) : ∀ c ∈ markedChunks b, Readable x64 c.1 c.2 := fun c hc => by
  rcases List.mem_cons.mp hc with rfl | hc
  · exact ⟨rfl, show 1 < 2 ^ (64 - 1) by norm_num⟩
  rcases List.mem_cons.mp hc with rfl | hc
  · refine ⟨List.length_replicate, ?_⟩
    show (List.replicate (2 ^ 62 - 1) (0 : Byte)).length < 2 ^ (64 - 1)
    rw [List.length_replicate]; norm_num
  · rw [List.eq_of_mem_replicate hc]
    exact huge_readable 0

theorem message_cons (c : Ptr × Nat) (cs : List (Ptr × Nat)) : message (c :: cs) = contents c.1 ++ message cs := rfl

theorem huge_contents (b : Byte) : contents (huge b) = List.replicate (2 ^ 62) b := rfl

theorem markedChunks_message (b : Byte) : message (markedChunks b) = b :: List.replicate (2 ^ 64 - 1) 0 := by
  have h : contents (some ⟨0, [b]⟩) = [b] := rfl
  have h' : contents (some ⟨0, List.replicate (2 ^ 62 - 1) 0⟩) = List.replicate (2 ^ 62 - 1) 0 := rfl
  have h3 : message [] = [] := rfl
  unfold markedChunks
  rw [message_cons, message_cons, h, h', List.replicate_succ, List.replicate_succ, List.replicate_one, message_cons,
    message_cons, message_cons, huge_contents, h3, List.append_nil, List.replicate_append_replicate,
    List.replicate_append_replicate, List.replicate_append_replicate, List.singleton_append]
  congr 2

theorem markedChunks_length (b : Byte) : (message (markedChunks b)).length = 2 ^ 64 := by
  rw [markedChunks_message, List.length_cons, List.length_replicate]
  norm_num

/-- The first byte of `2^64` bytes does not matter to XXH64. -/
example (seed : W64) (s0 : Model.XXH64.State) :
    stream64 x64 s0 seed (markedChunks 0) = stream64 x64 s0 seed (markedChunks 1) :=
  C58_XXH64_collision x64_valid s0 s0 seed (markedChunks_readable 0) (markedChunks_readable 1)
    (by rw [markedChunks_length]) (by rw [markedChunks_length, Nat.mod_self]; norm_num)
    ⟨by rw [markedChunks_length, markedChunks_length], fun j hj => by
      rw [markedChunks_length] at hj
      rw [markedChunks_message, markedChunks_message]
      cases j with
      | zero => exfalso; rcases hj with hj | hj <;> simp at hj
      | succ j => rw [List.getElem?_cons_succ, List.getElem?_cons_succ]⟩

/-- `2^64 + 1000` bytes are hashed as specified. -/
example (seed : W64) (s0 : Model.XXH64.State) :
    stream64 x64 s0 seed (hugeChunks 0 ++ [(kilo, 1000)]) =
      some (Spec.XXH64.hash (List.replicate (2 ^ 64) 0 ++ contents kilo) seed) := by
  have hm : message (hugeChunks 0 ++ [(kilo, 1000)]) = List.replicate (2 ^ 64) 0 ++ contents kilo := by
    have h : ∀ a b : List (Ptr × Nat), message (a ++ b) = message a ++ message b := fun a b => List.flatMap_append
    rw [h, hugeChunks_message, message_cons, show message [] = [] from rfl, List.append_nil]
  rw [← hm]
  refine C58_XXH64_stream x64_valid s0 seed (fun c hc => ?_) (Or.inr ?_)
  · rcases List.mem_append.mp hc with hc | hc
    · exact hugeChunks_readable 0 c hc
    · rw [List.mem_singleton.mp hc]
      exact kilo_readable _ x64_valid
  · rw [hm, List.length_append, List.length_replicate, (kilo_readable _ x64_valid).length, Nat.add_mod_left]
    norm_num

end XXH.Props
