import Verif.Proof.XXH64
import Verif.Props.History
import Verif.Props.Examples
/-!
Properties of XXH64: C02, C07, C11, C17.
-/
namespace XXH.Props
open XXH.Model XXH.Examples

/-- **C02.** For every build, every object (any address, any contents, any length, or NULL with
length 0) and every seed, `XXH64` terminates, touches only the input, and returns the value the
published specification assigns to the bytes. -/
theorem C02_XXH64_eq_spec {cfg : Cfg} (hc : cfg.Valid) {p : Ptr} {len : Nat}
    (hp : Readable cfg p len) (seed : W64) :
    Model.XXH64.XXH64 cfg p len seed = some (Spec.XXH64.hash (contents p) seed) :=
  Proof.XXH64.XXH64_eq hc hp seed

example : Model.XXH64.XXH64 x64 abc 3 0 = some 0x44BC2CF5AD770999#64 :=
  (C02_XXH64_eq_spec x64_valid abc_readable 0).trans (by decide +kernel)
example (seed : W64) : Model.XXH64.XXH64 be32 kilo 1000 seed
    = some (Spec.XXH64.hash (contents kilo) seed) :=
  C02_XXH64_eq_spec be32_valid (kilo_readable _ be32_valid) seed
example (seed : W64) : Model.XXH64.XXH64 x64 none 0 seed = some (Spec.XXH64.hash [] seed) :=
  C02_XXH64_eq_spec x64_valid (null_readable _) seed

/-- Reset any state object with `seed`, feed the chunks, digest. -/
def stream64 (cfg : Cfg) (s0 : Model.XXH64.State) (seed : W64) (chunks : List (Ptr × Nat)) :
    Option W64 := do
  let (s, _) ← Model.XXH64.reset (some s0) seed
  let s ← feed (Model.XXH64.update cfg) s chunks
  Model.XXH64.digest cfg s

/-- **C07.** Streaming any split of a message (empty and NULL chunks included) into any state object
gives the specified hash of the whole message. Messages of 2^64 bytes and more are in C58: the length field
wraps. -/
theorem C07_XXH64_stream {cfg : Cfg} (hc : cfg.Valid) (s0 : Model.XXH64.State) (seed : W64)
    {chunks : List (Ptr × Nat)} (hr : ∀ c ∈ chunks, Readable cfg c.1 c.2)
    (hlen : (message chunks).length < 2^64) :
    stream64 cfg s0 seed chunks = some (Spec.XXH64.hash (message chunks) seed) := by
  obtain ⟨s1, h1, hr1⟩ := Proof.XXH64.reset_repr s0 seed
  obtain ⟨s2, h2, hr2⟩ := feed_repr (lenOk := fun _ => True) (cfg := cfg)
    (Rep := Proof.XXH64.Repr seed) (fun _ _ _ _ => trivial)
    (fun s msg p len hr hp _ => Proof.XXH64.update_repr hc hr hp) chunks s1 [] hr1 hr trivial
  simp only [stream64, h1, h2, Option.bind_eq_bind, Option.bind_some]
  exact Proof.XXH64.digest_repr hc (by simpa using hlen) hr2

/-- **C07**, as the equation between the two APIs: the same bytes, in one buffer `q` or in chunks, on
two different builds. -/
theorem C07_XXH64_stream_eq_oneshot {cfg cfg' : Cfg} (hc : cfg.Valid) (hc' : cfg'.Valid)
    (s0 : Model.XXH64.State) (seed : W64)
    {chunks : List (Ptr × Nat)} (hr : ∀ c ∈ chunks, Readable cfg c.1 c.2)
    {q : Ptr} {len : Nat} (hq : Readable cfg' q len) (hsame : contents q = message chunks) :
    stream64 cfg s0 seed chunks = Model.XXH64.XXH64 cfg' q len seed := by
  rw [C07_XXH64_stream hc s0 seed hr (by
    rw [← hsame]
    have h3 := hq.fits
    have h4 := hc'.sizeHi
    have h5 : 2 ^ (cfg'.sizeBits - 1) ≤ 2 ^ 64 := Nat.pow_le_pow_right (by decide) (by omega)
    exact Nat.lt_of_lt_of_le h3 h5), C02_XXH64_eq_spec hc' hq, hsame]

example : stream64 x64 ⟨5, ⟨1, 2, 3, 4⟩, List.replicate 32 9, 3⟩ 7 [(abc, 3), (none, 0), (abc, 3)]
    = some (Spec.XXH64.hash [0x61, 0x62, 0x63, 0x61, 0x62, 0x63] 7) :=
  C07_XXH64_stream x64_valid _ 7 (by
    simp only [List.mem_cons, List.not_mem_nil, or_false]
    rintro c (rfl | rfl | rfl) <;> first | exact abc_readable | exact null_readable _) (by decide)

/-- The same 1003 bytes in two chunks on a little-endian build and in one on a big-endian build. -/
example : stream64 x64 ⟨5, ⟨1, 2, 3, 4⟩, List.replicate 32 9, 3⟩ 7 [(kilo, 1000), (abc, 3)]
    = Model.XXH64.XXH64 be32 (some ⟨2, contents kilo ++ contents abc⟩) 1003 7 :=
  C07_XXH64_stream_eq_oneshot x64_valid be32_valid _ 7 (by
    simp only [List.mem_cons, List.not_mem_nil, or_false]
    rintro c (rfl | rfl) <;> first | exact abc_readable | exact kilo_readable _ x64_valid)
    ⟨by decide +kernel, by unfold Buf.Fits; decide +kernel⟩ (by decide +kernel)

/-- The XXH64 streaming API. -/
def api64 (cfg : Cfg) : Api Model.XXH64.State W64 Unit W64 where
  reset s seed := Model.XXH64.reset (some s) seed
  update := Model.XXH64.update cfg
  digest s _ := Model.XXH64.digest cfg s
  copy := Model.XXH64.copyState

/-- **C11** (XXH64). Any number of states, any interleaving of reset, update, digest and copy, any
initial memory contents: every call returns what the documentation promises. In particular a digest
does not disturb the stream, copies are independent, and a reset state remembers nothing. Messages of 2^64 bytes and more are in C58: the length field
wraps. -/
theorem C11_XXH64_histories {cfg : Cfg} (hc : cfg.Valid)
    {ops : List (Op W64 Unit)} {evs : List (Event W64)}
    (hruns : Runs cfg (fun _ o => o = .ok) (fun n => n < 2^64)
      (fun seed _ msg => Spec.XXH64.hash msg seed) (fun _ => none) ops evs)
    (heap : Nat → Model.XXH64.State) :
    runModel (api64 cfg) heap ops = some evs :=
  runs_simulation (api64 cfg) (fun _ => True)
    (fun seed msg s => msg.length < 2^64 ∧ Proof.XXH64.Repr seed msg s) (fun _ _ _ _ => trivial)
    (fun s seed _ _ => by
      obtain ⟨s1, h1, h2⟩ := Proof.XXH64.reset_repr s seed
      exact ⟨s1, h1, by decide, h2⟩)
    (fun _ _ _ h => by cases h) (fun _ _ _ h => by cases h)
    (fun s seed msg p len hr hp hl => by
      obtain ⟨s1, h1, h2⟩ := Proof.XXH64.update_repr hc hr.2 hp
      refine ⟨s1, h1, ?_, h2⟩
      rw [List.length_append, hp.length]; exact hl)
    (fun s seed msg _ hr => Proof.XXH64.digest_repr hc hr.1 hr.2)
    (fun _ _ _ _ => trivial) (fun _ _ _ _ _ h => h) hruns heap (fun _ => trivial) (fun _ _ _ h => by cases h)

theorem runs64_example : Runs x64 (fun (_ : W64) o => o = .ok) (fun n => n < 2^64)
    (fun seed (_ : Unit) msg => Spec.XXH64.hash msg seed) (fun _ => none)
    [.reset 0 5, .update 0 abc 3, .copy 1 0, .digest 0 (), .update 1 abc 3, .digest 1 (),
      .digest 0 ()]
    [.code .ok, .code .ok, .void, .hash (Spec.XXH64.hash [0x61, 0x62, 0x63] 5), .code .ok,
      .hash (Spec.XXH64.hash [0x61, 0x62, 0x63, 0x61, 0x62, 0x63] 5),
      .hash (Spec.XXH64.hash [0x61, 0x62, 0x63] 5)] := by
  refine .reset rfl (.update rfl abc_readable (by decide) (.copy ?_))
  exact .digest rfl (.update rfl abc_readable (by decide) (.digest rfl (.digest rfl .nil)))

example (heap : Nat → Model.XXH64.State) : runModel (api64 x64) heap
    [.reset 0 5, .update 0 abc 3, .copy 1 0, .digest 0 (), .update 1 abc 3, .digest 1 (),
      .digest 0 ()] = some
    [.code .ok, .code .ok, .void, .hash (Spec.XXH64.hash [0x61, 0x62, 0x63] 5), .code .ok,
      .hash (Spec.XXH64.hash [0x61, 0x62, 0x63, 0x61, 0x62, 0x63] 5),
      .hash (Spec.XXH64.hash [0x61, 0x62, 0x63] 5)] :=
  C11_XXH64_histories x64_valid runs64_example heap

/-- **C17** (XXH64): the canonical form is the big-endian encoding, on every build. -/
theorem C17_XXH64_canonical_bigEndian (cfg : Cfg) (h : W64) :
    Model.XXH64.canonicalFromHash cfg h = Spec.beBytes 8 h :=
  Proof.XXH64.canonicalFromHash_eq cfg h

/-- **C17** (XXH64): the bytes, read most significant first, are the value. -/
theorem C17_XXH64_canonical_value (cfg : Cfg) (h : W64) :
    (Model.XXH64.canonicalFromHash cfg h).length = 8 ∧
    Spec.beNat (Model.XXH64.canonicalFromHash cfg h) = h.toNat := by
  rw [C17_XXH64_canonical_bigEndian]
  exact ⟨beBytes_length _ _, beNat_beBytes64 h⟩

/-- **C17** (XXH64): hash → canonical → hash, written by one build and read by another, at any
address. -/
theorem C17_XXH64_roundtrip {cfg cfg' : Cfg} (hc' : cfg'.Valid) (h : W64) (addr : Nat) :
    Model.XXH64.hashFromCanonical cfg' ⟨addr, Model.XXH64.canonicalFromHash cfg h⟩ = some h := by
  rw [C17_XXH64_canonical_bigEndian, Model.XXH64.hashFromCanonical,
    readBE64_eq hc' (by simp [beBytes_length])]
  rw [slice_all _ _ (by simp [beBytes_length]), Spec.beBytes, List.reverse_reverse, u64_leBytes]

/-- **C17** (XXH64): canonical → hash → canonical. -/
theorem C17_XXH64_roundtrip' {cfg cfg' : Cfg} (hc : cfg.Valid) (src : Buf)
    (hl : src.bytes.length = 8) :
    ∃ h, Model.XXH64.hashFromCanonical cfg src = some h ∧
      Model.XXH64.canonicalFromHash cfg' h = src.bytes := by
  refine ⟨_, readBE64_eq hc (by omega), ?_⟩
  rw [C17_XXH64_canonical_bigEndian, Spec.beBytes, slice_all _ _ (by omega),
    leBytes_u64 _ (by simpa using hl), List.reverse_reverse]

example : Model.XXH64.canonicalFromHash x64 0x44BC2CF5AD770999 = [0x44, 0xBC, 0x2C, 0xF5, 0xAD, 0x77, 0x09, 0x99] := by decide +kernel

example : Model.XXH64.hashFromCanonical be32 ⟨3, Model.XXH64.canonicalFromHash x64 0x44BC2CF5AD770999⟩ = some 0x44BC2CF5AD770999 :=
  C17_XXH64_roundtrip be32_valid _ 3
example : ∃ h, Model.XXH64.hashFromCanonical be32 ⟨3, [0x44, 0xBC, 0x2C, 0xF5, 0xAD, 0x77, 0x09, 0x99]⟩ = some h ∧
    Model.XXH64.canonicalFromHash x64 h = [0x44, 0xBC, 0x2C, 0xF5, 0xAD, 0x77, 0x09, 0x99] :=
  C17_XXH64_roundtrip' be32_valid _ rfl

example : Model.XXH64.canonicalFromHash be32 0x44BC2CF5AD770999 = Spec.beBytes 8 (0x44BC2CF5AD770999 : W64) :=
  C17_XXH64_canonical_bigEndian _ _
example : (Model.XXH64.canonicalFromHash be32 0x44BC2CF5AD770999).length = 8 ∧
    Spec.beNat (Model.XXH64.canonicalFromHash be32 0x44BC2CF5AD770999) = 0x44BC2CF5AD770999 :=
  C17_XXH64_canonical_value be32 0x44BC2CF5AD770999

end XXH.Props
