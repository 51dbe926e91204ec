import Verif.Proof.XXH32
import Verif.Props.History
import Verif.Props.Examples
/-!
Properties of XXH32: C01, C06, C11, C17.
-/
namespace XXH.Props
open XXH.Model XXH.Examples

/-- **C01.** For every build, every object (any address, any contents, any length, or NULL with
length 0) and every seed, `XXH32` terminates, touches only the input, and returns the value the
published specification assigns to the bytes. -/
theorem C01_XXH32_eq_spec {cfg : Cfg} (hc : cfg.Valid) {p : Ptr} {len : Nat}
    (hp : Readable cfg p len) (seed : W32) :
    Model.XXH32.XXH32 cfg p len seed = some (Spec.XXH32.hash (contents p) seed) :=
  Proof.XXH32.XXH32_eq hc hp seed

example : Model.XXH32.XXH32 x64 abc 3 0 = some 0x32D153FF#32 :=
  (C01_XXH32_eq_spec x64_valid abc_readable 0).trans (by decide +kernel)
example (seed : W32) : Model.XXH32.XXH32 be32 kilo 1000 seed
    = some (Spec.XXH32.hash (contents kilo) seed) :=
  C01_XXH32_eq_spec be32_valid (kilo_readable _ be32_valid) seed
example (seed : W32) : Model.XXH32.XXH32 x64 none 0 seed = some (Spec.XXH32.hash [] seed) :=
  C01_XXH32_eq_spec x64_valid (null_readable _) seed

/-- Reset any state object with `seed`, feed the chunks, digest. -/
def stream32 (cfg : Cfg) (s0 : Model.XXH32.State) (seed : W32) (chunks : List (Ptr × Nat)) :
    Option W32 := do
  let (s, _) ← Model.XXH32.reset (some s0) seed
  let s ← feed (Model.XXH32.update cfg) s chunks
  Model.XXH32.digest cfg s

/-- **C06.** Streaming any split of a message (empty and NULL chunks included) into any state object
gives the specified hash of the whole message. There is no length limit: the 32-bit length field wraps exactly
as the specification requires. -/
theorem C06_XXH32_stream {cfg : Cfg} (hc : cfg.Valid) (s0 : Model.XXH32.State) (seed : W32)
    {chunks : List (Ptr × Nat)} (hr : ∀ c ∈ chunks, Readable cfg c.1 c.2) :
    stream32 cfg s0 seed chunks = some (Spec.XXH32.hash (message chunks) seed) := by
  obtain ⟨s1, h1, hr1⟩ := Proof.XXH32.reset_repr s0 seed
  obtain ⟨s2, h2, hr2⟩ := feed_repr (lenOk := fun _ => True) (cfg := cfg)
    (Rep := Proof.XXH32.Repr seed) (fun _ _ _ _ => trivial)
    (fun s msg p len hr hp _ => Proof.XXH32.update_repr hc hr hp) chunks s1 [] hr1 hr trivial
  simp only [stream32, h1, h2, Option.bind_eq_bind, Option.bind_some]
  exact Proof.XXH32.digest_repr hc hr2

/-- **C06**, as the equation between the two APIs: the same bytes, in one buffer `q` or in chunks, on
two different builds. -/
theorem C06_XXH32_stream_eq_oneshot {cfg cfg' : Cfg} (hc : cfg.Valid) (hc' : cfg'.Valid)
    (s0 : Model.XXH32.State) (seed : W32)
    {chunks : List (Ptr × Nat)} (hr : ∀ c ∈ chunks, Readable cfg c.1 c.2)
    {q : Ptr} {len : Nat} (hq : Readable cfg' q len) (hsame : contents q = message chunks) :
    stream32 cfg s0 seed chunks = Model.XXH32.XXH32 cfg' q len seed := by
  rw [C06_XXH32_stream hc s0 seed hr, C01_XXH32_eq_spec hc' hq, hsame]

example : stream32 x64 ⟨5, 1, ⟨1, 2, 3, 4⟩, List.replicate 16 9, 3⟩ 7 [(abc, 3), (none, 0), (abc, 3)]
    = some (Spec.XXH32.hash [0x61, 0x62, 0x63, 0x61, 0x62, 0x63] 7) :=
  C06_XXH32_stream x64_valid _ 7 (by
    simp only [List.mem_cons, List.not_mem_nil, or_false]
    rintro c (rfl | rfl | rfl) <;> first | exact abc_readable | exact null_readable _)

/-- The same 1003 bytes in two chunks on a little-endian build and in one on a big-endian build. -/
example : stream32 x64 ⟨5, 1, ⟨1, 2, 3, 4⟩, List.replicate 16 9, 3⟩ 7 [(kilo, 1000), (abc, 3)]
    = Model.XXH32.XXH32 be32 (some ⟨2, contents kilo ++ contents abc⟩) 1003 7 :=
  C06_XXH32_stream_eq_oneshot x64_valid be32_valid _ 7 (by
    simp only [List.mem_cons, List.not_mem_nil, or_false]
    rintro c (rfl | rfl) <;> first | exact abc_readable | exact kilo_readable _ x64_valid)
    ⟨by decide +kernel, by unfold Buf.Fits; decide +kernel⟩ (by decide +kernel)

/-- The XXH32 streaming API. -/
def api32 (cfg : Cfg) : Api Model.XXH32.State W32 Unit W32 where
  reset s seed := Model.XXH32.reset (some s) seed
  update := Model.XXH32.update cfg
  digest s _ := Model.XXH32.digest cfg s
  copy := Model.XXH32.copyState

/-- **C11** (XXH32). Any number of states, any interleaving of reset, update, digest and copy, any
initial memory contents: every call returns what the documentation promises. In particular a digest
does not disturb the stream, copies are independent, and a reset state remembers nothing. There is no length limit: the 32-bit length field wraps exactly
as the specification requires. -/
theorem C11_XXH32_histories {cfg : Cfg} (hc : cfg.Valid)
    {ops : List (Op W32 Unit)} {evs : List (Event W32)}
    (hruns : Runs cfg (fun _ o => o = .ok) (fun _ => True)
      (fun seed _ msg => Spec.XXH32.hash msg seed) (fun _ => none) ops evs)
    (heap : Nat → Model.XXH32.State) :
    runModel (api32 cfg) heap ops = some evs :=
  runs_simulation (api32 cfg) (fun _ => True)
    (fun seed msg s => Proof.XXH32.Repr seed msg s) (fun _ _ _ _ => trivial)
    (fun s seed _ _ => Proof.XXH32.reset_repr s seed)
    (fun _ _ _ h => by cases h) (fun _ _ _ h => by cases h)
    (fun s seed msg p len hr hp hl => Proof.XXH32.update_repr hc hr hp)
    (fun s seed msg _ hr => Proof.XXH32.digest_repr hc hr)
    (fun _ _ _ _ => trivial) (fun _ _ _ _ _ h => h) hruns heap (fun _ => trivial) (fun _ _ _ h => by cases h)

theorem runs32_example : Runs x64 (fun (_ : W32) o => o = .ok) (fun _ => True)
    (fun seed (_ : Unit) msg => Spec.XXH32.hash msg seed) (fun _ => none)
    [.reset 0 5, .update 0 abc 3, .copy 1 0, .digest 0 (), .update 1 abc 3, .digest 1 (),
      .digest 0 ()]
    [.code .ok, .code .ok, .void, .hash (Spec.XXH32.hash [0x61, 0x62, 0x63] 5), .code .ok,
      .hash (Spec.XXH32.hash [0x61, 0x62, 0x63, 0x61, 0x62, 0x63] 5),
      .hash (Spec.XXH32.hash [0x61, 0x62, 0x63] 5)] := by
  refine .reset rfl (.update rfl abc_readable (by decide) (.copy ?_))
  exact .digest rfl (.update rfl abc_readable (by decide) (.digest rfl (.digest rfl .nil)))

example (heap : Nat → Model.XXH32.State) : runModel (api32 x64) heap
    [.reset 0 5, .update 0 abc 3, .copy 1 0, .digest 0 (), .update 1 abc 3, .digest 1 (),
      .digest 0 ()] = some
    [.code .ok, .code .ok, .void, .hash (Spec.XXH32.hash [0x61, 0x62, 0x63] 5), .code .ok,
      .hash (Spec.XXH32.hash [0x61, 0x62, 0x63, 0x61, 0x62, 0x63] 5),
      .hash (Spec.XXH32.hash [0x61, 0x62, 0x63] 5)] :=
  C11_XXH32_histories x64_valid runs32_example heap

/-- **C17** (XXH32): the canonical form is the big-endian encoding, on every build. -/
theorem C17_XXH32_canonical_bigEndian (cfg : Cfg) (h : W32) :
    Model.XXH32.canonicalFromHash cfg h = Spec.beBytes 4 h :=
  Proof.XXH32.canonicalFromHash_eq cfg h

/-- **C17** (XXH32): the bytes, read most significant first, are the value. -/
theorem C17_XXH32_canonical_value (cfg : Cfg) (h : W32) :
    (Model.XXH32.canonicalFromHash cfg h).length = 4 ∧
    Spec.beNat (Model.XXH32.canonicalFromHash cfg h) = h.toNat := by
  rw [C17_XXH32_canonical_bigEndian]
  exact ⟨beBytes_length _ _, beNat_beBytes32 h⟩

/-- **C17** (XXH32): hash → canonical → hash, written by one build and read by another, at any
address. -/
theorem C17_XXH32_roundtrip {cfg cfg' : Cfg} (hc' : cfg'.Valid) (h : W32) (addr : Nat) :
    Model.XXH32.hashFromCanonical cfg' ⟨addr, Model.XXH32.canonicalFromHash cfg h⟩ = some h := by
  rw [C17_XXH32_canonical_bigEndian, Model.XXH32.hashFromCanonical,
    readBE32_eq hc' (by simp [beBytes_length])]
  rw [slice_all _ _ (by simp [beBytes_length]), Spec.beBytes, List.reverse_reverse, u32_leBytes]

/-- **C17** (XXH32): canonical → hash → canonical. -/
theorem C17_XXH32_roundtrip' {cfg cfg' : Cfg} (hc : cfg.Valid) (src : Buf)
    (hl : src.bytes.length = 4) :
    ∃ h, Model.XXH32.hashFromCanonical cfg src = some h ∧
      Model.XXH32.canonicalFromHash cfg' h = src.bytes := by
  refine ⟨_, readBE32_eq hc (by omega), ?_⟩
  rw [C17_XXH32_canonical_bigEndian, Spec.beBytes, slice_all _ _ (by omega),
    leBytes_u32 _ (by simpa using hl), List.reverse_reverse]

example : Model.XXH32.canonicalFromHash x64 0x32D153FF = [0x32, 0xD1, 0x53, 0xFF] := by decide +kernel

example : Model.XXH32.hashFromCanonical be32 ⟨3, Model.XXH32.canonicalFromHash x64 0x32D153FF⟩ = some 0x32D153FF :=
  C17_XXH32_roundtrip be32_valid _ 3
example : ∃ h, Model.XXH32.hashFromCanonical be32 ⟨3, [0x32, 0xD1, 0x53, 0xFF]⟩ = some h ∧
    Model.XXH32.canonicalFromHash x64 h = [0x32, 0xD1, 0x53, 0xFF] :=
  C17_XXH32_roundtrip' be32_valid _ rfl

example : Model.XXH32.canonicalFromHash be32 0x32D153FF = Spec.beBytes 4 (0x32D153FF : W32) := C17_XXH32_canonical_bigEndian _ _
example : (Model.XXH32.canonicalFromHash be32 0x32D153FF).length = 4 ∧
    Spec.beNat (Model.XXH32.canonicalFromHash be32 0x32D153FF) = 0x32D153FF := C17_XXH32_canonical_value be32 0x32D153FF

end XXH.Props
