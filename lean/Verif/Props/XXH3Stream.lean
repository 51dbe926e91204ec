import Verif.Proof.XXH3Stream
import Verif.Props.XXH3
import Verif.Props.XXH32
import Verif.Props.XXH64
/-!
Properties of XXH3 streaming: C08, C09, C10, C13, C19 (streaming), C27, C28.
-/
namespace XXH.Props
open XXH.Model XXH.Examples
open Model.XXH3 (State)

/-- The four reset functions and their arguments. -/
inductive ResetArg where
  | default
  | seed (seed : W64)
  | secret (secret : Ptr) (size : Nat)
  | secretAndSeed (secret : Ptr) (size : Nat) (seed : W64)

/-- What the documentation asks of the arguments (xxhash.h:1174, 1930-1986). -/
def ResetArg.Ok (cfg : Cfg) : ResetArg → Prop
  | .default => True
  | .seed _ => True
  | .secret q size => Readable cfg q size ∧ 136 ≤ size
  | .secretAndSeed q size _ => Readable cfg q size ∧ 136 ≤ size

/-- Call the reset function. -/
def ResetArg.call (cfg : Cfg) (s : Option State) : ResetArg → Option (Option State × Err)
  | .default => Model.XXH3.reset cfg s
  | .seed sd => Model.XXH3.reset_withSeed cfg s sd
  | .secret q size => Model.XXH3.reset_withSecret s q size
  | .secretAndSeed q size sd => Model.XXH3.reset_withSecretandSeed s q size sd

/-- The specified hash after such a reset. -/
def ResetArg.spec64 (msg : List Byte) : ResetArg → W64
  | .default => Spec.XXH3.XXH3_64 msg
  | .seed sd => Spec.XXH3.XXH3_64_withSeed msg sd
  | .secret q _ => Spec.XXH3.XXH3_64_withSecret msg (contents q)
  | .secretAndSeed q _ sd => Spec.XXH3.XXH3_64_withSecretandSeed msg (contents q) sd

@[inherit_doc ResetArg.spec64]
def ResetArg.spec128 (msg : List Byte) : ResetArg → H128
  | .default => Spec.XXH3.XXH3_128 msg
  | .seed sd => Spec.XXH3.XXH3_128_withSeed msg sd
  | .secret q _ => Spec.XXH3.XXH3_128_withSecret msg (contents q)
  | .secretAndSeed q _ sd => Spec.XXH3.XXH3_128_withSecretandSeed msg (contents q) sd

/-- The one-shot function with the same arguments. -/
def ResetArg.oneShot64 (cfg : Cfg) (p : Ptr) (len : Nat) : ResetArg → Option W64
  | .default => Model.XXH3.XXH3_64bits cfg p len
  | .seed sd => Model.XXH3.XXH3_64bits_withSeed cfg p len sd
  | .secret q size => Model.XXH3.XXH3_64bits_withSecret cfg p len q size
  | .secretAndSeed q size sd => Model.XXH3.XXH3_64bits_withSecretandSeed cfg p len q size sd

@[inherit_doc ResetArg.oneShot64]
def ResetArg.oneShot128 (cfg : Cfg) (p : Ptr) (len : Nat) : ResetArg → Option H128
  | .default => Model.XXH3.XXH3_128bits cfg p len
  | .seed sd => Model.XXH3.XXH3_128bits_withSeed cfg p len sd
  | .secret q size => Model.XXH3.XXH3_128bits_withSecret cfg p len q size
  | .secretAndSeed q size sd => Model.XXH3.XXH3_128bits_withSecretandSeed cfg p len q size sd

/-! ### Connection to the invariant -/

/-- The secret used for long inputs, and the seed used for short ones. -/
def ResetArg.secretOf : ResetArg → List Byte
  | .default => Spec.XXH3.defaultSecret
  | .seed sd => Spec.XXH3.deriveSecret sd
  | .secret q _ => contents q
  | .secretAndSeed q _ _ => contents q

@[inherit_doc ResetArg.secretOf]
def ResetArg.seedOf : ResetArg → Option W64
  | .default => none
  | .seed sd => if sd = 0 then none else some sd
  | .secret _ _ => none
  | .secretAndSeed _ _ sd => some sd

theorem value64_eq (a : ResetArg) (msg : List Byte) :
    XXH3P.value64 a.secretOf a.seedOf msg = a.spec64 msg := by
  have hlong : ∀ (seed : W64) (s1 s2 : List Byte), ¬ msg.length ≤ 240 →
      Spec.XXH3.hash64 msg seed s1 s2 = Spec.XXH3.large64 msg s2 := by
    intro seed s1 s2 h
    unfold Spec.XXH3.hash64
    rw [if_neg (by omega), if_neg (by omega), if_neg (by omega), if_neg (by omega), if_neg (by omega),
      if_neg (by omega)]
  unfold XXH3P.value64
  by_cases hs : msg.length ≤ 240
  · rw [if_pos hs]
    cases a with
    | default => rfl
    | seed sd =>
      by_cases h0 : sd = 0
      · subst h0
        simp only [ResetArg.seedOf, if_true, ResetArg.secretOf, ResetArg.spec64, XXH3P.derive_zero,
          Spec.XXH3.XXH3_64_withSeed, Spec.XXH3.XXH3_64_withSecret]
      · simp only [ResetArg.seedOf, if_neg h0, ResetArg.spec64]
    | secret q size => rfl
    | secretAndSeed q size sd =>
      simp only [ResetArg.seedOf, ResetArg.spec64, Spec.XXH3.XXH3_64_withSecretandSeed, if_pos hs]
  · rw [if_neg hs]
    cases a with
    | default => exact (hlong _ _ _ hs).symm
    | seed sd => exact (hlong _ _ _ hs).symm
    | secret q size => exact (hlong _ _ _ hs).symm
    | secretAndSeed q size sd =>
      simp only [ResetArg.spec64, Spec.XXH3.XXH3_64_withSecretandSeed, if_neg hs]
      exact (hlong _ _ _ hs).symm

theorem value128_eq (a : ResetArg) (msg : List Byte) :
    XXH3P.value128 a.secretOf a.seedOf msg = a.spec128 msg := by
  have hlong : ∀ (seed : W64) (s1 s2 : List Byte), ¬ msg.length ≤ 240 →
      Spec.XXH3.hash128 msg seed s1 s2 = Spec.XXH3.large128 msg s2 := by
    intro seed s1 s2 h
    unfold Spec.XXH3.hash128
    rw [if_neg (by omega), if_neg (by omega), if_neg (by omega), if_neg (by omega), if_neg (by omega),
      if_neg (by omega)]
  unfold XXH3P.value128
  by_cases hs : msg.length ≤ 240
  · rw [if_pos hs]
    cases a with
    | default => rfl
    | seed sd =>
      by_cases h0 : sd = 0
      · subst h0
        simp only [ResetArg.seedOf, if_true, ResetArg.secretOf, ResetArg.spec128, XXH3P.derive_zero,
          Spec.XXH3.XXH3_128_withSeed, Spec.XXH3.XXH3_128_withSecret]
      · simp only [ResetArg.seedOf, if_neg h0, ResetArg.spec128]
    | secret q size => rfl
    | secretAndSeed q size sd =>
      simp only [ResetArg.seedOf, ResetArg.spec128, Spec.XXH3.XXH3_128_withSecretandSeed, if_pos hs]
  · rw [if_neg hs]
    cases a with
    | default => exact (hlong _ _ _ hs).symm
    | seed sd => exact (hlong _ _ _ hs).symm
    | secret q size => exact (hlong _ _ _ hs).symm
    | secretAndSeed q size sd =>
      simp only [ResetArg.spec128, Spec.XXH3.XXH3_128_withSecretandSeed, if_neg hs]
      exact (hlong _ _ _ hs).symm

theorem reset_call_repr {cfg : Cfg} (hc : cfg.Valid) {s : State} (ht : s.Typed) {a : ResetArg} (hok : a.Ok cfg)
    (hF : ∀ sd, a = .seed sd → XXH3P.Fresh s) :
    ∃ s', a.call cfg (some s) = some (some s', .ok) ∧ XXH3P.Repr a.secretOf a.seedOf [] s' := by
  cases a with
  | default => exact XXH3P.reset_repr ht cfg
  | seed sd =>
    by_cases h0 : sd = 0
    · subst h0
      obtain ⟨s', h1, h2⟩ := XXH3P.reset_repr ht cfg
      refine ⟨s', ?_, ?_⟩
      · simpa only [ResetArg.call, Model.XXH3.reset_withSeed, if_true] using h1
      · simpa only [ResetArg.secretOf, ResetArg.seedOf, if_true, XXH3P.derive_zero] using h2
    · obtain ⟨s', h1, h2⟩ := XXH3P.reset_withSeed_repr hc (hF sd rfl) h0
      refine ⟨s', h1, ?_⟩
      simpa only [ResetArg.secretOf, ResetArg.seedOf, if_neg h0] using h2
  | secret q size =>
    cases q with
    | none =>
      have h1 := hok.1.length
      have h2 := hok.2
      simp [Ptr.buf] at h1
      omega
    | some q => exact XXH3P.reset_withSecret_repr ht hok.2 hok.1.length
  | secretAndSeed q size sd =>
    cases q with
    | none =>
      have h1 := hok.1.length
      have h2 := hok.2
      simp [Ptr.buf] at h1
      omega
    | some q => exact XXH3P.reset_withSecretandSeed_repr ht hok.2 hok.1.length sd

theorem update_call_repr {cfg : Cfg} (hc : cfg.Valid) {a : ResetArg} {msg : List Byte} {s : State} {p : Ptr}
    {len : Nat} (h : XXH3P.Repr a.secretOf a.seedOf msg s) (hp : Readable cfg p len) :
    ∃ s', Model.XXH3.bits64_update cfg s p len = some (s', .ok) ∧
      XXH3P.Repr a.secretOf a.seedOf (msg ++ contents p) s' :=
  XXH3P.update_repr hc (accOK hc) (scrOK hc) h hp.length

/-! ### C08, C09: reset, feed, digest -/

/-- Reset a state, feed the chunks. -/
def stream3 (cfg : Cfg) (s0 : State) (a : ResetArg) (chunks : List (Ptr × Nat)) : Option State := do
  let (s, _) ← a.call cfg (some s0)
  feed (Model.XXH3.bits64_update cfg) (← s) chunks

theorem stream3_repr {cfg : Cfg} (hc : cfg.Valid) {s0 : State} (ht : s0.Typed) {a : ResetArg} (hok : a.Ok cfg)
    (hinit : ∀ sd, a = .seed sd → XXH3P.Fresh s0)
    {chunks : List (Ptr × Nat)} (hr : ∀ c ∈ chunks, Readable cfg c.1 c.2) :
    ∃ s, stream3 cfg s0 a chunks = some s ∧ XXH3P.Repr a.secretOf a.seedOf (message chunks) s := by
  obtain ⟨s1, h1, hr1⟩ := reset_call_repr hc ht hok hinit
  obtain ⟨s2, h2, hr2⟩ := feed_repr (lenOk := fun _ => True) (cfg := cfg)
    (Rep := XXH3P.Repr a.secretOf a.seedOf) (fun _ _ _ _ => trivial)
    (fun s msg p len hr hp _ => update_call_repr hc hr hp) chunks s1 [] hr1 hr trivial
  refine ⟨s2, ?_, hr2⟩
  simp only [stream3, h1, h2, Option.bind_eq_bind, Option.bind_some]

theorem initialised_fresh {s0 : State} (ht : s0.Typed) (h : s0.extSecret = none ∧ s0.seed = 0) : XXH3P.Fresh s0 :=
  ⟨ht, fun _ h' => absurd h.2 h'⟩

/-- **C08.** Every reset variant, every chunking, every build: the 64-bit digest is the specified hash
of the message. The state may be any aligned memory; only `_reset_withSeed` needs it initialised
(`XXH3_INITSTATE`, `XXH3_createState`), see `C08_withSeed_needs_init`. -/
theorem C08_XXH3_64_stream {cfg : Cfg} (hc : cfg.Valid) {s0 : State} (ht : s0.Typed) {a : ResetArg}
    (hok : a.Ok cfg) (hinit : ∀ sd, a = .seed sd → s0.extSecret = none ∧ s0.seed = 0)
    {chunks : List (Ptr × Nat)} (hr : ∀ c ∈ chunks, Readable cfg c.1 c.2)
    (hlen : (message chunks).length < 2^64) :
    (do Model.XXH3.bits64_digest cfg (← stream3 cfg s0 a chunks)) = some (a.spec64 (message chunks)) := by
  obtain ⟨s, h1, h2⟩ := stream3_repr hc ht hok (fun sd h => initialised_fresh ht (hinit sd h)) hr
  simp only [h1, Option.bind_eq_bind, Option.bind_some]
  rw [XXH3P.digest64_repr hc h2 hlen, value64_eq]

/-- **C09.** The same for 128 bits. -/
theorem C09_XXH3_128_stream {cfg : Cfg} (hc : cfg.Valid) {s0 : State} (ht : s0.Typed) {a : ResetArg}
    (hok : a.Ok cfg) (hinit : ∀ sd, a = .seed sd → s0.extSecret = none ∧ s0.seed = 0)
    {chunks : List (Ptr × Nat)} (hr : ∀ c ∈ chunks, Readable cfg c.1 c.2)
    (hlen : (message chunks).length < 2^64) :
    (do Model.XXH3.bits128_digest cfg (← stream3 cfg s0 a chunks)) = some (a.spec128 (message chunks)) := by
  obtain ⟨s, h1, h2⟩ := stream3_repr hc ht hok (fun sd h => initialised_fresh ht (hinit sd h)) hr
  simp only [h1, Option.bind_eq_bind, Option.bind_some]
  rw [XXH3P.digest128_repr hc h2 hlen, value128_eq]

theorem fits_lt {cfg : Cfg} (hc : cfg.Valid) {q : Ptr} {len : Nat} (hq : Readable cfg q len) :
    (contents q).length < 2^64 := by
  have h3 := hq.fits
  have h4 := hc.sizeHi
  have h5 : 2 ^ (cfg.sizeBits - 1) ≤ 2 ^ 64 := Nat.pow_le_pow_right (by decide) (by omega)
  exact Nat.lt_of_lt_of_le h3 h5

/-- **C08**, as the equation between the two APIs, on two different builds. -/
theorem C08_XXH3_64_stream_eq_oneshot {cfg cfg' : Cfg} (hc : cfg.Valid) (hc' : cfg'.Valid) {s0 : State}
    (ht : s0.Typed) {a : ResetArg} (hok : a.Ok cfg) (hok' : a.Ok cfg')
    (hinit : ∀ sd, a = .seed sd → s0.extSecret = none ∧ s0.seed = 0)
    {chunks : List (Ptr × Nat)} (hr : ∀ c ∈ chunks, Readable cfg c.1 c.2)
    {p : Ptr} {len : Nat} (hp : Readable cfg' p len) (hsame : contents p = message chunks) :
    (do Model.XXH3.bits64_digest cfg (← stream3 cfg s0 a chunks)) = a.oneShot64 cfg' p len := by
  rw [C08_XXH3_64_stream hc ht hok hinit hr (by rw [← hsame]; exact fits_lt hc' hp), ← hsame]
  cases a with
  | default => exact (C03_XXH3_64bits_eq_spec hc' hp).symm
  | seed sd => exact (C03_XXH3_64bits_withSeed_eq_spec hc' hp sd).symm
  | secret q size => exact (C03_XXH3_64bits_withSecret_eq_spec hc' hp hok'.1 hok'.2).symm
  | secretAndSeed q size sd =>
    obtain ⟨hq, hs⟩ := hok'
    unfold ResetArg.oneShot64
    rw [← hp.length, ← hq.length] at *
    exact (XXH3P.bits64_withSecretandSeed_eq hc' (Holds.self _) rfl rfl (Holds.self _) hs sd).symm

/-- **C09**, as the equation between the two APIs, on two different builds. -/
theorem C09_XXH3_128_stream_eq_oneshot {cfg cfg' : Cfg} (hc : cfg.Valid) (hc' : cfg'.Valid) {s0 : State}
    (ht : s0.Typed) {a : ResetArg} (hok : a.Ok cfg) (hok' : a.Ok cfg')
    (hinit : ∀ sd, a = .seed sd → s0.extSecret = none ∧ s0.seed = 0)
    {chunks : List (Ptr × Nat)} (hr : ∀ c ∈ chunks, Readable cfg c.1 c.2)
    {p : Ptr} {len : Nat} (hp : Readable cfg' p len) (hsame : contents p = message chunks) :
    (do Model.XXH3.bits128_digest cfg (← stream3 cfg s0 a chunks)) = a.oneShot128 cfg' p len := by
  rw [C09_XXH3_128_stream hc ht hok hinit hr (by rw [← hsame]; exact fits_lt hc' hp), ← hsame]
  cases a with
  | default => exact (C04_XXH3_128bits_eq_spec hc' hp).symm
  | seed sd => exact (C04_XXH3_128bits_withSeed_eq_spec hc' hp sd).symm
  | secret q size => exact (C04_XXH3_128bits_withSecret_eq_spec hc' hp hok'.1 hok'.2).symm
  | secretAndSeed q size sd =>
    obtain ⟨hq, hs⟩ := hok'
    unfold ResetArg.oneShot128
    rw [← hp.length, ← hq.length] at *
    exact (XXH3P.bits128_withSecretandSeed_eq hc' (Holds.self _) rfl rfl (Holds.self _) hs sd).symm

/-- A state object in fresh memory. -/
def junk : State where
  addr := 0x10000
  acc := Vector.replicate 8 0xDEAD
  customSecret := List.replicate 192 7
  buffer := List.replicate 256 9
  bufferedSize := 77
  useSeed := true
  nbStripesSoFar := 5
  totalLen := 12345
  nbStripesPerBlock := 3
  secretLimit := 2
  seed := 42
  extSecret := none

theorem junk_typed : junk.Typed := ⟨by decide, List.length_replicate, List.length_replicate⟩

example : (do Model.XXH3.bits64_digest x64 (← stream3 x64 junk (.secret secret136 136)
      [(kilo, 1000), (abc, 3), (none, 0), (kilo, 1000)])) =
    some (Spec.XXH3.XXH3_64_withSecret (message [(kilo, 1000), (abc, 3), (none, 0), (kilo, 1000)]) (contents secret136)) :=
  C08_XXH3_64_stream x64_valid junk_typed (a := ResetArg.secret secret136 136) ⟨secret136_readable _ x64_valid, by decide⟩ (by rintro sd ⟨⟩) (by
    simp only [List.mem_cons, List.not_mem_nil, or_false]
    rintro c (rfl | rfl | rfl | rfl) <;> first | exact kilo_readable _ x64_valid | exact abc_readable | exact null_readable _)
    (by decide +kernel)
example : (do Model.XXH3.bits128_digest neon6 (← stream3 neon6 (Model.XXH3.INITSTATE junk) (.seed 5)
      [(kilo, 1000), (kilo, 1000)])) =
    some (Spec.XXH3.XXH3_128_withSeed (message [(kilo, 1000), (kilo, 1000)]) 5) :=
  C09_XXH3_128_stream neon6_valid (s0 := Model.XXH3.INITSTATE junk) (a := ResetArg.seed 5)
    ⟨junk_typed.1, junk_typed.2, junk_typed.3⟩ trivial (fun _ _ => ⟨rfl, rfl⟩) (by
    simp only [List.mem_cons, List.not_mem_nil, or_false]
    rintro c (rfl | rfl) <;> exact kilo_readable _ neon6_valid)
    (by decide +kernel)

/-- The same 1003 bytes in two chunks and in one, on two builds. -/
theorem joined_readable (cfg : Cfg) (hc : cfg.Valid) : Readable cfg (some ⟨2, contents kilo ++ contents abc⟩) 1003 := by
  have hl : (contents kilo ++ contents abc).length = 1003 := by decide +kernel
  refine ⟨hl, ?_⟩
  have h2 : 2 ^ 15 ≤ 2 ^ (cfg.sizeBits - 1) := Nat.pow_le_pow_right (by decide) (by have := hc.sizeLo; omega)
  show (contents kilo ++ contents abc).length < _
  omega

theorem two_readable : ∀ c ∈ [(kilo, 1000), (abc, 3)], Readable x64 c.1 c.2 := by
  simp only [List.mem_cons, List.not_mem_nil, or_false]
  rintro c (rfl | rfl) <;> first | exact abc_readable | exact kilo_readable _ x64_valid

example : (do Model.XXH3.bits64_digest x64 (← stream3 x64 junk (.secret secret136 136) [(kilo, 1000), (abc, 3)])) =
    Model.XXH3.XXH3_64bits_withSecret be32 (some ⟨2, contents kilo ++ contents abc⟩) 1003 secret136 136 :=
  C08_XXH3_64_stream_eq_oneshot x64_valid be32_valid junk_typed (a := ResetArg.secret secret136 136)
    ⟨secret136_readable _ x64_valid, by decide⟩ ⟨secret136_readable _ be32_valid, by decide⟩ (by rintro sd ⟨⟩)
    two_readable (joined_readable _ be32_valid) (by decide +kernel)
example : (do Model.XXH3.bits128_digest x64 (← stream3 x64 (Model.XXH3.INITSTATE junk) (.seed 5)
      [(kilo, 1000), (abc, 3)])) =
    Model.XXH3.XXH3_128bits_withSeed be32 (some ⟨2, contents kilo ++ contents abc⟩) 1003 5 :=
  C09_XXH3_128_stream_eq_oneshot x64_valid be32_valid (s0 := Model.XXH3.INITSTATE junk)
    ⟨junk_typed.1, junk_typed.2, junk_typed.3⟩ (a := ResetArg.seed 5) trivial trivial (fun _ _ => ⟨rfl, rfl⟩)
    two_readable (joined_readable _ be32_valid) (by decide +kernel)

/-- **C08.** The precondition of `_reset_withSeed` is necessary: in memory that happens to hold the
requested seed and a NULL `extSecret`, the secret is not generated, whatever bytes are there instead. -/
theorem C08_withSeed_needs_init (cfg : Cfg) :
    ∃ s', ResetArg.call cfg (some junk) (.seed 42) = some (some s', .ok) ∧
      s'.secret.bytes = List.replicate 192 7 ∧ List.replicate 192 7 ≠ Spec.XXH3.deriveSecret 42 := by
  refine ⟨_, rfl, rfl, ?_⟩
  decide +kernel

/-! ### C10: histories -/

/-- What a reset of each kind does, xxhash.h:6193-6234. A `reset_withSecretandSeed` with a NULL or too
small secret is refused; a `reset_withSecret` with a NULL secret is reported only after the state was
changed; a `reset_withSecret` with a too small secret is not allowed at all (see C27). -/
def resetOutcome (cfg : Cfg) : ResetArg → Outcome → Prop
  | a, .ok => a.Ok cfg
  | .secretAndSeed q size _, .refused => q = none ∨ size < 136
  | .secret q size, .lost => q = none ∧ 136 ≤ size
  | _, _ => False

/-- Which digest. -/
inductive Width where
  | bits64 | bits128

/-- The XXH3 streaming API: four resets, update, both digests, copy. -/
def api3 (cfg : Cfg) : Api State ResetArg Width (W64 ⊕ H128) where
  reset s a := do
    let (s', e) ← a.call cfg (some s)
    return (← s', e)
  update := Model.XXH3.bits64_update cfg
  digest s
    | .bits64 => do return .inl (← Model.XXH3.bits64_digest cfg s)
    | .bits128 => do return .inr (← Model.XXH3.bits128_digest cfg s)
  copy := Model.XXH3.copyState

/-- The specified result of a digest. -/
def specOf (a : ResetArg) (k : Width) (msg : List Byte) : W64 ⊕ H128 :=
  match k with
  | .bits64 => .inl (a.spec64 msg)
  | .bits128 => .inr (a.spec128 msg)

theorem refused_call {cfg : Cfg} (s : State) {a : ResetArg} (h : resetOutcome cfg a .refused) :
    (api3 cfg).reset s a = some (s, .error) := by
  cases a with
  | secretAndSeed q size sd =>
    have h' : q = none ∨ size < 136 := h
    show (do let (s', e) ← Model.XXH3.reset_withSecretandSeed (some s) q size sd; return (← s', e)) = _
    unfold Model.XXH3.reset_withSecretandSeed
    cases q with
    | none => rfl
    | some q =>
      have hs : size < Model.XXH3.SECRET_SIZE_MIN := by
        rcases h' with h | h
        · cases h
        · exact h
      simp [hs]
  | _ => exact h.elim

theorem lost_call {cfg : Cfg} {s : State} (ht : s.Typed) {a : ResetArg} (h : resetOutcome cfg a .lost) :
    ∃ s', (api3 cfg).reset s a = some (s', .error) ∧ XXH3P.Fresh s' := by
  cases a with
  | secret q size =>
    obtain ⟨rfl, hs⟩ : q = none ∧ 136 ≤ size := h
    show ∃ s', (do let (s', e) ← Model.XXH3.reset_withSecret (some s) none size; return (← s', e)) =
      some (s', .error) ∧ XXH3P.Fresh s'
    unfold Model.XXH3.reset_withSecret Model.XXH3.reset_internal
    rw [show assert (decide (Model.XXH3.SECRET_SIZE_MIN ≤ size)) = some () from
        XXH3P.assert_of (decide_eq_true hs)]
    exact ⟨_, rfl, ⟨⟨ht.align, ht.custom, ht.buffer⟩, fun _ h => absurd rfl h⟩⟩
  | _ => exact h.elim

/-- **C10.** Any number of states from `XXH3_createState` or `XXH3_INITSTATE`, any interleaving of the
four resets (including those that report an error), updates, 64- and 128-bit digests at any point and
`XXH3_copyState`: every call returns what is documented, every digest is the specified hash, with the
seed and secret of the last successful reset, of the bytes fed since. After a `reset_withSecret`
with a NULL secret the state must be reset before it is used again. -/
theorem C10_XXH3_histories {cfg : Cfg} (hc : cfg.Valid)
    {ops : List (Op ResetArg Width)} {evs : List (Event (W64 ⊕ H128))}
    (hruns : Runs cfg (resetOutcome cfg) (fun n => n < 2^64) specOf (fun _ => none) ops evs)
    (heap : Nat → State) (hheap : ∀ i, (heap i).Typed ∧ (heap i).extSecret = none ∧ (heap i).seed = 0) :
    runModel (api3 cfg) heap ops = some evs :=
  runs_simulation (api3 cfg) XXH3P.Fresh
    (fun a msg s => msg.length < 2^64 ∧ XXH3P.Repr a.secretOf a.seedOf msg s) (fun _ _ _ h => h.2.fresh)
    (fun s a hF hok => by
      obtain ⟨s', h1, h2⟩ := reset_call_repr hc hF.typed hok (fun _ _ => hF)
      exact ⟨s', by simp [api3, h1], by decide, h2⟩)
    (fun s a _ h => refused_call s h)
    (fun s a hF h => lost_call hF.typed h)
    (fun s a msg p len hr hp hl => by
      obtain ⟨s1, h1, h2⟩ := update_call_repr hc hr.2 hp
      refine ⟨s1, h1, ?_, h2⟩
      rw [List.length_append, hp.length]; exact hl)
    (fun s a msg k hr => by
      cases k with
      | bits64 =>
        show (do return Sum.inl (← Model.XXH3.bits64_digest cfg s)) = _
        rw [XXH3P.digest64_repr hc hr.2 hr.1, value64_eq]
        rfl
      | bits128 =>
        show (do return Sum.inr (← Model.XXH3.bits128_digest cfg s)) = _
        rw [XXH3P.digest128_repr hc hr.2 hr.1, value128_eq]
        rfl)
    (fun _ _ hd hF => hd.copy hF) (fun _ _ _ _ hd h => ⟨h.1, h.2.copy hd⟩) hruns heap
    (fun i => initialised_fresh (hheap i).1 (hheap i).2) (fun _ _ _ h => by cases h)

theorem runs3_example : Runs x64 (resetOutcome x64) (fun n => n < 2^64) specOf (fun _ => none)
    [.reset 0 (.seed 5), .update 0 abc 3, .copy 1 0, .digest 0 .bits64, .reset 0 (.secretAndSeed none 200 1),
      .update 0 abc 3, .digest 0 .bits128, .reset 1 (.secret none 200), .reset 1 .default, .digest 1 .bits64]
    [.code .ok, .code .ok, .void, .hash (.inl (Spec.XXH3.XXH3_64_withSeed [0x61, 0x62, 0x63] 5)), .code .error,
      .code .ok, .hash (.inr (Spec.XXH3.XXH3_128_withSeed [0x61, 0x62, 0x63, 0x61, 0x62, 0x63] 5)),
      .code .error, .code .ok, .hash (.inl (Spec.XXH3.XXH3_64 []))] := by
  refine .reset (a := ResetArg.seed 5) trivial (.update (a := ResetArg.seed 5) (msg := []) rfl abc_readable (by decide) (.copy ?_))
  refine .digest (a := ResetArg.seed 5) (k := Width.bits64) rfl (.refused (.inl rfl) ?_)
  refine .update (a := ResetArg.seed 5) rfl abc_readable (by decide) ?_
  refine .digest (a := ResetArg.seed 5) (k := Width.bits128) rfl (.lost ⟨rfl, by decide⟩ ?_)
  exact .reset (a := ResetArg.default) trivial (.digest (a := ResetArg.default) (k := Width.bits64) rfl .nil)

example : runModel (api3 x64) (fun _ => Model.XXH3.INITSTATE junk)
    [.reset 0 (.seed 5), .update 0 abc 3, .copy 1 0, .digest 0 .bits64, .reset 0 (.secretAndSeed none 200 1),
      .update 0 abc 3, .digest 0 .bits128, .reset 1 (.secret none 200), .reset 1 .default, .digest 1 .bits64] = some
    [.code .ok, .code .ok, .void, .hash (.inl (Spec.XXH3.XXH3_64_withSeed [0x61, 0x62, 0x63] 5)), .code .error,
      .code .ok, .hash (.inr (Spec.XXH3.XXH3_128_withSeed [0x61, 0x62, 0x63, 0x61, 0x62, 0x63] 5)),
      .code .error, .code .ok, .hash (.inl (Spec.XXH3.XXH3_64 []))] :=
  C10_XXH3_histories x64_valid runs3_example _
    (fun _ => ⟨⟨junk_typed.1, junk_typed.2, junk_typed.3⟩, rfl, rfl⟩)

/-! ### C13: memory safety of streaming -/

/-- **C13** (XXH3). No allowed history reaches undefined behaviour: no access outside the pieces, the
secret or the state's own arrays, no misaligned access, no violated assertion. There is no restriction
on the total length. -/
theorem C13_XXH3_safe {cfg : Cfg} (hc : cfg.Valid) {ops : List (Op ResetArg Width)}
    (hall : Allowed cfg (resetOutcome cfg) (fun _ => false) ops)
    (heap : Nat → State) (hheap : ∀ i, (heap i).Typed ∧ (heap i).extSecret = none ∧ (heap i).seed = 0) :
    ∃ evs, runModel (api3 cfg) heap ops = some evs :=
  allowed_simulation (api3 cfg) XXH3P.Fresh (fun s => ∃ (a : ResetArg) (msg : List Byte), XXH3P.Repr a.secretOf a.seedOf msg s)
    (fun s ⟨_, _, h⟩ => h.fresh)
    (fun s a hF hok => by
      obtain ⟨s', h1, h2⟩ := reset_call_repr hc hF.typed hok (fun _ _ => hF)
      exact ⟨s', .ok, by simp [api3, h1], a, _, h2⟩)
    (fun s a _ h => ⟨_, refused_call s h⟩)
    (fun s a hF h => by
      obtain ⟨s', h1, h2⟩ := lost_call hF.typed h
      exact ⟨s', _, h1, h2⟩)
    (fun s p len ⟨a, msg, hr⟩ hp => by
      obtain ⟨s1, h1, h2⟩ := update_call_repr hc hr hp
      exact ⟨s1, _, h1, a, _, h2⟩)
    (fun s k ⟨a, msg, hr⟩ => by
      cases k with
      | bits64 =>
        obtain ⟨v, hv⟩ := XXH3P.digest64_defined hc hr
        exact ⟨.inl v, by simp [api3, hv]⟩
      | bits128 =>
        obtain ⟨v, hv⟩ := XXH3P.digest128_defined hc hr
        exact ⟨.inr v, by simp [api3, hv]⟩)
    (fun _ _ hd hF => hd.copy hF) (fun _ _ hd ⟨a, msg, h⟩ => ⟨a, msg, h.copy hd⟩) hall heap
    (fun i => initialised_fresh (hheap i).1 (hheap i).2) (fun _ h => by cases h)

/-- **C13** (XXH64). -/
theorem C13_XXH64_safe {cfg : Cfg} (hc : cfg.Valid) {ops : List (Op W64 Unit)}
    (hall : Allowed cfg (fun _ o => o = .ok) (fun _ => false) ops) (heap : Nat → Model.XXH64.State) :
    ∃ evs, runModel (api64 cfg) heap ops = some evs :=
  allowed_simulation (api64 cfg) (fun _ => True) (fun s => ∃ seed msg, Proof.XXH64.Repr seed msg s)
    (fun _ _ => trivial)
    (fun s seed _ _ => by
      obtain ⟨s1, h1, h2⟩ := Proof.XXH64.reset_repr s seed
      exact ⟨s1, _, h1, _, _, h2⟩)
    (fun _ _ _ h => by cases h) (fun _ _ _ h => by cases h)
    (fun s p len ⟨seed, msg, hr⟩ hp => by
      obtain ⟨s1, h1, h2⟩ := Proof.XXH64.update_repr hc hr hp
      exact ⟨s1, _, h1, _, _, h2⟩)
    (fun s _ ⟨seed, msg, hr⟩ => Proof.XXH64.digest_defined hc hr)
    (fun _ _ _ _ => trivial) (fun _ _ _ h => h) hall heap (fun _ => trivial) (fun _ h => by cases h)

/-- **C13** (XXH32). -/
theorem C13_XXH32_safe {cfg : Cfg} (hc : cfg.Valid) {ops : List (Op W32 Unit)}
    (hall : Allowed cfg (fun _ o => o = .ok) (fun _ => false) ops) (heap : Nat → Model.XXH32.State) :
    ∃ evs, runModel (api32 cfg) heap ops = some evs :=
  allowed_simulation (api32 cfg) (fun _ => True) (fun s => ∃ seed msg, Proof.XXH32.Repr seed msg s)
    (fun _ _ => trivial)
    (fun s seed _ _ => by
      obtain ⟨s1, h1, h2⟩ := Proof.XXH32.reset_repr s seed
      exact ⟨s1, _, h1, _, _, h2⟩)
    (fun _ _ _ h => by cases h) (fun _ _ _ h => by cases h)
    (fun s p len ⟨seed, msg, hr⟩ hp => by
      obtain ⟨s1, h1, h2⟩ := Proof.XXH32.update_repr hc hr hp
      exact ⟨s1, _, h1, _, _, h2⟩)
    (fun s _ ⟨seed, msg, hr⟩ => ⟨_, Proof.XXH32.digest_repr hc hr⟩)
    (fun _ _ _ _ => trivial) (fun _ _ _ h => h) hall heap (fun _ => trivial) (fun _ h => by cases h)

theorem allowed3_example : Allowed x64 (resetOutcome x64) (fun _ => false)
    [.reset 0 (.secret secret136 136), .update 0 kilo 1000, .copy 1 0, .update 1 none 0, .digest 1 Width.bits128] := by
  refine .reset (a := ResetArg.secret secret136 136) ⟨secret136_readable _ x64_valid, by decide⟩ ?_
  exact .update rfl (kilo_readable _ x64_valid) (.copy (.update rfl (null_readable _) (.digest rfl .nil)))

example : ∃ evs, runModel (api3 x64) (fun _ => Model.XXH3.INITSTATE junk)
    [.reset 0 (.secret secret136 136), .update 0 kilo 1000, .copy 1 0, .update 1 none 0, .digest 1 Width.bits128] =
      some evs :=
  C13_XXH3_safe x64_valid allowed3_example _ (fun _ => ⟨⟨junk_typed.1, junk_typed.2, junk_typed.3⟩, rfl, rfl⟩)
example (heap : Nat → Model.XXH64.State) : ∃ evs, runModel (api64 x64) heap
    [.reset 0 5, .update 0 kilo 1000, .copy 1 0, .update 1 none 0, .digest 1 ()] = some evs :=
  C13_XXH64_safe x64_valid (.reset rfl (.update rfl (kilo_readable _ x64_valid) (.copy (.update rfl (null_readable _)
    (.digest rfl .nil))))) heap
example (heap : Nat → Model.XXH32.State) : ∃ evs, runModel (api32 be32) heap
    [.reset 0 5, .update 0 kilo 1000, .copy 1 0, .update 1 none 0, .digest 1 ()] = some evs :=
  C13_XXH32_safe be32_valid (.reset rfl (.update rfl (kilo_readable _ be32_valid) (.copy (.update rfl (null_readable _)
    (.digest rfl .nil))))) heap

/-! ### C19: seed 0 -/

/-- **C19** (streaming): a reset with seed 0 is the plain reset, on every state and build. -/
theorem C19_reset_withSeed_zero (cfg : Cfg) (s : Option State) :
    Model.XXH3.reset_withSeed cfg s 0 = Model.XXH3.reset cfg s := by
  cases s <;> rfl

/-! ### C27: error codes of the resets -/

/-- **C27.** A NULL state is refused by every reset, whatever the other arguments. -/
theorem C27_null_state (cfg : Cfg) (a : ResetArg) : a.call cfg none = some (none, .error) := by
  cases a <;> rfl

/-- **C27.** The plain and the seeded reset always succeed. -/
theorem C27_reset_ok (cfg : Cfg) (hc : cfg.Valid) {s : State} (ht : s.Typed) (sd : W64) :
    (∃ s', Model.XXH3.reset cfg (some s) = some (some s', .ok)) ∧
    (∃ s', Model.XXH3.reset_withSeed cfg (some s) sd = some (some s', .ok)) := by
  constructor
  · obtain ⟨s', h, _⟩ := XXH3P.reset_repr ht cfg
    exact ⟨s', h⟩
  · by_cases h0 : sd = 0
    · subst h0
      rw [C19_reset_withSeed_zero]
      obtain ⟨s', h, _⟩ := XXH3P.reset_repr ht cfg
      exact ⟨s', h⟩
    · unfold Model.XXH3.reset_withSeed Model.XXH3.reset_internal
      simp only [if_neg h0, Option.bind_eq_bind]
      split
      · rw [XXH3P.initCustomSecret_eq ht.custom sd hc (SimdP.secAlign_ok (by have := ht.align; omega))]
        exact ⟨_, rfl⟩
      · exact ⟨_, rfl⟩

/-- **C27.** `reset_withSecretandSeed` succeeds exactly if the secret is not NULL and at least 136 bytes;
otherwise it reports an error and leaves the state alone. -/
theorem C27_withSecretandSeed (s : State) (q : Ptr) (size : Nat) (sd : W64) :
    (q ≠ none ∧ 136 ≤ size → ∃ s', Model.XXH3.reset_withSecretandSeed (some s) q size sd = some (some s', .ok)) ∧
    (q = none ∨ size < 136 →
      Model.XXH3.reset_withSecretandSeed (some s) q size sd = some (some s, .error)) := by
  constructor
  · rintro ⟨hq, hs⟩
    cases q with
    | none => exact absurd rfl hq
    | some q =>
      unfold Model.XXH3.reset_withSecretandSeed Model.XXH3.reset_internal
      rw [show assert (decide (Model.XXH3.SECRET_SIZE_MIN ≤ size)) = some () from
        XXH3P.assert_of (decide_eq_true hs)]
      simp [show ¬ size < Model.XXH3.SECRET_SIZE_MIN from by unfold Model.XXH3.SECRET_SIZE_MIN; omega]
  · intro h
    cases q with
    | none => rfl
    | some q =>
      have hs : size < Model.XXH3.SECRET_SIZE_MIN := by
        rcases h with h | h
        · cases h
        · exact h
      simp [Model.XXH3.reset_withSecretandSeed, hs]

/-- **C27**, for `reset_withSecret` with a size of at least 136: the NULL secret is reported, the state can be reset
again; any other secret is accepted. Partial: for smaller sizes the claim is false, see
`C27_withSecret_small_undefined`. -/
theorem C27_withSecret_partial {s : State} (ht : s.Typed) (q : Ptr) {size : Nat} (hs : 136 ≤ size) :
    (q ≠ none → ∃ s', Model.XXH3.reset_withSecret (some s) q size = some (some s', .ok)) ∧
    (q = none → ∃ s', Model.XXH3.reset_withSecret (some s) q size = some (some s', .error) ∧ s'.Typed) := by
  have h136 : ¬ size < Model.XXH3.SECRET_SIZE_MIN := by unfold Model.XXH3.SECRET_SIZE_MIN; omega
  have has : assert (decide (Model.XXH3.SECRET_SIZE_MIN ≤ size)) = some () :=
    XXH3P.assert_of (decide_eq_true hs)
  unfold Model.XXH3.reset_withSecret Model.XXH3.reset_internal
  rw [has]
  constructor
  · intro hq
    cases q with
    | none => exact absurd rfl hq
    | some q => simp [h136]
  · rintro rfl
    refine ⟨_, rfl, ⟨ht.align, ht.custom, ht.buffer⟩⟩

/-- **C27** is false of `reset_withSecret`: the error for a secret smaller than 136 bytes (xxhash.h:6208) is
never returned, because `XXH3_reset_internal` has already asserted the size: undefined behaviour
in a release build, an abort in a debug build. -/
theorem C27_withSecret_small_undefined (s : State) (q : Ptr) {size : Nat} (hs : size < 136) :
    Model.XXH3.reset_withSecret (some s) q size = none := by
  have has : assert (decide (Model.XXH3.SECRET_SIZE_MIN ≤ size)) = none := by
    have : decide (Model.XXH3.SECRET_SIZE_MIN ≤ size) = false := by
      unfold Model.XXH3.SECRET_SIZE_MIN; simpa using hs
    rw [this]; rfl
  unfold Model.XXH3.reset_withSecret Model.XXH3.reset_internal
  rw [has]
  rfl

/-- **C27.** An error of `reset_withSecret` does not leave the state alone: a state that was fed data
forgets it. -/
theorem C27_withSecret_error_forgets :
    ∃ s', Model.XXH3.reset_withSecret (some junk) none 136 = some (some s', .error) ∧ s'.totalLen ≠ junk.totalLen :=
  ⟨_, rfl, by decide⟩

example : Model.XXH3.reset_withSecret (some junk) secret136 135 = none :=
  C27_withSecret_small_undefined _ _ (by decide)

example : (∃ s', Model.XXH3.reset x64 (some junk) = some (some s', .ok)) ∧
    (∃ s', Model.XXH3.reset_withSeed x64 (some junk) 7 = some (some s', .ok)) :=
  C27_reset_ok x64 x64_valid junk_typed 7
example : ∃ s', Model.XXH3.reset_withSecret (some junk) secret136 136 = some (some s', .ok) :=
  (C27_withSecret_partial junk_typed secret136 (by decide)).1 (by rintro ⟨⟩)
example : ∃ s', Model.XXH3.reset_withSecret (some junk) none 136 = some (some s', .error) ∧ s'.Typed :=
  (C27_withSecret_partial junk_typed none (by decide)).2 rfl

/-! ### C28: empty updates -/

/-- Two states that no continuation can tell apart. -/
def SameFuture {S O : Type} (cfg : Cfg) (update : S → Ptr → Nat → Option (S × Err)) (digest : S → Option O)
    (bound : Nat) (s s' : S) : Prop :=
  ∀ more : List (Ptr × Nat), (∀ c ∈ more, Readable cfg c.1 c.2) → bound + (message more).length < 2^64 →
    (do digest (← feed update s' more)) = (do digest (← feed update s more))

/-- **C28** (XXH3). After any reset and any chunks, an update with a NULL pointer or no bytes returns
`XXH_OK` and changes nothing that can be observed. -/
theorem C28_XXH3 {cfg : Cfg} (hc : cfg.Valid) {s0 s : State} (ht : s0.Typed) {a : ResetArg} (hok : a.Ok cfg)
    (hinit : ∀ sd, a = .seed sd → s0.extSecret = none ∧ s0.seed = 0)
    {chunks : List (Ptr × Nat)} (hr : ∀ c ∈ chunks, Readable cfg c.1 c.2)
    (hs : stream3 cfg s0 a chunks = some s) {p : Ptr} (hp : Readable cfg p 0) :
    ∃ s', Model.XXH3.bits64_update cfg s p 0 = some (s', .ok) ∧
      SameFuture cfg (Model.XXH3.bits64_update cfg) (Model.XXH3.bits64_digest cfg) (message chunks).length s s' ∧
      SameFuture cfg (Model.XXH3.bits64_update cfg) (Model.XXH3.bits128_digest cfg) (message chunks).length s s' := by
  obtain ⟨s1, h1, h2⟩ := stream3_repr hc ht hok (fun sd h => initialised_fresh ht (hinit sd h)) hr
  obtain rfl : s1 = s := by rw [hs] at h1; exact (Option.some.inj h1).symm
  obtain ⟨s', h3, h4⟩ := update_call_repr hc h2 hp
  have h0 : contents p = [] := List.length_eq_zero_iff.mp hp.length
  rw [h0, List.append_nil] at h4
  have key : ∀ (t : State), XXH3P.Repr a.secretOf a.seedOf (message chunks) t →
      ∀ more : List (Ptr × Nat), (∀ c ∈ more, Readable cfg c.1 c.2) →
        (message chunks).length + (message more).length < 2^64 →
        (do Model.XXH3.bits64_digest cfg (← feed (Model.XXH3.bits64_update cfg) t more)) =
            some (a.spec64 (message chunks ++ message more)) ∧
        (do Model.XXH3.bits128_digest cfg (← feed (Model.XXH3.bits64_update cfg) t more)) =
            some (a.spec128 (message chunks ++ message more)) := by
    intro t ht more hm hl
    obtain ⟨t2, h5, h6⟩ := feed_repr (lenOk := fun _ => True) (cfg := cfg)
      (Rep := XXH3P.Repr a.secretOf a.seedOf) (fun _ _ _ _ => trivial)
      (fun s msg p len hr hp _ => update_call_repr hc hr hp) more t _ ht hm trivial
    simp only [h5, Option.bind_eq_bind, Option.bind_some]
    have hl' : (message chunks ++ message more).length < 2^64 := by rw [List.length_append]; exact hl
    rw [XXH3P.digest64_repr hc h6 hl', value64_eq, XXH3P.digest128_repr hc h6 hl', value128_eq]
    exact ⟨rfl, rfl⟩
  exact ⟨s', h3, fun more hm hl => (key s' h4 more hm hl).1.trans (key s1 h2 more hm hl).1.symm,
    fun more hm hl => (key s' h4 more hm hl).2.trans (key s1 h2 more hm hl).2.symm⟩

/-- **C28** (XXH64). -/
theorem C28_XXH64 {cfg : Cfg} (hc : cfg.Valid) (s0 : Model.XXH64.State) (seed : W64) {s1 s : Model.XXH64.State}
    {e : Err} (h1 : Model.XXH64.reset (some s0) seed = some (s1, e))
    {chunks : List (Ptr × Nat)} (hr : ∀ c ∈ chunks, Readable cfg c.1 c.2)
    (hs : feed (Model.XXH64.update cfg) s1 chunks = some s) {p : Ptr} (hp : Readable cfg p 0) :
    ∃ s', Model.XXH64.update cfg s p 0 = some (s', .ok) ∧
      SameFuture cfg (Model.XXH64.update cfg) (Model.XXH64.digest cfg) (message chunks).length s s' := by
  obtain ⟨s1', h1', hr1⟩ := Proof.XXH64.reset_repr s0 seed
  rw [h1] at h1'
  obtain rfl : s1 = s1' := congrArg Prod.fst (Option.some.inj h1')
  have hfeed : ∀ (t : Model.XXH64.State) (m : List Byte), Proof.XXH64.Repr seed m t →
      ∀ more : List (Ptr × Nat), (∀ c ∈ more, Readable cfg c.1 c.2) →
        ∃ t2, feed (Model.XXH64.update cfg) t more = some t2 ∧ Proof.XXH64.Repr seed (m ++ message more) t2 :=
    fun t m ht more hm => feed_repr (lenOk := fun _ => True) (cfg := cfg)
      (Rep := Proof.XXH64.Repr seed) (fun _ _ _ _ => trivial)
      (fun s msg p len hr hp _ => Proof.XXH64.update_repr hc hr hp) more t m ht hm trivial
  obtain ⟨s2, h2, hr2⟩ := hfeed s1 [] hr1 chunks hr
  rw [List.nil_append] at hr2
  obtain rfl : s2 = s := by rw [hs] at h2; exact (Option.some.inj h2).symm
  obtain ⟨s', h3, hr3⟩ := Proof.XXH64.update_repr hc hr2 hp
  have h0 : contents p = [] := List.length_eq_zero_iff.mp hp.length
  rw [h0, List.append_nil] at hr3
  refine ⟨s', h3, fun more hm hl => ?_⟩
  obtain ⟨t1, g1, k1⟩ := hfeed s' _ hr3 more hm
  obtain ⟨t2, g2, k2⟩ := hfeed s2 _ hr2 more hm
  have hl' : (message chunks ++ message more).length < 2^64 := by rw [List.length_append]; exact hl
  simp only [g1, g2, Option.bind_eq_bind, Option.bind_some]
  rw [Proof.XXH64.digest_repr hc hl' k1, Proof.XXH64.digest_repr hc hl' k2]

/-- **C28** (XXH32). -/
theorem C28_XXH32 {cfg : Cfg} (hc : cfg.Valid) (s0 : Model.XXH32.State) (seed : W32) {s1 s : Model.XXH32.State}
    {e : Err} (h1 : Model.XXH32.reset (some s0) seed = some (s1, e))
    {chunks : List (Ptr × Nat)} (hr : ∀ c ∈ chunks, Readable cfg c.1 c.2)
    (hs : feed (Model.XXH32.update cfg) s1 chunks = some s) {p : Ptr} (hp : Readable cfg p 0) :
    ∃ s', Model.XXH32.update cfg s p 0 = some (s', .ok) ∧
      SameFuture cfg (Model.XXH32.update cfg) (Model.XXH32.digest cfg) (message chunks).length s s' := by
  obtain ⟨s1', h1', hr1⟩ := Proof.XXH32.reset_repr s0 seed
  rw [h1] at h1'
  obtain rfl : s1 = s1' := congrArg Prod.fst (Option.some.inj h1')
  have hfeed : ∀ (t : Model.XXH32.State) (m : List Byte), Proof.XXH32.Repr seed m t →
      ∀ more : List (Ptr × Nat), (∀ c ∈ more, Readable cfg c.1 c.2) →
        ∃ t2, feed (Model.XXH32.update cfg) t more = some t2 ∧ Proof.XXH32.Repr seed (m ++ message more) t2 :=
    fun t m ht more hm => feed_repr (lenOk := fun _ => True) (cfg := cfg)
      (Rep := Proof.XXH32.Repr seed) (fun _ _ _ _ => trivial)
      (fun s msg p len hr hp _ => Proof.XXH32.update_repr hc hr hp) more t m ht hm trivial
  obtain ⟨s2, h2, hr2⟩ := hfeed s1 [] hr1 chunks hr
  rw [List.nil_append] at hr2
  obtain rfl : s2 = s := by rw [hs] at h2; exact (Option.some.inj h2).symm
  obtain ⟨s', h3, hr3⟩ := Proof.XXH32.update_repr hc hr2 hp
  have h0 : contents p = [] := List.length_eq_zero_iff.mp hp.length
  rw [h0, List.append_nil] at hr3
  refine ⟨s', h3, fun more hm hl => ?_⟩
  obtain ⟨t1, g1, k1⟩ := hfeed s' _ hr3 more hm
  obtain ⟨t2, g2, k2⟩ := hfeed s2 _ hr2 more hm
  simp only [g1, g2, Option.bind_eq_bind, Option.bind_some]
  rw [Proof.XXH32.digest_repr hc k1, Proof.XXH32.digest_repr hc k2]

/-- The hypotheses of `C28_XXH3` can be met. -/
example : ∃ s s', stream3 x64 junk .default [(kilo, 1000)] = some s ∧
    Model.XXH3.bits64_update x64 s none 0 = some (s', .ok) := by
  have hr : ∀ c ∈ [(kilo, 1000)], Readable x64 c.1 c.2 := by
    simp only [List.mem_cons, List.not_mem_nil, or_false]
    rintro c rfl
    exact kilo_readable _ x64_valid
  obtain ⟨s, h1, _⟩ := stream3_repr x64_valid junk_typed (a := ResetArg.default) trivial (by rintro _ ⟨⟩) hr
  obtain ⟨s', h2, _⟩ := C28_XXH3 x64_valid junk_typed (a := ResetArg.default) trivial (by rintro _ ⟨⟩) hr h1 (null_readable _)
  exact ⟨s, s', h1, h2⟩

example : ∃ s1 s s', Model.XXH64.reset (some ⟨5, ⟨1, 2, 3, 4⟩, List.replicate 32 9, 3⟩) 7 = some (s1, .ok) ∧
    feed (Model.XXH64.update x64) s1 [(kilo, 1000), (abc, 3)] = some s ∧
    Model.XXH64.update x64 s none 0 = some (s', .ok) := by
  obtain ⟨s1, h1, hr1⟩ := Proof.XXH64.reset_repr ⟨5, ⟨1, 2, 3, 4⟩, List.replicate 32 9, 3⟩ 7
  obtain ⟨s, h2, _⟩ := feed_repr (lenOk := fun _ => True) (cfg := x64) (Rep := Proof.XXH64.Repr 7) (fun _ _ _ _ => trivial)
    (fun s msg p len hr hp _ => Proof.XXH64.update_repr x64_valid hr hp) _ s1 [] hr1 two_readable trivial
  obtain ⟨s', h3, _⟩ := C28_XXH64 x64_valid _ 7 h1 two_readable h2 (null_readable _)
  exact ⟨s1, s, s', h1, h2, h3⟩

example : ∃ s1 s s', Model.XXH32.reset (some ⟨5, 1, ⟨1, 2, 3, 4⟩, List.replicate 16 9, 3⟩) 7 = some (s1, .ok) ∧
    feed (Model.XXH32.update x64) s1 [(kilo, 1000), (abc, 3)] = some s ∧
    Model.XXH32.update x64 s none 0 = some (s', .ok) := by
  obtain ⟨s1, h1, hr1⟩ := Proof.XXH32.reset_repr ⟨5, 1, ⟨1, 2, 3, 4⟩, List.replicate 16 9, 3⟩ 7
  obtain ⟨s, h2, _⟩ := feed_repr (lenOk := fun _ => True) (cfg := x64) (Rep := Proof.XXH32.Repr 7) (fun _ _ _ _ => trivial)
    (fun s msg p len hr hp _ => Proof.XXH32.update_repr x64_valid hr hp) _ s1 [] hr1 two_readable trivial
  obtain ⟨s', h3, _⟩ := C28_XXH32 x64_valid _ 7 h1 two_readable h2 (null_readable _)
  exact ⟨s1, s, s', h1, h2, h3⟩

end XXH.Props
