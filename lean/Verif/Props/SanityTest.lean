import Verif.Proof.SanityTest
import Verif.Proof.SanityDraws
import Verif.Props.SelfTest
/-!
C55: the test program tests/sanity_test.c and the generator of its tables.
-/
namespace XXH.Props
open XXH.Model (Cfg Ptr Buf)
open XXH.Model.SelfTest XXH.Model.SanityTest XXH.SelfTestP XXH.SanityP
open Model.Cli (Res)

/-! ### What the tables should contain -/

/-- Byte `i` of the test data: the upper byte of `2654435761 * 11400714785074694797 ^ i`. -/
def testByte (i : Nat) : Byte := BitVec.ofNat 8 (2654435761 * 11400714785074694797 ^ i % 2 ^ 64 / 2 ^ 56)

/-- The first `n` bytes of the test data. -/
def testMessage (n : Nat) : List Byte := (List.range n).map testByte

/-- The secret of the tests: bytes 7 to 153. -/
def testSecret : List Byte := (List.range 147).map fun i => testByte (7 + i)

/-- The bytes kept of a generated secret; a short secret is followed by zeros. -/
def keptBytes (seedLen secretLen : Nat) : List Byte :=
  [0, 62, 131, 191, 241].map fun i =>
    if i < secretLen then (Spec.XXH3.generateSecret secretLen (testMessage seedLen)).getD i 0 else 0

/-- Every entry is the value of the specification. -/
structure Correct (v : Tables) : Prop where
  xxh32 : ∀ t ∈ v.xxh32, t.Nresult = Spec.XXH32.hash (testMessage t.len) t.seed
  xxh64 : ∀ t ∈ v.xxh64, t.Nresult = Spec.XXH64.hash (testMessage t.len) t.seed
  xxh3 : ∀ t ∈ v.xxh3, t.Nresult = Spec.XXH3.XXH3_64_withSeed (testMessage t.len) t.seed
  xxh3Secret : ∀ t ∈ v.xxh3Secret, t.Nresult = Spec.XXH3.XXH3_64_withSecret (testMessage t.len) testSecret
  xxh128 : ∀ t ∈ v.xxh128, t.Nresult = Spec.XXH3.XXH3_128_withSeed (testMessage t.len) t.seed
  xxh128Secret : ∀ t ∈ v.xxh128Secret, t.Nresult = Spec.XXH3.XXH3_128_withSecret (testMessage t.len) testSecret
  generateSecret : ∀ t ∈ v.generateSecret, t.byte = keptBytes t.seedLen t.secretLen

/-- No entry asks for more data than there is. -/
structure InRange (v : Tables) : Prop where
  xxh32 : ∀ t ∈ v.xxh32, t.len ≤ 4161
  xxh64 : ∀ t ∈ v.xxh64, t.len ≤ 4161
  xxh3 : ∀ t ∈ v.xxh3, t.len ≤ 4161
  xxh3Secret : ∀ t ∈ v.xxh3Secret, t.len ≤ 4161
  xxh128 : ∀ t ∈ v.xxh128, t.len ≤ 4161
  xxh128Secret : ∀ t ∈ v.xxh128Secret, t.len ≤ 4161
  generateSecret : ∀ t ∈ v.generateSecret, t.seedLen ≤ 4161 ∧ 136 ≤ t.secretLen ∧ t.secretLen ≤ 9867

/-- The number of entries. -/
def entries (v : Tables) : Nat := v.xxh32.length + v.xxh64.length + v.xxh3.length + v.xxh3Secret.length +
  v.xxh128.length + v.xxh128Secret.length + v.generateSecret.length

/-- A number stored in a `size_t` of `bits` bits. -/
def stored (bits x : Nat) : Nat := x % 2 ^ bits

/-- The tables a generator with `size_t` of `bits` bits should write. -/
def wanted (bits : Nat) : Tables where
  xxh32 := (List.range 4161).flatMap fun n => [0, stored bits 2654435761].map fun s =>
    ⟨n, BitVec.ofNat 32 s, Spec.XXH32.hash (testMessage n) (BitVec.ofNat 32 s)⟩
  xxh64 := (List.range 4161).flatMap fun n => [0, stored bits 2654435761].map fun s =>
    ⟨n, BitVec.ofNat 64 s, Spec.XXH64.hash (testMessage n) (BitVec.ofNat 64 s)⟩
  xxh3 := (List.range 4161).flatMap fun n => [0, stored bits 11400714785074694797].map fun s =>
    ⟨n, BitVec.ofNat 64 s, Spec.XXH3.XXH3_64_withSeed (testMessage n) (BitVec.ofNat 64 s)⟩
  xxh3Secret := (List.range 4161).map fun n => ⟨n, 0, Spec.XXH3.XXH3_64_withSecret (testMessage n) testSecret⟩
  xxh128 := (List.range 4161).flatMap fun n => [0, 2654435761, 11400714785074694797].map fun (s : W64) =>
    ⟨n, s, Spec.XXH3.XXH3_128_withSeed (testMessage n) s⟩
  xxh128Secret := (List.range 4161).map fun n => ⟨n, 0, Spec.XXH3.XXH3_128_withSecret (testMessage n) testSecret⟩
  generateSecret := [0, 1, 135, 692].flatMap fun a => [192, 240, 277, 9867].map fun b => ⟨a, b, keptBytes a b⟩

/-! ### The test data -/

theorem fillLoop_eq (n : Nat) (g : W64) : fillLoop n g = (List.range n).map fun i =>
    BitVec.ofNat 8 (g.toNat * 11400714785074694797 ^ i % 2 ^ 64 / 2 ^ 56) := by
  induction n generalizing g with
  | zero => rfl
  | succ n ih =>
    rw [fillLoop, ih, List.range_succ_eq_map, List.map_cons, List.map_map]
    congr 1
    · rw [pow_zero, mul_one, Nat.mod_eq_of_lt g.isLt]
      apply BitVec.eq_of_toNat_eq
      rw [BitVec.toNat_setWidth, BitVec.toNat_ushiftRight, BitVec.toNat_ofNat, Nat.shiftRight_eq_div_pow]
    · refine List.map_congr_left fun i _ => ?_
      show _ = BitVec.ofNat 8 (g.toNat * 11400714785074694797 ^ (i + 1) % 2 ^ 64 / 2 ^ 56)
      have h : (g * PRIME64).toNat = g.toNat * 11400714785074694797 % 2 ^ 64 := BitVec.toNat_mul _ _
      rw [h, pow_succ' 11400714785074694797 i, ← mul_assoc, Nat.mod_mul_mod]

theorem sbuf_eq : sbuf = testMessage 4161 := fillLoop_eq _ _

theorem sbuf_take {n : Nat} (h : n ≤ 4161) : sbuf.take n = testMessage n := by
  rw [sbuf_eq, testMessage, ← List.map_take, List.take_range, Nat.min_eq_left h]
  rfl

theorem secret_contents (e : TestEnv) : contents (secretOf e SANITY_BUFFER_SIZE) = testSecret := by
  show (sbuf.drop 7).take 147 = testSecret
  rw [List.take_drop, sbuf_take (by decide), testMessage, ← List.map_drop, testSecret,
    show (fun i => testByte (7 + i)) = testByte ∘ (7 + ·) from rfl, ← List.map_map]
  congr 1

theorem generateSecret_getD (secretLen : Nat) (seed : List Byte) (i : Nat) :
    (Spec.XXH3.generateSecret secretLen seed ++ List.replicate (SECRET_SIZE_MAX - secretLen) 0).getD i 0 =
      if i < secretLen then (Spec.XXH3.generateSecret secretLen seed).getD i 0 else 0 := by
  have hl : (Spec.XXH3.generateSecret secretLen seed).length = secretLen := by rw [C21_generateSecret_length]
  rw [List.getD_eq_getElem?_getD, List.getElem?_append, hl]
  split
  · rw [List.getD_eq_getElem?_getD]
  · rw [List.getElem?_replicate]
    split <;> rfl

theorem sample_eq {seedLen : Nat} (secretLen : Nat) (hs : seedLen ≤ 4161) :
    sample (sbuf.take seedLen) secretLen = keptBytes seedLen secretLen := by
  rw [sbuf_take hs]
  exact List.map_congr_left fun i _ => generateSecret_getD secretLen _ i

/-! ### The test accepts the specified values and no others -/

open Classical in
/-- **C55.** In every build, with any contents of the states and of the secret buffer beforehand: the program reports
success if and only if every entry of the tables is the value of the specification; otherwise it exits with 1. There is no
other outcome: no undefined behaviour, no failed assertion, and the loops end. The number reported is not the number of
entries: the entries of XXH3 with secret are counted twice. -/
theorem C55_exact (e : TestEnv) (hc : e.cfg.Valid) (hs : e.secretJunk.length = 192) (ht : e.state3.Typed) (v : Tables)
    (hr : InRange v) :
    sanityTest e v = if Correct v then .ok (entries v + v.xxh3Secret.length) else .exit 1 := by
  have he : EnvOK e := ⟨hc, hs, ht⟩
  have hq := secretOf_readable he
  have h136 : 136 ≤ 147 := by decide
  have hsec := secret_contents e
  unfold sanityTest
  dsimp only
  rw [if_neg (by decide)]
  generalize secretOf e SANITY_BUFFER_SIZE = q at *
  have odd := computeRandSeed_odd
  have gen {t : TestDataSample} (h : t ∈ v.generateSecret) := testGen_eq he (hr.generateSecret t h).2.1
    (hr.generateSecret t h).2.2 (hr.generateSecret t h).1
  have kept {t : TestDataSample} (h : t ∈ v.generateSecret) := sample_eq t.secretLen (hr.generateSecret t h).1
  -- the seven tables, right and wrong
  have a1 {t : TestData32} (h : t ∈ v.xxh32) (hv : t.Nresult = Spec.XXH32.hash (testMessage t.len) t.seed) :=
    SanityP.test32 he (hr.xxh32 t h) (by rw [sbuf_take (hr.xxh32 t h), hv])
  have b1 {t : TestData32} (h : t ∈ v.xxh32) (hv : t.Nresult ≠ Spec.XXH32.hash (testMessage t.len) t.seed) :=
    test32_wrong he (hr.xxh32 t h) (by rw [sbuf_take (hr.xxh32 t h)]; exact fun h => hv h.symm)
  have a2 {t : TestData64} (h : t ∈ v.xxh64) (hv : t.Nresult = Spec.XXH64.hash (testMessage t.len) t.seed) :=
    SanityP.test64 he (hr.xxh64 t h) (by rw [sbuf_take (hr.xxh64 t h), hv])
  have b2 {t : TestData64} (h : t ∈ v.xxh64) (hv : t.Nresult ≠ Spec.XXH64.hash (testMessage t.len) t.seed) :=
    test64_wrong he (hr.xxh64 t h) (by rw [sbuf_take (hr.xxh64 t h)]; exact fun h => hv h.symm)
  have a3 {t : TestData64} (h : t ∈ v.xxh3) (hv : t.Nresult = Spec.XXH3.XXH3_64_withSeed (testMessage t.len) t.seed)
      (rnd rnd') := SanityP.test3 he hq h136 (hr.xxh3 t h) (by rw [sbuf_take (hr.xxh3 t h), hv]) (rnd := rnd) (rnd' := rnd')
  have b3 {t : TestData64} (h : t ∈ v.xxh3) (hv : t.Nresult ≠ Spec.XXH3.XXH3_64_withSeed (testMessage t.len) t.seed) :=
    test3_wrong he (q := q) (size := 147) (hr.xxh3 t h) (by rw [sbuf_take (hr.xxh3 t h)]; exact fun h => hv h.symm)
  have a4 {t : TestData64} (h : t ∈ v.xxh3Secret)
      (hv : t.Nresult = Spec.XXH3.XXH3_64_withSecret (testMessage t.len) testSecret) (rnd rnd') :=
    SanityP.test3s he hq h136 (hr.xxh3Secret t h) (by rw [sbuf_take (hr.xxh3Secret t h), hsec, hv]) (rnd := rnd)
      (rnd' := rnd')
  have b4 {t : TestData64} (h : t ∈ v.xxh3Secret)
      (hv : t.Nresult ≠ Spec.XXH3.XXH3_64_withSecret (testMessage t.len) testSecret) :=
    test3s_wrong he hq h136 (hr.xxh3Secret t h) (by rw [sbuf_take (hr.xxh3Secret t h), hsec]; exact fun h => hv h.symm)
  have a5 {t : TestData128} (h : t ∈ v.xxh128)
      (hv : t.Nresult = Spec.XXH3.XXH3_128_withSeed (testMessage t.len) t.seed) (rnd rnd') :=
    SanityP.test128 he hq h136 (hr.xxh128 t h) (by rw [sbuf_take (hr.xxh128 t h), hv]) (rnd := rnd) (rnd' := rnd')
  have b5 {t : TestData128} (h : t ∈ v.xxh128)
      (hv : t.Nresult ≠ Spec.XXH3.XXH3_128_withSeed (testMessage t.len) t.seed) :=
    test128_wrong he (q := q) (size := 147) (hr.xxh128 t h) (by rw [sbuf_take (hr.xxh128 t h)]; exact fun h => hv h.symm)
  have a6 {t : TestData128} (h : t ∈ v.xxh128Secret)
      (hv : t.Nresult = Spec.XXH3.XXH3_128_withSecret (testMessage t.len) testSecret) (rnd rnd') :=
    SanityP.test128s he hq h136 (hr.xxh128Secret t h) (by rw [sbuf_take (hr.xxh128Secret t h), hsec, hv]) (rnd := rnd)
      (rnd' := rnd')
  have b6 {t : TestData128} (h : t ∈ v.xxh128Secret)
      (hv : t.Nresult ≠ Spec.XXH3.XXH3_128_withSecret (testMessage t.len) testSecret) :=
    test128s_wrong he hq h136 (hr.xxh128Secret t h)
      (by rw [sbuf_take (hr.xxh128Secret t h), hsec]; exact fun h => hv h.symm)
  have a7 {t : TestDataSample} (h : t ∈ v.generateSecret) (hv : t.byte = keptBytes t.seedLen t.secretLen) :
      Model.SanityTest.testSecretGenerator e t = .ok () := by rw [gen h, kept h, if_pos hv.symm]
  have b7 {t : TestDataSample} (h : t ∈ v.generateSecret) (hv : t.byte ≠ keptBytes t.seedLen t.secretLen) :
      Model.SanityTest.testSecretGenerator e t = .exit 1 := by rw [gen h, kept h, if_neg fun h => hv h.symm]
  -- one table after the other
  by_cases c1 : ∀ t ∈ v.xxh32, t.Nresult = Spec.XXH32.hash (testMessage t.len) t.seed
  case neg =>
    rw [forM_wrong _ (fun t h => a1 h) (fun t h => b1 h) c1, if_neg fun h => c1 h.xxh32]
    rfl
  rw [forM_ok _ fun t h => a1 h (c1 t h), Res.bind_ok]
  by_cases c2 : ∀ t ∈ v.xxh64, t.Nresult = Spec.XXH64.hash (testMessage t.len) t.seed
  case neg =>
    rw [forM_wrong _ (fun t h => a2 h) (fun t h => b2 h) c2, if_neg fun h => c2 h.xxh64]
    rfl
  rw [forM_ok _ fun t h => a2 h (c2 t h), Res.bind_ok]
  by_cases c3 : ∀ t ∈ v.xxh3, t.Nresult = Spec.XXH3.XXH3_64_withSeed (testMessage t.len) t.seed
  case neg =>
    rw [testAll_wrong (·.len) _ _ (odd 0) (fun t h => a3 h) (fun t h => b3 h) c3, if_neg fun h => c3 h.xxh3]
    rfl
  obtain ⟨r3, h3⟩ := testAll_right (·.len) _ _ (odd 0) fun t h => a3 h (c3 t h)
  rw [h3, Res.bind_ok]
  by_cases c4 : ∀ t ∈ v.xxh3Secret, t.Nresult = Spec.XXH3.XXH3_64_withSecret (testMessage t.len) testSecret
  case neg =>
    rw [testAll_wrong (·.len) _ _ (odd 22730) (fun t h => a4 h) (fun t h => b4 h) c4, if_neg fun h => c4 h.xxh3Secret]
    rfl
  obtain ⟨r4, h4⟩ := testAll_right (·.len) _ _ (odd 22730) fun t h => a4 h (c4 t h)
  rw [h4, Res.bind_ok]
  by_cases c5 : ∀ t ∈ v.xxh128, t.Nresult = Spec.XXH3.XXH3_128_withSeed (testMessage t.len) t.seed
  case neg =>
    rw [testAll_wrong (·.len) _ _ (odd 34068) (fun t h => a5 h) (fun t h => b5 h) c5, if_neg fun h => c5 h.xxh128]
    rfl
  obtain ⟨r5, h5⟩ := testAll_right (·.len) _ _ (odd 34068) fun t h => a5 h (c5 t h)
  rw [h5, Res.bind_ok]
  by_cases c6 : ∀ t ∈ v.xxh128Secret, t.Nresult = Spec.XXH3.XXH3_128_withSecret (testMessage t.len) testSecret
  case neg =>
    rw [testAll_wrong (·.len) _ _ (odd 68019) (fun t h => a6 h) (fun t h => b6 h) c6, if_neg fun h => c6 h.xxh128Secret]
    rfl
  obtain ⟨r6, h6⟩ := testAll_right (·.len) _ _ (odd 68019) fun t h => a6 h (c6 t h)
  rw [h6, Res.bind_ok]
  by_cases c7 : ∀ t ∈ v.generateSecret, t.byte = keptBytes t.seedLen t.secretLen
  case neg =>
    rw [forM_wrong _ (fun t h => a7 h) (fun t h => b7 h) c7, if_neg fun h => c7 h.generateSecret]
    rfl
  rw [forM_ok _ fun t h => a7 h (c7 t h), Res.bind_ok, if_pos ⟨c1, c2, c3, c4, c5, c6, c7⟩]
  show Res.ok _ = Res.ok _
  congr 1
  unfold entries
  omega

/-! ### The generator writes the specified values -/

theorem toSize_eq (cfg : Cfg) (x : W64) : toSize cfg x = BitVec.ofNat 64 (stored cfg.sizeBits x.toNat) := rfl

theorem gen_ok {T : Type} {n : Nat} {seeds : List W64} {f : Nat × W64 → Res T} (g : Nat → W64 → T) {l : List T}
    (h : ∀ len s, len < n → f (len, s) = .ok (g len s))
    (hl : ((List.range n).flatMap fun len => seeds.map (g len)) = l) : forEach (pairs n seeds) f = .ok l := by
  rw [forEach_ok (g := fun x => g x.1 x.2) _ fun x hx => h x.1 x.2 (mem_pairs hx), ← hl, pairs, List.map_flatMap]
  simp only [List.map_map]
  rfl

theorem flat_congr {T : Type} {n m : Nat} {f g : Nat → List T} (hn : n = m) (h : ∀ i, f i = g i) :
    (List.range n).flatMap f = (List.range m).flatMap g := by
  rw [hn, funext h]

attribute [local irreducible] List.range

/-- **C55.** The generator writes, in every build, exactly the wanted tables: every length below 4161 with every seed, the
values those of the specification. -/
theorem C55_generated (e : TestEnv) (hc : e.cfg.Valid) (hs : e.secretJunk.length = 192) (ht : e.state3.Typed) :
    generate e = .ok (wanted e.cfg.sizeBits) := by
  have he : EnvOK e := ⟨hc, hs, ht⟩
  have hq := secretOf_readable he
  have hsec := secret_contents e
  have cont {n : Nat} (h : n < 4161) : contents (bufferOf e SANITY_BUFFER_SIZE n) = testMessage n :=
    sbuf_take (Nat.le_of_lt h)
  have read {n : Nat} (h : n < 4161) := buffer_readable he (Nat.le_of_lt h)
  have le {n : Nat} (h : n < SANITY_BUFFER_SIZE) : n < 4161 := h
  have l32 {n : Nat} (h : n < SANITY_BUFFER_SIZE) : len32 n = n := len32_small (by have := le h; omega)
  have z : stored e.cfg.sizeBits (0 : W64).toNat = 0 := Nat.zero_mod _
  have t32 (x : W64) : (toSize e.cfg x).setWidth 32 = BitVec.ofNat 32 (stored e.cfg.sizeBits x.toNat) := by
    rw [toSize_eq]
    apply BitVec.eq_of_toNat_eq
    rw [BitVec.toNat_setWidth, BitVec.toNat_ofNat, BitVec.toNat_ofNat]
    exact Nat.mod_mod_of_dvd _ ⟨2 ^ 32, by norm_num⟩
  have g1 : genXXH32 e SANITY_BUFFER_SIZE = .ok (wanted e.cfg.sizeBits).xxh32 :=
    gen_ok (fun n s => ⟨n, (toSize e.cfg s).setWidth 32, Spec.XXH32.hash (testMessage n) ((toSize e.cfg s).setWidth 32)⟩)
      (fun n s h => by
        dsimp only
        rw [C01_XXH32_eq_spec hc (read (le h)), cont (le h), l32 h]
        rfl)
      (flat_congr rfl fun n => by
        simp only [List.map_cons, List.map_nil, t32]
        rw [z]
        rfl)
  have g2 : genXXH64 e SANITY_BUFFER_SIZE = .ok (wanted e.cfg.sizeBits).xxh64 :=
    gen_ok (fun n s => ⟨n, toSize e.cfg s, Spec.XXH64.hash (testMessage n) (toSize e.cfg s)⟩)
      (fun n s h => by
        dsimp only
        rw [C02_XXH64_eq_spec hc (read (le h)), cont (le h), l32 h]
        rfl)
      (flat_congr rfl fun n => by
        simp only [List.map_cons, List.map_nil, toSize_eq]
        rw [z]
        rfl)
  have g3 : genXXH3 e SANITY_BUFFER_SIZE = .ok (wanted e.cfg.sizeBits).xxh3 :=
    gen_ok (fun n s => ⟨n, toSize e.cfg s, Spec.XXH3.XXH3_64_withSeed (testMessage n) (toSize e.cfg s)⟩)
      (fun n s h => by
        dsimp only
        rw [C03_XXH3_64bits_withSeed_eq_spec hc (read (le h)), cont (le h), l32 h]
        rfl)
      (flat_congr rfl fun n => by
        simp only [List.map_cons, List.map_nil, toSize_eq]
        rw [z]
        rfl)
  have g4 : genXXH3Secret e SANITY_BUFFER_SIZE = .ok (wanted e.cfg.sizeBits).xxh3Secret := by
    unfold genXXH3Secret
    dsimp only
    rw [if_neg (by decide)]
    exact forEach_ok _ fun n h => by
      have h := List.mem_range.mp h
      rw [C03_XXH3_64bits_withSecret_eq_spec hc (read (le h)) hq (by decide), cont (le h), l32 h, hsec]
      rfl
  have g5 : genXXH128 e SANITY_BUFFER_SIZE = .ok (wanted e.cfg.sizeBits).xxh128 :=
    gen_ok (fun n s => ⟨n, s, Spec.XXH3.XXH3_128_withSeed (testMessage n) s⟩)
      (fun n s h => by
        dsimp only
        rw [C04_XXH3_128bits_withSeed_eq_spec hc (read (le h)), cont (le h), l32 h]
        rfl)
      (flat_congr rfl fun n => rfl)
  have g6 : genXXH128Secret e SANITY_BUFFER_SIZE = .ok (wanted e.cfg.sizeBits).xxh128Secret := by
    unfold genXXH128Secret
    dsimp only
    rw [if_neg (by decide)]
    exact forEach_ok _ fun n h => by
      have h := List.mem_range.mp h
      rw [C04_XXH3_128bits_withSecret_eq_spec hc (read (le h)) hq (by decide), cont (le h), l32 h, hsec]
      rfl
  have g7 : genSecrets e SANITY_BUFFER_SIZE = .ok (wanted e.cfg.sizeBits).generateSecret := by
    unfold genSecrets
    rw [forEach_ok (g := fun x => ⟨x.1, x.2, keptBytes x.1 x.2⟩) _ fun x hx => ?_]
    · rfl
    · have hx : x.1 ≤ 692 ∧ 136 ≤ x.2 ∧ x.2 ≤ 9867 := by
        revert x
        decide
      obtain ⟨a, b⟩ := x
      obtain ⟨h1, h2, h3⟩ := hx
      dsimp only at h1 h2 h3 ⊢
      rw [if_neg (show ¬ ¬ a ≤ SANITY_BUFFER_SIZE from not_not.mpr (show a ≤ 4161 by omega)),
        if_neg (show ¬ ¬ b ≤ SECRET_SIZE_MAX from not_not.mpr h3), secret_call he h2 h3 (by omega),
        ← sample_eq b (by omega), len32_small (by omega), len32_small (by omega)]
      rfl
  unfold generate
  dsimp only
  rw [g1, Res.bind_ok, g2, Res.bind_ok, g3, Res.bind_ok, g4, Res.bind_ok, g5, Res.bind_ok, g6, Res.bind_ok, g7, Res.bind_ok]
  rfl

theorem wanted_inRange (bits : Nat) : InRange (wanted bits) := by
  have flat {T S : Type} {len : T → Nat} {l : List S} {g : Nat → S → T} (hg : ∀ n s, len (g n s) = n) :
      ∀ t ∈ (List.range 4161).flatMap fun n => l.map (g n), len t ≤ 4161 := fun t h => by
    obtain ⟨n, h1, h2⟩ := List.mem_flatMap.mp h
    obtain ⟨s, -, rfl⟩ := List.mem_map.mp h2
    rw [hg]
    exact Nat.le_of_lt (List.mem_range.mp h1)
  have one {T : Type} {len : T → Nat} {g : Nat → T} (hg : ∀ n, len (g n) = n) :
      ∀ t ∈ (List.range 4161).map g, len t ≤ 4161 := fun t h => by
    obtain ⟨n, h1, rfl⟩ := List.mem_map.mp h
    rw [hg]
    exact Nat.le_of_lt (List.mem_range.mp h1)
  refine ⟨flat fun _ _ => rfl, flat fun _ _ => rfl, flat fun _ _ => rfl, one fun _ => rfl, flat fun _ _ => rfl,
    one fun _ => rfl, fun t h => ?_⟩
  obtain ⟨a, h1, h2⟩ := List.mem_flatMap.mp h
  obtain ⟨b, h3, rfl⟩ := List.mem_map.mp h2
  have h1 : a ≤ 4161 := (show ∀ a ∈ [0, 1, 135, 692], a ≤ 4161 by decide) a h1
  have h3 : 136 ≤ b ∧ b ≤ 9867 := (show ∀ b ∈ [192, 240, 277, 9867], 136 ≤ b ∧ b ≤ 9867 by decide) b h3
  exact ⟨h1, h3⟩

theorem wanted_correct (bits : Nat) : Correct (wanted bits) := by
  have flat {T S : Type} {P : T → Prop} {l : List S} {g : Nat → S → T} (hg : ∀ n s, P (g n s)) :
      ∀ t ∈ (List.range 4161).flatMap fun n => l.map (g n), P t := fun t h => by
    obtain ⟨n, h1, h2⟩ := List.mem_flatMap.mp h
    obtain ⟨s, -, rfl⟩ := List.mem_map.mp h2
    exact hg n s
  have one {T : Type} {P : T → Prop} {g : Nat → T} (hg : ∀ n, P (g n)) : ∀ t ∈ (List.range 4161).map g, P t :=
    fun t h => by
      obtain ⟨n, h1, rfl⟩ := List.mem_map.mp h
      exact hg n
  refine ⟨flat fun _ _ => rfl, flat fun _ _ => rfl, flat fun _ _ => rfl, one fun _ => rfl, flat fun _ _ => rfl,
    one fun _ => rfl, fun t h => ?_⟩
  obtain ⟨a, h1, h2⟩ := List.mem_flatMap.mp h
  obtain ⟨b, h3, rfl⟩ := List.mem_map.mp h2
  rfl

theorem flat_length {T S : Type} (l : List S) (g : Nat → S → T) (ns : List Nat) :
    (ns.flatMap fun n => l.map (g n)).length = ns.length * l.length := by
  induction ns with
  | nil => simp
  | cons n ns ih =>
    rw [List.flatMap_cons, List.length_append, ih, List.length_map, List.length_cons, Nat.succ_mul, Nat.add_comm]

theorem wanted_counts (bits : Nat) : entries (wanted bits) = 45787 ∧ (wanted bits).xxh3Secret.length = 4161 := by
  have flat {T S : Type} {l : List S} {g : Nat → S → T} :
      ((List.range 4161).flatMap fun n => l.map (g n)).length = 4161 * l.length := by
    rw [flat_length, List.length_range]
  have one {T : Type} {g : Nat → T} : ((List.range 4161).map g).length = 4161 := by
    rw [List.length_map, List.length_range]
  refine ⟨?_, one⟩
  unfold entries wanted
  rw [flat, flat, flat, one, flat, one, flat_length]
  simp only [List.length_cons, List.length_nil]

/-- **C55.** The tables written by any build are accepted by any build: hash values do not depend on the platform. The
program reports 49948 tests, though the tables have 45787 entries. -/
theorem C55_portable (e e' : TestEnv) (hc : e.cfg.Valid) (hs : e.secretJunk.length = 192) (ht : e.state3.Typed)
    (hc' : e'.cfg.Valid) (hs' : e'.secretJunk.length = 192) (ht' : e'.state3.Typed) :
    ∃ v, generate e = .ok v ∧ entries v = 45787 ∧ sanityTest e' v = .ok 49948 := by
  have h := wanted_counts e.cfg.sizeBits
  refine ⟨_, C55_generated e hc hs ht, h.1, ?_⟩
  rw [C55_exact e' hc' hs' ht' _ (wanted_inRange _), if_pos (wanted_correct _), h.1, h.2]

/-- **C55.** Builds whose `size_t` has 64 bits or more write the same file. -/
theorem C55_same_file (e e' : TestEnv) (hc : e.cfg.Valid) (hs : e.secretJunk.length = 192) (ht : e.state3.Typed)
    (hc' : e'.cfg.Valid) (hs' : e'.secretJunk.length = 192) (ht' : e'.state3.Typed) (h : 64 ≤ e.cfg.sizeBits)
    (h' : 64 ≤ e'.cfg.sizeBits) : generate e = generate e' := by
  rw [C55_generated e hc hs ht, C55_generated e' hc' hs' ht']
  have st {bits x : Nat} (h : 64 ≤ bits) (hx : x < 2 ^ 64) : stored bits x = x :=
    Nat.mod_eq_of_lt (Nat.lt_of_lt_of_le hx (Nat.pow_le_pow_right (by decide) h))
  unfold wanted
  rw [st h (by decide), st h (by decide), st h' (by decide), st h' (by decide)]

/-- **C55**, finding. The generator keeps the seed of XXH3 in a `size_t` (tests/sanity_test_vectors_generator.c:265), but
that of XXH128 in 64 bits (317): with a 32-bit `size_t`, no entry of XXH3 has a seed above 32 bits, and the file is not the
one written by a 64-bit build. -/
theorem C55_seed_truncated (e e' : TestEnv) (hc : e.cfg.Valid) (hs : e.secretJunk.length = 192) (ht : e.state3.Typed)
    (hc' : e'.cfg.Valid) (hs' : e'.secretJunk.length = 192) (ht' : e'.state3.Typed) (h : e.cfg.sizeBits = 32)
    (h' : 64 ≤ e'.cfg.sizeBits) :
    ∃ v v', generate e = .ok v ∧ generate e' = .ok v' ∧ (∀ t ∈ v.xxh3, t.seed.toNat < 2 ^ 32) ∧
      (∃ t ∈ v'.xxh3, t.seed = 11400714785074694797) ∧ v ≠ v' := by
  have small : ∀ t ∈ (wanted 32).xxh3, t.seed.toNat < 2 ^ 32 := fun t h => by
    obtain ⟨n, h1, h2⟩ := List.mem_flatMap.mp h
    obtain ⟨s, h3, rfl⟩ := List.mem_map.mp h2
    have h3 : s < 2 ^ 32 := (show ∀ s ∈ [0, stored 32 11400714785074694797], s < 2 ^ 32 by decide) s h3
    show (BitVec.ofNat 64 s).toNat < 2 ^ 32
    rw [BitVec.toNat_ofNat]
    omega
  have big : ∃ t ∈ (wanted e'.cfg.sizeBits).xxh3, t.seed = 11400714785074694797 := by
    refine ⟨⟨0, 11400714785074694797, Spec.XXH3.XXH3_64_withSeed (testMessage 0) 11400714785074694797⟩, ?_, rfl⟩
    refine List.mem_flatMap.mpr ⟨0, List.mem_range.mpr (by decide), List.mem_map.mpr ⟨11400714785074694797, ?_, rfl⟩⟩
    rw [show stored e'.cfg.sizeBits 11400714785074694797 = 11400714785074694797 from
      Nat.mod_eq_of_lt (Nat.lt_of_lt_of_le (by decide) (Nat.pow_le_pow_right (n := 2) (by decide) h'))]
    simp
  refine ⟨_, _, C55_generated e hc hs ht, C55_generated e' hc' hs' ht', by rw [h]; exact small, big, fun heq => ?_⟩
  obtain ⟨t, h1, h2⟩ := big
  rw [← heq, h] at h1
  have := small t h1
  rw [h2] at this
  exact absurd this (by decide)

/-! ### Random lengths -/

/-- **C55.** The loop that feeds pieces of random length (tests/sanity_test.c:298-314) ends, whatever the length of the
data, from every odd state of the random numbers, and leaves an odd state; all of the data has been hashed. A piece may be
empty, so this needs that some number makes progress: the multiplier generates all states that are equal modulo 4. -/
theorem C55_random_ends {cfg : Cfg} (hc : cfg.Valid) {data : Ptr} {len : Nat} (hd : Readable cfg data len) {a : ResetArg}
    (hok : a.Ok cfg) {s : Model.XXH3.State} (hF : XXH3P.Fresh s) (rnd : W64) (h : rnd.toNat % 2 = 1) :
    ∃ s1 s2 rnd', a.call cfg (some s) = some (some s1, .ok) ∧
      randomUpdate cfg data len (len * 2 ^ 62) 0 rnd s1 = some (s2, rnd') ∧ rnd'.toNat % 2 = 1 ∧
      Model.XXH3.bits64_digest cfg s2 = some (a.spec64 (contents data)) ∧
      Model.XXH3.bits128_digest cfg s2 = some (a.spec128 (contents data)) := by
  obtain ⟨rnd', hw, ho⟩ := walk_total len rnd h
  unfold roundsFor at hw
  generalize len * 2 ^ 62 = R at hw ⊢
  obtain ⟨s1, h1, r1⟩ := reset_call_repr hc hF.typed hok fun _ _ => hF
  obtain ⟨s2, h2, r2⟩ := random_repr hc hd R 0 rnd rnd' s1 (Nat.zero_le _) hw r1
  have h3 := XXH3P.digest64_repr hc r2 (fits_lt hc hd)
  have h4 := XXH3P.digest128_repr hc r2 (fits_lt hc hd)
  rw [value64_eq] at h3
  rw [value128_eq] at h4
  exact ⟨s1, s2, rnd', h1, h2, ho, h3, h4⟩

/-- **C55.** The state must not be 0: from there the loop never ends (no number of rounds suffices). -/
theorem C55_random_stuck (cfg : Cfg) (data : Ptr) (len : Nat) (hl : 0 < len) (s : Model.XXH3.State) (rounds : Nat) :
    randomUpdate cfg data len rounds 0 0 s = none := by
  induction rounds generalizing s with
  | zero =>
    unfold randomUpdate
    rw [if_pos hl]
  | succ n ih =>
    unfold randomUpdate
    rw [if_pos hl]
    have hr : rand 0 = (0, 0) := by decide
    simp only [hr]
    have h0 : (0 : W32).toNat = 0 := rfl
    rw [h0, Nat.zero_mod, if_neg (by omega)]
    cases Model.XXH3.bits64_update cfg s (Model.SelfTest.plus data 0 0) 0 with
    | none => rfl
    | some r => exact ih r.1

theorem testAll_walk {T : Type} {test : W64 → T → Res W64} (len : T → Nat) : ∀ (l : List T) (rnd rnd' : W64),
    (∀ t ∈ l, ∀ rnd rnd', walk (len t) (roundsFor (len t)) 0 rnd = some rnd' → test rnd t = .ok rnd') →
    walkList rnd (l.map len) = some rnd' → testAll test rnd l = .ok rnd'
  | [], _, _, _, hw => by
    rw [List.map_nil, walkList] at hw
    rw [testAll, Option.some.inj hw]
  | t :: ts, rnd, rnd', h, hw => by
    rw [List.map_cons, walkList] at hw
    obtain ⟨r, h1, h2⟩ := Option.bind_eq_some_iff.mp hw
    rw [testAll, h t (by simp) _ _ h1, Res.bind_ok]
    exact testAll_walk len ts r rnd' (fun t ht => h t (by simp [ht])) h2

/-- **C55.** The constants 22730, 34068 and 68019 of tests/sanity_test.c:727, 747, 766 are the numbers of random numbers
drawn before: each part of the test ends with the state the next part starts with, so that with the generated tables the
parts draw the same pieces as one sequence would. -/
theorem C55_random_parts (e : TestEnv) (hc : e.cfg.Valid) (hs : e.secretJunk.length = 192) (ht : e.state3.Typed) (bits : Nat) :
    let q := secretOf e 4161
    testAll (Model.SanityTest.testXXH3 e q 147) (computeRandSeed 0) (wanted bits).xxh3 = .ok (computeRandSeed 22730) ∧
    testAll (Model.SanityTest.testXXH3_withSecret e q 147) (computeRandSeed 22730) (wanted bits).xxh3Secret =
      .ok (computeRandSeed 34068) ∧
    testAll (Model.SanityTest.testXXH128 e q 147) (computeRandSeed 34068) (wanted bits).xxh128 =
      .ok (computeRandSeed 68019) := by
  have he : EnvOK e := ⟨hc, hs, ht⟩
  have hq : Readable e.cfg (secretOf e 4161) 147 := secretOf_readable he
  have hsec : contents (secretOf e 4161) = testSecret := secret_contents e
  have hr := wanted_inRange bits
  have hk := wanted_correct bits
  have flat {T S : Type} {len : T → Nat} {l : List S} {g : Nat → S → T} (hg : ∀ n s, len (g n s) = n) :
      ((List.range 4161).flatMap fun n => l.map (g n)).map len =
        (List.range 4161).flatMap fun n => List.replicate l.length n := by
    rw [List.map_flatMap]
    refine flat_congr rfl fun n => ?_
    rw [List.map_map, List.eq_replicate_iff]
    refine ⟨by rw [List.length_map], fun b hb => ?_⟩
    obtain ⟨s, -, rfl⟩ := List.mem_map.mp hb
    exact hg n s
  have one {T : Type} {len : T → Nat} {g : Nat → T} (hg : ∀ n, len (g n) = n) :
      ((List.range 4161).map g).map len = (List.range 4161).flatMap fun n => List.replicate 1 n := by
    rw [List.map_map, List.flatMap_def]
    have : (len ∘ g) = id := funext hg
    rw [this, List.map_id]
    exact (List.flatMap_singleton' _).symm
  dsimp only
  refine ⟨testAll_walk (·.len) _ _ _ (fun t h rnd rnd' hw => ?_) ?_, testAll_walk (·.len) _ _ _ (fun t h rnd rnd' hw => ?_) ?_,
    testAll_walk (·.len) _ _ _ (fun t h rnd rnd' hw => ?_) ?_⟩
  · exact SanityP.test3 he hq (by decide) (hr.xxh3 t h) (by rw [sbuf_take (hr.xxh3 t h), hk.xxh3 t h]) hw
  · rw [← draws1]
    exact congrArg _ (flat fun _ _ => rfl)
  · exact SanityP.test3s he hq (by decide) (hr.xxh3Secret t h)
      (by rw [sbuf_take (hr.xxh3Secret t h), hsec, hk.xxh3Secret t h]) hw
  · rw [← draws2]
    exact congrArg _ (one fun _ => rfl)
  · exact SanityP.test128 he hq (by decide) (hr.xxh128 t h) (by rw [sbuf_take (hr.xxh128 t h), hk.xxh128 t h]) hw
  · rw [← draws3]
    exact congrArg _ (flat fun _ _ => rfl)

/-! ### Cases -/

open Examples

/-- A table with one entry, of XXH32 over one byte. -/
def oneEntry (r : W32) : Tables := ⟨[⟨1, 0, r⟩], [], [], [], [], [], []⟩

theorem oneEntry_inRange (r : W32) : InRange (oneEntry r) := by
  refine ⟨?_, ?_, ?_, ?_, ?_, ?_, ?_⟩ <;> intro t h <;> simp [oneEntry] at h
  rw [h]
  exact (by decide : 1 ≤ 4161)

example : sanityTest (someEnv x64) (oneEntry 0xCF65B03E) = .ok 1 := by
  rw [C55_exact _ x64_valid List.length_replicate junk_typed _ (oneEntry_inRange _), if_pos]
  · rfl
  · refine ⟨?_, ?_, ?_, ?_, ?_, ?_, ?_⟩ <;> intro t h <;> simp [oneEntry] at h
    rw [h]
    decide +kernel

example : sanityTest (someEnv be32) (oneEntry 0xCF65B03F) = .exit 1 := by
  rw [C55_exact _ be32_valid List.length_replicate junk_typed _ (oneEntry_inRange _), if_neg]
  intro h
  have := h.xxh32 ⟨1, 0, 0xCF65B03F⟩ (by simp [oneEntry])
  revert this
  decide +kernel

/-- The tables written by a big-endian 32-bit build are accepted by a 64-bit one, although they are not the same. -/
example : ∃ v v', generate (someEnv be32) = .ok v ∧ generate (someEnv x64) = .ok v' ∧ v ≠ v' ∧
    sanityTest (someEnv x64) v = .ok 49948 := by
  obtain ⟨v, v', h1, h2, -, -, h3⟩ := C55_seed_truncated (someEnv be32) (someEnv x64) be32_valid List.length_replicate
    junk_typed x64_valid List.length_replicate junk_typed rfl (Nat.le_refl 64)
  obtain ⟨w, h4, -, h5⟩ := C55_portable (someEnv be32) (someEnv x64) be32_valid List.length_replicate junk_typed x64_valid
    List.length_replicate junk_typed
  rw [h1] at h4
  rw [← Res.ok.inj h4] at h5
  exact ⟨v, v', h1, h2, h3, h5⟩

example : testMessage 4 = [0x00, 0x52, 0x92, 0x9B] := by decide +kernel

/-! ### The theorems applied -/

/-- Two 64-bit builds with different vector code and different memory write the same file. -/
example : generate (someEnv x64) = generate { someEnv x64 with buffer := 5, secretJunk := List.replicate 192 0 } :=
  C55_same_file _ _ x64_valid List.length_replicate junk_typed x64_valid List.length_replicate junk_typed (Nat.le_refl 64) (Nat.le_refl 64)

example : randomUpdate x64 kilo 1000 5 0 0 junk = none := C55_random_stuck x64 kilo 1000 (by decide) junk 5

end XXH.Props
