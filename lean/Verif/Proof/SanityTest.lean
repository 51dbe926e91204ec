import Verif.Proof.SanityRandom
import Verif.Proof.SelfTest
import Verif.Model.SanityTest
/-!
The test program tests/sanity_test.c accepts the specified values and no others, and the generator of its tables writes
them.
-/
namespace XXH.SanityP
open XXH.Model XXH.Model.SelfTest XXH.Model.SanityTest XXH.Props XXH.SelfTestP
open Cli (Res)

/-- The buffer of the tests. -/
def sbuf : List Byte := fillTestBuffer SANITY_BUFFER_SIZE

theorem sbuf_length : sbuf.length = 4161 := fillLoop_length _ _

theorem stake_length {len : Nat} (hl : len ≤ 4161) : (sbuf.take len).length = len := by
  rw [List.length_take, sbuf_length]; omega

theorem buffer_readable {e : TestEnv} (he : EnvOK e) {len : Nat} (hl : len ≤ 4161) :
    Readable e.cfg (bufferOf e SANITY_BUFFER_SIZE len) len :=
  readable_some he.cfg _ (stake_length hl) (by omega)

theorem data_contents (e : TestEnv) (len : Nat) : contents (SanityTest.dataOf e len) = sbuf.take len := by
  unfold SanityTest.dataOf
  split
  · next h => rw [h]; rfl
  · rfl

theorem data_readable {e : TestEnv} (he : EnvOK e) {len : Nat} (hl : len ≤ 4161) :
    Readable e.cfg (SanityTest.dataOf e len) len := by
  unfold SanityTest.dataOf
  split
  · next h => rw [h]; exact Examples.null_readable _
  · exact buffer_readable he hl

theorem secretOf_readable {e : TestEnv} (he : EnvOK e) :
    Readable e.cfg (secretOf e SANITY_BUFFER_SIZE) 147 :=
  readable_some he.cfg _ (by
    rw [List.length_take, List.length_drop]
    have h : (fillTestBuffer SANITY_BUFFER_SIZE).length = 4161 := sbuf_length
    omega) (by decide)

theorem check_wrong {α : Type} [DecidableEq α] {x y : α} (h : x ≠ y) : checkResult x y = .exit 1 := by
  rw [checkResult, if_pos h]

theorem Res.bind_exit {α β : Type} (c : Nat) (f : α → Res β) : (Res.exit c >>= f) = .exit c := rfl

/-! ### XXH32, XXH64 -/

theorem test32 {e : TestEnv} (he : EnvOK e) {t : TestData32} (hl : t.len ≤ 4161)
    (hv : Spec.XXH32.hash (sbuf.take t.len) t.seed = t.Nresult) : SanityTest.testXXH32 e t = .ok () := by
  have hd := data_readable he hl
  have hu {msg : List Byte} {s : Model.XXH32.State} {p : Ptr} {len : Nat} (h : Proof.XXH32.Repr t.seed msg s)
      (hp : Readable e.cfg p len) := Proof.XXH32.update_repr he.cfg h hp
  unfold SanityTest.testXXH32
  dsimp only
  rw [C01_XXH32_eq_spec he.cfg hd, data_contents, hv]
  obtain ⟨s1, h1, r1⟩ := Proof.XXH32.reset_repr e.state32 t.seed
  obtain ⟨s2, h2, r2⟩ := single_repr hu hd r1
  have h3 := Proof.XXH32.digest_repr he.cfg r2
  obtain ⟨s4, h4, r4⟩ := Proof.XXH32.reset_repr s2 t.seed
  obtain ⟨s5, h5, r5⟩ := bytewise_repr hu hd r4
  have h6 := Proof.XXH32.digest_repr he.cfg r5
  rw [data_contents, hv] at h3 h6
  simp only [Res.of_some, Res.bind_ok, check_ok, h1, h2, h3, h4, h5, h6]

theorem test64 {e : TestEnv} (he : EnvOK e) {t : TestData64} (hl : t.len ≤ 4161)
    (hv : Spec.XXH64.hash (sbuf.take t.len) t.seed = t.Nresult) : SanityTest.testXXH64 e t = .ok () := by
  have hd := data_readable he hl
  have hlt : (contents (SanityTest.dataOf e t.len)).length < 2 ^ 64 := fits_lt he.cfg hd
  have hu {msg : List Byte} {s : Model.XXH64.State} {p : Ptr} {len : Nat} (h : Proof.XXH64.Repr t.seed msg s)
      (hp : Readable e.cfg p len) := Proof.XXH64.update_repr he.cfg h hp
  unfold SanityTest.testXXH64
  dsimp only
  rw [C02_XXH64_eq_spec he.cfg hd, data_contents, hv]
  obtain ⟨s1, h1, r1⟩ := Proof.XXH64.reset_repr e.state64 t.seed
  obtain ⟨s2, h2, r2⟩ := single_repr hu hd r1
  have h3 := Proof.XXH64.digest_repr he.cfg hlt r2
  obtain ⟨s4, h4, r4⟩ := Proof.XXH64.reset_repr s2 t.seed
  obtain ⟨s5, h5, r5⟩ := bytewise_repr hu hd r4
  have h6 := Proof.XXH64.digest_repr he.cfg hlt r5
  rw [data_contents, hv] at h3 h6
  simp only [Res.of_some, Res.bind_ok, check_ok, h1, h2, h3, h4, h5, h6]

/-! ### XXH3 streams -/

section
variable {e : TestEnv} (he : EnvOK e) {data : Ptr} {len : Nat} (hd : Readable e.cfg data len) {a : ResetArg} (hok : a.Ok e.cfg)
  {s : Model.XXH3.State} (hF : XXH3P.Fresh s)
include he hd hok hF

theorem stream64_single {N : W64} (hv : a.spec64 (contents data) = N) :
    ∃ s', stream64 e.cfg (a.call e.cfg (some s)) (single e.cfg data len) N = .ok s' ∧ XXH3P.Fresh s' := by
  obtain ⟨s1, h1, r1⟩ := reset_call_repr he.cfg hF.typed hok fun _ _ => hF
  obtain ⟨s2, h2, r2⟩ := single_repr (@update_call_repr e.cfg he.cfg a) hd r1
  have h3 := XXH3P.digest64_repr he.cfg r2 (fits_lt he.cfg hd)
  rw [value64_eq, hv] at h3
  refine ⟨s2, ?_, r2.fresh⟩
  unfold SelfTest.stream64 single
  rw [h1, Res.of_some, Res.bind_ok]
  show (Res.of (do let (state, _) ← Model.XXH3.bits64_update e.cfg s1 data len; return state) >>= _) = _
  rw [h2]
  show (Res.of (Model.XXH3.bits64_digest e.cfg s2) >>= _) = _
  rw [h3, Res.of_some, Res.bind_ok, check_ok rfl]
  rfl

theorem stream64_bytewise {N : W64} (hv : a.spec64 (contents data) = N) :
    ∃ s', stream64 e.cfg (a.call e.cfg (some s)) (bytewise e.cfg data len) N = .ok s' ∧ XXH3P.Fresh s' := by
  obtain ⟨s1, h1, r1⟩ := reset_call_repr he.cfg hF.typed hok fun _ _ => hF
  obtain ⟨s2, h2, r2⟩ := bytewise_repr (@update_call_repr e.cfg he.cfg a) hd r1
  have h3 := XXH3P.digest64_repr he.cfg r2 (fits_lt he.cfg hd)
  rw [value64_eq, hv] at h3
  refine ⟨s2, ?_, r2.fresh⟩
  unfold SelfTest.stream64 bytewise
  rw [h1, Res.of_some, Res.bind_ok]
  show (Res.of (byByte (Model.XXH3.bits64_update e.cfg) data len 0 s1) >>= _) = _
  rw [h2]
  show (Res.of (Model.XXH3.bits64_digest e.cfg s2) >>= _) = _
  rw [h3, Res.of_some, Res.bind_ok, check_ok rfl]
  rfl

theorem stream64_random {R : Nat} {N : W64} (hv : a.spec64 (contents data) = N) {rnd rnd' : W64}
    (hw : walk len R 0 rnd = some rnd') :
    ∃ s', random64 e.cfg (a.call e.cfg (some s)) data len R rnd N = .ok (s', rnd') ∧ XXH3P.Fresh s' := by
  unfold random64
  obtain ⟨s1, h1, r1⟩ := reset_call_repr he.cfg hF.typed hok fun _ _ => hF
  obtain ⟨s2, h2, r2⟩ := random_repr he.cfg hd R 0 rnd rnd' s1 (Nat.zero_le _) hw r1
  have h3 := XXH3P.digest64_repr he.cfg r2 (fits_lt he.cfg hd)
  rw [value64_eq, hv] at h3
  refine ⟨s2, ?_, r2.fresh⟩
  rw [h1, Res.of_some, Res.bind_ok]
  show (Res.of (randomUpdate e.cfg data len R 0 rnd s1) >>= _) = _
  rw [h2]
  show (Res.of (Model.XXH3.bits64_digest e.cfg s2) >>= _) = _
  rw [h3, Res.of_some, Res.bind_ok, check_ok rfl]
  rfl

theorem stream128_single {N : H128} (hv : a.spec128 (contents data) = N) :
    ∃ s', stream128 e.cfg (a.call e.cfg (some s)) (single e.cfg data len) N = .ok s' ∧ XXH3P.Fresh s' := by
  obtain ⟨s1, h1, r1⟩ := reset_call_repr he.cfg hF.typed hok fun _ _ => hF
  obtain ⟨s2, h2, r2⟩ := single_repr (@update_call_repr e.cfg he.cfg a) hd r1
  have h3 := XXH3P.digest128_repr he.cfg r2 (fits_lt he.cfg hd)
  rw [value128_eq, hv] at h3
  refine ⟨s2, ?_, r2.fresh⟩
  unfold stream128 single
  rw [h1, Res.of_some, Res.bind_ok]
  show (Res.of (do let (state, _) ← Model.XXH3.bits64_update e.cfg s1 data len; return state) >>= _) = _
  rw [h2]
  show (Res.of (Model.XXH3.bits128_digest e.cfg s2) >>= _) = _
  rw [h3, Res.of_some, Res.bind_ok, check_ok rfl]
  rfl

theorem stream128_bytewise {N : H128} (hv : a.spec128 (contents data) = N) :
    ∃ s', stream128 e.cfg (a.call e.cfg (some s)) (bytewise e.cfg data len) N = .ok s' ∧ XXH3P.Fresh s' := by
  obtain ⟨s1, h1, r1⟩ := reset_call_repr he.cfg hF.typed hok fun _ _ => hF
  obtain ⟨s2, h2, r2⟩ := bytewise_repr (@update_call_repr e.cfg he.cfg a) hd r1
  have h3 := XXH3P.digest128_repr he.cfg r2 (fits_lt he.cfg hd)
  rw [value128_eq, hv] at h3
  refine ⟨s2, ?_, r2.fresh⟩
  unfold stream128 bytewise
  rw [h1, Res.of_some, Res.bind_ok]
  show (Res.of (byByte (Model.XXH3.bits64_update e.cfg) data len 0 s1) >>= _) = _
  rw [h2]
  show (Res.of (Model.XXH3.bits128_digest e.cfg s2) >>= _) = _
  rw [h3, Res.of_some, Res.bind_ok, check_ok rfl]
  rfl

theorem stream128_random {R : Nat} {N : H128} (hv : a.spec128 (contents data) = N) {rnd rnd' : W64}
    (hw : walk len R 0 rnd = some rnd') :
    ∃ s', random128 e.cfg (a.call e.cfg (some s)) data len R rnd N = .ok (s', rnd') ∧ XXH3P.Fresh s' := by
  unfold random128
  obtain ⟨s1, h1, r1⟩ := reset_call_repr he.cfg hF.typed hok fun _ _ => hF
  obtain ⟨s2, h2, r2⟩ := random_repr he.cfg hd R 0 rnd rnd' s1 (Nat.zero_le _) hw r1
  have h3 := XXH3P.digest128_repr he.cfg r2 (fits_lt he.cfg hd)
  rw [value128_eq, hv] at h3
  refine ⟨s2, ?_, r2.fresh⟩
  rw [h1, Res.of_some, Res.bind_ok]
  show (Res.of (randomUpdate e.cfg data len R 0 rnd s1) >>= _) = _
  rw [h2]
  show (Res.of (Model.XXH3.bits128_digest e.cfg s2) >>= _) = _
  rw [h3, Res.of_some, Res.bind_ok, check_ok rfl]
  rfl

end

/-! ### XXH3 tests -/

theorem test3 {e : TestEnv} (he : EnvOK e) {q : Ptr} {size : Nat} (hq : Readable e.cfg q size) (hs : 136 ≤ size)
    {t : TestData64} (hl : t.len ≤ 4161)
    (hv : Spec.XXH3.XXH3_64_withSeed (sbuf.take t.len) t.seed = t.Nresult) {rnd rnd' : W64}
    (hw : walk t.len (roundsFor t.len) 0 rnd = some rnd') : SanityTest.testXXH3 e q size rnd t = .ok rnd' := by
  have hd := data_readable he hl
  have hv' := hv
  rw [← data_contents e] at hv'
  have hder := XXH3P.derive_length t.seed
  have hsec := secret_readable he hder
  have e1 := C03_XXH3_64bits_withSeed_eq_spec he.cfg hd t.seed
  rw [data_contents, hv] at e1
  have e2 : t.seed = 0 → Model.XXH3.XXH3_64bits e.cfg (SanityTest.dataOf e t.len) t.len = some t.Nresult := fun h0 => by
    rw [C03_XXH3_64bits_eq_spec he.cfg hd, data_contents, ← hv, h0, Spec.XXH3.XXH3_64_withSeed, XXH3P.derive_zero]
    rfl
  have e3 : Model.XXH3.XXH3_64bits_withSecretandSeed e.cfg (SanityTest.dataOf e t.len) t.len
      (secretAt e (Spec.XXH3.deriveSecret t.seed)) 192 t.seed = some t.Nresult := by
    obtain ⟨sec, h1, h2, -⟩ := C05_fromSeed he.cfg hd t.seed (buf := ⟨e.secretBuffer + 1, e.secretJunk⟩) he.secret
      (e.secretBuffer + 1)
    rw [← e1, ← h2]
    have h4 := fromSeed he t.seed
    unfold secretAt at h4
    rw [h1] at h4
    rw [Option.some.inj h4]
    rfl
  have e4 : t.len ≤ 240 → Model.XXH3.XXH3_64bits_withSecretandSeed e.cfg (SanityTest.dataOf e t.len) t.len
      q size t.seed = some t.Nresult := fun h => by rw [C05_64_short he.cfg hd h, e1]
  obtain ⟨s1, h1, f1⟩ := stream64_single he hd (a := .seed t.seed) trivial (init_fresh he) hv'
  obtain ⟨s2, h2, f2⟩ := stream64_random he hd (a := .seed t.seed) trivial f1 hv' hw
  obtain ⟨s3, h3, f3⟩ := stream64_bytewise he hd (a := .seed t.seed) trivial f2 hv'
  obtain ⟨s4, h4, f4⟩ := stream64_single he hd
    (a := .secretAndSeed (secretAt e (Spec.XXH3.deriveSecret t.seed)) 192 t.seed) ⟨hsec, by decide⟩ f3
    ((both64 _ _).trans hv')
  have h5 : t.len ≤ 240 → ∃ s5, stream64 e.cfg (Model.XXH3.reset_withSecretandSeed (some s4)
      q size t.seed) (single e.cfg (SanityTest.dataOf e t.len) t.len)
      t.Nresult = .ok s5 := fun h => by
    obtain ⟨s5, h5, -⟩ := stream64_single he hd
      (a := .secretAndSeed q size t.seed) ⟨hq, hs⟩ f4
      (N := t.Nresult) (by
        show Spec.XXH3.XXH3_64_withSecretandSeed _ _ _ = _
        rw [Spec.XXH3.XXH3_64_withSecretandSeed, if_pos (by rw [data_contents, stake_length hl]; exact h), hv'])
    exact ⟨s5, h5⟩
  simp only [ResetArg.call] at h1 h2 h3 h4
  unfold SanityTest.testXXH3
  dsimp only
  by_cases h0 : t.seed = 0 <;> by_cases hsh : t.len ≤ 240
  · obtain ⟨s5, h5⟩ := h5 hsh
    simp only [if_pos h0, if_pos hsh, e2 h0, e4 hsh, h5, e1, fromSeed he, e3, h1, h2, h3, h4, Res.of_some, Res.bind_ok, check_ok]
    rfl
  · simp only [if_pos h0, if_neg hsh, e2 h0, e1, fromSeed he, e3, h1, h2, h3, h4, Res.of_some, Res.bind_ok, check_ok]
    rfl
  · obtain ⟨s5, h5⟩ := h5 hsh
    simp only [if_neg h0, if_pos hsh, e4 hsh, h5, e1, fromSeed he, e3, h1, h2, h3, h4, Res.of_some, Res.bind_ok, check_ok]
    rfl
  · simp only [if_neg h0, if_neg hsh, e1, fromSeed he, e3, h1, h2, h3, h4, Res.of_some, Res.bind_ok, check_ok]
    rfl

theorem test128 {e : TestEnv} (he : EnvOK e) {q : Ptr} {size : Nat} (hq : Readable e.cfg q size) (hs : 136 ≤ size)
    {t : TestData128} (hl : t.len ≤ 4161)
    (hv : Spec.XXH3.XXH3_128_withSeed (sbuf.take t.len) t.seed = t.Nresult) {rnd rnd' : W64}
    (hw : walk t.len (roundsFor t.len) 0 rnd = some rnd') : SanityTest.testXXH128 e q size rnd t = .ok rnd' := by
  have hd := data_readable he hl
  have hv' := hv
  rw [← data_contents e] at hv'
  have hder := XXH3P.derive_length t.seed
  have hsec := secret_readable he hder
  have e1 := C04_XXH3_128bits_withSeed_eq_spec he.cfg hd t.seed
  rw [data_contents, hv] at e1
  have e2 : t.seed = 0 → Model.XXH3.XXH3_128bits e.cfg (SanityTest.dataOf e t.len) t.len = some t.Nresult := fun h0 => by
    rw [C04_XXH3_128bits_eq_spec he.cfg hd, data_contents, ← hv, h0, Spec.XXH3.XXH3_128_withSeed, XXH3P.derive_zero]
    rfl
  have e3 : Model.XXH3.XXH3_128bits_withSecretandSeed e.cfg (SanityTest.dataOf e t.len) t.len
      (secretAt e (Spec.XXH3.deriveSecret t.seed)) 192 t.seed = some t.Nresult := by
    obtain ⟨sec, h1, -, h2⟩ := C05_fromSeed he.cfg hd t.seed (buf := ⟨e.secretBuffer + 1, e.secretJunk⟩) he.secret
      (e.secretBuffer + 1)
    rw [← e1, ← h2]
    have h4 := fromSeed he t.seed
    unfold secretAt at h4
    rw [h1] at h4
    rw [Option.some.inj h4]
    rfl
  have e4 : t.len ≤ 240 → Model.XXH3.XXH3_128bits_withSecretandSeed e.cfg (SanityTest.dataOf e t.len) t.len
      q size t.seed = some t.Nresult := fun h => by rw [C05_128_short he.cfg hd h, e1]
  have e5 : Model.XXH3.XXH128 e.cfg (SanityTest.dataOf e t.len) t.len t.seed = some t.Nresult := e1
  obtain ⟨s1, h1, f1⟩ := stream128_single he hd (a := .seed t.seed) trivial (init_fresh he) hv'
  obtain ⟨s2, h2, f2⟩ := stream128_random he hd (a := .seed t.seed) trivial f1 hv' hw
  obtain ⟨s3, h3, f3⟩ := stream128_bytewise he hd (a := .seed t.seed) trivial f2 hv'
  obtain ⟨s4, h4, f4⟩ := stream128_single he hd
    (a := .secretAndSeed (secretAt e (Spec.XXH3.deriveSecret t.seed)) 192 t.seed) ⟨hsec, by decide⟩ f3
    ((both128 _ _).trans hv')
  have h5 : t.len ≤ 240 → ∃ s5, stream128 e.cfg (Model.XXH3.reset_withSecretandSeed (some s4)
      q size t.seed) (single e.cfg (SanityTest.dataOf e t.len) t.len)
      t.Nresult = .ok s5 := fun h => by
    obtain ⟨s5, h5, -⟩ := stream128_single he hd
      (a := .secretAndSeed q size t.seed) ⟨hq, hs⟩ f4
      (N := t.Nresult) (by
        show Spec.XXH3.XXH3_128_withSecretandSeed _ _ _ = _
        rw [Spec.XXH3.XXH3_128_withSecretandSeed, if_pos (by rw [data_contents, stake_length hl]; exact h), hv'])
    exact ⟨s5, h5⟩
  simp only [ResetArg.call] at h1 h2 h3 h4
  unfold SanityTest.testXXH128
  dsimp only
  by_cases h0 : t.seed = 0 <;> by_cases hsh : t.len ≤ 240
  · obtain ⟨s5, h5⟩ := h5 hsh
    simp only [if_pos h0, if_pos hsh, e2 h0, e4 hsh, h5, e1, e5, fromSeed he, e3, h1, h2, h3, h4, Res.of_some, Res.bind_ok, check_ok]
    rfl
  · simp only [if_pos h0, if_neg hsh, e2 h0, e1, e5, fromSeed he, e3, h1, h2, h3, h4, Res.of_some, Res.bind_ok, check_ok]
    rfl
  · obtain ⟨s5, h5⟩ := h5 hsh
    simp only [if_neg h0, if_pos hsh, e4 hsh, h5, e1, e5, fromSeed he, e3, h1, h2, h3, h4, Res.of_some, Res.bind_ok, check_ok]
    rfl
  · simp only [if_neg h0, if_neg hsh, e1, e5, fromSeed he, e3, h1, h2, h3, h4, Res.of_some, Res.bind_ok, check_ok]
    rfl

theorem test3s {e : TestEnv} (he : EnvOK e) {q : Ptr} {size : Nat} (hq : Readable e.cfg q size) (hs : 136 ≤ size)
    {t : TestData64} (hl : t.len ≤ 4161)
    (hv : Spec.XXH3.XXH3_64_withSecret (sbuf.take t.len) (contents q) = t.Nresult) {rnd rnd' : W64}
    (hw : walk t.len (roundsFor t.len) 0 rnd = some rnd') : SanityTest.testXXH3_withSecret e q size rnd t = .ok rnd' := by
  have hd := data_readable he hl
  have hv' := hv
  rw [← data_contents e] at hv'
  have e1 := C03_XXH3_64bits_withSecret_eq_spec he.cfg hd hq hs
  rw [data_contents, hv] at e1
  have e2 : t.len > 240 → Model.XXH3.XXH3_64bits_withSecretandSeed e.cfg (SanityTest.dataOf e t.len) t.len q size 0 =
      some t.Nresult := fun h => by rw [C05_64_long he.cfg hd hq hs h, e1]
  obtain ⟨s1, h1, f1⟩ := stream64_single he hd (a := .secret q size) ⟨hq, hs⟩ (init_fresh he) hv'
  obtain ⟨s2, h2, f2⟩ := stream64_random he hd (a := .secret q size) ⟨hq, hs⟩ f1 hv' hw
  obtain ⟨s3, h3, f3⟩ := stream64_bytewise he hd (a := .secret q size) ⟨hq, hs⟩ f2 hv'
  have h4 : t.len > 240 → ∃ s4, SelfTest.stream64 e.cfg (Model.XXH3.reset_withSecretandSeed (some s3) q size 0)
      (single e.cfg (SanityTest.dataOf e t.len) t.len) t.Nresult = .ok s4 := fun h => by
    obtain ⟨s4, h4, -⟩ := stream64_single he hd (a := .secretAndSeed q size 0) ⟨hq, hs⟩ f3 (N := t.Nresult) (by
      show Spec.XXH3.XXH3_64_withSecretandSeed _ _ _ = _
      rw [Spec.XXH3.XXH3_64_withSecretandSeed, if_neg (by rw [data_contents, stake_length hl]; omega), hv'])
    exact ⟨s4, h4⟩
  simp only [ResetArg.call] at h1 h2 h3
  unfold SanityTest.testXXH3_withSecret
  dsimp only
  by_cases hlong : t.len > 240
  · obtain ⟨s4, h4⟩ := h4 hlong
    simp only [if_pos hlong, e1, e2 hlong, h1, h2, h3, h4, Res.of_some, Res.bind_ok, check_ok]
    rfl
  · simp only [if_neg hlong, e1, h1, h2, h3, Res.of_some, Res.bind_ok, check_ok]
    rfl

theorem test128s {e : TestEnv} (he : EnvOK e) {q : Ptr} {size : Nat} (hq : Readable e.cfg q size) (hs : 136 ≤ size)
    {t : TestData128} (hl : t.len ≤ 4161)
    (hv : Spec.XXH3.XXH3_128_withSecret (sbuf.take t.len) (contents q) = t.Nresult) {rnd rnd' : W64}
    (hw : walk t.len (roundsFor t.len) 0 rnd = some rnd') : SanityTest.testXXH128_withSecret e q size rnd t = .ok rnd' := by
  have hd := data_readable he hl
  have hv' := hv
  rw [← data_contents e] at hv'
  have e1 := C04_XXH3_128bits_withSecret_eq_spec he.cfg hd hq hs
  rw [data_contents, hv] at e1
  have e2 : t.len > 240 → Model.XXH3.XXH3_128bits_withSecretandSeed e.cfg (SanityTest.dataOf e t.len) t.len q size 0 =
      some t.Nresult := fun h => by rw [C05_128_long he.cfg hd hq hs h, e1]
  obtain ⟨s1, h1, f1⟩ := stream128_single he hd (a := .secret q size) ⟨hq, hs⟩ (init_fresh he) hv'
  obtain ⟨s2, h2, f2⟩ := stream128_random he hd (a := .secret q size) ⟨hq, hs⟩ f1 hv' hw
  obtain ⟨s3, h3, f3⟩ := stream128_bytewise he hd (a := .secret q size) ⟨hq, hs⟩ f2 hv'
  have h4 : t.len > 240 → ∃ s4, SelfTest.stream128 e.cfg (Model.XXH3.reset_withSecretandSeed (some s3) q size 0)
      (single e.cfg (SanityTest.dataOf e t.len) t.len) t.Nresult = .ok s4 := fun h => by
    obtain ⟨s4, h4, -⟩ := stream128_single he hd (a := .secretAndSeed q size 0) ⟨hq, hs⟩ f3 (N := t.Nresult) (by
      show Spec.XXH3.XXH3_128_withSecretandSeed _ _ _ = _
      rw [Spec.XXH3.XXH3_128_withSecretandSeed, if_neg (by rw [data_contents, stake_length hl]; omega), hv'])
    exact ⟨s4, h4⟩
  simp only [ResetArg.call] at h1 h2 h3
  unfold SanityTest.testXXH128_withSecret
  dsimp only
  by_cases hlong : t.len > 240
  · obtain ⟨s4, h4⟩ := h4 hlong
    simp only [if_pos hlong, e1, e2 hlong, h1, h2, h3, h4, Res.of_some, Res.bind_ok, check_ok]
    rfl
  · simp only [if_neg hlong, e1, h1, h2, h3, Res.of_some, Res.bind_ok, check_ok]
    rfl

/-! ### Right and wrong entries -/

theorem test32_wrong {e : TestEnv} (he : EnvOK e) {t : TestData32} (hl : t.len ≤ 4161)
    (hv : Spec.XXH32.hash (sbuf.take t.len) t.seed ≠ t.Nresult) : SanityTest.testXXH32 e t = .exit 1 := by
  unfold SanityTest.testXXH32
  dsimp only
  rw [C01_XXH32_eq_spec he.cfg (data_readable he hl), data_contents, Res.of_some, Res.bind_ok, check_wrong hv]
  rfl

theorem test64_wrong {e : TestEnv} (he : EnvOK e) {t : TestData64} (hl : t.len ≤ 4161)
    (hv : Spec.XXH64.hash (sbuf.take t.len) t.seed ≠ t.Nresult) : SanityTest.testXXH64 e t = .exit 1 := by
  unfold SanityTest.testXXH64
  dsimp only
  rw [C02_XXH64_eq_spec he.cfg (data_readable he hl), data_contents, Res.of_some, Res.bind_ok, check_wrong hv]
  rfl

theorem test3_wrong {e : TestEnv} (he : EnvOK e) {q : Ptr} {size : Nat} {t : TestData64} (hl : t.len ≤ 4161)
    (hv : Spec.XXH3.XXH3_64_withSeed (sbuf.take t.len) t.seed ≠ t.Nresult) (rnd : W64) :
    SanityTest.testXXH3 e q size rnd t = .exit 1 := by
  unfold SanityTest.testXXH3
  dsimp only
  rw [C03_XXH3_64bits_withSeed_eq_spec he.cfg (data_readable he hl), data_contents, Res.of_some, Res.bind_ok,
    check_wrong hv, Res.bind_exit]

theorem test128_wrong {e : TestEnv} (he : EnvOK e) {q : Ptr} {size : Nat} {t : TestData128} (hl : t.len ≤ 4161)
    (hv : Spec.XXH3.XXH3_128_withSeed (sbuf.take t.len) t.seed ≠ t.Nresult) (rnd : W64) :
    SanityTest.testXXH128 e q size rnd t = .exit 1 := by
  unfold SanityTest.testXXH128
  dsimp only
  rw [C04_XXH3_128bits_withSeed_eq_spec he.cfg (data_readable he hl), data_contents, Res.of_some, Res.bind_ok,
    check_wrong hv, Res.bind_exit]

theorem test3s_wrong {e : TestEnv} (he : EnvOK e) {q : Ptr} {size : Nat} (hq : Readable e.cfg q size) (hs : 136 ≤ size)
    {t : TestData64} (hl : t.len ≤ 4161)
    (hv : Spec.XXH3.XXH3_64_withSecret (sbuf.take t.len) (contents q) ≠ t.Nresult) (rnd : W64) :
    SanityTest.testXXH3_withSecret e q size rnd t = .exit 1 := by
  unfold SanityTest.testXXH3_withSecret
  dsimp only
  rw [C03_XXH3_64bits_withSecret_eq_spec he.cfg (data_readable he hl) hq hs, data_contents, Res.of_some, Res.bind_ok,
    check_wrong hv, Res.bind_exit]

theorem test128s_wrong {e : TestEnv} (he : EnvOK e) {q : Ptr} {size : Nat} (hq : Readable e.cfg q size)
    (hs : 136 ≤ size) {t : TestData128} (hl : t.len ≤ 4161)
    (hv : Spec.XXH3.XXH3_128_withSecret (sbuf.take t.len) (contents q) ≠ t.Nresult) (rnd : W64) :
    SanityTest.testXXH128_withSecret e q size rnd t = .exit 1 := by
  unfold SanityTest.testXXH128_withSecret
  dsimp only
  rw [C04_XXH3_128bits_withSecret_eq_spec he.cfg (data_readable he hl) hq hs, data_contents, Res.of_some, Res.bind_ok,
    check_wrong hv, Res.bind_exit]

/-! ### The secret generator -/

/-- The bytes compared. -/
def sample (seed : List Byte) (secretLen : Nat) : List Byte :=
  sampleIndex.map fun i => (Spec.XXH3.generateSecret secretLen seed ++
    List.replicate (SECRET_SIZE_MAX - secretLen) 0).getD i 0

theorem secret_call {e : TestEnv} (he : EnvOK e) {seedLen secretLen : Nat} (h1 : 136 ≤ secretLen)
    (h2 : secretLen ≤ SECRET_SIZE_MAX) (h3 : seedLen ≤ 4161) :
    Model.XXH3.generateSecret e.cfg (some ⟨e.secretBuffer, List.replicate SECRET_SIZE_MAX 0⟩) secretLen
      (bufferOf e SANITY_BUFFER_SIZE seedLen) seedLen =
    some (.ok, Spec.XXH3.generateSecret secretLen (sbuf.take seedLen) ++
      List.replicate (SECRET_SIZE_MAX - secretLen) 0) := by
  have hg := C21_generateSecret_ok he.cfg (buf := ⟨e.secretBuffer, List.replicate SECRET_SIZE_MAX 0⟩) h1
    (by rw [List.length_replicate]; exact h2) (buffer_readable he h3)
  rw [hg, List.drop_replicate]
  rfl

theorem testGen_eq {e : TestEnv} (he : EnvOK e) {t : TestDataSample} (h1 : 136 ≤ t.secretLen)
    (h2 : t.secretLen ≤ SECRET_SIZE_MAX) (h3 : t.seedLen ≤ 4161) :
    SanityTest.testSecretGenerator e t = if sample (sbuf.take t.seedLen) t.secretLen = t.byte then .ok () else .exit 1 := by
  unfold SanityTest.testSecretGenerator
  dsimp only
  rw [if_neg (show ¬ ¬ t.seedLen ≤ SANITY_BUFFER_SIZE from not_not.mpr h3), if_neg (not_not.mpr h2), secret_call he h1 h2 h3]
  show (if ¬ sample (sbuf.take t.seedLen) t.secretLen = t.byte then Res.exit 1 else Res.ok ()) = _
  rw [ite_not]

/-! ### All tests -/

theorem forM_wrong {T : Type} {f : T → Res Unit} {P : T → Prop} : ∀ (l : List T), (∀ t ∈ l, P t → f t = .ok ()) →
    (∀ t ∈ l, ¬ P t → f t = .exit 1) → (¬ ∀ t ∈ l, P t) → l.forM f = .exit 1
  | [], _, _, h => absurd (by simp) h
  | t :: ts, h1, h2, h => by
    show (f t >>= fun _ => ts.forM f) = _
    by_cases hp : P t
    · rw [h1 t (by simp) hp, Res.bind_ok]
      exact forM_wrong ts (fun t ht => h1 t (by simp [ht])) (fun t ht => h2 t (by simp [ht])) fun h3 =>
        h fun t ht => by
          rcases List.mem_cons.mp ht with rfl | ht
          · exact hp
          · exact h3 t ht
    · rw [h2 t (by simp) hp, Res.bind_exit]

theorem testAll_right {T : Type} {test : W64 → T → Res W64} (len : T → Nat) : ∀ (l : List T) (rnd : W64),
    rnd.toNat % 2 = 1 →
    (∀ t ∈ l, ∀ rnd rnd', walk (len t) (roundsFor (len t)) 0 rnd = some rnd' → test rnd t = .ok rnd') →
    ∃ rnd', testAll test rnd l = .ok rnd'
  | [], rnd, _, _ => ⟨rnd, rfl⟩
  | t :: ts, rnd, ho, h => by
    obtain ⟨r, hw, hr⟩ := walk_total (len t) rnd ho
    obtain ⟨r', h'⟩ := testAll_right len ts r hr fun t ht => h t (by simp [ht])
    exact ⟨r', by rw [testAll, h t (by simp) _ _ hw, Res.bind_ok, h']⟩

theorem testAll_wrong {T : Type} {test : W64 → T → Res W64} {P : T → Prop} (len : T → Nat) : ∀ (l : List T) (rnd : W64),
    rnd.toNat % 2 = 1 →
    (∀ t ∈ l, P t → ∀ rnd rnd', walk (len t) (roundsFor (len t)) 0 rnd = some rnd' → test rnd t = .ok rnd') →
    (∀ t ∈ l, ¬ P t → ∀ rnd, test rnd t = .exit 1) → (¬ ∀ t ∈ l, P t) → testAll test rnd l = .exit 1
  | [], _, _, _, _, h => absurd (by simp) h
  | t :: ts, rnd, ho, h1, h2, h => by
    rw [testAll]
    by_cases hp : P t
    · obtain ⟨r, hw, hr⟩ := walk_total (len t) rnd ho
      rw [h1 t (by simp) hp _ _ hw, Res.bind_ok]
      exact testAll_wrong len ts r hr (fun t ht => h1 t (by simp [ht])) (fun t ht => h2 t (by simp [ht])) fun h3 =>
        h fun t ht => by
          rcases List.mem_cons.mp ht with rfl | ht
          · exact hp
          · exact h3 t ht
    · rw [h2 t (by simp) hp rnd, Res.bind_exit]

theorem computeRandSeed_odd (n : Nat) : (computeRandSeed n).toNat % 2 = 1 := by
  induction n with
  | zero => rfl
  | succ n ih => exact rand_odd ih

/-! ### The generator -/

theorem forEach_ok {S T : Type} {f : S → Res T} {g : S → T} : ∀ (l : List S), (∀ x ∈ l, f x = .ok (g x)) →
    forEach l f = .ok (l.map g)
  | [], _ => rfl
  | x :: xs, h => by
    rw [forEach, h x (by simp), Res.bind_ok, forEach_ok xs fun y hy => h y (by simp [hy]), Res.bind_ok]
    rfl

theorem mem_pairs {n : Nat} {seeds : List W64} {x : Nat × W64} (h : x ∈ pairs n seeds) : x.1 < n := by
  unfold pairs at h
  obtain ⟨len, h1, h2⟩ := List.mem_flatMap.mp h
  obtain ⟨s, -, rfl⟩ := List.mem_map.mp h2
  exact List.mem_range.mp h1

theorem len32_small {n : Nat} (h : n < 2 ^ 32) : len32 n = n := Nat.mod_eq_of_lt h

end XXH.SanityP
