import Verif.Proof.SelfTestVec
import Verif.Props.XXH32
import Verif.Props.XXH64
import Verif.Props.XXH3Stream
import Verif.Props.Secret
/-!
The self-test of xxhsum, cli/xsum_sanity_check.c, passes.
-/
namespace XXH.SelfTestP
open XXH.Model XXH.Model.SelfTest XXH.Props
open Cli (Res)

/-- What the language guarantees about the objects of the self-test. -/
structure EnvOK (e : TestEnv) : Prop where
  cfg : e.cfg.Valid
  secret : e.secretJunk.length = 192
  typed : e.state3.Typed

theorem fillLoop_length (n : Nat) (g : W64) : (fillLoop n g).length = n := by
  induction n generalizing g with
  | zero => rfl
  | succ n ih => rw [fillLoop, List.length_cons, ih]

theorem buf_length : buf.length = 2367 := fillLoop_length _ _

theorem readable_some {cfg : Cfg} (hc : cfg.Valid) (addr : Nat) {bytes : List Byte} {n : Nat} (hl : bytes.length = n)
    (hn : n < 2 ^ 15) : Readable cfg (some ⟨addr, bytes⟩) n := by
  refine ⟨hl, ?_⟩
  have h1 := hc.sizeLo
  have h2 : 2 ^ 15 ≤ 2 ^ (cfg.sizeBits - 1) := Nat.pow_le_pow_right (by decide) (by omega)
  show bytes.length < _
  omega

theorem data_contents (e : TestEnv) (len : Nat) : contents (dataOf e len) = buf.take len := by
  unfold dataOf
  split
  · next h => rw [h]; rfl
  · rfl

theorem data_readable {e : TestEnv} (he : EnvOK e) {len : Nat} (hl : len ≤ 2367) :
    Readable e.cfg (dataOf e len) len := by
  have hb := buf_length
  unfold dataOf
  split
  · next h => rw [h]; exact Examples.null_readable _
  · exact readable_some he.cfg _ (by rw [List.length_take]; show min len buf.length = _; omega) (by omega)

theorem plus_contents (data : Ptr) (p l : Nat) : contents (plus data p l) = ((contents data).drop p).take l := by
  cases data with
  | none => show [] = List.take l (List.drop p []); simp
  | some b => rfl

theorem plus_readable {cfg : Cfg} {data : Ptr} {len : Nat} (h : Readable cfg data len) {p l : Nat} (hl : p + l ≤ len) :
    Readable cfg (plus data p l) l := by
  have h1 := h.length
  have h2 := h.fits
  have h3 : (contents (plus data p l)).length = l := by
    rw [plus_contents, List.length_take, List.length_drop]
    show min l (data.buf.bytes.length - p) = l
    omega
  refine ⟨h3, ?_⟩
  unfold Buf.Fits at *
  have h4 : (plus data p l).buf.bytes.length = l := h3
  omega

theorem take_plus (data : Ptr) (p l : Nat) :
    (contents data).take p ++ contents (plus data p l) = (contents data).take (p + l) := by
  rw [plus_contents, ← List.take_add]

section
variable {S : Type} {cfg : Cfg} {update : S → Ptr → Nat → Option (S × Err)} {Rep : List Byte → S → Prop}
  (hupdate : ∀ {msg : List Byte} {s : S} {p : Ptr} {len : Nat}, Rep msg s → Readable cfg p len →
    ∃ s', update s p len = some (s', .ok) ∧ Rep (msg ++ contents p) s')
include hupdate

theorem byByte_repr {data : Ptr} {len : Nat} (hd : Readable cfg data len) : ∀ (n pos : Nat) (s : S),
    pos + n ≤ len → Rep ((contents data).take pos) s →
    ∃ s', byByte update data n pos s = some s' ∧ Rep ((contents data).take (pos + n)) s'
  | 0, pos, s, _, h => ⟨s, rfl, h⟩
  | n + 1, pos, s, hl, h => by
    obtain ⟨s1, h1, h2⟩ := hupdate h (plus_readable hd (p := pos) (l := 1) (by omega))
    rw [take_plus] at h2
    obtain ⟨s2, h3, h4⟩ := byByte_repr hd n (pos + 1) s1 (by omega) h2
    refine ⟨s2, ?_, by rwa [show pos + 1 + n = pos + (n + 1) by omega] at h4⟩
    rw [byByte, h1]
    exact h3

theorem bytewise_repr {data : Ptr} {len : Nat} (hd : Readable cfg data len) {s : S} (h : Rep [] s) :
    ∃ s', byByte update data len 0 s = some s' ∧ Rep (contents data) s' := by
  obtain ⟨s', h1, h2⟩ := byByte_repr hupdate hd len 0 s (by omega) h
  refine ⟨s', h1, ?_⟩
  have := hd.length
  rwa [List.take_of_length_le (by unfold contents; omega)] at h2

theorem single_repr {data : Ptr} {len : Nat} (hd : Readable cfg data len) {s : S} (h : Rep [] s) :
    ∃ s', update s data len = some (s', .ok) ∧ Rep (contents data) s' := by
  obtain ⟨s', h1, h2⟩ := hupdate h hd
  exact ⟨s', h1, by simpa using h2⟩

end

theorem random_repr {cfg : Cfg} (hc : cfg.Valid) {a : ResetArg} {data : Ptr} {len : Nat} (hd : Readable cfg data len) :
    ∀ (fuel p : Nat) (rnd rnd' : W64) (s : Model.XXH3.State), p ≤ len → walk len fuel p rnd = some rnd' →
    XXH3P.Repr a.secretOf a.seedOf ((contents data).take p) s →
    ∃ s', randomUpdate cfg data len fuel p rnd s = some (s', rnd') ∧
      XXH3P.Repr a.secretOf a.seedOf (contents data) s' := by
  intro fuel
  induction fuel with
  | zero =>
    intro p rnd rnd' s hp hw h
    unfold walk at hw
    unfold randomUpdate
    split at hw
    · simp at hw
    · next hn =>
      rw [if_neg hn]
      refine ⟨s, by rw [Option.some.inj hw], ?_⟩
      have := hd.length
      rwa [List.take_of_length_le (by unfold contents; omega)] at h
  | succ fuel ih =>
    intro p rnd rnd' s hp hw h
    unfold walk at hw
    unfold randomUpdate
    split at hw
    · next hlt =>
      rw [if_pos hlt]
      simp only at hw ⊢
      generalize hl : (if p + (rand rnd).1.toNat % (if len > 2 then len else 2) > len then len - p
        else (rand rnd).1.toNat % (if len > 2 then len else 2)) = l at hw ⊢
      have hl' : p + l ≤ len := by
        rw [← hl]
        generalize (rand rnd).1.toNat % (if len > 2 then len else 2) = k
        split <;> omega
      obtain ⟨s1, h1, h2⟩ := update_call_repr hc h (plus_readable hd hl')
      rw [take_plus] at h2
      obtain ⟨s2, h3, h4⟩ := ih (p + l) _ rnd' s1 hl' hw h2
      refine ⟨s2, ?_, h4⟩
      rw [h1]
      exact h3
    · next hn =>
      rw [if_neg hn]
      refine ⟨s, by rw [Option.some.inj hw], ?_⟩
      have := hd.length
      rwa [List.take_of_length_le (by unfold contents; omega)] at h

theorem check_ok {α : Type} [DecidableEq α] {x y : α} (h : x = y) : checkResult x y = .ok () := by
  rw [checkResult, if_neg (not_not.mpr h)]

theorem Res.bind_ok {α β : Type} (a : α) (f : α → Res β) : (Res.ok a >>= f) = f a := rfl

theorem Res.of_some {α : Type} (a : α) : Res.of (some a) = .ok a := rfl

/-! ### XXH32, XXH64 -/

theorem test32 {e : TestEnv} (he : EnvOK e) {t : TestData32} (hl : t.len ≤ 2367)
    (hv : Spec.XXH32.hash (buf.take t.len) t.seed = t.Nresult) : testXXH32 e t = .ok () := by
  have hd := data_readable he hl
  have hu {msg : List Byte} {s : Model.XXH32.State} {p : Ptr} {len : Nat} (h : Proof.XXH32.Repr t.seed msg s)
      (hp : Readable e.cfg p len) := Proof.XXH32.update_repr he.cfg h hp
  unfold testXXH32
  dsimp only
  rw [C01_XXH32_eq_spec he.cfg hd, data_contents, hv]
  obtain ⟨s1, h1, r1⟩ := Proof.XXH32.reset_repr e.state32 t.seed
  obtain ⟨s2, h2, r2⟩ := single_repr hu hd r1
  have h3 := Proof.XXH32.digest_repr he.cfg r2
  obtain ⟨s4, h4, r4⟩ := Proof.XXH32.reset_repr s2 t.seed
  obtain ⟨s5, h5, r5⟩ := bytewise_repr hu hd r4
  have h6 := Proof.XXH32.digest_repr he.cfg r5
  rw [data_contents, hv] at h3 h6
  simp only [Res.of_some, Res.bind_ok, check_ok, h1, h2, h3, h4, h5, h6]

theorem test64 {e : TestEnv} (he : EnvOK e) {t : TestData64} (hl : t.len ≤ 2367)
    (hv : Spec.XXH64.hash (buf.take t.len) t.seed = t.Nresult) : testXXH64 e t = .ok () := by
  have hd := data_readable he hl
  have hlt : (contents (dataOf e t.len)).length < 2 ^ 64 := fits_lt he.cfg hd
  have hu {msg : List Byte} {s : Model.XXH64.State} {p : Ptr} {len : Nat} (h : Proof.XXH64.Repr t.seed msg s)
      (hp : Readable e.cfg p len) := Proof.XXH64.update_repr he.cfg h hp
  unfold testXXH64
  dsimp only
  rw [C02_XXH64_eq_spec he.cfg hd, data_contents, hv]
  obtain ⟨s1, h1, r1⟩ := Proof.XXH64.reset_repr e.state64 t.seed
  obtain ⟨s2, h2, r2⟩ := single_repr hu hd r1
  have h3 := Proof.XXH64.digest_repr he.cfg hlt r2
  obtain ⟨s4, h4, r4⟩ := Proof.XXH64.reset_repr s2 t.seed
  obtain ⟨s5, h5, r5⟩ := bytewise_repr hu hd r4
  have h6 := Proof.XXH64.digest_repr he.cfg hlt r5
  rw [data_contents, hv] at h3 h6
  simp only [Res.of_some, Res.bind_ok, check_ok, h1, h2, h3, h4, h5, h6]

/-! ### XXH3 streams -/

section
variable {e : TestEnv} (he : EnvOK e) {len : Nat} (hl : len ≤ 2367) {a : ResetArg} (hok : a.Ok e.cfg)
  {s : Model.XXH3.State} (hF : XXH3P.Fresh s)
include he hl hok hF

theorem stream64_single {N : W64} (hv : a.spec64 (buf.take len) = N) :
    ∃ s', stream64 e.cfg (a.call e.cfg (some s)) (single e.cfg (dataOf e len) len) N = .ok s' ∧ XXH3P.Fresh s' := by
  have hd := data_readable he hl
  obtain ⟨s1, h1, r1⟩ := reset_call_repr he.cfg hF.typed hok fun _ _ => hF
  obtain ⟨s2, h2, r2⟩ := single_repr (@update_call_repr e.cfg he.cfg a) hd r1
  have h3 := XXH3P.digest64_repr he.cfg r2 (fits_lt he.cfg hd)
  rw [value64_eq, data_contents, hv] at h3
  refine ⟨s2, ?_, r2.fresh⟩
  unfold SelfTest.stream64 single
  rw [h1, Res.of_some, Res.bind_ok]
  show (Res.of (do let (state, _) ← Model.XXH3.bits64_update e.cfg s1 (dataOf e len) len; return state) >>= _) = _
  rw [h2]
  show (Res.of (Model.XXH3.bits64_digest e.cfg s2) >>= _) = _
  rw [h3, Res.of_some, Res.bind_ok, check_ok rfl]
  rfl

theorem stream64_bytewise {N : W64} (hv : a.spec64 (buf.take len) = N) :
    ∃ s', stream64 e.cfg (a.call e.cfg (some s)) (bytewise e.cfg (dataOf e len) len) N = .ok s' ∧ XXH3P.Fresh s' := by
  have hd := data_readable he hl
  obtain ⟨s1, h1, r1⟩ := reset_call_repr he.cfg hF.typed hok fun _ _ => hF
  obtain ⟨s2, h2, r2⟩ := bytewise_repr (@update_call_repr e.cfg he.cfg a) hd r1
  have h3 := XXH3P.digest64_repr he.cfg r2 (fits_lt he.cfg hd)
  rw [value64_eq, data_contents, hv] at h3
  refine ⟨s2, ?_, r2.fresh⟩
  unfold SelfTest.stream64 bytewise
  rw [h1, Res.of_some, Res.bind_ok]
  show (Res.of (byByte (Model.XXH3.bits64_update e.cfg) (dataOf e len) len 0 s1) >>= _) = _
  rw [h2]
  show (Res.of (Model.XXH3.bits64_digest e.cfg s2) >>= _) = _
  rw [h3, Res.of_some, Res.bind_ok, check_ok rfl]
  rfl

theorem stream64_random {N : W64} (hv : a.spec64 (buf.take len) = N) {rnd rnd' : W64}
    (hw : walk len maxRounds 0 rnd = some rnd') :
    ∃ s', stream64R e.cfg (a.call e.cfg (some s)) (dataOf e len) len rnd N = .ok (s', rnd') ∧ XXH3P.Fresh s' := by
  have hd := data_readable he hl
  obtain ⟨s1, h1, r1⟩ := reset_call_repr he.cfg hF.typed hok fun _ _ => hF
  obtain ⟨s2, h2, r2⟩ := random_repr he.cfg hd maxRounds 0 rnd rnd' s1 (Nat.zero_le _) hw r1
  have h3 := XXH3P.digest64_repr he.cfg r2 (fits_lt he.cfg hd)
  rw [value64_eq, data_contents, hv] at h3
  refine ⟨s2, ?_, r2.fresh⟩
  unfold stream64R
  rw [h1, Res.of_some, Res.bind_ok]
  show (Res.of (randomUpdate e.cfg (dataOf e len) len maxRounds 0 rnd s1) >>= _) = _
  rw [h2]
  show (Res.of (Model.XXH3.bits64_digest e.cfg s2) >>= _) = _
  rw [h3, Res.of_some, Res.bind_ok, check_ok rfl]
  rfl

theorem stream128_single {N : H128} (hv : a.spec128 (buf.take len) = N) :
    ∃ s', stream128 e.cfg (a.call e.cfg (some s)) (single e.cfg (dataOf e len) len) N = .ok s' ∧ XXH3P.Fresh s' := by
  have hd := data_readable he hl
  obtain ⟨s1, h1, r1⟩ := reset_call_repr he.cfg hF.typed hok fun _ _ => hF
  obtain ⟨s2, h2, r2⟩ := single_repr (@update_call_repr e.cfg he.cfg a) hd r1
  have h3 := XXH3P.digest128_repr he.cfg r2 (fits_lt he.cfg hd)
  rw [value128_eq, data_contents, hv] at h3
  refine ⟨s2, ?_, r2.fresh⟩
  unfold stream128 single
  rw [h1, Res.of_some, Res.bind_ok]
  show (Res.of (do let (state, _) ← Model.XXH3.bits64_update e.cfg s1 (dataOf e len) len; return state) >>= _) = _
  rw [h2]
  show (Res.of (Model.XXH3.bits128_digest e.cfg s2) >>= _) = _
  rw [h3, Res.of_some, Res.bind_ok, check_ok rfl]
  rfl

theorem stream128_bytewise {N : H128} (hv : a.spec128 (buf.take len) = N) :
    ∃ s', stream128 e.cfg (a.call e.cfg (some s)) (bytewise e.cfg (dataOf e len) len) N = .ok s' ∧ XXH3P.Fresh s' := by
  have hd := data_readable he hl
  obtain ⟨s1, h1, r1⟩ := reset_call_repr he.cfg hF.typed hok fun _ _ => hF
  obtain ⟨s2, h2, r2⟩ := bytewise_repr (@update_call_repr e.cfg he.cfg a) hd r1
  have h3 := XXH3P.digest128_repr he.cfg r2 (fits_lt he.cfg hd)
  rw [value128_eq, data_contents, hv] at h3
  refine ⟨s2, ?_, r2.fresh⟩
  unfold stream128 bytewise
  rw [h1, Res.of_some, Res.bind_ok]
  show (Res.of (byByte (Model.XXH3.bits64_update e.cfg) (dataOf e len) len 0 s1) >>= _) = _
  rw [h2]
  show (Res.of (Model.XXH3.bits128_digest e.cfg s2) >>= _) = _
  rw [h3, Res.of_some, Res.bind_ok, check_ok rfl]
  rfl

theorem stream128_random {N : H128} (hv : a.spec128 (buf.take len) = N) {rnd rnd' : W64}
    (hw : walk len maxRounds 0 rnd = some rnd') :
    ∃ s', stream128R e.cfg (a.call e.cfg (some s)) (dataOf e len) len rnd N = .ok (s', rnd') ∧ XXH3P.Fresh s' := by
  have hd := data_readable he hl
  obtain ⟨s1, h1, r1⟩ := reset_call_repr he.cfg hF.typed hok fun _ _ => hF
  obtain ⟨s2, h2, r2⟩ := random_repr he.cfg hd maxRounds 0 rnd rnd' s1 (Nat.zero_le _) hw r1
  have h3 := XXH3P.digest128_repr he.cfg r2 (fits_lt he.cfg hd)
  rw [value128_eq, data_contents, hv] at h3
  refine ⟨s2, ?_, r2.fresh⟩
  unfold stream128R
  rw [h1, Res.of_some, Res.bind_ok]
  show (Res.of (randomUpdate e.cfg (dataOf e len) len maxRounds 0 rnd s1) >>= _) = _
  rw [h2]
  show (Res.of (Model.XXH3.bits128_digest e.cfg s2) >>= _) = _
  rw [h3, Res.of_some, Res.bind_ok, check_ok rfl]
  rfl

end

/-! ### XXH3 tests -/

theorem init_fresh {e : TestEnv} (he : EnvOK e) : XXH3P.Fresh (Model.XXH3.INITSTATE e.state3) :=
  ⟨⟨he.typed.align, he.typed.custom, he.typed.buffer⟩, fun _ h => absurd rfl h⟩

theorem secret_readable {e : TestEnv} (he : EnvOK e) {bytes : List Byte} (h : bytes.length = 192) :
    Readable e.cfg (secretAt e bytes) 192 := readable_some he.cfg _ h (by decide)

theorem fromSeed {e : TestEnv} (he : EnvOK e) (seed : W64) :
    Model.XXH3.generateSecret_fromSeed e.cfg (secretAt e e.secretJunk) seed = some (Spec.XXH3.deriveSecret seed) := by
  have h := he.secret
  unfold secretAt
  rw [C20_fromSeed_eq_spec he.cfg (by show 192 ≤ e.secretJunk.length; omega),
    List.drop_eq_nil_of_le (by show e.secretJunk.length ≤ 192; omega), List.append_nil]

theorem spoil_length {l : List Byte} (h : l.length = 192) : (spoil l).length = 192 := by
  simp [spoil, h]

theorem hash64_long {msg : List Byte} (h : ¬ msg.length ≤ 240) (seed : W64) (s1 s2 : List Byte) :
    Spec.XXH3.hash64 msg seed s1 s2 = Spec.XXH3.large64 msg s2 := by
  unfold Spec.XXH3.hash64
  rw [if_neg (by omega), if_neg (by omega), if_neg (by omega), if_neg (by omega), if_neg (by omega), if_neg (by omega)]

theorem hash128_long {msg : List Byte} (h : ¬ msg.length ≤ 240) (seed : W64) (s1 s2 : List Byte) :
    Spec.XXH3.hash128 msg seed s1 s2 = Spec.XXH3.large128 msg s2 := by
  unfold Spec.XXH3.hash128
  rw [if_neg (by omega), if_neg (by omega), if_neg (by omega), if_neg (by omega), if_neg (by omega), if_neg (by omega)]

/-- The combined function with the derived secret is the seeded one. -/
theorem both64 (msg : List Byte) (seed : W64) :
    Spec.XXH3.XXH3_64_withSecretandSeed msg (Spec.XXH3.deriveSecret seed) seed =
      Spec.XXH3.XXH3_64_withSeed msg seed := by
  unfold Spec.XXH3.XXH3_64_withSecretandSeed
  split
  · rfl
  · next h =>
    unfold Spec.XXH3.XXH3_64_withSecret Spec.XXH3.XXH3_64_withSeed
    rw [hash64_long h, hash64_long h]

theorem both128 (msg : List Byte) (seed : W64) :
    Spec.XXH3.XXH3_128_withSecretandSeed msg (Spec.XXH3.deriveSecret seed) seed =
      Spec.XXH3.XXH3_128_withSeed msg seed := by
  unfold Spec.XXH3.XXH3_128_withSecretandSeed
  split
  · rfl
  · next h =>
    unfold Spec.XXH3.XXH3_128_withSecret Spec.XXH3.XXH3_128_withSeed
    rw [hash128_long h, hash128_long h]

theorem take_length {len : Nat} (hl : len ≤ 2367) : (buf.take len).length = len := by
  rw [List.length_take, buf_length]; omega

theorem test3 {e : TestEnv} (he : EnvOK e) {t : TestData64} (hl : t.len ≤ 2367)
    (hv : Spec.XXH3.XXH3_64_withSeed (buf.take t.len) t.seed = t.Nresult) {rnd rnd' : W64}
    (hw : walk t.len maxRounds 0 rnd = some rnd') : testXXH3 e rnd t = .ok rnd' := by
  have hd := data_readable he hl
  have hder := XXH3P.derive_length t.seed
  have hsec := secret_readable he hder
  have hspoil := secret_readable he (spoil_length hder)
  have e1 := C03_XXH3_64bits_withSeed_eq_spec he.cfg hd t.seed
  rw [data_contents, hv] at e1
  have e2 : t.seed = 0 → Model.XXH3.XXH3_64bits e.cfg (dataOf e t.len) t.len = some t.Nresult := fun h0 => by
    rw [C03_XXH3_64bits_eq_spec he.cfg hd, data_contents, ← hv, h0, Spec.XXH3.XXH3_64_withSeed, XXH3P.derive_zero]
    rfl
  have e3 : Model.XXH3.XXH3_64bits_withSecretandSeed e.cfg (dataOf e t.len) t.len
      (secretAt e (Spec.XXH3.deriveSecret t.seed)) 192 t.seed = some t.Nresult := by
    obtain ⟨sec, h1, h2, -⟩ := C05_fromSeed he.cfg hd t.seed (buf := ⟨e.secretBuffer + 1, e.secretJunk⟩) he.secret
      (e.secretBuffer + 1)
    rw [← e1, ← h2]
    have h4 := fromSeed he t.seed
    unfold secretAt at h4
    rw [h1] at h4
    rw [Option.some.inj h4]
    rfl
  have e4 : t.len ≤ 240 → ∀ q, Model.XXH3.XXH3_64bits_withSecretandSeed e.cfg (dataOf e t.len) t.len
      q 192 t.seed = some t.Nresult := fun h q => by rw [C05_64_short he.cfg hd h, e1]
  obtain ⟨s1, h1, f1⟩ := stream64_single he hl (a := .seed t.seed) trivial (init_fresh he) hv
  obtain ⟨s2, h2, f2⟩ := stream64_random he hl (a := .seed t.seed) trivial f1 hv hw
  obtain ⟨s3, h3, f3⟩ := stream64_bytewise he hl (a := .seed t.seed) trivial f2 hv
  obtain ⟨s4, h4, f4⟩ := stream64_single he hl
    (a := .secretAndSeed (secretAt e (Spec.XXH3.deriveSecret t.seed)) 192 t.seed) ⟨hsec, by decide⟩ f3
    ((both64 _ _).trans hv)
  have h5 : t.len ≤ 240 → ∃ s5, stream64 e.cfg (Model.XXH3.reset_withSecretandSeed (some s4)
      (secretAt e (spoil (Spec.XXH3.deriveSecret t.seed))) 192 t.seed) (single e.cfg (dataOf e t.len) t.len)
      t.Nresult = .ok s5 := fun h => by
    obtain ⟨s5, h5, -⟩ := stream64_single he hl
      (a := .secretAndSeed (secretAt e (spoil (Spec.XXH3.deriveSecret t.seed))) 192 t.seed) ⟨hspoil, by decide⟩ f4
      (N := t.Nresult) (by
        show Spec.XXH3.XXH3_64_withSecretandSeed _ _ _ = _
        rw [Spec.XXH3.XXH3_64_withSecretandSeed, if_pos (by rw [take_length hl]; exact h), hv])
    exact ⟨s5, h5⟩
  simp only [ResetArg.call] at h1 h2 h3 h4
  unfold testXXH3
  dsimp only
  by_cases h0 : t.seed = 0 <;> by_cases hs : t.len ≤ 240
  · obtain ⟨s5, h5⟩ := h5 hs
    simp only [if_pos h0, if_pos hs, e2 h0, e4 hs, h5, e1, fromSeed he, e3, h1, h2, h3, h4, Res.of_some, Res.bind_ok, check_ok]
    rfl
  · simp only [if_pos h0, if_neg hs, e2 h0, e1, fromSeed he, e3, h1, h2, h3, h4, Res.of_some, Res.bind_ok, check_ok]
    rfl
  · obtain ⟨s5, h5⟩ := h5 hs
    simp only [if_neg h0, if_pos hs, e4 hs, h5, e1, fromSeed he, e3, h1, h2, h3, h4, Res.of_some, Res.bind_ok, check_ok]
    rfl
  · simp only [if_neg h0, if_neg hs, e1, fromSeed he, e3, h1, h2, h3, h4, Res.of_some, Res.bind_ok, check_ok]
    rfl

theorem test128 {e : TestEnv} (he : EnvOK e) {t : TestData128} (hl : t.len ≤ 2367)
    (hv : Spec.XXH3.XXH3_128_withSeed (buf.take t.len) t.seed = t.Nresult) {rnd rnd' : W64}
    (hw : walk t.len maxRounds 0 rnd = some rnd') : testXXH128 e rnd t = .ok rnd' := by
  have hd := data_readable he hl
  have hder := XXH3P.derive_length t.seed
  have hsec := secret_readable he hder
  have hspoil := secret_readable he (spoil_length hder)
  have e1 := C04_XXH3_128bits_withSeed_eq_spec he.cfg hd t.seed
  rw [data_contents, hv] at e1
  have e2 : t.seed = 0 → Model.XXH3.XXH3_128bits e.cfg (dataOf e t.len) t.len = some t.Nresult := fun h0 => by
    rw [C04_XXH3_128bits_eq_spec he.cfg hd, data_contents, ← hv, h0, Spec.XXH3.XXH3_128_withSeed, XXH3P.derive_zero]
    rfl
  have e3 : Model.XXH3.XXH3_128bits_withSecretandSeed e.cfg (dataOf e t.len) t.len
      (secretAt e (Spec.XXH3.deriveSecret t.seed)) 192 t.seed = some t.Nresult := by
    obtain ⟨sec, h1, -, h2⟩ := C05_fromSeed he.cfg hd t.seed (buf := ⟨e.secretBuffer + 1, e.secretJunk⟩) he.secret
      (e.secretBuffer + 1)
    rw [← e1, ← h2]
    have h4 := fromSeed he t.seed
    unfold secretAt at h4
    rw [h1] at h4
    rw [Option.some.inj h4]
    rfl
  have e4 : t.len ≤ 240 → ∀ q, Model.XXH3.XXH3_128bits_withSecretandSeed e.cfg (dataOf e t.len) t.len
      q 192 t.seed = some t.Nresult := fun h q => by rw [C05_128_short he.cfg hd h, e1]
  have e5 : Model.XXH3.XXH128 e.cfg (dataOf e t.len) t.len t.seed = some t.Nresult := e1
  obtain ⟨s1, h1, f1⟩ := stream128_single he hl (a := .seed t.seed) trivial (init_fresh he) hv
  obtain ⟨s2, h2, f2⟩ := stream128_random he hl (a := .seed t.seed) trivial f1 hv hw
  obtain ⟨s3, h3, f3⟩ := stream128_bytewise he hl (a := .seed t.seed) trivial f2 hv
  obtain ⟨s4, h4, f4⟩ := stream128_single he hl
    (a := .secretAndSeed (secretAt e (Spec.XXH3.deriveSecret t.seed)) 192 t.seed) ⟨hsec, by decide⟩ f3
    ((both128 _ _).trans hv)
  have h5 : t.len ≤ 240 → ∃ s5, stream128 e.cfg (Model.XXH3.reset_withSecretandSeed (some s4)
      (secretAt e (spoil (Spec.XXH3.deriveSecret t.seed))) 192 t.seed) (single e.cfg (dataOf e t.len) t.len)
      t.Nresult = .ok s5 := fun h => by
    obtain ⟨s5, h5, -⟩ := stream128_single he hl
      (a := .secretAndSeed (secretAt e (spoil (Spec.XXH3.deriveSecret t.seed))) 192 t.seed) ⟨hspoil, by decide⟩ f4
      (N := t.Nresult) (by
        show Spec.XXH3.XXH3_128_withSecretandSeed _ _ _ = _
        rw [Spec.XXH3.XXH3_128_withSecretandSeed, if_pos (by rw [take_length hl]; exact h), hv])
    exact ⟨s5, h5⟩
  simp only [ResetArg.call] at h1 h2 h3 h4
  unfold testXXH128
  dsimp only
  by_cases h0 : t.seed = 0 <;> by_cases hs : t.len ≤ 240
  · obtain ⟨s5, h5⟩ := h5 hs
    simp only [if_pos h0, if_pos hs, e2 h0, e4 hs, h5, e1, e5, fromSeed he, e3, h1, h2, h3, h4, Res.of_some, Res.bind_ok, check_ok]
    rfl
  · simp only [if_pos h0, if_neg hs, e2 h0, e1, e5, fromSeed he, e3, h1, h2, h3, h4, Res.of_some, Res.bind_ok, check_ok]
    rfl
  · obtain ⟨s5, h5⟩ := h5 hs
    simp only [if_neg h0, if_pos hs, e4 hs, h5, e1, e5, fromSeed he, e3, h1, h2, h3, h4, Res.of_some, Res.bind_ok, check_ok]
    rfl
  · simp only [if_neg h0, if_neg hs, e1, e5, fromSeed he, e3, h1, h2, h3, h4, Res.of_some, Res.bind_ok, check_ok]
    rfl

theorem test3s {e : TestEnv} (he : EnvOK e) {q : Ptr} {size : Nat} (hq : Readable e.cfg q size) (hs : 136 ≤ size)
    {t : TestData64} (hl : t.len ≤ 2367)
    (hv : Spec.XXH3.XXH3_64_withSecret (buf.take t.len) (contents q) = t.Nresult) {rnd rnd' : W64}
    (hw : walk t.len maxRounds 0 rnd = some rnd') : testXXH3_withSecret e q size rnd t = .ok rnd' := by
  have hd := data_readable he hl
  have e1 := C03_XXH3_64bits_withSecret_eq_spec he.cfg hd hq hs
  rw [data_contents, hv] at e1
  have e2 : t.len > 240 → Model.XXH3.XXH3_64bits_withSecretandSeed e.cfg (dataOf e t.len) t.len q size 0 =
      some t.Nresult := fun h => by rw [C05_64_long he.cfg hd hq hs h, e1]
  obtain ⟨s1, h1, f1⟩ := stream64_single he hl (a := .secret q size) ⟨hq, hs⟩ (init_fresh he) hv
  obtain ⟨s2, h2, f2⟩ := stream64_random he hl (a := .secret q size) ⟨hq, hs⟩ f1 hv hw
  obtain ⟨s3, h3, f3⟩ := stream64_bytewise he hl (a := .secret q size) ⟨hq, hs⟩ f2 hv
  have h4 : t.len > 240 → ∃ s4, SelfTest.stream64 e.cfg (Model.XXH3.reset_withSecretandSeed (some s3) q size 17)
      (single e.cfg (dataOf e t.len) t.len) t.Nresult = .ok s4 := fun h => by
    obtain ⟨s4, h4, -⟩ := stream64_single he hl (a := .secretAndSeed q size 17) ⟨hq, hs⟩ f3 (N := t.Nresult) (by
      show Spec.XXH3.XXH3_64_withSecretandSeed _ _ _ = _
      rw [Spec.XXH3.XXH3_64_withSecretandSeed, if_neg (by rw [take_length hl]; omega), hv])
    exact ⟨s4, h4⟩
  simp only [ResetArg.call] at h1 h2 h3
  unfold testXXH3_withSecret
  dsimp only
  by_cases hlong : t.len > 240
  · obtain ⟨s4, h4⟩ := h4 hlong
    simp only [if_pos hlong, e1, e2 hlong, h1, h2, h3, h4, Res.of_some, Res.bind_ok, check_ok]
    rfl
  · simp only [if_neg hlong, e1, h1, h2, h3, Res.of_some, Res.bind_ok, check_ok]
    rfl

theorem test128s {e : TestEnv} (he : EnvOK e) {q : Ptr} {size : Nat} (hq : Readable e.cfg q size) (hs : 136 ≤ size)
    {t : TestData128} (hl : t.len ≤ 2367)
    (hv : Spec.XXH3.XXH3_128_withSecret (buf.take t.len) (contents q) = t.Nresult) {rnd rnd' : W64}
    (hw : walk t.len maxRounds 0 rnd = some rnd') : testXXH128_withSecret e q size rnd t = .ok rnd' := by
  have hd := data_readable he hl
  have e1 := C04_XXH3_128bits_withSecret_eq_spec he.cfg hd hq hs
  rw [data_contents, hv] at e1
  have e2 : t.len > 240 → Model.XXH3.XXH3_128bits_withSecretandSeed e.cfg (dataOf e t.len) t.len q size 0 =
      some t.Nresult := fun h => by rw [C05_128_long he.cfg hd hq hs h, e1]
  obtain ⟨s1, h1, f1⟩ := stream128_single he hl (a := .secret q size) ⟨hq, hs⟩ (init_fresh he) hv
  obtain ⟨s2, h2, f2⟩ := stream128_random he hl (a := .secret q size) ⟨hq, hs⟩ f1 hv hw
  obtain ⟨s3, h3, f3⟩ := stream128_bytewise he hl (a := .secret q size) ⟨hq, hs⟩ f2 hv
  have h4 : t.len > 240 → ∃ s4, SelfTest.stream128 e.cfg (Model.XXH3.reset_withSecretandSeed (some s3) q size 0)
      (single e.cfg (dataOf e t.len) t.len) t.Nresult = .ok s4 := fun h => by
    obtain ⟨s4, h4, -⟩ := stream128_single he hl (a := .secretAndSeed q size 0) ⟨hq, hs⟩ f3 (N := t.Nresult) (by
      show Spec.XXH3.XXH3_128_withSecretandSeed _ _ _ = _
      rw [Spec.XXH3.XXH3_128_withSecretandSeed, if_neg (by rw [take_length hl]; omega), hv])
    exact ⟨s4, h4⟩
  simp only [ResetArg.call] at h1 h2 h3
  unfold testXXH128_withSecret
  dsimp only
  by_cases hlong : t.len > 240
  · obtain ⟨s4, h4⟩ := h4 hlong
    simp only [if_pos hlong, e1, e2 hlong, h1, h2, h3, h4, Res.of_some, Res.bind_ok, check_ok]
    rfl
  · simp only [if_neg hlong, e1, h1, h2, h3, Res.of_some, Res.bind_ok, check_ok]
    rfl

/-! ### The secret generator -/

theorem testGen {e : TestEnv} (he : EnvOK e) {t : TestDataSample} (h : sampleOK t = true) :
    testSecretGenerator e t = .ok () := by
  unfold sampleOK at h
  simp only [Bool.and_eq_true, decide_eq_true_eq, beq_iff_eq] at h
  obtain ⟨⟨⟨h1, h2⟩, h3⟩, h4⟩ := h
  have hq : Readable e.cfg (some ⟨e.buffer, buf.take t.seedLen⟩) t.seedLen :=
    readable_some he.cfg _ (take_length h3) (by omega)
  have hg := C21_generateSecret_ok he.cfg (buf := ⟨e.secretBuffer, List.replicate SECRET_SIZE_MAX 0⟩) h1
    (by rw [List.length_replicate]; exact h2) hq
  unfold testSecretGenerator
  dsimp only
  rw [show fillTestBuffer 2367 = buf from rfl, hg, Res.of_some, Res.bind_ok]
  have hsd : (if contents (some (⟨e.buffer, buf.take t.seedLen⟩ : Buf)) = [] then Spec.XXH3.defaultSecret
      else contents (some (⟨e.buffer, buf.take t.seedLen⟩ : Buf))) =
      if t.seedLen = 0 then Spec.XXH3.defaultSecret else buf.take t.seedLen := by
    show (if buf.take t.seedLen = [] then Spec.XXH3.defaultSecret else buf.take t.seedLen) = _
    have hb := take_length h3
    by_cases h0 : t.seedLen = 0
    · rw [if_pos h0, if_pos (by rw [h0]; rfl)]
    · rw [if_neg h0, if_neg (by intro h; rw [h] at hb; exact h0 hb.symm)]
  simp only
  rw [if_neg]
  · rfl
  · rw [not_not, ← h4]
    refine List.map_congr_left fun k _ => ?_
    unfold Spec.XXH3.generateSecret
    rw [hsd, generated_getD]
    split
    · rfl
    · simp only [List.drop_replicate, List.getD_eq_getElem?_getD, List.getElem?_replicate]
      split <;> rfl

/-! ### All tests -/

theorem forM_ok {T : Type} {f : T → Res Unit} : ∀ (l : List T), (∀ t ∈ l, f t = .ok ()) → l.forM f = .ok ()
  | [], _ => rfl
  | t :: ts, h => by
    show (f t >>= fun _ => ts.forM f) = _
    rw [h t (by simp), Res.bind_ok]
    exact forM_ok ts fun t ht => h t (by simp [ht])

theorem walkAll_append (l1 l2 : List Nat) (rnd : W64) :
    walkAll rnd (l1 ++ l2) = (walkAll rnd l1).bind fun rnd => walkAll rnd l2 := by
  induction l1 generalizing rnd with
  | nil => rfl
  | cons len l ih =>
    simp only [List.cons_append, walkAll, Option.bind_assoc]
    congr 1
    funext r
    exact ih r

theorem testAll_ok {T : Type} {test : W64 → T → Res W64} (len : T → Nat) : ∀ (l : List T) (rnd rnd' : W64),
    (∀ t ∈ l, ∀ rnd rnd', walk (len t) maxRounds 0 rnd = some rnd' → test rnd t = .ok rnd') →
    walkAll rnd (l.map len) = some rnd' → testAll test rnd l = .ok rnd'
  | [], _, _, _, hw => by
    rw [List.map_nil, walkAll] at hw
    rw [testAll, Option.some.inj hw]
  | t :: ts, rnd, rnd', h, hw => by
    rw [List.map_cons, walkAll] at hw
    obtain ⟨r, h1, h2⟩ := Option.bind_eq_some_iff.mp hw
    rw [testAll, h t (by simp) _ _ h1, Res.bind_ok]
    exact testAll_ok len ts r rnd' (fun t ht => h t (by simp [ht])) h2

theorem sanity_ok {e : TestEnv} (he : EnvOK e) : sanityCheck e = .ok () := by
  have hw := walks
  rw [Option.isSome_iff_exists] at hw
  obtain ⟨r4, hw⟩ := hw
  rw [walkAll_append, Option.bind_eq_some_iff] at hw
  obtain ⟨r3, hw, w4⟩ := hw
  rw [walkAll_append, Option.bind_eq_some_iff] at hw
  obtain ⟨r2, hw, w3⟩ := hw
  rw [walkAll_append, Option.bind_eq_some_iff] at hw
  obtain ⟨r1, w1, w2⟩ := hw
  have hb := buf_length
  have hq : Readable e.cfg (some ⟨e.buffer + 7, (buf.drop 7).take (136 + 11)⟩) (136 + 11) :=
    readable_some he.cfg _ (by rw [List.length_take, List.length_drop]; omega) (by decide)
  have t1 := testAll_ok (test := testXXH3 e) (·.len) XXH3_testdata _ _
    (fun t ht _ _ hw => test3 he (vectors3 t ht).1 (vectors3 t ht).2 hw) w1
  have t2 := testAll_ok (test := testXXH3_withSecret e _ _) (·.len) XXH3_withSecret_testdata _ _
    (fun t ht _ _ hw => test3s he hq (by decide) (vectors3s t ht).1 (vectors3s t ht).2 hw) w2
  have t3 := testAll_ok (test := testXXH128 e) (·.len) XXH128_testdata _ _
    (fun t ht _ _ hw => test128 he (vectors128 t ht).1 (vectors128 t ht).2 hw) w3
  have t4 := testAll_ok (test := testXXH128_withSecret e _ _) (·.len) XXH128_withSecret_testdata _ _
    (fun t ht _ _ hw => test128s he hq (by decide) (vectors128s t ht).1 (vectors128s t ht).2 hw) w4
  unfold sanityCheck
  dsimp only
  rw [show fillTestBuffer 2367 = buf from rfl, forM_ok _ fun t ht => test32 he (vectors32 t ht).1 (vectors32 t ht).2,
    Res.bind_ok, forM_ok _ fun t ht => test64 he (vectors64 t ht).1 (vectors64 t ht).2, Res.bind_ok, t1, Res.bind_ok, t2,
    Res.bind_ok, t3, Res.bind_ok, t4, Res.bind_ok, forM_ok _ fun t ht => testGen he (samples t ht)]

end XXH.SelfTestP
