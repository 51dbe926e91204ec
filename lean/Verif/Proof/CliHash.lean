import Verif.Model.CliFile
import Verif.Proof.CliText
import Verif.Props.XXH32
import Verif.Props.XXH64
import Verif.Props.XXH3Stream
import Verif.Props.Secret
/-!
Hashing a stream (C35).
-/
namespace XXH.CliP
open Model.Cli

@[simp] theorem of_some_bind {α β : Type} (a : α) (f : α → Res β) : (Res.of (some a) >>= f) = f a := rfl
@[simp] theorem of_some {α : Type} (a : α) : Res.of (some a) = .ok a := rfl
@[simp] theorem ok_bind {α β : Type} (a : α) (f : α → Res β) : (Res.ok a >>= f) = f a := rfl
@[simp] theorem exit_bind {α β : Type} (c : Nat) (f : α → Res β) : (Res.exit c >>= f) = Res.exit c := rfl
@[simp] theorem pure_bind' {α β : Type} (a : α) (f : α → Res β) : ((pure a : Res α) >>= f) = f a := rfl
theorem pure_ok {α : Type} (a : α) : (pure a : Res α) = Res.ok a := rfl

/-- The program runs on a platform with a `size_t` of at least 32 bits (the block buffer has 64 KB), and objects are
where the compiler puts them. -/
structure EnvOk (env : Env) : Prop where
  cfg : env.cfg.Valid
  size : 32 ≤ env.cfg.sizeBits
  typed : env.state3.Typed

/-- The state used by an algorithm represents the bytes read so far. -/
def StRep (a : Algo) (msg : List Byte) (st : States) : Prop :=
  match a with
  | .xxh32 => Proof.XXH32.Repr 0 msg st.s32
  | .xxh64 => Proof.XXH64.Repr 0 msg st.s64
  | .xxh128 => XXH3P.Repr Props.ResetArg.default.secretOf Props.ResetArg.default.seedOf msg st.s3
  | .xxh3 => XXH3P.Repr Props.ResetArg.default.secretOf Props.ResetArg.default.seedOf msg st.s3

theorem initStates_eq {env : Env} (hE : EnvOk env) (a : Algo) : ∃ st, initStates env = some st ∧ StRep a [] st := by
  obtain ⟨s1, h1, r1⟩ := Proof.XXH32.reset_repr env.state32 0
  obtain ⟨s2, h2, r2⟩ := Proof.XXH64.reset_repr env.state64 0
  obtain ⟨s3, h3, r3⟩ := Props.reset_call_repr (a := .default) hE.cfg hE.typed trivial (fun sd h => by cases h)
  have h3 : Model.XXH3.reset env.cfg (some env.state3) = some (some s3, .ok) := h3
  refine ⟨⟨s1, s2, s3⟩, ?_, ?_⟩
  · simp only [initStates, h1, h2, h3, Option.bind_eq_bind, Option.bind_some]
    rfl
  · cases a
    · exact r1
    · exact r2
    · exact r3
    · exact r3

theorem updateBlock_eq {env : Env} (hE : EnvOk env) {a : Algo} {msg : List Byte} {st : States} (hr : StRep a msg st)
    {bytes : List Byte} (hb : bytes.length ≤ 65536) :
    ∃ st', updateBlock env a st (some ⟨env.block, bytes⟩) bytes.length = some st' ∧ StRep a (msg ++ bytes) st' := by
  have hp : Readable env.cfg (some ⟨env.block, bytes⟩) bytes.length := by
    refine ⟨rfl, ?_⟩
    show bytes.length < 2 ^ (env.cfg.sizeBits - 1)
    have := hE.size
    have : 2 ^ 31 ≤ 2 ^ (env.cfg.sizeBits - 1) := Nat.pow_le_pow_right (by decide) (by omega)
    omega
  cases a with
  | xxh32 =>
    obtain ⟨s, h1, h2⟩ := Proof.XXH32.update_repr hE.cfg hr hp
    exact ⟨{ st with s32 := s }, by simp only [updateBlock, h1, Option.bind_eq_bind, Option.bind_some]; rfl, h2⟩
  | xxh64 =>
    obtain ⟨s, h1, h2⟩ := Proof.XXH64.update_repr hE.cfg hr hp
    exact ⟨{ st with s64 := s }, by simp only [updateBlock, h1, Option.bind_eq_bind, Option.bind_some]; rfl, h2⟩
  | xxh128 =>
    obtain ⟨s, h1, h2⟩ := Props.update_call_repr (a := .default) hE.cfg hr hp
    exact ⟨{ st with s3 := s }, by simp only [updateBlock, h1, Option.bind_eq_bind, Option.bind_some]; rfl, h2⟩
  | xxh3 =>
    obtain ⟨s, h1, h2⟩ := Props.update_call_repr (a := .default) hE.cfg hr hp
    exact ⟨{ st with s3 := s }, by simp only [updateBlock, h1, Option.bind_eq_bind, Option.bind_some]; rfl, h2⟩

/-- What one `fread` delivers. -/
theorem fread_eq (f : Stream) {n : Nat} (hn : 0 < n) :
    let r := f.fread n
    r.1 ++ r.2.data = f.data ∧ r.1.length ≤ n ∧ (r.1.length = 0 → f.data = []) ∧ r.2.fail = f.fail := by
  unfold Stream.fread
  refine ⟨List.take_append_drop _ _, ?_, ?_, rfl⟩
  · simp only [List.length_take]
    split <;> omega
  · simp only [List.length_take]
    intro h
    apply List.length_eq_zero_iff.mp
    split at h <;> omega

theorem hashLoop_eq {env : Env} (hE : EnvOk env) {a : Algo} : ∀ (fuel : Nat) (f : Stream) (st : States) (msg : List Byte),
    StRep a msg st → f.data.length < fuel →
    ∃ st' f', hashLoop env a (64 * 1024) fuel f st = some (st', f') ∧ StRep a (msg ++ f.data) st' ∧ f'.data = [] ∧
      f'.fail = f.fail := by
  intro fuel
  induction fuel with
  | zero => intro f st msg _ h; omega
  | succ fuel ih =>
    intro f st msg hr hlt
    obtain ⟨h1, h2, h3, h4⟩ := fread_eq f (n := 64 * 1024) (by decide)
    generalize hf : f.fread (64 * 1024) = r at h1 h2 h3 h4
    obtain ⟨bytes, f'⟩ := r
    simp only at h1 h2 h3 h4
    unfold hashLoop
    simp only [hf]
    by_cases h0 : bytes.length = 0
    · rw [if_pos h0]
      have hd := h3 h0
      rw [hd, List.append_eq_nil_iff] at h1
      exact ⟨st, f', rfl, by rw [hd, List.append_nil]; exact hr, h1.2, h4⟩
    · rw [if_neg h0]
      obtain ⟨st1, e1, r1⟩ := updateBlock_eq hE hr h2
      have hlen : bytes.length + f'.data.length = f.data.length := by rw [← h1, List.length_append]
      obtain ⟨st2, f2, e2, r2, d2, g2⟩ := ih f' st1 (msg ++ bytes) r1 (by omega)
      refine ⟨st2, f2, ?_, ?_, d2, g2.trans h4⟩
      · simp only [e1, Option.bind_eq_bind, Option.bind_some]
        exact e2
      · rw [← h1, ← List.append_assoc]; exact r2

theorem finalHash_eq {env : Env} (hE : EnvOk env) {a : Algo} {msg : List Byte} {st : States} (hr : StRep a msg st)
    (hl : msg.length < 2 ^ 64) :
    ∃ h, finalHash env a st = some h ∧ canonicalOf env a h = some (Spec.Cli.hashOf (algOf a) msg) ∧
      ∀ c : List Byte, c.length = algoLength a →
        hashMatches env a h c = some (decide (c = Spec.Cli.hashOf (algOf a) msg)) := by
  cases a with
  | xxh32 =>
    have h1 := Proof.XXH32.digest_repr hE.cfg hr
    refine ⟨_, by simp only [finalHash, h1]; rfl, ?_, ?_⟩
    · simp [canonicalOf, Props.C17_XXH32_canonical_bigEndian, Spec.Cli.hashOf, algOf]
    · intro c hc
      obtain ⟨h, e1, e2⟩ := Props.C17_XXH32_roundtrip' (cfg' := env.cfg) hE.cfg ⟨env.canon, c⟩ hc
      simp only [hashMatches, e1, Option.bind_eq_bind, Option.bind_some, Spec.Cli.hashOf, algOf]
      rw [Props.C17_XXH32_canonical_bigEndian] at e2
      refine congrArg some (decide_eq_decide.mpr ?_)
      constructor
      · rintro rfl; exact e2.symm
      · intro he
        have := Props.C17_XXH32_roundtrip (cfg := env.cfg) (cfg' := env.cfg) hE.cfg (Spec.XXH32.hash msg 0) env.canon
        rw [Props.C17_XXH32_canonical_bigEndian, ← he, e1] at this
        simpa using this.symm
  | xxh64 =>
    have h1 := Proof.XXH64.digest_repr hE.cfg hl hr
    refine ⟨_, by simp only [finalHash, h1]; rfl, ?_, ?_⟩
    · simp [canonicalOf, Props.C17_XXH64_canonical_bigEndian, Spec.Cli.hashOf, algOf]
    · intro c hc
      obtain ⟨h, e1, e2⟩ := Props.C17_XXH64_roundtrip' (cfg' := env.cfg) hE.cfg ⟨env.canon, c⟩ hc
      simp only [hashMatches, e1, Option.bind_eq_bind, Option.bind_some, Spec.Cli.hashOf, algOf]
      rw [Props.C17_XXH64_canonical_bigEndian] at e2
      refine congrArg some (decide_eq_decide.mpr ?_)
      constructor
      · rintro rfl; exact e2.symm
      · intro he
        have := Props.C17_XXH64_roundtrip (cfg := env.cfg) (cfg' := env.cfg) hE.cfg (Spec.XXH64.hash msg 0) env.canon
        rw [Props.C17_XXH64_canonical_bigEndian, ← he, e1] at this
        simpa using this.symm
  | xxh3 =>
    have h1 := XXH3P.digest64_repr hE.cfg hr hl
    rw [Props.value64_eq] at h1
    have h1 : Model.XXH3.bits64_digest env.cfg st.s3 = some (Spec.XXH3.XXH3_64 msg) := h1
    refine ⟨_, by simp only [finalHash, h1]; rfl, ?_, ?_⟩
    · simp [canonicalOf, Props.C17_XXH64_canonical_bigEndian, Spec.Cli.hashOf, algOf]
    · intro c hc
      obtain ⟨h, e1, e2⟩ := Props.C17_XXH64_roundtrip' (cfg' := env.cfg) hE.cfg ⟨env.canon, c⟩ hc
      simp only [hashMatches, e1, Option.bind_eq_bind, Option.bind_some, Spec.Cli.hashOf, algOf]
      rw [Props.C17_XXH64_canonical_bigEndian] at e2
      refine congrArg some (decide_eq_decide.mpr ?_)
      constructor
      · rintro rfl; exact e2.symm
      · intro he
        have := Props.C17_XXH64_roundtrip (cfg := env.cfg) (cfg' := env.cfg) hE.cfg (Spec.XXH3.XXH3_64 msg) env.canon
        rw [Props.C17_XXH64_canonical_bigEndian, ← he, e1] at this
        simpa using this.symm
  | xxh128 =>
    have h1 := XXH3P.digest128_repr hE.cfg hr hl
    rw [Props.value128_eq] at h1
    have h1 : Model.XXH3.bits128_digest env.cfg st.s3 = some (Spec.XXH3.XXH3_128 msg) := h1
    refine ⟨_, by simp only [finalHash, h1]; rfl, ?_, ?_⟩
    · simp [canonicalOf, Props.C17_XXH128_canonical_bigEndian, Spec.Cli.hashOf, algOf]
    · intro c hc
      obtain ⟨h, e1, e2⟩ := Props.C17_XXH128_roundtrip' (cfg' := env.cfg) hE.cfg ⟨env.canon, c⟩ hc
      simp only [hashMatches, e1, Option.bind_eq_bind, Option.bind_some, Spec.Cli.hashOf, algOf]
      rw [Props.C17_XXH128_canonical_bigEndian] at e2
      refine congrArg some (decide_eq_decide.mpr ?_)
      rw [Props.C18_isEqual]
      have hiff : ∀ x y : H128, ((if x = y then (1 : Int) else 0) ≠ 0) ↔ x = y := by
        intro x y; split <;> simp [*]
      rw [hiff]
      constructor
      · rintro rfl; exact e2.symm
      · intro he
        have := Props.C17_XXH128_roundtrip (cfg := env.cfg) (cfg' := env.cfg) hE.cfg (Spec.XXH3.XXH3_128 msg) env.canon
        rw [Props.C17_XXH128_canonical_bigEndian, ← he, e1] at this
        simpa using this.symm

/-- Hashing a stream. -/
theorem hashStream_eq {env : Env} (hE : EnvOk env) (f : Stream) (a : Algo) (hl : f.data.length < 2 ^ 64) :
    (f.fail = true ∧ hashStream env f a (64 * 1024) = .exit 1) ∨
    (f.fail = false ∧ ∃ h f', hashStream env f a (64 * 1024) = .ok (h, f') ∧ f'.data = [] ∧ f'.fail = false ∧
      canonicalOf env a h = some (Spec.Cli.hashOf (algOf a) f.data) ∧
      ∀ c : List Byte, c.length = algoLength a →
        hashMatches env a h c = some (decide (c = Spec.Cli.hashOf (algOf a) f.data))) := by
  obtain ⟨st0, e0, r0⟩ := initStates_eq hE a
  obtain ⟨st1, f', e1, r1, d1, g1⟩ := hashLoop_eq hE (f.data.length + 1) f st0 [] r0 (by omega)
  rw [List.nil_append] at r1
  have hfe : f'.ferror = f.fail := by simp [Stream.ferror, d1, g1]
  have hform : hashStream env f a (64 * 1024) = (if f.fail then Res.exit 1 else
      (Res.of (finalHash env a st1) >>= fun h => pure (h, f'))) := by
    unfold hashStream
    rw [e0, of_some_bind, e1, of_some_bind]
    show (if f'.ferror = true then _ else _) = _
    rw [hfe]
    cases f.fail <;> rfl
  cases hf : f.fail with
  | true => left; refine ⟨rfl, ?_⟩; rw [hform, hf]; rfl
  | false =>
    right
    obtain ⟨h, e2, e3, e4⟩ := finalHash_eq hE r1 hl
    refine ⟨rfl, h, f', ?_, d1, g1.trans hf, e3, e4⟩
    rw [hform, hf, e2]
    rfl

theorem hashOf_length (a : Algo) (msg : List Byte) : (Spec.Cli.hashOf (algOf a) msg).length = algoLength a := by
  cases a <;> simp [Spec.Cli.hashOf, algOf, algoLength, beBytes_length]

end XXH.CliP
