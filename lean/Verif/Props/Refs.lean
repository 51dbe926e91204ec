import Verif.Model.Refs
import Verif.Props.XXH3Stream
/-!
**C60.** XXH3 streaming in a program that reuses its memory: inputs may be changed or released as soon as a call returns; a
secret must be left alone from the reset to the last digest, also for the sake of copies of the state.
-/
namespace XXH.Props
open Model Model.Refs Examples
open Model.XXH3 (State)

/-- The reset with the secret as it is in memory. -/
def argOf (mem : Memory) : Reset → Option ResetArg
  | .default => some .default
  | .seed sd => some (.seed sd)
  | .secret p size => do return .secret (← viewPtr mem p size) size
  | .secretAndSeed p size sd => do return .secretAndSeed (← viewPtr mem p size) size sd

/-- Where the secret is. -/
def placeOf : Reset → Option Addr
  | .default => none
  | .seed _ => none
  | .secret p _ => p
  | .secretAndSeed p _ _ => p

/-- What the program knows of a state it uses properly: how it was reset (with the bytes the secret had then), where the
secret is, and the bytes fed since. -/
structure Entry where
  arg : ResetArg
  place : Option Addr
  msg : List Byte

/-- The secret of the caller is still there, with the bytes it had at the reset. -/
def Intact (mem : Memory) (en : Entry) : Prop :=
  match en.arg with
  | .default => True
  | .seed _ => True
  | .secret q size => ∃ p b, en.place = some p ∧ view mem p size = some b ∧ b.bytes = contents q
  | .secretAndSeed q size _ => ∃ p b, en.place = some p ∧ view mem p size = some b ∧ b.bytes = contents q

/-- The specified result of a digest. -/
def answerOf (a : ResetArg) (msg : List Byte) : Refs.Width → W64 ⊕ H128
  | .bits64 => .inl (a.spec64 msg)
  | .bits128 => .inr (a.spec128 msg)

/-- `Legal cfg mem A cmds evs`: with memory `mem` and states `A` the program `cmds` keeps to the documentation, and the
documentation promises the answers `evs`. Memory may change in any way between the calls; a call of `update` or `digest`
needs the secret intact, a reset does not care about the previous secret. -/
inductive Legal (cfg : Cfg) : Memory → (Nat → Option Entry) → List Cmd → List Answer → Prop where
  | nil {mem A} : Legal cfg mem A [] []
  | reset {mem A i a v cmds evs} : argOf mem a = some v → v.Ok cfg →
      Legal cfg mem (setAt A i (some ⟨v, placeOf a, []⟩)) cmds evs →
      Legal cfg mem A (.reset i a :: cmds) (.code .ok :: evs)
  | refused {mem A i p size sd cmds evs} : p = none ∨ size < 136 → Legal cfg mem A cmds evs →
      Legal cfg mem A (.reset i (.secretAndSeed p size sd) :: cmds) (.code .error :: evs)
  | lost {mem A i size cmds evs} : 136 ≤ size → Legal cfg mem (setAt A i none) cmds evs →
      Legal cfg mem A (.reset i (.secret none size) :: cmds) (.code .error :: evs)
  | update {mem A i en p len q cmds evs} : A i = some en → Intact mem en → viewPtr mem p len = some q →
      Readable cfg q len → en.msg.length + len < 2^64 →
      Legal cfg mem (setAt A i (some { en with msg := en.msg ++ contents q })) cmds evs →
      Legal cfg mem A (.update i p len :: cmds) (.code .ok :: evs)
  | digest {mem A i en k cmds evs} : A i = some en → Intact mem en → Legal cfg mem A cmds evs →
      Legal cfg mem A (.digest i k :: cmds) (.hash (answerOf en.arg en.msg k) :: evs)
  | copy {mem A d s cmds evs} : Legal cfg mem (setAt A d (A s)) cmds evs →
      Legal cfg mem A (.copy d s :: cmds) (.void :: evs)
  | memory {mem mem' A cmds evs} : Legal cfg mem' A cmds evs → Legal cfg mem A (.memory mem' :: cmds) (.void :: evs)

/-! ### The invariant -/

/-- `XXH3P.Fresh` without regard to what the secret is. -/
structure FreshR (r : RState) : Prop where
  typed : r.fields.Typed
  cached : r.ext = .null → r.fields.seed ≠ 0 → r.fields.customSecret = Spec.XXH3.deriveSecret r.fields.seed

theorem FreshR.load {r : RState} (h : FreshR r) (cfg : Cfg) (mem : Memory) : XXH3P.Fresh (load cfg mem r) := by
  refine ⟨⟨h.typed.align, h.typed.custom, h.typed.buffer⟩, fun h0 => h.cached ?_⟩
  unfold Refs.load at h0
  cases he : r.ext with
  | null => rfl
  | builtin => rw [he] at h0; cases h0
  | caller p => rw [he] at h0; cases h0

/-- The pointer of the state, the pointer the program remembers, and what a state with a value for the pointer has. -/
inductive Matches (cfg : Cfg) (en : Entry) : ExtSecret → Ptr → Prop where
  | null : (en.arg = .default ∨ ∃ sd, en.arg = .seed sd) → Matches cfg en .null none
  | builtin : (en.arg = .default ∨ ∃ sd, en.arg = .seed sd) → Matches cfg en .builtin (some (Model.XXH3.kSecret cfg))
  | caller {p : Addr} {b : Buf} {q : Ptr} {size : Nat} : en.place = some p →
      (en.arg = .secret q size ∨ ∃ sd, en.arg = .secretAndSeed q size sd) → b.bytes = contents q →
      (contents q).length = size → Matches cfg en (.caller p) (some b)

/-- A state that was reset and fed. -/
structure RepR (cfg : Cfg) (en : Entry) (r : RState) : Prop where
  fresh : FreshR r
  ex : ∃ e, XXH3P.Repr en.arg.secretOf en.arg.seedOf en.msg { r.fields with extSecret := e } ∧ Matches cfg en r.ext e
  len : en.msg.length < 2^64

/-- The secret may be anywhere: only its bytes matter. -/
theorem repr_swap {sec : List Byte} {us : Option W64} {msg : List Byte} {s : State} {b b' : Buf}
    (h : XXH3P.Repr sec us msg { s with extSecret := some b }) (hb : b'.bytes = sec) :
    XXH3P.Repr sec us msg { s with extSecret := some b' } := by
  obtain ⟨k, hB⟩ := h.buffered
  refine ⟨⟨⟨h.params.typed.align, h.params.typed.custom, h.params.typed.buffer⟩, ?_, h.params.secLen, h.params.limit,
    h.params.perBlock⟩, ⟨k, ⟨hB.acc, hB.soFar, hB.size, hB.le, hB.data, hB.pos, hB.tail⟩⟩, h.total, h.useSeed, h.seed,
    ⟨⟨h.params.typed.align, h.params.typed.custom, h.params.typed.buffer⟩, fun h0 => by cases h0⟩⟩
  subst hb
  exact Holds.self _

theorem load_repr {cfg : Cfg} {en : Entry} {r : RState} (h : RepR cfg en r) {mem : Memory} (hi : Intact mem en) :
    XXH3P.Repr en.arg.secretOf en.arg.seedOf en.msg (load cfg mem r) := by
  obtain ⟨e, h1, h2⟩ := h.ex
  unfold load
  cases hr : r.ext with
  | null =>
    rw [hr] at h2
    cases h2
    exact h1
  | builtin =>
    rw [hr] at h2
    cases h2
    exact h1
  | caller p =>
    rw [hr] at h2
    cases h2 with
    | caller hp ha hb hl =>
      rename_i b q size
      have hsec : en.arg.secretOf = contents q := by
        rcases ha with ha | ⟨sd, ha⟩ <;> rw [ha] <;> rfl
      have hint : ∃ b', view mem p size = some b' ∧ b'.bytes = contents q := by
        unfold Intact at hi
        rcases ha with ha | ⟨sd, ha⟩
        · rw [ha] at hi
          obtain ⟨p', b', h3, h4, h5⟩ := hi
          rw [hp] at h3
          cases h3
          exact ⟨b', h4, h5⟩
        · rw [ha] at hi
          obtain ⟨p', b', h3, h4, h5⟩ := hi
          rw [hp] at h3
          cases h3
          exact ⟨b', h4, h5⟩
      obtain ⟨b', h4, h5⟩ := hint
      have hlim : r.fields.secretLimit + 64 = size := by
        have h6 : r.fields.secretLimit = en.arg.secretOf.length - 64 := h1.params.limit
        have h7 := h1.params.secLen
        rw [hsec] at h6 h7
        omega
      show XXH3P.Repr en.arg.secretOf en.arg.seedOf en.msg
        { r.fields with extSecret := some ((view mem p (r.fields.secretLimit + 64)).getD ⟨0, []⟩) }
      rw [hlim, h4]
      exact repr_swap h1 (by rw [Option.getD_some, h5, hsec])

theorem freshR_of {s : State} {e : ExtSecret} (h : XXH3P.Fresh s) (he : e = .null → s.extSecret = none) : FreshR ⟨s, e⟩ :=
  ⟨h.typed, fun h0 => h.cached (he h0)⟩

/-! ### Calls -/

/-- A reset of `reset_internal` with another pointer gives the same fields. -/
theorem reset_internal_ext (s : State) (seed : W64) (q q' : Ptr) (size : Nat) {s' : State}
    (h : Model.XXH3.reset_internal (some s) seed q size = some s') :
    Model.XXH3.reset_internal (some s) seed q' size = some { s' with extSecret := q' } := by
  unfold Model.XXH3.reset_internal at h ⊢
  simp only [Option.bind_eq_bind, Option.bind_some] at h ⊢
  cases ha : assert (decide (Model.XXH3.SECRET_SIZE_MIN ≤ size)) with
  | none => rw [ha] at h; cases h
  | some u =>
    rw [ha] at h
    simp only [Option.bind_some] at h ⊢
    cases h
    rfl

theorem internal_size {s : State} {seed : W64} {q : Ptr} {size : Nat} (h : 136 ≤ size) :
    ∃ s', Model.XXH3.reset_internal (some s) seed q size = some s' := by
  unfold Model.XXH3.reset_internal
  rw [show assert (decide (Model.XXH3.SECRET_SIZE_MIN ≤ size)) = some () from XXH3P.assert_of (decide_eq_true h)]
  exact ⟨_, rfl⟩

theorem resetR_ok {cfg : Cfg} (hc : cfg.Valid) {mem : Memory} {r : RState} (hF : FreshR r) {a : Reset} {v : ResetArg}
    (hv : argOf mem a = some v) (hok : v.Ok cfg) :
    ∃ r', Refs.reset cfg mem r a = some (r', .ok) ∧ RepR cfg ⟨v, placeOf a, []⟩ r' := by
  have hF' := hF.load cfg mem
  obtain ⟨s', h1, h2⟩ := reset_call_repr hc hF'.typed hok (fun _ _ => hF')
  cases a with
  | default =>
    cases hv
    have h1' : Model.XXH3.reset cfg (some (load cfg mem r)) = some (some s', .ok) := h1
    refine ⟨⟨s', .builtin⟩, ?_, freshR_of h2.fresh nofun, ⟨_, h2, ?_⟩, Nat.two_pow_pos 64⟩
    · simp only [Refs.reset, h1', Option.bind_eq_bind, Option.bind_some]
      rfl
    · have : s'.extSecret = some (Model.XXH3.kSecret cfg) := by
        have h3 := h1'
        unfold Model.XXH3.reset at h3
        obtain ⟨s'', h4⟩ := internal_size (s := load cfg mem r) (seed := 0) (q := some (Model.XXH3.kSecret cfg))
          (size := Model.XXH3.SECRET_DEFAULT_SIZE) (by decide)
        have h5 := reset_internal_ext _ _ _ (some (Model.XXH3.kSecret cfg)) _ h4
        rw [h4] at h5
        rw [h4] at h3
        simp at h3 h5
        rw [← h3, h5]
      rw [this]
      exact .builtin (.inl rfl)
  | seed sd =>
    cases hv
    have h1' : Model.XXH3.reset_withSeed cfg (some (load cfg mem r)) sd = some (some s', .ok) := h1
    have he : s'.extSecret = if sd = 0 then some (Model.XXH3.kSecret cfg) else none := by
      have h3 := h1'
      unfold Model.XXH3.reset_withSeed at h3
      simp only at h3
      split at h3
      · rename_i h0
        rw [if_pos h0]
        unfold Model.XXH3.reset at h3
        obtain ⟨s'', h4⟩ := internal_size (s := load cfg mem r) (seed := 0) (q := some (Model.XXH3.kSecret cfg))
          (size := Model.XXH3.SECRET_DEFAULT_SIZE) (by decide)
        have h5 := reset_internal_ext _ _ _ (some (Model.XXH3.kSecret cfg)) _ h4
        rw [h4] at h5
        rw [h4] at h3
        simp at h3 h5
        rw [← h3, h5]
      · rename_i h0
        rw [if_neg h0]
        have h3 : ∃ cu, (do
            let s ← Model.XXH3.reset_internal (some { load cfg mem r with customSecret := cu }) sd none
              Model.XXH3.SECRET_DEFAULT_SIZE
            return (some s, Err.ok)) = some (some s', Err.ok) := by
          simp only [Option.bind_eq_bind] at h3
          split at h3
          · rw [Option.bind_eq_some_iff] at h3
            obtain ⟨cu, -, h3⟩ := h3
            exact ⟨cu, h3⟩
          · exact ⟨_, h3⟩
        obtain ⟨cu, h3⟩ := h3
        obtain ⟨s'', h4⟩ := internal_size (s := { load cfg mem r with customSecret := cu }) (seed := sd) (q := none)
          (size := Model.XXH3.SECRET_DEFAULT_SIZE) (by decide)
        have h5 := reset_internal_ext _ _ _ none _ h4
        rw [h4] at h5
        rw [h4] at h3
        simp at h3 h5
        rw [← h3, h5]
    refine ⟨⟨s', if sd = 0 then .builtin else .null⟩, ?_, freshR_of h2.fresh (fun h0 => ?_), ⟨_, h2, ?_⟩, Nat.two_pow_pos 64⟩
    · simp only [Refs.reset, h1', Option.bind_eq_bind, Option.bind_some]
      rfl
    · by_cases h : sd = 0
      · rw [if_pos h] at h0; cases h0
      · rw [he, if_neg h]
    · rw [he]
      by_cases h : sd = 0
      · rw [if_pos h, if_pos h]; exact .builtin (.inr ⟨sd, rfl⟩)
      · rw [if_neg h, if_neg h]; exact .null (.inr ⟨sd, rfl⟩)
  | secret p size =>
    cases p with
    | none =>
      cases hv
      have h3 : (contents none).length = size := hok.1.length
      have h4 : 136 ≤ size := hok.2
      simp [contents, Ptr.buf] at h3
      omega
    | some p =>
      simp only [argOf, viewPtr, Option.bind_eq_bind, Option.bind_eq_some_iff, Option.pure_def, Option.some.injEq] at hv
      obtain ⟨q, ⟨b, hb, rfl⟩, rfl⟩ := hv
      have hs : 136 ≤ size := hok.2
      obtain ⟨si, h3⟩ := internal_size (s := load cfg mem r) (seed := 0) (q := some b) hs
      have h4 := reset_internal_ext _ _ _ (some ⟨0, []⟩) _ h3
      have hns : ¬ size < Model.XXH3.SECRET_SIZE_MIN := by unfold Model.XXH3.SECRET_SIZE_MIN; omega
      have h1' : Model.XXH3.reset_withSecret (some (load cfg mem r)) (some b) size = some (some s', .ok) := h1
      have h5 : si = s' := by
        unfold Model.XXH3.reset_withSecret at h1'
        rw [h3] at h1'
        simp [hns] at h1'
        exact h1'
      subst h5
      refine ⟨⟨{ si with extSecret := some ⟨0, []⟩ }, .caller p⟩, ?_,
        ⟨⟨h2.fresh.typed.align, h2.fresh.typed.custom, h2.fresh.typed.buffer⟩, nofun⟩,
        ⟨some b, ?_, .caller rfl (.inl rfl) rfl hok.1.length⟩, Nat.two_pow_pos 64⟩
      · simp only [Refs.reset, Model.XXH3.reset_withSecret, opaquePtr, Option.map_some]
        rw [h4]
        simp [hns, Reset.ext]
      · have h6 := reset_internal_ext _ _ _ (some b) _ h3
        rw [h3] at h6
        simp only [Option.some.injEq] at h6
        show XXH3P.Repr _ _ [] { si with extSecret := some b }
        rw [← h6]
        exact h2
  | secretAndSeed p size sd =>
    cases p with
    | none =>
      cases hv
      have h3 : (contents none).length = size := hok.1.length
      have h4 : 136 ≤ size := hok.2
      simp [contents, Ptr.buf] at h3
      omega
    | some p =>
      simp only [argOf, viewPtr, Option.bind_eq_bind, Option.bind_eq_some_iff, Option.pure_def, Option.some.injEq] at hv
      obtain ⟨q, ⟨b, hb, rfl⟩, rfl⟩ := hv
      have hs : 136 ≤ size := hok.2
      obtain ⟨si, h3⟩ := internal_size (s := load cfg mem r) (seed := sd) (q := some b) hs
      have h4 := reset_internal_ext _ _ _ (some ⟨0, []⟩) _ h3
      have hns : ¬ size < Model.XXH3.SECRET_SIZE_MIN := by unfold Model.XXH3.SECRET_SIZE_MIN; omega
      have h1' : Model.XXH3.reset_withSecretandSeed (some (load cfg mem r)) (some b) size sd = some (some s', .ok) := h1
      have h5 : { si with useSeed := true } = s' := by
        simp [Model.XXH3.reset_withSecretandSeed, h3, hns] at h1'
        exact h1'
      subst h5
      refine ⟨⟨{ si with extSecret := some ⟨0, []⟩, useSeed := true }, .caller p⟩, ?_,
        ⟨⟨h2.fresh.typed.align, h2.fresh.typed.custom, h2.fresh.typed.buffer⟩, nofun⟩,
        ⟨some b, ?_, .caller rfl (.inr ⟨sd, rfl⟩) rfl hok.1.length⟩, Nat.two_pow_pos 64⟩
      · simp [Refs.reset, Model.XXH3.reset_withSecretandSeed, opaquePtr, h4, hns, Reset.ext]
      · have h6 := reset_internal_ext _ _ _ (some b) _ h3
        rw [h3] at h6
        simp only [Option.some.injEq] at h6
        show XXH3P.Repr _ _ [] { si with extSecret := some b, useSeed := true }
        rw [show ({ si with extSecret := some b, useSeed := true } : State) =
          { ({ si with extSecret := some b } : State) with useSeed := true } from rfl, ← h6]
        exact h2

theorem resetR_refused {cfg : Cfg} {mem : Memory} {r : RState} {p : Option Addr} {size : Nat} {sd : W64}
    (h : p = none ∨ size < 136) : Refs.reset cfg mem r (.secretAndSeed p size sd) = some (r, .error) := by
  have hs : p = none ∨ size < Model.XXH3.SECRET_SIZE_MIN := h
  cases p with
  | none => simp [Refs.reset, Model.XXH3.reset_withSecretandSeed, opaquePtr]
  | some p =>
    have hs : size < Model.XXH3.SECRET_SIZE_MIN := hs.resolve_left nofun
    simp [Refs.reset, Model.XXH3.reset_withSecretandSeed, opaquePtr, hs]

theorem resetR_lost {cfg : Cfg} {mem : Memory} {r : RState} (hF : FreshR r) {size : Nat} (h : 136 ≤ size) :
    ∃ r', Refs.reset cfg mem r (.secret none size) = some (r', .error) ∧ FreshR r' := by
  obtain ⟨si, h3⟩ := internal_size (s := load cfg mem r) (seed := 0) (q := none) h
  refine ⟨⟨si, .null⟩, ?_, ?_⟩
  · simp only [Refs.reset, Model.XXH3.reset_withSecret, opaquePtr, Option.map_none]
    rw [h3]
    simp [Reset.ext]
  · have hF' := hF.load cfg mem
    unfold Model.XXH3.reset_internal at h3
    rw [show assert (decide (Model.XXH3.SECRET_SIZE_MIN ≤ size)) = some () from XXH3P.assert_of (decide_eq_true h)] at h3
    simp at h3
    subst h3
    exact ⟨⟨hF'.typed.align, hF'.typed.custom, hF'.typed.buffer⟩, fun _ h0 => absurd rfl h0⟩

/-- What an update leaves alone. -/
theorem update_ext {cfg : Cfg} (hc : cfg.Valid) {sec msg : List Byte} {us : Option W64} {s s' : State} {p : Ptr} {len : Nat}
    (h : XXH3P.Repr sec us msg s) (hp : Readable cfg p len)
    (hu : Model.XXH3.bits64_update cfg s p len = some (s', .ok)) : s'.extSecret = s.extSecret := by
  cases p with
  | none =>
    have hl : len = 0 := hp.length.symm
    subst hl
    simp [Model.XXH3.bits64_update, Model.XXH3.update, assert] at hu
    rw [← hu]
  | some b =>
    have hl : b.bytes.length = len := hp.length
    subst hl
    obtain ⟨k, hB⟩ := h.buffered
    obtain ⟨k', acc, buf, n, m, h1, h2, h3⟩ := XXH3P.update_some_eq (cfg := cfg) hc (accOK hc) (scrOK hc) h.params rfl hB
    unfold Model.XXH3.bits64_update at hu
    rw [h2] at hu
    simp only [Option.some.injEq, Prod.mk.injEq, and_true] at hu
    rw [← hu]

theorem updateR_ok {cfg : Cfg} (hc : cfg.Valid) {mem : Memory} {r : RState} {en : Entry} (h : RepR cfg en r)
    (hi : Intact mem en) {p : Option Addr} {len : Nat} {q : Ptr} (hq : viewPtr mem p len = some q) (hp : Readable cfg q len)
    (hl : en.msg.length + len < 2^64) :
    ∃ r', Refs.update cfg mem r p len = some (r', .ok) ∧ RepR cfg { en with msg := en.msg ++ contents q } r' := by
  have h0 := load_repr h hi
  obtain ⟨s', h1, h2⟩ := update_call_repr hc h0 hp
  have h3 := update_ext hc h0 hp h1
  refine ⟨⟨s', r.ext⟩, ?_, ?_, ?_, ?_⟩
  · simp [Refs.update, hq, h1]
  · refine freshR_of h2.fresh fun he => ?_
    rw [h3]
    unfold load
    rw [he]
  · refine ⟨s'.extSecret, h2, ?_⟩
    rw [h3]
    obtain ⟨e, -, hm⟩ := h.ex
    unfold load
    cases hr : r.ext with
    | null =>
      rw [hr] at hm
      cases hm with
      | null ha => exact .null ha
    | builtin =>
      rw [hr] at hm
      cases hm with
      | builtin ha => exact .builtin ha
    | caller a =>
      rw [hr] at hm
      cases hm with
      | caller hpl ha hb hlen =>
        rename_i b q' size
        refine .caller hpl ha ?_ hlen
        have hlim : r.fields.secretLimit + 64 = size := by
          have h6 : r.fields.secretLimit = en.arg.secretOf.length - 64 := h0.params.limit
          have h7 := h0.params.secLen
          have hsec : en.arg.secretOf = contents q' := by
            rcases ha with ha | ⟨sd, ha⟩ <;> rw [ha] <;> rfl
          rw [hsec] at h6 h7
          omega
        rw [hlim]
        unfold Intact at hi
        rcases ha with ha | ⟨sd, ha⟩
        all_goals
          rw [ha] at hi
          obtain ⟨p', b', h4, h5, h6⟩ := hi
          rw [hpl] at h4
          cases h4
          rw [h5]
          exact h6
  · show (en.msg ++ contents q).length < 2^64
    rw [List.length_append, hp.length]
    exact hl

theorem digestR_ok {cfg : Cfg} (hc : cfg.Valid) {mem : Memory} {r : RState} {en : Entry} (h : RepR cfg en r)
    (hi : Intact mem en) (k : Refs.Width) : Refs.digest cfg mem r k = some (answerOf en.arg en.msg k) := by
  have h0 := load_repr h hi
  cases k with
  | bits64 =>
    show (do return Sum.inl (← Model.XXH3.bits64_digest cfg (load cfg mem r))) = _
    rw [XXH3P.digest64_repr hc h0 h.len, value64_eq]
    rfl
  | bits128 =>
    show (do return Sum.inr (← Model.XXH3.bits128_digest cfg (load cfg mem r))) = _
    rw [XXH3P.digest128_repr hc h0 h.len, value128_eq]
    rfl

theorem copyR_fresh {d s : RState} (hd : FreshR d) (hs : FreshR s) : FreshR (Refs.copyState d s) :=
  ⟨⟨hd.typed.align, hs.typed.custom, hs.typed.buffer⟩, hs.cached⟩

theorem copyR_ok {cfg : Cfg} {d s : RState} {en : Entry} (hd : FreshR d) (h : RepR cfg en s) :
    RepR cfg en (Refs.copyState d s) := by
  obtain ⟨e, h1, h2⟩ := h.ex
  refine ⟨copyR_fresh hd h.fresh, ⟨e, ?_, h2⟩, h.len⟩
  have hd' : XXH3P.Fresh ({ d.fields with extSecret := some ⟨0, []⟩ } : State) :=
    ⟨⟨hd.typed.align, hd.typed.custom, hd.typed.buffer⟩, fun h => by cases h⟩
  exact h1.copy hd'

/-! ### Programs -/

/-- **C60.** For every program that keeps to the documentation, with any number of states and any changes of its memory
between the calls: every call is defined, and every digest is the specified hash of the bytes that were behind the pointers
when they were fed, with the secret as it was at the reset. -/
theorem C60_program {cfg : Cfg} (hc : cfg.Valid) {mem : Memory} {A : Nat → Option Entry} {cmds : List Cmd} {evs : List Answer}
    (hl : Legal cfg mem A cmds evs) (hA : ∀ i, A i = none) (heap : Nat → RState)
    (hheap : ∀ i, (heap i).fields.Typed ∧ (heap i).ext = .null ∧ (heap i).fields.seed = 0) :
    run cfg mem heap cmds = some evs := by
  suffices ∀ heap, (∀ i, FreshR (heap i)) → (∀ i en, A i = some en → RepR cfg en (heap i)) → run cfg mem heap cmds = some evs from
    this heap (fun i => ⟨(hheap i).1, fun _ h0 => absurd (hheap i).2.2 h0⟩) (fun i en h => by rw [hA i] at h; cases h)
  clear hA hheap heap
  induction hl with
  | nil => intro heap _ _; rfl
  | reset hv hok _ ih =>
    rename_i i _ _ _ _ _
    intro heap hf hA
    obtain ⟨r', h1, h2⟩ := resetR_ok hc (hf i) hv hok
    simp only [run, h1, Option.bind_eq_bind, Option.bind_some]
    rw [ih]
    · rfl
    · intro j; unfold put; split
      · exact h2.fresh
      · exact hf j
    · intro j en; unfold put setAt; split
      · intro h; cases h; exact h2
      · exact hA j en
  | refused h _ ih =>
    rename_i i _ _ _ _ _ _
    intro heap hf hA
    simp only [run, resetR_refused h, Option.bind_eq_bind, Option.bind_some]
    have e : put heap i (heap i) = heap := by
      funext j; unfold put; split
      · rename_i h; rw [h]
      · rfl
    rw [e, ih heap hf hA]; rfl
  | lost h _ ih =>
    rename_i i _ _ _ _
    intro heap hf hA
    obtain ⟨r', h1, h2⟩ := resetR_lost (cfg := cfg) (hf i) h
    rw [run, h1]
    simp only [Option.bind_eq_bind, Option.bind_some]
    rw [ih]
    · rfl
    · intro j; unfold put; split
      · exact h2
      · exact hf j
    · intro j en; unfold put setAt; split
      · intro h; cases h
      · exact hA j en
  | update hAi hi hq hp hlen _ ih =>
    rename_i i _ _ _ _ _ _ _
    intro heap hf hA
    obtain ⟨r', h1, h2⟩ := updateR_ok hc (hA _ _ hAi) hi hq hp hlen
    simp only [run, h1, Option.bind_eq_bind, Option.bind_some]
    rw [ih]
    · rfl
    · intro j; unfold put; split
      · exact h2.fresh
      · exact hf j
    · intro j en; unfold put setAt; split
      · intro h; cases h; exact h2
      · exact hA j en
  | digest hAi hi _ ih =>
    intro heap hf hA
    simp only [run, digestR_ok hc (hA _ _ hAi) hi, Option.bind_eq_bind, Option.bind_some]
    rw [ih heap hf hA]; rfl
  | copy _ ih =>
    rename_i d s _ _ _
    intro heap hf hA
    simp only [run, Option.bind_eq_bind]
    rw [ih]
    · rfl
    · intro j; unfold put; split
      · exact copyR_fresh (hf d) (hf s)
      · exact hf j
    · intro j en; unfold put setAt; split
      · intro h; exact copyR_ok (hf d) (hA s en h)
      · exact hA j en
  | memory _ ih =>
    intro heap hf hA
    simp only [run, Option.bind_eq_bind]
    rw [ih heap hf hA]; rfl

/-! ### When the secret is read -/

/-- One call of `update` with the memory as it is then. -/
structure Feed where
  mem : Memory
  at_ : Option Addr
  len : Nat

/-- Feed everything to state 0, with any change of memory before each call. -/
def feedAll : List Feed → List Cmd
  | [] => []
  | f :: fs => .memory f.mem :: .update 0 f.at_ f.len :: feedAll fs

/-- Its answers. -/
def feedAnswers : List Feed → List Answer
  | [] => []
  | _ :: fs => .void :: .code .ok :: feedAnswers fs

/-- All inputs can be read at the times of the calls, and together they are `msg`. -/
def fed (cfg : Cfg) : List Feed → List Byte → Prop
  | [], msg => msg = []
  | f :: fs, msg => ∃ q rest, viewPtr f.mem f.at_ f.len = some q ∧ Readable cfg q f.len ∧ fed cfg fs rest ∧
      msg = contents q ++ rest

/-- While everything fits the buffer of 256 bytes, an update does not look at the secret. -/
theorem update_small (cfg : Cfg) {s : State} {p : Ptr} {len : Nat} (h : s.bufferedSize.toNat + len ≤ 256) (e : Ptr) {s' : State}
    (hu : Model.XXH3.bits64_update cfg s p len = some (s', .ok)) :
    Model.XXH3.bits64_update cfg { s with extSecret := e } p len = some ({ s' with extSecret := e }, .ok) := by
  unfold Model.XXH3.bits64_update Model.XXH3.update at hu ⊢
  cases p with
  | none =>
    simp only [Option.bind_eq_bind, Option.bind_eq_some_iff] at hu
    obtain ⟨_, h1, h2⟩ := hu
    simp only [Option.pure_def, Option.some.injEq, Prod.mk.injEq, and_true] at h2
    subst h2
    simp only [h1, Option.bind_eq_bind, Option.bind_some]
    rfl
  | some b =>
    have hb : s.bufferedSize.toNat ≤ Model.XXH3.INTERNALBUFFER_SIZE := by
      show _ ≤ 256; omega
    have hl : len ≤ Model.XXH3.INTERNALBUFFER_SIZE - s.bufferedSize.toNat := by
      show _ ≤ 256 - _; omega
    simp only [XXH3P.assert_of (decide_eq_true hb), if_pos hl, Option.bind_eq_bind, Option.bind_some,
      Option.bind_eq_some_iff] at hu ⊢
    obtain ⟨d, h1, w, h2, h3⟩ := hu
    simp only [Option.pure_def, Option.some.injEq, Prod.mk.injEq, and_true] at h3
    subst h3
    exact ⟨d, h1, w, h2, rfl⟩

/-- A state with a secret of the caller that has not been read yet. -/
structure Unread (r : RState) (p : Addr) (size : Nat) (us : Option W64) (msg : List Byte) : Prop where
  ext : r.ext = .caller p
  le : msg.length ≤ 256
  big : 136 ≤ size
  repr : ∀ b : Buf, b.bytes.length = size → XXH3P.Repr b.bytes us msg { r.fields with extSecret := some b }

theorem Unread.update {cfg : Cfg} (hc : cfg.Valid) {r : RState} {p : Addr} {size : Nat} {us : Option W64} {msg : List Byte}
    (h : Unread r p size us msg) {mem : Memory} {x : Option Addr} {len : Nat} {q : Ptr} (hq : viewPtr mem x len = some q)
    (hp : Readable cfg q len) (hl : msg.length + len ≤ 256) :
    ∃ r', Refs.update cfg mem r x len = some (r', .ok) ∧ Unread r' p size us (msg ++ contents q) := by
  have h0 := h.repr ⟨0, List.replicate size 0⟩ List.length_replicate
  obtain ⟨s', h1, -⟩ := XXH3P.update_repr (cfg := cfg) hc (accOK hc) (scrOK hc) h0 hp.length
  obtain ⟨k, hB⟩ := h0.buffered
  have hsz : k * 64 + r.fields.bufferedSize.toNat = msg.length := hB.size
  have hle : r.fields.bufferedSize.toNat + len ≤ 256 := by omega
  have hload : load cfg mem r = { r.fields with extSecret := (load cfg mem r).extSecret } := rfl
  have h2 : ∀ e, Model.XXH3.bits64_update cfg { r.fields with extSecret := e } q len = some ({ s' with extSecret := e }, .ok) :=
    fun e => update_small cfg (s := { r.fields with extSecret := some ⟨0, List.replicate size 0⟩ }) hle e h1
  refine ⟨⟨{ s' with extSecret := (load cfg mem r).extSecret }, r.ext⟩, ?_, h.ext, ?_, h.big, fun b hb => ?_⟩
  · have h3 : Model.XXH3.bits64_update cfg (load cfg mem r) q len =
        some ({ s' with extSecret := (load cfg mem r).extSecret }, .ok) := by
      rw [hload]; exact h2 _
    simp [Refs.update, hq, h3]
  · rw [List.length_append, hp.length]; exact hl
  · obtain ⟨s2, h4, h5⟩ := XXH3P.update_repr (cfg := cfg) hc (accOK hc) (scrOK hc) (h.repr b hb) hp.length
    have h6 : some ({ s' with extSecret := some b }, Err.ok) = some (s2, Err.ok) := (h2 (some b)).symm.trans h4
    simp only [Option.some.injEq, Prod.mk.injEq, and_true] at h6
    rw [← h6] at h5
    exact h5

theorem Unread.feedAll {cfg : Cfg} (hc : cfg.Valid) {p : Addr} {size : Nat} {us : Option W64} (cmds : List Cmd)
    (evs : List Answer) (fs : List Feed) : ∀ {rest msg : List Byte} {heap : Nat → RState} {mem : Memory},
    Unread (heap 0) p size us msg → fed cfg fs rest → msg.length + rest.length ≤ 256 →
    (∀ heap' mem', Unread (heap' 0) p size us (msg ++ rest) → run cfg mem' heap' cmds = some evs) →
    run cfg mem heap (Props.feedAll fs ++ cmds) = some (feedAnswers fs ++ evs) := by
  induction fs with
  | nil =>
    intro rest msg heap mem h hf _ hk
    cases hf
    rw [List.append_nil] at hk
    exact hk heap mem h
  | cons f fs ih =>
    intro rest msg heap mem h hf hl hk
    obtain ⟨q, rest', hq, hp, hf', rfl⟩ := hf
    rw [List.length_append, hp.length] at hl
    obtain ⟨r', h1, h2⟩ := h.update hc hq hp (by omega)
    simp only [Props.feedAll, feedAnswers, List.cons_append, run, h1, Option.bind_eq_bind, Option.bind_some]
    rw [ih (msg := msg ++ contents q) (rest := rest') (by unfold put; rw [if_pos rfl]; exact h2) hf'
      (by rw [List.length_append, hp.length]; omega) (fun heap' mem' h' => hk heap' mem' (by rw [← List.append_assoc]; exact h'))]
    rfl

theorem unread_reset {cfg : Cfg} {mem : Memory} {r : RState} (ht : r.fields.Typed) {p : Addr} {size : Nat}
    (hs : 136 ≤ size) {a : Reset} {us : Option W64} (ha : a = .secret (some p) size ∧ us = none ∨
      ∃ sd, a = .secretAndSeed (some p) size sd ∧ us = some sd) :
    ∃ r', Refs.reset cfg mem r a = some (r', .ok) ∧ Unread r' p size us [] := by
  have htl : (load cfg mem r).Typed := ⟨ht.align, ht.custom, ht.buffer⟩
  have hns : ¬ size < Model.XXH3.SECRET_SIZE_MIN := by unfold Model.XXH3.SECRET_SIZE_MIN; omega
  rcases ha with ⟨rfl, rfl⟩ | ⟨sd, rfl, rfl⟩
  · obtain ⟨si, h3⟩ := internal_size (s := load cfg mem r) (seed := 0) (q := some ⟨0, []⟩) hs
    refine ⟨⟨si, .caller p⟩, ?_, rfl, by decide, hs, fun b hb => ?_⟩
    · simp only [Refs.reset, Model.XXH3.reset_withSecret, opaquePtr, Option.map_some]
      rw [h3]
      simp [hns, Reset.ext]
    · have h4 := reset_internal_ext _ _ _ (some b) _ h3
      obtain ⟨s', h5, h6⟩ := XXH3P.reset_withSecret_repr htl (q := b) (size := size) hs hb
      unfold Model.XXH3.reset_withSecret at h5
      rw [h4] at h5
      simp [hns] at h5
      rw [← h5] at h6
      exact h6
  · obtain ⟨si, h3⟩ := internal_size (s := load cfg mem r) (seed := sd) (q := some ⟨0, []⟩) hs
    refine ⟨⟨{ si with useSeed := true }, .caller p⟩, ?_, rfl, by decide, hs, fun b hb => ?_⟩
    · simp only [Refs.reset, Model.XXH3.reset_withSecretandSeed, opaquePtr, Option.map_some]
      simp [h3, hns, Reset.ext]
    · have h4 := reset_internal_ext _ _ _ (some b) _ h3
      obtain ⟨s', h5, h6⟩ := XXH3P.reset_withSecretandSeed_repr htl (q := b) (size := size) hs hb sd
      simp [Model.XXH3.reset_withSecretandSeed, h4, hns] at h5
      rw [← h5] at h6
      exact h6

theorem Unread.load {cfg : Cfg} {r : RState} {p : Addr} {size : Nat} {us : Option W64} {msg : List Byte}
    (h : Unread r p size us msg) {mem : Memory} {b : Buf} (hv : view mem p size = some b) (hb : b.bytes.length = size) :
    XXH3P.Repr b.bytes us msg (Refs.load cfg mem r) := by
  have h1 := h.repr b hb
  have h2 : r.fields.secretLimit = b.bytes.length - 64 := h1.params.limit
  have h3 : r.fields.secretLimit + 64 = size := by
    have := h.big
    omega
  have h4 : Refs.load cfg mem r = { r.fields with extSecret := some b } := by
    unfold Refs.load
    rw [h.ext]
    show ({ r.fields with extSecret := some ((view mem p (r.fields.secretLimit + 64)).getD ⟨0, []⟩) } : State) = _
    rw [h3, hv]
    rfl
  rw [h4]
  exact h1

theorem view_length {mem : Memory} {p : Addr} {len : Nat} {b : Buf} (h : view mem p len = some b) : b.bytes.length = len := by
  simp only [view, Option.bind_eq_bind, Option.bind_eq_some_iff, Option.pure_def, Option.some.injEq] at h
  obtain ⟨o, -, u, h1, rfl⟩ := h
  have h2 : p.off + len ≤ o.bytes.length := by
    unfold assert at h1
    split at h1
    · rename_i h; simpa using h
    · cases h1
  rw [List.length_take, List.length_drop]
  omega

/-- **C60.** What pointers mean here: a pointer `d` bytes further on, in the same object, has an address `d` higher, and shows the
bytes from the `d`-th on. -/
theorem C60_pointers {mem : Memory} {k off d n m : Nat} {b c : Buf} (hb : view mem ⟨k, off⟩ n = some b)
    (hc : view mem ⟨k, off + d⟩ m = some c) :
    c.addr = b.addr + d ∧ c.bytes.length = m ∧ ∀ i, d + i < n → i < m → c.bytes[i]? = b.bytes[d + i]? := by
  refine ⟨?_, view_length hc, ?_⟩
  all_goals
    simp only [view, Option.bind_eq_bind, Option.bind_eq_some_iff, Option.pure_def, Option.some.injEq] at hb hc
    obtain ⟨o, ho, u, h1, rfl⟩ := hb
    obtain ⟨o', ho', u', h1', rfl⟩ := hc
    obtain rfl : o = o' := Option.some.inj (ho.symm.trans ho')
  · exact (Nat.add_assoc _ _ _).symm
  · intro i hi hm
    simp only [List.getElem?_take, List.getElem?_drop, if_pos hi, if_pos hm, Nat.add_assoc]

/-- As long as no more than 256 bytes are fed, the secret is not read before the digest: it need not even exist when the
state is reset and fed, and the digest takes it as it is then. -/
theorem C60_secret_late {cfg : Cfg} (hc : cfg.Valid) (heap : Nat → RState) (hheap : ∀ i, (heap i).fields.Typed)
    {p : Addr} {size : Nat} (hs : 136 ≤ size) {fs : List Feed} {msg : List Byte} (hf : fed cfg fs msg)
    (hl : msg.length ≤ 256) (mem : Memory) {mem' : Memory} {b : Buf} (hb : view mem' p size = some b) (k : Refs.Width) :
    run cfg mem heap (.reset 0 (.secret (some p) size) :: (feedAll fs ++ [.memory mem', .digest 0 k])) =
      some (.code .ok :: (feedAnswers fs ++ [.void, .hash (answerOf (.secret (some b) size) msg k)])) := by
  obtain ⟨r', h1, h2⟩ := unread_reset (cfg := cfg) (mem := mem) (p := p) (hheap 0) hs (.inl ⟨rfl, rfl⟩)
  simp only [run, h1, Option.bind_eq_bind, Option.bind_some]
  rw [Unread.feedAll hc [.memory mem', .digest 0 k] [.void, .hash (answerOf (.secret (some b) size) msg k)] fs (msg := [])
    (rest := msg) (by unfold put; rw [if_pos rfl]; exact h2) hf (by simpa using hl)]
  · rfl
  · intro heap' mem'' h3
    have h4 := h3.load (cfg := cfg) hb (view_length hb)
    rw [List.nil_append] at h4
    have hlen : msg.length < 2^64 := by omega
    have h5 : Refs.digest cfg mem' (heap' 0) k = some (answerOf (.secret (some b) size) msg k) := by
      cases k with
      | bits64 =>
        show (do return Sum.inl (← Model.XXH3.bits64_digest cfg (Refs.load cfg mem' (heap' 0)))) = _
        rw [XXH3P.digest64_repr hc h4 hlen]
        exact congrArg (fun x => some (Sum.inl x)) (value64_eq (.secret (some b) size) msg)
      | bits128 =>
        show (do return Sum.inr (← Model.XXH3.bits128_digest cfg (Refs.load cfg mem' (heap' 0)))) = _
        rw [XXH3P.digest128_repr hc h4 hlen]
        exact congrArg (fun x => some (Sum.inr x)) (value128_eq (.secret (some b) size) msg)
    simp only [run, h5, Option.bind_eq_bind, Option.bind_some]
    rfl

theorem digest64_seed {cfg : Cfg} {s : State} (hm : ¬ Model.XXH3.MIDSIZE_MAX < s.totalLen.toNat) (hu : s.useSeed = true) :
    Model.XXH3.bits64_digest cfg s =
      Model.XXH3.XXH3_64bits_withSeed cfg (some s.bufferObj) (cfg.size s.totalLen.toNat) s.seed := by
  unfold Model.XXH3.bits64_digest
  rw [if_neg hm, if_pos hu]

theorem digest128_seed {cfg : Cfg} {s : State} (hm : ¬ Model.XXH3.MIDSIZE_MAX < s.totalLen.toNat) (hu : s.useSeed = true) :
    Model.XXH3.bits128_digest cfg s =
      Model.XXH3.XXH3_128bits_withSeed cfg (some s.bufferObj) (cfg.size s.totalLen.toNat) s.seed := by
  unfold Model.XXH3.bits128_digest
  rw [if_neg hm, if_pos hu]

/-- With a seed besides the secret, the secret is not read at all for messages of up to 240 bytes: it need not exist. -/
theorem C60_seed_short {cfg : Cfg} (hc : cfg.Valid) (heap : Nat → RState) (hheap : ∀ i, (heap i).fields.Typed)
    {p : Addr} {size : Nat} (hs : 136 ≤ size) (sd : W64) {fs : List Feed} {msg : List Byte} (hf : fed cfg fs msg)
    (hl : msg.length ≤ 240) (mem mem' : Memory) (k : Refs.Width) :
    run cfg mem heap (.reset 0 (.secretAndSeed (some p) size sd) :: (feedAll fs ++ [.memory mem', .digest 0 k])) =
      some (.code .ok :: (feedAnswers fs ++ [.void, .hash (answerOf (.seed sd) msg k)])) := by
  obtain ⟨r', h1, h2⟩ := unread_reset (cfg := cfg) (mem := mem) (p := p) (hheap 0) hs (.inr ⟨sd, rfl, rfl⟩)
  simp only [run, h1, Option.bind_eq_bind, Option.bind_some]
  rw [Unread.feedAll hc [.memory mem', .digest 0 k] [.void, .hash (answerOf (.seed sd) msg k)] fs (msg := [])
    (rest := msg) (by unfold put; rw [if_pos rfl]; exact h2) hf (by simp; omega)]
  · rfl
  · intro heap' mem'' h3
    have h4 := h3.repr ⟨0, List.replicate size 0⟩ List.length_replicate
    rw [List.nil_append] at h4
    have hlen : msg.length < 2^64 := by omega
    have ht : (heap' 0).fields.totalLen.toNat = msg.length := by
      have : (heap' 0).fields.totalLen = BitVec.ofNat 64 msg.length := h4.total
      rw [this, BitVec.toNat_ofNat, Nat.mod_eq_of_lt hlen]
    have hm : ¬ Model.XXH3.MIDSIZE_MAX < (heap' 0).fields.totalLen.toNat := by
      rw [ht]; unfold Model.XXH3.MIDSIZE_MAX; omega
    have hu : (heap' 0).fields.useSeed = true := h4.useSeed
    have h5 : Refs.digest cfg mem' (heap' 0) k = some (answerOf (.seed sd) msg k) := by
      cases k with
      | bits64 =>
        have h6 := XXH3P.digest64_repr hc h4 hlen
        have h7 : Model.XXH3.bits64_digest cfg (Refs.load cfg mem' (heap' 0)) = Model.XXH3.bits64_digest cfg
            { (heap' 0).fields with extSecret := some ⟨0, List.replicate size 0⟩ } := by
          rw [digest64_seed (s := Refs.load cfg mem' (heap' 0)) hm hu,
            digest64_seed (s := { (heap' 0).fields with extSecret := some ⟨0, List.replicate size 0⟩ }) hm hu]
          rfl
        show (do return Sum.inl (← Model.XXH3.bits64_digest cfg (Refs.load cfg mem' (heap' 0)))) = _
        rw [h7, h6]
        refine congrArg (fun x => some (Sum.inl x)) ?_
        refine (value64_eq (.secretAndSeed (some ⟨0, List.replicate size 0⟩) size sd) msg).trans ?_
        show Spec.XXH3.XXH3_64_withSecretandSeed _ _ _ = Spec.XXH3.XXH3_64_withSeed _ _
        unfold Spec.XXH3.XXH3_64_withSecretandSeed
        rw [if_pos hl]
      | bits128 =>
        have h6 := XXH3P.digest128_repr hc h4 hlen
        have h7 : Model.XXH3.bits128_digest cfg (Refs.load cfg mem' (heap' 0)) = Model.XXH3.bits128_digest cfg
            { (heap' 0).fields with extSecret := some ⟨0, List.replicate size 0⟩ } := by
          rw [digest128_seed (s := Refs.load cfg mem' (heap' 0)) hm hu,
            digest128_seed (s := { (heap' 0).fields with extSecret := some ⟨0, List.replicate size 0⟩ }) hm hu]
          rfl
        show (do return Sum.inr (← Model.XXH3.bits128_digest cfg (Refs.load cfg mem' (heap' 0)))) = _
        rw [h7, h6]
        refine congrArg (fun x => some (Sum.inr x)) ?_
        refine (value128_eq (.secretAndSeed (some ⟨0, List.replicate size 0⟩) size sd) msg).trans ?_
        show Spec.XXH3.XXH3_128_withSecretandSeed _ _ _ = Spec.XXH3.XXH3_128_withSeed _ _
        unfold Spec.XXH3.XXH3_128_withSecretandSeed
        rw [if_pos hl]
    simp only [run, h5, Option.bind_eq_bind, Option.bind_some]
    rfl

/-! ### Examples -/

/-- Memory with a message of 1000 bytes in object 0 and a secret of 136 bytes, behind 8 other ones, in object 1. -/
def memA : Memory := fun i =>
  if i = 0 then some ⟨0x4000, contents kilo⟩ else if i = 1 then some ⟨0x8000, List.replicate 8 0 ++ contents secret136⟩ else none

/-- The same with other bytes in place of the secret. -/
def memB : Memory := fun i =>
  if i = 0 then some ⟨0x4000, contents kilo⟩ else if i = 1 then some ⟨0x8000, List.replicate 144 0x55⟩ else none

/-- The message overwritten, the secret as in `memA`. -/
def memC : Memory := fun i =>
  if i = 0 then some ⟨0x4000, List.replicate 1000 0xFF⟩ else memA i

/-- Everything released. -/
def memNone : Memory := fun _ => none

/-- States of the program: `XXH3_INITSTATE` done. -/
def statesR : Nat → RState := fun _ => ⟨Model.XXH3.INITSTATE junk, .null⟩

theorem statesR_ok : ∀ i, (statesR i).fields.Typed ∧ (statesR i).ext = .null ∧ (statesR i).fields.seed = 0 :=
  fun _ => ⟨⟨junk_typed.1, junk_typed.2, junk_typed.3⟩, rfl, rfl⟩

deriving instance DecidableEq for Buf

theorem memA_message : view memA ⟨0, 0⟩ 1000 = some ⟨0x4000, contents kilo⟩ := by decide +kernel
theorem memA_secret : view memA ⟨1, 8⟩ 136 = some ⟨0x8008, contents secret136⟩ := by decide +kernel
theorem memC_secret : view memC ⟨1, 8⟩ 136 = some ⟨0x8008, contents secret136⟩ := by decide +kernel

/-- The secret in `memA` begins 8 bytes into its object. -/
example : ∃ b, view memA ⟨1, 0⟩ 9 = some b ∧ 0x8008 = b.addr + 8 ∧ (contents secret136)[0]? = b.bytes[8]? := by
  cases h : view memA ⟨1, 0⟩ 9 with
  | none => exact absurd h (by decide +kernel)
  | some b =>
    have hp := C60_pointers (d := 8) (off := 0) h memA_secret
    exact ⟨b, rfl, hp.1, hp.2.2 0 (by omega) (by omega)⟩

/-- The input is overwritten after it was fed and everything is released after the digest; the state is then reset with
a seed and used again, without any memory. -/
theorem reuse {cfg : Cfg} (hc : cfg.Valid) {mem1 mem2 : Memory} {m s : Buf} {n size : Nat} {p q : Addr}
    (hm : view mem1 p n = some m) (hs : view mem1 q size = some s) (hs2 : view mem2 q size = some s)
    (hk : Readable cfg (some m) n) (hq : Readable cfg (some s) size) (h136 : 136 ≤ size) (hn : n < 2^64) (sd : W64) :
    run cfg mem1 statesR
    [.reset 0 (.secret (some q) size), .update 0 (some p) n, .memory mem2, .copy 1 0, .digest 1 .bits64,
      .memory memNone, .reset 0 (.seed sd), .reset 1 (.secretAndSeed none 136 sd), .update 0 none 0, .digest 0 .bits128] =
    some [.code .ok, .code .ok, .void, .void, .hash (.inl (Spec.XXH3.XXH3_64_withSecret m.bytes s.bytes)),
      .void, .code .ok, .code .error, .code .ok, .hash (.inr (Spec.XXH3.XXH3_128_withSeed [] sd))] := by
  refine C60_program hc (A := fun _ => none) ?_ (fun _ => rfl) statesR statesR_ok
  refine .reset (v := .secret (some s) size) (by simp [argOf, viewPtr, hs]) ⟨hq, h136⟩ ?_
  refine .update (q := some m) (en := ⟨.secret (some s) size, some q, []⟩) rfl ⟨q, _, rfl, hs, rfl⟩
    (by simp [viewPtr, hm]) hk (by simpa using hn) ?_
  refine .memory (.copy (.digest (k := .bits64) (en := ⟨.secret (some s) size, some q, [] ++ m.bytes⟩)
    rfl ⟨q, _, rfl, hs2, rfl⟩ (.memory ?_)))
  refine .reset (v := .seed sd) rfl trivial (.refused (.inl rfl) ?_)
  refine .update (q := none) (en := ⟨.seed sd, none, []⟩) rfl trivial rfl (null_readable _) (Nat.two_pow_pos 64) ?_
  refine .digest (k := .bits128) (en := ⟨.seed sd, none, [] ++ []⟩) ?_ trivial .nil
  rfl

theorem kiloA_readable : Readable x64 (some ⟨0x4000, contents kilo⟩) 1000 :=
  ⟨by decide +kernel, by unfold Buf.Fits; decide +kernel⟩

/-- A program that keeps to the rules, by `C60_program`: `memC` has another message in place of the first one. -/
example (sd : W64) := reuse x64_valid memA_message memA_secret memC_secret kiloA_readable
  ⟨by decide +kernel, by unfold Buf.Fits; decide +kernel⟩ (by decide) (by decide) sd

/-- The secret comes into being after the message of 200 bytes was fed. -/
example (k : Refs.Width) := C60_secret_late x64_valid statesR (fun i => (statesR_ok i).1) (p := ⟨1, 8⟩) (size := 136) (by decide)
  (fs := [⟨memC, some ⟨0, 7⟩, 200⟩, ⟨memNone, none, 0⟩]) (msg := List.replicate 200 0xFF)
  ⟨some ⟨0x4007, List.replicate 200 0xFF⟩, [], by decide +kernel, ⟨by decide +kernel, by unfold Buf.Fits; decide +kernel⟩,
    ⟨none, [], rfl, null_readable _, rfl, rfl⟩, by decide +kernel⟩
  (by decide +kernel) memNone memA_secret k

/-- The secret never exists: object 5 is not there. -/
example (sd : W64) (k : Refs.Width) := C60_seed_short x64_valid statesR (fun i => (statesR_ok i).1) (p := ⟨5, 0⟩) (size := 192)
  (by decide) sd (fs := [⟨memC, some ⟨0, 7⟩, 200⟩]) (msg := List.replicate 200 0xFF)
  ⟨some ⟨0x4007, List.replicate 200 0xFF⟩, [], by decide +kernel, ⟨by decide +kernel, by unfold Buf.Fits; decide +kernel⟩,
    rfl, by decide +kernel⟩ (by decide +kernel) memNone memNone k

/-- **The secret must stay**: after it was released, the digest of a state that was reset with it is undefined, and so is
that of a copy. -/
theorem C60_secret_freed : run x64 memA statesR [.reset 0 (.secret (some ⟨1, 8⟩) 136), .update 0 (some ⟨0, 0⟩) 1000,
      .memory memNone, .digest 0 .bits64] = none ∧
    run x64 memA statesR [.reset 0 (.secret (some ⟨1, 8⟩) 136), .update 0 (some ⟨0, 0⟩) 1000, .copy 1 0,
      .memory memNone, .digest 1 .bits64] = none ∧
    run x64 memA statesR [.reset 0 (.secret (some ⟨1, 8⟩) 136), .update 0 (some ⟨0, 0⟩) 3,
      .memory memNone, .digest 0 .bits128] = none := by decide +kernel

/-- Memory with the message of `memA` and no secret. -/
def memM : Memory := fun i => if i = 0 then memA 0 else none

/-- The limits of `C60_secret_late` and `C60_seed_short` are exact: without the secret, feeding 257 bytes is undefined, and
so is the digest of 241 bytes with a seed. -/
theorem C60_limits : run x64 memM statesR [.reset 0 (.secret (some ⟨1, 8⟩) 136), .update 0 (some ⟨0, 0⟩) 256] =
      some [.code .ok, .code .ok] ∧
    run x64 memM statesR [.reset 0 (.secret (some ⟨1, 8⟩) 136), .update 0 (some ⟨0, 0⟩) 257] = none ∧
    run x64 memM statesR [.reset 0 (.secretAndSeed (some ⟨1, 8⟩) 136 7), .update 0 (some ⟨0, 0⟩) 241] =
      some [.code .ok, .code .ok] ∧
    run x64 memM statesR [.reset 0 (.secretAndSeed (some ⟨1, 8⟩) 136 7), .update 0 (some ⟨0, 0⟩) 241, .digest 0 .bits64] = none := by
  decide +kernel

/-- **The secret must not change**: the hash of a message that was fed in two parts, with another secret for the second
part, is that of the message with neither secret. The state itself is not touched. -/
theorem C60_secret_changed : ∃ h, run x64 memA statesR [.reset 0 (.secret (some ⟨1, 8⟩) 136), .update 0 (some ⟨0, 0⟩) 500,
      .memory memB, .update 0 (some ⟨0, 500⟩) 500, .digest 0 .bits64] = some [.code .ok, .code .ok, .void, .code .ok, .hash (.inl h)] ∧
    h ≠ Spec.XXH3.XXH3_64_withSecret (contents kilo) (contents secret136) ∧
    h ≠ Spec.XXH3.XXH3_64_withSecret (contents kilo) (List.replicate 136 0x55) := by
  exact ⟨1665662620362987678, by decide +kernel⟩

end XXH.Props
