import Verif.Proof.DispatchThreads
import Verif.Props.Dispatch
/-!
Properties of the x86 dispatcher called from many threads: C45.
-/
namespace XXH.Props
open XXH.Model XXH.Model.Dispatch XXH.Examples
open Model.XXH3 (State)

/-- States of a stream after `a` and the message fed so far: any reset, then any updates, each by the plain
function or by that of any vector kind. -/
inductive StreamState (cfg : Cfg) (a : ResetArg) : List Byte → State → Prop
  | reset {s0 s : State} : s0.Typed → a.Ok cfg → (∀ sd, a = .seed sd → s0.extSecret = none ∧ s0.seed = 0) →
      a.call cfg (some s0) = some (some s, .ok) → StreamState cfg a [] s
  | plain {msg : List Byte} {s s' : State} {p : Ptr} {len : Nat} {e : Err} : StreamState cfg a msg s →
      Readable cfg p len → Model.XXH3.bits64_update cfg s p len = some (s', e) →
      StreamState cfg a (msg ++ contents p) s'
  | vec {msg : List Byte} {s s' : State} {p : Ptr} {len : Nat} {e : Err} (v : Vec) : StreamState cfg a msg s →
      Readable cfg p len → update_vec cfg v s p len = some (s', e) → StreamState cfg a (msg ++ contents p) s'

/-- Calls that respect the documentation: readable inputs, secrets of at least 136 bytes, states that were reset. -/
def CallOk (cfg : Cfg) : Call → Prop
  | .bits64 p len | .bits64_seed p len _ | .bits128 p len | .bits128_seed p len _ => Readable cfg p len
  | .bits64_secret p len q size | .bits128_secret p len q size => Readable cfg p len ∧ Readable cfg q size ∧ 136 ≤ size
  | .update64 s p len | .update128 s p len => Readable cfg p len ∧ ∃ a msg, StreamState cfg a msg s

/-- What the calls must return. -/
def Expected (cfg : Cfg) : Call → Result → Prop
  | .bits64 p _, r => r = .h64 (Spec.XXH3.XXH3_64 (contents p))
  | .bits64_seed p _ seed, r => r = .h64 (Spec.XXH3.XXH3_64_withSeed (contents p) seed)
  | .bits64_secret p _ q _, r => r = .h64 (Spec.XXH3.XXH3_64_withSecret (contents p) (contents q))
  | .bits128 p _, r => r = .h128 (Spec.XXH3.XXH3_128 (contents p))
  | .bits128_seed p _ seed, r => r = .h128 (Spec.XXH3.XXH3_128_withSeed (contents p) seed)
  | .bits128_secret p _ q _, r => r = .h128 (Spec.XXH3.XXH3_128_withSecret (contents p) (contents q))
  | .update64 s p _, r | .update128 s p _, r => ∃ s', r = .state s' .ok ∧
      ∀ a msg, StreamState cfg a msg s → StreamState cfg a (msg ++ contents p) s'

theorem StreamState.repr {cfg : Cfg} (hc : DispatchCfg cfg) {a : ResetArg} {msg : List Byte} {s : State}
    (h : StreamState cfg a msg s) : XXH3P.Repr a.secretOf a.seedOf msg s := by
  induction h with
  | reset ht hok hi hr =>
    obtain ⟨s1, h1, r1⟩ := reset_call_repr hc.valid ht hok (fun sd h => initialised_fresh ht (hi sd h))
    rw [hr] at h1
    cases h1; exact r1
  | plain _ hp hu ih =>
    obtain ⟨s1, h1, r1⟩ := update_call_repr hc.valid ih hp
    rw [hu] at h1
    cases h1; exact r1
  | vec v _ hp hu ih =>
    obtain ⟨s1, h1, r1⟩ := DispatchP.update_vec_repr hc.valid hc.littleEndian hc.x86dispatch v ih hp.length
    rw [hu] at h1
    cases h1; exact r1

/-- **C45.** What a stream state means: its digests are the specified hashes of the message. -/
theorem C45_stream_digest {cfg : Cfg} (hc : DispatchCfg cfg) {a : ResetArg} {msg : List Byte} {s : State}
    (h : StreamState cfg a msg s) (hlen : msg.length < 2^64) :
    Model.XXH3.bits64_digest cfg s = some (a.spec64 msg) ∧
    Model.XXH3.bits128_digest cfg s = some (a.spec128 msg) := by
  constructor
  · rw [XXH3P.digest64_repr hc.valid (h.repr hc) hlen, value64_eq]
  · rw [XXH3P.digest128_repr hc.valid (h.repr hc) hlen, value128_eq]

theorem calls_ok {b : Build} {cfg : Cfg} {cpus : Nat → Cpu} (hu : ∀ i, Usable b (cpus i)) (hc : DispatchCfg cfg) :
    DispatchP.CallsOK b cfg cpus (CallOk cfg) (Expected cfg) := by
  obtain ⟨hv, hle, hx⟩ := hc
  have hupd (v : Vec) {s : State} {p : Ptr} {len : Nat} (h : Readable cfg p len ∧ ∃ a msg, StreamState cfg a msg s) :
      ∃ s', update_vec cfg v s p len = some (s', .ok) ∧
        ∀ a msg, StreamState cfg a msg s → StreamState cfg a (msg ++ contents p) s' := by
    obtain ⟨hp, a, msg, hs⟩ := h
    obtain ⟨s', h1, _⟩ := DispatchP.update_vec_repr hv hle hx v (hs.repr ⟨hv, hle, hx⟩) hp.length
    exact ⟨s', h1, fun a msg hs => .vec v hs hp h1⟩
  have key (c : Call) (f : FPtr) (hok : CallOk cfg c) (hf : c.usesTable = true → ∃ v, f = some v) :
      ∃ r, c.run cfg f = some r ∧ Expected cfg c r := by
    have long {len : Nat} (h : decide (Model.XXH3.MIDSIZE_MAX < len) = true → ∃ v, f = some v) :
        240 < len → ∃ v, f = some v := fun hl => h (decide_eq_true hl)
    cases c with
    | bits64 p len =>
      obtain ⟨h1, h2⟩ := hok
      subst h1
      exact ⟨_, DispatchP.run_bits64 hv hle hx (Holds.self p.buf) rfl (long hf), rfl⟩
    | bits64_seed p len seed =>
      obtain ⟨h1, h2⟩ := hok
      subst h1
      exact ⟨_, DispatchP.run_bits64_seed hv hle hx (Holds.self p.buf) rfl (long hf) seed, rfl⟩
    | bits64_secret p len q size =>
      obtain ⟨⟨h1, h2⟩, ⟨h3, h4⟩, h5⟩ := hok
      subst h1 h3
      exact ⟨_, DispatchP.run_bits64_secret hv hle hx (Holds.self p.buf) rfl (long hf) rfl (Holds.self _) h5, rfl⟩
    | update64 s p len =>
      obtain ⟨v, rfl⟩ := hf rfl
      obtain ⟨s', h1, h2⟩ := hupd v hok
      exact ⟨.state s' .ok, by simp only [Call.run, Option.bind_eq_bind, Option.bind_some, h1]; rfl, s', rfl, h2⟩
    | bits128 p len =>
      obtain ⟨h1, h2⟩ := hok
      subst h1
      exact ⟨_, DispatchP.run_bits128 hv hle hx (Holds.self p.buf) rfl (long hf), rfl⟩
    | bits128_seed p len seed =>
      obtain ⟨h1, h2⟩ := hok
      subst h1
      exact ⟨_, DispatchP.run_bits128_seed hv hle hx (Holds.self p.buf) rfl (long hf) seed, rfl⟩
    | bits128_secret p len q size =>
      obtain ⟨⟨h1, h2⟩, ⟨h3, h4⟩, h5⟩ := hok
      subst h1 h3
      exact ⟨_, DispatchP.run_bits128_secret hv hle hx (Holds.self p.buf) rfl (long hf) rfl (Holds.self _) h5, rfl⟩
    | update128 s p len =>
      obtain ⟨v, rfl⟩ := hf rfl
      obtain ⟨s', h1, h2⟩ := hupd v hok
      exact ⟨.state s' .ok, by simp only [Call.run, Option.bind_eq_bind, Option.bind_some, h1]; rfl, s', rfl, h2⟩
  exact ⟨fun i => (hu i).featureTest, fun c v hok => key c _ hok fun _ => ⟨v, rfl⟩,
    fun c hok hs => key c _ hok fun h => by rw [hs] at h; cases h⟩

section
variable {b : Build} {cfg : Cfg} {cpus : Nat → Cpu} {m : Machine} (hu : ∀ i, Usable b (cpus i)) (hc : DispatchCfg cfg)
  (hr : Run b cfg cpus (CallOk cfg) m)
include hu hc hr

/-- **C45.** Whatever the threads call and however they are interleaved, no thread comes to undefined behaviour: none
calls through a `NULL` pointer. -/
theorem C45_no_crash (i : Nat) : (m.threads i).pc ≠ .crashed := by
  intro h
  have := (DispatchP.inv_run (calls_ok hu hc) hr).pc i
  rw [h] at this
  exact this

/-- **C45.** … and every call that has returned has returned what is specified. -/
theorem C45_results {d : Done} (hd : d ∈ m.done) : Expected cfg d.call d.result :=
  ((DispatchP.inv_run (calls_ok hu hc) hr).done d hd).2

/-- **C45.** A dispatched update in any thread continues the stream. -/
theorem C45_update_digest {d : Done} (hd : d ∈ m.done) {s : State} {p : Ptr} {len : Nat}
    (hcall : d.call = .update64 s p len ∨ d.call = .update128 s p len) {a : ResetArg} {msg : List Byte}
    (hs : StreamState cfg a msg s) (hlen : (msg ++ contents p).length < 2^64) :
    ∃ s', d.result = .state s' .ok ∧
      Model.XXH3.bits64_digest cfg s' = some (a.spec64 (msg ++ contents p)) ∧
      Model.XXH3.bits128_digest cfg s' = some (a.spec128 (msg ++ contents p)) := by
  have he := C45_results hu hc hr hd
  rcases hcall with h | h <;> rw [h] at he <;> obtain ⟨s', h1, h2⟩ := he <;>
    exact ⟨s', h1, C45_stream_digest hc (h2 a msg hs) hlen⟩

/-- **C45.** The tables, and what the threads load from them, never hold anything but `NULL` and the functions selected
by some processor. -/
theorem C45_table_entries {k : Slot} {v : Vec} {i : Nat} (h : m.mem k = some v ∨ m.load i k = some v) :
    ∃ j, featureTest b (cpus j) = some v := by
  have hI := DispatchP.inv_run (calls_ok hu hc) hr
  rcases h with h | h
  · exact hI.mem k v h
  · obtain ⟨v', h1, h2⟩ := DispatchP.load_some hI (DispatchP.has_of_load (by rw [h]; rfl))
    rw [h] at h1
    cases h1; exact h2

/-- **C45.** If all processors select the same kind, every call is a call of that kind, which they all support. -/
theorem C45_uniform {v : Vec} (hv : ∀ j, featureTest b (cpus j) = some v) {i : Nat} {c : Call}
    (h : (m.threads i).pc = .call c) : m.load i c.slot = some v ∧ Supports (cpus i) v := by
  have hI := DispatchP.inv_run (calls_ok hu hc) hr
  have hp := hI.pc i
  rw [h] at hp
  obtain ⟨v', h1, j, h2⟩ := DispatchP.load_some hI hp.2
  rw [hv j] at h2
  cases h2
  exact ⟨h1, (C30_selected_is_supported b (cpus i) (hv i) (hu i).cpuid (hu i).xsave).1⟩
end

/-- Some steps, one after the other. -/
inductive Steps (b : Build) (cfg : Cfg) (cpus : Nat → Cpu) (ok : Call → Prop) : Machine → Machine → Prop
  | refl (m : Machine) : Steps b cfg cpus ok m m
  | cons {m m' m'' : Machine} : Step b cfg cpus ok m m' → Steps b cfg cpus ok m' m'' → Steps b cfg cpus ok m m''

/-- The call a thread is in. -/
def current : PC → Option Call
  | .test c | .set c _ _ | .call c => some c
  | .idle | .crashed => none

/-- The call `c` of thread `i` can be finished from `m` without help: nobody else moves, and no store buffer has to
drain. -/
def Finishes (b : Build) (cfg : Cfg) (cpus : Nat → Cpu) (ok : Call → Prop) (i : Nat) (c : Call) (m : Machine) : Prop :=
  ∃ m' r, Steps b cfg cpus ok m m' ∧ (m'.threads i).pc = .idle ∧ m'.done = ⟨i, c, r⟩ :: m.done ∧ m'.mem = m.mem ∧
    ∀ j, j ≠ i → m'.threads j = m.threads j

theorem Finishes.goto {b : Build} {cfg : Cfg} {cpus : Nat → Cpu} {ok : Call → Prop} {i : Nat} {c : Call} {m : Machine}
    {t : Thread} (hs : Step b cfg cpus ok m (m.goto i t)) (h : Finishes b cfg cpus ok i c (m.goto i t)) :
    Finishes b cfg cpus ok i c m := by
  obtain ⟨m', r, h1, h2, h3, h4, h5⟩ := h
  exact ⟨m', r, .cons hs h1, h2, h3, h4, fun j hj => (h5 j hj).trans (DispatchP.goto_other t hj)⟩

section
variable {b : Build} {cfg : Cfg} {cpus : Nat → Cpu} (hu : ∀ i, Usable b (cpus i)) (hc : DispatchCfg cfg)
include hu hc

theorem finishes_call {m : Machine} (hr : Run b cfg cpus (CallOk cfg) m) {i : Nat} {c : Call}
    (h : (m.threads i).pc = .call c) : Finishes b cfg cpus (CallOk cfg) i c m := by
  have hI := DispatchP.inv_run (calls_ok hu hc) hr
  have hp := hI.pc i
  rw [h] at hp
  obtain ⟨v, h1, _⟩ := DispatchP.load_some hI hp.2
  obtain ⟨r, h2, _⟩ := (calls_ok hu hc).long c v hp.1
  refine ⟨_, r, .cons (.call h (by rw [h1]; exact h2)) (.refl _), ?_, rfl, rfl, ?_⟩
  · show ((m.goto i _).threads i).pc = _
    rw [DispatchP.goto_self]
  · intro j hj
    exact DispatchP.goto_other _ hj

theorem finishes_set {i : Nat} {c : Call} {v : Vec} : ∀ (todo : List Slot) {m : Machine},
    Run b cfg cpus (CallOk cfg) m → (m.threads i).pc = .set c todo v → Finishes b cfg cpus (CallOk cfg) i c m
  | [], m, hr, h => by
    have hs := Step.stored (b := b) (cfg := cfg) (cpus := cpus) (ok := CallOk cfg) h
    exact .goto hs (finishes_call hu hc (.step hr hs) (by rw [DispatchP.goto_self]))
  | k :: todo, m, hr, h => by
    have hs := Step.store (b := b) (cfg := cfg) (cpus := cpus) (ok := CallOk cfg) h
    exact .goto hs (finishes_set todo (.step hr hs) (by rw [DispatchP.goto_self]))

/-- **C45.** There is no waiting: in every reachable state every call that has begun can be finished by its own thread,
while all others stand still and all stores of others stay in their buffers. -/
theorem C45_no_waiting {m : Machine} (hr : Run b cfg cpus (CallOk cfg) m) {i : Nat} {c : Call}
    (h : current (m.threads i).pc = some c) : Finishes b cfg cpus (CallOk cfg) i c m := by
  cases hpc : (m.threads i).pc with
  | idle => rw [hpc] at h; cases h
  | crashed => rw [hpc] at h; cases h
  | call c' =>
    rw [hpc] at h; cases h
    exact finishes_call hu hc hr hpc
  | set c' todo v =>
    rw [hpc] at h; cases h
    exact finishes_set hu hc todo hr hpc
  | test c' =>
    rw [hpc] at h; cases h
    cases hl : (m.load i c.slot).isSome with
    | true =>
      have hs := Step.found (b := b) (cfg := cfg) (cpus := cpus) (ok := CallOk cfg) hpc hl
      exact .goto hs (finishes_call hu hc (.step hr hs) (by rw [DispatchP.goto_self]))
    | false =>
      obtain ⟨v, hv, _⟩ := (hu i).featureTest
      have hs := Step.empty (b := b) (cfg := cfg) (cpus := cpus) (ok := CallOk cfg) (todo := Slot.all) hpc hl
        (fun k => by cases k <;> decide) hv
      exact .goto hs (finishes_set hu hc _ (.step hr hs) (by rw [DispatchP.goto_self]))
end

/-- **C45**, why `C45_uniform` asks for equal processors: the choice is made once, by whichever processor comes first. On
a machine whose processors differ, a thread on a processor without AVX512 can come to call the AVX512 code (the values
would be right, `C45_results`, but the instructions do not exist there). -/
theorem C45_hybrid_processors : ∃ (cpus : Nat → Cpu) (m : Machine) (c : Call), (∀ i, Usable gcc64 (cpus i)) ∧
    Run gcc64 dispatch64 cpus (CallOk dispatch64) m ∧ (m.threads 1).pc = .call c ∧
    m.load 1 c.slot = some .avx512 ∧ ¬ Supports (cpus 1) .avx512 := by
  have hv : dispatch64.Valid := by constructor <;> decide
  refine ⟨fun i => if i = 0 then { haswell with xcr0 := 0xe7 } else haswell, _, .bits64 kilo 1000, ?_,
    .step (.start (.constructed (v := .avx512) rfl (by decide)))
      (.start (i := 1) (c := .bits64 kilo 1000) rfl (kilo_readable _ hv) (by decide)), ?_, ?_, ?_⟩
  · intro i
    dsimp only
    split
    · exact ⟨.inr rfl, by decide, .inr (by decide)⟩
    · exact ⟨.inr rfl, by decide, .inr (by decide)⟩
  · rfl
  · decide
  · decide

/-! ### The hypotheses can be met -/

theorem usable_haswell : ∀ _ : Nat, Usable lazy64 haswell := fun _ => ⟨.inr rfl, by decide, .inr (by decide)⟩

theorem dispatch64_ok : DispatchCfg dispatch64 := ⟨by constructor <;> decide, rfl, rfl⟩

/-- Two threads that both find the tables empty, and one of which has its first store in memory while the second is
still about to look for its function: a reachable state. -/
theorem race_reachable : ∃ m, Run lazy64 dispatch64 (fun _ => haswell) (CallOk dispatch64) m ∧
    current (m.threads 0).pc = some (.bits64 kilo 1000) ∧ (m.threads 1).pc = .test (.bits128 kilo 1000) ∧
    m.mem .update64 = some .avx2 ∧ m.mem .default128 = none ∧ (m.threads 0).buffer = [(.default128, some .avx2)] := by
  have hk : Readable dispatch64 kilo 1000 := kilo_readable _ dispatch64_ok.valid
  let cpus : Nat → Cpu := fun _ => haswell
  have r0 : Run lazy64 dispatch64 cpus (CallOk dispatch64) _ := .start (.lazy rfl)
  have r1 := r0.step (.start (i := 0) (c := .bits64 kilo 1000) rfl hk rfl)
  have r2 := r1.step (.start (i := 1) (c := .bits128 kilo 1000) rfl hk rfl)
  have r3 := r2.step (.empty (i := 0) (c := .bits64 kilo 1000) (todo := .update64 :: .default128 :: Slot.all) (v := .avx2) rfl
    rfl (fun k => by cases k <;> decide) (by decide))
  have r4 := r3.step (.store (i := 0) (c := .bits64 kilo 1000) (k := .update64) (todo := .default128 :: Slot.all) (v := .avx2) rfl)
  have r5 := r4.step (.store (i := 0) (c := .bits64 kilo 1000) (k := .default128) (todo := Slot.all) (v := .avx2) rfl)
  have r6 := r5.step (.flush (i := 0) (k := .update64) (f := some .avx2) (rest := [(.default128, some .avx2)]) rfl)
  exact ⟨_, r6, rfl, rfl, rfl, rfl, rfl⟩

/-- All hypotheses together. -/
example : ∃ m, Run lazy64 dispatch64 (fun _ => haswell) (CallOk dispatch64) m ∧
    Finishes lazy64 dispatch64 (fun _ => haswell) (CallOk dispatch64) 1 (.bits128 kilo 1000) m := by
  obtain ⟨m, hr, _, h1, _⟩ := race_reachable
  exact ⟨m, hr, C45_no_waiting usable_haswell dispatch64_ok hr (by rw [h1]; rfl)⟩

/-- A stream state: after a reset with a secret and one update. -/
example : ∃ s, StreamState dispatch64 (.secret secret136 136) (contents kilo) s := by
  have hv := dispatch64_ok.valid
  have hok : (ResetArg.secret secret136 136).Ok dispatch64 := ⟨secret136_readable _ hv, by decide⟩
  obtain ⟨s1, h1, r1⟩ := reset_call_repr hv junk_typed hok (by rintro sd ⟨⟩)
  obtain ⟨s2, h2, _⟩ := DispatchP.update_vec_repr hv rfl rfl .avx2 r1 (kilo_readable _ hv).length
  have h3 := StreamState.vec .avx2 (.reset junk_typed hok (by rintro sd ⟨⟩) h1) (kilo_readable _ hv) h2
  rw [List.nil_append] at h3
  exact ⟨s2, h3⟩

/-! ### The theorems applied -/

example : ∃ m, Run lazy64 dispatch64 (fun _ => haswell) (CallOk dispatch64) m ∧ m.mem .update64 = some .avx2 ∧
    ∃ j : Nat, featureTest lazy64 ((fun _ => haswell) j) = some .avx2 := by
  obtain ⟨m, hr, -, -, h, -⟩ := race_reachable
  exact ⟨m, hr, h, C45_table_entries usable_haswell dispatch64_ok hr (i := 0) (Or.inl h)⟩

end XXH.Props
