import Verif.Model.DispatchThreads
import Verif.Proof.Dispatch
/-!
The dispatcher called from many threads: the invariant of the machine, and the calls themselves.
-/
namespace XXH.DispatchP
open Model Model.Dispatch
open Model.XXH3 (State)

/-- Some processor selects this kind. -/
def Sel (b : Build) (cpus : Nat → Cpu) (v : Vec) : Prop := ∃ i, featureTest b (cpus i) = some v

/-- The field is set for thread `i`. -/
def Has (m : Machine) (i : Nat) (k : Slot) : Prop := (m.mem k).isSome = true ∨ ∃ f, (k, f) ∈ (m.threads i).buffer

/-- What holds of the point a thread is at. -/
def PCOK (b : Build) (cpus : Nat → Cpu) (ok : Call → Prop) (has : Slot → Prop) : PC → Prop
  | .idle => True
  | .test c => ok c ∧ c.usesTable = true ∧ b.maybeNull = true
  | .set c todo v => ok c ∧ Sel b cpus v ∧ ∀ k, k ∈ todo ∨ has k
  | .call c => ok c ∧ has c.slot
  | .crashed => False

/-- The invariant. -/
structure Inv (b : Build) (cpus : Nat → Cpu) (ok : Call → Prop) (exp : Call → Result → Prop) (m : Machine) :
    Prop where
  mem : ∀ k v, m.mem k = some v → Sel b cpus v
  full : b.maybeNull = false → ∀ k, (m.mem k).isSome = true
  buf : ∀ i, ∀ e ∈ (m.threads i).buffer, ∃ v, Sel b cpus v ∧ e.2 = some v
  pc : ∀ i, PCOK b cpus ok (Has m i) (m.threads i).pc
  done : ∀ d ∈ m.done, ok d.call ∧ exp d.call d.result

theorem PCOK.mono {b : Build} {cpus : Nat → Cpu} {ok : Call → Prop} {h1 h2 : Slot → Prop} (h : ∀ k, h1 k → h2 k) :
    ∀ {pc : PC}, PCOK b cpus ok h1 pc → PCOK b cpus ok h2 pc
  | .idle, _ => trivial
  | .test _, hp => hp
  | .set _ _ _, hp => ⟨hp.1, hp.2.1, fun k => (hp.2.2 k).imp id (h k)⟩
  | .call _, hp => ⟨hp.1, h _ hp.2⟩
  | .crashed, hp => hp.elim

section
variable {b : Build} {cfg : Cfg} {cpus : Nat → Cpu} {ok : Call → Prop} {exp : Call → Result → Prop} {m m' : Machine}

/-- What a thread loads from a field that is set for it. -/
theorem load_some (h : Inv b cpus ok exp m) {i : Nat} {k : Slot} (hk : Has m i k) :
    ∃ v, m.load i k = some v ∧ Sel b cpus v := by
  unfold Machine.load
  cases hf : (m.threads i).buffer.reverse.find? (fun e => e.1 = k) with
  | some e =>
    have he := List.mem_of_find?_eq_some hf
    obtain ⟨v, hv, hs⟩ := h.buf i e (List.mem_reverse.mp he)
    exact ⟨v, hs, hv⟩
  | none =>
    rcases hk with hk | ⟨f, hk⟩
    · obtain ⟨v, hv⟩ := Option.isSome_iff_exists.mp hk
      exact ⟨v, hv, h.mem k v hv⟩
    · rw [List.find?_eq_none] at hf
      exact absurd (hf (k, f) (List.mem_reverse.mpr hk)) (by simp)

/-- A field a thread finds set is set for it. -/
theorem has_of_load {i : Nat} {k : Slot} (hk : (m.load i k).isSome = true) : Has m i k := by
  unfold Machine.load at hk
  cases hf : (m.threads i).buffer.reverse.find? (fun e => e.1 = k) with
  | some e =>
    have he := List.mem_reverse.mp (List.mem_of_find?_eq_some hf)
    have h1 := List.find?_some hf
    have h2 : e.1 = k := by simpa using h1
    exact .inr ⟨e.2, by rw [← h2]; exact he⟩
  | none => rw [hf] at hk; exact .inl hk

theorem goto_self (i : Nat) (t : Thread) : (m.goto i t).threads i = t := by simp [Machine.goto]

theorem goto_other {i j : Nat} (t : Thread) (h : j ≠ i) : (m.goto i t).threads j = m.threads j := by
  simp [Machine.goto, h]

/-- A thread moves and perhaps adds stores to its buffer. -/
theorem Inv.goto (h : Inv b cpus ok exp m) {i : Nat} {pc : PC} {more : List (Slot × FPtr)}
    (hm : ∀ e ∈ more, ∃ v, Sel b cpus v ∧ e.2 = some v)
    (hp : PCOK b cpus ok (fun k => Has m i k ∨ ∃ f, (k, f) ∈ more) pc) :
    Inv b cpus ok exp (m.goto i ⟨pc, (m.threads i).buffer ++ more⟩) where
  mem := h.mem
  full := h.full
  buf := by
    intro j e he
    by_cases hj : j = i
    · subst hj
      rw [goto_self] at he
      rcases List.mem_append.mp he with he | he
      · exact h.buf _ e he
      · exact hm e he
    · rw [goto_other _ hj] at he; exact h.buf j e he
  pc := by
    intro j
    by_cases hj : j = i
    · subst hj
      rw [goto_self]
      refine hp.mono ?_
      rintro k ((hk | ⟨f, hk⟩) | ⟨f, hk⟩)
      · exact .inl hk
      · exact .inr ⟨f, by rw [goto_self]; exact List.mem_append_left _ hk⟩
      · exact .inr ⟨f, by rw [goto_self]; exact List.mem_append_right _ hk⟩
    · rw [goto_other _ hj]
      refine (h.pc j).mono ?_
      rintro k (hk | ⟨f, hk⟩)
      · exact .inl hk
      · exact .inr ⟨f, by rw [goto_other _ hj]; exact hk⟩
  done := h.done

theorem Inv.goto' (h : Inv b cpus ok exp m) {i : Nat} {pc : PC} (hp : PCOK b cpus ok (Has m i) pc) :
    Inv b cpus ok exp (m.goto i ⟨pc, (m.threads i).buffer⟩) := by
  have := h.goto (i := i) (pc := pc) (more := []) (by simp) (hp.mono fun k => Or.inl)
  rwa [List.append_nil] at this

theorem Inv.finish (h : Inv b cpus ok exp m) {d : Done} (hd : ok d.call ∧ exp d.call d.result) :
    Inv b cpus ok exp { m with done := d :: m.done } where
  mem := h.mem
  full := h.full
  buf := h.buf
  pc := h.pc
  done := by
    intro e he
    rcases List.mem_cons.mp he with rfl | he
    · exact hd
    · exact h.done e he

theorem Inv.flush (h : Inv b cpus ok exp m) {i : Nat} {k : Slot} {f : FPtr} {rest : List (Slot × FPtr)}
    (hb : (m.threads i).buffer = (k, f) :: rest) :
    Inv b cpus ok exp
      { m.goto i ⟨(m.threads i).pc, rest⟩ with mem := fun k' => if k' = k then f else m.mem k' } := by
  obtain ⟨v, hv, hf⟩ := h.buf i (k, f) (by rw [hb]; exact List.mem_cons_self ..)
  have hf : f = some v := hf
  subst hf
  have hthis : ∀ j, (if j = i then (⟨(m.threads i).pc, rest⟩ : Thread) else m.threads j).pc = (m.threads j).pc := by
    intro j; split
    · rename_i hj; rw [hj]
    · rfl
  refine ⟨?_, ?_, ?_, ?_, h.done⟩
  · intro k' v' h'
    dsimp only at h'
    split at h'
    · cases h'; exact hv
    · exact h.mem _ _ h'
  · intro hn k'
    dsimp only
    split
    · rfl
    · exact h.full hn k'
  · intro j e he
    by_cases hj : j = i
    · subst hj
      have he : e ∈ rest := by simpa [Machine.goto] using he
      exact h.buf _ e (by rw [hb]; exact List.mem_cons_of_mem _ he)
    · have he : e ∈ (m.threads j).buffer := by simpa [Machine.goto, hj] using he
      exact h.buf j e he
  · intro j
    show PCOK b cpus ok _ (if j = i then (⟨(m.threads i).pc, rest⟩ : Thread) else m.threads j).pc
    rw [hthis j]
    refine (h.pc j).mono ?_
    rintro k' (hk | ⟨f, hk⟩)
    · left
      dsimp only
      split
      · rfl
      · exact hk
    · by_cases hj : j = i
      · subst hj
        rw [hb] at hk
        rcases List.mem_cons.mp hk with hk | hk
        · cases hk
          left; simp
        · right; exact ⟨f, by simpa [Machine.goto] using hk⟩
      · right; exact ⟨f, by simpa [Machine.goto, hj] using hk⟩

/-- What is known about the calls. -/
structure CallsOK (b : Build) (cfg : Cfg) (cpus : Nat → Cpu) (ok : Call → Prop) (exp : Call → Result → Prop) :
    Prop where
  usable : ∀ i, ∃ v, featureTest b (cpus i) = some v ∧ b.has v = true
  long : ∀ c v, ok c → ∃ r, c.run cfg (some v) = some r ∧ exp c r
  short : ∀ c, ok c → c.usesTable = false → ∃ r, c.run cfg none = some r ∧ exp c r

theorem CallsOK.entry (H : CallsOK b cfg cpus ok exp) {v : Vec} (hv : Sel b cpus v) : entry b v = some v := by
  obtain ⟨i, hi⟩ := hv
  obtain ⟨v', h1, h2⟩ := H.usable i
  rw [hi] at h1
  cases h1
  simp [Dispatch.entry, h2]

theorem inv_start (H : CallsOK b cfg cpus ok exp) (h : Start b cpus m) : Inv b cpus ok exp m := by
  cases h with
  | lazy hm =>
    refine ⟨?_, ?_, ?_, fun _ => trivial, ?_⟩
    · rintro k v ⟨⟩
    · intro h; rw [hm] at h; cases h
    · intro i e he; cases he
    · intro d hd; cases hd
  | @constructed v hm hf =>
    have hs : Sel b cpus v := ⟨0, hf⟩
    refine ⟨?_, ?_, fun i e he => (by cases he), fun _ => trivial, fun d hd => (by cases hd)⟩
    · intro k v' h
      dsimp only at h
      rw [H.entry hs] at h
      cases h; exact hs
    · intro _ k
      dsimp only
      rw [H.entry hs]; rfl

theorem inv_step (H : CallsOK b cfg cpus ok exp) (h : Inv b cpus ok exp m) (hs : Step b cfg cpus ok m m') :
    Inv b cpus ok exp m' := by
  cases hs with
  | @direct i c r hi hc hu hr =>
    obtain ⟨r', h1, h2⟩ := H.short c hc hu
    rw [hr] at h1
    cases h1
    exact h.finish ⟨hc, h2⟩
  | @directCrash i c hi hc hu hr =>
    obtain ⟨r', h1, h2⟩ := H.short c hc hu
    rw [hr] at h1; cases h1
  | @start i c hi hc hu =>
    refine h.goto' ?_
    cases hm : b.maybeNull with
    | true => exact ⟨hc, hu, hm⟩
    | false => exact ⟨hc, .inl (h.full hm _)⟩
  | @found i c hi hl =>
    have hp := h.pc i
    rw [hi] at hp
    exact h.goto' ⟨hp.1, has_of_load hl⟩
  | @empty i c todo v hi hl ht hf =>
    have hp := h.pc i
    rw [hi] at hp
    exact h.goto' ⟨hp.1, ⟨i, hf⟩, fun k => .inl (ht k)⟩
  | @emptyCrash i c hi hl hf =>
    obtain ⟨v, hv, _⟩ := H.usable i
    rw [hf] at hv; cases hv
  | @store i c k todo v hi =>
    have hp := h.pc i
    rw [hi] at hp
    refine h.goto ?_ ⟨hp.1, hp.2.1, ?_⟩
    · intro e he
      rw [List.mem_singleton] at he
      subst he
      exact ⟨v, hp.2.1, H.entry hp.2.1⟩
    · intro k'
      rcases hp.2.2 k' with hk | hk
      · rcases List.mem_cons.mp hk with rfl | hk
        · exact .inr (.inr ⟨_, List.mem_singleton.mpr rfl⟩)
        · exact .inl hk
      · exact .inr (.inl hk)
  | @stored i c v hi =>
    have hp := h.pc i
    rw [hi] at hp
    refine h.goto' ⟨hp.1, ?_⟩
    rcases hp.2.2 c.slot with hk | hk
    · cases hk
    · exact hk
  | @call i c r hi hr =>
    have hp := h.pc i
    rw [hi] at hp
    obtain ⟨v, hv, _⟩ := load_some h hp.2
    obtain ⟨r', h1, h2⟩ := H.long c v hp.1
    rw [hv, h1] at hr
    cases hr
    exact (h.goto' (pc := .idle) trivial).finish (d := ⟨i, c, r⟩) ⟨hp.1, h2⟩
  | @callCrash i c hi hr =>
    have hp := h.pc i
    rw [hi] at hp
    obtain ⟨v, hv, _⟩ := load_some h hp.2
    obtain ⟨r', h1, h2⟩ := H.long c v hp.1
    rw [hv, h1] at hr
    cases hr
  | @flush i k f rest hb => exact h.flush hb

theorem inv_run (H : CallsOK b cfg cpus ok exp) (h : Run b cfg cpus ok m) : Inv b cpus ok exp m := by
  induction h with
  | start h => exact inv_start H h
  | step _ hs ih => exact inv_step H ih hs
end

/-! ### The calls -/

section
variable {cfg : Cfg} {f : FPtr} (hc : cfg.Valid) (hle : cfg.littleEndian = true) (hx : cfg.x86dispatch = true)
include hc hle hx

section
variable {p : Ptr} {bf : Buf} {msg : List Byte} (hb : Holds bf msg) (hp : p.buf = bf)
  (hf : 240 < msg.length → ∃ v, f = some v)
include hb hp hf

theorem run_bits64 : (Call.bits64 p msg.length).run cfg f = some (.h64 (Spec.XXH3.XXH3_64 msg)) := by
  have hd : Model.XXH3.SECRET_DEFAULT_SIZE = Spec.XXH3.defaultSecret.length := by
    rw [XXH3P.default_length]; rfl
  have hl : 136 ≤ Spec.XXH3.defaultSecret.length := by rw [XXH3P.default_length]; omega
  have hs := XXH3P.kSecret_holds cfg
  have hi := XXH3P.internal64_eq (long := Spec.XXH3.defaultSecret) hc hb hs hl 0
    (f := some fun input len _ _ _ => do XXHL64_default cfg (← f) input len) (p := p)
    (q := some (Model.XXH3.kSecret cfg)) (fun hm => ⟨_, rfl, by
      obtain ⟨v, rfl⟩ := hf (by omega)
      simp only [Option.bind_eq_bind, Option.bind_some, XXHL64_default]
      rw [hd]
      exact XXH3P.hashLong_64b_internal_eq hc hb hs hl (accOf hc hle hx v) (scrOf hc hle hx v) (by omega)⟩) hp rfl
  simp only [Call.run]
  rw [hd, hi]; rfl

theorem run_bits64_seed (seed : W64) : (Call.bits64_seed p msg.length seed).run cfg f =
    some (.h64 (Spec.XXH3.XXH3_64_withSeed msg seed)) := by
  have hd : Model.XXH3.SECRET_DEFAULT_SIZE = Spec.XXH3.defaultSecret.length := by
    rw [XXH3P.default_length]; rfl
  have hl : 136 ≤ Spec.XXH3.defaultSecret.length := by rw [XXH3P.default_length]; omega
  have hs := XXH3P.kSecret_holds cfg
  have hi := XXH3P.internal64_eq (long := Spec.XXH3.deriveSecret seed) hc hb hs hl seed
    (f := some fun input len seed64 _ _ => do XXHL64_seed cfg (← f) input len seed64) (p := p)
    (q := some (Model.XXH3.kSecret cfg)) (fun hm => ⟨_, rfl, by
      obtain ⟨v, rfl⟩ := hf (by omega)
      simp only [Option.bind_eq_bind, Option.bind_some, XXHL64_seed]
      exact XXH3P.hashLong_64b_withSeed_internal_eq hc hb (accOf hc hle hx v) (scrOf hc hle hx v) (initOf hc hle hx v)
        (by omega) seed⟩) hp rfl
  simp only [Call.run]
  rw [hd, hi]; rfl

theorem run_bits64_secret {q : Ptr} {s : Buf} {sec : List Byte} (hq : q.buf = s)
    (hs : Holds s sec) (hl : 136 ≤ sec.length) : (Call.bits64_secret p msg.length q sec.length).run cfg f =
    some (.h64 (Spec.XXH3.XXH3_64_withSecret msg sec)) := by
  have hi := XXH3P.internal64_eq (long := sec) hc hb hs hl 0
    (f := some fun input len _ secret secretLen => do XXHL64_secret cfg (← f) input len secret secretLen) (p := p)
    (q := q) (fun hm => ⟨_, rfl, by
      obtain ⟨v, rfl⟩ := hf (by omega)
      simp only [Option.bind_eq_bind, Option.bind_some, XXHL64_secret]
      exact XXH3P.hashLong_64b_internal_eq hc hb hs hl (accOf hc hle hx v) (scrOf hc hle hx v) (by omega)⟩) hp hq
  simp only [Call.run]
  rw [hi]; rfl

theorem run_bits128 : (Call.bits128 p msg.length).run cfg f = some (.h128 (Spec.XXH3.XXH3_128 msg)) := by
  have hd : Model.XXH3.SECRET_DEFAULT_SIZE = Spec.XXH3.defaultSecret.length := by
    rw [XXH3P.default_length]; rfl
  have hl : 136 ≤ Spec.XXH3.defaultSecret.length := by rw [XXH3P.default_length]; omega
  have hs := XXH3P.kSecret_holds cfg
  have hi := XXH3P.internal128_eq (long := Spec.XXH3.defaultSecret) hc hb hs hl 0
    (f := some fun input len _ _ _ => do XXHL128_default cfg (← f) input len) (p := p)
    (q := some (Model.XXH3.kSecret cfg)) (fun hm => ⟨_, rfl, by
      obtain ⟨v, rfl⟩ := hf (by omega)
      simp only [Option.bind_eq_bind, Option.bind_some, XXHL128_default]
      rw [hd]
      exact XXH3P.hashLong_128b_internal_eq hc hb hs hl (accOf hc hle hx v) (scrOf hc hle hx v) (by omega)⟩) hp rfl
  simp only [Call.run]
  rw [hd, hi]; rfl

theorem run_bits128_seed (seed : W64) : (Call.bits128_seed p msg.length seed).run cfg f =
    some (.h128 (Spec.XXH3.XXH3_128_withSeed msg seed)) := by
  have hd : Model.XXH3.SECRET_DEFAULT_SIZE = Spec.XXH3.defaultSecret.length := by
    rw [XXH3P.default_length]; rfl
  have hl : 136 ≤ Spec.XXH3.defaultSecret.length := by rw [XXH3P.default_length]; omega
  have hs := XXH3P.kSecret_holds cfg
  have hi := XXH3P.internal128_eq (long := Spec.XXH3.deriveSecret seed) hc hb hs hl seed
    (f := some fun input len seed64 _ _ => do XXHL128_seed cfg (← f) input len seed64) (p := p)
    (q := some (Model.XXH3.kSecret cfg)) (fun hm => ⟨_, rfl, by
      obtain ⟨v, rfl⟩ := hf (by omega)
      simp only [Option.bind_eq_bind, Option.bind_some, XXHL128_seed]
      exact XXH3P.hashLong_128b_withSeed_internal_eq hc hb (accOf hc hle hx v) (scrOf hc hle hx v) (initOf hc hle hx v)
        (by omega) seed⟩) hp rfl
  simp only [Call.run]
  rw [hd, hi]; rfl

theorem run_bits128_secret {q : Ptr} {s : Buf} {sec : List Byte} (hq : q.buf = s)
    (hs : Holds s sec) (hl : 136 ≤ sec.length) : (Call.bits128_secret p msg.length q sec.length).run cfg f =
    some (.h128 (Spec.XXH3.XXH3_128_withSecret msg sec)) := by
  have hi := XXH3P.internal128_eq (long := sec) hc hb hs hl 0
    (f := some fun input len _ secret secretLen => do XXHL128_secret cfg (← f) input len secret secretLen) (p := p)
    (q := q) (fun hm => ⟨_, rfl, by
      obtain ⟨v, rfl⟩ := hf (by omega)
      simp only [Option.bind_eq_bind, Option.bind_some, XXHL128_secret]
      exact XXH3P.hashLong_128b_internal_eq hc hb hs hl (accOf hc hle hx v) (scrOf hc hle hx v) (by omega)⟩) hp hq
  simp only [Call.run]
  rw [hi]; rfl
end

theorem update_vec_repr (v : Vec) {p : Ptr} {len : Nat} {sec msg : List Byte} {us : Option W64} {s : State}
    (h : XXH3P.Repr sec us msg s) (hp : p.buf.bytes.length = len) :
    ∃ s', update_vec cfg v s p len = some (s', .ok) ∧ XXH3P.Repr sec us (msg ++ p.buf.bytes) s' :=
  XXH3P.update_repr (cfg := cfg) hc (accOf hc hle hx v) (scrOf hc hle hx v) h hp
end
end XXH.DispatchP
