import Verif.Proof.PoolClient
/-! Every legal step is defined and keeps the invariant. -/
namespace XXH.Proof.Pool
open XXH.Model.Pool

/-- The size a client asks for fits into the address space. -/
def cFits (sys : Sys) : Client → Prop
  | .lock (.resize n) => n * sys.handleSize < 2^sys.sizeBits
  | .hold (.resize n) => n * sys.handleSize < 2^sys.sizeBits
  | _ => True

def Fits (sys : Sys) (l : List Client) : Prop := ∀ c ∈ l, cFits sys c

theorem fits_set {sys : Sys} {l : List Client} (h : Fits sys l) (i : Nat) {c : Client} (hc : cFits sys c) :
    Fits sys (l.set i c) := by
  intro d hd
  rcases List.mem_or_eq_of_mem_set hd with h1 | h1
  · exact h d h1
  · rw [h1]; exact hc

theorem fits_map {sys : Sys} {l : List Client} (h : Fits sys l) : Fits sys (l.map Client.awake) := by
  intro d hd
  obtain ⟨c, hc, rfl⟩ := List.mem_map.1 hd
  have := h c hc
  cases c <;> exact this

theorem signalPush_ne (s : State) (w : Option Nat) : signalPush s w ≠ .undefined := by
  cases w <;> simp only [signalPush] <;> split <;> simp

theorem signalPop_ne (s : State) (w : Option Nat) : signalPop s w ≠ .undefined := by
  cases w <;> simp only [signalPop] <;> split <;> simp

theorem signalPush_fits {sys : Sys} {s s' : State} {w : Option Nat} (h : Fits sys s.clients)
    (hs : signalPush s w = .next s') : Fits sys s'.clients := by
  cases w <;> simp only [signalPush] at hs <;> split at hs <;> cases hs
  · exact h
  · exact fits_set h _ trivial

theorem signalPop_fits {sys : Sys} {s s' : State} {w : Option Nat} (h : Fits sys s.clients)
    (hs : signalPop s w = .next s') : Fits sys s'.clients := by
  cases w <;> simp only [signalPop] at hs <;> split at hs <;> cases hs <;> exact h

/-- What is proved of the outcome of a step. -/
def Good (sys : Sys) (o : Out) : Prop :=
  o ≠ .undefined ∧ ∀ s', o = .next s' → (∃ q, Inv s' q) ∧ Fits sys s'.clients

theorem good_next {sys : Sys} {s' : State} {q : List Job} (h : Inv s' q) (hf : Fits sys s'.clients) :
    Good sys (.next s') :=
  ⟨by simp, fun _ hs => by cases hs; exact ⟨⟨q, h⟩, hf⟩⟩

theorem good_blocked {sys : Sys} : Good sys .blocked := ⟨by simp, fun _ hs => by cases hs⟩

theorem good_control {sys : Sys} {s q} (h : Inv s q) (hf : Fits sys s.clients) (ok : Bool) :
    Good sys (controlStep s ok) := by
  unfold controlStep
  split
  · rename_i n hk
    obtain ⟨_, _, _, c4⟩ := h.core.creating n hk
    split
    · rename_i hlt
      split
      · rw [if_neg (by omega)]
        exact good_next (inv_spawn h hk hlt) hf
      · exact good_next (inv_createFail h hk hlt) hf
    · rename_i hlt
      exact good_next (inv_createEnd h hk hlt) hf
  · rename_i hk; exact good_next (inv_wakePush h hk) (fits_map hf)
  · rename_i hk; exact good_next (inv_wakePop h hk) hf
  · rename_i i hk
    split
    · split
      · rename_i hw; exact good_next (inv_join h hk hw) hf
      · exact good_blocked
    · rename_i hi; exact good_next (inv_freed h hk hi) hf
  · exact good_blocked

theorem good_lock {sys : Sys} {s q} (h : Inv s q) (hf : Fits sys s.clients) (t : Tid) :
    Good sys (lockStep s t) := by
  unfold lockStep
  split
  · exact good_blocked
  · rename_i ho
    have ho' : s.owner = none := by simpa using ho
    split
    · split
      · rename_i hw; exact good_next (inv_lockWorker h hw ho' (Or.inl ⟨rfl, rfl⟩)) hf
      · rename_i hw; exact good_next (inv_lockWorker h hw ho' (Or.inr ⟨rfl, rfl⟩)) hf
      · exact good_blocked
    · split
      · rename_i r hc
        refine good_next (inv_lockClient h hc ho') (fits_set hf _ ?_)
        have := hf _ (List.mem_of_getElem? hc)
        cases r <;> exact this
      · exact good_blocked
    · split
      · rename_i hk; exact good_next (inv_lockControl h hk ho') hf
      · exact good_blocked

theorem good_worker {sys : Sys} {s q} (h : Inv s q) (hf : Fits sys s.clients) {i : Nat}
    (ho : s.owner = some (.worker i)) (ch : Choice) : Good sys (workerSection s i ch) := by
  unfold workerSection
  split
  · rename_i hw
    split
    · rename_i he
      rw [h.core.ring.empty_iff] at he
      have hq : q = [] := List.eq_nil_of_length_eq_zero (by simpa using he)
      exact good_next (inv_sleep h hw ho (Or.inl hq)) hf
    · rename_i he
      rw [h.core.ring.empty_iff] at he
      have hq : q ≠ [] := by rintro rfl; simp at he
      split
      · rename_i hl; exact absurd (h.core.unset hl) hq
      · rename_i l hl
        split
        · rename_i hle
          exact good_next (inv_sleep h hw ho (Or.inr ⟨l, hl, hle⟩)) hf
        · rename_i hle
          obtain ⟨j, q', rfl⟩ := List.exists_cons_of_ne_nil hq
          have hpop := h.core.ring.pop.1
          have hpos := h.core.ring.size_pos
          have e : pop s i ch.signal = signalPush (popped s i j) ch.signal := by
            unfold pop
            rw [hpop]
            dsimp only
            rw [if_neg (by omega)]
            rfl
          rw [e]
          refine ⟨signalPush_ne _ _, fun s' hs => ⟨⟨q', inv_pop h hw ho hl (by omega) hs⟩, ?_⟩⟩
          exact signalPush_fits (s := popped s i j) hf hs
  · rename_i hw
    obtain ⟨h1, h2, h3⟩ := inv_hold2 h hw ho
    dsimp only
    split
    · rename_i hsz
      refine ⟨signalPush_ne _ _, fun s' hs => ⟨⟨q, inv_signalPush h1 h2 ?_ hs⟩, ?_⟩⟩
      · intro l _ _
        have := room_le_one (size := s.queueSize) (len := q.length) (busy := (ended s i).numThreadsBusy) (limit := l)
          (by omega)
        left
        show room s.queueSize _ _ _ ≤ _
        omega
      · exact signalPush_fits (s := ended s i) hf hs
    · rename_i hsz
      exact good_next (s' := ended s i) ⟨h1, h2, h3 hsz⟩ hf
  · exact good_blocked

theorem addInternal_eq {s : State} {c : Nat} {j : Job} {w : Option Nat} (hd : s.shutdown = false)
    (hpos : 0 < s.queueSize) (ht : s.queueTail < s.queue.length) :
    addInternal s c j w = signalPop (pushed s c j) w := by
  unfold addInternal
  dsimp only
  rw [if_neg (by simp [hd]), if_neg (by omega)]
  rfl

theorem good_add {sys : Sys} {s q} (h : Inv s q) (hf : Fits sys s.clients) {c : Nat} {r : Req} {j : Job}
    (hc : s.clients[c]? = some (.hold r)) (ho : s.owner = some (.client c)) (hq : isQueueFull s = some false)
    (w : Option Nat) : Good sys (addInternal s c j w) := by
  obtain ⟨hr, l, hl⟩ := h.core.active hc (by simp)
  have hd : s.shutdown = false := by rw [h.core.isDown, hr]; rfl
  obtain ⟨b, hb, _, h2⟩ := full_spec h.core hl
  rw [hq] at hb
  cases hb
  have hroom := h2 rfl
  have hring := h.core.ring.push j (by omega)
  rw [addInternal_eq hd h.core.ring.size_pos hring.1]
  refine ⟨signalPop_ne _ _, fun s' hs => ⟨⟨_, inv_push h hc ho hl hroom hs⟩, ?_⟩⟩
  exact signalPop_fits (s := pushed s c j) (fits_set hf _ trivial) hs

theorem resize_clients {sys : Sys} {s s' : State} {n : Nat} {k : Option Nat} (hs : resize sys s n k = .next s') :
    s'.clients = s.clients := by
  unfold resize at hs
  dsimp only at hs
  split at hs
  · split at hs <;> (injection hs with hs; rw [← hs]; rfl)
  · split at hs
    · injection hs with hs; rw [← hs]; rfl
    · split at hs
      · cases hs
      · split at hs
        · cases hs
        · split at hs <;> (injection hs with hs; rw [← hs]; rfl)

theorem good_client {sys : Sys} {s q} (h : Inv s q) (hf : Fits sys s.clients) (hh : 0 < sys.handleSize) {c : Nat}
    (ho : s.owner = some (.client c)) (ch : Choice) : Good sys (clientSection sys s c ch) := by
  unfold clientSection
  split
  · rename_i j hc
    obtain ⟨hr, l, hl⟩ := h.core.active hc (by simp)
    have hd : s.shutdown = false := by rw [h.core.isDown, hr]; rfl
    obtain ⟨b, hb, _, _⟩ := full_spec h.core hl
    rw [hb]
    dsimp only
    cases b with
    | true =>
      rw [if_pos (by simp [hd])]
      exact good_next (inv_addWait h hc ho hb) (fits_set hf _ trivial)
    | false =>
      rw [if_neg (by simp)]
      exact good_add h hf hc ho hb ch.signal
  · rename_i j hc
    obtain ⟨hr, l, hl⟩ := h.core.active hc (by simp)
    obtain ⟨b, hb, _, _⟩ := full_spec h.core hl
    rw [hb]
    cases b with
    | true => exact good_next (inv_refuse h hc ho) (fits_set hf _ trivial)
    | false => exact good_add h hf hc ho hb ch.signal
  · rename_i n hc
    have hr := (h.core.active hc (by simp)).1
    have hn := hf _ (List.mem_of_getElem? hc)
    obtain ⟨h1, h2⟩ := inv_resize (sys := sys) (inv_release h hc ho (by simp)) hr hh hn ch.created
    refine ⟨h1, fun s' hs => ⟨⟨q, h2 s' hs⟩, ?_⟩⟩
    have : s'.clients = s.clients.set c .idle := resize_clients hs
    rw [this]
    exact fits_set hf _ trivial
  · exact good_blocked

theorem good_section {sys : Sys} {s q} (h : Inv s q) (hf : Fits sys s.clients) (hh : 0 < sys.handleSize) (t : Tid)
    (ch : Choice) : Good sys (sectionStep sys s t ch) := by
  unfold sectionStep
  split
  · exact good_blocked
  · rename_i ho
    have ho' : s.owner = some t := by simpa using ho
    split
    · exact good_worker h hf ho' ch
    · exact good_client h hf hh ho' ch
    · split
      · rename_i hk; exact good_next (inv_shutdown h hk) hf
      · exact good_blocked

/-- When the pool is freed, nobody can get the mutex or has it. -/
theorem freed_blocked {sys : Sys} {s q} (h : Core s q) (hk : s.control = .freed) (t : Tid) :
    lockStep s t = .blocked ∧ ∀ ch, sectionStep sys s t ch = .blocked := by
  have hi := h.idle (by simp [hk])
  have hw : ∀ (i : Nat) (w : Worker), s.workers[i]? = some w → w = .exited := fun i w hw =>
    exited_not_lt (h.gone hk) hw
  have hcl : ∀ (i : Nat) (c : Client), s.clients[i]? = some c → c = .idle := fun i c hc =>
    hi c (List.mem_of_getElem? hc)
  constructor
  · unfold lockStep
    split
    · rfl
    · split
      · split
        · rename_i h1; simpa using hw _ _ h1
        · rename_i h1; simpa using hw _ _ h1
        · rfl
      · split
        · rename_i h1; simpa using hcl _ _ h1
        · rfl
      · rw [if_neg (by simp [hk])]
  · intro ch
    unfold sectionStep
    split
    · rfl
    · split
      · unfold workerSection
        split
        · rename_i h1; simpa using hw _ _ h1
        · rename_i h1; simpa using hw _ _ h1
        · rfl
      · unfold clientSection
        split
        · rename_i h1; simpa using hcl _ _ h1
        · rename_i h1; simpa using hcl _ _ h1
        · rename_i h1; simpa using hcl _ _ h1
        · rfl
      · rw [if_neg (by simp [hk])]

theorem good_step {sys : Sys} {s q} (h : Inv s q) (hf : Fits sys s.clients) (hh : 0 < sys.handleSize) (a : Action)
    (ha : Legal sys s a) : Good sys (step sys s a) := by
  cases a with
  | control ok => exact good_control h hf ok
  | call c r =>
    obtain ⟨hr, hn⟩ := ha
    simp only [step]
    split
    · exact good_blocked
    · rename_i hc
      rw [if_neg (by simp [hr])]
      refine good_next (inv_call h (by simpa using hc) hr) (fits_set hf _ ?_)
      cases r <;> first | trivial | exact hn _ rfl
  | lock t =>
    have hg := good_lock h hf t
    simp only [step]
    split
    · rename_i s' hs
      split
      · rename_i hk
        rw [(freed_blocked (sys := sys) h.core hk t).1] at hs
        cases hs
      · rw [← hs]; exact hg
    · rename_i hn
      exact hg
  | «section» t ch =>
    have hg := good_section h hf hh t ch
    simp only [step]
    split
    · rename_i s' hs
      split
      · rename_i hk
        rw [(freed_blocked (sys := sys) h.core hk t).2] at hs
        cases hs
      · rw [← hs]; exact hg
    · exact hg
  | jobDone i =>
    simp only [step]
    split
    · rename_i j hw; exact good_next (inv_jobDone h hw) hf
    · exact good_blocked
  | wake t =>
    simp only [step]
    unfold wakeStep
    split
    · split
      · rename_i hw; exact good_next (inv_wakeWorker h hw) hf
      · exact good_blocked
    · split
      · rename_i hc; exact good_next (inv_wakeClient h hc) (fits_set hf _ trivial)
      · exact good_blocked
    · exact good_blocked
  | free =>
    simp only [step]
    split
    · rename_i hk; exact good_next (inv_free h hk ha) hf
    · exact good_blocked

theorem inv_reachable {sys : Sys} {n queueSize nc : Nat} (hz : Sizes sys n queueSize) {s : State}
    (h : Reachable sys (create sys n queueSize nc) s) : (∃ q, Inv s q) ∧ Fits sys s.clients := by
  induction h with
  | start =>
    refine ⟨⟨[], inv_create sys n queueSize nc hz.threads hz.job hz.handle hz.queue hz.handles⟩, ?_⟩
    intro c hc
    rw [(List.mem_replicate.1 hc).2]
    trivial
  | step _ hl hs ih =>
    obtain ⟨⟨q, hq⟩, hf⟩ := ih
    exact (good_step hq hf hz.handle _ hl).2 _ hs

end XXH.Proof.Pool
