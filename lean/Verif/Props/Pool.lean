import Verif.Proof.PoolMore
import Verif.Model.Collide
/-!
Properties of the thread pool of the collision tester: C50.
-/
namespace XXH.Props
open XXH.Model XXH.Model.Pool
open Proof.Pool (Stuck wJob wBusy wHolds cHolds cJob bag Freeing)

/-- The jobs that are being run. -/
def running (s : State) : List Job := s.workers.filterMap fun w => match w with
  | .run j => some j
  | _ => none

/-- The thread has the mutex. -/
def Inside (s : State) : Tid → Prop
  | .worker i => s.workers[i]? = some .hold ∨ s.workers[i]? = some .hold2
  | .client i => ∃ r, s.clients[i]? = some (.hold r)
  | .control => s.control = .hold

theorem running_eq (s : State) : running s = s.workers.filterMap wJob := by
  unfold running
  congr 1

section
variable {sys : Sys} {n queueSize nc : ℕ} (hz : Sizes sys n queueSize)

include hz

/-- **C50.** However the threads are scheduled and whoever is woken, nothing undefined happens: no access outside of the
queue or of the handles, no data race on `threadLimit`, no use of the pool after it is freed. -/
theorem C50_defined {s : State} (h : Reachable sys (create sys n queueSize nc) s) {a : Action} (ha : Legal sys s a) :
    step sys s a ≠ .undefined := by
  obtain ⟨⟨q, hq⟩, hf⟩ := Proof.Pool.inv_reachable hz h
  exact (Proof.Pool.good_step hq hf hz.handle a ha).1

/-- **C50.** At most one thread has the mutex. -/
theorem C50_exclusive {s : State} (h : Reachable sys (create sys n queueSize nc) s) {t t' : Tid} (ht : Inside s t)
    (ht' : Inside s t') : t = t' := by
  obtain ⟨⟨q, hq⟩, _⟩ := Proof.Pool.inv_reachable hz h
  have hH := hq.core.holders
  have hle : (if s.owner = none then 0 else 1) ≤ 1 := by split <;> omega
  have w1 : ∀ i, Inside s (.worker i) → ∃ w, s.workers[i]? = some w ∧ wHolds w = true := by
    rintro i (h1 | h1)
    · exact ⟨_, h1, rfl⟩
    · exact ⟨_, h1, rfl⟩
  have c1 : ∀ i, Inside s (.client i) → ∃ c, s.clients[i]? = some c ∧ cHolds c = true := by
    rintro i ⟨r, h1⟩
    exact ⟨_, h1, rfl⟩
  have wp : ∀ i, Inside s (.worker i) → 0 < s.workers.countP wHolds := by
    intro i hi
    obtain ⟨w, h1, h2⟩ := w1 i hi
    exact Proof.Pool.countP_pos _ _ _ _ h1 h2
  have cp : ∀ i, Inside s (.client i) → 0 < s.clients.countP cHolds := by
    intro i hi
    obtain ⟨w, h1, h2⟩ := c1 i hi
    exact Proof.Pool.countP_pos _ _ _ _ h1 h2
  have kp : Inside s .control → (if s.control = .hold then 1 else 0) = 1 := fun hk => if_pos hk
  cases t with
  | worker i =>
    have := wp i ht
    cases t' with
    | worker k =>
      by_contra hne
      obtain ⟨x, h1, h2⟩ := w1 i ht
      obtain ⟨y, h3, h4⟩ := w1 k ht'
      have := Proof.Pool.countP_two wHolds .lock rfl _ h1 h3 (by rintro rfl; exact hne rfl) h2 h4
      omega
    | client k => have := cp k ht'; omega
    | control => have := kp ht'; omega
  | client i =>
    have := cp i ht
    cases t' with
    | worker k => have := wp k ht'; omega
    | client k =>
      by_contra hne
      obtain ⟨x, h1, h2⟩ := c1 i ht
      obtain ⟨y, h3, h4⟩ := c1 k ht'
      have := Proof.Pool.countP_two cHolds .idle rfl _ h1 h3 (by rintro rfl; exact hne rfl) h2 h4
      omega
    | control => have := kp ht'; omega
  | control =>
    have := kp ht
    cases t' with
    | worker k => have := wp k ht'; omega
    | client k => have := cp k ht'; omega
    | control => rfl

/-- **C50.** Jobs are started in the order in which they were accepted. Each job that was started is being run by one
worker, or has ended: none is run twice. -/
theorem C50_fifo {s : State} (h : Reachable sys (create sys n queueSize nc) s) :
    s.started <+: s.accepted ∧ s.started.Perm (s.finished ++ running s) := by
  obtain ⟨⟨q, hq⟩, _⟩ := Proof.Pool.inv_reachable hz h
  rw [running_eq]
  exact ⟨⟨q, hq.core.hist.symm⟩, hq.core.perm⟩

/-- **C50.** A worker starts the job that has been in the queue for longest, and only when fewer jobs are running than
the limit says. -/
theorem C50_start {s s' : State} (h : Reachable sys (create sys n queueSize nc) s) {a : Action}
    (hs : step sys s a = .next s') (hne : s'.started ≠ s.started) :
    ∃ (j l : ℕ), s'.started = s.started ++ [j] ∧ s.accepted[s.started.length]? = some j ∧ s.threadLimit = some l ∧
      (running s).length < l := by
  obtain ⟨⟨q, hq⟩, _⟩ := Proof.Pool.inv_reachable hz h
  rcases (Proof.Pool.small_step hs).1 with h1 | ⟨i, l, j, hw, he, hl, hlt, hj, hst, -, -⟩
  · exact absurd h1 hne
  · rw [hq.core.ring.empty_iff] at he
    have hqne : q ≠ [] := by rintro rfl; simp at he
    obtain ⟨j', q', rfl⟩ := List.exists_cons_of_ne_nil hqne
    have hjj := hq.core.ring.pop.1
    rw [hj] at hjj
    cases hjj
    refine ⟨j, l, hst, ?_, hl, ?_⟩
    · rw [hq.core.hist]; simp
    · rw [running_eq]
      have := Proof.Pool.job_le_busy s.workers
      have := hq.core.busy
      omega

/-- **C50.** No worker sleeps over work: when every worker sleeps, runs a job or has returned, and jobs are left in the
queue, then as many jobs are running as the limit allows, or no worker sleeps. -/
theorem C50_no_idle_worker {s : State} (h : Reachable sys (create sys n queueSize nc) s)
    (hrest : ∀ w ∈ s.workers, w = .wait ∨ w = .exited ∨ ∃ j, w = .run j) (hne : s.started ≠ s.accepted) {l : ℕ}
    (hl : s.threadLimit = some l) : l ≤ (running s).length ∨ .wait ∉ s.workers := by
  obtain ⟨⟨q, hq⟩, _⟩ := Proof.Pool.inv_reachable hz h
  by_cases hw : .wait ∈ s.workers
  · left
    have h0 : s.workers.countP Proof.Pool.wAwake = 0 := by
      rw [List.countP_eq_zero]
      intro w hm
      rcases hrest w hm with rfl | rfl | ⟨j, rfl⟩ <;> simp [Proof.Pool.wAwake]
    have h1 : 0 < s.workers.countP Worker.waits := List.countP_pos_iff.2 ⟨_, hw, rfl⟩
    have h2 := hq.popOk l hl h1
    have h3 : 0 < q.length := by
      rcases Nat.eq_zero_or_pos q.length with h3 | h3
      · rw [List.eq_nil_of_length_eq_zero h3] at hq
        have := hq.core.hist
        rw [List.append_nil] at this
        exact absurd this.symm hne
      · exact h3
    have h4 : s.workers.countP wBusy = (running s).length := by
      rw [running_eq]
      clear h0 h1 h2 hw hq hne h3 hl h
      generalize s.workers = ws at hrest
      induction ws with
      | nil => rfl
      | cons w ws ih =>
        have := ih fun v hv => hrest v (List.mem_cons_of_mem _ hv)
        rw [List.countP_cons, List.filterMap_cons, this]
        rcases hrest w List.mem_cons_self with rfl | rfl | ⟨j, rfl⟩ <;> simp [wBusy, wJob]
    have h5 := hq.core.busy
    omega
  · exact Or.inr hw

/-- **C50.** No job gets lost: those handed over by `POOL_add` and `POOL_tryAdd` are exactly those accepted, those
refused by `POOL_tryAdd`, and those of calls that have not returned. -/
theorem C50_no_job_lost {acts : List Action} {s : State} (h : Exec sys (create sys n queueSize nc) acts s) :
    ∃ pending : List Job, (s.accepted ++ s.refused ++ pending).Perm (called acts) ∧
      ((∀ c ∈ s.clients, c = .idle) → pending = []) := by
  refine ⟨s.clients.filterMap cJob, Proof.Pool.bag_exec hz h, fun hi => ?_⟩
  rw [List.filterMap_eq_nil_iff]
  intro c hc
  rw [hi c hc]
  rfl

/-- **C50.** There is no deadlock: the pool can go on unless it has nothing to do. If no step is possible, all calls
have returned (`POOL_create` and `POOL_free` too), the queue is empty, and all jobs accepted have ended. -/
theorem C50_no_deadlock {s : State} (h : Reachable sys (create sys n queueSize nc) s)
    (hst : ∀ a, Internal a = true → ∀ s', step sys s a ≠ .next s') :
    (s.control = .ready ∨ s.control = .freed) ∧ (∀ c ∈ s.clients, c = .idle) ∧ s.started = s.accepted ∧
      s.finished.Perm s.accepted := by
  obtain ⟨⟨q, hq⟩, _⟩ := Proof.Pool.inv_reachable hz h
  obtain ⟨h1, h2, h3, h4, _⟩ := Proof.Pool.stuck_done hq hst
  subst h3
  have h5 := hq.core.hist
  have h6 := hq.core.perm
  rw [Proof.Pool.busy_zero_job h4, List.append_nil] at h6
  rw [List.append_nil] at h5
  exact ⟨h1, h2, h5.symm, by rw [h5]; exact h6.symm⟩

/-- **C50.** The pool does not go on forever by itself: an execution that never ends has calls or spurious wakeups again
and again. Together with `C50_no_deadlock`: all jobs are run, all calls return. -/
theorem C50_no_endless_work {st : ℕ → State} {act : ℕ → Action}
    (h0 : Reachable sys (create sys n queueSize nc) (st 0)) (hl : ∀ k, Legal sys (st k) (act k))
    (hs : ∀ k, step sys (st k) (act k) = .next (st (k + 1))) (N : ℕ) : ∃ k, N ≤ k ∧ Internal (act k) = false :=
  Proof.Pool.no_endless hz h0 hl hs N

/-- **C50.** From every state the pool can come to rest by itself: all jobs accepted so far end, all calls return. -/
theorem C50_comes_to_rest {s : State} (h : Reachable sys (create sys n queueSize nc) s) :
    ∃ (acts : List Action) (s' : State), (∀ a ∈ acts, Internal a = true) ∧ runs sys s acts = some s' ∧
      (s'.control = .ready ∨ s'.control = .freed) ∧ (∀ c ∈ s'.clients, c = .idle) ∧ s'.finished.Perm s'.accepted := by
  obtain ⟨acts, s', h1, h2, h3, h4⟩ := Proof.Pool.comes_to_rest hz h
  obtain ⟨h5, h6, -, h7⟩ := C50_no_deadlock hz (Proof.Pool.reachable_trans h h3) h4
  exact ⟨acts, s', h1, h2, h5, h6, h7⟩

/-- **C50.** Once `POOL_free` is called, the pool comes to rest only when it has returned. -/
theorem C50_free_returns {s s' : State} (h : Reachable sys (create sys n queueSize nc) s) (hk : s.control = .lock)
    (h' : Reachable sys s s') (hst : ∀ a, Internal a = true → ∀ s'', step sys s' a ≠ .next s'') :
    s'.control = .freed := by
  have hf : Freeing s.control := by rw [hk]; exact ⟨by simp, by simp⟩
  have hf' := Proof.Pool.freeing_reachable hf h'
  rcases (C50_no_deadlock hz (Proof.Pool.reachable_trans h h') hst).1 with h1 | h1
  · exact absurd h1 hf'.1
  · exact h1

/-- **C50.** When `POOL_free` has returned, all workers have returned, nobody uses the pool any more, and all jobs
handed over have been run to their end, each once, except for those refused. -/
theorem C50_free {acts : List Action} {s : State} (h : Exec sys (create sys n queueSize nc) acts s)
    (hk : s.control = .freed) :
    (∀ w ∈ s.workers, w = .exited) ∧ (∀ c ∈ s.clients, c = .idle) ∧ s.owner = none ∧ running s = [] ∧
      s.finished.Perm s.accepted ∧ (s.finished ++ s.refused).Perm (called acts) := by
  obtain ⟨⟨q, hq⟩, _⟩ := Proof.Pool.inv_reachable hz (Proof.Pool.exec_reachable h)
  have hg := hq.core.gone hk
  have hw : ∀ w ∈ s.workers, w = .exited := by
    intro w hm
    have := List.countP_eq_length.1 hg w hm
    cases w <;> simp_all [Proof.Pool.wExited]
  have hi := hq.core.idle (by simp [hk])
  have hq0 : q = [] := by
    by_contra hne
    have := hq.core.alive hne
    omega
  subst hq0
  have hrun : running s = [] := by
    rw [running_eq, List.filterMap_eq_nil_iff]
    intro w hm
    rw [hw w hm]
    rfl
  have ho : s.owner = none := by
    by_contra ho
    have h1 := hq.core.holders
    have h2 := (Proof.Pool.idle_counts _ hi).1
    have h3 : s.workers.countP wHolds = 0 := by
      rw [List.countP_eq_zero]; intro w hm; rw [hw w hm]; simp [wHolds]
    rw [if_neg ho, hk, if_neg (by simp)] at h1
    omega
  have h5 := hq.core.hist
  have h6 := hq.core.perm
  rw [← running_eq, hrun, List.append_nil] at h6
  rw [List.append_nil] at h5
  have h7 : s.finished.Perm s.accepted := by rw [h5]; exact h6.symm
  refine ⟨hw, hi, ho, hrun, h7, ?_⟩
  obtain ⟨p, hp, hp0⟩ := C50_no_job_lost hz h
  rw [hp0 hi, List.append_nil] at hp
  exact (h7.append_right _).trans hp

/-- **C50.** The collision tester adds the results of the jobs one after the other (`Collide.jobs`, main.c:1123-1127).
The pool may run the jobs in any order and at the same time; when `POOL_free` has returned, each of them has been run
once, and the sum over the jobs in the order in which they ended is the same. -/
theorem C50_tester {acts : List Action} {s : State} (h : Exec sys (create sys n queueSize nc) acts s)
    (hk : s.control = .freed) {threads : ℕ} (hc : called acts = List.range threads) (hr : s.refused = [])
    {e : Collide.Env} {o : Collide.Opts} {totalH : W64} {bflog : Int} {f : ℕ → W64}
    (hf : ∀ t, t < threads → ∃ r, Collide.search e
      { nbH := totalH, mask := BitVec.ofNat 64 threads - 1, maskSelector := BitVec.ofNat 64 t
        sampleSize := o.sampleSize, prngSeed := o.prngSeed
        filterLog := if bflog ≠ 0 then bflog - o.threadlog else 0, hashID := o.hashID, display := false } = .done r ∧
      f t = BitVec.ofNat 64 r.collisions) :
    Collide.jobs e o totalH bflog threads threads 0 0 = .done (s.finished.foldl (fun sum t => sum + f t) 0) := by
  obtain ⟨-, -, -, -, -, h1⟩ := C50_free hz h hk
  rw [hr, List.append_nil, hc] at h1
  have h2 : s.finished.foldl (fun sum t => sum + f t) 0 = (List.range threads).foldl (fun sum t => sum + f t) 0 :=
    h1.foldl_eq' (fun x _ y _ z => by rw [BitVec.add_assoc, BitVec.add_assoc, BitVec.add_comm (f x)]) 0
  rw [h2]
  have h3 : ∀ m t sum, t + m = threads → Collide.jobs e o totalH bflog threads m t sum =
      .done ((List.range' t m).foldl (fun sum t => sum + f t) sum) := by
    intro m
    induction m with
    | zero => intro t sum _; rfl
    | succ m ih =>
      intro t sum ht
      obtain ⟨r, hr1, hr2⟩ := hf t (by omega)
      rw [List.range'_succ, List.foldl_cons, ← ih (t + 1) _ (by omega), hr2]
      conv_lhs => unfold Collide.jobs
      rw [hr1]
      rfl
  rw [h3 threads 0 0 (by omega), List.range_eq_range']

end

/-! ### Limits, and that the hypotheses can be met -/

/-- A 64-bit system. -/
abbrev lp64 : Sys := ⟨64, 16, 8⟩

theorem lp64_sizes : Sizes lp64 2 1 := ⟨by norm_num, by norm_num, by norm_num, by norm_num, by norm_num⟩

instance (sys : Sys) (s : State) (a : Action) : Decidable (Legal sys s a) := by
  cases a with
  | call c r =>
    cases r with
    | resize m => exact decidable_of_iff (s.control = .ready ∧ m * sys.handleSize < 2^sys.sizeBits) (by simp [Legal])
    | _ => exact decidable_of_iff (s.control = .ready) (by simp [Legal])
  | free => exact decidable_of_iff (∀ c ∈ s.clients, c = .idle) (by simp [Legal])
  | _ => exact .isTrue trivial

/-- Runs a list of legal actions. -/
def legalRun (sys : Sys) (s : State) : List Action → Option State
  | [] => some s
  | a :: as => if Legal sys s a then match step sys s a with
    | .next s' => legalRun sys s' as
    | _ => none
    else none

theorem legalRun_exec {sys : Sys} {start : State} {acts : List Action} : ∀ {before : List Action} {s s' : State},
    Exec sys start before s → legalRun sys s acts = some s' → Exec sys start (before ++ acts) s' := by
  induction acts with
  | nil => intro before s s' h hs; simp only [legalRun, Option.some.injEq] at hs; subst hs; simpa using h
  | cons a acts ih =>
    intro before s s' h hs
    simp only [legalRun] at hs
    split at hs
    · rename_i hl
      split at hs
      · rename_i s1 h1
        have := ih (.step h hl h1) hs
        simpa using this
      · cases hs
    · cases hs

theorem legalRun_reachable {sys : Sys} {start s : State} {acts : List Action} (h : legalRun sys start acts = some s) :
    Exec sys start acts s := by
  have := legalRun_exec .start h
  simpa using this

/-- What nobody decides. -/
abbrev plain : Choice := ⟨none, none⟩

/-- `POOL_create` with one thread, then `POOL_add` of job 1, which the worker starts. -/
abbrev oneJob : List Action := [
  .control true, .control true,
  .call 0 (.add 1), .lock (.client 0), .section (.client 0) plain, .lock (.worker 0), .section (.worker 0) plain]

/-- The end of the job and of the pool. -/
abbrev finish : List Action := [
  .jobDone 0, .free, .lock (.worker 0), .section (.worker 0) plain, .lock .control, .section .control plain,
  .control true, .control true, .lock (.worker 0), .section (.worker 0) plain, .control true, .control true]

/-- The hypotheses of the theorems can be met: one thread, one job, then `POOL_free` returns. -/
example : ∃ s, Exec lp64 (create lp64 1 1 1) (oneJob ++ finish) s ∧ s.control = .freed ∧ s.finished = [1] := by
  obtain ⟨s, hs, h1, h2⟩ : ∃ s, legalRun lp64 (create lp64 1 1 1) (oneJob ++ finish) = some s ∧
      s.control = .freed ∧ s.finished = [1] := ⟨_, rfl, rfl, rfl⟩
  exact ⟨s, legalRun_reachable hs, h1, h2⟩

/-- Two jobs and two workers, as in the collision tester with two threads; the second job ends first. -/
example : ∃ acts s, Exec lp64 (create lp64 2 1 1) acts s ∧ s.control = .freed ∧ called acts = List.range 2 ∧
    s.refused = [] ∧ s.finished = [1, 0] := by
  obtain ⟨s, hs, h1, h2, h3⟩ : ∃ s, legalRun lp64 (create lp64 2 1 1) [
      .control true, .control true, .lock (.worker 1), .section (.worker 1) plain, .control true,
      .call 0 (.add 0), .lock (.client 0), .section (.client 0) ⟨some 1, none⟩,
      .lock (.worker 0), .section (.worker 0) plain, .call 0 (.add 1), .lock (.client 0), .section (.client 0) plain,
      .lock (.worker 1), .section (.worker 1) plain, .free, .jobDone 1, .lock .control, .section .control plain,
      .lock (.worker 1), .section (.worker 1) plain, .lock (.worker 1), .section (.worker 1) plain,
      .control true, .control true, .jobDone 0, .lock (.worker 0), .section (.worker 0) plain,
      .lock (.worker 0), .section (.worker 0) plain, .control true, .control true, .control true] = some s ∧
      s.control = .freed ∧ s.refused = [] ∧ s.finished = [1, 0] := ⟨_, rfl, rfl, rfl, rfl⟩
  exact ⟨_, s, legalRun_reachable hs, h1, rfl, h2, h3⟩

/-- **C50, a limit.** `POOL_resize` does not wake those who wait in `POOL_add`. With a pool created with a queue of size
0 the following can be reached. A client waits in `POOL_add`. There is room: `isQueueFull` says no, a worker sleeps
and may take a job. But nobody is awake; nothing happens until the job that is running ends. -/
theorem C50_resize_wakes_no_pusher : ∃ s, Reachable lp64 (create lp64 1 0 2) s ∧ s.clients = [.wait 2, .idle] ∧
    s.workers = [.run 1, .wait] ∧ s.owner = none ∧ s.threadLimit = some 2 ∧ s.queueEmpty = true ∧
    isQueueFull s = some false := by
  obtain ⟨s, hs, h⟩ : ∃ s, legalRun lp64 (create lp64 1 0 2) (oneJob ++ [
      .call 0 (.add 2), .lock (.client 0), .section (.client 0) plain,
      .call 1 (.resize 2), .lock (.client 1), .section (.client 1) ⟨none, some 1⟩,
      .lock (.worker 1), .section (.worker 1) plain]) = some s ∧ s.clients = [.wait 2, .idle] ∧
      s.workers = [.run 1, .wait] ∧ s.owner = none ∧ s.threadLimit = some 2 ∧ s.queueEmpty = true ∧
      isQueueFull s = some false := ⟨_, rfl, rfl, rfl, rfl, rfl, rfl, rfl⟩
  exact ⟨s, Proof.Pool.exec_reachable (legalRun_reachable hs), h⟩

/-- **C50, a limit.** With a queue of size 0, `POOL_tryAdd` should take a job only when a thread is free (pool.h). After
`POOL_resize` to fewer threads than there are jobs running, `isQueueFull` compares with the limit for equality and says
no, though every thread is busy: the job is accepted and stays in the queue. -/
theorem C50_resize_down_not_full : ∃ s, Reachable lp64 (create lp64 2 0 1) s ∧ s.workers = [.run 1, .run 2] ∧
    s.threadLimit = some 1 ∧ isQueueFull s = some false ∧
    ∃ s', runs lp64 s [.call 0 (.tryAdd 3), .lock (.client 0), .section (.client 0) plain] = some s' ∧
      s'.refused = [] ∧ s'.accepted = [1, 2, 3] ∧ s'.workers = [.run 1, .run 2] := by
  obtain ⟨s, hs, h⟩ : ∃ s, legalRun lp64 (create lp64 2 0 1) [
      .control true, .control true, .control true,
      .call 0 (.add 1), .lock (.client 0), .section (.client 0) plain, .lock (.worker 0), .section (.worker 0) plain,
      .call 0 (.add 2), .lock (.client 0), .section (.client 0) plain, .lock (.worker 1), .section (.worker 1) plain,
      .call 0 (.resize 1), .lock (.client 0), .section (.client 0) plain] = some s ∧ s.workers = [.run 1, .run 2] ∧
      s.threadLimit = some 1 ∧ isQueueFull s = some false ∧
      ∃ s', runs lp64 s [.call 0 (.tryAdd 3), .lock (.client 0), .section (.client 0) plain] = some s' ∧
        s'.refused = [] ∧ s'.accepted = [1, 2, 3] ∧ s'.workers = [.run 1, .run 2] :=
    ⟨_, rfl, rfl, rfl, rfl, _, rfl, rfl, rfl, rfl⟩
  exact ⟨s, Proof.Pool.exec_reachable (legalRun_reachable hs), h⟩

/-- **C50, a limit.** `POOL_create` checks neither `queueSize + 1` nor the products for overflow: with a `queueSize` of
`SIZE_MAX`, or of 2^60 - 1, the first `POOL_add` is undefined. -/
theorem C50_queueSize_overflow : ∀ queueSize ∈ [2^64 - 1, 2^60 - 1], ∃ s,
    runs lp64 (create lp64 1 queueSize 1) [.control true, .control true, .call 0 (.add 1), .lock (.client 0)] = some s ∧
      step lp64 s (.section (.client 0) plain) = .undefined := by
  intro queueSize hq
  simp only [List.mem_cons, List.not_mem_nil, or_false] at hq
  rcases hq with rfl | rfl
  · exact ⟨_, rfl, rfl⟩
  · exact ⟨_, rfl, rfl⟩

/-- **C50, a limit.** `POOL_free` wakes those who wait in `POOL_add`, but does not wait for them: if it is called while
a call is under way, the mutex can be used after it is destroyed. -/
theorem C50_free_too_early : ∃ s, runs lp64 (create lp64 1 0 1) (oneJob ++ [
    .call 0 (.add 2), .lock (.client 0), .section (.client 0) plain, .jobDone 0, .free, .lock .control,
    .section .control plain, .control true, .control true, .lock (.worker 0), .section (.worker 0) plain,
    .lock (.worker 0), .section (.worker 0) plain, .control true, .control true]) = some s ∧
      step lp64 s (.lock (.client 0)) = .undefined :=
  ⟨_, rfl, rfl⟩

/-! ### The theorems applied -/

/-- The theorems applied to the state after `oneJob`, in which the worker runs job 1. -/
theorem oneJob_reachable : ∃ s, Reachable lp64 (create lp64 1 1 1) s ∧ s.started = [1] ∧ s.workers = [.run 1] ∧ s.accepted = [1] := by
  obtain ⟨s, hs, h⟩ : ∃ s, legalRun lp64 (create lp64 1 1 1) oneJob = some s ∧ s.started = [1] ∧ s.workers = [.run 1] ∧
    s.accepted = [1] := ⟨_, rfl, rfl, rfl, rfl⟩
  exact ⟨s, Proof.Pool.exec_reachable (legalRun_reachable hs), h⟩

theorem lp64_sizes_one : Sizes lp64 1 1 := ⟨by norm_num, by norm_num, by norm_num, by norm_num, by norm_num⟩

example : ∃ s, Reachable lp64 (create lp64 1 1 1) s ∧ step lp64 s (.jobDone 0) ≠ .undefined ∧ s.started <+: s.accepted ∧
    s.started.Perm (s.finished ++ running s) ∧ running s = [1] := by
  obtain ⟨s, h, h1, h2, h3⟩ := oneJob_reachable
  exact ⟨s, h, C50_defined lp64_sizes_one h trivial, (C50_fifo lp64_sizes_one h).1, (C50_fifo lp64_sizes_one h).2, by
    simp [running, h2]⟩

example : ∃ s acts s', Reachable lp64 (create lp64 1 1 1) s ∧ runs lp64 s acts = some s' ∧ s'.finished.Perm s'.accepted := by
  obtain ⟨s, h, -⟩ := oneJob_reachable
  obtain ⟨acts, s', -, h1, -, -, h2⟩ := C50_comes_to_rest lp64_sizes_one h
  exact ⟨s, acts, s', h, h1, h2⟩

end XXH.Props
