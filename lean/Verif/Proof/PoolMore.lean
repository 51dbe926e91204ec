import Verif.Proof.PoolJobs
/-! More about the steps of the thread pool: what starts a job, that `POOL_free` goes on. -/
namespace XXH.Proof.Pool
open XXH.Model.Pool

/-- `POOL_free` has been called, or `POOL_create` fails. -/
def Freeing (c : Control) : Prop := c ≠ .ready ∧ ∀ n, c ≠ .creating n

/-- What a step does to `started` and `control`. -/
structure Small (s s' : State) : Prop where
  started : s'.started = s.started
  control : s'.control = s.control

theorem small_signalPush {s s' : State} {w : Option Nat} (hs : signalPush s w = .next s') : Small s s' := by
  cases w <;> simp only [signalPush] at hs <;> split at hs <;> cases hs <;> exact ⟨rfl, rfl⟩

theorem small_signalPop {s s' : State} {w : Option Nat} (hs : signalPop s w = .next s') : Small s s' := by
  cases w <;> simp only [signalPop] at hs <;> split at hs <;> cases hs <;> exact ⟨rfl, rfl⟩

theorem small_lock {s : State} {t : Tid} {s' : State} (hs : lockStep s t = .next s') :
    s'.started = s.started ∧ (s'.control = s.control ∨ s'.control = .hold) := by
  unfold lockStep at hs
  split at hs
  · cases hs
  · split at hs
    · split at hs
      · cases hs; exact ⟨rfl, Or.inl rfl⟩
      · cases hs; exact ⟨rfl, Or.inl rfl⟩
      · cases hs
    · split at hs
      · cases hs; exact ⟨rfl, Or.inl rfl⟩
      · cases hs
    · split at hs
      · cases hs; exact ⟨rfl, Or.inr rfl⟩
      · cases hs

theorem small_control {s : State} {ok : Bool} {s' : State} (hs : controlStep s ok = .next s') :
    s'.started = s.started ∧ (Freeing s.control → Freeing s'.control) := by
  unfold controlStep at hs
  split at hs
  · rename_i n hk
    have hno : ¬ Freeing s.control := fun hf => hf.2 n hk
    split at hs
    · split at hs
      · split at hs
        · cases hs
        · cases hs; exact ⟨rfl, fun h => h⟩
      · cases hs; exact ⟨rfl, fun h => absurd h hno⟩
    · cases hs; exact ⟨rfl, fun h => absurd h hno⟩
  · cases hs; exact ⟨rfl, fun _ => ⟨by simp, by simp⟩⟩
  · cases hs; exact ⟨rfl, fun _ => ⟨by simp, by simp⟩⟩
  · split at hs
    · split at hs
      · cases hs; exact ⟨rfl, fun _ => ⟨by simp, by simp⟩⟩
      · cases hs
    · cases hs; exact ⟨rfl, fun _ => ⟨by simp, by simp⟩⟩
  · cases hs

/-- A job is started by a worker that has found the number of busy workers below the limit. -/
def Starts (s s' : State) : Prop :=
  ∃ (i : Nat) (l : Nat) (j : Job), s.workers[i]? = some .hold ∧ s.queueEmpty = false ∧ s.threadLimit = some l ∧
    s.numThreadsBusy < l ∧ s.queue[s.queueHead]? = some (some j) ∧ s'.started = s.started ++ [j] ∧
    s'.workers[i]? = some (.run j) ∧ s'.control = s.control

theorem small_worker {s : State} {i : Nat} {ch : Choice} {s' : State} (hs : workerSection s i ch = .next s') :
    Small s s' ∨ Starts s s' := by
  unfold workerSection at hs
  split at hs
  · rename_i hw
    split at hs
    · cases hs; exact Or.inl ⟨rfl, rfl⟩
    · rename_i he
      split at hs
      · cases hs
      · rename_i l hl
        split at hs
        · cases hs; exact Or.inl ⟨rfl, rfl⟩
        · rename_i hlt
          right
          unfold pop at hs
          split at hs
          · rename_i j hj
            split at hs
            · cases hs
            · have hsm := small_signalPush hs
              refine ⟨i, l, j, hw, by simpa using he, hl, by omega, hj, hsm.started, ?_, hsm.control⟩
              have hi : i < s.workers.length := (List.getElem?_eq_some_iff.1 hw).1
              have : s'.workers = s.workers.set i (.run j) := by
                cases hsg : ch.signal <;> rw [hsg] at hs <;> simp only [signalPush] at hs <;> split at hs <;> cases hs <;>
                  rfl
              rw [this]
              simp [hi]
          · cases hs
  · left
    dsimp only at hs
    split at hs
    · exact ⟨(small_signalPush hs).started, (small_signalPush hs).control⟩
    · cases hs; exact ⟨rfl, rfl⟩
  · cases hs

theorem small_add {s : State} {c : Nat} {j : Job} {w : Option Nat} {s' : State}
    (hs : addInternal s c j w = .next s') : Small s s' := by
  unfold addInternal at hs
  dsimp only at hs
  split at hs
  · cases hs; exact ⟨rfl, rfl⟩
  · split at hs
    · cases hs
    · exact ⟨(small_signalPop hs).started, (small_signalPop hs).control⟩

theorem small_resize {sys : Sys} {s s' : State} {n : Nat} {k : Option Nat} (hs : resize sys s n k = .next s') :
    Small s s' := by
  unfold resize at hs
  dsimp only at hs
  split at hs
  · split at hs <;> (injection hs with hs; rw [← hs]; exact ⟨rfl, rfl⟩)
  · split at hs
    · injection hs with hs; rw [← hs]; exact ⟨rfl, rfl⟩
    · split at hs
      · cases hs
      · split at hs
        · cases hs
        · split at hs <;> (injection hs with hs; rw [← hs]; exact ⟨rfl, rfl⟩)

theorem small_client {sys : Sys} {s : State} {c : Nat} {ch : Choice} {s' : State}
    (hs : clientSection sys s c ch = .next s') : Small s s' := by
  unfold clientSection at hs
  split at hs
  · split at hs
    · cases hs
    · split at hs
      · cases hs; exact ⟨rfl, rfl⟩
      · exact small_add hs
  · split at hs
    · cases hs
    · cases hs; exact ⟨rfl, rfl⟩
    · exact small_add hs
  · exact ⟨(small_resize hs).started, (small_resize hs).control⟩
  · cases hs

theorem small_step {sys : Sys} {s : State} {a : Action} {s' : State} (hs : step sys s a = .next s') :
    (s'.started = s.started ∨ Starts s s') ∧ (Freeing s.control → Freeing s'.control) := by
  cases a with
  | control ok => exact ⟨Or.inl (small_control hs).1, (small_control hs).2⟩
  | call c r =>
    simp only [step] at hs
    split at hs
    · cases hs
    · split at hs
      · cases hs
      · cases hs; exact ⟨Or.inl rfl, fun h => h⟩
  | lock t =>
    simp only [step] at hs
    split at hs
    · rename_i s1 h1
      split at hs
      · cases hs
      · cases hs
        obtain ⟨h2, h3⟩ := small_lock h1
        refine ⟨Or.inl h2, fun hf => ?_⟩
        rcases h3 with h3 | h3 <;> rw [h3]
        · exact hf
        · exact ⟨by simp, by simp⟩
    · rename_i hn; exact absurd hs (hn _)
  | «section» t ch =>
    simp only [step] at hs
    have key : ∀ s1, sectionStep sys s t ch = .next s1 →
        (s1.started = s.started ∨ Starts s s1) ∧ (Freeing s.control → Freeing s1.control) := by
      intro s1 h1
      unfold sectionStep at h1
      split at h1
      · cases h1
      · split at h1
        · rcases small_worker h1 with h2 | h2
          · exact ⟨Or.inl h2.started, fun hf => by rw [h2.control]; exact hf⟩
          · refine ⟨Or.inr h2, fun hf => ?_⟩
            obtain ⟨_, _, _, _, _, _, _, _, _, _, h3⟩ := h2
            rw [h3]; exact hf
        · have h2 := small_client h1
          exact ⟨Or.inl h2.started, fun hf => by rw [h2.control]; exact hf⟩
        · split at h1
          · cases h1; exact ⟨Or.inl rfl, fun _ => ⟨by simp, by simp⟩⟩
          · cases h1
    split at hs
    · rename_i s1 h1
      split at hs
      · cases hs
      · cases hs; exact key _ h1
    · rename_i hn; exact absurd hs (hn _)
  | jobDone i =>
    simp only [step] at hs
    split at hs
    · cases hs; exact ⟨Or.inl rfl, fun h => h⟩
    · cases hs
  | wake t =>
    simp only [step] at hs
    unfold wakeStep at hs
    split at hs
    · split at hs
      · cases hs; exact ⟨Or.inl rfl, fun h => h⟩
      · cases hs
    · split at hs
      · cases hs; exact ⟨Or.inl rfl, fun h => h⟩
      · cases hs
    · cases hs
  | free =>
    simp only [step] at hs
    split at hs
    · cases hs; exact ⟨Or.inl rfl, fun _ => ⟨by simp, by simp⟩⟩
    · cases hs

theorem reachable_trans {sys : Sys} {a b c : State} (h1 : Reachable sys a b) (h2 : Reachable sys b c) :
    Reachable sys a c := by
  induction h2 with
  | start => exact h1
  | step _ hl hs ih => exact .step ih hl hs

theorem freeing_reachable {sys : Sys} {s s' : State} (hf : Freeing s.control) (h : Reachable sys s s') :
    Freeing s'.control := by
  induction h with
  | start => exact hf
  | step _ _ hs ih => exact (small_step hs).2 ih

theorem job_le_busy (l : List Worker) : (l.filterMap wJob).length ≤ l.countP wBusy := by
  induction l with
  | nil => simp
  | cons w l ih =>
    rw [List.filterMap_cons, List.countP_cons]
    cases w <;> simp only [wJob, wBusy, List.length_cons, if_true, Bool.false_eq_true, if_false] <;> omega

theorem busy_zero_job {l : List Worker} (h : l.countP wBusy = 0) : l.filterMap wJob = [] := by
  have := job_le_busy l
  exact List.eq_nil_of_length_eq_zero (by omega)

theorem countP_two {α : Type} (p : α → Bool) (z : α) (hz : p z = false) (l : List α) {i k : Nat} {x y : α}
    (hi : l[i]? = some x) (hk : l[k]? = some y) (hne : i ≠ k) (hx : p x = true) (hy : p y = true) : 2 ≤ l.countP p := by
  have h1 := countP_set p l i x z hi
  have h2 : (l.set i z)[k]? = some y := by rw [List.getElem?_set_ne hne, hk]
  have h3 := countP_pos p _ k y h2 hy
  rw [hx, hz] at h1
  simp only [Bool.toNat_true, Bool.toNat_false] at h1
  omega

/-- From every state the pool comes to rest. -/
theorem comes_to_rest {sys : Sys} {n queueSize nc : Nat} (hz : Sizes sys n queueSize) {s : State}
    (h : Reachable sys (create sys n queueSize nc) s) :
    ∃ (acts : List Action) (s' : State), (∀ a ∈ acts, Internal a = true) ∧ runs sys s acts = some s' ∧
      Reachable sys s s' ∧ Stuck sys s' := by
  induction s using less_wf.induction with
  | _ s ih =>
    by_cases hst : Stuck sys s
    · exact ⟨[], s, by simp, rfl, .start, hst⟩
    · simp only [Stuck, not_forall, not_not] at hst
      obtain ⟨a, ha, s1, hs1⟩ := hst
      obtain ⟨⟨q, hq⟩, _⟩ := inv_reachable hz h
      have hl : Legal sys s a := by cases a <;> trivial
      obtain ⟨acts, s', h1, h2, h3, h4⟩ := ih s1 (less_step hq ha hs1) (.step h hl hs1)
      refine ⟨a :: acts, s', ?_, ?_, reachable_trans (.step .start hl hs1) h3, h4⟩
      · intro b hb
        rcases List.mem_cons.1 hb with rfl | hb
        · exact ha
        · exact h1 b hb
      · simp only [runs, hs1, h2]

theorem no_endless {sys : Sys} {n queueSize nc : Nat} (hz : Sizes sys n queueSize) {st : Nat → State}
    {act : Nat → Action} (h0 : Reachable sys (create sys n queueSize nc) (st 0))
    (hl : ∀ k, Legal sys (st k) (act k)) (hs : ∀ k, step sys (st k) (act k) = .next (st (k + 1))) (N : Nat) :
    ∃ k, N ≤ k ∧ Internal (act k) = false := by
  by_contra hn
  have hn : ∀ k, N ≤ k → Internal (act k) = true := by
    intro k hk
    by_contra h
    exact hn ⟨k, hk, by simpa using h⟩
  have hr : ∀ k, Reachable sys (create sys n queueSize nc) (st k) := by
    intro k
    induction k with
    | zero => exact h0
    | succ k ih => exact .step ih (hl k) (hs k)
  have hless : ∀ k, Less (st (N + (k + 1))) (st (N + k)) := by
    intro k
    obtain ⟨⟨q, hq⟩, _⟩ := inv_reachable hz (hr (N + k))
    exact less_step hq (hn _ (by omega)) (hs (N + k))
  have : ∀ s k, s = st (N + k) → False := by
    intro s
    induction s using less_wf.induction with
    | _ s ih =>
      intro k hk
      exact ih (st (N + (k + 1))) (by rw [hk]; exact hless k) (k + 1) rfl
  exact this _ 0 rfl

end XXH.Proof.Pool
