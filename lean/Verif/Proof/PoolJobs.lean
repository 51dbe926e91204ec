import Verif.Proof.PoolMeasure
/-! No job gets lost on its way through the pool. -/
namespace XXH.Proof.Pool
open XXH.Model.Pool

/-- The job a client is about to hand over. -/
def cJob : Client → Option Job
  | .lock (.add j) => some j
  | .lock (.tryAdd j) => some j
  | .hold (.add j) => some j
  | .hold (.tryAdd j) => some j
  | .wait j => some j
  | _ => none

/-- All jobs handed over or about to be. -/
def bag (s : State) : List Job := s.accepted ++ s.refused ++ s.clients.filterMap cJob

/-- The job of an action. -/
def aJob : Action → List Job
  | .call _ (.add j) => [j]
  | .call _ (.tryAdd j) => [j]
  | _ => []

theorem called_append (as bs : List Action) : called (as ++ bs) = called as ++ called bs := by
  induction as with
  | nil => rfl
  | cons a as ih =>
    cases a with
    | call c r => cases r <;> simp [called, ih]
    | _ => simp [called, ih]

theorem called_single (a : Action) : called [a] = aJob a := by
  cases a with
  | call c r => cases r <;> rfl
  | _ => rfl

theorem clients_set_same {l : List Client} {i : Nat} {c d : Client} (hc : l[i]? = some c) (h : cJob c = cJob d) :
    ((l.set i d).filterMap cJob).Perm (l.filterMap cJob) := by
  have := filterMap_set cJob l i c d hc
  rw [h] at this
  exact (List.perm_append_left_iff _).1 this

theorem clients_set_drop {l : List Client} {i : Nat} {c d : Client} {j : Job} (hc : l[i]? = some c)
    (h : cJob c = some j) (hd : cJob d = none) :
    (j :: (l.set i d).filterMap cJob).Perm (l.filterMap cJob) := by
  have := filterMap_set cJob l i c d hc
  rw [h, hd] at this
  simpa using this

theorem bag_of_clients {s s' : State} (ha : s'.accepted = s.accepted) (hr : s'.refused = s.refused)
    (hc : (s'.clients.filterMap cJob).Perm (s.clients.filterMap cJob)) : (bag s').Perm (bag s) := by
  unfold bag
  rw [ha, hr]
  exact hc.append_left _

theorem bag_eq {s s' : State} (ha : s'.accepted = s.accepted) (hr : s'.refused = s.refused)
    (hc : s'.clients = s.clients) : (bag s').Perm (bag s) :=
  bag_of_clients ha hr (by rw [hc])

theorem bag_signalPush {s s' : State} {w : Option Nat} (hs : signalPush s w = .next s') : (bag s').Perm (bag s) := by
  cases w <;> simp only [signalPush] at hs <;> split at hs <;> cases hs
  · exact List.Perm.refl _
  · rename_i j hc
    exact bag_of_clients rfl rfl (clients_set_same hc rfl)

theorem bag_signalPop {s s' : State} {w : Option Nat} (hs : signalPop s w = .next s') : (bag s').Perm (bag s) := by
  cases w <;> simp only [signalPop] at hs <;> split at hs <;> cases hs <;> exact List.Perm.refl _

theorem bag_control {s : State} {ok : Bool} {s' : State} (hs : controlStep s ok = .next s') :
    (bag s').Perm (bag s) := by
  unfold controlStep at hs
  split at hs
  · split at hs
    · split at hs
      · split at hs
        · cases hs
        · cases hs; exact List.Perm.refl _
      · cases hs; exact List.Perm.refl _
    · cases hs; exact List.Perm.refl _
  · cases hs
    refine bag_of_clients rfl rfl ?_
    dsimp only
    rw [List.filterMap_map]
    have : (cJob ∘ Client.awake) = cJob := by funext c; cases c <;> rfl
    rw [this]
  · cases hs; exact List.Perm.refl _
  · split at hs
    · split at hs
      · cases hs; exact List.Perm.refl _
      · cases hs
    · cases hs; exact List.Perm.refl _
  · cases hs

theorem bag_lock {s : State} {t : Tid} {s' : State} (hs : lockStep s t = .next s') : (bag s').Perm (bag s) := by
  unfold lockStep at hs
  split at hs
  · cases hs
  · split at hs
    · split at hs
      · cases hs; exact List.Perm.refl _
      · cases hs; exact List.Perm.refl _
      · cases hs
    · split at hs
      · rename_i r hc
        cases hs
        exact bag_of_clients rfl rfl (clients_set_same hc (by cases r <;> rfl))
      · cases hs
    · split at hs
      · cases hs; exact List.Perm.refl _
      · cases hs

theorem bag_worker {s : State} {i : Nat} {ch : Choice} {s' : State} (hs : workerSection s i ch = .next s') :
    (bag s').Perm (bag s) := by
  unfold workerSection at hs
  split at hs
  · split at hs
    · cases hs; exact List.Perm.refl _
    · split at hs
      · cases hs
      · split at hs
        · cases hs; exact List.Perm.refl _
        · unfold pop at hs
          split at hs
          · split at hs
            · cases hs
            · exact (bag_signalPush hs).trans (bag_eq rfl rfl rfl)
          · cases hs
  · dsimp only at hs
    split at hs
    · exact (bag_signalPush hs).trans (bag_eq rfl rfl rfl)
    · cases hs; exact List.Perm.refl _
  · cases hs

theorem bag_add {s : State} {c : Nat} {r : Req} {j : Job} (hc : s.clients[c]? = some (.hold r))
    (hr : cJob (.hold r) = some j) (hd : s.shutdown = false) {w : Option Nat} {s' : State}
    (hs : addInternal s c j w = .next s') : (bag s').Perm (bag s) := by
  unfold addInternal at hs
  dsimp only at hs
  rw [if_neg (by simp [hd])] at hs
  split at hs
  · cases hs
  · refine (bag_signalPop hs).trans ?_
    unfold bag
    dsimp only
    have h1 := clients_set_drop (d := .idle) hc hr rfl
    refine List.Perm.trans ?_ (h1.append_left (s.accepted ++ s.refused))
    rw [List.append_assoc, List.append_assoc, List.append_assoc]
    refine List.Perm.append_left _ ?_
    exact (List.perm_middle (a := j) (l₁ := s.refused)).symm

theorem resize_jobs {sys : Sys} {s s' : State} {n : Nat} {k : Option Nat} (hs : resize sys s n k = .next s') :
    s'.accepted = s.accepted ∧ s'.refused = s.refused := by
  unfold resize at hs
  dsimp only at hs
  split at hs
  · split at hs <;> (injection hs with hs; rw [← hs]; exact ⟨rfl, rfl⟩)
  · split at hs
    · injection hs with hs; rw [← hs]; exact ⟨rfl, rfl⟩
    · split at hs
      · cases hs
      · split at hs
        · cases hs
        · split at hs <;> (injection hs with hs; rw [← hs]; exact ⟨rfl, rfl⟩)

theorem bag_client {sys : Sys} {s q} (h : Inv s q) {c : Nat} {ch : Choice} {s' : State}
    (hs : clientSection sys s c ch = .next s') : (bag s').Perm (bag s) := by
  unfold clientSection at hs
  split at hs
  · rename_i j hc
    have hr := (h.core.active hc (by simp)).1
    have hd : s.shutdown = false := by rw [h.core.isDown, hr]; rfl
    split at hs
    · cases hs
    · split at hs
      · cases hs
        exact bag_of_clients rfl rfl (clients_set_same hc rfl)
      · exact bag_add hc rfl hd hs
  · rename_i j hc
    have hr := (h.core.active hc (by simp)).1
    have hd : s.shutdown = false := by rw [h.core.isDown, hr]; rfl
    split at hs
    · cases hs
    · cases hs
      unfold bag
      dsimp only
      have h1 := clients_set_drop (d := .idle) hc (j := j) rfl rfl
      refine List.Perm.trans ?_ (h1.append_left (s.accepted ++ s.refused))
      simp only [List.append_assoc]
      rfl
    · exact bag_add hc rfl hd hs
  · rename_i n hc
    obtain ⟨h1, h2⟩ := resize_jobs hs
    have h3 := resize_clients hs
    refine bag_of_clients h1 h2 ?_
    rw [h3]
    exact clients_set_same hc rfl
  · cases hs

/-- A step neither loses nor makes up a job. -/
theorem bag_step {sys : Sys} {s q} (h : Inv s q) {a : Action} {s' : State} (hs : step sys s a = .next s') :
    (bag s').Perm (bag s ++ aJob a) := by
  cases a with
  | control ok => simpa [aJob] using bag_control hs
  | call c r =>
    simp only [step] at hs
    split at hs
    · cases hs
    · rename_i hc
      split at hs
      · cases hs
      · cases hs
        have := filterMap_set cJob _ c _ (.lock r) (by simpa using hc : s.clients[c]? = some .idle)
        simp only [cJob, Option.toList, List.nil_append] at this
        unfold bag
        dsimp only
        have e : (cJob (.lock r)).toList = aJob (.call c r) := by cases r <;> rfl
        rw [List.append_assoc (s.accepted ++ s.refused)]
        refine List.Perm.append_left _ ?_
        rw [← e]
        refine List.Perm.trans ?_ List.perm_append_comm
        cases r <;> simpa [cJob] using this
  | lock t =>
    simp only [step] at hs
    split at hs
    · rename_i s1 h1
      split at hs
      · cases hs
      · cases hs; simpa [aJob] using bag_lock h1
    · rename_i hn; exact absurd hs (hn _)
  | «section» t ch =>
    simp only [step] at hs
    have key : ∀ s1, sectionStep sys s t ch = .next s1 → (bag s1).Perm (bag s) := by
      intro s1 h1
      unfold sectionStep at h1
      split at h1
      · cases h1
      · split at h1
        · exact bag_worker h1
        · exact bag_client h h1
        · split at h1
          · cases h1; exact List.Perm.refl _
          · cases h1
    split at hs
    · rename_i s1 h1
      split at hs
      · cases hs
      · cases hs; simpa [aJob] using key _ h1
    · rename_i hn; exact absurd hs (hn _)
  | jobDone i =>
    simp only [step] at hs
    split at hs
    · cases hs; simp only [aJob, List.append_nil]; exact List.Perm.refl _
    · cases hs
  | wake t =>
    simp only [step] at hs
    unfold wakeStep at hs
    split at hs
    · split at hs
      · cases hs; simp only [aJob, List.append_nil]; exact List.Perm.refl _
      · cases hs
    · split at hs
      · rename_i hc
        cases hs
        simp only [aJob, List.append_nil]
        exact bag_of_clients rfl rfl (clients_set_same hc rfl)
      · cases hs
    · cases hs
  | free =>
    simp only [step] at hs
    split at hs
    · cases hs; simp only [aJob, List.append_nil]; exact List.Perm.refl _
    · cases hs

theorem exec_reachable {sys : Sys} {start : State} {acts : List Action} {s : State} (h : Exec sys start acts s) :
    Reachable sys start s := by
  induction h with
  | start => exact .start
  | step _ hl hs ih => exact .step ih hl hs

theorem bag_exec {sys : Sys} {n queueSize nc : Nat} (hz : Sizes sys n queueSize) {acts : List Action} {s : State}
    (h : Exec sys (create sys n queueSize nc) acts s) : (bag s).Perm (called acts) := by
  induction h with
  | start =>
    have : (List.replicate nc Client.idle).filterMap cJob = [] := by
      rw [List.filterMap_eq_nil_iff]; intro c hc; rw [(List.mem_replicate.1 hc).2]; rfl
    show (([] : List Job) ++ [] ++ (List.replicate nc Client.idle).filterMap cJob).Perm []
    rw [this]
    exact List.Perm.refl _
  | step he hl hs ih =>
    obtain ⟨⟨q, hq⟩, _⟩ := inv_reachable hz (exec_reachable he)
    rw [called_append, called_single]
    exact (bag_step hq hs).trans (ih.append_right _)

end XXH.Proof.Pool
