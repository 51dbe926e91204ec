import Verif.Proof.PoolControl
/-! What is done under the mutex keeps the invariant. -/
namespace XXH.Proof.Pool
open XXH.Model.Pool

theorem room_of_lt {size len busy limit : Nat} (h : 1 < size) : room size len busy limit = size - 1 - len := by
  rw [room, if_pos h]

theorem room_le_one {size len busy limit : Nat} (h : ¬ 1 < size) : room size len busy limit ≤ 1 := by
  rw [room, if_neg h]; split <;> omega

/-! ### Signals -/

theorem inv_signalPush {s q} (h : Core s q) (hp : PopOk s q)
    (hu : ∀ l, s.threadLimit = some l → 0 < s.clients.countP Client.waits →
      room s.queueSize q.length s.numThreadsBusy l ≤ s.clients.countP cPush + 1 ∨
        s.queueSize = 1 ∧ 0 < s.numThreadsBusy)
    {w : Option Nat} {s' : State} (hs : signalPush s w = .next s') : Inv s' q := by
  cases w with
  | none =>
    simp only [signalPush] at hs
    split at hs
    · cases hs
    · rename_i hn
      cases hs
      have := (any_false_iff Client.waits s.clients).1 (by simpa using hn)
      exact ⟨h, hp, fun l _ hw => by omega⟩
  | some c =>
    simp only [signalPush] at hs
    split at hs
    · rename_i j hc
      cases hs
      have eA := countP_set cPush _ c _ (.lock (.add j)) hc
      have eW := countP_set Client.waits _ c _ (.lock (.add j)) hc
      simp only [cPush, Client.waits, Bool.toNat_false, Bool.toNat_true] at eA eW
      refine ⟨core_wakeClient h hc, hp, ?_⟩
      intro l hl hw'
      have := hu l hl
      dsimp only at hw' ⊢
      omega
    · cases hs

theorem inv_signalPop {s q} (h : Core s q) (hu : PushOk s q)
    (hp : ∀ l, s.threadLimit = some l → 0 < s.workers.countP Worker.waits →
      min q.length (l - s.numThreadsBusy) ≤ s.workers.countP wAwake + 1)
    {w : Option Nat} {s' : State} (hs : signalPop s w = .next s') : Inv s' q := by
  cases w with
  | none =>
    simp only [signalPop] at hs
    split at hs
    · cases hs
    · rename_i hn
      cases hs
      have := (any_false_iff Worker.waits s.workers).1 (by simpa using hn)
      exact ⟨h, fun l _ hw => by omega, hu⟩
  | some i =>
    simp only [signalPop] at hs
    split at hs
    · rename_i hw
      cases hs
      have eA := countP_set wAwake _ i _ .lock hw
      have eW := countP_set Worker.waits _ i _ .lock hw
      simp only [wAwake, Worker.waits, Bool.toNat_false, Bool.toNat_true] at eA eW
      refine ⟨core_wakeWorker h hw, ?_, hu⟩
      intro l hl hw'
      have := hp l hl
      dsimp only at hw' ⊢
      omega
    · cases hs

/-! ### Workers -/

theorem not_freed_of_holds {s q} (h : Core s q) {i : Nat} {w : Worker} (hw : s.workers[i]? = some w)
    (hh : wHolds w = true) : s.control ≠ .freed := by
  intro hg
  have := exited_not_lt (h.gone hg) hw
  rw [this] at hh
  simp [wHolds] at hh

theorem inv_sleep {s q} (h : Inv s q) {i : Nat} (hw : s.workers[i]? = some .hold) (ho : s.owner = some (.worker i))
    (hc : q = [] ∨ ∃ l, s.threadLimit = some l ∧ l ≤ s.numThreadsBusy) :
    Inv { s with owner := none, workers := s.workers.set i (if s.shutdown then .exited else .wait) } q := by
  obtain ⟨h, hp, hu⟩ := h
  obtain ⟨w', hw', hcase⟩ : ∃ w', w' = (if s.shutdown then Worker.exited else Worker.wait) ∧
      (s.shutdown = true ∧ w' = .exited ∨ s.shutdown = false ∧ w' = .wait) := by
    refine ⟨_, rfl, ?_⟩
    cases s.shutdown <;> simp
  rw [← hw']
  have hf := not_freed_of_holds h hw rfl
  have eH := countP_set wHolds _ i _ w' hw
  have eB := countP_set wBusy _ i _ w' hw
  have eA := countP_set wAwake _ i _ w' hw
  have eW := countP_set Worker.waits _ i _ w' hw
  have eE := countP_set wExited _ i _ w' hw
  have eF := filterMap_set wJob _ i _ w' hw
  have key : wHolds w' = false ∧ wBusy w' = false ∧ wJob w' = none ∧ wAwake w' = false := by
    rcases hcase with ⟨_, rfl⟩ | ⟨_, rfl⟩ <;> simp [wHolds, wBusy, wJob, wAwake]
  obtain ⟨k1, k2, k3, k4⟩ := key
  rw [k1, show wHolds .hold = true from rfl] at eH
  rw [k2, show wBusy .hold = false from rfl] at eB
  rw [k4, show wAwake .hold = true from rfl] at eA
  rw [show Worker.waits .hold = false from rfl] at eW
  rw [show wExited .hold = false from rfl] at eE
  rw [k3, show wJob .hold = none from rfl] at eF
  simp only [Bool.toNat_false, Bool.toNat_true] at eH eB eA eW eE
  simp only [Option.toList, List.nil_append] at eF
  have hT := workers_total (s.workers.set i w')
  rw [List.length_set] at hT
  refine ⟨?_, ?_, hu⟩
  · core_start h
    case perm => exact h.perm.trans (eF.symm.append_left _)
    case busy => rw [h.busy]; omega
    case holders =>
      have := h.holders
      rw [ho, if_neg (c := some _ = none) (by simp)] at this
      rw [if_pos (c := (none : Option Tid) = none) rfl]
      omega
    case ownerW => simp
    case ownerC => simp
    case ownerK => simp
    case creating => simpa using h.creating
    case capacity => simpa using h.capacity
    case limit => simpa using h.limit
    case exits =>
      intro hn
      have := h.exits hn
      rcases hcase with ⟨h1, _⟩ | ⟨_, rfl⟩
      · rw [hn] at h1; simp at h1
      · simp [wExited] at eE; omega
    case joined =>
      intro k hk
      obtain ⟨h1, h2⟩ := h.joined k hk
      have hd : s.shutdown = true := by rw [h.isDown, hk]; rfl
      refine ⟨?_, fun m hm => getElem_set_of hw (h2 m hm) (by simp)⟩
      rcases hcase with ⟨_, rfl⟩ | ⟨h1, _⟩
      · simp [Worker.waits] at eW; omega
      · rw [hd] at h1; simp at h1
    case gone => intro hg; exact absurd hg hf
    case alive =>
      intro hq
      rcases hc with hc | ⟨l, hl, hle⟩
      · exact absurd hc hq
      · have := (h.limit l hl).1
        have := h.busy
        rw [List.length_set]
        omega
  · intro l hl _
    dsimp only at hl ⊢
    rcases hc with hc | ⟨l', hl', hle⟩
    · simp [hc]
    · rw [hl] at hl'
      cases hl'
      omega

/-- The state after a worker has taken a job, before the signal. -/
def popped (s : State) (i : Nat) (j : Job) : State :=
  { s with
    queueHead := (s.queueHead + 1) % s.queueSize, numThreadsBusy := s.numThreadsBusy + 1
    queueEmpty := (s.queueHead + 1) % s.queueSize == s.queueTail, owner := none
    workers := s.workers.set i (.run j), started := s.started ++ [j] }

theorem inv_pop {s q} {j : Job} (h : Inv s (j :: q)) {i : Nat} (hw : s.workers[i]? = some .hold)
    (ho : s.owner = some (.worker i)) {l : Nat} (hl : s.threadLimit = some l) (hlt : s.numThreadsBusy < l)
    {w : Option Nat} {s' : State} (hs : signalPush (popped s i j) w = .next s') : Inv s' q := by
  obtain ⟨h, hp, hu⟩ := h
  have hf := not_freed_of_holds h hw rfl
  have eH := countP_set wHolds _ i _ (.run j) hw
  have eB := countP_set wBusy _ i _ (.run j) hw
  have eA := countP_set wAwake _ i _ (.run j) hw
  have eW := countP_set Worker.waits _ i _ (.run j) hw
  have eE := countP_set wExited _ i _ (.run j) hw
  have eF := filterMap_set wJob _ i _ (.run j) hw
  simp only [wHolds, wBusy, wAwake, Worker.waits, wExited, Bool.toNat_false, Bool.toNat_true] at eH eB eA eW eE
  simp only [wJob, Option.toList, List.nil_append, List.cons_append] at eF
  have hT := workers_total (s.workers.set i (.run j))
  rw [List.length_set] at hT
  have hr := h.ring.pop.2
  have hroom := h.ring.room
  simp only [List.length_cons] at hroom
  have hcore : Core (popped s i j) q := by
    unfold popped
    core_start h
    case ring => exact hr
    case hist => rw [h.hist, List.append_assoc]; rfl
    case perm =>
      refine (List.perm_append_singleton j s.started).trans ?_
      refine (h.perm.cons j).trans ?_
      exact List.perm_middle.symm.trans (eF.symm.append_left _)
    case busy => rw [h.busy]; omega
    case holders =>
      have := h.holders
      rw [ho, if_neg (c := some _ = none) (by simp)] at this
      rw [if_pos (c := (none : Option Tid) = none) rfl]
      omega
    case ownerW => simp
    case ownerC => simp
    case ownerK => simp
    case creating => simpa using h.creating
    case capacity => simpa using h.capacity
    case unset => intro hn; rw [hl] at hn; simp at hn
    case limit => simpa using h.limit
    case exits => intro hn; have := h.exits hn; omega
    case joined =>
      intro k hk
      obtain ⟨h1, h2⟩ := h.joined k hk
      exact ⟨by omega, fun m hm => getElem_set_of hw (h2 m hm) (by simp)⟩
    case gone => intro hg; exact absurd hg hf
    case alive => intro _; rw [List.length_set]; omega
  refine inv_signalPush hcore ?_ ?_ hs
  · intro l' hl' hw'
    have := hp l' hl'
    replace hl' : s.threadLimit = some l' := hl'
    rw [hl] at hl'
    cases hl'
    simp only [popped, List.length_cons] at hw' this ⊢
    omega
  · intro l' hl' hw'
    have := hu l' hl' hw'
    simp only [popped, List.length_cons] at this ⊢
    by_cases h1 : 1 < s.queueSize
    · rw [room_of_lt h1] at this ⊢
      omega
    · have := room_le_one (len := q.length) (busy := s.numThreadsBusy + 1) (limit := l') h1
      omega

/-- The state after a worker has come back from a job, before the signal. -/
def ended (s : State) (i : Nat) : State :=
  { s with owner := none, numThreadsBusy := s.numThreadsBusy - 1, workers := s.workers.set i .lock }

theorem inv_hold2 {s q} (h : Inv s q) {i : Nat} (hw : s.workers[i]? = some .hold2) (ho : s.owner = some (.worker i)) :
    Core (ended s i) q ∧ PopOk (ended s i) q ∧ (s.queueSize ≠ 1 → PushOk (ended s i) q) := by
  obtain ⟨h, hp, hu⟩ := h
  have hf := not_freed_of_holds h hw rfl
  have eH := countP_set wHolds _ i _ .lock hw
  have eB := countP_set wBusy _ i _ .lock hw
  have eA := countP_set wAwake _ i _ .lock hw
  have eW := countP_set Worker.waits _ i _ .lock hw
  have eE := countP_set wExited _ i _ .lock hw
  have eF := filterMap_set wJob _ i _ .lock hw
  simp only [wHolds, wBusy, wAwake, Worker.waits, wExited, Bool.toNat_false, Bool.toNat_true] at eH eB eA eW eE
  simp only [wJob, Option.toList, List.nil_append] at eF
  have hb := h.busy
  unfold ended
  refine ⟨?_, ?_, ?_⟩
  · core_start h
    case perm => exact h.perm.trans (eF.symm.append_left _)
    case busy => omega
    case holders =>
      have := h.holders
      rw [ho, if_neg (c := some _ = none) (by simp)] at this
      rw [if_pos (c := (none : Option Tid) = none) rfl]
      omega
    case ownerW => simp 
    case ownerC => simp 
    case ownerK => simp 
    case creating => simpa using h.creating
    case capacity => simpa using h.capacity
    case limit => simpa using h.limit
    case exits => intro hn; have := h.exits hn; omega
    case joined =>
      intro k hk
      obtain ⟨h1, h2⟩ := h.joined k hk
      exact ⟨by omega, fun m hm => getElem_set_of hw (h2 m hm) (by simp)⟩
    case gone => intro hg; exact absurd hg hf
    case alive => intro hq; have := h.alive hq; rw [List.length_set]; omega
  · intro l hl hw'
    have := hp l hl
    simp only  at hw' ⊢
    omega
  · intro hne l hl hw'
    have := hu l hl hw'
    have := h.ring.size_pos
    dsimp only at this ⊢
    have h1 : 1 < s.queueSize := by omega
    rw [room_of_lt h1] at *
    omega

end XXH.Proof.Pool
