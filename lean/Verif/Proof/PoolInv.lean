import Verif.Proof.PoolBase
/-! The invariant of the thread pool and the steps that are not under the mutex. -/
namespace XXH.Proof.Pool
open XXH.Model.Pool

/-- `POOL_free` has set `shutdown`. -/
def down : Control → Bool
  | .wakePush => true
  | .wakePop => true
  | .join _ => true
  | .freed => true
  | _ => false

/-- How many jobs `POOL_add` would take without waiting, as far as the waiting clients can know. -/
def room (size len busy limit : Nat) : Nat :=
  if 1 < size then size - 1 - len else if len = 0 ∧ busy ≠ limit then 1 else 0

/-- The part of the invariant that does not speak about lost wakeups; `q` are the jobs in the queue. -/
structure Core (s : State) (q : List Job) : Prop where
  ring : Ring s.queue s.queueHead s.queueTail s.queueSize s.queueEmpty q
  hist : s.accepted = s.started ++ q
  perm : s.started.Perm (s.finished ++ s.workers.filterMap wJob)
  busy : s.numThreadsBusy = s.workers.countP wBusy
  holders : s.workers.countP wHolds + s.clients.countP cHolds + (if s.control = .hold then 1 else 0) =
    (if s.owner = none then 0 else 1)
  ownerW : ∀ i, s.owner = some (.worker i) → ∃ w, s.workers[i]? = some w ∧ wHolds w = true
  ownerC : ∀ i, s.owner = some (.client i) → ∃ c, s.clients[i]? = some c ∧ cHolds c = true
  ownerK : s.owner = some .control → s.control = .hold
  creating : ∀ n, s.control = .creating n →
    s.threadLimit = none ∧ 1 ≤ n ∧ s.workers.length ≤ n ∧ n ≤ s.handles
  capacity : (∀ n, s.control ≠ .creating n) → s.threadCapacity = s.workers.length ∧ s.threadCapacity ≤ s.handles
  ready : s.control = .ready → ∃ l, s.threadLimit = some l
  unset : s.threadLimit = none → q = []
  limit : ∀ l, s.threadLimit = some l → 1 ≤ l ∧ 1 ≤ s.workers.length
  idle : s.control ≠ .ready → ∀ c ∈ s.clients, c = .idle
  isDown : s.shutdown = down s.control
  exits : s.shutdown = false → s.workers.countP wExited = 0
  joined : ∀ i, s.control = .join i →
    s.workers.countP Worker.waits = 0 ∧ ∀ k, k < i → s.workers[k]? = some .exited
  gone : s.control = .freed → s.workers.countP wExited = s.workers.length
  alive : q ≠ [] → s.workers.countP wExited < s.workers.length

/-- No wakeup of a worker is lost: enough workers are looking for jobs if some wait. -/
def PopOk (s : State) (q : List Job) : Prop :=
  ∀ l, s.threadLimit = some l → 0 < s.workers.countP Worker.waits →
    min q.length (l - s.numThreadsBusy) ≤ s.workers.countP wAwake

/-- No wakeup of a client is lost. -/
def PushOk (s : State) (q : List Job) : Prop :=
  ∀ l, s.threadLimit = some l → 0 < s.clients.countP Client.waits →
    room s.queueSize q.length s.numThreadsBusy l ≤ s.clients.countP cPush ∨ s.queueSize = 1 ∧ 0 < s.numThreadsBusy

/-- Holds in every reachable state. -/
structure Inv (s : State) (q : List Job) : Prop where
  core : Core s q
  popOk : PopOk s q
  pushOk : PushOk s q

/-- Proves the fields that have not changed. -/
macro "core_start" h:ident : tactic => `(tactic| (
  constructor <;> (try dsimp only) <;>
  (try first
    | exact ($h).ring
    | exact ($h).hist
    | exact ($h).perm
    | exact ($h).busy
    | exact ($h).holders
    | exact ($h).ownerW
    | exact ($h).ownerC
    | exact ($h).ownerK
    | exact ($h).creating
    | exact ($h).capacity
    | exact ($h).ready
    | exact ($h).unset
    | exact ($h).limit
    | exact ($h).idle
    | exact ($h).isDown
    | exact ($h).exits
    | exact ($h).joined
    | exact ($h).gone
    | exact ($h).alive)))

/-- A client that is in a call: the pool is ready and has a limit. -/
theorem Core.active {s q} (h : Core s q) {i : Nat} {c : Client} (hc : s.clients[i]? = some c) (hne : c ≠ .idle) :
    s.control = .ready ∧ ∃ l, s.threadLimit = some l := by
  have hr : s.control = .ready := by
    by_contra hn
    exact hne (h.idle hn c (List.mem_of_getElem? hc))
  exact ⟨hr, h.ready hr⟩

theorem idle_set {l : List Client} {i : Nat} {c d : Client} (hc : l[i]? = some c) (hne : c ≠ .idle) {P : Prop}
    (h : P → ∀ c ∈ l, c = .idle) : P → ∀ c ∈ l.set i d, c = .idle := by
  intro hp
  exact absurd (h hp c (List.mem_of_getElem? hc)) hne

theorem exited_not_lt {l : List Worker} (h : l.countP wExited = l.length) {i : Nat} {w : Worker} (hw : l[i]? = some w) :
    w = .exited := by
  have := List.countP_eq_length.1 h w (List.mem_of_getElem? hw)
  cases w <;> simp_all [wExited]

theorem getElem_set_of {α : Type} {l : List α} {i k : Nat} {x y a : α} (hi : l[i]? = some x) (hk : l[k]? = some y)
    (hne : x ≠ y) : (l.set i a)[k]? = some y := by
  rw [List.getElem?_set_ne, hk]
  rintro rfl
  rw [hi] at hk
  exact hne (Option.some.inj hk)

/-! ### The start -/

theorem inv_create (sys : Sys) (n queueSize nc : Nat) (hn : 1 ≤ n) (hj : 0 < sys.jobSize) (hh : 0 < sys.handleSize)
    (hq : (queueSize + 1) * sys.jobSize < 2^sys.sizeBits) (ht : n * sys.handleSize < 2^sys.sizeBits) :
    Inv (create sys n queueSize nc) [] := by
  have h1 : (queueSize + 1) % 2^sys.sizeBits = queueSize + 1 :=
    Nat.mod_eq_of_lt (lt_of_le_of_lt (Nat.le_mul_of_pos_right _ hj) hq)
  have h2 : sys.elems (queueSize + 1) sys.jobSize = queueSize + 1 := by
    rw [Sys.elems, Nat.mod_eq_of_lt hq, Nat.mul_div_cancel _ hj]
  have h3 : sys.elems n sys.handleSize = n := by
    rw [Sys.elems, Nat.mod_eq_of_lt ht, Nat.mul_div_cancel _ hh]
  have hidle : ∀ c ∈ List.replicate nc Client.idle, c = .idle := fun c hc => (List.mem_replicate.1 hc).2
  obtain ⟨c1, c2, c3⟩ := idle_counts _ hidle
  unfold create
  rw [h1]
  dsimp only
  rw [h2, h3]
  refine ⟨?_, fun l hl => by simp at hl, fun l hl => by simp at hl⟩
  constructor
  case ring =>
    exact ⟨by simp, by simp, by simp, by simp, by simp, by simp, fun k hk => absurd hk (by simp)⟩
  case hist => rfl
  case perm => exact List.Perm.refl _
  case busy => rfl
  case holders => simp [c1]
  case creating => intro m hm; cases hm; simp [hn]
  case idle => intro _; exact hidle
  all_goals first | (intros; rfl) | simp

/-! ### Changing the place of one worker -/

/-- A worker goes from one place to another; the fields of the pool stay. -/
theorem core_setWorker {s q} (h : Core s q) {i : Nat} {w w' : Worker} (hw : s.workers[i]? = some w)
    (hH : wHolds w = wHolds w') (hne : wHolds w = true → w = w') (hB : wBusy w = wBusy w') (hE : w ≠ .exited)
    (hE' : w' ≠ .exited) (hW : w' ≠ .wait) (hJ : wJob w' = none) :
    Core { s with workers := s.workers.set i w', finished := s.finished ++ (wJob w).toList } q := by
  have eH := countP_set wHolds _ i _ w' hw
  have eB := countP_set wBusy _ i _ w' hw
  have eW := countP_set Worker.waits _ i _ w' hw
  have eE := countP_set wExited _ i _ w' hw
  have eF := filterMap_set wJob _ i _ w' hw
  have x1 : wExited w = false := by cases w <;> simp_all [wExited]
  have x2 : wExited w' = false := by cases w' <;> simp_all [wExited]
  have x3 : Worker.waits w' = false := by cases w' <;> simp_all [Worker.waits]
  rw [hH] at eH
  rw [hB] at eB
  rw [x1, x2] at eE
  rw [x3] at eW
  simp only [hJ, Option.toList, List.nil_append] at eF
  simp only [Bool.toNat_false] at eE eW
  core_start h
  case perm =>
    refine h.perm.trans ?_
    rw [List.append_assoc]
    exact eF.symm.append_left _
  case busy => rw [h.busy]; omega
  case holders => have := h.holders; omega
  case ownerW =>
    intro k hk
    obtain ⟨v, hv, hh⟩ := h.ownerW k hk
    by_cases hki : k = i
    · subst hki
      rw [hw] at hv
      cases hv
      refine ⟨w, ?_, hh⟩
      rw [← hne hh]
      simp [List.getElem?_set]
      exact (List.getElem?_eq_some_iff.1 hw).1
    · exact ⟨v, by rw [List.getElem?_set_ne (Ne.symm hki), hv], hh⟩
  case creating => simpa using h.creating
  case capacity => simpa using h.capacity
  case limit => simpa using h.limit
  case exits => intro hn; have := h.exits hn; omega
  case joined =>
    intro k hk
    obtain ⟨h1, h2⟩ := h.joined k hk
    exact ⟨by omega, fun m hm => getElem_set_of hw (h2 m hm) hE⟩
  case gone =>
    intro hg
    exact absurd (exited_not_lt (h.gone hg) hw) hE
  case alive =>
    intro hq
    have := h.alive hq
    rw [List.length_set]; omega

/-! ### Steps without the mutex -/

theorem inv_jobDone {s q} (h : Inv s q) {i : Nat} {j : Job} (hw : s.workers[i]? = some (.run j)) :
    Inv { s with workers := s.workers.set i .lock2, finished := s.finished ++ [j] } q := by
  have eA := countP_set wAwake _ i _ .lock2 hw
  have eW := countP_set Worker.waits _ i _ .lock2 hw
  simp only [wAwake, Worker.waits, Bool.toNat_false] at eA eW
  refine ⟨core_setWorker h.core hw rfl (by simp [wHolds]) rfl (by simp) (by simp) (by simp) rfl, ?_, h.pushOk⟩
  intro l hl hw'
  have := h.popOk l hl
  dsimp only at hw' ⊢
  omega

/-- The worker wakes up. -/
theorem core_wakeWorker {s q} (h : Core s q) {i : Nat} (hw : s.workers[i]? = some .wait) :
    Core { s with workers := s.workers.set i .lock } q := by
  have := core_setWorker h hw (w' := .lock) rfl (by simp [wHolds]) rfl (by simp) (by simp) (by simp) rfl
  simpa [wJob] using this

theorem inv_wakeWorker {s q} (h : Inv s q) {i : Nat} (hw : s.workers[i]? = some .wait) :
    Inv { s with workers := s.workers.set i .lock } q := by
  have eA := countP_set wAwake _ i _ .lock hw
  have eW := countP_set Worker.waits _ i _ .lock hw
  simp only [wAwake, Worker.waits, Bool.toNat_false, Bool.toNat_true] at eA eW
  refine ⟨core_wakeWorker h.core hw, ?_, h.pushOk⟩
  intro l hl hw'
  have := h.popOk l hl
  dsimp only at hw' ⊢
  omega

/-- A client goes from one place to another, the mutex stays where it is. -/
theorem core_setClient {s q} (h : Core s q) {i : Nat} {c c' : Client} (hc : s.clients[i]? = some c)
    (hH : cHolds c = false) (hH' : cHolds c' = false) (hr : s.control = .ready) :
    Core { s with clients := s.clients.set i c' } q := by
  have eH := countP_set cHolds _ i _ c' hc
  rw [hH, hH'] at eH
  core_start h
  case holders => have := h.holders; simp only [Bool.toNat_false] at eH; omega
  case ownerC =>
    intro k hk
    obtain ⟨v, hv, hh⟩ := h.ownerC k hk
    refine ⟨v, getElem_set_of hc hv ?_, hh⟩
    rintro rfl
    simp [hH] at hh
  case idle => intro hn; exact absurd hr hn

theorem core_wakeClient {s q} (h : Core s q) {i : Nat} {j : Job} (hc : s.clients[i]? = some (.wait j)) :
    Core { s with clients := s.clients.set i (.lock (.add j)) } q :=
  core_setClient h hc rfl rfl (h.active hc (by simp)).1

theorem inv_wakeClient {s q} (h : Inv s q) {i : Nat} {j : Job} (hc : s.clients[i]? = some (.wait j)) :
    Inv { s with clients := s.clients.set i (.lock (.add j)) } q := by
  have eA := countP_set cPush _ i _ (.lock (.add j)) hc
  have eW := countP_set Client.waits _ i _ (.lock (.add j)) hc
  simp only [cPush, Client.waits, Bool.toNat_false, Bool.toNat_true] at eA eW
  refine ⟨core_wakeClient h.core hc, h.popOk, ?_⟩
  intro l hl hw'
  have := h.pushOk l hl
  dsimp only at hw' ⊢
  omega

theorem inv_call {s q} (h : Inv s q) {i : Nat} {r : Req} (hc : s.clients[i]? = some .idle) (hr : s.control = .ready) :
    Inv { s with clients := s.clients.set i (.lock r) } q := by
  have eA := countP_set cPush _ i _ (.lock r) hc
  have eW := countP_set Client.waits _ i _ (.lock r) hc
  simp only [cPush, Client.waits, Bool.toNat_false] at eA eW
  refine ⟨core_setClient h.core hc rfl rfl hr, h.popOk, ?_⟩
  intro l hl hw'
  have := h.pushOk l hl
  dsimp only at hw' ⊢
  omega

/-! ### Getting the mutex -/

theorem inv_lockWorker {s q} (h : Inv s q) {i : Nat} {w w' : Worker} (hw : s.workers[i]? = some w) (ho : s.owner = none)
    (hww : w = .lock ∧ w' = .hold ∨ w = .lock2 ∧ w' = .hold2) :
    Inv { s with owner := some (.worker i), workers := s.workers.set i w' } q := by
  obtain ⟨h, hp, hu⟩ := h
  have hf : s.control ≠ .freed := by
    intro hg
    have := exited_not_lt (h.gone hg) hw
    rcases hww with ⟨rfl, _⟩ | ⟨rfl, _⟩ <;> simp at this
  have hi : i < s.workers.length := (List.getElem?_eq_some_iff.1 hw).1
  have eH := countP_set wHolds _ i _ w' hw
  have eB := countP_set wBusy _ i _ w' hw
  have eA := countP_set wAwake _ i _ w' hw
  have eW := countP_set Worker.waits _ i _ w' hw
  have eE := countP_set wExited _ i _ w' hw
  have eF := filterMap_set wJob _ i _ w' hw
  have key : wHolds w' = true ∧ wHolds w = false ∧ wBusy w = wBusy w' ∧ wAwake w = wAwake w' ∧ w ≠ .exited ∧
      Worker.waits w = false ∧ Worker.waits w' = false ∧ wExited w = false ∧ wExited w' = false ∧ wJob w = none ∧
      wJob w' = none := by
    rcases hww with ⟨rfl, rfl⟩ | ⟨rfl, rfl⟩ <;> simp [wHolds, wBusy, wAwake, Worker.waits, wExited, wJob]
  obtain ⟨k1, k2, k3, k4, k5, k6, k7, k8, k9, k10, k11⟩ := key
  rw [k1, k2] at eH
  rw [k3] at eB
  rw [k4] at eA
  rw [k6, k7] at eW
  rw [k8, k9] at eE
  simp only [k10, k11, Option.toList, List.nil_append] at eF
  simp only [Bool.toNat_false, Bool.toNat_true] at eH eW eE
  refine ⟨?_, ?_, hu⟩
  · core_start h
    case perm => exact h.perm.trans (eF.symm.append_left _)
    case busy => rw [h.busy]; omega
    case holders => have := h.holders; rw [ho, if_pos rfl] at this; rw [if_neg (c := some _ = none) (by simp)]; omega
    case ownerW =>
      intro k hk
      simp only [Option.some.injEq, Tid.worker.injEq] at hk
      subst hk
      exact ⟨w', by simp [hi], k1⟩
    case ownerC => simp
    case ownerK => simp
    case creating => simpa using h.creating
    case capacity => simpa using h.capacity
    case limit => simpa using h.limit
    case exits => intro hn; have := h.exits hn; omega
    case joined =>
      intro k hk
      obtain ⟨h1, h2⟩ := h.joined k hk
      exact ⟨by omega, fun m hm => getElem_set_of hw (h2 m hm) k5⟩
    case gone => intro hg; exact absurd hg hf
    case alive => intro hq; have := h.alive hq; rw [List.length_set]; omega
  · intro l hl hw'
    have := hp l hl
    dsimp only at hw' ⊢
    omega

theorem inv_lockClient {s q} (h : Inv s q) {i : Nat} {r : Req} (hc : s.clients[i]? = some (.lock r))
    (ho : s.owner = none) : Inv { s with owner := some (.client i), clients := s.clients.set i (.hold r) } q := by
  obtain ⟨h, hp, hu⟩ := h
  have hi : i < s.clients.length := (List.getElem?_eq_some_iff.1 hc).1
  have hr := (h.active hc (by simp)).1
  have eH := countP_set cHolds _ i _ (.hold r) hc
  have eA := countP_set cPush _ i _ (.hold r) hc
  have eW := countP_set Client.waits _ i _ (.hold r) hc
  have ep : cPush (.lock r) = cPush (.hold r) := by cases r <;> rfl
  rw [ep] at eA
  simp only [cHolds, Client.waits, Bool.toNat_false, Bool.toNat_true] at eH eW
  refine ⟨?_, hp, ?_⟩
  · core_start h
    case holders => have := h.holders; rw [ho, if_pos rfl] at this; rw [if_neg (c := some _ = none) (by simp)]; omega
    case ownerW => simp
    case ownerC =>
      intro k hk
      simp only [Option.some.injEq, Tid.client.injEq] at hk
      subst hk
      exact ⟨.hold r, by simp [hi], rfl⟩
    case ownerK => simp
    case idle => intro hn; exact absurd hr hn
  · intro l hl hw'
    have := hu l hl
    dsimp only at hw' ⊢
    omega

theorem inv_lockControl {s q} (h : Inv s q) (hk : s.control = .lock) (ho : s.owner = none) :
    Inv { s with owner := some .control, control := .hold } q := by
  obtain ⟨h, hp, hu⟩ := h
  refine ⟨?_, hp, hu⟩
  core_start h
  case holders => have := h.holders; rw [ho, hk] at this; simp at this ⊢; omega
  case ownerW => simp
  case ownerC => simp
  case ownerK => simp
  case creating => simp
  case capacity => intro _; exact h.capacity (by simp [hk])
  case ready => simp
  case idle => intro _; exact h.idle (by simp [hk])
  case isDown => rw [h.isDown, hk]; rfl
  case joined => simp
  case gone => simp

end XXH.Proof.Pool
