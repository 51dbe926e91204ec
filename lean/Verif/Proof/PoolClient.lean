import Verif.Proof.PoolSection
/-! What clients do under the mutex keeps the invariant. -/
namespace XXH.Proof.Pool
open XXH.Model.Pool

/-- A client releases the mutex. -/
theorem core_release {s q} (h : Core s q) {i : Nat} {r : Req} {c' : Client} (hc : s.clients[i]? = some (.hold r))
    (ho : s.owner = some (.client i)) (hH' : cHolds c' = false) :
    Core { s with owner := none, clients := s.clients.set i c' } q := by
  have hr := (h.active hc (by simp)).1
  have eH := countP_set cHolds _ i _ c' hc
  rw [hH', show cHolds (.hold r) = true from rfl] at eH
  simp only [Bool.toNat_false, Bool.toNat_true] at eH
  core_start h
  case holders =>
    have := h.holders
    rw [ho, if_neg (c := some _ = none) (by simp)] at this
    rw [if_pos (c := (none : Option Tid) = none) rfl]
    omega
  case ownerW => simp
  case ownerC => simp
  case ownerK => simp
  case idle => intro hn; exact absurd hr hn

/-- `isQueueFull` has an answer, and what it says about the queue. -/
theorem full_spec {s q} (h : Core s q) {l : Nat} (hl : s.threadLimit = some l) :
    ∃ b, isQueueFull s = some b ∧
      (b = true → room s.queueSize q.length s.numThreadsBusy l = 0) ∧
      (b = false → s.queueSize = 1 ∧ q.length = 0 ∧ s.numThreadsBusy ≠ l ∨ 1 < s.queueSize ∧ q.length + 2 ≤ s.queueSize) := by
  have hpos := h.ring.size_pos
  have hroom := h.ring.room
  unfold isQueueFull
  by_cases h1 : 1 < s.queueSize
  · rw [if_pos h1]
    refine ⟨_, rfl, ?_, ?_⟩
    · intro hb
      have := (h.ring.full_iff h1).1 (by simpa using hb)
      rw [room_of_lt h1]
      omega
    · intro hb
      have := mt (h.ring.full_iff h1).2 (by simpa using hb)
      omega
  · rw [if_neg h1, hl]
    refine ⟨_, rfl, ?_, ?_⟩
    · intro hb
      rw [h.ring.empty_iff] at hb
      rw [room, if_neg h1, if_neg]
      simp only [Bool.or_eq_true, decide_eq_true_eq, Bool.not_eq_true', decide_eq_false_iff_not] at hb
      omega
    · intro hb
      rw [h.ring.empty_iff] at hb
      simp only [Bool.or_eq_false_iff, decide_eq_false_iff_not, Bool.not_eq_false', decide_eq_true_eq] at hb
      omega

theorem inv_addWait {s q} (h : Inv s q) {i : Nat} {j : Job} (hc : s.clients[i]? = some (.hold (.add j)))
    (ho : s.owner = some (.client i)) (hf : isQueueFull s = some true) :
    Inv { s with owner := none, clients := s.clients.set i (.wait j) } q := by
  obtain ⟨h, hp, hu⟩ := h
  obtain ⟨_, l, hl⟩ := h.active hc (by simp)
  obtain ⟨b, hb, h1, _⟩ := full_spec h hl
  rw [hf] at hb
  cases hb
  refine ⟨core_release h hc ho rfl, hp, ?_⟩
  intro l' hl' _
  dsimp only at hl' ⊢
  rw [hl] at hl'
  cases hl'
  have := h1 rfl
  omega

theorem inv_release {s q} (h : Inv s q) {i : Nat} {r : Req} (hc : s.clients[i]? = some (.hold r))
    (ho : s.owner = some (.client i)) (hr : ∀ j, r ≠ .add j) :
    Inv { s with owner := none, clients := s.clients.set i .idle } q := by
  obtain ⟨h, hp, hu⟩ := h
  refine ⟨core_release h hc ho rfl, hp, ?_⟩
  have eA := countP_set cPush _ i _ .idle hc
  have eW := countP_set Client.waits _ i _ .idle hc
  rw [show cPush (.hold r) = false by cases r <;> simp_all [cPush]] at eA
  simp only [cPush, Client.waits, Bool.toNat_false] at eA eW
  intro l hl hw
  have := hu l hl
  dsimp only at hw ⊢
  omega

theorem inv_refuse {s q} (h : Inv s q) {i : Nat} {j : Job} (hc : s.clients[i]? = some (.hold (.tryAdd j)))
    (ho : s.owner = some (.client i)) :
    Inv { s with owner := none, clients := s.clients.set i .idle, refused := s.refused ++ [j] } q := by
  obtain ⟨h, hp, hu⟩ := inv_release h hc ho (by simp)
  refine ⟨?_, hp, hu⟩
  core_start h

/-- The state after the job is in the queue, before the signal. -/
def pushed (s : State) (i : Nat) (j : Job) : State :=
  { s with
    owner := none, clients := s.clients.set i .idle, queueEmpty := false, queue := s.queue.set s.queueTail (some j)
    queueTail := (s.queueTail + 1) % s.queueSize, accepted := s.accepted ++ [j] }

theorem inv_push {s q} (h : Inv s q) {i : Nat} {r : Req} {j : Job} (hc : s.clients[i]? = some (.hold r))
    (ho : s.owner = some (.client i)) {l : Nat} (hl : s.threadLimit = some l)
    (hf : s.queueSize = 1 ∧ q.length = 0 ∧ s.numThreadsBusy ≠ l ∨ 1 < s.queueSize ∧ q.length + 2 ≤ s.queueSize)
    {w : Option Nat} {s' : State} (hs : signalPop (pushed s i j) w = .next s') : Inv s' (q ++ [j]) := by
  obtain ⟨h, hp, hu⟩ := h
  have h0 := core_release h hc ho (c' := .idle) rfl
  have hr := (h.active hc (by simp)).1
  have hd : s.shutdown = false := by rw [h.isDown, hr]; rfl
  have hring := (h.ring.push j (by omega)).2
  have hcore : Core (pushed s i j) (q ++ [j]) := by
    unfold pushed
    core_start h0
    case ring => exact hring
    case hist => rw [h.hist, List.append_assoc]
    case unset => intro hn; rw [hl] at hn; simp at hn
    case alive =>
      intro _
      have := h.exits hd
      have := (h.limit l hl).2
      omega
  have eA := countP_set cPush _ i _ .idle hc
  have eW := countP_set Client.waits _ i _ .idle hc
  simp only [show cPush .idle = false from rfl, Client.waits, Bool.toNat_false] at eA eW
  have hA : (cPush (.hold r)).toNat ≤ 1 := Bool.toNat_le _
  refine inv_signalPop hcore ?_ ?_ hs
  · intro l' hl' hw
    have := hu l' hl'
    simp only [pushed, List.length_append, List.length_cons, List.length_nil] at hw ⊢
    have h2 : 0 < s.clients.countP Client.waits := by omega
    have := this h2
    by_cases h1 : 1 < s.queueSize
    · rw [room_of_lt h1] at this ⊢
      omega
    · left
      rw [room, if_neg h1, if_neg (by omega)]
      omega
  · intro l' hl' hw
    have := hp l' hl' hw
    simp only [pushed, List.length_append, List.length_cons, List.length_nil] at this ⊢
    omega

/-! ### `POOL_resize` -/

theorem inv_wakeAll {s q} (h : Core s q) (hu : PushOk s q) : Inv (broadcastPop s) q :=
  ⟨core_wakeAll h, fun l _ hw => by simp only [broadcastPop] at hw; rw [awake_waits] at hw; omega, hu⟩

theorem core_setLimit {s q} (h : Core s q) (hr : s.control = .ready) {n : Nat} (hn : 1 ≤ n) :
    Core { s with threadLimit := some n } q := by
  obtain ⟨l, hl⟩ := h.ready hr
  have := (h.limit l hl).2
  core_start h
  case creating => simp [hr]
  case ready => simp
  case unset => simp
  case limit => intro m hm; cases hm; exact ⟨hn, this⟩

theorem pushOk_setLimit {s q} (hc : Core s q) (h : PushOk s q) (hr : s.control = .ready) {n : Nat} (hn : 1 ≤ n) :
    PushOk { s with threadLimit := some n } q := by
  obtain ⟨l, hl⟩ := hc.ready hr
  have hl1 := (hc.limit l hl).1
  have hpos := hc.ring.size_pos
  intro m hm hw
  dsimp only at hm hw ⊢
  cases hm
  have := h l hl hw
  by_cases h1 : 1 < s.queueSize
  · rw [room_of_lt h1] at this ⊢
    exact this
  · by_cases h0 : s.numThreadsBusy = 0
    · rw [room, if_neg h1] at this ⊢
      rw [h0] at this ⊢
      have e1 : (0 : Nat) ≠ l := by omega
      have e2 : (0 : Nat) ≠ n := by omega
      simpa [e1, e2] using this
    · right; omega

theorem core_grow {s q} (h : Core s q) (hr : s.control = .ready) {k m : Nat} (hm : s.threadCapacity + k ≤ m) :
    Core { s with handles := m, threadCapacity := s.threadCapacity + k
                  workers := s.workers ++ List.replicate k .lock } q := by
  have c1 : (List.replicate k Worker.lock).countP wHolds = 0 := by
    rw [List.countP_eq_zero]; intro w hw; rw [(List.mem_replicate.1 hw).2]; simp [wHolds]
  have c2 : (List.replicate k Worker.lock).countP wBusy = 0 := by
    rw [List.countP_eq_zero]; intro w hw; rw [(List.mem_replicate.1 hw).2]; simp [wBusy]
  have c3 : (List.replicate k Worker.lock).countP wExited = 0 := by
    rw [List.countP_eq_zero]; intro w hw; rw [(List.mem_replicate.1 hw).2]; simp [wExited]
  have c4 : (List.replicate k Worker.lock).filterMap wJob = [] := by
    rw [List.filterMap_eq_nil_iff]; intro w hw; rw [(List.mem_replicate.1 hw).2]; rfl
  have hcap := h.capacity (by simp [hr])
  core_start h
  case perm => rw [List.filterMap_append, c4, List.append_nil]; exact h.perm
  case busy => rw [List.countP_append, c2]; exact h.busy
  case holders => rw [List.countP_append, c1]; exact h.holders
  case ownerW =>
    intro i hi
    obtain ⟨w, hw, hh⟩ := h.ownerW i hi
    exact ⟨w, by rw [List.getElem?_append_left (List.getElem?_eq_some_iff.1 hw).1, hw], hh⟩
  case creating => simp [hr]
  case capacity => intro _; simp; omega
  case limit =>
    intro l hl
    have := h.limit l hl
    simp
    omega
  case exits => rw [List.countP_append, c3]; exact h.exits
  case joined => simp [hr]
  case gone => simp [hr]
  case alive => intro hq; have := h.alive hq; rw [List.countP_append, c3]; simp; omega

theorem inv_resize {sys : Sys} {s q} (h : Inv s q) (hr : s.control = .ready) {n : Nat} (hh : 0 < sys.handleSize)
    (hn : n * sys.handleSize < 2^sys.sizeBits) (k : Option Nat) :
    resize sys s n k ≠ .undefined ∧ ∀ s', resize sys s n k = .next s' → Inv s' q := by
  obtain ⟨h, hp, hu⟩ := h
  have hcap := h.capacity (by simp [hr])
  have hel : sys.elems n sys.handleSize = n := by
    rw [Sys.elems, Nat.mod_eq_of_lt hn, Nat.mul_div_cancel _ hh]
  unfold resize
  split
  · split
    · exact ⟨by simp, fun s' hs => by cases hs; exact inv_wakeAll h hu⟩
    · have hn1 : 1 ≤ n := by omega
      exact ⟨by simp, fun s' hs => by
        cases hs; exact inv_wakeAll (core_setLimit h hr hn1) (pushOk_setLimit h hu hr hn1)⟩
  · rename_i hgt
    cases k with
    | none => exact ⟨by simp, fun s' hs => by cases hs; exact inv_wakeAll h hu⟩
    | some k =>
      dsimp only
      rw [hel]
      split
      · exact ⟨by simp, fun s' hs => by cases hs⟩
      · rename_i hk
        have hm : s.threadCapacity + k ≤ n := by omega
        rw [if_neg (by omega)]
        have hg := core_grow h hr hm
        split
        · exact ⟨by simp, fun s' hs => by cases hs; exact inv_wakeAll hg hu⟩
        · have hn1 : 1 ≤ n := by omega
          exact ⟨by simp, fun s' hs => by
            cases hs; exact inv_wakeAll (core_setLimit hg hr hn1) (pushOk_setLimit hg hu hr hn1)⟩

end XXH.Proof.Pool
