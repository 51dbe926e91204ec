import Verif.Proof.PoolStep
/-! The thread pool does not get stuck. -/
namespace XXH.Proof.Pool
open XXH.Model.Pool

theorem signalPush_exists (s : State) : ∃ w s', signalPush s w = .next s' := by
  by_cases h : s.clients.any Client.waits = true
  · obtain ⟨c, hc, hw⟩ := List.any_eq_true.1 h
    obtain ⟨i, hi⟩ := List.getElem?_of_mem hc
    cases c with
    | wait j => exact ⟨some i, _, by simp only [signalPush, hi]; rfl⟩
    | _ => simp [Client.waits] at hw
  · exact ⟨none, s, by simp only [signalPush]; rw [if_neg h]⟩

theorem signalPop_exists (s : State) : ∃ w s', signalPop s w = .next s' := by
  by_cases h : s.workers.any Worker.waits = true
  · obtain ⟨c, hc, hw⟩ := List.any_eq_true.1 h
    obtain ⟨i, hi⟩ := List.getElem?_of_mem hc
    cases c with
    | wait => exact ⟨some i, _, by simp only [signalPop, hi]; rfl⟩
    | _ => simp [Worker.waits] at hw
  · exact ⟨none, s, by simp only [signalPop]; rw [if_neg h]⟩

theorem worker_goes {s q} (h : Inv s q) {i : Nat} {w : Worker} (hw : s.workers[i]? = some w) (hh : wHolds w = true) :
    ∃ ch s', workerSection s i ch = .next s' := by
  cases w with
  | hold =>
    unfold workerSection
    rw [hw]
    dsimp only
    split
    · exact ⟨⟨none, none⟩, _, rfl⟩
    · rename_i he
      rw [h.core.ring.empty_iff] at he
      have hq : q ≠ [] := by rintro rfl; simp at he
      split
      · rename_i hl; exact absurd (h.core.unset hl) hq
      · split
        · exact ⟨⟨none, none⟩, _, rfl⟩
        · obtain ⟨j, q', rfl⟩ := List.exists_cons_of_ne_nil hq
          have hpop := h.core.ring.pop.1
          have hpos := h.core.ring.size_pos
          obtain ⟨w, s', hs⟩ := signalPush_exists (popped s i j)
          refine ⟨⟨w, none⟩, s', ?_⟩
          unfold pop
          rw [hpop]
          dsimp only
          rw [if_neg (by omega)]
          exact hs
  | hold2 =>
    unfold workerSection
    rw [hw]
    dsimp only
    split
    · obtain ⟨w, s', hs⟩ := signalPush_exists (ended s i)
      exact ⟨⟨w, none⟩, s', hs⟩
    · exact ⟨⟨none, none⟩, _, rfl⟩
  | _ => simp [wHolds] at hh

theorem add_goes {s q} (h : Inv s q) {c : Nat} {r : Req} {j : Job} (hc : s.clients[c]? = some (.hold r))
    (hq : isQueueFull s = some false) : ∃ w s', addInternal s c j w = .next s' := by
  obtain ⟨hr, l, hl⟩ := h.core.active hc (by simp)
  have hd : s.shutdown = false := by rw [h.core.isDown, hr]; rfl
  obtain ⟨b, hb, _, h2⟩ := full_spec h.core hl
  rw [hq] at hb
  cases hb
  have hroom := h2 rfl
  have hring := h.core.ring.push j (by omega)
  obtain ⟨w, s', hs⟩ := signalPop_exists (pushed s c j)
  exact ⟨w, s', by rw [addInternal_eq hd h.core.ring.size_pos hring.1, hs]⟩

theorem client_goes {sys : Sys} {s q} (h : Inv s q) {i : Nat} {r : Req} (hc : s.clients[i]? = some (.hold r)) :
    ∃ ch s', clientSection sys s i ch = .next s' := by
  obtain ⟨hr, l, hl⟩ := h.core.active hc (by simp)
  have hd : s.shutdown = false := by rw [h.core.isDown, hr]; rfl
  obtain ⟨b, hb, _, _⟩ := full_spec h.core hl
  cases r with
  | add j =>
    cases b with
    | true =>
      refine ⟨⟨none, none⟩, ?_⟩
      unfold clientSection
      rw [hc]
      dsimp only
      rw [hb]
      dsimp only
      rw [if_pos (by simp [hd])]
      exact ⟨_, rfl⟩
    | false =>
      obtain ⟨w, s', hs⟩ := add_goes (j := j) h hc hb
      refine ⟨⟨w, none⟩, s', ?_⟩
      unfold clientSection
      rw [hc]
      dsimp only
      rw [hb]
      dsimp only
      rw [if_neg (by simp)]
      exact hs
  | tryAdd j =>
    cases b with
    | true =>
      refine ⟨⟨none, none⟩, ?_⟩
      unfold clientSection
      rw [hc]
      dsimp only
      rw [hb]
      exact ⟨_, rfl⟩
    | false =>
      obtain ⟨w, s', hs⟩ := add_goes (j := j) h hc hb
      refine ⟨⟨w, none⟩, s', ?_⟩
      unfold clientSection
      rw [hc]
      dsimp only
      rw [hb]
      exact hs
  | resize n =>
    refine ⟨⟨none, none⟩, ?_⟩
    unfold clientSection
    rw [hc]
    dsimp only
    unfold resize
    split
    · split <;> exact ⟨_, rfl⟩
    · exact ⟨_, rfl⟩

theorem section_goes {sys : Sys} {s q} (h : Inv s q) {t : Tid} (ho : s.owner = some t) :
    ∃ ch s', sectionStep sys s t ch = .next s' := by
  simp only [sectionStep, ho, ne_eq, not_true_eq_false, if_false]
  cases t with
  | worker i =>
    obtain ⟨w, hw, hh⟩ := h.core.ownerW i ho
    exact worker_goes h hw hh
  | client i =>
    obtain ⟨c, hc, hh⟩ := h.core.ownerC i ho
    cases c with
    | hold r => exact client_goes h hc
    | _ => simp [cHolds] at hh
  | control =>
    dsimp only
    rw [if_pos (h.core.ownerK ho)]
    exact ⟨⟨none, none⟩, _, rfl⟩

/-- No step of the pool is possible. -/
def Stuck (sys : Sys) (s : State) : Prop := ∀ a, Internal a = true → ∀ s', step sys s a ≠ .next s'

theorem not_next_lock {sys : Sys} {s q} (h : Inv s q) {t : Tid} {s' : State} (hs : lockStep s t = .next s') :
    step sys s (.lock t) = .next s' := by
  simp only [step, hs]
  rw [if_neg]
  intro hk
  rw [(freed_blocked (sys := sys) h.core hk t).1] at hs
  cases hs

theorem not_next_section {sys : Sys} {s q} (h : Inv s q) {t : Tid} {ch : Choice} {s' : State}
    (hs : sectionStep sys s t ch = .next s') : step sys s (.section t ch) = .next s' := by
  simp only [step, hs]
  rw [if_neg]
  intro hk
  rw [(freed_blocked (sys := sys) h.core hk t).2] at hs
  cases hs

/-- If no step is possible, everything is done. -/
theorem stuck_done {sys : Sys} {s q} (h : Inv s q) (hst : Stuck sys s) :
    (s.control = .ready ∨ s.control = .freed) ∧ (∀ c ∈ s.clients, c = .idle) ∧ q = [] ∧
      s.workers.countP wBusy = 0 ∧ s.workers.countP wAwake = 0 := by
  have ho : s.owner = none := by
    cases ho : s.owner with
    | none => rfl
    | some t =>
      obtain ⟨ch, s', hs⟩ := section_goes (sys := sys) h ho
      exact absurd (not_next_section h hs) (hst _ rfl s')
  have hw : ∀ (i : Nat) (w : Worker), s.workers[i]? = some w → w = .wait ∨ w = .exited := by
    intro i w hw
    have hH : wHolds w = false := by
      by_contra hh
      have hh : wHolds w = true := by simpa using hh
      have := countP_pos wHolds _ i w hw hh
      have := h.core.holders
      rw [ho, if_pos rfl] at this
      omega
    cases w with
    | wait => exact Or.inl rfl
    | exited => exact Or.inr rfl
    | hold => simp [wHolds] at hH
    | hold2 => simp [wHolds] at hH
    | lock =>
      exact absurd (not_next_lock h (t := .worker i) (by simp only [lockStep, ho, hw]; rfl)) (hst _ rfl _)
    | lock2 =>
      exact absurd (not_next_lock h (t := .worker i) (by simp only [lockStep, ho, hw]; rfl)) (hst _ rfl _)
    | run j =>
      exact absurd (by simp only [step, hw]; rfl) (hst (.jobDone i) rfl _)
  have hc : ∀ (i : Nat) (c : Client), s.clients[i]? = some c → c = .idle ∨ ∃ j, c = .wait j := by
    intro i c hc
    have hH : cHolds c = false := by
      by_contra hh
      have hh : cHolds c = true := by simpa using hh
      have := countP_pos cHolds _ i c hc hh
      have := h.core.holders
      rw [ho, if_pos rfl] at this
      omega
    cases c with
    | idle => exact Or.inl rfl
    | wait j => exact Or.inr ⟨j, rfl⟩
    | hold r => simp [cHolds] at hH
    | lock r =>
      exact absurd (not_next_lock h (t := .client i) (by simp only [lockStep, ho, hc]; rfl)) (hst _ rfl _)
  have hA : s.workers.countP wAwake = 0 := by
    rw [List.countP_eq_zero]
    intro w hm
    obtain ⟨i, hi⟩ := List.getElem?_of_mem hm
    rcases hw i w hi with rfl | rfl <;> simp [wAwake]
  have hB : s.workers.countP wBusy = 0 := by
    rw [List.countP_eq_zero]
    intro w hm
    obtain ⟨i, hi⟩ := List.getElem?_of_mem hm
    rcases hw i w hi with rfl | rfl <;> simp [wBusy]
  have hP : s.clients.countP cPush = 0 := by
    rw [List.countP_eq_zero]
    intro c hm
    obtain ⟨i, hi⟩ := List.getElem?_of_mem hm
    rcases hc i c hi with rfl | ⟨j, rfl⟩ <;> simp [cPush]
  have hT := workers_total s.workers
  have hk : s.control = .ready ∨ s.control = .freed := by
    cases hk : s.control with
    | ready => exact Or.inl rfl
    | freed => exact Or.inr rfl
    | creating n =>
      exfalso
      have := h.core.creating n hk
      by_cases hlt : s.workers.length < n
      · refine hst (.control false) rfl { s with threadCapacity := s.workers.length, control := .lock } ?_
        simp only [step, controlStep, hk]
        rw [if_pos hlt, if_neg (by simp)]
      · refine hst (.control false) rfl { s with threadCapacity := n, threadLimit := some n, control := .ready } ?_
        simp only [step, controlStep, hk]
        rw [if_neg hlt]
    | lock =>
      exact absurd (not_next_lock h (t := .control) (by simp only [lockStep, ho, hk]; rfl)) (hst _ rfl _)
    | hold =>
      have := h.core.holders
      rw [ho, if_pos rfl, if_pos hk] at this
      omega
    | wakePush => exact absurd (by simp only [step, controlStep, hk]; rfl) (hst (.control true) rfl _)
    | wakePop => exact absurd (by simp only [step, controlStep, hk]; rfl) (hst (.control true) rfl _)
    | join i =>
      exfalso
      obtain ⟨h1, h2⟩ := h.core.joined i hk
      have hcap := (h.core.capacity (by simp [hk])).1
      by_cases hi : i < s.threadCapacity
      · obtain ⟨w, hwi⟩ : ∃ w, s.workers[i]? = some w := ⟨_, List.getElem?_eq_getElem (by omega)⟩
        rcases hw i w hwi with rfl | rfl
        · have := countP_pos Worker.waits _ i _ hwi rfl
          omega
        · refine hst (.control true) rfl { s with control := .join (i + 1) } ?_
          simp only [step, controlStep, hk]
          rw [if_pos hi, if_pos hwi]
      · refine hst (.control true) rfl { s with control := .freed } ?_
        simp only [step, controlStep, hk]
        rw [if_neg hi]
  have hq : q = [] := by
    rcases hk with hk | hk
    · obtain ⟨l, hl⟩ := h.core.ready hk
      have hd : s.shutdown = false := by rw [h.core.isDown, hk]; rfl
      have he := h.core.exits hd
      have hlim := h.core.limit l hl
      have := h.popOk l hl (by omega)
      have hb := h.core.busy
      have : q.length = 0 := by omega
      exact List.eq_nil_of_length_eq_zero this
    · by_contra hne
      have := h.core.alive hne
      have := h.core.gone hk
      omega
  refine ⟨hk, ?_, hq, hB, hA⟩
  rcases hk with hk | hk
  · intro c hm
    obtain ⟨i, hi⟩ := List.getElem?_of_mem hm
    rcases hc i c hi with rfl | ⟨j, rfl⟩
    · rfl
    · exfalso
      obtain ⟨l, hl⟩ := h.core.ready hk
      have hlim := h.core.limit l hl
      have hpos := h.core.ring.size_pos
      have hb := h.core.busy
      rcases h.pushOk l hl (countP_pos _ _ i _ hi rfl) with h1 | h1
      · rw [room, hq] at h1
        split at h1
        · simp at h1; omega
        · rw [if_pos ⟨rfl, by omega⟩] at h1
          omega
      · omega
  · exact h.core.idle (by simp [hk])

end XXH.Proof.Pool
