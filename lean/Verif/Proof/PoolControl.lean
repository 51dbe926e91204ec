import Verif.Proof.PoolInv
/-! The steps of `POOL_create` and `POOL_free`, and the sections of the workers, keep the invariant. -/
namespace XXH.Proof.Pool
open XXH.Model.Pool

/-! ### `POOL_create` -/

theorem inv_spawn {s q} (h : Inv s q) {n : Nat} (hk : s.control = .creating n) (hlt : s.workers.length < n) :
    Inv { s with workers := s.workers ++ [.lock] } q := by
  obtain ⟨h, hp, hu⟩ := h
  obtain ⟨c1, c2, c3, c4⟩ := h.creating n hk
  refine ⟨?_, fun l hl => by dsimp only at hl; rw [c1] at hl; simp at hl, hu⟩
  core_start h
  case perm =>
    have : List.filterMap wJob [Worker.lock] = [] := rfl
    simpa [List.filterMap_append, this] using h.perm
  case busy => simp [List.countP_append, wBusy, h.busy]
  case holders => simpa [List.countP_append, wHolds] using h.holders
  case ownerW =>
    intro i hi
    obtain ⟨w, hw, hh⟩ := h.ownerW i hi
    exact ⟨w, by rw [List.getElem?_append_left (List.getElem?_eq_some_iff.1 hw).1, hw], hh⟩
  case creating =>
    intro m hm
    rw [hk] at hm
    cases hm
    exact ⟨c1, c2, by simp; omega, c4⟩
  case capacity => intro hn; exact absurd hk (hn n)
  case limit => intro l hl; rw [c1] at hl; simp at hl
  case exits => intro hn; simpa [List.countP_append, wExited] using h.exits hn
  case joined => simp [hk]
  case gone => simp [hk]
  case alive => intro hq; exact absurd (h.unset c1) hq

theorem inv_createFail {s q} (h : Inv s q) {n : Nat} (hk : s.control = .creating n) (hlt : s.workers.length < n) :
    Inv { s with threadCapacity := s.workers.length, control := .lock } q := by
  obtain ⟨h, hp, hu⟩ := h
  obtain ⟨c1, c2, c3, c4⟩ := h.creating n hk
  refine ⟨?_, hp, hu⟩
  core_start h
  case holders => simpa [hk] using h.holders
  case ownerK => intro ho; have := h.ownerK ho; simp [hk] at this
  case creating => simp
  case capacity => intro _; exact ⟨rfl, by omega⟩
  case ready => simp
  case idle => intro _; exact h.idle (by simp [hk])
  case isDown => rw [h.isDown, hk]; rfl
  case joined => simp
  case gone => simp

theorem inv_createEnd {s q} (h : Inv s q) {n : Nat} (hk : s.control = .creating n) (hge : ¬ s.workers.length < n) :
    Inv { s with threadCapacity := n, threadLimit := some n, control := .ready } q := by
  obtain ⟨h, hp, hu⟩ := h
  obtain ⟨c1, c2, c3, c4⟩ := h.creating n hk
  have hq := h.unset c1
  obtain ⟨i1, i2, i3⟩ := idle_counts _ (h.idle (by simp [hk]))
  refine ⟨?_, fun l _ _ => by simp [hq], fun l _ hw => by dsimp only at hw; omega⟩
  core_start h
  case holders => simpa [hk] using h.holders
  case ownerK => intro ho; have := h.ownerK ho; simp [hk] at this
  case creating => simp
  case capacity => intro _; exact ⟨by omega, by omega⟩
  case ready => simp
  case unset => simp
  case limit => intro l hl; cases hl; exact ⟨c2, by omega⟩
  case idle => simp
  case isDown => rw [h.isDown, hk]; rfl
  case joined => simp
  case gone => simp

/-! ### `POOL_free` -/

theorem inv_free {s q} (h : Inv s q) (hk : s.control = .ready) (hi : ∀ c ∈ s.clients, c = .idle) :
    Inv { s with control := .lock } q := by
  obtain ⟨h, hp, hu⟩ := h
  refine ⟨?_, hp, hu⟩
  core_start h
  case holders => simpa [hk] using h.holders
  case ownerK => intro ho; have := h.ownerK ho; simp [hk] at this
  case creating => simp
  case capacity => intro _; exact h.capacity (by simp [hk])
  case ready => simp
  case idle => intro _; exact hi
  case isDown => rw [h.isDown, hk]; rfl
  case joined => simp
  case gone => simp

theorem inv_shutdown {s q} (h : Inv s q) (hk : s.control = .hold) :
    Inv { s with owner := none, shutdown := true, control := .wakePush } q := by
  obtain ⟨h, hp, hu⟩ := h
  refine ⟨?_, hp, hu⟩
  core_start h
  case holders =>
    have := h.holders
    rw [if_pos hk] at this
    rw [if_neg (by simp), if_pos rfl]
    split at this <;> omega
  case ownerW => simp
  case ownerC => simp
  case ownerK => simp
  case creating => simp
  case capacity => intro _; exact h.capacity (by simp [hk])
  case ready => simp
  case idle => intro _; exact h.idle (by simp [hk])
  case isDown => rfl
  case exits => simp
  case joined => simp
  case gone => simp

theorem inv_wakePush {s q} (h : Inv s q) (hk : s.control = .wakePush) :
    Inv { s with clients := s.clients.map Client.awake, control := .wakePop } q := by
  obtain ⟨h, hp, hu⟩ := h
  have hi := h.idle (by simp [hk])
  have he : s.clients.map Client.awake = s.clients := by
    conv_rhs => rw [← List.map_id s.clients]
    exact List.map_congr_left fun c hc => by rw [hi c hc]; rfl
  rw [he]
  refine ⟨?_, hp, hu⟩
  core_start h
  case holders => simpa [hk] using h.holders
  case ownerK => intro ho; have := h.ownerK ho; simp [hk] at this
  case creating => simp
  case capacity => intro _; exact h.capacity (by simp [hk])
  case ready => simp
  case idle => intro _; exact hi
  case isDown => rw [h.isDown, hk]; rfl
  case joined => simp
  case gone => simp

/-- All workers are woken. -/
theorem core_wakeAll {s q} (h : Core s q) : Core { s with workers := s.workers.map Worker.awake } q := by
  core_start h
  case perm => rw [awake_job]; exact h.perm
  case busy => rw [awake_busy]; exact h.busy
  case holders => rw [awake_holds]; exact h.holders
  case ownerW =>
    intro i hi
    obtain ⟨w, hw, hh⟩ := h.ownerW i hi
    exact ⟨w, awake_getElem _ _ _ hw (by rintro rfl; simp [wHolds] at hh), hh⟩
  case creating => simpa using h.creating
  case capacity => simpa using h.capacity
  case limit => simpa using h.limit
  case exits => rw [awake_exited]; exact h.exits
  case joined =>
    intro i hi
    obtain ⟨h1, h2⟩ := h.joined i hi
    exact ⟨awake_waits _, fun k hk => awake_getElem _ _ _ (h2 k hk) (by simp)⟩
  case gone => rw [awake_exited, List.length_map]; exact h.gone
  case alive => rw [awake_exited, List.length_map]; exact h.alive

theorem inv_wakePop {s q} (h : Inv s q) (hk : s.control = .wakePop) :
    Inv { s with workers := s.workers.map Worker.awake, control := .join 0 } q := by
  obtain ⟨h, hp, hu⟩ := h
  have h' := core_wakeAll h
  refine ⟨?_, fun l _ hw => by dsimp only at hw; rw [awake_waits] at hw; omega, hu⟩
  core_start h'
  case holders => simpa [hk] using h'.holders
  case ownerK => intro ho; have := h.ownerK ho; simp [hk] at this
  case creating => simp
  case capacity => intro _; exact h'.capacity (by simp [hk])
  case ready => simp
  case idle => intro _; exact h.idle (by simp [hk])
  case isDown => rw [h.isDown, hk]; rfl
  case joined =>
    intro i hi
    cases hi
    exact ⟨awake_waits _, fun k hk => absurd hk (by omega)⟩
  case gone => simp

theorem inv_join {s q} (h : Inv s q) {i : Nat} (hk : s.control = .join i) (hw : s.workers[i]? = some .exited) :
    Inv { s with control := .join (i + 1) } q := by
  obtain ⟨h, hp, hu⟩ := h
  refine ⟨?_, hp, hu⟩
  core_start h
  case holders => simpa [hk] using h.holders
  case ownerK => intro ho; have := h.ownerK ho; simp [hk] at this
  case creating => simp
  case capacity => intro _; exact h.capacity (by simp [hk])
  case ready => simp
  case idle => intro _; exact h.idle (by simp [hk])
  case isDown => rw [h.isDown, hk]; rfl
  case joined =>
    intro m hm
    cases hm
    obtain ⟨h1, h2⟩ := h.joined i hk
    refine ⟨h1, fun k hk' => ?_⟩
    rcases Nat.lt_or_ge k i with hlt | hge
    · exact h2 k hlt
    · rw [show k = i by omega, hw]
  case gone => simp

theorem inv_freed {s q} (h : Inv s q) {i : Nat} (hk : s.control = .join i) (hi : ¬ i < s.threadCapacity) :
    Inv { s with control := .freed } q := by
  obtain ⟨h, hp, hu⟩ := h
  have hcap := (h.capacity (by simp [hk])).1
  refine ⟨?_, hp, hu⟩
  core_start h
  case holders => simpa [hk] using h.holders
  case ownerK => intro ho; have := h.ownerK ho; simp [hk] at this
  case creating => simp
  case capacity => intro _; exact h.capacity (by simp [hk])
  case ready => simp
  case idle => intro _; exact h.idle (by simp [hk])
  case isDown => rw [h.isDown, hk]; rfl
  case joined => simp
  case gone =>
    intro _
    rw [List.countP_eq_length]
    intro w hw
    obtain ⟨k, hk'⟩ := List.getElem?_of_mem hw
    have hlt := (List.getElem?_eq_some_iff.1 hk').1
    have := (h.joined i hk).2 k (by omega)
    rw [this] at hk'
    cases hk'
    rfl

end XXH.Proof.Pool
