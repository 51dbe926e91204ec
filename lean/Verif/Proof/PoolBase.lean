import Verif.Model.Pool
import Mathlib.Data.List.Perm.Basic
import Mathlib.Data.Nat.ModEq
import Mathlib.Tactic.Ring
/-! Helper lemmas for the thread pool: counting threads, the circular queue. -/
namespace XXH.Proof.Pool
open XXH.Model.Pool

/-- The worker has the mutex. -/
def wHolds : Worker → Bool
  | .hold => true
  | .hold2 => true
  | _ => false

/-- The worker counts as busy. -/
def wBusy : Worker → Bool
  | .run _ => true
  | .lock2 => true
  | .hold2 => true
  | _ => false

/-- The worker is looking for a job. -/
def wAwake : Worker → Bool
  | .lock => true
  | .hold => true
  | _ => false

def wExited : Worker → Bool
  | .exited => true
  | _ => false

/-- The job a worker runs. -/
def wJob : Worker → Option Job
  | .run j => some j
  | _ => none

def cHolds : Client → Bool
  | .hold _ => true
  | _ => false

/-- The client is about to look for room in the queue. -/
def cPush : Client → Bool
  | .lock (.add _) => true
  | .hold (.add _) => true
  | _ => false

def cBusy : Client → Bool
  | .idle => false
  | _ => true

theorem countP_set {α : Type} (p : α → Bool) (l : List α) (i : Nat) (x a : α) (h : l[i]? = some x) :
    (l.set i a).countP p + (p x).toNat = l.countP p + (p a).toNat := by
  induction l generalizing i with
  | nil => simp at h
  | cons y l ih =>
    cases i with
    | zero =>
      simp only [List.getElem?_cons_zero, Option.some.injEq] at h
      subst h
      simp only [List.set_cons_zero, List.countP_cons]
      cases p y <;> cases p a <;> simp
    | succ i =>
      simp only [List.getElem?_cons_succ] at h
      have := ih i h
      simp only [List.set_cons_succ, List.countP_cons]
      omega

theorem countP_pos {α : Type} (p : α → Bool) (l : List α) (i : Nat) (x : α) (h : l[i]? = some x) (hp : p x = true) :
    0 < l.countP p :=
  List.countP_pos_iff.2 ⟨x, List.mem_of_getElem? h, hp⟩

theorem exists_of_countP {α : Type} (p : α → Bool) (l : List α) (h : 0 < l.countP p) :
    ∃ (i : Nat) (x : α), l[i]? = some x ∧ p x = true := by
  obtain ⟨x, hx, hp⟩ := List.countP_pos_iff.1 h
  obtain ⟨i, hi⟩ := List.getElem?_of_mem hx
  exact ⟨i, x, hi, hp⟩

theorem filterMap_set {α β : Type} (f : α → Option β) (l : List α) (i : Nat) (x a : α) (h : l[i]? = some x) :
    ((f x).toList ++ (l.set i a).filterMap f).Perm ((f a).toList ++ l.filterMap f) := by
  induction l generalizing i with
  | nil => simp at h
  | cons y l ih =>
    cases i with
    | zero =>
      simp only [List.getElem?_cons_zero, Option.some.injEq] at h
      subst h
      simp only [List.set_cons_zero, List.filterMap_cons]
      cases f y <;> cases f a <;> simp
      exact List.Perm.swap ..
    | succ i =>
      simp only [List.getElem?_cons_succ] at h
      have := ih i h
      simp only [List.set_cons_succ, List.filterMap_cons]
      cases hy : f y with
      | none => simpa using this
      | some b =>
        simp only
        exact (List.perm_middle).trans ((this.cons b).trans List.perm_middle.symm)

/-! ### Wakeups -/

theorem awake_holds (l : List Worker) : (l.map Worker.awake).countP wHolds = l.countP wHolds := by
  rw [List.countP_map]; congr 1; funext w; cases w <;> rfl

theorem awake_busy (l : List Worker) : (l.map Worker.awake).countP wBusy = l.countP wBusy := by
  rw [List.countP_map]; congr 1; funext w; cases w <;> rfl

theorem awake_exited (l : List Worker) : (l.map Worker.awake).countP wExited = l.countP wExited := by
  rw [List.countP_map]; congr 1; funext w; cases w <;> rfl

theorem awake_waits (l : List Worker) : (l.map Worker.awake).countP Worker.waits = 0 := by
  rw [List.countP_map, List.countP_eq_zero]; intro w _; cases w <;> simp [Worker.awake, Worker.waits]

theorem awake_job (l : List Worker) : (l.map Worker.awake).filterMap wJob = l.filterMap wJob := by
  rw [List.filterMap_map]; congr 1; funext w; cases w <;> rfl

theorem awake_getElem (l : List Worker) (i : Nat) (w : Worker) (h : l[i]? = some w) (hw : w ≠ .wait) :
    (l.map Worker.awake)[i]? = some w := by
  rw [List.getElem?_map, h]; cases w <;> simp_all [Worker.awake]

/-- Every worker is in one of four places. -/
theorem workers_total (l : List Worker) :
    l.countP wAwake + l.countP wBusy + l.countP Worker.waits + l.countP wExited = l.length := by
  induction l with
  | nil => rfl
  | cons w l ih =>
    simp only [List.countP_cons, List.length_cons]
    cases w <;> simp [wAwake, wBusy, Worker.waits, wExited] <;> omega

theorem any_false_iff {α : Type} (p : α → Bool) (l : List α) : l.any p = false ↔ l.countP p = 0 := by
  rw [List.countP_eq_zero, List.any_eq_false]

theorem idle_counts (l : List Client) (h : ∀ c ∈ l, c = .idle) :
    l.countP cHolds = 0 ∧ l.countP Client.waits = 0 ∧ l.countP cPush = 0 := by
  refine ⟨?_, ?_, ?_⟩ <;> rw [List.countP_eq_zero] <;> intro c hc <;> rw [h c hc] <;>
    simp [cHolds, Client.waits, cPush]

/-! ### The circular queue -/

theorem mod_add_inj (n x a b : Nat) (h : (x + a) % n = (x + b) % n) (hab : a ≤ b) (hb : b < a + n) : a = b := by
  have h1 : (x + a) ≡ (x + b) [MOD n] := h
  have h2 : a ≡ b [MOD n] := Nat.ModEq.add_left_cancel' x h1
  obtain ⟨k, hk⟩ := (Nat.modEq_iff_dvd' hab).1 h2
  rcases Nat.eq_zero_or_pos k with h0 | h0
  · subst h0; omega
  · have := Nat.le_mul_of_pos_right n h0
    omega

/-- The circular array holds the list. -/
structure Ring (queue : List (Option Job)) (head tail size : Nat) (empty : Bool) (q : List Job) : Prop where
  size_pos : 0 < size
  len : queue.length = size
  head_lt : head < size
  tail_eq : tail = (head + q.length) % size
  empty_iff : empty = decide (q.length = 0)
  room : q.length + 1 ≤ size ∨ size = 1 ∧ q.length = 1
  elems : ∀ (k : Nat) (hk : k < q.length), queue[(head + k) % size]? = some (some q[k])

theorem Ring.pop {queue head tail size empty j q} (h : Ring queue head tail size empty (j :: q)) :
    queue[head]? = some (some j) ∧
      Ring queue ((head + 1) % size) tail size ((head + 1) % size == tail) q := by
  have hh := h.elems 0 (by simp)
  rw [Nat.add_zero, Nat.mod_eq_of_lt h.head_lt] at hh
  have hroom := h.room
  simp only [List.length_cons] at hroom
  have ht := h.tail_eq
  simp only [List.length_cons] at ht
  refine ⟨hh, ⟨h.size_pos, h.len, Nat.mod_lt _ h.size_pos, ?_, ?_, ?_, ?_⟩⟩
  · rw [ht, Nat.mod_add_mod]; congr 1; omega
  · have : ((head + 1) % size = tail) ↔ q.length = 0 := by
      rw [ht]
      constructor
      · intro h1
        have := mod_add_inj size head 1 (q.length + 1) h1 (by omega) (by omega)
        omega
      · intro h1; rw [h1]
    rw [Bool.eq_iff_iff]
    simp [this]
  · omega
  · intro k hk
    have := h.elems (k + 1) (by simp; omega)
    rw [Nat.mod_add_mod, show head + 1 + k = head + (k + 1) by omega, this]
    simp

theorem Ring.push {queue head tail size empty q} (h : Ring queue head tail size empty q) (j : Job)
    (hfull : size = 1 ∧ q.length = 0 ∨ q.length + 2 ≤ size) :
    tail < queue.length ∧ Ring (queue.set tail (some j)) head ((tail + 1) % size) size false (q ++ [j]) := by
  have hs := h.size_pos
  have htl : tail < size := by rw [h.tail_eq]; exact Nat.mod_lt _ hs
  refine ⟨by rw [h.len]; exact htl, ⟨hs, by simp [h.len], h.head_lt, ?_, ?_, ?_, ?_⟩⟩
  · rw [h.tail_eq, Nat.mod_add_mod]; simp [Nat.add_assoc]
  · simp
  · simp only [List.length_append, List.length_cons, List.length_nil]; omega
  · intro k hk
    simp only [List.length_append, List.length_cons, List.length_nil] at hk
    rcases Nat.lt_or_ge k q.length with hlt | hge
    · have hne : tail ≠ (head + k) % size := by
        intro h1
        rw [h.tail_eq] at h1
        have := mod_add_inj size head k q.length h1.symm (by omega) (by omega)
        omega
      rw [List.getElem?_set_ne hne, h.elems k hlt, List.getElem_append_left hlt]
    · have hk' : k = q.length := by omega
      subst hk'
      rw [← h.tail_eq, List.getElem?_set_self (by rw [h.len]; exact htl)]
      simp

theorem Ring.full_iff {queue head tail size empty q} (h : Ring queue head tail size empty q) (hs : 1 < size) :
    head = (tail + 1) % size ↔ q.length + 1 = size := by
  have hroom := h.room
  rw [h.tail_eq, Nat.mod_add_mod]
  constructor
  · intro h1
    have h2 : (head + (q.length + 1)) % size = (head + size) % size := by
      rw [Nat.add_mod_right, Nat.mod_eq_of_lt h.head_lt, ← Nat.add_assoc, ← h1]
    exact mod_add_inj size head _ _ h2 (by omega) (by omega)
  · intro h1
    rw [Nat.add_assoc, h1, Nat.add_mod_right, Nat.mod_eq_of_lt h.head_lt]

end XXH.Proof.Pool
