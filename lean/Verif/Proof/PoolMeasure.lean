import Verif.Proof.PoolProgress
import Mathlib.Data.Prod.Lex
import Mathlib.Order.WellFounded
/-! What the pool does on its own comes to an end. -/
namespace XXH.Proof.Pool
open XXH.Model.Pool

theorem sum_set {α : Type} (f : α → Nat) (l : List α) (i : Nat) (x a : α) (h : l[i]? = some x) :
    ((l.set i a).map f).sum + f x = (l.map f).sum + f a := by
  induction l generalizing i with
  | nil => simp at h
  | cons y l ih =>
    cases i with
    | zero =>
      simp only [List.getElem?_cons_zero, Option.some.injEq] at h
      subst h
      simp only [List.set_cons_zero, List.map_cons, List.sum_cons]
      omega
    | succ i =>
      simp only [List.getElem?_cons_succ] at h
      have := ih i h
      simp only [List.set_cons_succ, List.map_cons, List.sum_cons]
      omega

/-- What a worker has yet to do. -/
def wWork : Worker → Nat
  | .run _ => 2
  | .lock2 => 1
  | .hold2 => 1
  | _ => 0

/-- What a client has yet to do. -/
def rWork : Req → Nat
  | .resize _ => 1
  | _ => 4

def cWork : Client → Nat
  | .idle => 0
  | .lock r => rWork r
  | .hold r => rWork r
  | .wait _ => 4

/-- What `POOL_create` and `POOL_free` have yet to do. -/
def kWork (cap workers : Nat) : Control → Nat
  | .creating n => 2 * n + 10 - workers
  | .ready => 0
  | .lock => cap + 4
  | .hold => cap + 4
  | .wakePush => cap + 3
  | .wakePop => cap + 2
  | .join i => cap + 1 - i
  | .freed => 0

/-- Steps until a worker sleeps again. -/
def wSteps : Worker → Nat
  | .lock => 2
  | .hold => 1
  | .lock2 => 2
  | .hold2 => 1
  | _ => 0

def cSteps : Client → Nat
  | .lock _ => 2
  | .hold _ => 1
  | _ => 0

def kSteps : Control → Nat
  | .lock => 2
  | .hold => 1
  | _ => 0

def work (s : State) : Nat :=
  3 * (s.accepted.length - s.started.length) + (s.workers.map wWork).sum + (s.clients.map cWork).sum +
    kWork s.threadCapacity s.workers.length s.control

def steps (s : State) : Nat := (s.workers.map wSteps).sum + (s.clients.map cSteps).sum + kSteps s.control

/-- `s'` has less to do than `s`. -/
def Less (s' s : State) : Prop := work s' < work s ∨ work s' = work s ∧ steps s' < steps s

theorem less_wf : WellFounded Less := by
  have h : WellFounded (InvImage (Prod.Lex (· < ·) (· < ·)) fun s : State => (work s, steps s)) :=
    InvImage.wf _ (WellFounded.prod_lex Nat.lt_wfRel.wf Nat.lt_wfRel.wf)
  refine Subrelation.wf ?_ h
  intro s' s hl
  rcases hl with h1 | ⟨h1, h2⟩
  · exact Prod.Lex.left _ _ h1
  · show Prod.Lex _ _ (work s', steps s') (work s, steps s)
    rw [h1]
    exact Prod.Lex.right _ h2

theorem awake_work (l : List Worker) : ((l.map Worker.awake).map wWork).sum = (l.map wWork).sum := by
  rw [List.map_map]; congr 2; funext w; cases w <;> rfl

theorem cAwake_work (l : List Client) : ((l.map Client.awake).map cWork).sum = (l.map cWork).sum := by
  rw [List.map_map]; congr 2; funext c; cases c <;> rfl

theorem signalPush_work {s s' : State} {w : Option Nat} (hs : signalPush s w = .next s') : work s' = work s := by
  cases w <;> simp only [signalPush] at hs <;> split at hs <;> cases hs
  · rfl
  · rename_i j hc
    have := sum_set cWork _ _ _ (.lock (.add j)) hc
    simp only [cWork, rWork] at this
    unfold work
    dsimp only
    omega

theorem signalPop_work {s s' : State} {w : Option Nat} (hs : signalPop s w = .next s') : work s' = work s := by
  cases w <;> simp only [signalPop] at hs <;> split at hs <;> cases hs
  · rfl
  · rename_i hw
    have := sum_set wWork _ _ _ .lock hw
    simp only [wWork] at this
    unfold work
    dsimp only
    rw [List.length_set]
    omega

theorem less_control {s q} (h : Inv s q) {ok : Bool} {s' : State} (hs : controlStep s ok = .next s') : Less s' s := by
  left
  unfold controlStep at hs
  split at hs
  · rename_i n hk
    obtain ⟨_, _, _, c4⟩ := h.core.creating n hk
    split at hs
    · rename_i hlt
      split at hs
      · split at hs
        · cases hs
        · cases hs
          simp only [work, hk, kWork, List.map_append, List.sum_append, List.length_append, List.map_cons, List.map_nil,
            List.sum_cons, List.sum_nil, wWork, List.length_cons, List.length_nil]
          omega
      · cases hs
        simp only [work, hk, kWork]
        omega
    · cases hs
      simp only [work, hk, kWork]
      omega
  · rename_i hk
    cases hs
    simp only [work, hk, kWork, cAwake_work]
    omega
  · rename_i hk
    cases hs
    simp only [work, hk, kWork, awake_work]
    omega
  · rename_i i hk
    have hcap := (h.core.capacity (by simp [hk])).1
    split at hs
    · split at hs
      · cases hs
        simp only [work, hk, kWork]
        omega
      · cases hs
    · cases hs
      have : i ≤ s.workers.length := by
        by_contra hlt
        have := (h.core.joined i hk).2 s.workers.length (by omega)
        simp at this
      simp only [work, hk, kWork]
      omega
  · cases hs

theorem less_lock {s : State} {t : Tid} {s' : State} (hs : lockStep s t = .next s') : Less s' s := by
  right
  unfold lockStep at hs
  split at hs
  · cases hs
  · split at hs
    · split at hs
      · rename_i hw
        cases hs
        have h1 := sum_set wWork _ _ _ .hold hw
        have h2 := sum_set wSteps _ _ _ .hold hw
        simp only [wWork, wSteps] at h1 h2
        simp only [work, steps, List.length_set]
        omega
      · rename_i hw
        cases hs
        have h1 := sum_set wWork _ _ _ .hold2 hw
        have h2 := sum_set wSteps _ _ _ .hold2 hw
        simp only [wWork, wSteps] at h1 h2
        simp only [work, steps, List.length_set]
        omega
      · cases hs
    · split at hs
      · rename_i r hc
        cases hs
        have h1 := sum_set cWork _ _ _ (.hold r) hc
        have h2 := sum_set cSteps _ _ _ (.hold r) hc
        simp only [cWork, cSteps] at h1 h2
        simp only [work, steps]
        omega
      · cases hs
    · split at hs
      · rename_i hk
        cases hs
        constructor <;> simp only [work, steps, hk, kWork, kSteps]
        omega
      · cases hs

theorem less_sleep {s : State} {i : Nat} (hw : s.workers[i]? = some .hold) {s' : State} (hs : sleep s i = .next s') :
    Less s' s := by
  right
  unfold sleep at hs
  cases hs
  have h1 := sum_set wWork _ _ _ (if s.shutdown then .exited else .wait) hw
  have h2 := sum_set wSteps _ _ _ (if s.shutdown then .exited else .wait) hw
  have e1 : wWork (if s.shutdown then .exited else .wait) = 0 := by split <;> rfl
  have e2 : wSteps (if s.shutdown then .exited else .wait) = 0 := by split <;> rfl
  rw [e1] at h1
  rw [e2] at h2
  simp only [wWork, wSteps] at h1 h2
  simp only [work, steps, List.length_set]
  omega

theorem hist_length {s q} (h : Core s q) : s.accepted.length = s.started.length + q.length := by
  rw [h.hist, List.length_append]

theorem less_worker {s q} (h : Inv s q) {i : Nat} {ch : Choice} {s' : State} (hs : workerSection s i ch = .next s') :
    Less s' s := by
  have hlen := hist_length h.core
  unfold workerSection at hs
  split at hs
  · rename_i hw
    split at hs
    · exact less_sleep hw hs
    · rename_i he
      rw [h.core.ring.empty_iff] at he
      have hq : 0 < q.length := by simp at he; cases q <;> simp_all
      split at hs
      · cases hs
      · split at hs
        · exact less_sleep hw hs
        · left
          unfold pop at hs
          split at hs
          · rename_i j _
            split at hs
            · cases hs
            · rw [signalPush_work hs]
              have h1 := sum_set wWork _ _ _ (.run j) hw
              simp only [wWork] at h1
              simp only [work, List.length_set, List.length_append, List.length_cons, List.length_nil]
              omega
          · cases hs
  · rename_i hw
    left
    have h1 := sum_set wWork _ _ _ .lock hw
    simp only [wWork] at h1
    dsimp only at hs
    split at hs
    · rw [signalPush_work hs]
      simp only [work, List.length_set]
      omega
    · cases hs
      simp only [work, List.length_set]
      omega
  · cases hs

theorem less_add {s q} (h : Inv s q) {c : Nat} {r : Req} {j : Job} (hc : s.clients[c]? = some (.hold r))
    (hr : rWork r = 4) {w : Option Nat} {s' : State} (hs : addInternal s c j w = .next s') : Less s' s := by
  left
  have hlen := hist_length h.core
  have h1 := sum_set cWork _ _ _ .idle hc
  simp only [cWork, hr] at h1
  unfold addInternal at hs
  dsimp only at hs
  split at hs
  · cases hs
    simp only [work]
    omega
  · split at hs
    · cases hs
    · rw [signalPop_work hs]
      simp only [work, List.length_append, List.length_cons, List.length_nil]
      omega

theorem less_client {sys : Sys} {s q} (h : Inv s q) {c : Nat} {ch : Choice} {s' : State}
    (hs : clientSection sys s c ch = .next s') : Less s' s := by
  unfold clientSection at hs
  split at hs
  · rename_i j hc
    split at hs
    · cases hs
    · split at hs
      · right
        cases hs
        have h1 := sum_set cWork _ _ _ (.wait j) hc
        have h2 := sum_set cSteps _ _ _ (.wait j) hc
        simp only [cWork, cSteps, rWork] at h1 h2
        simp only [work, steps]
        omega
      · exact less_add h hc rfl hs
  · rename_i j hc
    split at hs
    · cases hs
    · left
      cases hs
      have h1 := sum_set cWork _ _ _ .idle hc
      simp only [cWork, rWork] at h1
      simp only [work]
      omega
    · exact less_add h hc rfl hs
  · rename_i n hc
    left
    have hr := (h.core.active hc (by simp)).1
    have h1 := sum_set cWork _ _ _ .idle hc
    simp only [cWork, rWork] at h1
    have hrep : ∀ k, ((List.replicate k Worker.lock).map wWork).sum = 0 := by
      intro k; rw [List.map_replicate]; simp [wWork]
    unfold resize at hs
    dsimp only at hs
    split at hs
    · split at hs <;>
        (injection hs with hs; rw [← hs]; simp only [broadcastPop, work, awake_work, hr, kWork]; omega)
    · split at hs
      · injection hs with hs; rw [← hs]; simp only [broadcastPop, work, awake_work, hr, kWork]; omega
      · split at hs
        · cases hs
        · split at hs
          · cases hs
          · split at hs <;>
              (injection hs with hs; rw [← hs]
               simp only [broadcastPop, work, awake_work, hr, kWork, List.map_append, List.sum_append, hrep]; omega)
  · cases hs

/-- Every step of the pool leaves less to do. -/
theorem less_step {sys : Sys} {s q} (h : Inv s q) {a : Action} (ha : Internal a = true) {s' : State}
    (hs : step sys s a = .next s') : Less s' s := by
  cases a with
  | control ok => exact less_control h hs
  | call c r => simp [Internal] at ha
  | lock t =>
    simp only [step] at hs
    split at hs
    · rename_i s1 h1
      split at hs
      · cases hs
      · cases hs; exact less_lock h1
    · rename_i hn
      exact absurd hs (hn _)
  | «section» t ch =>
    simp only [step] at hs
    have key : ∀ s1, sectionStep sys s t ch = .next s1 → Less s1 s := by
      intro s1 h1
      unfold sectionStep at h1
      split at h1
      · cases h1
      · split at h1
        · exact less_worker h h1
        · exact less_client h h1
        · split at h1
          · rename_i hk
            cases h1
            left
            simp only [work, hk, kWork]
            omega
          · cases h1
    split at hs
    · rename_i s1 h1
      split at hs
      · cases hs
      · cases hs; exact key _ h1
    · rename_i hn
      exact absurd hs (hn _)
  | jobDone i =>
    simp only [step] at hs
    split at hs
    · rename_i j hw
      cases hs
      left
      have h1 := sum_set wWork _ _ _ .lock2 hw
      simp only [wWork] at h1
      simp only [work, List.length_set]
      omega
    · cases hs
  | wake t => simp [Internal] at ha
  | free => simp [Internal] at ha

end XXH.Proof.Pool
