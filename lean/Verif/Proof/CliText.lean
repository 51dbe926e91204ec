import Verif.Model.CliText
import Verif.Spec.Cli
import Mathlib.Data.List.Infix
/-!
Helper lemmas about xxhsum's text handling.
-/
namespace XXH.CliP
open XXH.Model.Cli
open Spec.Cli (txt Alg)

/-! ### C strings -/

theorem cstr_eq {s : List Byte} (h : (0 : Byte) ∉ s) (rest : List Byte) : cstr (s ++ 0 :: rest) = some s := by
  induction s with
  | nil => simp [cstr]
  | cons c t ih =>
    have hc : c ≠ 0 := fun h' => h (by simp [h'])
    have ht : (0 : Byte) ∉ t := fun h' => h (List.mem_cons_of_mem _ h')
    show (if c = 0 then _ else _) = _
    rw [if_neg hc]
    exact congrArg (Option.map (c :: ·)) (ih ht)

theorem firstIdx_none {c : Byte} {s : List Byte} : firstIdx c s = none ↔ c ∉ s := by
  induction s with
  | nil => simp [firstIdx]
  | cons x t ih =>
    unfold firstIdx
    by_cases h : x = c
    · simp [h]
    · rw [if_neg h]
      simp only [Option.map_eq_none_iff, ih, List.mem_cons, not_or]
      exact ⟨fun h' => ⟨fun h2 => h h2.symm, h'⟩, fun h' => h'.2⟩

theorem firstIdx_append {c : Byte} {a t : List Byte} (h : c ∉ a) : firstIdx c (a ++ c :: t) = some a.length := by
  induction a with
  | nil => simp [firstIdx]
  | cons x a ih =>
    have hx : x ≠ c := fun h' => h (by simp [h'])
    have ha : c ∉ a := fun h' => h (List.mem_cons_of_mem _ h')
    simp [firstIdx, hx, ih ha]

theorem firstIdx_isSome {c : Byte} {s : List Byte} : (firstIdx c s).isSome = true ↔ c ∈ s := by
  rw [← not_iff_not, Bool.not_eq_true, Option.isSome_eq_false_iff, Option.isNone_iff_eq_none, firstIdx_none]

theorem first_split {c : Byte} {s : List Byte} (h : c ∈ s) : ∃ a t, s = a ++ c :: t ∧ c ∉ a := by
  induction s with
  | nil => simp at h
  | cons x s ih =>
    by_cases hx : x = c
    · exact ⟨[], s, by simp [hx], by simp⟩
    · obtain ⟨a, t, e, ha⟩ := ih (by
        rcases List.mem_cons.mp h with h | h
        · exact absurd h.symm hx
        · exact h)
      exact ⟨x :: a, t, by simp [e], by simp [ha]; exact fun h' => hx h'.symm⟩

theorem last_split {c : Byte} {s : List Byte} (h : c ∈ s) : ∃ a t, s = a ++ c :: t ∧ c ∉ t := by
  obtain ⟨a, t, e, ha⟩ := first_split (c := c) (s := s.reverse) (List.mem_reverse.mpr h)
  refine ⟨t.reverse, a.reverse, ?_, by simpa using ha⟩
  have := congrArg List.reverse e
  simpa using this

theorem lastIdx_none {c : Byte} {s : List Byte} (h : c ∉ s) : lastIdx c s = none := by
  induction s with
  | nil => rfl
  | cons x t ih =>
    have hx : x ≠ c := fun h' => h (by simp [h'])
    have ht : c ∉ t := fun h' => h (List.mem_cons_of_mem _ h')
    simp [lastIdx, hx, ih ht]

theorem lastIdx_append {c : Byte} {a t : List Byte} (h : c ∉ t) : lastIdx c (a ++ c :: t) = some a.length := by
  induction a with
  | nil => simp [lastIdx, lastIdx_none h]
  | cons x a ih => simp [lastIdx, ih]

theorem occurs_iff (pat : List Byte) : ∀ s : List Byte, occurs pat s = true ↔ pat <:+: s
  | [] => by
    unfold occurs
    rw [List.isPrefixOf_iff_prefix]
    constructor
    · intro h; exact h.isInfix
    · intro h
      have : pat = [] := by simpa using h
      simp [this]
  | x :: t => by
    unfold occurs
    rw [Bool.or_eq_true, List.isPrefixOf_iff_prefix, occurs_iff pat t, List.infix_cons_iff]

/-! ### Memory positions -/

theorem drop_at {pre s : List Byte} {p : Nat} (h : p = pre.length) : (pre ++ s).drop p = s := by
  subst h; simp

theorem rd_at {pre t : List Byte} {x : Byte} {p : Nat} (h : p = pre.length) : rd (pre ++ x :: t) p = some x := by
  subst h; simp [rd]

theorem wr_at {pre t : List Byte} {x y : Byte} {p : Nat} (h : p = pre.length) :
    wr (pre ++ x :: t) p y = some (pre ++ y :: t) := by
  subst h; simp [wr]

theorem memeq_at {pre s pat : List Byte} {p : Nat} (h : p = pre.length) (hl : pat.length ≤ s.length) :
    memeq (pre ++ s) p pat = some (decide (pat <+: s)) := by
  subst h
  unfold memeq
  rw [if_pos (by simp; omega), List.drop_left]
  congr 1
  rw [Bool.eq_iff_iff, beq_iff_eq, decide_eq_true_iff, List.prefix_iff_eq_take]
  exact eq_comm

/-! ### Hexadecimal digits -/

theorem charToHex_eq : ∀ c : Byte, charToHex c = match Spec.Cli.hexVal c with
    | some v => (v : Int)
    | none => -1 := by decide +kernel

theorem hexVal_lt : ∀ c : Byte, ∀ v, Spec.Cli.hexVal c = some v → v < 16 := by
  have h : ∀ c : Byte, (match Spec.Cli.hexVal c with | some v => decide (v < 16) | none => true) = true := by
    decide +kernel
  intro c v hv
  have := h c
  rw [hv] at this
  simpa using this

theorem hexVal_hexDigit : ∀ n : Fin 16, Spec.Cli.hexVal (hexDigit n.val) = some n.val := by decide +kernel

theorem join_hex : ∀ x y : Fin 16, (BitVec.ofNat 8 ((x.val <<< 4) ||| y.val)) = BitVec.ofNat 8 (16 * x.val + y.val) := by
  decide +kernel


/-- The byte denoted by digits `2j` and `2j+1`. -/
def hexAt (h : List Byte) (j : Nat) : Option Byte := do
  let a ← h[j * 2]?
  let b ← h[j * 2 + 1]?
  let x ← Spec.Cli.hexVal a
  let y ← Spec.Cli.hexVal b
  return BitVec.ofNat 8 (16 * x + y)

theorem mapM_reverse {α β : Type} (f : α → Option β) (l : List α) :
    l.reverse.mapM f = (l.mapM f).map List.reverse := by
  induction l with
  | nil => rfl
  | cons x l ih =>
    rw [List.reverse_cons, List.mapM_append, ih, List.mapM_cons]
    cases hx : f x <;> cases hl : l.mapM f <;> simp [hx, hl, List.mapM_cons]

theorem unhex_eq (n : Nat) : ∀ h : List Byte, h.length = 2 * n → Spec.Cli.unhex h = (List.range n).mapM (hexAt h) := by
  induction n with
  | zero => intro h hl; cases h with
    | nil => rfl
    | cons a t => simp at hl
  | succ n ih =>
    intro h hl
    match h with
    | [] => simp at hl
    | [a] => simp at hl; omega
    | a :: b :: t =>
      have ht : t.length = 2 * n := by simp at hl; omega
      rw [List.range_succ_eq_map, List.mapM_cons, List.mapM_map]
      have e : (fun j => hexAt (a :: b :: t) (j.succ)) = hexAt t := by
        funext j
        unfold hexAt
        rw [show j.succ * 2 = j * 2 + 1 + 1 from by omega]
        simp only [List.getElem?_cons_succ]
      have e' : (hexAt (a :: b :: t) ∘ Nat.succ) = hexAt t := e
      rw [e', ← ih t ht]
      conv_lhs => unfold Spec.Cli.unhex
      unfold hexAt
      simp only [Nat.zero_mul, List.getElem?_cons_zero, List.getElem?_cons_succ, Option.bind_eq_bind, Option.bind_some,
        Nat.zero_add]
      cases Spec.Cli.hexVal a <;> cases Spec.Cli.hexVal b <;> simp

theorem canonicalLoop_eq {pre h r : List Byte} {hp dst : Nat} (hhp : hp = pre.length) (hl : h.length = 2 * dst)
    (rev : Bool) : ∀ n i, i + n = dst →
    canonicalLoop (pre ++ (h ++ r)) hp dst rev n i =
      some ((List.range' i n).mapM fun i => hexAt h (if rev then dst - i - 1 else i)) := by
  intro n
  induction n with
  | zero => intro i _; rfl
  | succ n ih =>
    intro i hi
    have hj : (if rev then dst - i - 1 else i) < dst := by split <;> omega
    generalize hje : (if rev then dst - i - 1 else i) = j at hj
    have r0 : rd (pre ++ (h ++ r)) (hp + (j * 2 + 0)) = some (h[j * 2]'(by omega)) := by
      subst hhp
      unfold rd
      rw [List.getElem?_append_right (by omega), Nat.add_sub_cancel_left, List.getElem?_append_left (by omega),
        Nat.add_zero, List.getElem?_eq_getElem (by omega)]
    have r1 : rd (pre ++ (h ++ r)) (hp + (j * 2 + 1)) = some (h[j * 2 + 1]'(by omega)) := by
      subst hhp
      unfold rd
      rw [List.getElem?_append_right (by omega), Nat.add_sub_cancel_left, List.getElem?_append_left (by omega),
        List.getElem?_eq_getElem (by omega)]
    have e : hexAt h j = (do
        let x ← Spec.Cli.hexVal (h[j * 2]'(by omega))
        let y ← Spec.Cli.hexVal (h[j * 2 + 1]'(by omega))
        return BitVec.ofNat 8 (16 * x + y)) := by
      unfold hexAt
      rw [List.getElem?_eq_getElem (by omega), List.getElem?_eq_getElem (by omega)]
      rfl
    rw [List.range'_succ, List.mapM_cons]
    unfold canonicalLoop
    simp only [hje, r0, r1, Option.bind_eq_bind, Option.bind_some, ih (i + 1) (by omega), e, charToHex_eq]
    cases h0 : Spec.Cli.hexVal (h[j * 2]'(by omega)) with
    | none => simp
    | some x =>
      cases h1 : Spec.Cli.hexVal (h[j * 2 + 1]'(by omega)) with
      | none => simp
      | some y =>
        have := join_hex ⟨x, hexVal_lt _ _ h0⟩ ⟨y, hexVal_lt _ _ h1⟩
        simp only at this
        simp only [Int.toNat_natCast, this, Option.bind_some]
        rw [if_neg (by omega), if_neg (by omega)]
        cases List.mapM (fun i => hexAt h (if rev then dst - i - 1 else i)) (List.range' (i + 1) n) <;> simp

theorem canonical_eq {pre h r : List Byte} {hp dst : Nat} (hhp : hp = pre.length) (hl : h.length = 2 * dst)
    (rev : Bool) : canonicalFromString (pre ++ (h ++ r)) dst hp rev = some (Spec.Cli.digest dst rev h) := by
  unfold canonicalFromString Spec.Cli.digest
  rw [canonicalLoop_eq hhp hl rev dst 0 (by omega), if_pos hl, unhex_eq dst h hl, ← List.range_eq_range']
  cases rev with
  | false => simp
  | true =>
    simp only [if_true]
    have hr : (List.range dst).reverse = (List.range dst).map fun i => dst - i - 1 := by
      apply List.ext_getElem
      · simp
      · intro i h1 h2
        simp only [List.length_reverse, List.length_range] at h1
        simp only [List.getElem_reverse, List.length_range, List.getElem_range, List.getElem_map]
        omega
    have := mapM_reverse (hexAt h) (List.range dst)
    rw [hr, List.mapM_map] at this
    exact congrArg some this


/-! ### Unescaping in place -/

theorem wr_front {pre u x1 y : List Byte} {x : Byte} {p : Nat} (h : p = pre.length + u.length) (hne : x1 ≠ []) :
    wr (pre ++ (u ++ (x1 ++ y))) p x = some (pre ++ ((u ++ [x]) ++ (x1.tail ++ y))) := by
  cases x1 with
  | nil => exact absurd rfl hne
  | cons z zs =>
    have := wr_at (pre := pre ++ u) (t := zs ++ y) (x := z) (y := x) (p := p) (by simp [h])
    simpa using this

theorem unescapeLoop_eq {pre tail : List Byte} {len : Nat} : ∀ (fuel : Nat) (rem u junk : List Byte),
    rem.length ≤ fuel → u.length + junk.length + rem.length = len → (0 : Byte) ∉ rem →
    match Spec.Cli.unescape rem with
    | none => unescapeLoop pre.length len fuel (pre ++ (u ++ (junk ++ (rem ++ tail)))) (u.length + junk.length)
        (pre.length + u.length) = some none
    | some v => ∃ junk', u.length + v.length + junk'.length = len ∧
        unescapeLoop pre.length len fuel (pre ++ (u ++ (junk ++ (rem ++ tail)))) (u.length + junk.length)
          (pre.length + u.length) = some (some (pre ++ ((u ++ v) ++ (junk' ++ tail)), pre.length + (u ++ v).length)) := by
  intro fuel
  induction fuel with
  | zero =>
    intro rem u junk h1 h2 h0
    have : rem = [] := List.length_eq_zero_iff.mp (by omega)
    subst this
    refine ⟨junk, by simpa using h2, ?_⟩
    unfold unescapeLoop
    rw [if_neg (by simp at h2; omega)]
    simp
  | succ fuel ih =>
    intro rem u junk h1 h2 h0
    match rem with
    | [] =>
      refine ⟨junk, by simpa using h2, ?_⟩
      unfold unescapeLoop
      rw [if_neg (by simp at h2; omega)]
      simp
    | c :: rem =>
      have hc0 : c ≠ 0 := fun h => h0 (by simp [h])
      have h0' : (0 : Byte) ∉ rem := fun h => h0 (List.mem_cons_of_mem _ h)
      simp only [List.length_cons] at h1 h2
      have hread : rd (pre ++ (u ++ (junk ++ (c :: rem ++ tail)))) (pre.length + (u.length + junk.length)) = some c := by
        have := rd_at (pre := pre ++ (u ++ junk)) (t := rem ++ tail) (x := c)
          (p := pre.length + (u.length + junk.length)) (by simp)
        simpa using this
      by_cases hb : c = 0x5c
      · subst hb
        match rem with
        | [] =>
          simp only [Spec.Cli.unescape, if_true]
          unfold unescapeLoop
          rw [if_pos (by simp at h2; omega)]
          simp only [hread, Option.bind_eq_bind, Option.bind_some, cBSL, if_true]
          rw [if_pos (by simp at h2; omega)]
          rfl
        | d :: rem =>
          have h0'' : (0 : Byte) ∉ rem := fun h => h0' (List.mem_cons_of_mem _ h)
          simp only [List.length_cons] at h1 h2
          have hread2 : rd (pre ++ (u ++ (junk ++ (0x5c :: d :: rem ++ tail))))
              (pre.length + (u.length + junk.length + 1)) = some d := by
            have := rd_at (pre := pre ++ (u ++ (junk ++ [0x5c]))) (t := rem ++ tail) (x := d)
              (p := pre.length + (u.length + junk.length + 1)) (by simp; omega)
            simpa using this
          have hwr : ∀ x, wr (pre ++ (u ++ (junk ++ (0x5c :: d :: rem ++ tail)))) (pre.length + u.length) x =
              some (pre ++ ((u ++ [x]) ++ ((junk ++ [0x5c, d]).tail ++ (rem ++ tail)))) := by
            intro x
            have := wr_front (pre := pre) (u := u) (x1 := junk ++ [0x5c, d]) (y := rem ++ tail) (x := x) rfl
              (by simp)
            simpa using this
          have key : ∀ x, match (Spec.Cli.unescape rem).map (x :: ·) with
              | none => unescapeLoop pre.length len fuel
                  (pre ++ ((u ++ [x]) ++ ((junk ++ [0x5c, d]).tail ++ (rem ++ tail)))) (u.length + junk.length + 1 + 1)
                  (pre.length + u.length + 1) = some none
              | some v => ∃ junk', u.length + v.length + junk'.length = len ∧
                  unescapeLoop pre.length len fuel
                    (pre ++ ((u ++ [x]) ++ ((junk ++ [0x5c, d]).tail ++ (rem ++ tail)))) (u.length + junk.length + 1 + 1)
                    (pre.length + u.length + 1) =
                  some (some (pre ++ ((u ++ v) ++ (junk' ++ tail)), pre.length + (u ++ v).length)) := by
            intro x
            have hi := ih rem (u ++ [x]) (junk ++ [0x5c, d]).tail (by omega) (by simp; omega) h0''
            have e1 : (u ++ [x]).length + (junk ++ [0x5c, d]).tail.length = u.length + junk.length + 1 + 1 := by simp; omega
            have e2 : pre.length + (u ++ [x]).length = pre.length + u.length + 1 := by simp; omega
            rw [e1, e2] at hi
            cases hu : Spec.Cli.unescape rem with
            | none => rw [hu] at hi; exact hi
            | some v =>
              rw [hu] at hi
              obtain ⟨junk', hl, he⟩ := hi
              refine ⟨junk', by simp at hl ⊢; omega, ?_⟩
              rw [he]
              simp
          unfold unescapeLoop
          rw [if_pos (by omega)]
          simp only [hread, hread2, hwr, Option.bind_eq_bind, Option.bind_some, cBSL, cN, cR, cNL, cCR, if_true]
          rw [if_neg (show ¬ (u.length + junk.length + 1 = len) by omega)]
          simp only [Spec.Cli.unescape, if_true]
          by_cases hn : d = 0x6e
          · simp only [if_pos hn]; exact key _
          · simp only [if_neg hn]
            by_cases hr : d = 0x72
            · simp only [if_pos hr]; exact key _
            · simp only [if_neg hr]
              by_cases hbb : d = 0x5c
              · simp only [if_pos hbb]; exact key _
              · simp only [if_neg hbb]; rfl
      · have hwr : wr (pre ++ (u ++ (junk ++ (c :: rem ++ tail)))) (pre.length + u.length) c =
            some (pre ++ ((u ++ [c]) ++ ((junk ++ [c]).tail ++ (rem ++ tail)))) := by
          have := wr_front (pre := pre) (u := u) (x1 := junk ++ [c]) (y := rem ++ tail) (x := c) rfl (by simp)
          simpa using this
        have hi := ih rem (u ++ [c]) (junk ++ [c]).tail (by omega) (by simp; omega) h0'
        have e1 : (u ++ [c]).length + (junk ++ [c]).tail.length = u.length + junk.length + 1 := by simp; omega
        have e2 : pre.length + (u ++ [c]).length = pre.length + u.length + 1 := by simp; omega
        rw [e1, e2] at hi
        unfold unescapeLoop
        rw [if_pos (by omega)]
        simp only [hread, hwr, Option.bind_eq_bind, Option.bind_some, cBSL, if_neg hb, if_neg hc0]
        unfold Spec.Cli.unescape
        simp only [if_neg hb]
        cases hu : Spec.Cli.unescape rem with
        | none => rw [hu] at hi; exact hi
        | some v =>
          rw [hu] at hi
          obtain ⟨junk', hl, he⟩ := hi
          refine ⟨junk', by simp at hl ⊢; omega, ?_⟩
          rw [he]
          simp

theorem unescape_no0 : ∀ (n v : List Byte), (0 : Byte) ∉ n → Spec.Cli.unescape n = some v → (0 : Byte) ∉ v := by
  intro n
  induction hn : n.length using Nat.strong_induction_on generalizing n with
  | _ k ih =>
    intro v h0 h
    match n with
    | [] => simp [Spec.Cli.unescape] at h; simp [h]
    | c :: t =>
      have h0' : (0 : Byte) ∉ t := fun h => h0 (List.mem_cons_of_mem _ h)
      have hc0 : (0 : Byte) ≠ c := fun h => h0 (by simp [h])
      unfold Spec.Cli.unescape at h
      by_cases hb : c = 0x5c
      · rw [if_pos hb] at h
        match t with
        | [] => simp at h
        | d :: t =>
          have h0'' : (0 : Byte) ∉ t := fun h => h0' (List.mem_cons_of_mem _ h)
          have key : ∀ x : Byte, x ≠ 0 → (Spec.Cli.unescape t).map (x :: ·) = some v → (0 : Byte) ∉ v := by
            intro x hx h
            obtain ⟨w, hw, rfl⟩ := Option.map_eq_some_iff.mp h
            have := ih t.length (by simp at hn; omega) t rfl w h0'' hw
            simp only [List.mem_cons, not_or]
            exact ⟨fun h => hx h.symm, this⟩
          simp only at h
          split at h
          · exact key _ (by decide) h
          · split at h
            · exact key _ (by decide) h
            · split at h
              · exact key _ (by decide) h
              · cases h
      · rw [if_neg hb] at h
        obtain ⟨w, hw, rfl⟩ := Option.map_eq_some_iff.mp h
        have := ih t.length (by simp at hn; omega) t rfl w h0' hw
        simp only [List.mem_cons, not_or]
        exact ⟨hc0, this⟩

theorem filenameUnescape_eq {pre n rest : List Byte} (h0 : (0 : Byte) ∉ n) :
    match Spec.Cli.unescape n with
    | none => filenameUnescape (pre ++ (n ++ 0 :: rest)) pre.length n.length = some none
    | some v => ∃ rest', filenameUnescape (pre ++ (n ++ 0 :: rest)) pre.length n.length =
        some (some (pre ++ (v ++ 0 :: rest'))) ∧ v.length + rest'.length = n.length + rest.length ∧
        0 :: rest <:+ 0 :: rest' := by
  have h := unescapeLoop_eq (pre := pre) (tail := 0 :: rest) (len := n.length) n.length n [] [] (Nat.le_refl _)
    (by simp) h0
  simp only [List.nil_append, List.length_nil, Nat.add_zero, Nat.zero_add] at h
  cases hu : Spec.Cli.unescape n with
  | none =>
    rw [hu] at h
    simp only [filenameUnescape, h, Option.bind_eq_bind, Option.bind_some]
    rfl
  | some v =>
    rw [hu] at h
    obtain ⟨junk, hl, he⟩ := h
    cases junk with
    | nil =>
      refine ⟨rest, ?_, by simp at hl; omega, List.suffix_refl _⟩
      simp only [filenameUnescape, he, Option.bind_eq_bind, Option.bind_some]
      rw [if_neg (by simp at hl; omega)]
      rfl
    | cons j js =>
      refine ⟨js ++ 0 :: rest, ?_, by simp at hl ⊢; omega, ⟨0 :: js, by simp⟩⟩
      simp only [filenameUnescape, he, Option.bind_eq_bind, Option.bind_some]
      rw [if_pos (by simp at hl; omega)]
      have := wr_at (pre := pre ++ v) (x := j) (y := 0) (t := js ++ 0 :: rest) (p := pre.length + v.length) (by simp)
      simp only [List.append_assoc, List.cons_append] at this ⊢
      rw [this]
      rfl


/-! ### Splitting a line -/

/-- The specification's name of an algorithm. -/
def algOf : Algo → Alg
  | .xxh32 => .xxh32 | .xxh64 => .xxh64 | .xxh128 => .xxh128 | .xxh3 => .xxh3

theorem algOf_inj {a b : Algo} (h : algOf a = algOf b) : a = b := by
  cases a <;> cases b <;> first | rfl | cases h

theorem prefix_nul {pat a x : List Byte} (h : (0 : Byte) ∉ pat) : pat <+: a ++ 0 :: x ↔ pat <+: a := by
  constructor
  · rintro ⟨t, ht⟩
    rcases List.append_eq_append_iff.mp ht with ⟨w, h1, h2⟩ | ⟨w, h1, h2⟩
    · exact ⟨w, h1.symm⟩
    · cases w with
      | nil => exact ⟨[], by simpa using h1⟩
      | cons y w =>
        rw [List.cons_append] at h2
        have : (0 : Byte) = y := (List.cons.inj h2).1
        exact absurd (by rw [h1, ← this]; simp) h
  · rintro ⟨t, rfl⟩
    exact ⟨t ++ 0 :: x, by simp⟩

theorem bsdAlgo_eq {pre a x : List Byte} (hl : 6 ≤ (a ++ 0 :: x).length) :
    ∃ al, bsdAlgo (pre ++ (a ++ 0 :: x)) pre.length = some al ∧ algOf al = Spec.Cli.tagAlg a := by
  have e1 := memeq_at (pre := pre) (s := a ++ 0 :: x) (pat := [0x58, 0x58, 0x48, 0x33]) rfl (by simp at hl ⊢; omega)
  have e2 := memeq_at (pre := pre) (s := a ++ 0 :: x) (pat := [0x58, 0x58, 0x48, 0x33, 0x32]) rfl (by simp at hl ⊢; omega)
  have e3 := memeq_at (pre := pre) (s := a ++ 0 :: x) (pat := [0x58, 0x58, 0x48, 0x36, 0x34]) rfl (by simp at hl ⊢; omega)
  have e4 := memeq_at (pre := pre) (s := a ++ 0 :: x) (pat := [0x58, 0x58, 0x48, 0x31, 0x32, 0x38]) rfl
    (by simp at hl ⊢; omega)
  refine ⟨_, by simp only [bsdAlgo, e1, e2, e3, e4, Option.bind_eq_bind, Option.bind_some]; rfl, ?_⟩
  simp only [decide_eq_true_eq, Spec.Cli.tagAlg]
  rw [show txt "XXH128" = [0x58, 0x58, 0x48, 0x31, 0x32, 0x38] from by decide +kernel,
    show txt "XXH64" = [0x58, 0x58, 0x48, 0x36, 0x34] from by decide +kernel,
    show txt "XXH32" = [0x58, 0x58, 0x48, 0x33, 0x32] from by decide +kernel,
    show txt "XXH3" = [0x58, 0x58, 0x48, 0x33] from by decide +kernel]
  simp only [prefix_nul (show (0 : Byte) ∉ [0x58, 0x58, 0x48, 0x31, 0x32, 0x38] by decide),
    prefix_nul (show (0 : Byte) ∉ [0x58, 0x58, 0x48, 0x36, 0x34] by decide),
    prefix_nul (show (0 : Byte) ∉ [0x58, 0x58, 0x48, 0x33, 0x32] by decide),
    prefix_nul (show (0 : Byte) ∉ [0x58, 0x58, 0x48, 0x33] by decide)]
  split
  · rfl
  · split
    · rfl
    · split
      · rfl
      · split <;> rfl

theorem strchr_at {pre b rest : List Byte} (h0 : (0 : Byte) ∉ b) (c : Byte) :
    strchr (pre ++ (b ++ 0 :: rest)) pre.length c = some ((firstIdx c b).map (pre.length + ·)) := by
  simp only [strchr, List.drop_left, cstr_eq h0, Option.bind_eq_bind, Option.bind_some]
  rfl

theorem strrchr_at {pre b rest : List Byte} (h0 : (0 : Byte) ∉ b) (c : Byte) :
    strrchr (pre ++ (b ++ 0 :: rest)) pre.length c = some ((lastIdx c b).map (pre.length + ·)) := by
  simp only [strrchr, List.drop_left, cstr_eq h0, Option.bind_eq_bind, Option.bind_some]
  rfl

theorem split_noSpace {pre b rest : List Byte} (h0 : (0 : Byte) ∉ b) (hs : cSPACE ∉ b) (rev : Bool) :
    splitLine (pre ++ (b ++ 0 :: rest)) pre.length rev = some none := by
  simp only [splitLine, strchr_at h0, firstIdx_none.mpr hs, Option.map_none, Option.bind_eq_bind, Option.bind_some]
  rfl

theorem split_short {pre a rest : List Byte} (h0 : (0 : Byte) ∉ a) (hs : cSPACE ∉ a) (rev : Bool) :
    splitLine (pre ++ ((a ++ [cSPACE]) ++ 0 :: rest)) pre.length rev = some none := by
  have h0' : (0 : Byte) ∉ a ++ [cSPACE] := by
    simp only [List.mem_append, List.mem_singleton, not_or]; exact ⟨h0, by decide⟩
  have hr := rd_at (pre := pre ++ (a ++ [cSPACE])) (t := rest) (x := 0) (p := pre.length + a.length + 1) (by simp; omega)
  rw [List.append_assoc] at hr
  simp only [splitLine, strchr_at h0', firstIdx_append hs, Option.map_some, hr, Option.bind_eq_bind, Option.bind_some,
    if_true]
  rfl

theorem split_gnu {pre a t rest : List Byte} {c : Byte} (h0 : (0 : Byte) ∉ a ++ cSPACE :: c :: t) (hs : cSPACE ∉ a)
    (hc : c ≠ cLPAR) (rev : Bool) :
    splitLine (pre ++ ((a ++ cSPACE :: c :: t) ++ 0 :: rest)) pre.length rev =
      some (some (pre ++ ((a ++ cSPACE :: c :: t) ++ 0 :: rest), gnuAlgo a.length, pre.length, a.length, rev,
        pre.length + a.length)) := by
  have hc0 : c ≠ 0 := fun h => h0 (by simp [h])
  have hr := rd_at (pre := pre ++ (a ++ [cSPACE])) (t := t ++ 0 :: rest) (x := c) (p := pre.length + a.length + 1)
    (by simp; omega)
  simp only [List.append_assoc, List.cons_append, List.nil_append] at hr
  have hst := strchr_at (pre := pre) (rest := rest) h0 cSPACE
  rw [firstIdx_append hs] at hst
  simp only [List.append_assoc, List.cons_append, Option.map_some] at hst ⊢
  simp only [splitLine, hst, hr, Option.bind_eq_bind, Option.bind_some, if_neg hc0, if_neg hc]
  rw [Nat.add_sub_cancel_left]
  rfl

theorem split_bsd {pre a name h rest : List Byte}
    (h0 : (0 : Byte) ∉ a ++ cSPACE :: cLPAR :: (name ++ cRPAR :: cSPACE :: cEQ :: cSPACE :: h))
    (ha : cSPACE ∉ a) (hh : cSPACE ∉ h) (rev : Bool) :
    ∃ al, algOf al = Spec.Cli.tagAlg a ∧
    splitLine (pre ++ ((a ++ cSPACE :: cLPAR :: (name ++ cRPAR :: cSPACE :: cEQ :: cSPACE :: h)) ++ 0 :: rest))
        pre.length rev =
      some (some (pre ++ (a ++ 0 :: cLPAR :: (name ++ 0 :: cSPACE :: cEQ :: cSPACE :: (h ++ 0 :: rest))), al,
        pre.length + a.length + name.length + 6, h.length, occurs sLE a, pre.length + a.length)) := by
  have hst := strchr_at (pre := pre) (rest := rest) h0 cSPACE
  have hrs := strrchr_at (pre := pre) (rest := rest) h0 cSPACE
  rw [firstIdx_append ha] at hst
  rw [show a ++ cSPACE :: cLPAR :: (name ++ cRPAR :: cSPACE :: cEQ :: cSPACE :: h) =
    (a ++ cSPACE :: cLPAR :: (name ++ [cRPAR, cSPACE, cEQ])) ++ cSPACE :: h from by simp, lastIdx_append hh] at hrs
  have h0a : (0 : Byte) ∉ a := fun h => h0 (List.mem_append_left _ h)
  have h0h : (0 : Byte) ∉ h := fun h => h0 (by
    simp only [List.mem_append, List.mem_cons]
    exact .inr (.inr (.inr (.inr (.inr (.inr (.inr (.inr h))))))))
  have r0 := rd_at (pre := pre ++ (a ++ [cSPACE])) (x := cLPAR) (p := pre.length + a.length + 1)
    (t := name ++ cRPAR :: cSPACE :: cEQ :: cSPACE :: (h ++ 0 :: rest)) (by simp; omega)
  have r1 := rd_at (pre := pre ++ (a ++ cSPACE :: cLPAR :: (name ++ [cRPAR, cSPACE]))) (x := cEQ)
    (p := pre.length + (a ++ cSPACE :: cLPAR :: (name ++ [cRPAR, cSPACE, cEQ])).length - 1)
    (t := cSPACE :: (h ++ 0 :: rest)) (by simp; omega)
  have r2 := rd_at (pre := pre ++ (a ++ cSPACE :: cLPAR :: (name ++ [cRPAR]))) (x := cSPACE)
    (p := pre.length + (a ++ cSPACE :: cLPAR :: (name ++ [cRPAR, cSPACE, cEQ])).length - 2)
    (t := cEQ :: cSPACE :: (h ++ 0 :: rest)) (by simp; omega)
  have r3 := rd_at (pre := pre ++ (a ++ cSPACE :: cLPAR :: name)) (x := cRPAR)
    (p := pre.length + (a ++ cSPACE :: cLPAR :: (name ++ [cRPAR, cSPACE, cEQ])).length - 3)
    (t := cSPACE :: cEQ :: cSPACE :: (h ++ 0 :: rest)) (by simp; omega)
  have w1 := wr_at (pre := pre ++ (a ++ cSPACE :: cLPAR :: name)) (x := cRPAR) (y := 0)
    (p := pre.length + (a ++ cSPACE :: cLPAR :: (name ++ [cRPAR, cSPACE, cEQ])).length - 3)
    (t := cSPACE :: cEQ :: cSPACE :: (h ++ 0 :: rest)) (by simp; omega)
  have w2 := wr_at (pre := pre ++ a) (x := cSPACE) (y := 0) (p := pre.length + a.length)
    (t := cLPAR :: (name ++ 0 :: cSPACE :: cEQ :: cSPACE :: (h ++ 0 :: rest))) (by simp)
  obtain ⟨al, ea, et⟩ := bsdAlgo_eq (pre := pre) (a := a)
    (x := cLPAR :: (name ++ 0 :: cSPACE :: cEQ :: cSPACE :: (h ++ 0 :: rest))) (by simp; omega)
  have es : strstr (pre ++ (a ++ 0 :: cLPAR :: (name ++ 0 :: cSPACE :: cEQ :: cSPACE :: (h ++ 0 :: rest)))) pre.length sLE =
      some (occurs sLE a) := by
    simp only [strstr, List.drop_left, cstr_eq h0a, Option.bind_eq_bind, Option.bind_some]
    rfl
  have hpos : pre.length + (a ++ cSPACE :: cLPAR :: (name ++ [cRPAR, cSPACE, cEQ])).length + 1 =
      pre.length + a.length + name.length + 6 := by simp; omega
  have el : strlen (pre ++ (a ++ 0 :: cLPAR :: (name ++ 0 :: cSPACE :: cEQ :: cSPACE :: (h ++ 0 :: rest))))
      (pre.length + a.length + name.length + 6) = some h.length := by
    have := drop_at (pre := pre ++ (a ++ 0 :: cLPAR :: (name ++ [0, cSPACE, cEQ, cSPACE]))) (s := h ++ 0 :: rest)
      (p := pre.length + a.length + name.length + 6) (by simp; omega)
    simp only [List.append_assoc, List.cons_append, List.nil_append] at this
    simp only [strlen, this, cstr_eq h0h, Option.map_some]
  refine ⟨al, et, ?_⟩
  simp only [List.append_assoc, List.cons_append, List.nil_append] at hst hrs r0 r1 r2 r3 w1 w2 ⊢
  have hge : ¬ (pre.length + (a ++ cSPACE :: cLPAR :: (name ++ [cRPAR, cSPACE, cEQ])).length < pre.length + a.length + 5) := by
    simp; omega
  simp only [splitLine, hst, hrs, Option.map_some, Option.bind_eq_bind, Option.bind_some, r0,
    show ¬ (cLPAR = (0 : Byte)) from by decide, if_false, if_true, if_neg hge, r1, r2, r3, w1, w2, es, hpos, el, ea, ne_eq,
    not_true_eq_false]
  rfl

theorem split_cases {pre b rest : List Byte} (h0 : (0 : Byte) ∉ b) (rev : Bool) :
    splitLine (pre ++ (b ++ 0 :: rest)) pre.length rev = some none ∨
    (∃ a c t, b = a ++ cSPACE :: c :: t ∧ cSPACE ∉ a ∧ c ≠ cLPAR) ∨
    (∃ a name h, b = a ++ cSPACE :: cLPAR :: (name ++ cRPAR :: cSPACE :: cEQ :: cSPACE :: h) ∧ cSPACE ∉ a ∧
      cSPACE ∉ h) := by
  by_cases hs : cSPACE ∈ b
  swap
  · exact .inl (split_noSpace h0 hs rev)
  obtain ⟨a, t, e, ha⟩ := first_split hs
  match t with
  | [] => subst e; exact .inl (split_short (fun h => h0 (List.mem_append_left _ h)) ha rev)
  | c :: t =>
    by_cases hc : c = cLPAR
    swap
    · exact .inr (.inl ⟨a, c, t, e, ha, hc⟩)
    obtain ⟨x, h, e2, hh⟩ := last_split hs
    subst hc
    have hst := strchr_at (pre := pre) (rest := rest) h0 cSPACE
    have hrs := strrchr_at (pre := pre) (rest := rest) h0 cSPACE
    have hf : firstIdx cSPACE b = some a.length := by rw [e]; exact firstIdx_append ha
    have hl : lastIdx cSPACE b = some x.length := by rw [e2]; exact lastIdx_append hh
    rw [hf] at hst
    rw [hl] at hrs
    have r0 : rd (pre ++ (b ++ 0 :: rest)) (pre.length + a.length + 1) = some cLPAR := by
      have := rd_at (pre := pre ++ (a ++ [cSPACE])) (x := cLPAR) (p := pre.length + a.length + 1)
        (t := t ++ 0 :: rest) (by simp; omega)
      rw [e]; simpa using this
    by_cases hlt : x.length < a.length + 5
    · left
      simp only [splitLine, hst, hrs, Option.map_some, Option.bind_eq_bind, Option.bind_some, r0,
        show ¬ (cLPAR = (0 : Byte)) from by decide, if_false, if_true]
      rw [if_pos (by omega)]
      rfl
    -- the three characters before the last space
    have hge : ¬ (pre.length + x.length < pre.length + a.length + 5) := by omega
    have hx : ∃ y c1 c2 c3, x = y ++ [c1, c2, c3] := by
      refine ⟨x.take (x.length - 3), ?_⟩
      have hd : (x.drop (x.length - 3)).length = 3 := by simp; omega
      match hm : x.drop (x.length - 3), hd with
      | [c1, c2, c3], _ => exact ⟨c1, c2, c3, by rw [← hm, List.take_append_drop]⟩
    obtain ⟨y, c1, c2, c3, rfl⟩ := hx
    have r1 : rd (pre ++ (b ++ 0 :: rest)) (pre.length + (y ++ [c1, c2, c3]).length - 1) = some c3 := by
      have := rd_at (pre := pre ++ (y ++ [c1, c2])) (x := c3) (p := pre.length + (y ++ [c1, c2, c3]).length - 1)
        (t := cSPACE :: (h ++ 0 :: rest)) (by simp only [List.length_append, List.length_cons, List.length_nil]; omega)
      rw [e2]; simpa using this
    have r2 : rd (pre ++ (b ++ 0 :: rest)) (pre.length + (y ++ [c1, c2, c3]).length - 2) = some c2 := by
      have := rd_at (pre := pre ++ (y ++ [c1])) (x := c2) (p := pre.length + (y ++ [c1, c2, c3]).length - 2)
        (t := c3 :: cSPACE :: (h ++ 0 :: rest)) (by simp; omega)
      rw [e2]; simpa using this
    have r3 : rd (pre ++ (b ++ 0 :: rest)) (pre.length + (y ++ [c1, c2, c3]).length - 3) = some c1 := by
      have := rd_at (pre := pre ++ y) (x := c1) (p := pre.length + (y ++ [c1, c2, c3]).length - 3)
        (t := c2 :: c3 :: cSPACE :: (h ++ 0 :: rest)) (by simp; omega)
      rw [e2]; simpa using this
    by_cases hchars : c3 = cEQ ∧ c2 = cSPACE ∧ c1 = cRPAR
    · right; right
      obtain ⟨rfl, rfl, rfl⟩ := hchars
      have hp : a ++ [cSPACE, cLPAR] <+: y := by
        refine List.prefix_of_prefix_length_le (l₃ := b) ⟨t, by rw [e]; simp⟩ ⟨cRPAR :: cSPACE :: cEQ :: cSPACE :: h, by
          rw [e2]; simp⟩ (by simp only [List.length_append, List.length_cons, List.length_nil] at hlt ⊢; omega)
      obtain ⟨name, rfl⟩ := hp
      exact ⟨a, name, h, by rw [e2]; simp, ha, hh⟩
    · left
      simp only [splitLine, hst, hrs, Option.map_some, Option.bind_eq_bind, Option.bind_some, r0,
        show ¬ (cLPAR = (0 : Byte)) from by decide, if_false, if_true, if_neg hge, r1, r2, r3, ne_eq]
      by_cases h3 : c3 = cEQ
      · by_cases h2 : c2 = cSPACE
        · have h1 : ¬ c1 = cRPAR := fun h1 => hchars ⟨h3, h2, h1⟩
          simp [h1, h2, h3]
        · simp [h2, h3]
      · simp [h3]


/-! ### The hash field -/

/-- The hash field accepted for an algorithm, as the code decides it. -/
def hashSpec (algo : Algo) (h : List Byte) (rev : Bool) : Option (List Byte) :=
  if h.length = 8 then (if algo ≠ .xxh32 then none else Spec.Cli.digest 4 rev h)
  else if h.length = 16 then (if algo ≠ .xxh64 ∧ algo ≠ .xxh3 then none else Spec.Cli.digest 8 rev h)
  else if h.length = 21 then
    (if algo ≠ .xxh3 then none else if sXXH3_ <+: h then Spec.Cli.digest 8 rev (h.drop 5) else none)
  else if h.length = 32 then (if algo ≠ .xxh128 then none else Spec.Cli.digest 16 rev h)
  else none

theorem parseHash_eq {pre h r : List Byte} {hp : Nat} (hhp : hp = pre.length) (algo : Algo) (rev : Bool) :
    parseHash (pre ++ (h ++ r)) algo hp h.length rev = some (hashSpec algo h rev) := by
  unfold parseHash hashSpec
  by_cases h8 : h.length = 8
  · simp only [if_pos h8, canonical_eq hhp (show h.length = 2 * 4 by omega)]
    split <;> rfl
  rw [if_neg h8, if_neg h8]
  by_cases h16 : h.length = 16
  · simp only [if_pos h16, canonical_eq hhp (show h.length = 2 * 8 by omega)]
    split <;> rfl
  rw [if_neg h16, if_neg h16]
  by_cases h21 : h.length = 21
  · rw [if_pos h21, if_pos h21]
    have e1 := memeq_at (s := h ++ r) (pat := sXXH3_) hhp (by simp [sXXH3_]; omega)
    have e2 : sXXH3_ <+: h ++ r ↔ sXXH3_ <+: h := by
      constructor
      · intro h'
        exact List.prefix_of_prefix_length_le h' (List.prefix_append h r) (by simp [sXXH3_]; omega)
      · intro h'; exact h'.trans (List.prefix_append h r)
    have e3 := canonical_eq (pre := pre ++ h.take 5) (h := h.drop 5) (r := r) (hp := hp + 5) (dst := 8)
      (by simp [hhp]; omega) (by simp; omega) rev
    have e4 : pre ++ h.take 5 ++ (h.drop 5 ++ r) = pre ++ (h ++ r) := by
      rw [List.append_assoc, ← List.append_assoc (h.take 5), List.take_append_drop]
    rw [e4] at e3
    simp only [e1, e2, e3, Option.bind_eq_bind, Option.bind_some]
    by_cases ha : algo ≠ .xxh3
    · simp [ha]
    · by_cases hx : sXXH3_ <+: h <;> simp [ha, hx]
  rw [if_neg h21, if_neg h21]
  by_cases h32 : h.length = 32
  · simp only [if_pos h32, canonical_eq hhp (show h.length = 2 * 16 by omega)]
    split <;> rfl
  rw [if_neg h32, if_neg h32]
  rfl

theorem digest_length {n : Nat} {le : Bool} {h d : List Byte} (hd : Spec.Cli.digest n le h = some d) :
    h.length = 2 * n := by
  unfold Spec.Cli.digest at hd
  split at hd
  · assumption
  · cases hd

theorem txt_XXH3_ : txt "XXH3_" = sXXH3_ := by decide +kernel
theorem txt_LE : txt "_LE" = sLE := by decide +kernel

theorem hashSpec_bsd {algo : Algo} {h d : List Byte} {rev : Bool} :
    hashSpec algo h rev = some d ↔ Spec.Cli.BsdHash rev h (algOf algo) d := by
  constructor
  · intro hs
    unfold hashSpec at hs
    split at hs
    · split at hs
      · cases hs
      · rename_i ha; rw [not_not] at ha; subst ha; exact .xxh32 hs
    · split at hs
      · split at hs
        · cases hs
        · rename_i ha
          cases algo
          · simp at ha
          · exact .xxh64 hs
          · simp at ha
          · exact .xxh3 hs
      · split at hs
        · split at hs
          · cases hs
          · rename_i ha; rw [not_not] at ha; subst ha
            split at hs
            · rename_i hx
              obtain ⟨t, rfl⟩ := hx
              rw [show (sXXH3_ ++ t).drop 5 = t from List.drop_left' rfl] at hs
              rw [← txt_XXH3_]
              exact .xxh3' hs
            · cases hs
        · split at hs
          · split at hs
            · cases hs
            · rename_i ha; rw [not_not] at ha; subst ha; exact .xxh128 hs
          · cases hs
  · intro hs
    generalize hal : algOf algo = al at hs
    cases hs with
    | xxh32 hd =>
      have : algo = .xxh32 := algOf_inj hal
      subst this
      have hl := digest_length hd
      simp [hashSpec, hl, hd]
    | xxh64 hd =>
      have : algo = .xxh64 := algOf_inj hal
      subst this
      have hl := digest_length hd
      simp [hashSpec, hl, hd]
    | xxh128 hd =>
      have : algo = .xxh128 := algOf_inj hal
      subst this
      have hl := digest_length hd
      simp [hashSpec, hl, hd]
    | xxh3 hd =>
      have : algo = .xxh3 := algOf_inj hal
      subst this
      have hl := digest_length hd
      simp [hashSpec, hl, hd]
    | xxh3' hd =>
      have : algo = .xxh3 := algOf_inj hal
      subst this
      have hl := digest_length hd
      rw [txt_XXH3_]
      have hd5 : ∀ x : List Byte, (sXXH3_ ++ x).drop 5 = x := fun x => List.drop_left' rfl
      simp [hashSpec, hl, hd, show sXXH3_.length = 5 from rfl, hd5]

theorem hashSpec_gnu {h d : List Byte} {rev : Bool} {al : Alg} :
    (al = algOf (gnuAlgo h.length) ∧ hashSpec (gnuAlgo h.length) h rev = some d) ↔ Spec.Cli.GnuHash rev h al d := by
  constructor
  · rintro ⟨rfl, hs⟩
    unfold hashSpec at hs
    by_cases h8 : h.length = 8
    · simp only [h8, gnuAlgo] at hs ⊢
      exact .xxh32 hs
    rw [if_neg h8] at hs
    by_cases h16 : h.length = 16
    · simp only [h16, gnuAlgo] at hs ⊢
      exact .xxh64 hs
    rw [if_neg h16] at hs
    by_cases h21 : h.length = 21
    · simp only [h21, gnuAlgo] at hs ⊢
      simp only [Nat.reduceEqDiff, if_false, if_true, ne_eq, not_true_eq_false] at hs ⊢
      split at hs
      · rename_i hx
        obtain ⟨t, rfl⟩ := hx
        rw [show (sXXH3_ ++ t).drop 5 = t from List.drop_left' rfl] at hs
        rw [← txt_XXH3_]
        exact .xxh3 hs
      · cases hs
    rw [if_neg h21] at hs
    by_cases h32 : h.length = 32
    · simp only [h32, gnuAlgo] at hs ⊢
      exact .xxh128 hs
    rw [if_neg h32] at hs
    cases hs
  · intro hs
    cases hs with
    | xxh32 hd =>
      have hl := digest_length hd
      simp [hashSpec, gnuAlgo, algOf, hl, hd]
    | xxh64 hd =>
      have hl := digest_length hd
      simp [hashSpec, gnuAlgo, algOf, hl, hd]
    | xxh128 hd =>
      have hl := digest_length hd
      simp [hashSpec, gnuAlgo, algOf, hl, hd]
    | xxh3 hd =>
      have hl := digest_length hd
      rw [txt_XXH3_]
      have hd5 : ∀ x : List Byte, (sXXH3_ ++ x).drop 5 = x := fun x => List.drop_left' rfl
      simp [hashSpec, gnuAlgo, algOf, hl, hd, show sXXH3_.length = 5 from rfl, hd5]


/-! ### Whole lines -/

theorem first_unique {c : Byte} {a a' t t' : List Byte} (e : a ++ c :: t = a' ++ c :: t') (h : c ∉ a) (h' : c ∉ a') :
    a = a' ∧ t = t' := by
  have e1 := firstIdx_append (t := t) h
  have e2 := firstIdx_append (t := t') h'
  rw [e, e2] at e1
  have hl : a.length = a'.length := by simpa using e1.symm
  obtain ⟨h1, h2⟩ := List.append_inj e hl
  exact ⟨h1, (List.cons.inj h2).2⟩

theorem last_unique {c : Byte} {a a' t t' : List Byte} (e : a ++ c :: t = a' ++ c :: t') (h : c ∉ t) (h' : c ∉ t') :
    a = a' ∧ t = t' := by
  have e1 := lastIdx_append (a := a) h
  have e2 := lastIdx_append (a := a') h'
  rw [e, e2] at e1
  have hl : a.length = a'.length := by simpa using e1.symm
  obtain ⟨h1, h2⟩ := List.append_inj e hl
  exact ⟨h1, (List.cons.inj h2).2⟩

theorem txt_lpar : txt " (" = [cSPACE, cLPAR] := by decide +kernel
theorem txt_rpar : txt ") = " = [cRPAR, cSPACE, cEQ, cSPACE] := by decide +kernel

theorem decide_LE (a : List Byte) [Decidable (txt "_LE" <:+: a)] : decide (txt "_LE" <:+: a) = occurs sLE a := by
  rw [Bool.eq_iff_iff, occurs_iff, decide_eq_true_iff, txt_LE]

/-- A successful result that says what entry `e` says. -/
def Good (m : CMem) (r : Option (ParsedLine × CMem)) (e : Spec.Cli.Entry) : Prop :=
  ∃ p m', r = some (p, m') ∧ algOf p.algo = e.alg ∧ p.canonical = e.digest ∧
    cstr (m'.drop p.filename) = some e.name ∧ m'.length = m.length

/-- What the code decides once the line is split. -/
def Accepted (esc : Bool) (mask : BitVec 32) (al : Algo) (h n : List Byte) (rev : Bool) (e : Spec.Cli.Entry) : Prop :=
  algOf al = e.alg ∧ accepts mask al = true ∧ hashSpec al h rev = some e.digest ∧
    if esc then Spec.Cli.unescape n = some e.name else n = e.name

theorem parse_after_split {m m' pre P n R h : List Byte} {line hp fs : Nat} {rev rev' esc : Bool} {mask : BitVec 32}
    {al : Algo} {X : List Byte} (hm' : m' = P ++ (n ++ 0 :: R)) (hP : P.length = fs + 2) (hn : (0 : Byte) ∉ n)
    (hsp : splitLine m line rev = some (some (m', al, hp, h.length, rev', fs)))
    (hh : m' = pre ++ (h ++ X)) (hhp : hp = pre.length) (hlen : m'.length = m.length) :
    ∃ r, parseLine1 m line rev esc mask = some r ∧
      (∀ e, Accepted esc mask al h n rev' e → Good m r e) ∧ (r ≠ none → ∃ e, Accepted esc mask al h n rev' e) := by
  have eh := parseHash_eq (pre := pre) (h := h) (r := X) hhp al rev'
  rw [← hh] at eh
  unfold parseLine1 Accepted
  simp only [hsp, Option.bind_eq_bind, Option.bind_some]
  cases hacc : accepts mask al with
  | false => exact ⟨none, rfl, by rintro e ⟨_, h, _⟩; simp at h, fun h => absurd rfl h⟩
  | true =>
    simp only [Bool.not_true, Bool.false_eq_true, if_false, eh, Option.bind_some]
    cases hd : hashSpec al h rev' with
    | none => exact ⟨none, rfl, (by rintro e ⟨_, _, h, _⟩; simp at h), fun h => absurd rfl h⟩
    | some d =>
      have el : strlen m' (fs + 2) = some n.length := by
        rw [hm', ← hP]
        simp only [strlen, List.drop_left, cstr_eq hn, Option.map_some]
      simp only [el, Option.bind_some]
      cases esc with
      | false =>
        refine ⟨_, rfl, ?_, fun _ => ⟨⟨algOf al, d, n⟩, rfl, trivial, rfl, rfl⟩⟩
        rintro e ⟨h1, _, h2, h3⟩
        simp only [Bool.false_eq_true, if_false] at h3
        refine ⟨_, _, rfl, h1, Option.some.inj h2, ?_, hlen⟩
        show cstr (m'.drop (fs + 2)) = _
        rw [hm', ← hP, List.drop_left, cstr_eq hn, h3]
      | true =>
        have hu := filenameUnescape_eq (pre := P) (rest := R) hn
        rw [← hm', hP] at hu
        simp only [if_true]
        cases hv : Spec.Cli.unescape n with
        | none =>
          rw [hv] at hu
          simp only [hu, Option.bind_some]
          exact ⟨none, rfl, (by rintro e ⟨_, _, _, h⟩; simp at h), fun h => absurd rfl h⟩
        | some v =>
          rw [hv] at hu
          obtain ⟨R', hu, hl, _⟩ := hu
          simp only [hu, Option.bind_some]
          refine ⟨_, rfl, ?_, fun _ => ⟨⟨algOf al, d, v⟩, rfl, trivial, rfl, rfl⟩⟩
          rintro e ⟨h1, _, h2, h3⟩
          refine ⟨_, _, rfl, h1, Option.some.inj h2, ?_, ?_⟩
          · show cstr ((P ++ (v ++ 0 :: R')).drop (fs + 2)) = _
            rw [← hP, List.drop_left, cstr_eq (unescape_no0 n v hn hv)]
            exact h3
          · rw [← hlen, hm']; simp; omega

/-- The lines accepted by `XSUM_parseLine1`. -/
def LineAcc (rev esc : Bool) (mask : BitVec 32) (b : List Byte) (e : Spec.Cli.Entry) : Prop :=
  (∃ al, algOf al = e.alg ∧ accepts mask al = true) ∧ ∃ n, Spec.Cli.Line rev b ⟨e.alg, e.digest, n⟩ ∧
    if esc then Spec.Cli.unescape n = some e.name else n = e.name

theorem gnu_inv {rev : Bool} {a t : List Byte} {c : Byte} (ha : cSPACE ∉ a) (hc : c ≠ cLPAR) {al : Alg} {d n : List Byte} :
    Spec.Cli.Line rev (a ++ cSPACE :: c :: t) ⟨al, d, n⟩ ↔ n = t ∧ Spec.Cli.GnuHash rev a al d := by
  constructor
  · generalize hb : a ++ cSPACE :: c :: t = b
    intro h
    cases h with
    | gnu h1 h2 h3 =>
      obtain ⟨e1, e2⟩ := first_unique hb ha h1
      subst e1
      exact ⟨((List.cons.inj e2).2).symm, h3⟩
    | bsd h1 h2 h3 =>
      rw [txt_lpar] at hb
      simp only [List.append_assoc, List.cons_append, List.nil_append] at hb
      obtain ⟨e1, e2⟩ := first_unique hb ha h1
      exact absurd (List.cons.inj e2).1 hc
  · rintro ⟨rfl, h⟩
    exact .gnu ha hc h

theorem bsd_inv {rev : Bool} {a h name : List Byte} (ha : cSPACE ∉ a) (hh : cSPACE ∉ h) {al : Alg} {d n : List Byte} :
    Spec.Cli.Line rev (a ++ cSPACE :: cLPAR :: (name ++ cRPAR :: cSPACE :: cEQ :: cSPACE :: h)) ⟨al, d, n⟩ ↔
      n = name ∧ al = Spec.Cli.tagAlg a ∧ Spec.Cli.BsdHash (occurs sLE a) h al d := by
  constructor
  · generalize hb : a ++ cSPACE :: cLPAR :: (name ++ cRPAR :: cSPACE :: cEQ :: cSPACE :: h) = b
    intro hl
    cases hl with
    | gnu h1 h2 h3 =>
      obtain ⟨e1, e2⟩ := first_unique hb ha h1
      exact absurd (List.cons.inj e2).1.symm h2
    | @bsd tag hash name' d h1 h2 h3 =>
      rw [txt_lpar, txt_rpar] at hb
      simp only [List.append_assoc, List.cons_append, List.nil_append] at hb
      obtain ⟨e1, e2⟩ := first_unique hb ha h1
      subst e1
      have e3 : name ++ cRPAR :: cSPACE :: cEQ :: cSPACE :: h = n ++ cRPAR :: cSPACE :: cEQ :: cSPACE :: hash :=
        (List.cons.inj e2).2
      rw [show name ++ cRPAR :: cSPACE :: cEQ :: cSPACE :: h = (name ++ [cRPAR, cSPACE, cEQ]) ++ cSPACE :: h from by simp,
        show n ++ cRPAR :: cSPACE :: cEQ :: cSPACE :: hash = (n ++ [cRPAR, cSPACE, cEQ]) ++ cSPACE :: hash from by
          simp] at e3
      obtain ⟨e4, rfl⟩ := last_unique e3 hh h2
      exact ⟨(List.append_cancel_right e4).symm, rfl, @decide_LE a (List.instDecidableIsInfixOfDecidableEq _ _) ▸ h3⟩
  · rintro ⟨rfl, rfl, h3⟩
    have := Spec.Cli.Line.bsd (le := rev) (name := n) ha hh ((@decide_LE a (List.instDecidableIsInfixOfDecidableEq _ _)).symm ▸ h3)
    rw [txt_lpar, txt_rpar] at this
    simpa using this

theorem line_shape {rev : Bool} {b : List Byte} {e : Spec.Cli.Entry} (h : Spec.Cli.Line rev b e) :
    (∃ a c t, b = a ++ cSPACE :: c :: t ∧ cSPACE ∉ a ∧ c ≠ cLPAR) ∨
    (∃ a name h, b = a ++ cSPACE :: cLPAR :: (name ++ cRPAR :: cSPACE :: cEQ :: cSPACE :: h) ∧ cSPACE ∉ a ∧
      cSPACE ∉ h) := by
  cases h with
  | gnu h1 h2 h3 => exact .inl ⟨_, _, _, rfl, h1, h2⟩
  | bsd h1 h2 h3 => exact .inr ⟨_, _, _, by rw [txt_lpar, txt_rpar]; simp; rfl, h1, h2⟩

theorem parse_gnu {pre a t rest : List Byte} {c : Byte} (h0 : (0 : Byte) ∉ a ++ cSPACE :: c :: t) (ha : cSPACE ∉ a)
    (hc : c ≠ cLPAR) (rev esc : Bool) (mask : BitVec 32) :
    ∃ r, parseLine1 (pre ++ ((a ++ cSPACE :: c :: t) ++ 0 :: rest)) pre.length rev esc mask = some r ∧
      (∀ e, LineAcc rev esc mask (a ++ cSPACE :: c :: t) e → Good (pre ++ ((a ++ cSPACE :: c :: t) ++ 0 :: rest)) r e) ∧
      (r ≠ none → ∃ e, LineAcc rev esc mask (a ++ cSPACE :: c :: t) e) := by
  have h0t : (0 : Byte) ∉ t := fun h => h0 (by simp only [List.mem_append, List.mem_cons]; exact .inr (.inr (.inr h)))
  obtain ⟨r, e1, e2, e3⟩ := parse_after_split (esc := esc) (mask := mask) (P := pre ++ (a ++ [cSPACE, c])) (n := t) (R := rest)
    (X := cSPACE :: c :: (t ++ 0 :: rest)) (pre := pre) (by simp) (by simp; omega) h0t
    (split_gnu (pre := pre) (rest := rest) h0 ha hc rev) (by simp) rfl rfl
  have hiff : ∀ e, LineAcc rev esc mask (a ++ cSPACE :: c :: t) e ↔ Accepted esc mask (gnuAlgo a.length) a t rev e := by
    intro e
    constructor
    · rintro ⟨⟨al, h1, h2⟩, n, h3, h4⟩
      obtain ⟨rfl, h5⟩ := (gnu_inv ha hc).mp h3
      obtain ⟨h6, h7⟩ := hashSpec_gnu.mpr h5
      have : al = gnuAlgo a.length := algOf_inj (h1.trans h6)
      subst this
      exact ⟨h6.symm, h2, h7, h4⟩
    · rintro ⟨h1, h2, h3, h4⟩
      exact ⟨⟨_, h1, h2⟩, t, (gnu_inv ha hc).mpr ⟨rfl, hashSpec_gnu.mp ⟨h1.symm, h3⟩⟩, h4⟩
  exact ⟨r, e1, fun e he => e2 e ((hiff e).mp he), fun hr => (e3 hr).imp fun e he => (hiff e).mpr he⟩

theorem parse_bsd {pre a name h rest : List Byte}
    (h0 : (0 : Byte) ∉ a ++ cSPACE :: cLPAR :: (name ++ cRPAR :: cSPACE :: cEQ :: cSPACE :: h))
    (ha : cSPACE ∉ a) (hh : cSPACE ∉ h) (rev esc : Bool) (mask : BitVec 32) :
    ∃ r, parseLine1 (pre ++ ((a ++ cSPACE :: cLPAR :: (name ++ cRPAR :: cSPACE :: cEQ :: cSPACE :: h)) ++ 0 :: rest))
        pre.length rev esc mask = some r ∧
      (∀ e, LineAcc rev esc mask (a ++ cSPACE :: cLPAR :: (name ++ cRPAR :: cSPACE :: cEQ :: cSPACE :: h)) e →
        Good (pre ++ ((a ++ cSPACE :: cLPAR :: (name ++ cRPAR :: cSPACE :: cEQ :: cSPACE :: h)) ++ 0 :: rest)) r e) ∧
      (r ≠ none → ∃ e, LineAcc rev esc mask (a ++ cSPACE :: cLPAR :: (name ++ cRPAR :: cSPACE :: cEQ :: cSPACE :: h)) e) := by
  have h0n : (0 : Byte) ∉ name := fun h => h0 (by
    simp only [List.mem_append, List.mem_cons]; exact .inr (.inr (.inr (.inl h))))
  obtain ⟨al, et, es⟩ := split_bsd (pre := pre) (rest := rest) h0 ha hh rev
  obtain ⟨r, e1, e2, e3⟩ := parse_after_split (esc := esc) (mask := mask) (P := pre ++ (a ++ [0, cLPAR])) (n := name)
    (R := cSPACE :: cEQ :: cSPACE :: (h ++ 0 :: rest))
    (X := 0 :: rest) (pre := pre ++ (a ++ 0 :: cLPAR :: (name ++ [0, cSPACE, cEQ, cSPACE]))) (by simp) (by simp; omega) h0n
    es (by simp) (by simp; omega) (by simp)
  have hiff : ∀ e, LineAcc rev esc mask (a ++ cSPACE :: cLPAR :: (name ++ cRPAR :: cSPACE :: cEQ :: cSPACE :: h)) e ↔
      Accepted esc mask al h name (occurs sLE a) e := by
    intro e
    constructor
    · rintro ⟨⟨al', h1, h2⟩, n, h3, h4⟩
      obtain ⟨rfl, h5, h6⟩ := (bsd_inv ha hh).mp h3
      have : al' = al := algOf_inj (h1.trans (h5.trans et.symm))
      subst this
      rw [← h1] at h6
      exact ⟨h1, h2, hashSpec_bsd.mpr h6, h4⟩
    · rintro ⟨h1, h2, h3, h4⟩
      exact ⟨⟨_, h1, h2⟩, name, (bsd_inv ha hh).mpr ⟨rfl, h1.symm.trans et, h1 ▸ hashSpec_bsd.mp h3⟩, h4⟩
  exact ⟨r, e1, fun e he => e2 e ((hiff e).mp he), fun hr => (e3 hr).imp fun e he => (hiff e).mpr he⟩

theorem parseLine1_eq {pre b rest : List Byte} (h0 : (0 : Byte) ∉ b) (rev esc : Bool) (mask : BitVec 32) :
    ∃ r, parseLine1 (pre ++ (b ++ 0 :: rest)) pre.length rev esc mask = some r ∧
      (∀ e, LineAcc rev esc mask b e → Good (pre ++ (b ++ 0 :: rest)) r e) ∧
      (r ≠ none → ∃ e, LineAcc rev esc mask b e) := by
  by_cases hs : (∃ a c t, b = a ++ cSPACE :: c :: t ∧ cSPACE ∉ a ∧ c ≠ cLPAR)
  · obtain ⟨a, c, t, rfl, ha, hc⟩ := hs
    exact parse_gnu h0 ha hc rev esc mask
  by_cases hs2 : (∃ a name h, b = a ++ cSPACE :: cLPAR :: (name ++ cRPAR :: cSPACE :: cEQ :: cSPACE :: h) ∧ cSPACE ∉ a ∧
      cSPACE ∉ h)
  · obtain ⟨a, name, h, rfl, ha, hh⟩ := hs2
    exact parse_bsd h0 ha hh rev esc mask
  rcases split_cases (pre := pre) (rest := rest) h0 rev with h | h | h
  · refine ⟨none, by simp only [parseLine1, h, Option.bind_eq_bind, Option.bind_some]; rfl, ?_, fun h => absurd rfl h⟩
    rintro e ⟨_, n, hl, _⟩
    rcases line_shape hl with h | h
    · exact absurd h hs
    · exact absurd h hs2
  · exact absurd h hs
  · exact absurd h hs2

theorem needsUnescape_aux : ∀ (s : List Byte) (rest : List Byte),
    ∃ b, lineNeedsUnescape (s ++ 0 :: rest) = some b ∧ (b = true ↔ Spec.Cli.Escaped s)
  | [], rest => by
    refine ⟨false, ?_, by simp [Spec.Cli.Escaped]⟩
    show lineNeedsUnescape (0 :: rest) = _
    unfold lineNeedsUnescape
    rw [if_neg (by decide)]
    rfl
  | c :: s, rest => by
    show ∃ b, lineNeedsUnescape (c :: (s ++ 0 :: rest)) = some b ∧ _
    unfold lineNeedsUnescape Spec.Cli.Escaped
    by_cases h : c = cSPACE ∨ c = cTAB
    · have h' : (c == 0x20 || c == 0x09) = true := by simpa [cSPACE, cTAB] using h
      rw [if_pos h, List.dropWhile_cons_of_pos (p := fun c : Byte => c == 0x20 || c == 0x09) h']
      exact needsUnescape_aux s rest
    · have h' : ¬ (c == 0x20 || c == 0x09) = true := by simpa [cSPACE, cTAB] using h
      rw [if_neg h, List.dropWhile_cons_of_neg (p := fun c : Byte => c == 0x20 || c == 0x09) h']
      exact ⟨_, rfl, by simp [cBSL]⟩

theorem needsUnescape_eq (s rest : List Byte) :
    lineNeedsUnescape (s ++ 0 :: rest) = some (decide (Spec.Cli.Escaped s)) := by
  obtain ⟨b, h1, h2⟩ := needsUnescape_aux s rest
  rw [h1]
  congr 1
  rw [Bool.eq_iff_iff, decide_eq_true_iff]
  exact h2

theorem escaped_ne_nil {s : List Byte} (h : Spec.Cli.Escaped s) : ∃ c t, s = c :: t := by
  cases s with
  | nil => cases h
  | cons c t => exact ⟨c, t, rfl⟩

/-- `XSUM_parseLine` accepts exactly the specified lines and reads them as specified. -/
theorem parseLine_eq {s rest : List Byte} (h0 : (0 : Byte) ∉ s) (rev : Bool) (mask : BitVec 32) :
    ∃ r, parseLine (s ++ 0 :: rest) rev mask = some r ∧
      (∀ e, Spec.Cli.Parses rev (fun a => ∃ al, algOf al = a ∧ accepts mask al = true) s e → Good (s ++ 0 :: rest) r e) ∧
      (r ≠ none → ∃ e, Spec.Cli.Parses rev (fun a => ∃ al, algOf al = a ∧ accepts mask al = true) s e) := by
  unfold parseLine
  simp only [needsUnescape_eq, Option.bind_eq_bind, Option.bind_some]
  by_cases hesc : Spec.Cli.Escaped s
  · obtain ⟨c, t, rfl⟩ := escaped_ne_nil hesc
    have h0t : (0 : Byte) ∉ t := fun h => h0 (List.mem_cons_of_mem _ h)
    obtain ⟨r, e1, e2, e3⟩ := parseLine1_eq (pre := [c]) (rest := rest) h0t rev true mask
    refine ⟨r, ?_, ?_, ?_⟩
    · simpa [hesc] using e1
    · rintro e ⟨h1, h2⟩
      rw [if_pos hesc] at h2
      exact e2 e ⟨h1, h2⟩
    · intro hr
      obtain ⟨e, h1, h2⟩ := e3 hr
      refine ⟨e, h1, ?_⟩
      rw [if_pos hesc]
      exact h2
  · obtain ⟨r, e1, e2, e3⟩ := parseLine1_eq (pre := []) (rest := rest) h0 rev false mask
    refine ⟨r, ?_, ?_, ?_⟩
    · simpa [hesc] using e1
    · rintro e ⟨h1, h2⟩
      rw [if_neg hesc] at h2
      exact e2 e ⟨h1, e.name, h2, rfl⟩
    · intro hr
      obtain ⟨e, h1, n, h2, h3⟩ := e3 hr
      refine ⟨e, h1, ?_⟩
      rw [if_neg hesc]
      simp only [Bool.false_eq_true, if_false] at h3
      subst h3
      exact h2


/-! ### Printing -/

theorem hexDigit_ne : ∀ n : Fin 16, hexDigit n.val ≠ cSPACE ∧ hexDigit n.val ≠ cTAB ∧ hexDigit n.val ≠ cBSL ∧
    hexDigit n.val ≠ 0 ∧ hexDigit n.val ≠ cNL ∧ hexDigit n.val ≠ cCR ∧ hexDigit n.val ≠ cHASH := by decide +kernel

theorem mem_hex {d : List Byte} {c : Byte} (h : c ∈ d.flatMap hex02) : ∃ n : Fin 16, c = hexDigit n.val := by
  obtain ⟨b, _, hb⟩ := List.mem_flatMap.mp h
  have hlt := b.isLt
  simp only [hex02, List.mem_cons, List.not_mem_nil, or_false] at hb
  rcases hb with rfl | rfl
  · exact ⟨⟨b.toNat / 16, by omega⟩, rfl⟩
  · exact ⟨⟨b.toNat % 16, by omega⟩, rfl⟩

theorem unhex_hex : ∀ d : List Byte, Spec.Cli.unhex (d.flatMap hex02) = some d
  | [] => rfl
  | b :: d => by
    have hlt := b.isLt
    have h1 := hexVal_hexDigit ⟨b.toNat / 16, by omega⟩
    have h2 := hexVal_hexDigit ⟨b.toNat % 16, by omega⟩
    simp only at h1 h2
    rw [List.flatMap_cons]
    show Spec.Cli.unhex (hexDigit (b.toNat / 16) :: hexDigit (b.toNat % 16) :: d.flatMap hex02) = _
    unfold Spec.Cli.unhex
    simp only [h1, h2, unhex_hex d, Option.bind_eq_bind, Option.bind_some]
    rw [Nat.div_add_mod]
    simp

theorem hex_length (d : List Byte) : (d.flatMap hex02).length = 2 * d.length := by
  induction d with
  | nil => rfl
  | cons b d ih => rw [List.flatMap_cons, List.length_append, ih]; simp [hex02]; omega

/-- What is displayed. -/
def shown (le : Bool) (d : List Byte) : List Byte := (if le then d.reverse else d).flatMap hex02

theorem displayHash_eq {le : Bool} {d : List Byte} {n : Nat} (h : d.length = n) :
    displayHash le d n = some (shown le d) := by
  unfold displayHash shown
  rw [if_pos (by omega), List.take_of_length_le (by omega)]

theorem shown_length (le : Bool) (d : List Byte) : (shown le d).length = 2 * d.length := by
  unfold shown; rw [hex_length]; split <;> simp

theorem digest_shown (le : Bool) {d : List Byte} {n : Nat} (h : d.length = n) :
    Spec.Cli.digest n le (shown le d) = some d := by
  unfold Spec.Cli.digest
  rw [if_pos (by rw [shown_length, h])]
  unfold shown
  rw [unhex_hex]
  cases le <;> simp

theorem mem_shown {le : Bool} {d : List Byte} {c : Byte} (h : c ∈ shown le d) : ∃ n : Fin 16, c = hexDigit n.val :=
  mem_hex h

theorem unescape_escape : ∀ s : List Byte, Spec.Cli.unescape (s.flatMap escapeChar) = some s
  | [] => rfl
  | c :: s => by
    rw [List.flatMap_cons]
    have ih := unescape_escape s
    generalize s.flatMap escapeChar = w at ih
    unfold escapeChar
    by_cases h1 : c = cNL
    · subst h1
      rw [if_pos rfl]
      show Option.map (fun x => (10 : Byte) :: x) (Spec.Cli.unescape w) = _
      rw [ih]
      rfl
    rw [if_neg h1]
    by_cases h2 : c = cCR
    · subst h2
      rw [if_pos rfl]
      show Option.map (fun x => (13 : Byte) :: x) (Spec.Cli.unescape w) = _
      rw [ih]
      rfl
    rw [if_neg h2]
    by_cases h3 : c = cBSL
    · subst h3
      rw [if_pos rfl]
      show Option.map (fun x => (92 : Byte) :: x) (Spec.Cli.unescape w) = _
      rw [ih]
      rfl
    rw [if_neg h3]
    show Spec.Cli.unescape (c :: w) = _
    unfold Spec.Cli.unescape
    rw [if_neg (show ¬ c = 92 from h3), ih]
    rfl

/-- The unescaper accepts nothing but escaped names. -/
theorem escape_unescape : ∀ (n v : List Byte), cNL ∉ n → cCR ∉ n → Spec.Cli.unescape n = some v →
    v.flatMap escapeChar = n := by
  intro n
  induction hn : n.length using Nat.strong_induction_on generalizing n with
  | _ k ih =>
    intro v h0 h1 h
    match n with
    | [] => simp [Spec.Cli.unescape] at h; simp [h]
    | c :: t =>
      have h0' : cNL ∉ t := fun h => h0 (List.mem_cons_of_mem _ h)
      have h1' : cCR ∉ t := fun h => h1 (List.mem_cons_of_mem _ h)
      unfold Spec.Cli.unescape at h
      by_cases hb : c = 0x5c
      · rw [if_pos hb] at h
        match t with
        | [] => simp at h
        | d :: t =>
          have h0'' : cNL ∉ t := fun h => h0' (List.mem_cons_of_mem _ h)
          have h1'' : cCR ∉ t := fun h => h1' (List.mem_cons_of_mem _ h)
          have key : ∀ x : Byte, escapeChar x = [0x5c, d] → (Spec.Cli.unescape t).map (x :: ·) = some v →
              v.flatMap escapeChar = c :: d :: t := by
            intro x hx h
            obtain ⟨w, hw, rfl⟩ := Option.map_eq_some_iff.mp h
            have := ih t.length (by simp at hn; omega) t rfl w h0'' h1'' hw
            rw [List.flatMap_cons, this, hx, hb]
            rfl
          simp only at h
          split at h
          · rename_i hd; subst hd; exact key _ (by decide) h
          · split at h
            · rename_i hd; subst hd; exact key _ (by decide) h
            · split at h
              · rename_i hd; subst hd; exact key _ (by decide) h
              · cases h
      · rw [if_neg hb] at h
        obtain ⟨w, hw, rfl⟩ := Option.map_eq_some_iff.mp h
        have := ih t.length (by simp at hn; omega) t rfl w h0' h1' hw
        have hc0 : c ≠ cNL := fun h => h0 (by simp [h])
        have hc1 : c ≠ cCR := fun h => h1 (by simp [h])
        rw [List.flatMap_cons, this]
        unfold escapeChar
        rw [if_neg hc0, if_neg hc1, if_neg (show ¬ c = cBSL from hb)]
        rfl

theorem escape_clean {s : List Byte} (h0 : (0 : Byte) ∉ s) :
    cNL ∉ s.flatMap escapeChar ∧ cCR ∉ s.flatMap escapeChar ∧ (0 : Byte) ∉ s.flatMap escapeChar := by
  have : ∀ c : Byte, c ≠ 0 → cNL ∉ escapeChar c ∧ cCR ∉ escapeChar c ∧ (0 : Byte) ∉ escapeChar c := by decide +kernel
  simp only [List.mem_flatMap, not_exists, not_and]
  exact ⟨fun c hc => (this c (fun h => h0 (h ▸ hc))).1, fun c hc => (this c (fun h => h0 (h ▸ hc))).2.1,
    fun c hc => (this c (fun h => h0 (h ▸ hc))).2.2⟩

theorem needsEscape_false {s : List Byte} (h : filenameNeedsEscape s = false) : cBSL ∉ s ∧ cNL ∉ s ∧ cCR ∉ s := by
  unfold filenameNeedsEscape at h
  simp only [Bool.or_eq_false_iff, Option.isSome_eq_false_iff, Option.isNone_iff_eq_none, firstIdx_none] at h
  exact ⟨h.1.1, h.1.2, h.2⟩

theorem printFilename_clean {s : List Byte} (h0 : (0 : Byte) ∉ s) :
    cNL ∉ printFilename s (filenameNeedsEscape s) ∧ cCR ∉ printFilename s (filenameNeedsEscape s) ∧
    (0 : Byte) ∉ printFilename s (filenameNeedsEscape s) := by
  cases h : filenameNeedsEscape s with
  | false =>
    obtain ⟨h1, h2, h3⟩ := needsEscape_false h
    exact ⟨h2, h3, h0⟩
  | true => exact escape_clean h0

theorem algoName_facts : ∀ a : Algo, ∀ le : Bool,
    let n := if le then algoLE_name a else algoName a
    cSPACE ∉ n ∧ (0 : Byte) ∉ n ∧ cNL ∉ n ∧ cCR ∉ n ∧ Spec.Cli.tagAlg n = algOf a ∧ occurs sLE n = le ∧
      n.head? = some 0x58 := by
  intro a le
  cases a <;> cases le <;> decide +kernel

/-- A printed line, without its newline: safe characters only, and it parses back. -/
theorem print_parses {bsd le : Bool} {filename canonical : List Byte} {a : Algo} (h0 : (0 : Byte) ∉ filename)
    (hl : canonical.length = algoLength a) {rev : Bool} (hrev : bsd = false → rev = le) {mask : BitVec 32}
    (hmask : accepts mask a = true) :
    ∃ L, displayLine bsd le filename canonical a = some (L ++ [cNL]) ∧ cNL ∉ L ∧ cCR ∉ L ∧ (0 : Byte) ∉ L ∧ L ≠ [] ∧
      L.head? ≠ some cHASH ∧
      Spec.Cli.Parses rev (fun x => ∃ al, algOf al = x ∧ accepts mask al = true) L ⟨algOf a, canonical, filename⟩ := by
  obtain ⟨p1, p2, p3⟩ := printFilename_clean h0
  have hsh : ∀ c ∈ shown le canonical, c ≠ cSPACE ∧ c ≠ cTAB ∧ c ≠ cBSL ∧ c ≠ 0 ∧ c ≠ cNL ∧ c ≠ cCR ∧ c ≠ cHASH := by
    intro c hc
    obtain ⟨n, rfl⟩ := mem_shown hc
    exact hexDigit_ne n
  have hlen : 8 ≤ (shown le canonical).length := by
    rw [shown_length, hl]; cases a <;> decide
  -- the line without escape marker
  have core : ∃ B, (∃ c t, B = c :: t ∧ c ≠ cSPACE ∧ c ≠ cTAB ∧ c ≠ cBSL ∧ c ≠ cHASH) ∧ cNL ∉ B ∧ cCR ∉ B ∧ (0 : Byte) ∉ B ∧
      displayLine bsd le filename canonical a =
        some (((if filenameNeedsEscape filename then [cBSL] else []) ++ B) ++ [cNL]) ∧
      Spec.Cli.Line rev B ⟨algOf a, canonical, printFilename filename (filenameNeedsEscape filename)⟩ := by
    cases bsd with
    | true =>
      obtain ⟨n1, n2, n3, n4, n5, n6, n7⟩ := algoName_facts a le
      refine ⟨(if le then algoLE_name a else algoName a) ++ cSPACE :: cLPAR ::
        (printFilename filename (filenameNeedsEscape filename) ++ cRPAR :: cSPACE :: cEQ :: cSPACE :: shown le canonical),
        ?_, ?_, ?_, ?_, ?_, ?_⟩
      · match hm : (if le then algoLE_name a else algoName a), n7 with
        | c :: t, n7 =>
          simp only [List.head?_cons, Option.some.injEq] at n7
          subst n7
          exact ⟨_, _, rfl, by decide, by decide, by decide, by decide⟩
      · simp only [List.mem_append, List.mem_cons, not_or]
        exact ⟨n3, by decide, by decide, p1, by decide, by decide, by decide, by decide, fun h => (hsh _ h).2.2.2.2.1 rfl⟩
      · simp only [List.mem_append, List.mem_cons, not_or]
        exact ⟨n4, by decide, by decide, p2, by decide, by decide, by decide, by decide, fun h => (hsh _ h).2.2.2.2.2.1 rfl⟩
      · simp only [List.mem_append, List.mem_cons, not_or]
        exact ⟨n2, by decide, by decide, p3, by decide, by decide, by decide, by decide, fun h => (hsh _ h).2.2.2.1 rfl⟩
      · simp [displayLine, printLine_BSD, displayHash_eq hl]
      · refine (bsd_inv n1 (fun h => (hsh _ h).1 rfl)).mpr ⟨rfl, n5.symm, ?_⟩
        rw [n6]
        have hd := digest_shown le hl
        cases a
        · exact .xxh32 hd
        · exact .xxh64 hd
        · exact .xxh128 hd
        · exact .xxh3 hd
    | false =>
      have := hrev rfl
      subst this
      have hp : ∀ c ∈ displayPrefix a, c ≠ cSPACE ∧ c ≠ cNL ∧ c ≠ cCR ∧ c ≠ 0 := by cases a <;> decide
      refine ⟨(displayPrefix a ++ shown rev canonical) ++ cSPACE :: cSPACE ::
        printFilename filename (filenameNeedsEscape filename), ?_, ?_, ?_, ?_, ?_, ?_⟩
      · cases a
        case xxh3 => exact ⟨_, _, rfl, by decide, by decide, by decide, by decide⟩
        all_goals
          match hm : shown rev canonical, hlen with
          | c :: t, _ =>
            have := hsh c (by simp [hm])
            exact ⟨c, _, rfl, this.1, this.2.1, this.2.2.1, this.2.2.2.2.2.2⟩
      · simp only [List.mem_append, List.mem_cons, not_or]
        exact ⟨⟨fun h => (hp _ h).2.1 rfl, fun h => (hsh _ h).2.2.2.2.1 rfl⟩, by decide, by decide, p1⟩
      · simp only [List.mem_append, List.mem_cons, not_or]
        exact ⟨⟨fun h => (hp _ h).2.2.1 rfl, fun h => (hsh _ h).2.2.2.2.2.1 rfl⟩, by decide, by decide, p2⟩
      · simp only [List.mem_append, List.mem_cons, not_or]
        exact ⟨⟨fun h => (hp _ h).2.2.2 rfl, fun h => (hsh _ h).2.2.2.1 rfl⟩, by decide, by decide, p3⟩
      · simp [displayLine, printLine_GNU, displayHash_eq hl]
      · refine (gnu_inv ?_ (by decide)).mpr ⟨rfl, ?_⟩
        · simp only [List.mem_append, not_or]
          exact ⟨fun h => (hp _ h).1 rfl, fun h => (hsh _ h).1 rfl⟩
        · have hd := digest_shown rev hl
          cases a
          · exact .xxh32 hd
          · exact .xxh64 hd
          · exact .xxh128 hd
          · show Spec.Cli.GnuHash rev (sXXH3_ ++ shown rev canonical) _ _
            rw [← txt_XXH3_]
            exact .xxh3 hd
  obtain ⟨B, ⟨c, t, hB, c1, c2, c3, c4⟩, b1, b2, b3, b4, b5⟩ := core
  refine ⟨_, b4, ?_, ?_, ?_, ?_, ?_, ⟨a, rfl, hmask⟩, ?_⟩
  · split
    · simp only [List.mem_append, List.mem_singleton, not_or]; exact ⟨by decide, b1⟩
    · exact b1
  · split
    · simp only [List.mem_append, List.mem_singleton, not_or]; exact ⟨by decide, b2⟩
    · exact b2
  · split
    · simp only [List.mem_append, List.mem_singleton, not_or]; exact ⟨by decide, b3⟩
    · exact b3
  · rw [hB]; split <;> simp
  · subst hB
    split
    · simp; decide
    · simpa using c4
  · cases hne : filenameNeedsEscape filename with
    | true =>
      rw [hne] at b5
      have hesc : Spec.Cli.Escaped ([cBSL] ++ B) := by
        unfold Spec.Cli.Escaped
        simp [cBSL]
      simp only [if_true]
      rw [if_pos hesc]
      exact ⟨_, b5, unescape_escape filename⟩
    | false =>
      rw [hne] at b5
      have hesc : ¬ Spec.Cli.Escaped B := by
        unfold Spec.Cli.Escaped
        rw [hB, List.dropWhile_cons_of_neg (by simp; exact ⟨c1, c2⟩)]
        simp; exact c3
      simp only [Bool.false_eq_true, if_false, List.nil_append]
      rw [if_neg hesc]
      exact b5

theorem escape_eq (name : List Byte) : name.flatMap escapeChar = Spec.Cli.escape name := by
  induction name with
  | nil => rfl
  | cons c t ih =>
    rw [List.flatMap_cons, ih]
    show _ = (if c = 0x0a then _ else _)
    have : ∀ c : Byte, escapeChar c = if c = 0x0a then Spec.Cli.txt "\\n" else if c = 0x0d then Spec.Cli.txt "\\r"
      else if c = 0x5c then Spec.Cli.txt "\\\\" else [c] := by decide +kernel
    rw [this]
    split
    · rfl
    · split
      · rfl
      · split <;> rfl

theorem needsEscape_eq (name : List Byte) : filenameNeedsEscape name = decide (Spec.Cli.Special name) := by
  cases h : filenameNeedsEscape name with
  | false =>
    obtain ⟨h1, h2, h3⟩ := needsEscape_false h
    exact (decide_eq_false (not_or.mpr ⟨h2, not_or.mpr ⟨h3, h1⟩⟩)).symm
  | true =>
    refine (decide_eq_true ?_).symm
    by_contra hcon
    obtain ⟨h1, h2⟩ := not_or.mp hcon
    obtain ⟨h2, h3⟩ := not_or.mp h2
    have : filenameNeedsEscape name = false := by
      simp only [filenameNeedsEscape, Bool.or_eq_false_iff, Option.isSome_eq_false_iff, Option.isNone_iff_eq_none,
        firstIdx_none]
      exact ⟨⟨h3, h1⟩, h2⟩
    rw [h] at this
    cases this

theorem shownName_eq (name : List Byte) : printFilename name (filenameNeedsEscape name) = Spec.Cli.shownName name := by
  rw [needsEscape_eq]
  unfold printFilename Spec.Cli.shownName
  by_cases h : Spec.Cli.Special name
  · simp [h, escape_eq]
  · simp [h]

theorem marker_eq (name : List Byte) : (if filenameNeedsEscape name then [cBSL] else []) = Spec.Cli.marker name := by
  rw [needsEscape_eq]
  unfold Spec.Cli.marker
  by_cases h : Spec.Cli.Special name
  · simp [h, cBSL]
  · simp [h]

theorem hexText_eq (d : List Byte) : d.flatMap hex02 = Spec.Cli.hexText d := by
  unfold Spec.Cli.hexText
  have : ∀ b : Byte, hex02 b = [(Spec.Cli.txt "0123456789abcdef").getD (b.toNat / 16) 0,
    (Spec.Cli.txt "0123456789abcdef").getD (b.toNat % 16) 0] := by decide +kernel
  congr 1
  funext b
  exact this b

/-- The exact text of a line. -/
theorem displayLine_eq (bsd le : Bool) (name : List Byte) {canonical : List Byte} {a : Algo}
    (hl : canonical.length = algoLength a) :
    displayLine bsd le name canonical a = some (Spec.Cli.recordLine bsd le ⟨algOf a, canonical, name⟩) := by
  have ht : (if le then algoLE_name a else algoName a) ++ [cSPACE, cLPAR] =
      Spec.Cli.algName (algOf a) ++ (if le then Spec.Cli.txt "_LE" else []) ++ Spec.Cli.txt " (" := by
    cases a <;> cases le <;> decide
  have hp : displayPrefix a = if algOf a = .xxh3 then Spec.Cli.txt "XXH3_" else [] := by cases a <;> decide
  have h1 : [cRPAR, cSPACE, cEQ, cSPACE] = Spec.Cli.txt ") = " := by decide
  have h2 : [cNL] = Spec.Cli.txt "\n" := by decide
  have h3 : [cSPACE, cSPACE] = Spec.Cli.txt "  " := by decide
  unfold Spec.Cli.recordLine
  cases bsd with
  | true =>
    simp only [displayLine, if_true, printLine_BSD, displayHash_eq hl, Option.bind_eq_bind, Option.bind_some,
      shownName_eq, marker_eq, ht, h1, h2, shown, hexText_eq]
    simp
  | false =>
    simp only [displayLine, Bool.false_eq_true, if_false, printLine_GNU, displayHash_eq hl, Option.bind_eq_bind,
      Option.bind_some, shownName_eq, marker_eq, hp, h2, h3, shown, hexText_eq]
    simp

end XXH.CliP
