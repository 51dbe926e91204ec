import Verif.Model.Windows
import Verif.Proof.CliText
/-! Helper lemmas for the Windows side of xxhsum. -/
namespace XXH.Proof.Windows
open XXH.Model.Cli XXH.Model.Windows XXH.Spec.Unicode

/-! ### UTF-8 and UTF-16 of single characters -/

theorem byte_lt {n : Nat} (h : n < 256) : (BitVec.ofNat 8 n).toNat = n := by
  rw [BitVec.toNat_ofNat]; exact Nat.mod_eq_of_lt h

theorem unit_lt {n : Nat} (h : n < 65536) : (BitVec.ofNat 16 n).toNat = n := by
  rw [BitVec.toNat_ofNat]; exact Nat.mod_eq_of_lt h

theorem continuation_eq {t : List Byte} {i lo hi n : Nat} (ht : t[i]? = some (BitVec.ofNat 8 n)) (hn : n < 256)
    (h1 : lo ≤ n) (h2 : n ≤ hi) : continuation t i lo hi = some (n % 64) := by
  unfold continuation
  rw [ht]
  simp only [byte_lt hn]
  rw [if_pos ⟨h1, h2⟩]

theorem utf8_cases {c : Nat} :
    (c < 0x80 ∧ utf8 c = [BitVec.ofNat 8 c]) ∨
    (0x80 ≤ c ∧ c < 0x800 ∧ utf8 c = [BitVec.ofNat 8 (0xC0 + c / 64), BitVec.ofNat 8 (0x80 + c % 64)]) ∨
    (0x800 ≤ c ∧ c < 0x10000 ∧ utf8 c = [BitVec.ofNat 8 (0xE0 + c / 4096), BitVec.ofNat 8 (0x80 + c / 64 % 64),
      BitVec.ofNat 8 (0x80 + c % 64)]) ∨
    (0x10000 ≤ c ∧ utf8 c = [BitVec.ofNat 8 (0xF0 + c / 262144), BitVec.ofNat 8 (0x80 + c / 4096 % 64),
      BitVec.ofNat 8 (0x80 + c / 64 % 64), BitVec.ofNat 8 (0x80 + c % 64)]) := by
  unfold utf8
  split
  · exact .inl ⟨by omega, rfl⟩
  · split
    · exact .inr (.inl ⟨by omega, by omega, rfl⟩)
    · split
      · exact .inr (.inr (.inl ⟨by omega, by omega, rfl⟩))
      · exact .inr (.inr (.inr ⟨by omega, rfl⟩))

theorem next8_utf8 {c : Nat} (h : Scalar c) (rest : List Byte) :
    ∃ b t, utf8 c ++ rest = b :: t ∧ next8 b t = some (c, (utf8 c).length - 1) ∧ t.drop ((utf8 c).length - 1) = rest := by
  unfold Scalar at h
  rcases utf8_cases (c := c) with ⟨h1, e⟩ | ⟨h1, h2, e⟩ | ⟨h1, h2, e⟩ | ⟨h1, e⟩
  · refine ⟨_, _, by rw [e]; rfl, ?_, by rw [e]; rfl⟩
    unfold next8
    simp only [byte_lt (show c < 256 by omega), e]
    rw [if_pos h1]; rfl
  · refine ⟨_, _, by rw [e]; rfl, ?_, by rw [e]; rfl⟩
    unfold next8
    simp only [byte_lt (show 0xC0 + c / 64 < 256 by omega), e]
    rw [if_neg (by omega), if_pos (by omega),
      continuation_eq (n := 0x80 + c % 64) (by rfl) (by omega) (by omega) (by omega)]
    simp only [Option.bind_eq_bind, Option.bind_some, Option.pure_def, Option.some.injEq, Prod.mk.injEq]
    exact ⟨by omega, rfl⟩
  · refine ⟨_, _, by rw [e]; rfl, ?_, by rw [e]; rfl⟩
    unfold next8
    simp only [byte_lt (show 0xE0 + c / 4096 < 256 by omega), e]
    rw [if_neg (by omega), if_neg (by omega), if_pos (by omega),
      continuation_eq (n := 0x80 + c / 64 % 64) (by rfl) (by omega) (by split <;> omega) (by split <;> omega),
      continuation_eq (n := 0x80 + c % 64) (by rfl) (by omega) (by omega) (by omega)]
    simp only [Option.bind_eq_bind, Option.bind_some, Option.pure_def, Option.some.injEq, Prod.mk.injEq]
    exact ⟨by omega, rfl⟩
  · refine ⟨_, _, by rw [e]; rfl, ?_, by rw [e]; rfl⟩
    unfold next8
    simp only [byte_lt (show 0xF0 + c / 262144 < 256 by omega), e]
    rw [if_neg (by omega), if_neg (by omega), if_neg (by omega), if_pos (by omega),
      continuation_eq (n := 0x80 + c / 4096 % 64) (by rfl) (by omega) (by split <;> omega) (by split <;> omega),
      continuation_eq (n := 0x80 + c / 64 % 64) (by rfl) (by omega) (by omega) (by omega),
      continuation_eq (n := 0x80 + c % 64) (by rfl) (by omega) (by omega) (by omega)]
    simp only [Option.bind_eq_bind, Option.bind_some, Option.pure_def, Option.some.injEq, Prod.mk.injEq]
    exact ⟨by omega, rfl⟩

theorem utf8_length (c : Nat) : 1 ≤ (utf8 c).length ∧ (utf8 c).length ≤ 4 := by
  rcases utf8_cases (c := c) with ⟨_, e⟩ | ⟨_, _, e⟩ | ⟨_, _, e⟩ | ⟨_, e⟩ <;> rw [e] <;> simp

/-- The replacing conversion, from UTF-8. -/
theorem widenLoop_text : ∀ (cs : List Nat) (fuel : Nat), (∀ c ∈ cs, Scalar c) → (text8 cs).length ≤ fuel →
    widenLoop fuel (text8 cs) = text16 cs
  | [], fuel, _, _ => by cases fuel <;> rfl
  | c :: cs, fuel, h, hf => by
    have hc := h c List.mem_cons_self
    obtain ⟨b, t, e1, e2, e3⟩ := next8_utf8 hc (text8 cs)
    have hl := utf8_length c
    have e0 : text8 (c :: cs) = utf8 c ++ text8 cs := rfl
    rw [e0, List.length_append] at hf
    match fuel with
    | 0 => omega
    | fuel + 1 =>
      rw [e0, e1]
      unfold widenLoop
      rw [e2]
      simp only [e3]
      rw [widenLoop_text cs fuel (fun x hx => h x (List.mem_cons_of_mem _ hx)) (by omega)]
      rfl

theorem utf16_cases {c : Nat} :
    (c < 0x10000 ∧ utf16 c = [BitVec.ofNat 16 c]) ∨
    (0x10000 ≤ c ∧ utf16 c = [BitVec.ofNat 16 (0xD800 + (c - 0x10000) / 1024), BitVec.ofNat 16 (0xDC00 + (c - 0x10000) % 1024)]) := by
  unfold utf16
  split
  · exact .inl ⟨by omega, rfl⟩
  · exact .inr ⟨by omega, rfl⟩

/-- The units of a text do not start with a low surrogate. -/
theorem text16_head {cs : List Nat} (h : ∀ c ∈ cs, Scalar c) {v : U16} {t : List U16} (e : text16 cs = v :: t) :
    ¬ (0xDC00 ≤ v.toNat ∧ v.toNat < 0xE000) := by
  match cs with
  | [] => cases e
  | c :: cs =>
    have hc := h c List.mem_cons_self
    unfold Scalar at hc
    have e0 : text16 (c :: cs) = utf16 c ++ text16 cs := rfl
    rw [e0] at e
    rcases utf16_cases (c := c) with ⟨h1, e'⟩ | ⟨h1, e'⟩
    · rw [e'] at e
      injection e with e2 _
      rw [← e2, unit_lt (by omega)]; omega
    · rw [e'] at e
      injection e with e2 _
      rw [← e2, unit_lt (by omega)]; omega

/-- One character more, to UTF-8. -/
theorem narrowLoop_cons {c : Nat} (hc : Scalar c) (t : List U16) :
    narrowLoop (utf16 c ++ t) = utf8 c ++ narrowLoop t := by
  unfold Scalar at hc
  rcases utf16_cases (c := c) with ⟨h1, e⟩ | ⟨h1, e⟩
  · rw [e]
    match t with
    | [] =>
      show narrowLoop [BitVec.ofNat 16 c] = _
      unfold narrowLoop
      rw [unit_lt h1, if_neg (by omega)]
      simp
    | v :: t =>
      show narrowLoop (BitVec.ofNat 16 c :: v :: t) = _
      rw [narrowLoop, unit_lt h1, if_neg (by omega), if_neg (by omega)]
  · rw [e]
    show narrowLoop (BitVec.ofNat 16 (0xD800 + (c - 0x10000) / 1024) :: BitVec.ofNat 16 (0xDC00 + (c - 0x10000) % 1024) :: t) = _
    rw [narrowLoop, unit_lt (by omega), unit_lt (by omega), if_pos (by omega),
      show 0x10000 + (0xD800 + (c - 0x10000) / 1024 - 0xD800) * 2 ^ 10 + (0xDC00 + (c - 0x10000) % 1024 - 0xDC00) = c by omega]

theorem narrowLoop_text : ∀ (cs : List Nat), (∀ c ∈ cs, Scalar c) → narrowLoop (text16 cs) = text8 cs
  | [], _ => by simp [text16, text8, narrowLoop]
  | c :: cs, h => by
    show narrowLoop (utf16 c ++ text16 cs) = utf8 c ++ text8 cs
    rw [narrowLoop_cons (h c List.mem_cons_self), narrowLoop_text cs (fun x hx => h x (List.mem_cons_of_mem _ hx))]

/-- What the replacing conversion to UTF-8 delivers is well-formed. -/
theorem narrowLoop_valid : ∀ (s : List U16), (0 : U16) ∉ s → ∃ cs, Text cs ∧ narrowLoop s = text8 cs
  | [], _ => ⟨[], by simp [Text], by simp [narrowLoop, text8]⟩
  | [u], h => by
    have hu : u.toNat ≠ 0 := fun h' => h (by simp [BitVec.eq_of_toNat_eq (x := u) (y := 0) (by simpa using h')])
    have := u.isLt
    unfold narrowLoop
    split
    · exact ⟨[0xFFFD], by simp [Text, Scalar], by simp [text8]⟩
    · exact ⟨[u.toNat], by simp [Text, Scalar]; omega, by simp [text8]⟩
  | u :: v :: t, h => by
    have hu : u.toNat ≠ 0 := fun h' => h (by simp [BitVec.eq_of_toNat_eq (x := u) (y := 0) (by simpa using h')])
    have := u.isLt
    have h' : (0 : U16) ∉ v :: t := fun hx => h (List.mem_cons_of_mem _ hx)
    unfold narrowLoop
    split
    · obtain ⟨cs, h1, h2⟩ := narrowLoop_valid t (fun hx => h' (List.mem_cons_of_mem _ hx))
      refine ⟨(0x10000 + (u.toNat - 0xD800) * 2 ^ 10 + (v.toNat - 0xDC00)) :: cs, ?_, by rw [h2, text8, text8, List.flatMap_cons]⟩
      intro c hc
      rcases List.mem_cons.mp hc with hc | hc
      · unfold Scalar; omega
      · exact h1 c hc
    · obtain ⟨cs, h1, h2⟩ := narrowLoop_valid (v :: t) h'
      split
      · refine ⟨0xFFFD :: cs, ?_, by rw [h2, text8, text8, List.flatMap_cons]⟩
        intro c hc
        rcases List.mem_cons.mp hc with rfl | hc
        · unfold Scalar; omega
        · exact h1 c hc
      · refine ⟨u.toNat :: cs, ?_, by rw [h2, text8, text8, List.flatMap_cons]⟩
        intro c hc
        rcases List.mem_cons.mp hc with rfl | hc
        · unfold Scalar; omega
        · exact h1 c hc

theorem utf16_no0 {c : Nat} (h : c ≠ 0) (hs : Scalar c) : (0 : U16) ∉ utf16 c := by
  unfold Scalar at hs
  rcases utf16_cases (c := c) with ⟨h1, e⟩ | ⟨h1, e⟩ <;> rw [e]
  · intro hm
    have := congrArg BitVec.toNat (List.mem_singleton.mp hm)
    rw [unit_lt h1] at this
    simp at this; omega
  · intro hm
    rcases List.mem_cons.mp hm with hm | hm
    · have := congrArg BitVec.toNat hm
      rw [unit_lt (by omega)] at this
      simp at this; omega
    · have := congrArg BitVec.toNat (List.mem_singleton.mp hm)
      rw [unit_lt (by omega)] at this
      simp at this; omega

theorem utf8_no0 {c : Nat} (h : c ≠ 0) (hs : Scalar c) : (0 : Byte) ∉ utf8 c := by
  unfold Scalar at hs
  have key : ∀ n, n < 256 → n ≠ 0 → (0 : Byte) ≠ BitVec.ofNat 8 n := by
    intro n h1 h2 he
    have := congrArg BitVec.toNat he
    rw [byte_lt h1] at this
    simp at this; omega
  rcases utf8_cases (c := c) with ⟨h1, e⟩ | ⟨h1, h2, e⟩ | ⟨h1, h2, e⟩ | ⟨h1, e⟩ <;> rw [e] <;>
    simp only [List.mem_cons, List.not_mem_nil, or_false, not_or]
  · exact key _ (by omega) h
  · exact ⟨key _ (by omega) (by omega), key _ (by omega) (by omega)⟩
  · exact ⟨key _ (by omega) (by omega), key _ (by omega) (by omega), key _ (by omega) (by omega)⟩
  · exact ⟨key _ (by omega) (by omega), key _ (by omega) (by omega), key _ (by omega) (by omega), key _ (by omega) (by omega)⟩

theorem text8_no0 {cs : List Nat} (h : Text cs) : (0 : Byte) ∉ text8 cs := by
  intro hm
  obtain ⟨c, hc, hm⟩ := List.mem_flatMap.mp hm
  exact utf8_no0 (h c hc).2 (h c hc).1 hm

theorem text16_no0 {cs : List Nat} (h : Text cs) : (0 : U16) ∉ text16 cs := by
  intro hm
  obtain ⟨c, hc, hm⟩ := List.mem_flatMap.mp hm
  exact utf16_no0 (h c hc).2 (h c hc).1 hm

theorem continuation_lt {t : List Byte} {i lo hi a : Nat} (h : continuation t i lo hi = some a) :
    a < 64 ∧ ∃ b : Byte, t[i]? = some b ∧ lo ≤ b.toNat ∧ b.toNat ≤ hi ∧ a = b.toNat % 64 := by
  unfold continuation at h
  split at h
  · rename_i b hb
    split at h
    · rename_i hr
      injection h with h
      exact ⟨by omega, b, hb, hr.1, hr.2, h.symm⟩
    · cases h
  · cases h

/-- Only the byte 0 means NUL. -/
theorem next8_ne0 {b : Byte} {t : List Byte} {c k : Nat} (h : next8 b t = some (c, k)) (hb : b ≠ 0) : c ≠ 0 ∧ Scalar c := by
  have hb' : b.toNat ≠ 0 := fun h => hb (BitVec.eq_of_toNat_eq (by simpa using h))
  unfold next8 at h
  simp only [Option.bind_eq_bind, Option.pure_def] at h
  unfold Scalar
  split at h
  · injection h with h; injection h with h1 h2; omega
  · split at h
    · obtain ⟨a, ha, h⟩ := Option.bind_eq_some_iff.mp h
      injection h with h; injection h with h1 h2
      have := (continuation_lt ha).1
      omega
    · split at h
      · obtain ⟨a, ha, h⟩ := Option.bind_eq_some_iff.mp h
        obtain ⟨a', ha', h⟩ := Option.bind_eq_some_iff.mp h
        injection h with h; injection h with h1 h2
        obtain ⟨l1, x, _, l2, l3, l4⟩ := continuation_lt ha
        have := (continuation_lt ha').1
        split at l2 <;> split at l3 <;> omega
      · split at h
        · obtain ⟨a, ha, h⟩ := Option.bind_eq_some_iff.mp h
          obtain ⟨a', ha', h⟩ := Option.bind_eq_some_iff.mp h
          obtain ⟨a'', ha'', h⟩ := Option.bind_eq_some_iff.mp h
          injection h with h; injection h with h1 h2
          obtain ⟨l1, x, _, l2, l3, l4⟩ := continuation_lt ha
          have := (continuation_lt ha').1
          have := (continuation_lt ha'').1
          split at l2 <;> split at l3 <;> omega
        · cases h

theorem widenLoop_no0 : ∀ (fuel : Nat) (s : List Byte), (0 : Byte) ∉ s → (0 : U16) ∉ widenLoop fuel s
  | fuel, [], _ => by cases fuel <;> simp [widenLoop]
  | 0, _ :: _, _ => by simp [widenLoop]
  | fuel + 1, b :: t, h => by
    have hb : b ≠ 0 := fun h' => h (by simp [h'])
    have ht : (0 : Byte) ∉ t := fun h' => h (List.mem_cons_of_mem _ h')
    unfold widenLoop
    split
    · rename_i c k e
      obtain ⟨h1, h2⟩ := next8_ne0 e hb
      rw [List.mem_append, not_or]
      exact ⟨utf16_no0 h1 h2, widenLoop_no0 fuel _ (fun h' => ht (List.mem_of_mem_drop h'))⟩
    · rw [List.mem_cons, not_or]
      exact ⟨by decide, widenLoop_no0 fuel _ ht⟩

theorem narrowLoop_no0 {s : List U16} (h : (0 : U16) ∉ s) : (0 : Byte) ∉ narrowLoop s := by
  obtain ⟨cs, h1, h2⟩ := narrowLoop_valid s h
  rw [h2]; exact text8_no0 h1

theorem widenLoop_byte {b : Byte} (h : 0x80 ≤ b.toNat) : widenLoop 1 [b] = [0xFFFD] := by
  revert b
  decide +kernel

/-! ### The conversion functions of the program -/

theorem cstr_append0 : ∀ {s : List Byte} (_ : (0 : Byte) ∉ s) (t : List Byte), cstr (s ++ 0 :: t) = some s
  | [], _, t => by simp [cstr]
  | c :: s, h, t => by
    have hc : c ≠ 0 := fun h' => h (by simp [h'])
    rw [List.cons_append, cstr, if_neg hc, cstr_append0 (fun h' => h (List.mem_cons_of_mem _ h'))]
    rfl

theorem wcstr_append0 : ∀ {s : List U16} (_ : (0 : U16) ∉ s) (t : List U16), wcstr (s ++ 0 :: t) = some s
  | [], _, t => by simp [wcstr]
  | c :: s, h, t => by
    have hc : c ≠ 0 := fun h' => h (by simp [h'])
    rw [List.cons_append, wcstr, if_neg hc, wcstr_append0 (fun h' => h (List.mem_cons_of_mem _ h'))]
    rfl

/-- The length of a string does not fit an `int`. -/
theorem widenString_eq (api : Codec) (junk : Nat → U16) (alloc : Bool) {str : CMem} {s : List Byte} (h : cstr str = some s) :
    widenString api junk alloc str =
      if 2 ^ 31 ≤ (api.widen s).length + 1 then some (none, 0)
      else some (if alloc then some (api.widen s ++ [0]) else none, (api.widen s).length + 1) := by
  unfold widenString multiByteToWideChar
  simp only [h, Option.bind_eq_bind, Option.bind_some, Option.pure_def, List.length_append, List.length_cons,
    List.length_nil, Nat.zero_add, Nat.not_lt_zero, if_false]
  by_cases hb : 2 ^ 31 ≤ (api.widen s).length + 1
  · simp only [if_pos hb, Option.bind_some, if_true]
  · simp only [if_neg hb, if_true, Option.bind_some, Nat.add_eq_zero_iff, Nat.one_ne_zero, and_false, if_false]
    cases alloc
    · rfl
    · have hl : (freshW junk ((api.widen s).length + 1)).length = (api.widen s).length + 1 := by simp [freshW]
      have hd : (freshW junk ((api.widen s).length + 1)).drop ((api.widen s).length + 1) = [] :=
        List.drop_eq_nil_of_le (Nat.le_of_eq hl)
      simp only [Bool.not_true, Bool.false_eq_true, if_false, hl, Nat.lt_irrefl, Option.bind_some, Nat.add_eq_zero_iff,
        Nat.one_ne_zero, and_false, if_true, hd, List.append_nil]

theorem fresh_length (junk : Nat → Byte) (n : Nat) : (fresh junk n).length = n := by simp [fresh]

theorem narrowString_eq (api : Codec) (junk : Nat → Byte) (alloc : Bool) {str : List U16} {s : List U16}
    (h : wcstr str = some s) :
    narrowString api junk alloc str =
      if 2 ^ 31 ≤ (api.narrow s).length + 1 then some (none, 0)
      else some (if alloc then some (api.narrow s ++ [0]) else none, (api.narrow s).length + 1) := by
  unfold narrowString wideCharToMultiByte
  simp only [h, Option.bind_eq_bind, Option.bind_some, Option.pure_def, List.length_append, List.length_cons,
    List.length_nil, Nat.zero_add, Nat.not_lt_zero, if_false]
  by_cases hb : 2 ^ 31 ≤ (api.narrow s).length + 1
  · simp only [if_pos hb, Option.bind_some, if_true]
  · simp only [if_neg hb, if_true, Option.bind_some, Nat.add_eq_zero_iff, Nat.one_ne_zero, and_false, if_false]
    cases alloc
    · rfl
    · have hl : (fresh junk ((api.narrow s).length + 1)).length = (api.narrow s).length + 1 := by simp [fresh]
      have hd : (fresh junk ((api.narrow s).length + 1)).drop ((api.narrow s).length + 1) = [] :=
        List.drop_eq_nil_of_le (Nat.le_of_eq hl)
      simp only [Bool.not_true, Bool.false_eq_true, if_false, hl, Nat.lt_irrefl, Option.bind_some, Nat.add_eq_zero_iff,
        Nat.one_ne_zero, and_false, if_true, hd, List.append_nil]

/-! ### Text mode -/

theorem textIn_cons {c : Byte} {t : List Byte} (h1 : c ≠ 0x1A) (h2 : c ≠ cCR) : textIn (c :: t) = c :: textIn t := by
  match t with
  | [] => exact if_neg h1
  | d :: t => rw [textIn, if_neg h1, if_neg (fun h => h2 h.1)]

theorem textOut_cons (c : Byte) (t : List Byte) : textOut (c :: t) = (if c = cNL then [cCR, cNL] else [c]) ++ textOut t := rfl

theorem textIn_cr {t : List Byte} (h : t.head? ≠ some cNL) : textIn (cCR :: t) = cCR :: textIn t := by
  match t with
  | [] => simp [textIn, cCR]
  | d :: t =>
    rw [textIn, if_neg (by decide), if_neg (fun h' => h (by rw [h'.2]; rfl))]

theorem textOut_head (t : List Byte) : (textOut t).head? ≠ some cNL := by
  match t with
  | [] => simp [textOut]
  | c :: t =>
    rw [textOut_cons]
    split
    · simp [cCR, cNL]
    · rename_i h; simp [h]

theorem textIn_textOut : ∀ (s : List Byte), (0x1A : Byte) ∉ s → textIn (textOut s) = s
  | [], _ => rfl
  | c :: s, h => by
    have h1 : c ≠ 0x1A := fun h' => h (by simp [h'])
    have ih := textIn_textOut s (fun h' => h (List.mem_cons_of_mem _ h'))
    rw [textOut_cons]
    split
    · rename_i hc
      show textIn (cCR :: cNL :: textOut s) = _
      rw [textIn, if_neg (by decide), if_pos ⟨rfl, rfl⟩, ih, hc]
    · show textIn (c :: textOut s) = _
      by_cases hc : c = cCR
      · subst hc
        rw [textIn_cr (textOut_head s), ih]
      · rw [textIn_cons h1 hc, ih]

theorem textOut_append (s t : List Byte) : textOut (s ++ t) = textOut s ++ textOut t := by simp [textOut]

theorem textOut_plain {s : List Byte} (h : cNL ∉ s) : textOut s = s := by
  induction s with
  | nil => rfl
  | cons c s ih =>
    rw [textOut_cons, if_neg (fun h' => h (by simp [h'])), ih (fun h' => h (List.mem_cons_of_mem _ h'))]
    rfl

/-! ### Printing -/

theorem vasprintf_eq (junk : Nat → Byte) (alloc : Bool) {text : List Byte} (h : text.length < 2 ^ 31) :
    vasprintf junk alloc text = some (if alloc then ((text.length : Int), some (text ++ [0])) else (-1, none)) := by
  unfold vasprintf
  rw [if_neg (by omega)]
  cases alloc
  · rfl
  · have hl : (fresh junk (text.length + 1)).length = text.length + 1 := fresh_length _ _
    simp only [Bool.not_true, Bool.false_eq_true, if_false, List.length_append, List.length_cons, List.length_nil,
      Nat.zero_add, hl, Nat.lt_irrefl, Option.pure_def, if_true]
    rw [List.drop_eq_nil_of_le (by rw [hl]), List.append_nil]

/-! ### Lines that end with `\r` -/
open XXH.CliP

theorem unescape_cr : ∀ (n v : List Byte), Spec.Cli.unescape n = some v → Spec.Cli.unescape (n ++ [0x0d]) = some (v ++ [0x0d]) := by
  intro n
  induction hn : n.length using Nat.strong_induction_on generalizing n with
  | _ k ih =>
    match n with
    | [] =>
      intro v h
      cases h
      decide
    | c :: t =>
      intro v h
      unfold Spec.Cli.unescape at h
      rw [List.cons_append, Spec.Cli.unescape.eq_def]
      simp only
      by_cases hb : c = 0x5c
      · rw [if_pos hb] at h ⊢
        match t with
        | [] => simp at h
        | d :: t =>
          simp only [List.cons_append] at h ⊢
          have key : ∀ x : Byte, (Spec.Cli.unescape t).map (x :: ·) = some v →
              (Spec.Cli.unescape (t ++ [0x0d])).map (x :: ·) = some (v ++ [0x0d]) := by
            intro x h
            obtain ⟨w, hw, rfl⟩ := Option.map_eq_some_iff.mp h
            rw [ih t.length (by simp at hn; omega) t rfl w hw]
            rfl
          split at h
          · rename_i hd; rw [if_pos hd]; exact key _ h
          · rename_i hd; rw [if_neg hd]
            split at h
            · rename_i hd; rw [if_pos hd]; exact key _ h
            · rename_i hd; rw [if_neg hd]
              split at h
              · rename_i hd; rw [if_pos hd]; exact key _ h
              · cases h
      · rw [if_neg hb] at h ⊢
        obtain ⟨w, hw, rfl⟩ := Option.map_eq_some_iff.mp h
        rw [ih t.length (by simp at hn; omega) t rfl w hw]
        rfl

/-- A line in the GNU convention with `\r` at its end: the name ends with `\r`. -/
theorem gnu_cr {le : Bool} {name d : List Byte} {a : Algo} (h0 : (0 : Byte) ∉ name) (hl : d.length = algoLength a)
    {mask : BitVec 32} (hm : accepts mask a = true) :
    ∃ L, Spec.Cli.recordLine false le ⟨algOf a, d, name⟩ = L ++ [cNL] ∧ cNL ∉ L ∧ (0 : Byte) ∉ L ++ [0x0d] ∧
      (L ++ [0x0d]).head? ≠ some 0x23 ∧
      Spec.Cli.Parses le (fun x => ∃ al, algOf al = x ∧ accepts mask al = true) (L ++ [0x0d]) ⟨algOf a, d, name ++ [0x0d]⟩ := by
  obtain ⟨p1, p2, p3⟩ := printFilename_clean h0
  have hsh : ∀ c ∈ shown le d, c ≠ cSPACE ∧ c ≠ cTAB ∧ c ≠ cBSL ∧ c ≠ 0 ∧ c ≠ cNL ∧ c ≠ cCR ∧ c ≠ cHASH := by
    intro c hc
    obtain ⟨n, rfl⟩ := mem_shown hc
    exact hexDigit_ne n
  have hlen : 8 ≤ (shown le d).length := by rw [shown_length, hl]; cases a <;> decide
  have hp : ∀ c ∈ displayPrefix a, c ≠ cSPACE ∧ c ≠ cNL ∧ c ≠ 0 := by cases a <;> decide
  have e := displayLine_eq false le name hl
  simp only [displayLine, Bool.false_eq_true, if_false, printLine_GNU, displayHash_eq hl, Option.bind_eq_bind,
    Option.bind_some, Option.pure_def, Option.some.injEq] at e
  have hhead : ∃ c t, displayPrefix a ++ shown le d = c :: t ∧ c ≠ cSPACE ∧ c ≠ cTAB ∧ c ≠ cBSL ∧ c ≠ cHASH := by
    cases a
    case xxh3 => exact ⟨_, _, rfl, by decide, by decide, by decide, by decide⟩
    all_goals
      match hm : shown le d, hlen with
      | c :: t, _ =>
        have := hsh c (by simp [hm])
        exact ⟨c, t, rfl, this.1, this.2.1, this.2.2.1, this.2.2.2.2.2.2⟩
  have hg : Spec.Cli.GnuHash le (displayPrefix a ++ shown le d) (algOf a) d := by
    have hd := digest_shown le hl
    cases a
    · exact .xxh32 hd
    · exact .xxh64 hd
    · exact .xxh128 hd
    · show Spec.Cli.GnuHash le (sXXH3_ ++ shown le d) _ _
      rw [← txt_XXH3_]
      exact .xxh3 hd
  have hB : ∀ n : List Byte, Spec.Cli.Line le ((displayPrefix a ++ shown le d) ++ cSPACE :: cSPACE :: n) ⟨algOf a, d, n⟩ := by
    intro n
    refine (gnu_inv ?_ (by decide)).mpr ⟨rfl, hg⟩
    simp only [List.mem_append, not_or]
    exact ⟨fun h => (hp _ h).1 rfl, fun h => (hsh _ h).1 rfl⟩
  obtain ⟨c, t, hc, c1, c2, c3, c4⟩ := hhead
  cases hne : filenameNeedsEscape name with
  | true =>
    rw [hne] at e p1 p2 p3
    refine ⟨[cBSL] ++ ((displayPrefix a ++ shown le d) ++ cSPACE :: cSPACE :: printFilename name true), ?_, ?_, ?_, ?_,
      ⟨a, rfl, hm⟩, ?_⟩
    · rw [← e]; simp
    · simp only [List.mem_append, List.mem_cons, List.not_mem_nil, or_false, not_or]
      exact ⟨by decide, ⟨fun h => (hp _ h).2.1 rfl, fun h => (hsh _ h).2.2.2.2.1 rfl⟩, by decide, by decide, p1⟩
    · simp only [List.mem_append, List.mem_cons, List.not_mem_nil, or_false, not_or]
      exact ⟨⟨by decide, ⟨fun h => (hp _ h).2.2 rfl, fun h => (hsh _ h).2.2.2.1 rfl⟩, by decide, by decide, p3⟩, by decide⟩
    · simp [cBSL]
    · rw [if_pos (by unfold Spec.Cli.Escaped; simp [cBSL])]
      refine ⟨printFilename name true ++ [0x0d], ?_, unescape_cr _ _ (unescape_escape name)⟩
      have := hB (printFilename name true ++ [0x0d])
      simpa using this
  | false =>
    rw [hne] at e p1 p2 p3
    refine ⟨(displayPrefix a ++ shown le d) ++ cSPACE :: cSPACE :: printFilename name false, ?_, ?_, ?_, ?_,
      ⟨a, rfl, hm⟩, ?_⟩
    · rw [← e]; simp
    · simp only [List.mem_append, List.mem_cons, not_or]
      exact ⟨⟨fun h => (hp _ h).2.1 rfl, fun h => (hsh _ h).2.2.2.2.1 rfl⟩, by decide, by decide, p1⟩
    · simp only [List.mem_append, List.mem_cons, List.not_mem_nil, or_false, not_or]
      exact ⟨⟨⟨fun h => (hp _ h).2.2 rfl, fun h => (hsh _ h).2.2.2.1 rfl⟩, by decide, by decide, p3⟩, by decide⟩
    · rw [hc]; simpa [cHASH] using c4
    · rw [if_neg (by
        unfold Spec.Cli.Escaped
        rw [hc, List.cons_append, List.cons_append, List.dropWhile_cons_of_neg (by simp; exact ⟨c1, c2⟩)]
        simp; exact c3)]
      have := hB (name ++ [0x0d])
      simpa [printFilename] using this

theorem digest_cr {n : Nat} {le : Bool} {h : List Byte} (hh : h.length % 2 = 0) : Spec.Cli.digest n le (h ++ [0x0d]) = none := by
  unfold Spec.Cli.digest
  rw [if_neg]
  simp only [List.length_append, List.length_cons, List.length_nil]
  omega

/-- A line in the BSD convention with `\r` at its end means nothing. -/
theorem bsd_cr {le rev : Bool} {name d : List Byte} {a : Algo} (h0 : (0 : Byte) ∉ name) (hl : d.length = algoLength a)
    (allowed : Spec.Cli.Alg → Prop) :
    ∃ L, Spec.Cli.recordLine true le ⟨algOf a, d, name⟩ = L ++ [cNL] ∧ cNL ∉ L ∧ (0 : Byte) ∉ L ++ [0x0d] ∧
      (L ++ [0x0d]).head? ≠ some 0x23 ∧ ∀ e, ¬ Spec.Cli.Parses rev allowed (L ++ [0x0d]) e := by
  obtain ⟨p1, p2, p3⟩ := printFilename_clean h0
  have hsh : ∀ c ∈ shown le d, c ≠ cSPACE ∧ c ≠ cTAB ∧ c ≠ cBSL ∧ c ≠ 0 ∧ c ≠ cNL ∧ c ≠ cCR ∧ c ≠ cHASH := by
    intro c hc
    obtain ⟨n, rfl⟩ := mem_shown hc
    exact hexDigit_ne n
  obtain ⟨n1, n2, n3, n4, n5, n6, n7⟩ := algoName_facts a le
  have e := displayLine_eq true le name hl
  simp only [displayLine, if_true, printLine_BSD, displayHash_eq hl, Option.bind_eq_bind,
    Option.bind_some, Option.pure_def, Option.some.injEq] at e
  generalize hT : (if le = true then algoLE_name a else algoName a) = T at *
  obtain ⟨t, rfl⟩ : ∃ t, T = 0x58 :: t := by
    match T, n7 with
    | c :: t, n7 => simp only [List.head?_cons, Option.some.injEq] at n7; exact ⟨t, by rw [n7]⟩
  have hev : (shown le d).length % 2 = 0 := by rw [shown_length]; omega
  have hev5 : ∀ h, shown le d ++ [0x0d] = Spec.Cli.txt "XXH3_" ++ h → ∀ n le, Spec.Cli.digest n le h = none := by
    intro h he
    exfalso
    match hm : shown le d with
    | [] =>
      have : (shown le d).length = 0 := by rw [hm]; rfl
      rw [shown_length, hl] at this
      cases a <;> simp [algoLength] at this
    | c :: s =>
      obtain ⟨k, hk⟩ := mem_shown (c := c) (le := le) (d := d) (by rw [hm]; simp)
      rw [hm, List.cons_append] at he
      have h1 : Spec.Cli.txt "XXH3_" = 0x58 :: Spec.Cli.txt "XH3_" := by decide
      rw [h1, List.cons_append] at he
      injection he with he1 _
      have : ∀ k : Fin 16, hexDigit k.val ≠ 0x58 := by decide +kernel
      exact this k (hk.symm.trans he1)
  have hno : ∀ (n : List Byte) (x : Spec.Cli.Alg) (y m : List Byte), ¬ Spec.Cli.Line rev
      ((0x58 :: t) ++ cSPACE :: cLPAR :: (n ++ cRPAR :: cSPACE :: cEQ :: cSPACE :: (shown le d ++ [0x0d]))) ⟨x, y, m⟩ := by
    intro n x y m h
    have hsp : cSPACE ∉ shown le d ++ [0x0d] := by
      simp only [List.mem_append, List.mem_cons, List.not_mem_nil, or_false, not_or]
      exact ⟨fun h => (hsh _ h).1 rfl, by decide⟩
    obtain ⟨_, _, h3⟩ := (bsd_inv n1 hsp).mp h
    generalize hq : shown le d ++ [0x0d] = q at h3
    cases h3 with
    | xxh32 h => rw [← hq, digest_cr hev] at h; cases h
    | xxh64 h => rw [← hq, digest_cr hev] at h; cases h
    | xxh128 h => rw [← hq, digest_cr hev] at h; cases h
    | xxh3 h => rw [← hq, digest_cr hev] at h; cases h
    | xxh3' h => rw [hev5 _ hq] at h; cases h
  cases hne : filenameNeedsEscape name with
  | true =>
    rw [hne] at e p1 p2 p3
    refine ⟨[cBSL] ++ ((0x58 :: t) ++ cSPACE :: cLPAR :: (printFilename name true ++ cRPAR :: cSPACE :: cEQ :: cSPACE ::
      shown le d)), ?_, ?_, ?_, ?_, ?_⟩
    · rw [← e]; simp
    · simp only [List.mem_append, List.mem_cons, List.not_mem_nil, or_false, not_or] at n3 ⊢
      exact ⟨by decide, n3, by decide, by decide, p1, by decide, by decide, by decide, by decide,
        fun h => (hsh _ h).2.2.2.2.1 rfl⟩
    · simp only [List.mem_append, List.mem_cons, List.not_mem_nil, or_false, not_or] at n2 ⊢
      exact ⟨⟨by decide, n2, by decide, by decide, p3, by decide, by decide, by decide, by decide,
        fun h => (hsh _ h).2.2.2.1 rfl⟩, by decide⟩
    · simp [cBSL]
    · rintro ⟨x, y, z⟩ ⟨_, h⟩
      rw [if_pos (by unfold Spec.Cli.Escaped; simp [cBSL])] at h
      obtain ⟨m, h, _⟩ := h
      exact hno (printFilename name true) x y m (by simpa using h)
  | false =>
    rw [hne] at e p1 p2 p3
    refine ⟨(0x58 :: t) ++ cSPACE :: cLPAR :: (printFilename name false ++ cRPAR :: cSPACE :: cEQ :: cSPACE ::
      shown le d), ?_, ?_, ?_, ?_, ?_⟩
    · rw [← e]; simp
    · simp only [List.mem_append, List.mem_cons, not_or] at n3 ⊢
      exact ⟨n3, by decide, by decide, p1, by decide, by decide, by decide, by decide,
        fun h => (hsh _ h).2.2.2.2.1 rfl⟩
    · simp only [List.mem_append, List.mem_cons, List.not_mem_nil, or_false, not_or] at n2 ⊢
      exact ⟨⟨n2, by decide, by decide, p3, by decide, by decide, by decide, by decide,
        fun h => (hsh _ h).2.2.2.1 rfl⟩, by decide⟩
    · simp
    · rintro ⟨x, y, z⟩ ⟨_, h⟩
      rw [if_neg (by
        unfold Spec.Cli.Escaped
        rw [List.cons_append, List.cons_append, List.dropWhile_cons_of_neg (by decide)]
        simp)] at h
      exact hno (printFilename name false) x y z (by simpa using h)

end XXH.Proof.Windows
