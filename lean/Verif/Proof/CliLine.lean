import Verif.Model.CliFile
import Verif.Spec.Cli
import Verif.Proof.CliText
/-!
Reading lines (C37).
-/
namespace XXH.CliP
open Model.Cli

theorem fresh_length (junk : Nat → Byte) (n : Nat) : (fresh junk n).length = n := by simp [fresh]

theorem resize_length {junk : Nat → Byte} {m : CMem} {n : Nat} (h : m.length ≤ n) : (resize junk m n).length = n := by
  unfold resize
  rw [List.length_append, fresh_length, List.length_take]
  omega

theorem resize_prefix {junk : Nat → Byte} {m : CMem} {n : Nat} (h : m.length ≤ n) : m <+: resize junk m n := by
  unfold resize
  rw [List.take_of_length_le h]
  exact List.prefix_append _ _

/-- What `makeSpace` does when the buffer has its nominal size and the text so far leaves room for the NUL. -/
theorem makeSpace_eq {junk : Nat → Byte} {st : LineSt} {len : Nat} (hb : st.buf.length = st.max) (h1 : len < st.max)
    (h2 : st.max ≤ 32768) :
    (len = 32767 ∧ makeSpace junk st len = (.exceedMaxLineLength, st)) ∨
    (len < 32767 ∧ st.mem.headD true = false ∧ makeSpace junk st len = (.outOfMemory, { st with mem := st.mem.tail })) ∨
    (len < 32767 ∧ ∃ st', makeSpace junk st len = (.ok, st') ∧ st'.buf.length = st'.max ∧ len + 1 < st'.max ∧
      st'.max ≤ 32768 ∧ st.buf <+: st'.buf ∧ st'.data = st.data ∧ st'.mem <:+ st.mem ∧ st.max ≤ st'.max) := by
  unfold makeSpace
  by_cases hg : len + 1 ≥ st.max
  · rw [if_pos hg]
    have hl : len + 1 = st.max := by omega
    have hn : ∀ n, n = (if st.max + (st.max / 2 + 1) > MAX_LINE_LENGTH then MAX_LINE_LENGTH else
        st.max + (st.max / 2 + 1)) → (len = 32767 ∧ n = 32768) ∨ (len < 32767 ∧ len + 1 < n ∧ n ≤ 32768) := by
      intro n hn
      unfold MAX_LINE_LENGTH at hn
      split at hn <;> omega
    simp only
    generalize hm : (if st.max + (st.max / 2 + 1) > MAX_LINE_LENGTH then MAX_LINE_LENGTH else
        st.max + (st.max / 2 + 1)) = n
    rcases hn n hm.symm with ⟨e, e'⟩ | ⟨e, e1, e2⟩
    · left; rw [if_pos (by omega)]; exact ⟨e, rfl⟩
    · right
      rw [if_neg (by omega)]
      cases hh : st.mem.headD true with
      | false => left; exact ⟨e, rfl, by simp⟩
      | true =>
        right
        refine ⟨e, { st with buf := resize junk st.buf n, max := n, mem := st.mem.tail }, by rw [if_pos rfl], ?_, e1, e2, ?_, rfl, List.tail_suffix _, ?_⟩
        · exact resize_length (by omega)
        · exact resize_prefix (by omega)
        · show st.max ≤ n; omega
  · rw [if_neg hg]
    right; right
    exact ⟨by omega, st, rfl, hb, by omega, h2, List.prefix_refl _, rfl, List.suffix_refl _, Nat.le_refl _⟩

/-- The class of a complete line. -/
def lineClass (l : List Byte) : GetLineResult := if l.head? = some 0x23 then .comment else .ok

theorem getLineEnd_ok {st : LineSt} {l : List Byte} (hp : l <+: st.buf) (h : l.length < st.buf.length) :
    ∃ st', getLineEnd st l.length .ok = some (lineClass l, st') ∧ l ++ [0] <+: st'.buf ∧
      st'.buf.length = st.buf.length ∧ st'.max = st.max ∧ st'.data = st.data ∧ st'.mem = st.mem := by
  obtain ⟨t, ht⟩ := hp
  match t with
  | [] => simp [← ht] at h
  | x :: t =>
    have hw : wr st.buf l.length 0 = some (l ++ 0 :: t) := by
      unfold wr
      rw [if_pos h, ← ht]
      simp
    unfold getLineEnd
    rw [hw]
    refine ⟨{ st with buf := l ++ 0 :: t }, ?_, ⟨t, by simp⟩, by simp [← ht], rfl, rfl, rfl⟩
    show (if GetLineResult.ok = GetLineResult.ok ∧ l.length > 0 then _ else _) = _
    unfold lineClass
    match l with
    | [] => rfl
    | c :: l =>
      rw [if_pos ⟨rfl, by simp⟩]
      show (if c = cHASH then _ else _) = _
      simp only [List.head?_cons, Option.some.injEq]
      show (if c = cHASH then _ else _) = some (if c = cHASH then _ else _, _)
      split <;> rfl

theorem getLineEnd_eof {st : LineSt} (h : 0 < st.buf.length) :
    ∃ st', getLineEnd st 0 .eof = some (.eof, st') ∧
      st'.buf.length = st.buf.length ∧ st'.max = st.max ∧ st'.data = st.data ∧ st'.mem = st.mem := by
  refine ⟨{ st with buf := st.buf.set 0 0 }, ?_, by simp, rfl, rfl, rfl⟩
  simp [getLineEnd, wr, h]

/-- How reading ends, in terms of the whole line. -/
structure GotLine (pre data : List Byte) (max : Nat) (mem : List Bool) (r : GetLineResult) (st : LineSt) : Prop where
  len : st.buf.length = st.max
  le : st.max ≤ 32768
  grows : max ≤ st.max
  suff : st.mem <:+ mem
  dsuff : st.data <:+ data
  kind :
    (r = .outOfMemory ∧ false ∈ mem ∧ data ≠ []) ∨
    (r = .exceedMaxLineLength ∧ ((0x0a ∈ data ∧ 32766 < (pre ++ Spec.Cli.firstLine data).length) ∨
      32767 < (pre ++ Spec.Cli.firstLine data).length)) ∨
    (r = .eof ∧ pre ++ data = [] ∧ st.data = []) ∨
    (r = lineClass (pre ++ Spec.Cli.firstLine data) ∧ pre ++ data ≠ [] ∧
      ¬ ((0x0a ∈ data ∧ 32766 < (pre ++ Spec.Cli.firstLine data).length) ∨
      32767 < (pre ++ Spec.Cli.firstLine data).length) ∧
      st.data = Spec.Cli.otherLines data ∧ pre ++ Spec.Cli.firstLine data ++ [0] <+: st.buf)

theorem firstLine_length_le (d : List Byte) : (Spec.Cli.firstLine d).length ≤ d.length :=
  (List.takeWhile_prefix _).length_le

theorem firstLine_cons {c : Byte} {d : List Byte} (h : c ≠ 0x0a) :
    Spec.Cli.firstLine (c :: d) = c :: Spec.Cli.firstLine d ∧ Spec.Cli.otherLines (c :: d) = Spec.Cli.otherLines d := by
  unfold Spec.Cli.firstLine Spec.Cli.otherLines
  rw [List.takeWhile_cons_of_pos (by simpa using h), List.dropWhile_cons_of_pos (by simpa using h)]
  exact ⟨rfl, rfl⟩

theorem firstLine_nl (d : List Byte) :
    Spec.Cli.firstLine (0x0a :: d) = [] ∧ Spec.Cli.otherLines (0x0a :: d) = d := by
  unfold Spec.Cli.firstLine Spec.Cli.otherLines
  rw [List.takeWhile_cons_of_neg (by simp), List.dropWhile_cons_of_neg (by simp)]
  exact ⟨rfl, rfl⟩

theorem headD_false {mem : List Bool} (h : mem.headD true = false) : false ∈ mem := by
  cases mem with
  | nil => simp at h
  | cons b t => simp at h; simp [h]

theorem getLineLoop_eq (junk : Nat → Byte) : ∀ (data : List Byte) (buf : CMem) (max : Nat) (mem : List Bool)
    (pre : List Byte), buf.length = max → pre.length < max → max ≤ 32768 → pre <+: buf →
    ∃ r st, getLineLoop junk data buf max mem pre.length = some (r, st) ∧ GotLine pre data max mem r st := by
  intro data
  induction data with
  | nil =>
    intro buf max mem pre hb hl hm hp
    unfold getLineLoop
    by_cases h0 : pre.length = 0
    · rw [if_pos h0, h0]
      obtain ⟨st, e, e1, e2, e3, e4⟩ := getLineEnd_eof (st := ⟨buf, max, [], mem⟩) (by show 0 < buf.length; omega)
      refine ⟨_, st, e, ⟨by rw [e1, e2]; exact hb, by rw [e2]; exact hm, by rw [e2], by rw [e4], by rw [e3], ?_⟩⟩
      right; right; left
      refine ⟨rfl, ?_, e3⟩
      rw [List.length_eq_zero_iff.mp h0]; rfl
    · rw [if_neg h0]
      obtain ⟨st, e, e0, e1, e2, e3, e4⟩ := getLineEnd_ok (st := ⟨buf, max, [], mem⟩) hp (by show _ < buf.length; omega)
      refine ⟨_, st, e, ⟨by rw [e1, e2]; exact hb, by rw [e2]; exact hm, by rw [e2], by rw [e4], by rw [e3], ?_⟩⟩
      right; right; right
      have hf : Spec.Cli.firstLine [] = [] := rfl
      rw [hf, List.append_nil]
      refine ⟨rfl, ?_, ?_, e3, e0⟩
      · intro h; rw [h] at h0; exact h0 rfl
      · simp; omega
  | cons c data ih =>
    intro buf max mem pre hb hl hm hp
    unfold getLineLoop
    rcases makeSpace_eq (junk := junk) (st := ⟨buf, max, data, mem⟩) hb hl hm with ⟨e, e'⟩ | ⟨e, e1, e'⟩ |
      ⟨e, st, e', e1, e2, e3, e4, e5, e6, e7⟩
    · rw [e']
      refine ⟨.exceedMaxLineLength, ⟨buf, max, data, mem⟩, rfl, hb, hm, Nat.le_refl _, List.suffix_refl _, List.suffix_cons _ _, ?_⟩
      right; left
      refine ⟨rfl, ?_⟩
      by_cases hc : c = 0x0a
      · left; exact ⟨by simp [hc], by rw [List.length_append]; omega⟩
      · right; rw [(firstLine_cons hc).1, List.length_append, List.length_cons]; omega
    · rw [e']
      refine ⟨.outOfMemory, ⟨buf, max, data, mem.tail⟩, rfl, hb, hm, Nat.le_refl _, List.tail_suffix _, List.suffix_cons _ _, ?_⟩
      left
      exact ⟨rfl, headD_false e1, by simp⟩
    · rw [e']
      simp only [ne_eq, not_true_eq_false, if_false]
      have hp' : pre <+: st.buf := hp.trans e4
      by_cases hc : c = cNL
      · rw [if_pos hc]
        obtain ⟨st', g, g0, g1, g2, g3, g4⟩ := getLineEnd_ok (st := st) hp' (by omega)
        refine ⟨_, st', g, ⟨by rw [g1, g2]; exact e1, by rw [g2]; exact e3, by rw [g2]; exact e7, by rw [g4]; exact e6,
          by rw [g3, e5]; exact List.suffix_cons _ _, ?_⟩⟩
        right; right; right
        have hc' : c = 0x0a := hc
        subst hc'
        rw [(firstLine_nl data).1, (firstLine_nl data).2, List.append_nil]
        exact ⟨rfl, by simp, by simp; omega, by rw [g3]; exact e5, g0⟩
      · rw [if_neg hc]
        obtain ⟨t, ht⟩ := hp'
        match t with
        | [] => simp at ht; rw [ht] at e2; omega
        | x :: t =>
          have hw : wr st.buf pre.length c = some ((pre ++ [c]) ++ t) := by
            unfold wr
            rw [if_pos (by omega), ← ht]
            simp
          rw [hw]
          obtain ⟨r, st', g, g'⟩ := ih ((pre ++ [c]) ++ t) st.max st.mem (pre ++ [c])
            (by rw [← e1, ← ht]; simp) (by simp; omega) e3 ⟨t, rfl⟩
          rw [List.length_append, List.length_singleton] at g
          refine ⟨r, st', g, g'.len, g'.le, Nat.le_trans e7 g'.grows, g'.suff.trans e6,
            g'.dsuff.trans (List.suffix_cons _ _), ?_⟩
          have hc' : c ≠ 0x0a := hc
          have hmem : (0x0a : Byte) ∈ c :: data ↔ 0x0a ∈ data := by
            simp only [List.mem_cons]
            exact ⟨fun h => h.elim (fun h => absurd h.symm hc') id, .inr⟩
          have happ : ∀ t : List Byte, pre ++ c :: t = pre ++ [c] ++ t := by intro t; simp
          rw [(firstLine_cons hc').1, (firstLine_cons hc').2, hmem, happ (Spec.Cli.firstLine data), happ data]
          rcases g'.kind with ⟨h1, h2, h3⟩ | h | h | h
          · left; exact ⟨h1, e6.subset h2, by simp⟩
          · right; left; exact h
          · right; right; left; exact h
          · right; right; right; exact h

end XXH.CliP
