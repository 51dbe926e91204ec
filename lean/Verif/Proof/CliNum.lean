import Verif.Model.CliText
import Verif.Spec.Cli
import Mathlib.Tactic
/-!
Numbers on the command line (C34).
-/
namespace XXH.CliP
open Model.Cli

theorem decVal_eq : ∀ c : Byte, Spec.Cli.decVal c =
    if 0x30 ≤ c.toNat ∧ c.toNat ≤ 0x39 then some (c.toNat - 0x30) else none := by decide +kernel

/-- The value read so far extended by the remaining digits. -/
theorem decimal_from (n : Nat) (digits : List Byte) :
    n ≤ digits.foldl (fun n c => 10 * n + (Spec.Cli.decVal c).getD 0) n := by
  induction digits generalizing n with
  | nil => exact Nat.le_refl _
  | cons c t ih => exact Nat.le_trans (by show n ≤ 10 * n + _; omega) (ih _)

theorem max_toNat : ((0xffffffff#32 / 10#32) - 1).toNat = 429496728 := by decide

theorem readDigits_eq : ∀ (digits rest : List Byte) (r : BitVec 32),
    (∀ c ∈ digits, (Spec.Cli.decVal c).isSome) → (∀ c, rest.head? = some c → Spec.Cli.decVal c = none) →
    r.toNat < 4294967290 →
    let D := digits.foldl (fun n c => 10 * n + (Spec.Cli.decVal c).getD 0) r.toNat
    readDigits r (digits ++ rest) = if D < 4294967290 then some (BitVec.ofNat 32 D, rest) else none := by
  intro digits
  induction digits with
  | nil =>
    intro rest r _ hr hlt
    simp only [List.foldl_nil, List.nil_append, if_pos hlt, BitVec.ofNat_toNat, BitVec.setWidth_eq]
    cases rest with
    | nil => rfl
    | cons c t =>
      have := hr c rfl
      rw [decVal_eq] at this
      rw [readDigits]
      split at this
      · cases this
      · rename_i h; rw [if_neg h]
  | cons c t ih =>
    intro rest r hd hr hlt
    have hc := hd c (by simp)
    rw [decVal_eq] at hc
    have hdig : 0x30 ≤ c.toNat ∧ c.toNat ≤ 0x39 := by
      by_contra h; rw [if_neg h] at hc; cases hc
    have hv : (Spec.Cli.decVal c).getD 0 = c.toNat - 0x30 := by rw [decVal_eq, if_pos hdig]; rfl
    have hD : (c :: t).foldl (fun n c => 10 * n + (Spec.Cli.decVal c).getD 0) r.toNat =
        t.foldl (fun n c => 10 * n + (Spec.Cli.decVal c).getD 0) (10 * r.toNat + (c.toNat - 0x30)) := by
      rw [List.foldl_cons, hv]
    intro D
    have hD : D = _ := hD
    clear_value D
    subst hD
    rw [List.cons_append, readDigits, if_pos hdig]
    by_cases hgt : r > (0xffffffff#32 / 10#32) - 1
    · rw [if_pos hgt]
      have hgt : 429496728 < r.toNat := by have := BitVec.lt_def.mp hgt; rwa [max_toNat] at this
      have := decimal_from (10 * r.toNat + (c.toNat - 0x30)) t
      rw [if_neg (by omega)]
    · rw [if_neg hgt]
      have hle : r.toNat ≤ 429496728 := by
        by_contra h; apply hgt; rw [gt_iff_lt, BitVec.lt_def, max_toNat]; omega
      have hr' : (r * 10 + BitVec.ofNat 32 (c.toNat - 0x30)).toNat = 10 * r.toNat + (c.toNat - 0x30) := by
        rw [BitVec.toNat_add, BitVec.toNat_mul, BitVec.toNat_ofNat]
        show (r.toNat * 10 % 4294967296 + (c.toNat - 48) % 4294967296) % 4294967296 = _
        omega
      have := ih rest (r * 10 + BitVec.ofNat 32 (c.toNat - 0x30)) (fun c hc => hd c (by simp [hc])) hr (by omega)
      rw [hr'] at this
      exact this

theorem shl10 {v : BitVec 32} (h : v.toNat < 2 ^ 22) : (v <<< 10).toNat = v.toNat * 1024 := by
  rw [BitVec.toNat_shiftLeft, Nat.shiftLeft_eq, Nat.mod_eq_of_lt (by omega)]

theorem maxK_toNat : (0xffffffff#32 >>> 10).toNat = 4194303 := by decide

theorem gt_maxK {v : BitVec 32} : v > 0xffffffff#32 >>> 10 ↔ 2 ^ 22 ≤ v.toNat := by
  rw [gt_iff_lt, BitVec.lt_def, maxK_toNat]; omega

theorem skip_self (c : Byte) (s : List Byte) : skip c (c :: s) = s := by simp [skip]

theorem skip_ne {c : Byte} {s : List Byte} (h : s.head? ≠ some c) : skip c s = s := by simp [skip, h]

/-- The number at the start of the argument, or the overflow error. -/
theorem readU32_eq {s digits rest : List Byte} {n : Nat} (h : Spec.Cli.NumberAt s digits n rest) :
    readU32FromCharChecked s = if Spec.Cli.decimal digits * n < 4294967290 then
      some (BitVec.ofNat 32 (Spec.Cli.decimal digits * n), rest) else none := by
  cases h with
  | plain hd hr hK hM =>
    unfold readU32FromCharChecked
    rw [readDigits_eq digits rest 0 hd hr (by decide)]
    simp only [Nat.mul_one]
    show (if Spec.Cli.decimal digits < 4294967290 then _ else none) >>= _ = _
    split
    · show (if rest.head? = some 0x4b ∨ rest.head? = some 0x4d then _ else _) = _
      rw [if_neg (not_or.mpr ⟨hK, hM⟩)]; rfl
    · rfl
  | @unit _ u i b _ _ hd hu hi hb =>
    have hskip : skip 0x42 (skip 0x69 (i ++ b ++ rest)) = rest := by
      have e1 : skip 0x69 (i ++ b ++ rest) = b ++ rest := by
        rcases hi with rfl | ⟨rfl, hi⟩
        · exact skip_self _ _
        · exact skip_ne hi
      rw [e1]
      rcases hb with rfl | ⟨rfl, hb⟩
      · exact skip_self _ _
      · exact skip_ne hb
    unfold readU32FromCharChecked
    have hs : digits ++ u ++ i ++ b ++ rest = digits ++ (u ++ (i ++ b ++ rest)) := by simp
    rw [hs]
    rcases hu with ⟨rfl, rfl⟩ | ⟨rfl, rfl⟩
    · rw [readDigits_eq digits (Spec.Cli.txt "K" ++ (i ++ b ++ rest)) 0 hd
        (by intro c hc; have : c = 0x4b := by symm; simpa [Spec.Cli.txt] using hc
            subst this; decide) (by decide)]
      show (if Spec.Cli.decimal digits < 4294967290 then
        some (BitVec.ofNat 32 (Spec.Cli.decimal digits), (0x4b : Byte) :: (i ++ b ++ rest)) else none) >>= _ = _
      split
      · rename_i hlt
        have hv : (BitVec.ofNat 32 (Spec.Cli.decimal digits)).toNat = Spec.Cli.decimal digits := by
          rw [BitVec.toNat_ofNat, Nat.mod_eq_of_lt (by omega)]
        simp only [Option.bind_eq_bind, Option.bind_some, List.head?_cons, true_or, if_true, List.tail_cons, hskip,
          show ¬ (some (0x4b : Byte) = some 0x4d) from by decide, if_false]
        by_cases hg : BitVec.ofNat 32 (Spec.Cli.decimal digits) > 0xffffffff#32 >>> 10
        · rw [if_pos hg]; have := gt_maxK.mp hg; rw [if_neg (by omega)]; rfl
        · rw [if_neg hg]
          have := mt gt_maxK.mpr hg
          rw [if_pos (by omega)]
          show some _ = some _
          congr 2
          apply BitVec.eq_of_toNat_eq
          rw [shl10 (by omega), hv, BitVec.toNat_ofNat, Nat.mod_eq_of_lt (by omega)]
      · rename_i hge
        rw [if_neg (by omega)]; rfl
    · rw [readDigits_eq digits (Spec.Cli.txt "M" ++ (i ++ b ++ rest)) 0 hd
        (by intro c hc; have : c = 0x4d := by symm; simpa [Spec.Cli.txt] using hc
            subst this; decide) (by decide)]
      show (if Spec.Cli.decimal digits < 4294967290 then
        some (BitVec.ofNat 32 (Spec.Cli.decimal digits), (0x4d : Byte) :: (i ++ b ++ rest)) else none) >>= _ = _
      split
      · rename_i hlt
        have hv : (BitVec.ofNat 32 (Spec.Cli.decimal digits)).toNat = Spec.Cli.decimal digits := by
          rw [BitVec.toNat_ofNat, Nat.mod_eq_of_lt (by omega)]
        simp only [Option.bind_eq_bind, Option.bind_some, List.head?_cons, or_true, if_true, List.tail_cons, hskip]
        by_cases hg : BitVec.ofNat 32 (Spec.Cli.decimal digits) > 0xffffffff#32 >>> 10
        · rw [if_pos hg]; have := gt_maxK.mp hg; rw [if_neg (show ¬ Spec.Cli.decimal digits * 2 ^ 20 < 4294967290 by omega)]; rfl
        · rw [if_neg hg]
          have h1 := mt gt_maxK.mpr hg
          have h2 : (BitVec.ofNat 32 (Spec.Cli.decimal digits) <<< 10).toNat = Spec.Cli.decimal digits * 1024 := by
            rw [shl10 (by omega), hv]
          by_cases hg2 : BitVec.ofNat 32 (Spec.Cli.decimal digits) <<< 10 > 0xffffffff#32 >>> 10
          · rw [if_pos hg2]; have := gt_maxK.mp hg2; rw [if_neg (show ¬ Spec.Cli.decimal digits * 2 ^ 20 < 4294967290 by omega)]; rfl
          · rw [if_neg hg2]
            have h3 := mt gt_maxK.mpr hg2
            rw [if_pos (show Spec.Cli.decimal digits * 2 ^ 20 < 4294967290 by omega)]
            rw [Option.bind_some]
            refine congrArg some (Prod.ext ?_ rfl)
            show BitVec.ofNat 32 (Spec.Cli.decimal digits) <<< 10 <<< 10 = BitVec.ofNat 32 (Spec.Cli.decimal digits * 2 ^ 20)
            apply BitVec.eq_of_toNat_eq
            rw [shl10 (by omega), h2, BitVec.toNat_ofNat, Nat.mod_eq_of_lt (by omega)]; omega
      · rename_i hge
        rw [if_neg (show ¬ Spec.Cli.decimal digits * 2 ^ 20 < 4294967290 by omega)]; rfl

/-- Every argument starts with a number. -/
theorem numberAt_exists (s : List Byte) : ∃ digits n rest, Spec.Cli.NumberAt s digits n rest := by
  let p : Byte → Bool := fun c => (Spec.Cli.decVal c).isSome
  have hs : s = s.takeWhile p ++ s.dropWhile p := (List.takeWhile_append_dropWhile).symm
  have hd : ∀ c ∈ s.takeWhile p, (Spec.Cli.decVal c).isSome := fun c hc => by
    have := List.all_takeWhile (p := p) (l := s); exact List.all_eq_true.mp this c hc
  have hr : ∀ c, (s.dropWhile p).head? = some c → Spec.Cli.decVal c = none := by
    intro c hc
    have := List.head?_dropWhile_not p s
    rw [hc] at this
    simpa [p] using this
  generalize s.takeWhile p = digits at *
  generalize s.dropWhile p = t at *
  subst hs
  by_cases hu : t.head? = some 0x4b ∨ t.head? = some 0x4d
  · have : ∃ u n w, t = u ++ w ∧ (u = Spec.Cli.txt "K" ∧ n = 2 ^ 10 ∨ u = Spec.Cli.txt "M" ∧ n = 2 ^ 20) := by
      match t, hu with
      | c :: w, .inl h => simp at h; subst h; exact ⟨Spec.Cli.txt "K", _, w, rfl, .inl ⟨rfl, rfl⟩⟩
      | c :: w, .inr h => simp at h; subst h; exact ⟨Spec.Cli.txt "M", _, w, rfl, .inr ⟨rfl, rfl⟩⟩
    obtain ⟨u, n, w, rfl, hu'⟩ := this
    have key : ∀ (c : Byte) (w : List Byte), ∃ i w', w = i ++ w' ∧ (i = [c] ∨ i = [] ∧ w'.head? ≠ some c) := by
      intro c w
      by_cases h : w.head? = some c
      · match w, h with
        | d :: w, h => simp at h; subst h; exact ⟨[d], w, rfl, .inl rfl⟩
      · exact ⟨[], w, rfl, .inr ⟨rfl, h⟩⟩
    obtain ⟨i, w, rfl, hi⟩ := key 0x69 w
    obtain ⟨b, w, rfl, hb⟩ := key 0x42 w
    refine ⟨digits, n, w, ?_⟩
    have := Spec.Cli.NumberAt.unit (rest := w) hd hu' hi hb
    simpa using this
  · exact ⟨digits, 1, t, .plain hd hr (fun h => hu (.inl h)) (fun h => hu (.inr h))⟩

end XXH.CliP
