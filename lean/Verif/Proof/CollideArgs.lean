import Verif.Props.CollideTerms
import Verif.Proof.CliNum
/-!
The numbers in the arguments of the collision tester.
-/
namespace XXH.Proof.Collide
open XXH.Model XXH.Model.Collide XXH.CollideTerms
open Bench (Run)

theorem readDigits_eq (digits rest : List Byte) (r : W64) (hd : ∀ c ∈ digits, (Spec.Cli.decVal c).isSome)
    (hr : ∀ c, rest.head? = some c → Spec.Cli.decVal c = none) (hlt : r.toNat < 18446744073709551600) :
    readDigits r (digits ++ rest) =
      if digits.foldl (fun n c => 10 * n + (Spec.Cli.decVal c).getD 0) r.toNat < 18446744073709551600 then
        .done (BitVec.ofNat 64 (digits.foldl (fun n c => 10 * n + (Spec.Cli.decVal c).getD 0) r.toNat), rest)
      else .abort := by
  induction digits generalizing r with
  | nil =>
    simp only [List.foldl_nil, List.nil_append, if_pos hlt, BitVec.ofNat_toNat, BitVec.setWidth_eq]
    cases rest with
    | nil => rfl
    | cons c t =>
      have := hr c rfl
      rw [CliP.decVal_eq] at this
      rw [readDigits]
      split at this
      · cases this
      · rename_i h; rw [if_neg h]
  | cons c t ih =>
    have hc := hd c (by simp)
    rw [CliP.decVal_eq] at hc
    have hdig : 0x30 ≤ c.toNat ∧ c.toNat ≤ 0x39 := by
      by_contra h; rw [if_neg h] at hc; cases hc
    have hv : (Spec.Cli.decVal c).getD 0 = c.toNat - 0x30 := by rw [CliP.decVal_eq, if_pos hdig]; rfl
    rw [List.foldl_cons, hv, List.cons_append, readDigits, if_pos hdig]
    by_cases hgt : r.toNat < 2^64 / 10 - 1
    · rw [if_pos hgt]
      have hr' : (r * 10 + BitVec.ofNat 64 (c.toNat - 0x30)).toNat = 10 * r.toNat + (c.toNat - 0x30) := by
        rw [BitVec.toNat_add, BitVec.toNat_mul, BitVec.toNat_ofNat]
        show (r.toNat * 10 % 18446744073709551616 + (c.toNat - 48) % 18446744073709551616) % 18446744073709551616 = _
        omega
      have := ih (r * 10 + BitVec.ofNat 64 (c.toNat - 0x30)) (fun c hc => hd c (by simp [hc])) (by omega)
      rw [hr'] at this
      exact this
    · rw [if_neg hgt]
      have := CliP.decimal_from (10 * r.toNat + (c.toNat - 0x30)) t
      rw [if_neg (by omega)]

theorem shiftK_eq {w : W64} : shiftK w = if w.toNat < 2^54 - 1 then .done (BitVec.ofNat 64 (w.toNat * 1024)) else .abort := by
  unfold shiftK
  split
  · congr 1
    apply BitVec.eq_of_toNat_eq
    rw [BitVec.toNat_shiftLeft, Nat.shiftLeft_eq, BitVec.toNat_ofNat]
  · rfl

/-- A number without unit. -/
theorem readU64_plain {digits rest : List Byte} (hd : ∀ c ∈ digits, (Spec.Cli.decVal c).isSome)
    (hr : ∀ c, rest.head? = some c → Spec.Cli.decVal c = none ∧ c ∉ ascii "KMG") :
    readU64 (digits ++ rest) = if Spec.Cli.decimal digits < 18446744073709551600 then
      .done (BitVec.ofNat 64 (Spec.Cli.decimal digits), rest) else .abort := by
  unfold readU64
  rw [readDigits_eq digits rest 0 hd (fun c hc => (hr c hc).1) (by decide)]
  show (if Spec.Cli.decimal digits < 18446744073709551600 then Run.done (BitVec.ofNat 64 (Spec.Cli.decimal digits), rest)
    else Run.abort) >>= _ = _
  split
  · cases rest with
    | nil => rfl
    | cons c t =>
      have := (hr c rfl).2
      have hn : ¬ (c = 0x4B ∨ c = 0x4D ∨ c = 0x47) := by
        rintro (rfl | rfl | rfl) <;> exact this (by decide)
      show (if c = 0x4B ∨ c = 0x4D ∨ c = 0x47 then _ else _) = _
      rw [if_neg hn]
      rfl
  · rfl

/-- The units. -/
theorem readU64_unit {digits : List Byte} (hd : ∀ c ∈ digits, (Spec.Cli.decVal c).isSome) {u : Byte} {k : ℕ}
    (hu : u = 0x4B ∧ k = 1 ∨ u = 0x4D ∧ k = 2 ∨ u = 0x47 ∧ k = 3) {t : List Byte}
    (ht : t ∈ [[], [0x69], [0x42], [0x69, 0x42]]) :
    EndsIn (fun r => r.1.toNat = Spec.Cli.decimal digits * 1024^k ∧ r.2 = []) False
      (2^63 ≤ Spec.Cli.decimal digits * 1024^k) (readU64 (digits ++ u :: t)) := by
  have hun : Spec.Cli.decVal u = none := by rcases hu with ⟨rfl, -⟩ | ⟨rfl, -⟩ | ⟨rfl, -⟩ <;> decide
  have hread := readDigits_eq digits (u :: t) 0 hd (by intro c hc; simp only [List.head?_cons, Option.some.injEq] at hc; exact hc ▸ hun) (by decide)
  have hor : u = 0x4B ∨ u = 0x4D ∨ u = 0x47 := by
    rcases hu with h | h | h
    · exact .inl h.1
    · exact .inr (.inl h.1)
    · exact .inr (.inr h.1)
  unfold readU64
  rw [hread]
  show EndsIn _ _ _ ((if Spec.Cli.decimal digits < 18446744073709551600 then
    Run.done (BitVec.ofNat 64 (Spec.Cli.decimal digits), u :: t) else Run.abort) >>= _)
  generalize Spec.Cli.decimal digits = D
  have hk3 : 1024^k = 1024 ∨ 1024^k = 1048576 ∨ 1024^k = 1073741824 := by
    rcases hu with ⟨-, rfl⟩ | ⟨-, rfl⟩ | ⟨-, rfl⟩ <;> norm_num
  by_cases hD : D < 18446744073709551600
  swap
  · rw [if_neg hD]
    show 2^63 ≤ D * 1024^k
    rcases hk3 with h | h | h <;> rw [h] <;> omega
  rw [if_pos hD]
  show EndsIn _ _ _ (if u = 0x4B ∨ u = 0x4D ∨ u = 0x47 then _ else _)
  rw [if_pos hor]
  have hw : (BitVec.ofNat 64 D).toNat = D := by rw [BitVec.toNat_ofNat]; omega
  generalize BitVec.ofNat 64 D = w at *
  subst hw
  have htail : (let s := if t.head? = some 0x69 then t.tail else t; if s.head? = some 0x42 then s.tail else s) = [] := by
    simp only [List.mem_cons, List.not_mem_nil, or_false] at ht
    rcases ht with rfl | rfl | rfl | rfl <;> decide
  have hs : EndsIn (fun r : W64 => r.toNat = w.toNat * 1024^k) False (2^63 ≤ w.toNat * 1024^k) (shiftSuffix u w) := by
    unfold shiftSuffix
    rw [shiftK_eq]
    by_cases h1 : w.toNat < 2^54 - 1
    swap
    · rw [if_neg h1]
      show 2^63 ≤ w.toNat * 1024^k
      rcases hk3 with h | h | h <;> rw [h] <;> omega
    rw [if_pos h1]
    have hw1 : (BitVec.ofNat 64 (w.toNat * 1024)).toNat = w.toNat * 1024 := by rw [BitVec.toNat_ofNat]; omega
    show EndsIn _ _ _ (if u = 0x4D ∨ u = 0x47 then _ else _)
    rcases hu with ⟨rfl, rfl⟩ | hu
    · rw [if_neg (by decide)]
      show (BitVec.ofNat 64 (w.toNat * 1024)).toNat = _
      omega
    rw [if_pos (hu.imp (·.1) (·.1)), shiftK_eq, hw1]
    by_cases h2 : w.toNat * 1024 < 2^54 - 1
    swap
    · rw [if_neg h2]
      show 2^63 ≤ w.toNat * 1024^k
      rcases hu with ⟨-, rfl⟩ | ⟨-, rfl⟩ <;> omega
    rw [if_pos h2]
    have hw2 : (BitVec.ofNat 64 (w.toNat * 1024 * 1024)).toNat = w.toNat * 1024 * 1024 := by rw [BitVec.toNat_ofNat]; omega
    show EndsIn _ _ _ (if u = 0x47 then _ else _)
    rcases hu with ⟨rfl, rfl⟩ | ⟨rfl, rfl⟩
    · rw [if_neg (by decide)]
      exact hw2.trans (by rw [Nat.mul_assoc, pow_two])
    rw [if_pos rfl, shiftK_eq, hw2]
    by_cases h3 : w.toNat * 1024 * 1024 < 2^54 - 1
    swap
    · rw [if_neg h3]
      show 2^63 ≤ _
      rw [show 1024^3 = 1073741824 by norm_num]
      generalize w.toNat = W at *
      omega
    rw [if_pos h3]
    show (BitVec.ofNat 64 (w.toNat * 1024 * 1024 * 1024)).toNat = _
    rw [BitVec.toNat_ofNat]
    omega
  revert hs
  generalize shiftSuffix u w = r
  intro hs
  cases r with
  | done v =>
    refine ⟨hs, ?_⟩
    exact htail
  | exit c => exact hs
  | abort => exact hs
  | undefined => exact hs
  | unfinished => exact hs

end XXH.Proof.Collide
