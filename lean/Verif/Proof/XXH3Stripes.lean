import Verif.Proof.XXH3Long
import Verif.Model.XXH3Stream
/-!
`XXH3_consumeStripes`: the accumulators after any number of stripes, and their relation to the
specification's block structure.
-/
namespace XXH
open Model Spec Model.Simd SimdP

namespace XXH3P

/-- The accumulators after the first `k` stripes of `msg`, scrambled as soon as a block is complete. -/
def accAfter (sec msg : List Byte) : Nat → Acc
  | 0 => Spec.XXH3.initAcc
  | k+1 =>
    let a := Spec.XXH3.accumulate sec (accAfter sec msg k) (slice msg (k*64) (k*64+64))
      (k % Spec.XXH3.stripesPerBlock sec * 8)
    if (k+1) % Spec.XXH3.stripesPerBlock sec = 0 then Spec.XXH3.scramble sec a else a

theorem accAfter_append (sec msg x : List Byte) :
    ∀ k, k * 64 ≤ msg.length → accAfter sec (msg ++ x) k = accAfter sec msg k
  | 0, _ => rfl
  | k+1, h => by
    unfold accAfter
    rw [accAfter_append sec msg x k (by omega), slice_append_left _ _ _ _ (by omega)]

theorem accStripes_last (sec msg : List Byte) (acc : Acc) (io so n : Nat) :
    accStripes sec msg acc io so (n+1) = Spec.XXH3.accumulate sec (accStripes sec msg acc io so n)
      (slice msg (io + n*64) (io + n*64 + 64)) (so + n*8) := by
  unfold accStripes
  rw [List.range_succ, List.foldl_append, List.foldl_cons, List.foldl_nil]

/-- `nb` stripes at `io` in `data` are the stripes `k`, `k+1`, ... of `msg`. -/
def SameStripes (data : List Byte) (io : Nat) (msg : List Byte) (k nb : Nat) : Prop :=
  ∀ j, j < nb → slice data (io + j*64) (io + j*64 + 64) = slice msg ((k+j)*64) ((k+j)*64+64)

theorem SameStripes.of_slice {data msg : List Byte} {io k nb : Nat}
    (h : slice data io (io + 64*nb) = slice msg (k*64) (k*64 + 64*nb)) : SameStripes data io msg k nb := by
  intro j hj
  have h1 := slice_slice data io (io + 64*nb) (j*64) (j*64+64) (by omega)
  have h2 := slice_slice msg (k*64) (k*64 + 64*nb) (j*64) (j*64+64) (by omega)
  rw [h] at h1
  rw [h2] at h1
  rw [show io + j*64 + 64 = io + (j*64 + 64) by omega, ← h1, show (k+j)*64 = k*64+j*64 by omega,
    show k*64 + j*64 + 64 = k*64 + (j*64+64) by omega]

theorem SameStripes.drop {data msg : List Byte} {io k nb m : Nat} (h : SameStripes data io msg k nb) :
    SameStripes data (io + 64*m) msg (k+m) (nb - m) := by
  intro j hj
  have := h (m+j) (by omega)
  rwa [show io + 64*m + j*64 = io + (m+j)*64 by omega, show k + m + j = k + (m + j) by omega]

theorem mod_add_lt {k n p : Nat} (h : k % p + n < p) : (k + n) % p = k % p + n := by
  rw [Nat.add_mod, Nat.mod_eq_of_lt (a := n) (by omega), Nat.mod_eq_of_lt h]

theorem mod_add_eq {k n p : Nat} (h : k % p + n = p) : (k + n) % p = 0 := by
  have := Nat.div_add_mod k p
  have e : k + n = p * (k / p + 1) := by rw [Nat.mul_add, Nat.mul_one]; omega
  rw [e, Nat.mul_mod_right]

section
variable {sec data msg : List Byte} {io k : Nat}

theorem accStripes_within :
    ∀ {n : Nat}, SameStripes data io msg k n → k % Spec.XXH3.stripesPerBlock sec + n <
        Spec.XXH3.stripesPerBlock sec →
      accStripes sec data (accAfter sec msg k) io (k % Spec.XXH3.stripesPerBlock sec * 8) n =
        accAfter sec msg (k + n)
  | 0, _, _ => rfl
  | n+1, hs, hn => by
    rw [accStripes_last, accStripes_within (n := n) (fun j hj => hs j (by omega)) (by omega),
      hs n (by omega), ← Nat.add_assoc, accAfter]
    have h1 := mod_add_lt (k := k) (n := n) (p := Spec.XXH3.stripesPerBlock sec) (by omega)
    have h2 := mod_add_lt (k := k) (n := n+1) (p := Spec.XXH3.stripesPerBlock sec) (by omega)
    rw [if_neg (by rw [Nat.add_assoc, h2]; omega), h1, Nat.add_mul (k % _)]

theorem accStripes_block_end {n : Nat} (hs : SameStripes data io msg k n)
    (hn : k % Spec.XXH3.stripesPerBlock sec + n = Spec.XXH3.stripesPerBlock sec) (h0 : 0 < n) :
    Spec.XXH3.scramble sec
      (accStripes sec data (accAfter sec msg k) io (k % Spec.XXH3.stripesPerBlock sec * 8) n) =
        accAfter sec msg (k + n) := by
  obtain ⟨n, rfl⟩ : ∃ m, n = m + 1 := ⟨n - 1, by omega⟩
  rw [accStripes_last, accStripes_within (n := n) (fun j hj => hs j (by omega)) (by omega),
    hs n (by omega), ← Nat.add_assoc, accAfter]
  have h1 := mod_add_lt (k := k) (n := n) (p := Spec.XXH3.stripesPerBlock sec) (by omega)
  rw [if_pos (by rw [Nat.add_assoc]; exact mod_add_eq hn), h1, Nat.add_mul (k % _)]

/-- The specification's structure: whole blocks, then the stripes of the last block. -/
theorem accAfter_blocks (sec msg : List Byte) (hl : 72 ≤ sec.length) :
    ∀ nb, accAfter sec msg (nb * Spec.XXH3.stripesPerBlock sec) =
      (List.range nb).foldl (fun acc b => Spec.XXH3.round sec acc
        (slice msg (b * Spec.XXH3.blockSize sec) (b * Spec.XXH3.blockSize sec + Spec.XXH3.blockSize sec)))
        Spec.XXH3.initAcc
  | 0 => by rw [Nat.zero_mul]; rfl
  | nb+1 => by
    have hp : 0 < Spec.XXH3.stripesPerBlock sec := by unfold Spec.XXH3.stripesPerBlock; omega
    rw [List.range_succ, List.foldl_append, ← accAfter_blocks sec msg hl nb]
    simp only [List.foldl_cons, List.foldl_nil]
    have hm : nb * Spec.XXH3.stripesPerBlock sec % Spec.XXH3.stripesPerBlock sec = 0 := Nat.mul_mod_left _ _
    have := accStripes_block_end (sec := sec) (data := msg) (msg := msg)
      (io := nb * Spec.XXH3.stripesPerBlock sec * 64) (k := nb * Spec.XXH3.stripesPerBlock sec)
      (n := Spec.XXH3.stripesPerBlock sec) (fun j _ => by rw [Nat.add_mul]) (by omega) hp
    rw [hm, Nat.zero_mul] at this
    rw [Nat.add_mul, Nat.one_mul, ← this, Spec.XXH3.round, Spec.XXH3.blockSize,
      accStripes_block _ _ _ _ _ _ (Nat.le_refl _), ← Nat.mul_assoc, Nat.mul_right_comm, Nat.mul_comm (nb * 64),
      Nat.mul_comm nb]
theorem longAccs_eq (sec msg : List Byte) (hl : 72 ≤ sec.length) (hm : 0 < msg.length) :
    Spec.XXH3.longAccs msg sec = Spec.XXH3.accumulate sec (accAfter sec msg ((msg.length - 1) / 64))
      (slice msg (msg.length - 64) msg.length) (sec.length - 71) := by
  unfold Spec.XXH3.longAccs
  simp only
  rw [← accAfter_blocks sec msg hl, accStripes_drop, List.length_drop]
  have hb : Spec.XXH3.blockSize sec = 64 * Spec.XXH3.stripesPerBlock sec := rfl
  have hp : 0 < Spec.XXH3.stripesPerBlock sec := by unfold Spec.XXH3.stripesPerBlock; omega
  obtain ⟨p, hpp⟩ : ∃ p, p = Spec.XXH3.stripesPerBlock sec := ⟨_, rfl⟩
  rw [hb, ← hpp]
  rw [← hpp] at hp
  obtain ⟨q, hq⟩ : ∃ q, q = (msg.length - 1) / (64 * p) := ⟨_, rfl⟩
  have hlo : 64 * p * q ≤ msg.length - 1 := hq ▸ Nat.mul_div_le _ _
  have hhi : msg.length - 1 < 64 * p * (q + 1) := hq ▸ Nat.lt_mul_div_succ _ (by omega)
  have e1 : 64 * p * (q + 1) = 64 * p * q + 64 * p := by rw [Nat.mul_add, Nat.mul_one]
  have e2 : q * (64 * p) = 64 * (q * p) := by rw [Nat.mul_left_comm]
  have e3 : 64 * p * q = 64 * (q * p) := by rw [Nat.mul_assoc, Nat.mul_comm p]
  have hm0 : q * p % p = 0 := Nat.mul_mod_left _ _
  rw [← hq, e2]
  rw [e3] at hlo e1
  have hw := accStripes_within (sec := sec) (data := msg) (msg := msg) (io := 64 * (q * p)) (k := q * p)
    (n := (msg.length - 64 * (q * p) - 1) / 64) (fun j _ => by rw [Nat.add_mul, Nat.mul_comm 64])
    (by rw [← hpp, hm0]; omega)
  rw [← hpp, hm0, Nat.zero_mul] at hw
  rw [hw]
  congr 3
  omega
end

section
variable {al : Nat} {facc : Model.XXH3.FAccumulate} {fscr : Scramble} (ha : AccOK al facc) (hf : ScrOK al fscr)
  {b s : Buf} {data sec msg : List Byte} (hb : Holds b data) (hs : Holds s sec) (hl : 136 ≤ sec.length)
  {accAddr : Nat} (h0 : accAddr % al = 0)
include ha hf hb hs hl h0

theorem consumeBlocks_eq : ∀ (fuel nb io k : Nat), nb < fuel → io + 64 * nb ≤ data.length →
    SameStripes data io msg k nb →
    Spec.XXH3.stripesPerBlock sec - k % Spec.XXH3.stripesPerBlock sec ≤ nb →
    ∃ m, m ≤ nb ∧ nb - m < Spec.XXH3.stripesPerBlock sec ∧ (k + m) % Spec.XXH3.stripesPerBlock sec = 0 ∧
      Model.XXH3.consumeBlocks accAddr b s (Spec.XXH3.stripesPerBlock sec) (sec.length - 64) facc fscr fuel
        (accAfter sec msg k, io, nb) (Spec.XXH3.stripesPerBlock sec - k % Spec.XXH3.stripesPerBlock sec)
        (k % Spec.XXH3.stripesPerBlock sec * 8) = some (accAfter sec msg (k+m), io + 64 * m, nb - m)
  | 0, _, _, _, h, _, _, _ => absurd h (Nat.not_lt_zero _)
  | fuel+1, nb, io, k, hfu, hio, hst, hn => by
    have hpv : Spec.XXH3.stripesPerBlock sec = (sec.length - 64) / 8 := rfl
    obtain ⟨p, hp⟩ : ∃ p, p = Spec.XXH3.stripesPerBlock sec := ⟨_, rfl⟩
    have hp9 : 9 ≤ p := by omega
    have hr : k % p < p := Nat.mod_lt _ (by omega)
    obtain ⟨t, ht⟩ : ∃ t, t = p - k % p := ⟨_, rfl⟩
    have hend := accStripes_block_end (sec := sec) (data := data) (msg := msg) (io := io) (k := k) (n := t)
      (fun j hj => hst j (by rw [← hp] at hn; omega)) (by rw [← hp]; omega) (by omega)
    have hmod : (k + t) % p = 0 := mod_add_eq (by omega)
    rw [← hp] at hn hend ⊢
    rw [← ht] at hn ⊢
    unfold Model.XXH3.consumeBlocks
    rw [ha hb hs h0 (by omega) (by omega)]
    simp only [Option.bind_eq_bind, Option.bind_some]
    rw [hf hs h0 (by omega), hend, Option.bind_some]
    split
    · rename_i hge
      obtain ⟨m, h1, h2, h3, h4⟩ := consumeBlocks_eq fuel (nb - t) (io + 64 * t) (k + t) (by omega)
        (by omega) hst.drop (by rw [← hp, hmod]; omega)
      rw [← hp] at h2 h3 h4
      rw [hmod, Nat.zero_mul, Nat.sub_zero] at h4
      refine ⟨t + m, by omega, by omega, by rw [← Nat.add_assoc]; exact h3, ?_⟩
      rw [Nat.mul_comm t 64, h4]
      rw [Nat.add_assoc k, Nat.add_assoc io, ← Nat.mul_add, Nat.sub_sub]
    · rename_i hlt
      refine ⟨t, hn, by omega, hmod, ?_⟩
      rw [Nat.mul_comm t 64]
      rfl

theorem consumeStripes_eq {nb io k : Nat} (hio : io + 64 * nb ≤ data.length)
    (hst : SameStripes data io msg k nb) :
    Model.XXH3.consumeStripes accAddr (accAfter sec msg k) (k % Spec.XXH3.stripesPerBlock sec)
        (Spec.XXH3.stripesPerBlock sec) b io nb s (sec.length - 64) facc fscr =
      some (accAfter sec msg (k + nb), (k + nb) % Spec.XXH3.stripesPerBlock sec, io + 64 * nb) := by
  have hpv : Spec.XXH3.stripesPerBlock sec = (sec.length - 64) / 8 := rfl
  have hblocks := consumeBlocks_eq ha hf hb hs hl h0 (msg := msg) (nb + 1) nb io k (by omega) hio hst
  have hwithin := @accStripes_within sec data msg
  obtain ⟨p, hp⟩ : ∃ p, p = Spec.XXH3.stripesPerBlock sec := ⟨_, rfl⟩
  have hp9 : 9 ≤ p := by omega
  have hr : k % p < p := Nat.mod_lt _ (by omega)
  rw [← hp] at hblocks hwithin hpv ⊢
  unfold Model.XXH3.consumeStripes
  rw [show decide (k % p ≤ p) = true from decide_eq_true (by omega), assert_true]
  simp only [Option.bind_eq_bind, Option.bind_some]
  by_cases hge : p - k % p ≤ nb
  · obtain ⟨m, h1, h2, h3, h4⟩ := hblocks hge
    rw [if_pos hge, h4]
    simp only [Option.bind_some, Option.pure_def]
    by_cases hz : 0 < nb - m
    · rw [if_pos hz]
      have hw := hwithin (io := io + 64 * m) (k := k + m) (n := nb - m) hst.drop (by rw [h3]; omega)
      rw [h3, Nat.zero_mul] at hw
      rw [ha hb hs h0 (by omega) (by omega), Option.bind_some, hw]
      have e := mod_add_lt (k := k + m) (n := nb - m) (p := p) (by rw [h3]; omega)
      rw [h3, Nat.zero_add, show k + m + (nb - m) = k + nb by omega] at e
      rw [show k + m + (nb - m) = k + nb by omega, e, Nat.zero_add,
        show io + 64 * m + (nb - m) * 64 = io + 64 * nb by omega]
    · rw [if_neg hz]
      have : m = nb := by omega
      subst this
      rw [h3]
  · rw [if_neg hge]
    simp only [Option.bind_some, Option.pure_def]
    by_cases hz : 0 < nb
    · rw [if_pos hz]
      have hw := hwithin (io := io) (k := k) (n := nb) hst (by omega)
      rw [ha hb hs h0 (by omega) (by omega), Option.bind_some, hw,
        mod_add_lt (k := k) (n := nb) (p := p) (by omega), Nat.mul_comm nb 64]
    · rw [if_neg hz]
      have : nb = 0 := by omega
      subst this
      rfl

end

end XXH3P
end XXH
