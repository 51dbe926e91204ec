import Verif.Props.CollideTerms
import Verif.Proof.Bytes
/-!
The samples of the generation `SLAB5` are all different.
-/
namespace XXH.Proof.Collide
open XXH.Model XXH.Model.Collide XXH.CollideTerms
open Bench (Run)

/-- How often slab `j` has been changed after `t` changes. -/
def turns (nb j t : ℕ) : ℕ := (t + (nb - 1 - j)) / nb

theorem turns_succ {nb j t : ℕ} (hj : j < nb) : turns nb j (t + 1) = turns nb j t + if t % nb = j then 1 else 0 := by
  unfold turns
  rw [show t + 1 + (nb - 1 - j) = t + (nb - 1 - j) + 1 by omega, Nat.succ_div]
  congr 1
  have hiff : nb ∣ t + (nb - 1 - j) + 1 ↔ t % nb = j := by
    rw [show t + (nb - 1 - j) + 1 = t + (nb - j) by omega]
    have ht := Nat.div_add_mod t nb
    have hm := Nat.mod_lt t (by omega : 0 < nb)
    generalize t % nb = r at *
    generalize t / nb = q at *
    constructor
    · intro h
      have h2 : nb ∣ r + (nb - j) := by
        have : t + (nb - j) = nb * q + (r + (nb - j)) := by omega
        rw [this] at h
        exact (Nat.dvd_add_right (Dvd.intro _ rfl)).1 h
      obtain ⟨k, hk⟩ := h2
      have : k = 1 := by
        have h1 : 0 < k := by
          rcases Nat.eq_zero_or_pos k with h | h
          · subst h; omega
          · exact h
        have h2 : k < 2 := by
          by_contra hc
          have : nb * 2 ≤ nb * k := Nat.mul_le_mul_left _ (by omega)
          omega
        omega
      subst this
      omega
    · rintro rfl
      exact ⟨q + 1, by rw [Nat.mul_add]; omega⟩
  simp only [hiff]

/-- Two different times up to the number of all states are told apart by some slab. -/
theorem turns_inj {nb s s' : ℕ} (hnb : 0 < nb) (h1 : 1 ≤ s) (hlt : s < s') (hmax : s' ≤ nb * 2^32) :
    ∃ j < nb, turns nb j s % 2^32 ≠ turns nb j s' % 2^32 := by
  by_cases hd : s' - s < nb
  · refine ⟨s % nb, Nat.mod_lt _ hnb, ?_⟩
    have hs := Nat.div_add_mod s nb
    have hm := Nat.mod_lt s hnb
    have e1 : turns nb (s % nb) s = s / nb := by
      unfold turns
      generalize s % nb = r at *
      generalize s / nb = q at *
      rw [show s + (nb - 1 - r) = (nb - 1) + nb * q by omega, Nat.add_mul_div_left _ _ hnb,
        Nat.div_eq_of_lt (by omega)]
      omega
    have e2 : turns nb (s % nb) s' = s / nb + 1 := by
      unfold turns
      generalize s % nb = r at *
      generalize s / nb = q at *
      rw [show s' + (nb - 1 - r) = (s' - s - 1) + nb * (q + 1) by rw [Nat.mul_add]; omega, Nat.add_mul_div_left _ _ hnb,
        Nat.div_eq_of_lt (by omega)]
      omega
    omega
  · refine ⟨(s - 1) % nb, Nat.mod_lt _ hnb, ?_⟩
    have hs := Nat.div_add_mod (s - 1) nb
    have hm := Nat.mod_lt (s - 1) hnb
    have e1 : turns nb ((s - 1) % nb) s = (s - 1) / nb + 1 := by
      unfold turns
      generalize (s - 1) % nb = r at *
      generalize (s - 1) / nb = q at *
      rw [show s + (nb - 1 - r) = 0 + nb * (q + 1) by rw [Nat.mul_add]; omega, Nat.add_mul_div_left _ _ hnb]
      simp
    have e2 : turns nb ((s - 1) % nb) s' = (s - 1) / nb + 1 + (s' - s) / nb := by
      unfold turns
      generalize (s - 1) % nb = r at *
      generalize (s - 1) / nb = q at *
      rw [show s' + (nb - 1 - r) = (s' - s) + nb * (q + 1) by rw [Nat.mul_add]; omega, Nat.add_mul_div_left _ _ hnb]
      omega
    have h3 : 1 ≤ (s' - s) / nb := (Nat.le_div_iff_mul_le hnb).2 (by omega)
    have h4 : (s' - s) / nb < 2^32 := (Nat.div_lt_iff_lt_mul hnb).2 (by rw [Nat.mul_comm]; omega)
    omega

/-- The number in slab `j`. -/
def slabVal (cfg : Cfg) (b : List Byte) (j : ℕ) : W32 := native cfg 32 ((b.drop (j * 5 + 1)).take 4)

theorem native_nativeBytes (cfg : Cfg) (x : W32) : native cfg 32 (nativeBytes cfg 4 x) = x := by
  rw [native32]
  unfold nativeBytes
  simp only [nativeBytes_le]
  split
  · exact u32_leBytes x
  · rw [List.reverse_reverse]
    exact u32_leBytes x

theorem nativeBytes_length (cfg : Cfg) (x : W32) : (nativeBytes cfg 4 x).length = 4 := by
  unfold nativeBytes
  simp only
  split <;> simp

theorem updateSlab_ok {cfg : Cfg} {size : ℕ} {f : Slab} (hnb : 0 < size / 5) (hl : f.buffer.length = size) :
    ∃ b, updateSlab cfg size f = some ⟨b, f.hnb + 1⟩ ∧ b.length = size ∧
      ∀ j < size / 5, slabVal cfg b j = slabVal cfg f.buffer j +
        if f.hnb.toNat % (size / 5) = j then 374761393 else 0 := by
  have hm := Nat.mod_lt f.hnb.toNat hnb
  have hsz := Nat.div_mul_le_self size 5
  have hu : updateSlab cfg size f = (do
      assert (decide (size / 5 ≠ 0))
      let bs ← readBytes ⟨0, f.buffer⟩ (f.hnb.toNat % (size / 5) * 5 + 1) 4
      let buffer ← writeBytes f.buffer (f.hnb.toNat % (size / 5) * 5 + 1) (nativeBytes cfg 4 (native cfg 32 bs + 374761393))
      return ⟨buffer, f.hnb + 1⟩) := rfl
  rw [hu, show assert (decide (size / 5 ≠ 0)) = some () from if_pos (by simpa using (by omega))]
  simp only [Option.bind_eq_bind, Option.bind_some]
  generalize f.hnb.toNat % (size / 5) = k at *
  have hk : k * 5 + 5 ≤ size := by
    have : (k + 1) * 5 ≤ size / 5 * 5 := Nat.mul_le_mul_right _ (by omega)
    omega
  rw [readBytes, if_pos (by show k * 5 + 1 + 4 ≤ f.buffer.length; omega), Option.bind_some]
  have hlen := nativeBytes_length cfg (native cfg 32 ((f.buffer.drop (k * 5 + 1)).take 4) + 374761393)
  rw [writeBytes, if_pos (by rw [hlen]; omega), Option.bind_some]
  refine ⟨_, rfl, ?_, ?_⟩
  · simp only [List.length_append, List.length_take, List.length_drop, hlen]
    omega
  · intro j hj
    have hj5 : j * 5 + 5 ≤ size := by
      have : (j + 1) * 5 ≤ size / 5 * 5 := Nat.mul_le_mul_right _ (by omega)
      omega
    unfold slabVal
    have hnn := native_nativeBytes cfg (native cfg 32 ((f.buffer.drop (k * 5 + 1)).take 4) + 374761393)
    generalize nativeBytes cfg 4 (native cfg 32 ((f.buffer.drop (k * 5 + 1)).take 4) + 374761393) = w at *
    rw [hlen]
    by_cases hkj : k = j
    · subst hkj
      rw [if_pos rfl, ← hnn]
      congr 1
      rw [List.append_assoc, List.drop_append_of_le_length (by simp; omega), List.drop_take, Nat.sub_self, List.take_zero,
        List.nil_append, List.take_append_of_le_length (by omega), List.take_of_length_le (by omega)]
    · rw [if_neg hkj]
      show _ = _ + 0#32
      rw [BitVec.add_zero]
      congr 1
      apply List.ext_getElem?
      intro i
      simp only [List.getElem?_take, List.getElem?_drop]
      by_cases hi : i < 4
      · rw [if_pos hi, if_pos hi]
        rcases Nat.lt_or_gt_of_ne hkj with h | h
        · rw [List.getElem?_append_right (by simp; omega), List.getElem?_drop]
          congr 1
          simp
          omega
        · rw [List.getElem?_append_left (by simp; omega), List.getElem?_append_left (by simp; omega),
            List.getElem?_take, if_pos (by omega)]
      · rw [if_neg hi, if_neg hi]

/-- The samples are those of the times after `t`. -/
theorem slabSamples_ok {cfg : Cfg} {size : ℕ} (hnb : 0 < size / 5) (v : ℕ → W32) (n t : ℕ) (ht : t + n < 2^64) (f : Slab)
    (hl : f.buffer.length = size) (hh : f.hnb.toNat = t)
    (hv : ∀ j < size / 5, slabVal cfg f.buffer j = v j + BitVec.ofNat 32 (turns (size / 5) j t) * 374761393) :
    ∃ l, slabSamples cfg size n f = some l ∧
      List.Forall₂ (fun s m => m.length = size ∧ ∀ j < size / 5, slabVal cfg m j =
        v j + BitVec.ofNat 32 (turns (size / 5) j s) * 374761393) (List.range' (t + 1) n) l := by
  induction n generalizing t f with
  | zero => exact ⟨[], rfl, by simp⟩
  | succ n ih =>
    obtain ⟨b, hu, hbl, hb⟩ := updateSlab_ok (cfg := cfg) hnb hl
    have hv' : ∀ j < size / 5, slabVal cfg b j = v j + BitVec.ofNat 32 (turns (size / 5) j (t + 1)) * 374761393 := by
      intro j hj
      rw [hb j hj, hv j hj, hh, turns_succ hj]
      split
      · rw [BitVec.ofNat_add, BitVec.add_mul, BitVec.add_assoc]
        rfl
      · show _ + 0#32 = _
        rw [BitVec.add_zero, Nat.add_zero]
    obtain ⟨l, hs, hf⟩ := ih (t + 1) (by omega) ⟨b, f.hnb + 1⟩ hbl (by
      rw [BitVec.toNat_add, hh]
      show (t + 1) % 2^64 = t + 1
      omega) hv'
    refine ⟨b :: l, ?_, ?_⟩
    · simp only [slabSamples, hu, Option.bind_eq_bind, Option.bind_some, hs]
      rfl
    · rw [List.range'_succ]
      exact .cons ⟨hbl, hv'⟩ hf

theorem odd_mul {a b : ℕ} (h : BitVec.ofNat 32 a * 374761393 = BitVec.ofNat 32 b * 374761393) : a % 2^32 = b % 2^32 := by
  have h2 := congrArg (fun x : W32 => (x * 2923004241).toNat) h
  simp only [BitVec.mul_assoc] at h2
  rw [show (374761393 * 2923004241 : BitVec 32) = 1 by decide] at h2
  simpa using h2

theorem forall₂_nodup {α β : Type} {R : α → β → Prop} {as : List α} {bs : List β} (h : List.Forall₂ R as bs)
    (hn : as.Nodup) (hR : ∀ s ∈ as, ∀ s' ∈ as, ∀ m, R s m → R s' m → s = s') : bs.Nodup := by
  induction h with
  | nil => exact List.nodup_nil
  | @cons a b as bs hab hrest ih =>
    obtain ⟨h1, h2⟩ := List.nodup_cons.1 hn
    refine List.nodup_cons.2 ⟨?_, ih h2 fun s hs s' hs' => hR s (by simp [hs]) s' (by simp [hs'])⟩
    intro hb
    have : ∃ a' ∈ as, R a' b := by
      clear ih hn hR h1 h2 hab
      induction hrest with
      | nil => simp at hb
      | @cons x y xs ys hxy _ ih =>
        rcases List.mem_cons.1 hb with rfl | hb
        · exact ⟨x, by simp, hxy⟩
        · obtain ⟨z, hz, hzb⟩ := ih hb
          exact ⟨z, by simp [hz], hzb⟩
    obtain ⟨a', ha', hR'⟩ := this
    have := hR a (by simp) a' (by simp [ha']) b hab hR'
    exact h1 (this ▸ ha')

theorem slab_ok {cfg : Cfg} {size : ℕ} {htotal : W64} {f : Slab} (h : initSlab size htotal = .done f) :
    ∃ l, slabSamples cfg size htotal.toNat f = some l ∧ l.length = htotal.toNat ∧ l.Nodup ∧ ∀ m ∈ l, m.length = size := by
  by_cases h0 : htotal = 0
  · subst h0
    exact ⟨[], rfl, rfl, List.nodup_nil, by simp⟩
  have hpos : 0 < htotal.toNat := by
    rcases Nat.eq_zero_or_pos htotal.toNat with h | h
    · exact absurd (BitVec.eq_of_toNat_eq (by simpa using h)) h0
    · exact h
  have hlt := htotal.isLt
  unfold initSlab at h
  have hmin : ((htotal - 1) >>> 32 + 1).toNat = (htotal.toNat - 1) / 2^32 + 1 := by
    rw [BitVec.toNat_add, BitVec.toNat_ushiftRight, Nat.shiftRight_eq_div_pow, BitVec.toNat_sub]
    show ((2^64 - 1 + htotal.toNat) % 2^64 / 2^32 + 1) % 2^64 = _
    omega
  have hmin5 : (((htotal - 1) >>> 32 + 1) * 5).toNat = ((htotal.toNat - 1) / 2^32 + 1) * 5 := by
    rw [BitVec.toNat_mul, hmin]
    show ((htotal.toNat - 1) / 2^32 + 1) * 5 % 2^64 = _
    omega
  simp only [hmin5] at h
  by_cases hs : size < ((htotal.toNat - 1) / 2^32 + 1) * 5
  · rw [if_pos hs] at h; exact absurd h (by simp)
  rw [if_neg hs] at h
  have hf := Run.done.inj h
  have hnb : (htotal.toNat - 1) / 2^32 + 1 ≤ size / 5 := (Nat.le_div_iff_mul_le (by norm_num)).2 (by omega)
  have hmax : htotal.toNat ≤ size / 5 * 2^32 := by
    have := Nat.mul_le_mul_right (2^32) hnb
    omega
  obtain ⟨l, hl, hall⟩ := slabSamples_ok (cfg := cfg) (size := size) (by omega) (slabVal cfg f.buffer) htotal.toNat 0 (by omega) f
    (by rw [← hf]; simp) (by rw [← hf]; rfl) (by
      intro j hj
      have : turns (size / 5) j 0 = 0 := by
        unfold turns
        exact Nat.div_eq_of_lt (by omega)
      rw [this]
      simp)
  refine ⟨l, hl, ?_, ?_, ?_⟩
  · rw [← hall.length_eq, List.length_range']
  · refine forall₂_nodup hall List.nodup_range' ?_
    have key : ∀ s s' m, s ∈ List.range' (0 + 1) htotal.toNat → s' ∈ List.range' (0 + 1) htotal.toNat → s < s' →
        (∀ j < size / 5, slabVal cfg m j = slabVal cfg f.buffer j + BitVec.ofNat 32 (turns (size / 5) j s) * 374761393) →
        (∀ j < size / 5, slabVal cfg m j = slabVal cfg f.buffer j + BitVec.ofNat 32 (turns (size / 5) j s') * 374761393) →
        False := by
      intro s s' m hs hs' hlt h1 h2
      rw [List.mem_range'_1] at hs hs'
      obtain ⟨j, hj, hne⟩ := turns_inj (nb := size / 5) (by omega) (by omega) hlt (by omega)
      have := (h1 j hj).symm.trans (h2 j hj)
      exact hne (odd_mul ((BitVec.add_right_inj _).1 this))
    rintro s hs s' hs' m ⟨-, h1⟩ ⟨-, h2⟩
    rcases Nat.lt_trichotomy s s' with h | h | h
    · exact (key s s' m hs hs' h h1 h2).elim
    · exact h
    · exact (key s' s m hs' hs h h2 h1).elim
  · intro m hm
    obtain ⟨i, hi, rfl⟩ := List.getElem_of_mem hm
    exact (List.Forall₂.get hall (by rw [hall.length_eq]; exact hi) hi).1

end XXH.Proof.Collide
