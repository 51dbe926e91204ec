import Verif.Model.SecretOverlap
import Verif.Proof.Generate
/-!
Lemmas on `XXH3_generateSecret` with overlapping buffers.
-/
namespace XXH.Proof.SecretOverlapP
open Model Spec XXH3P
open Model.SecretOverlap (memcpy)

/-- The bytes from `off` on replaced. -/
def put (obj : List Byte) (off : Nat) (bs : List Byte) : List Byte := obj.take off ++ bs ++ obj.drop (off + bs.length)

theorem put_length {obj bs : List Byte} {off : Nat} (h : off + bs.length ≤ obj.length) : (put obj off bs).length = obj.length := by
  simp only [put, List.length_append, List.length_take, List.length_drop]; omega

theorem put_getD (obj bs : List Byte) (off k : Nat) (h : off + bs.length ≤ obj.length) :
    (put obj off bs).getD k 0 = if off ≤ k ∧ k < off + bs.length then bs.getD (k - off) 0 else obj.getD k 0 := splice_getD obj bs off k h

theorem memcpy_eq {obj : List Byte} {dst src n : Nat} (hd : dst + n ≤ obj.length) (hs : src + n ≤ obj.length)
    (ho : dst + n ≤ src ∨ src + n ≤ dst) : memcpy obj dst src n = some (put obj dst (slice obj src (src + n))) := by
  have hl : (slice obj src (src + n)).length = n := by rw [slice_length hs]; omega
  unfold memcpy assert
  rw [if_pos (by simpa using ho), readBytes_eq (b := ⟨0, obj⟩) hs]
  simp only [Option.bind_eq_bind, Option.bind_some]
  rw [writeBytes_eq (by rw [hl]; exact hd)]
  rfl

theorem memcpy_overlap {obj : List Byte} {dst src n : Nat} (ho : ¬ (dst + n ≤ src ∨ src + n ≤ dst)) : memcpy obj dst src n = none := by
  unfold memcpy assert
  rw [if_neg (by simpa using ho)]
  rfl

/-- Without overlap of what is copied, the loop writes the seed again and again. -/
theorem fill_some {s size q n : Nat} (h0 : 0 < n) {obj0 : List Byte} (hs : s + size ≤ obj0.length) (hq : q + n ≤ obj0.length)
    (hd : q + min n size ≤ s ∨ s + size ≤ q) :
    ∀ (fuel pos : Nat) (obj : List Byte), size - pos < fuel → pos ≤ size → (n ∣ pos ∨ pos = size) → obj.length = obj0.length →
      (∀ k, obj.getD k 0 = if s ≤ k ∧ k < s + pos then obj0.getD (q + (k - s) % n) 0 else obj0.getD k 0) →
      ∃ obj', SecretOverlap.fillLoop s size q n fuel pos obj = some obj' ∧ obj'.length = obj0.length ∧
        ∀ k, obj'.getD k 0 = if s ≤ k ∧ k < s + size then obj0.getD (q + (k - s) % n) 0 else obj0.getD k 0
  | 0, _, _, hf, _, _, _, _ => absurd hf (Nat.not_lt_zero _)
  | fuel+1, pos, obj, hf, hp, hdv, hl, hk => by
    unfold SecretOverlap.fillLoop
    by_cases hlt : pos < size
    · rw [if_pos hlt]
      have hdv' : n ∣ pos := by rcases hdv with h | h <;> [exact h; omega]
      generalize ht : min (size - pos) n = t
      have ht1 : t ≤ n := by omega
      have ht2 : pos + t ≤ size := by omega
      have ht3 : 0 < t := by omega
      have ht4 : t ≤ min n size := by omega
      have hsl : (slice obj q (q + t)).length = t := by rw [slice_length (by omega)]; omega
      simp only [Option.bind_eq_bind]
      rw [memcpy_eq (by omega) (by omega) (by omega), Option.bind_some]
      refine fill_some h0 hs hq hd fuel (pos + t) _ (by omega) ht2 ?_ ?_ fun k => ?_
      · by_cases hn' : t = n
        · exact .inl (by rw [hn']; exact (Nat.dvd_add_right hdv').mpr (Nat.dvd_refl n))
        · exact .inr (by omega)
      · rw [put_length (by rw [hsl]; omega)]; exact hl
      · rw [put_getD _ _ _ _ (by rw [hsl]; omega), hsl]
        by_cases hin : s + pos ≤ k ∧ k < s + pos + t
        · rw [if_pos hin, if_pos (by omega), slice_getD _ _ _ _ (by omega), hk, if_neg (by omega)]
          obtain ⟨c, hc⟩ := hdv'
          have : (k - s) % n = k - (s + pos) := by
            have e : k - s = (k - (s + pos)) + n * c := by omega
            rw [e, Nat.add_mul_mod_self_left, Nat.mod_eq_of_lt (by omega)]
          rw [this]
        · rw [if_neg hin, hk]
          by_cases h1 : s ≤ k ∧ k < s + pos
          · rw [if_pos h1, if_pos (by omega)]
          · rw [if_neg h1, if_neg (by omega)]
    · rw [if_neg hlt]
      have : pos = size := by omega
      subst this
      exact ⟨obj, rfl, hl, hk⟩

/-- With overlap some copy is undefined. -/
theorem fill_none {s size q n : Nat} (h0 : 0 < n) :
    ∀ (fuel pos : Nat) (obj : List Byte), pos < size → s + pos < q + min n (size - pos) → q < s + size →
      SecretOverlap.fillLoop s size q n fuel pos obj = none
  | 0, _, _, _, _, _ => rfl
  | fuel+1, pos, obj, hlt, h1, h2 => by
    unfold SecretOverlap.fillLoop
    rw [if_pos hlt]
    generalize ht : min (size - pos) n = t
    simp only [Option.bind_eq_bind]
    by_cases ho : s + pos + t ≤ q ∨ q + t ≤ s + pos
    · cases hm : memcpy obj (s + pos) q t with
      | none => rfl
      | some obj' =>
        rw [Option.bind_some]
        exact fill_none h0 fuel (pos + t) obj' (by omega) (by omega) h2
    · rw [memcpy_overlap ho]; rfl

/-- What the hash is taken of: the seed after the buffer was filled. -/
theorem generate_some {cfg : Cfg} (hc : cfg.Valid) {addr s size q n : Nat} {obj obj' : List Byte} (h136 : 136 ≤ size) (h0 : 0 < n)
    (hs : s + size ≤ obj.length) (hq : q + n ≤ obj.length) (hd : q + min n size ≤ s ∨ s + size ≤ q)
    (hl : obj'.length = obj.length)
    (hk : ∀ k, obj'.getD k 0 = if s ≤ k ∧ k < s + size then obj.getD (q + (k - s) % n) 0 else obj.getD k 0) :
    SecretOverlap.generateSecret cfg addr obj s size q n =
      some (.ok, put obj s (Spec.XXH3.generated size (slice obj' q (q + n)))) := by
  obtain ⟨o, f1, f2, f3⟩ := fill_some h0 hs hq hd (size + 1) 0 obj (by omega) (by omega) (.inl (Nat.dvd_zero _)) rfl
    (fun k => by rw [if_neg (by omega)])
  have ho : o = obj' := list_ext_getD (f2.trans hl.symm) fun k _ => by rw [f3, hk]
  subst ho
  unfold SecretOverlap.generateSecret
  rw [if_neg (show ¬ size < Model.XXH3.SECRET_SIZE_MIN from Nat.not_lt.mpr h136), if_neg (by omega)]
  simp only [Option.bind_eq_bind]
  rw [f1, Option.bind_some, readBytes_eq (b := ⟨addr, o⟩) (by simp only; omega), readBytes_eq (b := ⟨addr, o⟩) (by simp only; omega)]
  have hsl : (slice o q (q + n)).length = n := by rw [slice_length (by omega)]; omega
  have hsb : (slice o s (s + size)).length = size := by rw [slice_length (by omega)]; omega
  -- the same with two objects
  have core := generate_core hc (Holds.self ⟨addr + q, slice o q (q + n)⟩) (by simp only [hsl]; exact h0) h136 (addr := addr + s)
    (buf := slice o s (s + size)) (by rw [hsb])
  obtain ⟨b1, e1, e2, e3, -⟩ := fillLoop_spec (size := size) (Holds.self ⟨addr + q, slice o q (q + n)⟩) rfl (by simp only [hsl]; exact h0)
    (size + 1) 0 (slice o s (s + size)) (by omega) (by omega) (by rw [hsb]) (.inl (Nat.dvd_zero _)) (fun k hk => absurd hk (Nat.not_lt_zero _))
  have hb1 : b1 = slice o s (s + size) := list_ext_getD e2 fun k hk' => by
    rw [e2, hsb] at hk'
    have hm : k % n < n := Nat.mod_lt _ h0
    have hm' : k % n ≤ k := Nat.mod_le _ _
    have a1 := e3 k hk'
    simp only [hsl] at a1
    rw [a1, slice_getD o q (q + n) (k % n) (by omega), slice_getD o s (s + size) k (by omega), f3 (q + k % n), f3 (s + k),
      if_neg (by omega), if_pos (by omega), Nat.add_sub_cancel_left]
  rw [e1, hb1] at core
  simp only [hsl, Option.bind_eq_bind, Option.bind_some] at core ⊢
  have hgl := generated_length size (slice o q (q + n))
  rw [List.drop_eq_nil_of_le (by rw [hsb]), List.append_nil] at core
  cases hx : Model.XXH3.XXH128 cfg (some ⟨addr + q, slice o q (q + n)⟩) n 0 with
  | none => rw [hx] at core; cases core
  | some h =>
    rw [hx] at core
    simp only [Option.bind_some] at core ⊢
    cases hy : Model.XXH3.segmentLoop cfg (addr + s) (Model.XXH3.XXH128_canonicalFromHash cfg h) (size / 16) (slice o s (s + size)) with
    | none => rw [hy] at core; cases core
    | some b2 =>
      rw [hy] at core
      simp only [Option.bind_some] at core ⊢
      cases hz : Model.XXH3.XXH128_hashFromCanonical cfg ⟨cfg.tmpAddr, Model.XXH3.XXH128_canonicalFromHash cfg h⟩ with
      | none => rw [hz] at core; cases core
      | some l =>
        rw [hz] at core
        simp only [Option.bind_some] at core ⊢
        cases hw : Model.XXH3.combine16 cfg (addr + s) b2 (size - 16) l with
        | none => rw [hw] at core; cases core
        | some b3 =>
          rw [hw] at core
          simp only [Option.bind_some, Option.pure_def, Option.some.injEq, Prod.mk.injEq, true_and] at core ⊢
          subst core
          rw [writeBytes_eq (by rw [hgl]; omega)]
          simp only [Option.bind_some, Option.some.injEq, Prod.mk.injEq, true_and]
          have hp : s + (Spec.XXH3.generated size (slice o q (q + n))).length ≤ obj.length := by rw [hgl]; exact hs
          have hp' : s + (Spec.XXH3.generated size (slice o q (q + n))).length ≤ o.length := by rw [f2]; exact hp
          refine list_ext_getD (xs := put o s _) (ys := put obj s _) (by rw [put_length hp', put_length hp, f2]) fun k _ => ?_
          rw [put_getD _ _ _ _ hp', put_getD _ _ _ _ hp, hgl]
          split
          · rfl
          · rename_i hout
            rw [f3, if_neg hout]

theorem generate_none (cfg : Cfg) {addr s size q n : Nat} (obj : List Byte) (h136 : 136 ≤ size) (h0 : 0 < n)
    (h1 : s < q + min n size) (h2 : q < s + size) : SecretOverlap.generateSecret cfg addr obj s size q n = none := by
  unfold SecretOverlap.generateSecret
  rw [if_neg (show ¬ size < Model.XXH3.SECRET_SIZE_MIN from Nat.not_lt.mpr h136), if_neg (by omega)]
  simp only [Option.bind_eq_bind]
  rw [fill_none h0 (size + 1) 0 obj (by omega) (by omega) h2]
  rfl

end XXH.Proof.SecretOverlapP
