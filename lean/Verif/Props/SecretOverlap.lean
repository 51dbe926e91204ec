import Verif.Proof.SecretOverlap
import Verif.Props.Secret
/-!
**C64.** `XXH3_generateSecret` with a custom seed and a buffer in one object: exactly when it is defined, and what it gives.
The header says nothing about overlap here (xxhash.h:1825-1883). For `copyState` it requires that the states do not overlap
(xxhash.h:685, 960, 1236), and this is exactly what is needed.
-/
namespace XXH.Props
open XXH.Model XXH.Examples Proof.SecretOverlapP
open Model.SecretOverlap (generateSecret)
open Spec (slice)

/-- **C64.** The call is defined if and only if the bytes of the seed that are copied, which are the first `secretSize` at most, are
apart from the buffer. -/
theorem C64_defined {cfg : Cfg} (hc : cfg.Valid) (addr : Nat) {obj : List Byte} {s size q n : Nat} (h136 : 136 ≤ size) (h0 : 0 < n)
    (hs : s + size ≤ obj.length) (hq : q + n ≤ obj.length) :
    generateSecret cfg addr obj s size q n ≠ none ↔ q + min n size ≤ s ∨ s + size ≤ q := by
  constructor
  · intro h
    by_contra hd
    exact h (generate_none cfg obj h136 h0 (by omega) (by omega))
  · intro hd
    obtain ⟨o, -, hl, hk⟩ := fill_some h0 hs hq hd (size + 1) 0 obj (by omega) (by omega) (.inl (Nat.dvd_zero _)) rfl
      (fun k => by rw [if_neg (by omega)])
    rw [generate_some hc h136 h0 hs hq hd hl hk]
    exact Option.some_ne_none _

/-- **C64.** A custom seed apart from the buffer: the secret of C21, and the rest of the object, thus the seed, stays. -/
theorem C64_apart {cfg : Cfg} (hc : cfg.Valid) (addr : Nat) {obj : List Byte} {s size q n : Nat} (h136 : 136 ≤ size) (h0 : 0 < n)
    (hs : s + size ≤ obj.length) (hq : q + n ≤ obj.length) (hd : q + n ≤ s ∨ s + size ≤ q) :
    generateSecret cfg addr obj s size q n =
      some (.ok, obj.take s ++ Spec.XXH3.generateSecret size ((obj.drop q).take n) ++ obj.drop (s + size)) := by
  obtain ⟨o, -, hl, hk⟩ := fill_some h0 hs hq (by omega) (size + 1) 0 obj (by omega) (by omega) (.inl (Nat.dvd_zero _)) rfl
    (fun k => by rw [if_neg (by omega)])
  have hsl : (slice o q (q + n)).length = n := by rw [slice_length (by omega)]; omega
  have hsl' : (slice obj q (q + n)).length = n := by rw [slice_length (by omega)]; omega
  have he : slice o q (q + n) = (obj.drop q).take n := by
    rw [show (obj.drop q).take n = slice obj q (q + n) by unfold slice; rw [Nat.add_sub_cancel_left]]
    refine XXH3P.list_ext_getD (hsl.trans hsl'.symm) fun k hk' => ?_
    rw [hsl] at hk'
    rw [slice_getD _ _ _ _ (by omega), slice_getD _ _ _ _ (by omega), hk, if_neg (by omega)]
  rw [generate_some hc h136 h0 hs hq (by omega) hl hk, he, put, XXH3P.generated_length]
  have hne : (obj.drop q).take n ≠ [] := by
    rw [← he]; intro h; rw [h] at hsl; simp at hsl; omega
  rw [Spec.XXH3.generateSecret, if_neg hne]

/-- **C64, a finding.** A buffer inside the custom seed, behind its first `secretSize` bytes: nothing is undefined, but the seed is
overwritten before it is hashed. The result is the secret of another seed, in which the bytes of the buffer are replaced by the first
bytes of the seed. -/
theorem C64_tail {cfg : Cfg} (hc : cfg.Valid) (addr : Nat) {obj : List Byte} {s size q n : Nat} (h136 : 136 ≤ size)
    (hs : s + size ≤ obj.length) (hq : q + n ≤ obj.length) (h1 : q + size ≤ s) (h2 : s < q + n) :
    let seed := (obj.drop q).take n
    generateSecret cfg addr obj s size q n =
      some (.ok, obj.take s ++ Spec.XXH3.generateSecret size ((seed.take (s - q) ++ seed.take size).take n ++ seed.drop (s - q + size)) ++
        obj.drop (s + size)) := by
  have h0 : 0 < n := by omega
  obtain ⟨o, -, hl, hk⟩ := fill_some h0 hs hq (by omega) (size + 1) 0 obj (by omega) (by omega) (.inl (Nat.dvd_zero _)) rfl
    (fun k => by rw [if_neg (by omega)])
  have hsl : (slice o q (q + n)).length = n := by rw [slice_length (by omega)]; omega
  intro seed
  have hseed : seed.length = n := by simp only [seed, List.length_take, List.length_drop]; omega
  have hsg : ∀ k, k < n → seed.getD k 0 = obj.getD (q + k) 0 := fun k hk' => by
    simp only [seed, List.getD_eq_getElem?_getD, List.getElem?_take_of_lt hk', List.getElem?_drop]
  clear_value seed
  have he : slice o q (q + n) = (seed.take (s - q) ++ seed.take size).take n ++ seed.drop (s - q + size) := by
    refine XXH3P.list_ext_getD ?_ fun k hk' => ?_
    · simp only [hsl, List.length_append, List.length_take, List.length_drop, hseed]; omega
    rw [hsl] at hk'
    have hla : ((seed.take (s - q) ++ seed.take size).take n).length = min n (s - q + size) := by
      simp only [List.length_append, List.length_take, hseed]; omega
    rw [slice_getD _ _ _ _ (by omega), hk]
    by_cases hin : s ≤ q + k ∧ q + k < s + size
    · rw [if_pos hin, Nat.mod_eq_of_lt (by omega), ← hsg _ (by omega)]
      simp only [List.getD_eq_getElem?_getD]
      rw [List.getElem?_append_left (by rw [hla]; omega), List.getElem?_take_of_lt hk',
        List.getElem?_append_right (by simp only [List.length_take, hseed]; omega), List.getElem?_take_of_lt (by
          simp only [List.length_take, hseed]; omega)]
      congr 2
      simp only [List.length_take, hseed]; omega
    · rw [if_neg hin, ← hsg k hk']
      simp only [List.getD_eq_getElem?_getD]
      by_cases hlt : k < s - q
      · rw [List.getElem?_append_left (by rw [hla]; omega), List.getElem?_take_of_lt hk',
          List.getElem?_append_left (by simp only [List.length_take, hseed]; omega), List.getElem?_take_of_lt hlt]
      · rw [List.getElem?_append_right (by rw [hla]; omega), hla, List.getElem?_drop]
        congr 2
        omega
  rw [generate_some hc h136 h0 hs hq (by omega) hl hk, he, put, XXH3P.generated_length]
  have hne : (seed.take (s - q) ++ seed.take size).take n ++ seed.drop (s - q + size) ≠ [] := by
    rw [← he]; intro h; rw [h] at hsl; simp at hsl; omega
  rw [Spec.XXH3.generateSecret, if_neg hne]

/-- **C64.** Scrambling a seed in place, the buffer being the custom seed itself, is never defined. -/
theorem C64_in_place (cfg : Cfg) (addr : Nat) (obj : List Byte) {s size n : Nat} (h136 : 136 ≤ size) (h0 : 0 < n) :
    generateSecret cfg addr obj s size s n = none :=
  generate_none cfg obj h136 h0 (by omega) (by omega)

/-- **C64.** A custom seed of no bytes may point anywhere, even into the buffer. -/
theorem C64_no_seed {cfg : Cfg} (hc : cfg.Valid) (addr : Nat) {obj : List Byte} {s size : Nat} (q : Nat) (h136 : 136 ≤ size)
    (hs : s + size ≤ obj.length) :
    generateSecret cfg addr obj s size q 0 =
      some (.ok, obj.take s ++ Spec.XXH3.generateSecret size [] ++ obj.drop (s + size)) := by
  have hsb : (slice obj s (s + size)).length = size := by rw [slice_length (by omega)]; omega
  have hcore := XXH3P.generate_core hc (XXH3P.kSecret_holds cfg) (by rw [XXH3P.default_length]; decide) h136 (addr := addr + s)
    (buf := slice obj s (s + size)) (by rw [hsb])
  rw [XXH3P.default_length, List.drop_eq_nil_of_le (by rw [hsb]), List.append_nil] at hcore
  have hg : Model.XXH3.generateSecret cfg (some ⟨addr + s, slice obj s (s + size)⟩) size (some (Model.XXH3.kSecret cfg)) 0 =
      some (.ok, Spec.XXH3.generateSecret size []) := by
    unfold Model.XXH3.generateSecret
    dsimp only
    rw [if_neg (show ¬ size < Model.XXH3.SECRET_SIZE_MIN from Nat.not_lt.mpr h136), if_pos rfl]
    rw [Spec.XXH3.generateSecret, if_pos rfl]
    exact hcore
  unfold Model.SecretOverlap.generateSecret
  rw [if_neg (show ¬ size < Model.XXH3.SECRET_SIZE_MIN from Nat.not_lt.mpr h136), if_pos rfl]
  simp only [Option.bind_eq_bind]
  rw [readBytes_eq (b := ⟨addr, obj⟩) hs, Option.bind_some, hg, Option.bind_some]
  simp only
  rw [writeBytes_eq (by rw [C21_generateSecret_length]; exact hs), C21_generateSecret_length]
  rfl

/-- **C64.** A buffer shorter than 136 bytes is refused before anything is touched, however the arguments overlap. -/
theorem C64_short (cfg : Cfg) (addr : Nat) (obj : List Byte) {size : Nat} (h : size < 136) (s q n : Nat) :
    generateSecret cfg addr obj s size q n = some (.error, obj) := by
  unfold Model.SecretOverlap.generateSecret
  rw [if_pos (show size < Model.XXH3.SECRET_SIZE_MIN from h)]
  rfl

example : generateSecret Examples.x64 0 [1, 2, 3] 0 135 1 2 = some (.error, [1, 2, 3]) := C64_short _ _ _ (by decide) _ _ _

/-- **C64.** With two objects next to each other this is the function of C21. -/
theorem C64_two_objects {cfg : Cfg} (hc : cfg.Valid) (addr addr' addr'' : Nat) {seed buf : List Byte} {size : Nat} (h136 : 136 ≤ size)
    (hn : seed ≠ []) (hf : Readable cfg (some ⟨addr', seed⟩) seed.length) (hb : size ≤ buf.length) :
    generateSecret cfg addr (seed ++ buf) seed.length size 0 seed.length =
      (Model.XXH3.generateSecret cfg (some ⟨addr'', buf⟩) size (some ⟨addr', seed⟩) seed.length).map fun r => (r.1, seed ++ r.2) := by
  have h0 : 0 < seed.length := List.length_pos_iff.mpr hn
  rw [C64_apart hc addr h136 h0 (by simp; omega) (by simp) (Or.inl (by omega)), C21_generateSecret_ok hc h136 hb hf]
  simp only [Option.map_some, Option.some.injEq, Prod.mk.injEq, true_and]
  rw [List.take_left, List.drop_zero, List.take_left, ← List.drop_drop, List.drop_left, List.append_assoc]
  rfl

/-- **C64.** `copyState` copies one state onto another that is apart from it; everything else, in particular copying a state onto
itself, is undefined: the documented precondition (xxhash.h:685, 960, 1236) cannot be dropped. -/
theorem C64_copyState {obj : List Byte} {dst src size : Nat} (hd : dst + size ≤ obj.length) (hs : src + size ≤ obj.length) :
    Model.SecretOverlap.copyState obj dst src size =
      if dst + size ≤ src ∨ src + size ≤ dst then some (obj.take dst ++ (obj.drop src).take size ++ obj.drop (dst + size)) else none := by
  unfold Model.SecretOverlap.copyState
  split
  · rename_i h
    rw [memcpy_eq hd hs h, put, slice_length hs, slice, Nat.add_sub_cancel_left]
  · rename_i h
    exact memcpy_overlap h

/-! ### Cases -/

/-- 300 different-looking bytes. -/
def object300 : List Byte := (List.range 300).map fun i => BitVec.ofNat 8 (7 * i + 3)

theorem object300_length : object300.length = 300 := by simp [object300]

/-- The seed in the last 100 bytes, the buffer in the first 150. -/
example : generateSecret x64 64 object300 0 150 200 100 =
    some (.ok, object300.take 0 ++ Spec.XXH3.generateSecret 150 ((object300.drop 200).take 100) ++ object300.drop (0 + 150)) :=
  C64_apart x64_valid 64 (by decide) (by decide) (by rw [object300_length]; decide) (by rw [object300_length]) (Or.inr (by decide))

/-- Only the last byte of the seed is in the buffer: undefined, unless the seed is longer than the buffer. -/
example : generateSecret be32 64 object300 99 150 0 100 = none ∧ generateSecret be32 64 object300 139 136 0 140 ≠ none :=
  ⟨by
    by_contra h
    exact absurd ((C64_defined be32_valid 64 (by decide) (by decide) (by rw [object300_length]; decide)
      (by rw [object300_length]; decide)).mp h) (by decide),
   (C64_defined be32_valid 64 (by decide) (by decide) (by rw [object300_length]; decide) (by rw [object300_length]; decide)).mpr (by decide)⟩

example : generateSecret be32 64 object300 99 150 99 1 = none := C64_in_place _ _ _ (by decide) (by decide)

example : generateSecret x64 64 object300 100 136 150 0 =
    some (.ok, object300.take 100 ++ Spec.XXH3.generateSecret 136 [] ++ object300.drop (100 + 136)) :=
  C64_no_seed x64_valid 64 150 (by decide) (by rw [object300_length]; decide)

example : Model.SecretOverlap.copyState [1, 2, 3, 4, 5] 3 1 2 = some [1, 2, 3, 2, 3] ∧ Model.SecretOverlap.copyState [1, 2, 3, 4, 5] 1 1 2 = none ∧
    Model.SecretOverlap.copyState [1, 2, 3, 4, 5] 2 1 2 = none :=
  ⟨(C64_copyState (by decide) (by decide)).trans (by decide), (C64_copyState (by decide) (by decide)).trans (by decide),
    (C64_copyState (by decide) (by decide)).trans (by decide)⟩

/-- **C64, a finding.** The witness: a seed of 140 bytes whose last byte is the first of the buffer. The secret is not the one of the
seed that was passed. -/
theorem C64_tail_differs : ∃ secret, generateSecret x64 64 object300 139 136 0 140 =
      some (.ok, object300.take 139 ++ secret ++ object300.drop (139 + 136)) ∧
    secret.length = 136 ∧ secret ≠ Spec.XXH3.generateSecret 136 (object300.take 140) :=
  ⟨_, C64_tail x64_valid 64 (by decide) (by rw [object300_length]; decide) (by rw [object300_length]; decide) (by decide) (by decide),
    C21_generateSecret_length _ _, by decide +kernel⟩

example : generateSecret x64 64 (contents abc ++ List.replicate 140 0) 3 136 0 3 =
    (Model.XXH3.generateSecret x64 (some ⟨5, List.replicate 140 0⟩) 136 (some ⟨9, contents abc⟩) 3).map fun r => (r.1, contents abc ++ r.2) :=
  C64_two_objects x64_valid 64 9 5 (seed := contents abc) (by decide) (by decide) ⟨rfl, by unfold Buf.Fits; decide⟩
    (by rw [List.length_replicate]; decide)

example : generateSecret be32 64 object300 139 136 0 140 =
    some (.ok, object300.take 139 ++ Spec.XXH3.generateSecret 136
      (((((object300.drop 0).take 140).take 139 ++ ((object300.drop 0).take 140).take 136).take 140) ++
        ((object300.drop 0).take 140).drop 275) ++ object300.drop 275) :=
  C64_tail be32_valid 64 (by decide) (by rw [object300_length]; decide) (by rw [object300_length]; decide) (by decide) (by decide)

end XXH.Props
