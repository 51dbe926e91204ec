import Verif.Model.Layout
import Verif.Proof.Bytes
import Verif.Proof.Secret
/-!
Lemmas about objects as bytes: reading back what was stored, and that other places are not touched.
-/
namespace XXH.LayoutP
open XXH.Model XXH.Model.Layout
open XXH.Spec (leNat leBytes)

theorem bytesOf_length (cfg : Cfg) (n v : Nat) : (bytesOf cfg n v).length = n := by
  unfold bytesOf nativeBytes
  simp only
  split <;> simp

theorem load_bytesOf {cfg : Cfg} {obj : List Byte} {off n v : Nat} (h : slice obj off n = bytesOf cfg n v) :
    load cfg obj off n = v % 2 ^ (8 * n) := by
  unfold load native
  rw [h]
  unfold bytesOf nativeBytes
  simp only [nativeBytes_le, ofLE_eq]
  split
  · rw [leNat_leBytes _ (Nat.le_refl _)]
    simp
  · rw [List.reverse_reverse, leNat_leBytes _ (Nat.le_refl _)]
    simp

theorem leNat_zeros (n : Nat) : leNat (List.replicate n (0 : Byte)) = 0 := by
  induction n with
  | zero => rfl
  | succ n ih => rw [List.replicate_succ, leNat, ih]; rfl

theorem load_zeros {cfg : Cfg} {obj : List Byte} {off n : Nat} (h : slice obj off n = List.replicate n 0) :
    load cfg obj off n = 0 := by
  unfold load native
  rw [h]
  rw [List.reverse_replicate, ite_self, ofLE_eq, leNat_zeros]
  simp

theorem load_congr {cfg : Cfg} {obj obj' : List Byte} {off n : Nat} (h : slice obj' off n = slice obj off n) :
    load cfg obj' off n = load cfg obj off n := by
  unfold load
  rw [h]

/-! ### Writes -/

theorem write_some {obj bs : List Byte} {off : Nat} (h : off + bs.length ≤ obj.length) :
    ∃ obj', writeBytes obj off bs = some obj' ∧ obj'.length = obj.length := by
  refine ⟨_, writeBytes_eq h, ?_⟩
  simp
  omega

theorem write_length {obj obj' bs : List Byte} {off : Nat} (h : writeBytes obj off bs = some obj') :
    obj'.length = obj.length ∧ off + bs.length ≤ obj.length := by
  unfold writeBytes at h
  split at h
  · rename_i hl
    cases h
    simp
    omega
  · cases h

theorem write_getD {obj obj' bs : List Byte} {off : Nat} (h : writeBytes obj off bs = some obj') (i : Nat) :
    obj'.getD i 0 = if off ≤ i ∧ i < off + bs.length then bs.getD (i - off) 0 else obj.getD i 0 := by
  have hl := (write_length h).2
  rw [writeBytes_eq hl] at h
  cases h
  simp only [List.getD_eq_getElem?_getD]
  rw [List.append_assoc]
  by_cases h1 : i < off
  · rw [if_neg (by omega), List.getElem?_append_left (by simp; omega), List.getElem?_take_of_lt h1]
  · rw [List.getElem?_append_right (by simp; omega)]
    have hm : min off obj.length = off := by omega
    by_cases h2 : i < off + bs.length
    · rw [if_pos (by omega), List.getElem?_append_left (by simp; omega)]
      simp [hm]
    · rw [if_neg (by omega), List.getElem?_append_right (by simp; omega)]
      rw [List.getElem?_drop]
      simp only [List.length_take, hm]
      congr 2
      omega

theorem slice_length {obj : List Byte} {off n : Nat} (h : off + n ≤ obj.length) : (slice obj off n).length = n := by
  simp [slice]; omega

theorem slice_getD {obj : List Byte} {off n i : Nat} (h : i < n) : (slice obj off n).getD i 0 = obj.getD (off + i) 0 := by
  simp only [slice, List.getD_eq_getElem?_getD, List.getElem?_take_of_lt h, List.getElem?_drop]

theorem ext_getD {a b : List Byte} (hl : a.length = b.length) (h : ∀ i, i < a.length → a.getD i 0 = b.getD i 0) : a = b := by
  apply List.ext_getElem hl
  intro i h1 h2
  have := h i h1
  simpa [List.getD_eq_getElem?_getD, h1, h2] using this

theorem slice_write_same {obj obj' bs : List Byte} {off n : Nat} (h : writeBytes obj off bs = some obj') (hn : bs.length = n) :
    slice obj' off n = bs := by
  have hl := write_length h
  have hs : (slice obj' off n).length = n := slice_length (by omega)
  refine ext_getD (by omega) fun i hi => ?_
  rw [slice_getD (by omega), write_getD h, if_pos (by omega)]
  congr 1
  omega

theorem slice_write_other {obj obj' bs : List Byte} {off o n : Nat} (h : writeBytes obj off bs = some obj')
    (hd : o + n ≤ off ∨ off + bs.length ≤ o) : slice obj' o n = slice obj o n := by
  have hl := write_length h
  refine ext_getD (by simp [slice, hl.1]) fun i hi => ?_
  have hi' : i < n := by
    have : (slice obj' o n).length ≤ n := by simp [slice]
    omega
  rw [slice_getD hi', slice_getD hi', write_getD h, if_neg (by omega)]

/-- A part of what was written. -/
theorem slice_write_part {obj obj' bs : List Byte} {off o n : Nat} (h : writeBytes obj off bs = some obj')
    (h1 : off ≤ o) (h2 : o + n ≤ off + bs.length) : slice obj' o n = slice bs (o - off) n := by
  have hl := write_length h
  refine ext_getD (by rw [slice_length (by omega), slice_length (by omega)]) fun i hi => ?_
  rw [slice_length (by omega)] at hi
  rw [slice_getD hi, slice_getD hi, write_getD h, if_pos (by omega)]
  congr 1
  omega

theorem slice_replicate {k o n : Nat} (h : o + n ≤ k) : slice (List.replicate k (0 : Byte)) o n = List.replicate n 0 := by
  refine ext_getD (by rw [slice_length (by simpa using h)]; simp) fun i hi => ?_
  rw [slice_length (by simpa using h)] at hi
  rw [slice_getD hi]
  rw [List.getD_eq_getElem?_getD, List.getD_eq_getElem?_getD, List.getElem?_replicate, List.getElem?_replicate,
    if_pos (by omega), if_pos hi]

/-! ### Sequences of stores -/

theorem store_some : ∀ (st : List (Nat × List Byte)) {obj : List Byte}, (∀ w ∈ st, w.1 + w.2.length ≤ obj.length) →
    ∃ obj', store obj st = some obj' ∧ obj'.length = obj.length
  | [], obj, _ => ⟨obj, rfl, rfl⟩
  | (off, bs) :: st, obj, h => by
    obtain ⟨o1, h1, h2⟩ := write_some (h (off, bs) List.mem_cons_self)
    obtain ⟨o2, h3, h4⟩ := store_some st (obj := o1) (fun w hw => by rw [h2]; exact h w (List.mem_cons_of_mem _ hw))
    refine ⟨o2, ?_, h4.trans h2⟩
    simp only [store, h1, Option.bind_eq_bind, Option.bind_some, h3]

theorem store_append (st1 st2 : List (Nat × List Byte)) (obj : List Byte) :
    store obj (st1 ++ st2) = (store obj st1).bind fun o => store o st2 := by
  induction st1 generalizing obj with
  | nil => rfl
  | cons w st1 ih =>
    obtain ⟨off, bs⟩ := w
    simp only [List.cons_append, store, Option.bind_eq_bind]
    cases writeBytes obj off bs with
    | none => rfl
    | some o => simp only [Option.bind_some, ih]

theorem slice_store_other {o n : Nat} : ∀ {st : List (Nat × List Byte)} {obj obj' : List Byte}, store obj st = some obj' →
    (∀ w ∈ st, o + n ≤ w.1 ∨ w.1 + w.2.length ≤ o) → slice obj' o n = slice obj o n
  | [], obj, obj', h, _ => by cases h; rfl
  | (off, bs) :: st, obj, obj', h, hd => by
    simp only [store, Option.bind_eq_bind, Option.bind_eq_some_iff] at h
    obtain ⟨o1, h1, h2⟩ := h
    rw [slice_store_other h2 (fun w hw => hd w (List.mem_cons_of_mem _ hw)),
      slice_write_other h1 (hd (off, bs) List.mem_cons_self)]

/-- What the last store that matters wrote. -/
theorem slice_store {o n : Nat} {bs : List Byte} (pre post : List (Nat × List Byte)) {obj obj' : List Byte}
    (h : store obj (pre ++ (o, bs) :: post) = some obj') (hn : bs.length = n)
    (hd : ∀ w ∈ post, o + n ≤ w.1 ∨ w.1 + w.2.length ≤ o) : slice obj' o n = bs := by
  rw [store_append, Option.bind_eq_some_iff] at h
  obtain ⟨o1, -, h⟩ := h
  simp only [store, Option.bind_eq_bind, Option.bind_eq_some_iff] at h
  obtain ⟨o2, h1, h2⟩ := h
  rw [slice_store_other h2 hd, slice_write_same h1 hn]

theorem slice_store_at {o n : Nat} {bs : List Byte} {st : List (Nat × List Byte)} (k : Nat) {obj obj' : List Byte}
    (h : store obj st = some obj') (hk : st[k]? = some (o, bs)) (hn : bs.length = n)
    (hd : ∀ w ∈ st.drop (k + 1), o + n ≤ w.1 ∨ w.1 + w.2.length ≤ o) : slice obj' o n = bs := by
  obtain ⟨hlt, hk⟩ := List.getElem?_eq_some_iff.mp hk
  have e : st = st.take k ++ (o, bs) :: st.drop (k + 1) := by
    rw [← hk, List.getElem_cons_drop, List.take_append_drop]
  rw [e] at h
  exact slice_store _ _ h hn hd

/-- What is left of an initial `memset`. -/
theorem slice_memset {off k o n : Nat} {post : List (Nat × List Byte)} {obj obj' : List Byte}
    (h : store obj ((off, List.replicate k 0) :: post) = some obj') (h1 : off ≤ o) (h2 : o + n ≤ off + k)
    (hd : ∀ w ∈ post, o + n ≤ w.1 ∨ w.1 + w.2.length ≤ o) : slice obj' o n = List.replicate n 0 := by
  simp only [store, Option.bind_eq_bind, Option.bind_eq_some_iff] at h
  obtain ⟨o2, h3, h4⟩ := h
  rw [slice_store_other h4 hd, slice_write_part h3 h1 (by simpa using h2), slice_replicate (by omega)]

/-! ### Offsets -/

theorem le_roundUp (n : Nat) {a : Nat} (h : 0 < a) : n ≤ roundUp n a := by
  unfold roundUp
  have h1 := Nat.div_add_mod (n + (a - 1)) a
  have h2 := Nat.mod_lt (n + (a - 1)) h
  rw [Nat.mul_comm] at h1
  omega

theorem roundUp_lt (n : Nat) {a : Nat} (h : 0 < a) : roundUp n a < n + a := by
  unfold roundUp
  have := Nat.div_mul_le_self (n + (a - 1)) a
  omega

theorem roundUp_mod (n a : Nat) : roundUp n a % a = 0 := by
  unfold roundUp
  exact Nat.mul_mod_left _ _

theorem roundUp_of_dvd {n a : Nat} (h : 0 < a) (hd : a ∣ n) : roundUp n a = n := by
  obtain ⟨k, rfl⟩ := hd
  unfold roundUp
  rw [Nat.mul_add_div h, Nat.div_eq_of_lt (by omega), Nat.add_zero, Nat.mul_comm]

theorem roundUp_le {n a m : Nat} (h : 0 < a) (hn : n ≤ m) (hd : a ∣ m) : roundUp n a ≤ m := by
  obtain ⟨k, rfl⟩ := hd
  unfold roundUp
  have : (n + (a - 1)) / a ≤ k := by
    rw [← Nat.lt_add_one_iff, Nat.div_lt_iff_lt_mul h, Nat.add_mul, Nat.mul_comm k a]
    omega
  calc _ ≤ k * a := Nat.mul_le_mul_right _ this
    _ = a * k := Nat.mul_comm ..

theorem dvd8 {a : Nat} (h : a ∈ [1, 2, 4, 8]) : 0 < a ∧ a ∣ 8 := by
  simp only [List.mem_cons, List.not_mem_nil, or_false] at h
  rcases h with rfl | rfl | rfl | rfl <;> decide

theorem le4 {a : Nat} (h : a ∈ [1, 2, 4]) : a ≤ 4 := by
  simp only [List.mem_cons, List.not_mem_nil, or_false] at h
  omega

theorem le8 {a : Nat} (h : a ∈ [1, 2, 4, 8]) : a ≤ 8 := by
  simp only [List.mem_cons, List.not_mem_nil, or_false] at h
  omega

theorem le16 {a : Nat} (h : a ∈ [1, 2, 4, 8, 16]) : a ≤ 16 := by
  simp only [List.mem_cons, List.not_mem_nil, or_false] at h
  omega

theorem dvd4 {a : Nat} (h : a ∈ [1, 2, 4]) : 0 < a ∧ a ∣ 4 := by
  simp only [List.mem_cons, List.not_mem_nil, or_false] at h
  rcases h with rfl | rfl | rfl <;> decide

theorem dvd16 {a : Nat} (h : a ∈ [1, 2, 4, 8, 16]) : 0 < a := by
  simp only [List.mem_cons, List.not_mem_nil, or_false] at h
  omega

/-- The offsets of the members of `XXH3_state_t`. -/
structure Offs (abi : Abi) : Prop where
  acc : offsetof abi .acc = 0
  customSecret : offsetof abi .customSecret = 64
  buffer : offsetof abi .buffer = 256
  bufferedSize : offsetof abi .bufferedSize = 512
  useSeed : offsetof abi .useSeed = 516
  nbStripesSoFar : offsetof abi .nbStripesSoFar = 520
  totalLen : 520 + abi.sizeT ≤ offsetof abi .totalLen
  nbStripesPerBlock : offsetof abi .totalLen + 8 ≤ offsetof abi .nbStripesPerBlock
  secretLimit : offsetof abi .nbStripesPerBlock + abi.sizeT ≤ offsetof abi .secretLimit
  seed : offsetof abi .secretLimit + abi.sizeT ≤ offsetof abi .seed
  reserved64 : offsetof abi .seed + 8 ≤ offsetof abi .reserved64
  extSecret : offsetof abi .reserved64 + 8 ≤ offsetof abi .extSecret
  size : offsetof abi .extSecret + abi.ptr ≤ sizeof (members3 abi)

theorem alignof_pos : ∀ ms : List Member, 0 < alignof ms
  | [] => by decide
  | m :: ms => Nat.lt_of_lt_of_le (alignof_pos ms) (by unfold alignof; simp only [List.foldr_cons]; exact Nat.le_max_right ..)

theorem offs {abi : Abi} (h : abi.Valid) : Offs abi := by
  obtain ⟨p32, d32⟩ := dvd4 h.align32
  obtain ⟨p64, d64⟩ := dvd8 h.align64
  obtain ⟨pT, dT⟩ := dvd8 h.alignT.1
  have pP := dvd16 h.alignPtr.1
  have e0 : offsetof abi .acc = 0 := by
    simp only [offsetof, members3, offsets, F3.index, List.getD_cons_zero]
    unfold Abi.align64Member
    split
    · show roundUp 0 64 = 0
      decide
    · exact roundUp_of_dvd p64 ⟨0, rfl⟩
  have e1 : offsetof abi .customSecret = roundUp (offsetof abi .acc + 64) (abi.align64Member ⟨192, 1⟩).align := by
    unfold Abi.align64Member
    cases hx : abi.xxhAlign <;>
      simp [offsetof, members3, offsets, F3.index, Abi.align64Member, Member.array, Abi.u64, hx]
  have e1 : offsetof abi .customSecret = 64 := by
    rw [e1, e0]
    unfold Abi.align64Member
    split <;> rfl
  have e2 : offsetof abi .buffer = roundUp (offsetof abi .customSecret + 192) (abi.align64Member ⟨256, 1⟩).align := by
    unfold Abi.align64Member
    cases hx : abi.xxhAlign <;>
      simp [offsetof, members3, offsets, F3.index, Abi.align64Member, Member.array, Abi.u64, hx]
  have e2 : offsetof abi .buffer = 256 := by
    rw [e2, e1]
    unfold Abi.align64Member
    split <;> rfl
  have e3 : offsetof abi .bufferedSize = roundUp (offsetof abi .buffer + 256) abi.align32 := by
    cases hx : abi.xxhAlign <;>
      simp [offsetof, members3, offsets, F3.index, Abi.align64Member, Member.array, Abi.u64, Abi.u32, hx]
  have e3 : offsetof abi .bufferedSize = 512 := by
    rw [e3, e2]
    exact roundUp_of_dvd p32 (Dvd.dvd.trans d32 (by decide))
  have e4 : offsetof abi .useSeed = roundUp (offsetof abi .bufferedSize + 4) abi.align32 := rfl
  have e4 : offsetof abi .useSeed = 516 := by
    rw [e4, e3]
    exact roundUp_of_dvd p32 (Dvd.dvd.trans d32 (by decide))
  have e5 : offsetof abi .nbStripesSoFar = roundUp (offsetof abi .useSeed + 4) abi.alignT := rfl
  have e5 : offsetof abi .nbStripesSoFar = 520 := by
    rw [e5, e4]
    exact roundUp_of_dvd pT (Dvd.dvd.trans dT (by decide))
  refine ⟨e0, e1, e2, e3, e4, e5, ?_, ?_, ?_, ?_, ?_, ?_, ?_⟩
  · rw [← e5]; exact le_roundUp (offsetof abi .nbStripesSoFar + abi.sizeT) p64
  · exact le_roundUp (offsetof abi .totalLen + 8) pT
  · exact le_roundUp (offsetof abi .nbStripesPerBlock + abi.sizeT) pT
  · exact le_roundUp (offsetof abi .secretLimit + abi.sizeT) p64
  · exact le_roundUp (offsetof abi .seed + 8) p64
  · exact le_roundUp (offsetof abi .reserved64 + 8) pP
  · exact le_roundUp (offsetof abi .extSecret + abi.ptr) (alignof_pos _)

/-! ### `XXH3_reset_internal` -/

theorem reset_internal_small {cfg : Cfg} {abi : Abi} {obj : List Byte} {seed : W64} {secret size : Nat}
    (h : size < 136) : Layout.reset_internal cfg abi obj seed secret size = none := by
  unfold Layout.reset_internal
  have : ¬ XXH3.SECRET_SIZE_MIN ≤ size := by show ¬ 136 ≤ size; omega
  simp only [Option.bind_eq_bind, assert, decide_eq_true_eq, if_neg this, Option.bind_none]
  simp

/-- The assignments of `XXH3_reset_internal`. -/
def stores (cfg : Cfg) (abi : Abi) (seed : W64) (secret size : Nat) : List (Nat × List Byte) :=
  [(offsetof abi .bufferedSize, List.replicate (offsetof abi .nbStripesPerBlock - offsetof abi .bufferedSize) 0),
      (offsetof abi .acc, bytesOf cfg 8 XXH32.PRIME32_3.toNat),
      (offsetof abi .acc + 8, bytesOf cfg 8 XXH64.PRIME64_1.toNat),
      (offsetof abi .acc + 16, bytesOf cfg 8 XXH64.PRIME64_2.toNat),
      (offsetof abi .acc + 24, bytesOf cfg 8 XXH64.PRIME64_3.toNat),
      (offsetof abi .acc + 32, bytesOf cfg 8 XXH64.PRIME64_4.toNat),
      (offsetof abi .acc + 40, bytesOf cfg 8 XXH32.PRIME32_2.toNat),
      (offsetof abi .acc + 48, bytesOf cfg 8 XXH64.PRIME64_5.toNat),
      (offsetof abi .acc + 56, bytesOf cfg 8 XXH32.PRIME32_1.toNat),
      (offsetof abi .seed, bytesOf cfg 8 seed.toNat),
      (offsetof abi .useSeed, bytesOf cfg 4 (if seed ≠ 0 then 1 else 0)),
      (offsetof abi .extSecret, bytesOf cfg abi.ptr secret),
      (offsetof abi .secretLimit, bytesOf cfg abi.sizeT (size - 64)),
      (offsetof abi .nbStripesPerBlock, bytesOf cfg abi.sizeT ((size - 64) / 8))]

theorem reset_internal_stores {cfg : Cfg} {abi : Abi} (hv : abi.Valid) {obj : List Byte} {seed : W64} {secret size : Nat}
    (h : 136 ≤ size) : Layout.reset_internal cfg abi obj seed secret size = store obj (stores cfg abi seed secret size) := by
  have ho := offs hv
  have h1 : offsetof abi .bufferedSize < offsetof abi .nbStripesPerBlock := by
    have := ho.bufferedSize; have := ho.totalLen; have := ho.nbStripesPerBlock; omega
  have h2 : XXH3.SECRET_SIZE_MIN ≤ size := h
  have e : ∀ obj o, store obj (stores cfg abi seed secret size) = o ↔
      (store obj ((stores cfg abi seed secret size).take 12)).bind
        (fun o => store o ((stores cfg abi seed secret size).drop 12)) = o := by
    intro obj o
    rw [← store_append, List.take_append_drop]
  symm
  rw [e]
  unfold Layout.reset_internal
  simp only [assert, decide_eq_true_eq, if_pos h1, if_pos h2, Option.bind_eq_bind, Option.bind_some]
  rfl

theorem reset_internal_ok {cfg : Cfg} {abi : Abi} (hv : abi.Valid) {obj : List Byte} {seed : W64} {secret size : Nat}
    (hl : obj.length = sizeof (members3 abi)) (hp : secret < 2 ^ (8 * abi.ptr)) (hz : size < 2 ^ (8 * abi.sizeT))
    (h : 136 ≤ size) (deref : Nat → Ptr) (addr : Nat) :
    ∃ obj', Layout.reset_internal cfg abi obj seed secret size = some obj' ∧ obj'.length = obj.length ∧
      slice obj' (offsetof abi .reserved64) 8 = slice obj (offsetof abi .reserved64) 8 ∧
      fields3 cfg abi deref addr obj' =
        { fields3 cfg abi deref addr obj with
          bufferedSize := 0, nbStripesSoFar := 0, totalLen := 0
          acc := XXH3.INIT_ACC, seed := seed, useSeed := decide (seed ≠ 0), extSecret := deref secret
          secretLimit := size - 64, nbStripesPerBlock := (size - 64) / 8 } := by
  rw [reset_internal_stores hv h]
  obtain ⟨o0, o1, o2, o3, o4, o5, o6, o7, o8, o9, o10, o11, o12⟩ := offs hv
  have hw : ∀ w ∈ stores cfg abi seed secret size, w.1 + w.2.length ≤ obj.length := by
    rw [hl]
    simp only [stores, List.mem_cons, List.not_mem_nil, or_false]
    rintro w (rfl | rfl | rfl | rfl | rfl | rfl | rfl | rfl | rfl | rfl | rfl | rfl | rfl | rfl) <;>
      simp only [bytesOf_length, List.length_replicate] <;> omega
  obtain ⟨obj', he, hl'⟩ := store_some _ hw
  refine ⟨obj', he, hl', ?_, ?_⟩
  · refine slice_store_other he ?_
    simp only [stores, List.mem_cons, List.not_mem_nil, or_false]
    rintro w (rfl | rfl | rfl | rfl | rfl | rfl | rfl | rfl | rfl | rfl | rfl | rfl | rfl | rfl) <;>
      simp only [bytesOf_length, List.length_replicate] <;> omega
  have hcs : slice obj' (offsetof abi .customSecret) 192 = slice obj (offsetof abi .customSecret) 192 := by
    refine slice_store_other he ?_
    simp only [stores, List.mem_cons, List.not_mem_nil, or_false]
    rintro w (rfl | rfl | rfl | rfl | rfl | rfl | rfl | rfl | rfl | rfl | rfl | rfl | rfl | rfl) <;>
      simp only [bytesOf_length, List.length_replicate] <;> omega
  have hbf : slice obj' (offsetof abi .buffer) 256 = slice obj (offsetof abi .buffer) 256 := by
    refine slice_store_other he ?_
    simp only [stores, List.mem_cons, List.not_mem_nil, or_false]
    rintro w (rfl | rfl | rfl | rfl | rfl | rfl | rfl | rfl | rfl | rfl | rfl | rfl | rfl | rfl) <;>
      simp only [bytesOf_length, List.length_replicate] <;> omega
  have hz0 : ∀ o n, 512 ≤ o → o + n ≤ offsetof abi .nbStripesPerBlock → (o + n ≤ 516 ∨ 520 ≤ o) →
      slice obj' o n = List.replicate n 0 := by
    intro o n h1 h2 h3
    refine slice_memset (off := offsetof abi .bufferedSize) he (by omega) (by omega) ?_
    simp only [List.mem_cons, List.not_mem_nil, or_false]
    rintro w (rfl | rfl | rfl | rfl | rfl | rfl | rfl | rfl | rfl | rfl | rfl | rfl | rfl) <;>
      simp only [bytesOf_length] <;> omega
  have hat : ∀ (k o n v : Nat), (stores cfg abi seed secret size)[k]? = some (o, bytesOf cfg n v) → v < 2 ^ (8 * n) →
      (∀ w ∈ (stores cfg abi seed secret size).drop (k + 1), o + n ≤ w.1 ∨ w.1 + w.2.length ≤ o) →
      load cfg obj' o n = v := by
    intro k o n v hk hv hd
    rw [load_bytesOf (slice_store_at k he hk (bytesOf_length ..) hd), Nat.mod_eq_of_lt hv]
  have hacc : ∀ i : Fin 8, load cfg obj' (offsetof abi .acc + 8 * i.val) 8 = (XXH3.INIT_ACC[i]).toNat := by
    intro i
    refine hat (i.val + 1) _ _ _ ?_ (BitVec.isLt _) ?_
    · obtain ⟨i, hi⟩ := i
      have : i = 0 ∨ i = 1 ∨ i = 2 ∨ i = 3 ∨ i = 4 ∨ i = 5 ∨ i = 6 ∨ i = 7 := by omega
      rcases this with rfl | rfl | rfl | rfl | rfl | rfl | rfl | rfl <;> rfl
    · obtain ⟨i, hi⟩ := i
      have : i = 0 ∨ i = 1 ∨ i = 2 ∨ i = 3 ∨ i = 4 ∨ i = 5 ∨ i = 6 ∨ i = 7 := by omega
      rcases this with rfl | rfl | rfl | rfl | rfl | rfl | rfl | rfl <;>
        simp only [stores, List.drop_succ_cons, List.drop_zero, List.forall_mem_cons, bytesOf_length] <;>
        simp only [List.not_mem_nil, false_implies, implies_true, and_true] <;> omega
  have hseed : load cfg obj' (offsetof abi .seed) 8 = seed.toNat := by
    refine hat 9 _ _ _ rfl seed.isLt ?_
    simp only [stores, List.drop_succ_cons, List.drop_zero, List.forall_mem_cons, bytesOf_length]
    simp only [List.not_mem_nil, false_implies, implies_true, and_true]
    omega
  have huse : load cfg obj' (offsetof abi .useSeed) 4 = if seed ≠ 0 then 1 else 0 := by
    refine hat 10 _ _ _ rfl (by split <;> decide) ?_
    simp only [stores, List.drop_succ_cons, List.drop_zero, List.forall_mem_cons, bytesOf_length]
    simp only [List.not_mem_nil, false_implies, implies_true, and_true]
    omega
  have hext : load cfg obj' (offsetof abi .extSecret) abi.ptr = secret := by
    refine hat 11 _ _ _ rfl hp ?_
    simp only [stores, List.drop_succ_cons, List.drop_zero, List.forall_mem_cons, bytesOf_length]
    simp only [List.not_mem_nil, false_implies, implies_true, and_true]
    omega
  have hlim : load cfg obj' (offsetof abi .secretLimit) abi.sizeT = size - 64 := by
    refine hat 12 _ _ _ rfl (by omega) ?_
    simp only [stores, List.drop_succ_cons, List.drop_zero, List.forall_mem_cons, bytesOf_length]
    simp only [List.not_mem_nil, false_implies, implies_true, and_true]
    omega
  have hnb : load cfg obj' (offsetof abi .nbStripesPerBlock) abi.sizeT = (size - 64) / 8 := by
    refine hat 13 _ _ _ rfl (by omega) ?_
    simp only [stores, List.drop_succ_cons, List.drop_zero]
    simp
  have hbs : load cfg obj' (offsetof abi .bufferedSize) 4 = 0 := load_zeros (hz0 _ _ (by omega) (by omega) (by omega))
  have hso : load cfg obj' (offsetof abi .nbStripesSoFar) abi.sizeT = 0 :=
    load_zeros (hz0 _ _ (by omega) (by omega) (by omega))
  have htl : load cfg obj' (offsetof abi .totalLen) 8 = 0 := load_zeros (hz0 _ _ (by omega) (by omega) (by omega))
  unfold fields3
  rw [hcs, hbf, hseed, huse, hext, hlim, hnb, hbs, hso, htl]
  simp only [hacc, BitVec.ofNat_toNat, BitVec.setWidth_eq]
  congr 1
  by_cases hs0 : seed = 0
  · subst hs0; rfl
  · rw [if_pos hs0, decide_eq_true hs0]; rfl

/-! ### The other functions on `XXH3_state_t` -/

theorem fields3_congr {cfg : Cfg} {abi : Abi} {deref : Nat → Ptr} {addr : Nat} {obj obj' : List Byte}
    (ha : ∀ i : Fin 8, slice obj' (offsetof abi .acc + 8 * i.val) 8 = slice obj (offsetof abi .acc + 8 * i.val) 8)
    (hs : ∀ f n, (f, n) ∈ [(F3.buffer, 256), (.bufferedSize, 4), (.useSeed, 4), (.nbStripesSoFar, abi.sizeT), (.totalLen, 8),
      (.nbStripesPerBlock, abi.sizeT), (.secretLimit, abi.sizeT)] → slice obj' (offsetof abi f) n = slice obj (offsetof abi f) n) :
    fields3 cfg abi deref addr obj' = { fields3 cfg abi deref addr obj with
      customSecret := slice obj' (offsetof abi .customSecret) 192
      seed := BitVec.ofNat 64 (load cfg obj' (offsetof abi .seed) 8)
      extSecret := deref (load cfg obj' (offsetof abi .extSecret) abi.ptr) } := by
  unfold fields3
  rw [hs .buffer 256 (by simp), load_congr (hs .bufferedSize 4 (by simp)), load_congr (hs .useSeed 4 (by simp)),
    load_congr (hs .nbStripesSoFar _ (by simp)), load_congr (hs .totalLen 8 (by simp)),
    load_congr (hs .nbStripesPerBlock _ (by simp)), load_congr (hs .secretLimit _ (by simp))]
  simp only [load_congr (ha _)]

theorem store_custom {cfg : Cfg} {abi : Abi} (hv : abi.Valid) {obj custom : List Byte}
    (hl : obj.length = sizeof (members3 abi)) (hc : custom.length = 192) (deref : Nat → Ptr) (addr : Nat) :
    ∃ obj', store obj [(offsetof abi .customSecret, custom)] = some obj' ∧ obj'.length = obj.length ∧
      fields3 cfg abi deref addr obj' = { fields3 cfg abi deref addr obj with customSecret := custom } := by
  obtain ⟨o0, o1, o2, o3, o4, o5, o6, o7, o8, o9, o10, o11, o12⟩ := offs hv
  obtain ⟨obj', he, hl'⟩ := store_some [(offsetof abi .customSecret, custom)] (obj := obj)
    (by simp only [List.mem_singleton, forall_eq]; omega)
  have ho : ∀ o n, (o + n ≤ 64 ∨ 256 ≤ o) → slice obj' o n = slice obj o n := fun o n h =>
    slice_store_other he (by simp only [List.mem_singleton, forall_eq]; omega)
  refine ⟨obj', he, hl', ?_⟩
  rw [fields3_congr (obj := obj) (fun i => ho _ _ (by omega)) ?_,
    load_congr (ho (offsetof abi .seed) _ (by omega)), load_congr (ho (offsetof abi .extSecret) _ (by omega)),
    slice_store_at 0 he rfl hc (by simp)]
  · rfl
  · simp only [List.mem_cons, List.not_mem_nil, or_false, Prod.mk.injEq]
    rintro f n (⟨rfl, rfl⟩ | ⟨rfl, rfl⟩ | ⟨rfl, rfl⟩ | ⟨rfl, rfl⟩ | ⟨rfl, rfl⟩ | ⟨rfl, rfl⟩ | ⟨rfl, rfl⟩) <;>
      refine ho _ _ ?_ <;> omega

theorem store_useSeed {cfg : Cfg} {abi : Abi} (hv : abi.Valid) {obj : List Byte}
    (hl : obj.length = sizeof (members3 abi)) (deref : Nat → Ptr) (addr : Nat) :
    ∃ obj', store obj [(offsetof abi .useSeed, bytesOf cfg 4 1)] = some obj' ∧ obj'.length = obj.length ∧
      fields3 cfg abi deref addr obj' = { fields3 cfg abi deref addr obj with useSeed := true } := by
  obtain ⟨o0, o1, o2, o3, o4, o5, o6, o7, o8, o9, o10, o11, o12⟩ := offs hv
  obtain ⟨obj', he, hl'⟩ := store_some [(offsetof abi .useSeed, bytesOf cfg 4 1)] (obj := obj)
    (by simp only [List.mem_singleton, forall_eq, bytesOf_length]; omega)
  have ho : ∀ o n, (o + n ≤ 516 ∨ 520 ≤ o) → slice obj' o n = slice obj o n := fun o n h =>
    slice_store_other he (by simp only [List.mem_singleton, forall_eq, bytesOf_length]; omega)
  refine ⟨obj', he, hl', ?_⟩
  unfold fields3
  rw [ho (offsetof abi .customSecret) _ (by omega), ho (offsetof abi .buffer) _ (by omega),
    load_congr (ho (offsetof abi .bufferedSize) _ (by omega)), load_congr (ho (offsetof abi .nbStripesSoFar) _ (by omega)),
    load_congr (ho (offsetof abi .totalLen) _ (by omega)), load_congr (ho (offsetof abi .nbStripesPerBlock) _ (by omega)),
    load_congr (ho (offsetof abi .secretLimit) _ (by omega)), load_congr (ho (offsetof abi .seed) _ (by omega)),
    load_congr (ho (offsetof abi .extSecret) _ (by omega)),
    load_bytesOf (slice_store_at 0 he rfl (bytesOf_length ..) (by simp))]
  have ha : ∀ i : Fin 8, load cfg obj' (offsetof abi .acc + 8 * i.val) 8 = load cfg obj (offsetof abi .acc + 8 * i.val) 8 :=
    fun i => load_congr (ho _ _ (by omega))
  simp only [ha]
  rfl

theorem initState_ok {cfg : Cfg} {abi : Abi} (hv : abi.Valid) {obj : List Byte}
    (hl : obj.length = sizeof (members3 abi)) {deref : Nat → Ptr} (h0 : deref 0 = none) (addr : Nat) :
    ∃ obj', initState cfg abi obj = some obj' ∧ obj'.length = obj.length ∧
      fields3 cfg abi deref addr obj' = XXH3.INITSTATE (fields3 cfg abi deref addr obj) := by
  obtain ⟨o0, o1, o2, o3, o4, o5, o6, o7, o8, o9, o10, o11, o12⟩ := offs hv
  unfold initState
  obtain ⟨obj', he, hl'⟩ := store_some [(offsetof abi .seed, bytesOf cfg 8 0), (offsetof abi .extSecret, bytesOf cfg abi.ptr 0)]
    (obj := obj) (by
      simp only [List.forall_mem_cons, bytesOf_length, List.not_mem_nil, false_implies, implies_true, and_true]; omega)
  have ho : ∀ o n, o + n ≤ offsetof abi .seed → slice obj' o n = slice obj o n := fun o n h =>
    slice_store_other he (by
      simp only [List.forall_mem_cons, bytesOf_length, List.not_mem_nil, false_implies, implies_true, and_true]; omega)
  refine ⟨obj', he, hl', ?_⟩
  have h1 : load cfg obj' (offsetof abi .seed) 8 = 0 := by
    rw [load_bytesOf (slice_store_at 0 he rfl (bytesOf_length ..) ?_)]
    · rfl
    · simp only [List.drop_succ_cons, List.drop_zero, List.forall_mem_cons, bytesOf_length]
      simp only [List.not_mem_nil, false_implies, implies_true, and_true]
      omega
  have h2 : load cfg obj' (offsetof abi .extSecret) abi.ptr = 0 := by
    rw [load_bytesOf (slice_store_at 1 he rfl (bytesOf_length ..) (by simp)), Nat.zero_mod]
  rw [fields3_congr (obj := obj) (fun i => ho _ _ (by omega)) ?_, ho (offsetof abi .customSecret) _ (by omega), h1, h2, h0]
  · rfl
  · simp only [List.mem_cons, List.not_mem_nil, or_false, Prod.mk.injEq]
    rintro f n (⟨rfl, rfl⟩ | ⟨rfl, rfl⟩ | ⟨rfl, rfl⟩ | ⟨rfl, rfl⟩ | ⟨rfl, rfl⟩ | ⟨rfl, rfl⟩ | ⟨rfl, rfl⟩) <;>
      refine ho _ _ ?_ <;> omega

/-! ### `XXH32_state_t` and `XXH64_state_t` -/

theorem offs32 {abi : Abi} (h : abi.Valid) : offsets 0 (members32 abi) = [0, 4, 8, 24, 40, 44] ∧ sizeof (members32 abi) = 48 := by
  have := h.align32
  simp only [List.mem_cons, List.not_mem_nil, or_false] at this
  unfold members32 Abi.u32
  rcases this with e | e | e <;> rw [e] <;> decide

theorem offs64 {abi : Abi} (h : abi.Valid) : offsets 0 (members64 abi) = [0, 8, 40, 72, 76, 80] ∧ sizeof (members64 abi) = 88 := by
  have h1 := h.align32
  have h2 := h.align64
  simp only [List.mem_cons, List.not_mem_nil, or_false] at h1 h2
  unfold members64 Abi.u32 Abi.u64
  rcases h1 with e | e | e <;> rcases h2 with e' | e' | e' | e' <;> rw [e, e'] <;> decide

theorem reset32_ok {cfg : Cfg} {abi : Abi} (hv : abi.Valid) {obj : List Byte} (seed : W32) (hl : obj.length = sizeof (members32 abi)) :
    ∃ obj', reset32 cfg abi obj seed = some obj' ∧ obj'.length = obj.length ∧ slice obj' 44 4 = List.replicate 4 0 ∧
      fields32 cfg abi obj' = { total_len_32 := 0, large_len := 0, v := XXH32.initV seed, mem32 := List.replicate 16 0, memsize := 0 } := by
  unfold reset32 fields32
  rw [(offs32 hv).1, (offs32 hv).2]
  rw [(offs32 hv).2] at hl
  simp only [List.getD_cons_zero, List.getD_cons_succ]
  obtain ⟨obj', he, hl'⟩ := store_some
    [(0, List.replicate 48 0),
      (8, bytesOf cfg 4 (seed + XXH32.PRIME32_1 + XXH32.PRIME32_2).toNat), (8 + 4, bytesOf cfg 4 (seed + XXH32.PRIME32_2).toNat),
      (8 + 8, bytesOf cfg 4 (seed + 0).toNat), (8 + 12, bytesOf cfg 4 (seed - XXH32.PRIME32_1).toNat)] (obj := obj) (by
      simp only [List.forall_mem_cons, bytesOf_length, List.not_mem_nil, false_implies, implies_true, and_true,
        List.length_replicate]; omega)
  have hz : ∀ o n, o + n ≤ 48 → (o + n ≤ 8 ∨ 24 ≤ o) → slice obj' o n = List.replicate n 0 := fun o n h1 h2 =>
    slice_memset he (by omega) (by omega) (by
      simp only [List.forall_mem_cons, bytesOf_length, List.not_mem_nil, false_implies, implies_true, and_true]; omega)
  have hat : ∀ (k o : Nat) (v : W32), o = 8 + 4 * k → k < 4 →
      ([(0, List.replicate 48 0),
        (8, bytesOf cfg 4 (seed + XXH32.PRIME32_1 + XXH32.PRIME32_2).toNat), (8 + 4, bytesOf cfg 4 (seed + XXH32.PRIME32_2).toNat),
        (8 + 8, bytesOf cfg 4 (seed + 0).toNat), (8 + 12, bytesOf cfg 4 (seed - XXH32.PRIME32_1).toNat)] : List (Nat × List Byte))[k + 1]? =
        some (o, bytesOf cfg 4 v.toNat) → BitVec.ofNat 32 (load cfg obj' o 4) = v := by
    intro k o v ho hk he'
    rw [load_bytesOf (slice_store_at (k + 1) he he' (bytesOf_length ..) ?_), Nat.mod_eq_of_lt (by exact v.isLt)]
    · simp
    · subst ho
      have : k = 0 ∨ k = 1 ∨ k = 2 ∨ k = 3 := by omega
      rcases this with rfl | rfl | rfl | rfl <;>
        simp only [List.drop_succ_cons, List.drop_zero, List.forall_mem_cons, bytesOf_length] <;> simp
  refine ⟨obj', he, hl', hz _ _ (by omega) (by omega), ?_⟩
  rw [load_zeros (hz 0 4 (by omega) (by omega)), load_zeros (hz 4 4 (by omega) (by omega)),
    load_zeros (hz 40 4 (by omega) (by omega)), hz 24 16 (by omega) (by omega),
    hat 0 8 _ rfl (by omega) rfl, hat 1 (8 + 4) _ rfl (by omega) rfl, hat 2 (8 + 8) _ rfl (by omega) rfl,
    hat 3 (8 + 12) _ rfl (by omega) rfl]
  rfl

theorem reset64_ok {cfg : Cfg} {abi : Abi} (hv : abi.Valid) {obj : List Byte} (seed : W64) (hl : obj.length = sizeof (members64 abi)) :
    ∃ obj', reset64 cfg abi obj seed = some obj' ∧ obj'.length = obj.length ∧ slice obj' 76 12 = List.replicate 12 0 ∧
      fields64 cfg abi obj' = { total_len := 0, v := XXH64.initV seed, mem64 := List.replicate 32 0, memsize := 0 } := by
  unfold reset64 fields64
  rw [(offs64 hv).1, (offs64 hv).2]
  rw [(offs64 hv).2] at hl
  simp only [List.getD_cons_zero, List.getD_cons_succ]
  obtain ⟨obj', he, hl'⟩ := store_some
    [(0, List.replicate 88 0),
      (8, bytesOf cfg 8 (seed + XXH64.PRIME64_1 + XXH64.PRIME64_2).toNat), (8 + 8, bytesOf cfg 8 (seed + XXH64.PRIME64_2).toNat),
      (8 + 16, bytesOf cfg 8 (seed + 0).toNat), (8 + 24, bytesOf cfg 8 (seed - XXH64.PRIME64_1).toNat)] (obj := obj) (by
      simp only [List.forall_mem_cons, bytesOf_length, List.not_mem_nil, false_implies, implies_true, and_true,
        List.length_replicate]; omega)
  have hz : ∀ o n, o + n ≤ 88 → (o + n ≤ 8 ∨ 40 ≤ o) → slice obj' o n = List.replicate n 0 := fun o n h1 h2 =>
    slice_memset he (by omega) (by omega) (by
      simp only [List.forall_mem_cons, bytesOf_length, List.not_mem_nil, false_implies, implies_true, and_true]; omega)
  have hat : ∀ (k o : Nat) (v : W64), o = 8 + 8 * k → k < 4 →
      ([(0, List.replicate 88 0),
        (8, bytesOf cfg 8 (seed + XXH64.PRIME64_1 + XXH64.PRIME64_2).toNat), (8 + 8, bytesOf cfg 8 (seed + XXH64.PRIME64_2).toNat),
        (8 + 16, bytesOf cfg 8 (seed + 0).toNat), (8 + 24, bytesOf cfg 8 (seed - XXH64.PRIME64_1).toNat)] : List (Nat × List Byte))[k + 1]? =
        some (o, bytesOf cfg 8 v.toNat) → BitVec.ofNat 64 (load cfg obj' o 8) = v := by
    intro k o v ho hk he'
    rw [load_bytesOf (slice_store_at (k + 1) he he' (bytesOf_length ..) ?_), Nat.mod_eq_of_lt (by exact v.isLt)]
    · simp
    · subst ho
      have : k = 0 ∨ k = 1 ∨ k = 2 ∨ k = 3 := by omega
      rcases this with rfl | rfl | rfl | rfl <;>
        simp only [List.drop_succ_cons, List.drop_zero, List.forall_mem_cons, bytesOf_length] <;> simp
  refine ⟨obj', he, hl', hz _ _ (by omega) (by omega), ?_⟩
  rw [load_zeros (hz 0 8 (by omega) (by omega)),
    load_zeros (hz 72 4 (by omega) (by omega)), hz 40 32 (by omega) (by omega),
    hat 0 8 _ rfl (by omega) rfl, hat 1 (8 + 8) _ rfl (by omega) rfl, hat 2 (8 + 16) _ rfl (by omega) rfl,
    hat 3 (8 + 24) _ rfl (by omega) rfl]
  rfl

end XXH.LayoutP
