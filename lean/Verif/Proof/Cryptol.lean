import Verif.Spec.Cryptol
import Verif.Spec.XXH32
import Verif.Spec.XXH64
import Verif.Proof.Bytes
/-!
Lemmas: the Cryptol description and the text of the specification define the same functions.
-/
namespace XXH.Proof.Cryptol
open XXH.Cryptol XXH.Spec

theorem toLE_toNat (w : Nat) : ∀ bs : List Byte, 8 * bs.length ≤ w → (toLE w bs).toNat = leNat bs := by
  intro bs
  simp only [toLE, join, List.foldl_reverse]
  induction bs with
  | nil => intro _; simp [leNat]
  | cons b bs ih =>
    intro h
    simp only [List.length_cons] at h
    have ih := ih (by omega)
    have hlt := leNat_lt bs
    have hb := b.isLt
    have hp : (256 : Nat) ^ bs.length = 2 ^ (8 * bs.length) := by rw [show (256 : Nat) = 2 ^ 8 from rfl, ← Nat.pow_mul]
    have h1 : 256 * leNat bs < 2 ^ w := by
      calc 256 * leNat bs < 256 * 256 ^ bs.length := by omega
        _ = 2 ^ (8 * bs.length + 8) := by rw [hp, Nat.pow_add]; omega
        _ ≤ 2 ^ w := Nat.pow_le_pow_right (by omega) (by omega)
    have h2 : b.toNat < 2 ^ w := lt_of_lt_of_le hb (Nat.pow_le_pow_right (by omega) (by omega))
    simp only [List.foldr_cons, BitVec.toNat_or, BitVec.toNat_shiftLeft, ih, BitVec.toNat_setWidth, leNat]
    rw [Nat.mod_eq_of_lt h2, Nat.shiftLeft_eq, Nat.mod_eq_of_lt (by omega), Nat.mul_comm (leNat bs),
      show 2 ^ 8 * leNat bs ||| b.toNat = 2 ^ 8 * leNat bs + b.toNat from (Nat.two_pow_add_eq_or_of_lt hb _).symm]
    omega

theorem toLE32 {bs : List Byte} (h : bs.length ≤ 4) : toLE 32 bs = u32 bs := by
  apply BitVec.eq_of_toNat_eq
  rw [toLE_toNat 32 bs (by omega), u32, BitVec.toNat_ofNat, Nat.mod_eq_of_lt]
  refine lt_of_lt_of_le (leNat_lt bs) ?_
  exact (Nat.pow_le_pow_right (by omega) h).trans (by norm_num)

theorem toLE64 {bs : List Byte} (h : bs.length ≤ 8) : toLE 64 bs = u64 bs := by
  apply BitVec.eq_of_toNat_eq
  rw [toLE_toNat 64 bs (by omega), u64, BitVec.toNat_ofNat, Nat.mod_eq_of_lt]
  refine lt_of_lt_of_le (leNat_lt bs) ?_
  exact (Nat.pow_le_pow_right (by omega) h).trans (by norm_num)

theorem split_eq (each : Nat) : ∀ (n : Nat) (xs : List Byte),
    split each n xs = (List.range n).map fun i => slice xs (each * i) (each * i + each)
  | 0, _ => rfl
  | n + 1, xs => by
    rw [split, split_eq each n, List.range_succ_eq_map, List.map_cons, List.map_map]
    congr 1
    · simp [slice]
    · apply List.map_congr_left
      intro i _
      simp only [Function.comp, slice, List.drop_drop, Nat.mul_succ, Nat.succ_eq_add_one]
      congr 1
      · omega
      · congr 1; ring

theorem split_take {each n : Nat} {xs : List Byte} {m : Nat} (h : each * n ≤ m) :
    split each n (xs.take m) = split each n xs := by
  rw [split_eq, split_eq]
  apply List.map_congr_left
  intro i hi
  have hi := List.mem_range.1 hi
  have : each * i + each ≤ each * n := by
    have := Nat.mul_le_mul_left each (Nat.succ_le_of_lt hi); rwa [Nat.mul_succ] at this
  simp only [slice, List.drop_take, List.take_take]
  congr 1; omega

theorem slice_len (xs : List Byte) (a b : Nat) : (slice xs a b).length ≤ b - a := by
  simp [slice]

/-! ### XXH32 -/

def list32 (a : Spec.XXH32.Accs) : List W32 := [a.acc1, a.acc2, a.acc3, a.acc4]

theorem rounds32 (a : Spec.XXH32.Accs) (s : List Byte) : XXH32_rounds (list32 a) s = list32 (Spec.XXH32.stripe a s) := by
  have h (i) : toLE 32 (slice s (4 * i) (4 * i + 4)) = word32 s i := toLE32 ((slice_len _ _ _).trans (by omega))
  simp only [XXH32_rounds, split_eq, list32, show List.range 4 = [0, 1, 2, 3] from rfl, List.map, List.zipWith, h]
  rfl

theorem stripes32 (input : List Byte) (a : Spec.XXH32.Accs) (n : Nat) :
    (split 16 n input).foldl XXH32_rounds (list32 a) = list32 (Spec.XXH32.stripes a input n) := by
  rw [split_eq, Spec.XXH32.stripes, List.foldl_map]
  generalize List.range n = l
  induction l generalizing a with
  | nil => rfl
  | cons i l ih => simp only [List.foldl_cons, rounds32, ih]

theorem remaining1_32 : ∀ (bs : List Byte) (acc : W32), bs.length < 4 →
    Spec.XXH32.remaining acc bs = bs.foldl XXH32_digest1 acc
  | [], _, _ => by simp [Spec.XXH32.remaining]
  | [_], _, _ => by simp [Spec.XXH32.remaining]; rfl
  | [_, _], _, _ => by simp [Spec.XXH32.remaining]; rfl
  | [_, _, _], _, _ => by simp [Spec.XXH32.remaining]; rfl
  | _ :: _ :: _ :: _ :: _, _, h => by simp only [List.length_cons] at h; omega

theorem remaining32 : ∀ (n : Nat) (bs : List Byte) (acc : W32), bs.length / 4 = n →
    Spec.XXH32.remaining acc bs = (bs.drop (n * 4)).foldl XXH32_digest1 ((split 4 n bs).foldl XXH32_digest4 acc)
  | 0, bs, acc, h => by
    rw [remaining1_32 bs acc (by omega)]; simp [split]
  | n + 1, bs, acc, h => by
    match bs, h with
    | [], h => simp at h
    | [_], h => simp at h
    | [_, _], h => simp at h
    | [_, _, _], h => simp at h
    | b0 :: b1 :: b2 :: b3 :: rest, h =>
      have hr : rest.length / 4 = n := by simp only [List.length_cons] at h; omega
      rw [Spec.XXH32.remaining, remaining32 n rest _ hr, split, List.foldl_cons,
        show (n + 1) * 4 = n * 4 + 1 + 1 + 1 + 1 by ring]
      simp only [List.drop_succ_cons, List.drop_zero, List.take_succ_cons, List.take_zero]
      rw [show XXH32_digest4 acc [b0, b1, b2, b3] = _ from by rw [XXH32_digest4, toLE32 (by simp)]]
      rfl

theorem XXH32_eq (input : List Byte) (seed : W32) : XXH32 input seed = Spec.XXH32.hash input seed := by
  have hd : (input.drop (input.length / 16 * 16)).length / 4 = input.length % 16 / 4 := by
    rw [List.length_drop]; omega
  simp only [XXH32, Spec.XXH32.hash]
  rw [remaining32 _ _ _ hd, split_take (by omega), split_take (by omega),
    show XXH32_init seed = list32 (Spec.XXH32.init seed) from rfl, stripes32, BitVec.add_comm (BitVec.ofNat 32 _)]
  have : BitVec.ofNat 32 (input.length % 2 ^ 32) = BitVec.ofNat 32 input.length := by
    apply BitVec.eq_of_toNat_eq; simp
  rw [this]
  rfl

/-! ### XXH64 -/

def list64 (a : Spec.XXH64.Accs) : List W64 := [a.acc1, a.acc2, a.acc3, a.acc4]

theorem rounds64 (a : Spec.XXH64.Accs) (s : List Byte) : XXH64_rounds (list64 a) s = list64 (Spec.XXH64.stripe a s) := by
  have h (i) : toLE 64 (slice s (8 * i) (8 * i + 8)) = word64 s i := toLE64 ((slice_len _ _ _).trans (by omega))
  simp only [XXH64_rounds, split_eq, list64, show List.range 4 = [0, 1, 2, 3] from rfl, List.map, List.zipWith, h]
  rfl

theorem stripes64 (input : List Byte) (a : Spec.XXH64.Accs) (n : Nat) :
    (split 32 n input).foldl XXH64_rounds (list64 a) = list64 (Spec.XXH64.stripes a input n) := by
  rw [split_eq, Spec.XXH64.stripes, List.foldl_map]
  generalize List.range n = l
  induction l generalizing a with
  | nil => rfl
  | cons i l ih => simp only [List.foldl_cons, rounds64, ih]

theorem lanes64 (bs : List Byte) (acc : W64) (n : Nat) :
    (split 8 n bs).foldl XXH64_digest8 acc =
      (List.range n).foldl (fun acc i => Spec.XXH64.lane8 acc (word64 bs i)) acc := by
  rw [split_eq, List.foldl_map]
  have h (i) : toLE 64 (slice bs (8 * i) (8 * i + 8)) = word64 bs i := toLE64 ((slice_len _ _ _).trans (by omega))
  simp only [XXH64_digest8, h]
  rfl

theorem remaining1_64 : ∀ (bs : List Byte) (acc : W64), Spec.XXH64.remaining1 acc bs = bs.foldl XXH64_digest1 acc
  | [], _ => rfl
  | b :: bs, acc => by rw [Spec.XXH64.remaining1, remaining1_64 bs]; rfl

theorem remaining4_64 (bs : List Byte) (acc : W64) (h : bs.length < 8) : Spec.XXH64.remaining4 acc bs =
    (bs.drop (bs.length / 4 * 4)).foldl XXH64_digest1 ((split 4 (bs.length / 4) bs).foldl XXH64_digest4 acc) := by
  match bs, h with
  | [], _ => simp [Spec.XXH64.remaining4, split, remaining1_64]
  | [_], _ => simp [Spec.XXH64.remaining4, split, remaining1_64]
  | [_, _], _ => simp [Spec.XXH64.remaining4, split, remaining1_64]
  | [_, _, _], _ => simp [Spec.XXH64.remaining4, split, remaining1_64]
  | b0 :: b1 :: b2 :: b3 :: rest, h =>
    simp only [List.length_cons] at h
    have : (b0 :: b1 :: b2 :: b3 :: rest).length / 4 = 1 := by simp only [List.length_cons]; omega
    rw [this, Spec.XXH64.remaining4, remaining1_64]
    simp only [split, List.foldl_cons, List.foldl_nil, Nat.one_mul, List.drop_succ_cons, List.drop_zero,
      List.take_succ_cons, List.take_zero]
    rw [show XXH64_digest4 acc [b0, b1, b2, b3] = _ from by rw [XXH64_digest4, toLE32 (by simp)]]
    rfl

theorem XXH64_eq (input : List Byte) (seed : W64) : XXH64 input seed = Spec.XXH64.hash input seed := by
  have hd : (input.drop (input.length / 32 * 32)).length / 8 = input.length % 32 / 8 := by
    rw [List.length_drop]; omega
  have he : ((input.drop (input.length / 32 * 32)).drop (input.length % 32 / 8 * 8)).length / 4
      = input.length % 8 / 4 := by
    rw [List.length_drop, List.length_drop]; omega
  have hlt : ((input.drop (input.length / 32 * 32)).drop (input.length % 32 / 8 * 8)).length < 8 := by
    rw [List.length_drop, List.length_drop]; omega
  simp only [XXH64, Spec.XXH64.hash, Spec.XXH64.remaining]
  rw [hd, Nat.mul_comm 8, remaining4_64 _ _ hlt, he, split_take (by omega), split_take (by omega),
    split_take (by omega), show XXH64_init seed = list64 (Spec.XXH64.init seed) from rfl, stripes64, lanes64,
    BitVec.add_comm (BitVec.ofNat 64 _)]
  have : BitVec.ofNat 64 (input.length % 2 ^ 64) = BitVec.ofNat 64 input.length := by
    apply BitVec.eq_of_toNat_eq; simp
  rw [this]
  rfl

end XXH.Proof.Cryptol
