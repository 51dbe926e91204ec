import Verif.Proof.XXH64
import Verif.Proof.XXH3Stream
/-!
Digests of states that have been fed `2^64` bytes or more: lemmas for C58.
-/
namespace XXH
open Model Spec

namespace Proof.XXH64

/-- The digest looks at the length modulo `2^64`; below 32 it uses the third accumulator only. -/
theorem digest_any {cfg : Cfg} (hc : cfg.Valid) {seed : W64} {msg : List Byte} {s : Model.XXH64.State}
    (hr : Repr seed msg s) :
    Model.XXH64.digest cfg s = some (if 32 ≤ msg.length ∧ msg.length % 2 ^ 64 < 32 then
      Spec.XXH64.avalanche (Spec.XXH64.remaining
        ((Spec.XXH64.stripes (Spec.XXH64.init seed) msg (msg.length / 32)).acc3 + Spec.XXH64.PRIME64_5 +
          BitVec.ofNat 64 msg.length) (msg.drop (msg.length / 32 * 32)))
      else Spec.XXH64.hash msg seed) := by
  have hm := hr.size
  have hms := hr.memLen
  have htn : s.total_len.toNat = msg.length % 2 ^ 64 := by rw [hr.total, BitVec.toNat_ofNat]
  have hsz : cfg.size s.total_len.toNat % 32 = s.memsize := by
    rw [htn, Cfg.size, hm]
    have h1 := hc.sizeLo
    rw [Nat.mod_mod_of_dvd _ (show 32 ∣ 2 ^ cfg.sizeBits from Nat.pow_dvd_pow 2 (m := 5) (by omega)),
      Nat.mod_mod_of_dvd _ (show 32 ∣ 2 ^ 64 from Nat.pow_dvd_pow 2 (m := 5) (by norm_num))]
  unfold Model.XXH64.digest
  rw [finalize_eq hc _ (by intro h; cases h)
    (by simp only [Model.XXH64.State.buf]; omega) (by intro _; rfl)]
  have htail : slice s.buf.bytes 0 (0 + cfg.size s.total_len.toNat % 32)
      = msg.drop (msg.length/32*32) := by
    rw [← hr.tail, hsz]
    simp [slice, Model.XXH64.State.buf]
  rw [htail, htn, hr.total]
  have hl := hr.lanes
  by_cases h32 : 32 ≤ msg.length % 2 ^ 64
  · rw [if_pos h32, if_neg (by omega), mergeV_eq, hl]
    simp only [Spec.XXH64.hash]
    rw [if_neg (by have := Nat.mod_le msg.length (2 ^ 64); omega)]
  · rw [if_neg h32]
    by_cases hlong : 32 ≤ msg.length
    · rw [if_pos ⟨hlong, by omega⟩]
      have h3 : s.v.v3 = (Spec.XXH64.stripes (Spec.XXH64.init seed) msg (msg.length / 32)).acc3 :=
        congrArg Spec.XXH64.Accs.acc3 hl
      rw [h3]
      rfl
    · rw [if_neg (by omega)]
      rw [show msg.length/32 = 0 by omega, stripes_zero] at hl
      have h3 : s.v.v3 = seed := (congrArg Spec.XXH64.Accs.acc3 hl).trans (BitVec.add_zero seed)
      simp only [Spec.XXH64.hash]
      rw [if_pos (by omega), h3]
      rfl

/-- The third accumulator depends on the third word of every stripe. -/
theorem acc3_congr {m m' : List Byte} (h : ∀ j, 16 ≤ j % 32 ∧ j % 32 < 24 → m[j]? = m'[j]?) {a : Spec.XXH64.Accs}
    {n : Nat} : (Spec.XXH64.stripes a m n).acc3 = (Spec.XXH64.stripes a m' n).acc3 := by
  induction n with
  | zero => rw [stripes_zero, stripes_zero]
  | succ n ih =>
    have hs : ∀ x : List Byte, (Spec.XXH64.stripes a x (n + 1)).acc3 =
        Spec.XXH64.round (Spec.XXH64.stripes a x n).acc3 (word64 (slice x (32 * n) (32 * n + 32)) 2) := fun x => by
      unfold Spec.XXH64.stripes
      rw [List.range_succ, List.foldl_append, List.foldl_cons, List.foldl_nil]
      rfl
    rw [hs, hs, ih]
    congr 1
    unfold word64
    congr 1
    apply List.ext_getElem?
    intro i
    simp only [slice, List.getElem?_take, List.getElem?_drop]
    split
    · split
      · exact h _ (by omega)
      · rfl
    · rfl

theorem drop_congr {m m' : List Byte} {n : Nat} (h : ∀ j, n ≤ j → m[j]? = m'[j]?) : m.drop n = m'.drop n := by
  apply List.ext_getElem?
  intro i
  rw [List.getElem?_drop, List.getElem?_drop]
  exact h _ (by omega)

end Proof.XXH64

namespace XXH3P
open Model.XXH3 (State)

variable {cfg : Cfg} {sec msg : List Byte} {us : Option W64} {s : State}

/-- What the buffer begins with: the last bytes of the message, from a multiple of 64 on. -/
theorem leftover (h : Repr sec us msg s) (hlong : 240 < msg.length) (hn : msg.length % 2 ^ 64 ≤ 240) :
    (s.buffer.take (msg.length % 2 ^ 64)).length = msg.length % 2 ^ 64 ∧
    Holds s.bufferObj (s.buffer.take (msg.length % 2 ^ 64)) ∧
    ∃ k, 64 * k < msg.length ∧ msg.length ≤ 64 * k + 256 ∧
      ∀ j, j < msg.length % 2 ^ 64 → 64 * k + j < msg.length →
        (s.buffer.take (msg.length % 2 ^ 64)).getD j 0 = msg.getD (64 * k + j) 0 := by
  obtain ⟨k, hB⟩ := h.buffered
  have hlen : s.buffer.length = 256 := h.params.typed.buffer
  have hl : (s.buffer.take (msg.length % 2 ^ 64)).length = msg.length % 2 ^ 64 := by
    rw [List.length_take]; omega
  have hsz := hB.size
  have hle := hB.le
  have hpos : 0 < s.bufferedSize.toNat := by
    by_cases hk : 0 < k
    · exact (hB.pos hk).2
    · omega
  refine ⟨hl, List.take_prefix _ _, k, by omega, by omega, fun j hj hj2 => ?_⟩
  rw [List.getD_eq_getElem?_getD, List.getElem?_take, if_pos hj, ← List.getD_eq_getElem?_getD, hB.data j (by omega),
    Nat.mul_comm k 64]

/-- A small length field: the digest is the hash of what the buffer begins with. -/
theorem digest64_small (hc : cfg.Valid) (h : Repr sec us msg s) {short : List Byte} (hn : msg.length % 2 ^ 64 ≤ 240)
    (hl : short.length = msg.length % 2 ^ 64) (hh : Holds s.bufferObj short) :
    Model.XXH3.bits64_digest cfg s = some (value64 sec us short) := by
  have htn : s.totalLen.toNat = short.length := by rw [h.total, BitVec.toNat_ofNat, hl]
  have hp := h.params
  have hsl := hp.secLen
  have hM : Model.XXH3.MIDSIZE_MAX = 240 := rfl
  unfold Model.XXH3.bits64_digest value64
  simp only [hM, htn]
  rw [if_neg (by omega), if_pos (show short.length ≤ 240 by omega), size_small hc (by omega)]
  cases us with
  | none =>
    rw [h.useSeed, hp.limit, show sec.length - 64 + 64 = sec.length by omega]
    exact bits64_withSecret_eq hc hh rfl rfl hp.secret hsl
  | some sd =>
    rw [h.useSeed, h.seed sd rfl]
    exact bits64_withSeed_eq hc hh rfl sd

/-- A small length field: the digest is the hash of what the buffer begins with. -/
theorem digest128_small (hc : cfg.Valid) (h : Repr sec us msg s) {short : List Byte} (hn : msg.length % 2 ^ 64 ≤ 240)
    (hl : short.length = msg.length % 2 ^ 64) (hh : Holds s.bufferObj short) :
    Model.XXH3.bits128_digest cfg s = some (value128 sec us short) := by
  have htn : s.totalLen.toNat = short.length := by rw [h.total, BitVec.toNat_ofNat, hl]
  have hp := h.params
  have hsl := hp.secLen
  have hM : Model.XXH3.MIDSIZE_MAX = 240 := rfl
  unfold Model.XXH3.bits128_digest value128
  simp only [hM, htn]
  rw [if_neg (by omega), if_pos (show short.length ≤ 240 by omega), size_small hc (by omega)]
  cases us with
  | none =>
    rw [h.useSeed, hp.limit, show sec.length - 64 + 64 = sec.length by omega]
    exact bits128_withSecret_eq hc hh rfl rfl hp.secret hsl
  | some sd =>
    rw [h.useSeed, h.seed sd rfl]
    exact bits128_withSeed_eq hc hh rfl sd

/-- A length field above 240: the digest is that of the whole message. -/
theorem digest64_big (hc : cfg.Valid) (h : Repr sec us msg s) (hn : 240 < msg.length % 2 ^ 64) :
    Model.XXH3.bits64_digest cfg s = some (value64 sec us msg) := by
  obtain ⟨k, hB⟩ := h.buffered
  have htn : s.totalLen.toNat = msg.length % 2 ^ 64 := by rw [h.total, BitVec.toNat_ofNat]
  have hp := h.params
  have hsl := hp.secLen
  have hle := Nat.mod_le msg.length (2 ^ 64)
  have hM : Model.XXH3.MIDSIZE_MAX = 240 := rfl
  unfold Model.XXH3.bits64_digest value64
  simp only [hM, htn]
  rw [if_pos hn, if_neg (by omega), digest_long_eq hc hp hB (by omega)]
  simp only [Option.bind_eq_bind, Option.bind_some]
  rw [mergeAccs_eq hc hp.secret _ (by omega), h.total]
  rfl

@[inherit_doc digest64_big]
theorem digest128_big (hc : cfg.Valid) (h : Repr sec us msg s) (hn : 240 < msg.length % 2 ^ 64) :
    Model.XXH3.bits128_digest cfg s = some (value128 sec us msg) := by
  obtain ⟨k, hB⟩ := h.buffered
  have htn : s.totalLen.toNat = msg.length % 2 ^ 64 := by rw [h.total, BitVec.toNat_ofNat]
  have hp := h.params
  have hsl := hp.secLen
  have hle := Nat.mod_le msg.length (2 ^ 64)
  have hM : Model.XXH3.MIDSIZE_MAX = 240 := rfl
  unfold Model.XXH3.bits128_digest value128
  simp only [hM, htn]
  rw [if_pos hn, if_neg (by omega), digest_long_eq hc hp hB (by omega)]
  have e : s.secretLimit + 64 - 64 - 11 = sec.length - 75 := by rw [hp.limit]; omega
  simp only [Option.bind_eq_bind, Option.bind_some]
  rw [assert_of (by simp [hp.limit]; omega), Option.bind_some, mergeAccs_eq hc hp.secret _ (by omega),
    Option.bind_some, e, mergeAccs_eq hc hp.secret _ (by omega), h.total]
  rfl

end XXH3P
end XXH
