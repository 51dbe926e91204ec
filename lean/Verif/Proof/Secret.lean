import Verif.Proof.Simd
/-!
Every implementation of `XXH3_initCustomSecret` computes the secret derived from the seed.
-/
namespace XXH
open Model Spec Model.Simd

namespace XXH3P

theorem nativeBytes_LE {cfg : Cfg} (hle : cfg.littleEndian = true) (x : W64) :
    nativeBytes cfg 8 x = leBytes 8 x := by
  simp only [nativeBytes, hle, if_true, nativeBytes_le]

theorem writeLE64_eq (cfg : Cfg) (x : W64) : writeLE64 cfg x = leBytes 8 x := by
  unfold writeLE64
  cases hle : cfg.littleEndian
  · simp only [nativeBytes, hle, Bool.false_eq_true, if_false, nativeBytes_le, leBytes_swap64, beBytes,
      List.reverse_reverse]
  · simp only [if_true, nativeBytes_LE hle]

theorem default_length : Spec.XXH3.defaultSecret.length = 192 := by decide +kernel

theorem kSecret_bytes : Model.XXH3.kSecretBytes = Spec.XXH3.defaultSecret := by decide +kernel

theorem kSecret_holds (cfg : Cfg) : Holds (Model.XXH3.kSecret cfg) Spec.XXH3.defaultSecret :=
  by rw [← kSecret_bytes]; exact Holds.self _

/-- The 16 bytes of the derived secret at `16*i`. -/
def secretChunk (seed : W64) (i : Nat) : List Byte :=
  leBytes 8 (word64 Spec.XXH3.defaultSecret (i*2) + seed) ++
    leBytes 8 (word64 Spec.XXH3.defaultSecret (i*2+1) - seed)

theorem secretChunk_length (seed : W64) (i : Nat) : (secretChunk seed i).length = 16 := by
  simp [secretChunk, leBytes_length]

theorem derive_eq (seed : W64) :
    Spec.XXH3.deriveSecret seed = (List.range 12).flatMap (secretChunk seed) := rfl

theorem derive_length (seed : W64) : (Spec.XXH3.deriveSecret seed).length = 192 := by
  rw [derive_eq, List.length_flatMap]
  simp only [secretChunk_length]
  rfl

/-- Two adjacent writes. -/
theorem writeBytes_two {dst : List Byte} {off : Nat} {x y : List Byte}
    (h : off + x.length + y.length ≤ dst.length) :
    (writeBytes dst off x).bind (fun dst => writeBytes dst (off + x.length) y) =
      writeBytes dst off (x ++ y) := by
  rw [writeBytes_eq (by omega), Option.bind_some, writeBytes_eq (by simp; omega),
    writeBytes_eq (by simp; omega)]
  congr 1
  have h1 : (dst.take off ++ x).length = off + x.length := by simp; omega
  have h2 : (dst.take off ++ x ++ dst.drop (off + x.length)).take (off + x.length) =
      dst.take off ++ x := List.take_left' h1
  rw [h2, ← List.drop_drop, List.drop_left' h1, List.drop_drop]
  simp [Nat.add_assoc]

theorem flatMap_length {m : Nat} {chunk : Nat → List Byte} (hm : ∀ i, (chunk i).length = m) (n : Nat) :
    ((List.range n).flatMap chunk).length = m * n := by
  rw [List.length_flatMap]
  simp only [hm, List.map_const', List.sum_replicate_nat, List.length_range, Nat.mul_comm]

/-- Writing consecutive chunks. -/
theorem writeSeq {m : Nat} (chunk : Nat → List Byte) (hm : ∀ i, (chunk i).length = m) (dst : List Byte)
    (body : List Byte → Nat → Option (List Byte)) :
    ∀ n, m * n ≤ dst.length →
      (∀ d i, i < n → d.length = dst.length → body d i = writeBytes d (m * i) (chunk i)) →
      (List.range n).foldlM body dst = some ((List.range n).flatMap chunk ++ dst.drop (m * n))
  | 0, _, _ => by simp
  | n+1, h, hb => by
    have hl := flatMap_length hm n
    have h' : m * (n + 1) = m * n + m := by rw [Nat.mul_add, Nat.mul_one]
    rw [List.range_succ, List.foldlM_append, writeSeq chunk hm dst body n (by omega)
      fun d i hi => hb d i (by omega)]
    simp only [Option.bind_eq_bind, Option.bind_some, List.foldlM_cons, List.foldlM_nil, Option.pure_def]
    rw [hb _ n (by omega) (by simp only [List.length_append, List.length_drop, hl]; omega),
      writeBytes_eq (by simp only [List.length_append, List.length_drop, hl, hm]; omega),
      Option.bind_some, List.take_left' hl, ← List.drop_drop, List.drop_left' hl, hm, List.drop_drop, h',
      List.flatMap_append]
    simp

section
variable {cfg : Cfg} {dst : List Byte} (hd : dst.length = 192) (seed : W64)
include hd

theorem drop_full {n : Nat} (h : n = 192) : dst.drop n = [] := by
  rw [List.drop_eq_nil_iff]; omega

theorem initCustomSecret_scalar_eq (hc : cfg.Valid) (addr : Nat) :
    Model.XXH3.initCustomSecret_scalar cfg addr dst seed = some (Spec.XXH3.deriveSecret seed) := by
  have hk := kSecret_holds cfg
  have hl := default_length
  unfold Model.XXH3.initCustomSecret_scalar
  rw [writeSeq (secretChunk seed) (secretChunk_length seed) dst _ (Model.XXH3.SECRET_DEFAULT_SIZE / 16)
    (by rw [hd]; decide), drop_full hd (by decide), List.append_nil, derive_eq]
  · rfl
  intro d i hi hd'
  have hi : i < 12 := hi
  rw [hk.readLE64 hc (by omega), hk.readLE64 hc (by omega)]
  simp only [Option.bind_eq_bind, Option.bind_some, writeLE64_eq]
  have := @writeBytes_two d (16*i) (leBytes 8 (word64 Spec.XXH3.defaultSecret (i*2) + seed))
    (leBytes 8 (word64 Spec.XXH3.defaultSecret (i*2+1) - seed))
    (by rw [leBytes_length, leBytes_length]; omega)
  rw [leBytes_length] at this
  rw [secretChunk, ← this, word64, word64, show 8 * (i*2) = 16*i by omega,
    show 8 * (i*2+1) = 16*i+8 by omega]

omit hd in
/-- One 128-bit unit of the seeded secret. -/
theorem unit_bytes (hle : cfg.littleEndian = true) (i : Nat) :
    (add_epi64 (SimdP.pairAt Spec.XXH3.defaultSecret (16*i)) ⟨seed, 0 - seed⟩).bytes cfg =
      secretChunk seed i := by
  simp only [V128.bytes, add_epi64, V128.zip, SimdP.pairAt, nativeBytes_LE hle, secretChunk, word64]
  have hz : ∀ x : W64, x + (0 - seed) = x - seed := fun x => by
    rw [show (0 : W64) = 0#64 from rfl, BitVec.zero_sub, BitVec.sub_eq_add_neg]
  rw [show 8 * (i*2) = 16*i by omega, show 8 * (i*2+1) = 16*i+8 by omega, hz]

theorem initCustomSecret_sse2_eq (hle : cfg.littleEndian = true) (hk : cfg.kSecretAddr % 64 = 0)
    {addr : Nat} (h1 : addr % 16 = 0) :
    Model.XXH3.initCustomSecret_sse2 cfg addr dst seed = some (Spec.XXH3.deriveSecret seed) := by
  have hs := kSecret_holds cfg
  have hl := default_length
  have h2 : cfg.kSecretAddr % 16 = 0 := by omega
  unfold Model.XXH3.initCustomSecret_sse2
  simp only [h1, h2, beq_self_eq_true, assert_true, Option.bind_eq_bind, Option.bind_some]
  rw [writeSeq (secretChunk seed) (secretChunk_length seed) dst _ (Model.XXH3.SECRET_DEFAULT_SIZE / 16)
    (by rw [hd]; decide), drop_full hd (by decide), List.append_nil, derive_eq]
  · rfl
  intro d i hi hd'
  have hi : i < 12 := hi
  have h3 : ((Model.XXH3.kSecret cfg).addr + 16*i) % 16 = 0 := by
    show (cfg.kSecretAddr + 16*i) % 16 = 0
    omega
  simp only [loada, h3, beq_self_eq_true, assert_true, Option.bind_eq_bind, Option.bind_some]
  rw [SimdP.loadu_eq hle hs (by omega), Option.bind_some, unit_bytes seed hle]

theorem initCustomSecret_avx2_eq (hle : cfg.littleEndian = true) (hk : cfg.kSecretAddr % 64 = 0)
    {addr : Nat} (h1 : addr % 32 = 0) :
    Model.XXH3.initCustomSecret_avx2 cfg addr dst seed = some (Spec.XXH3.deriveSecret seed) := by
  have hs := kSecret_holds cfg
  have hl := default_length
  have h2 : cfg.kSecretAddr % 32 = 0 := by omega
  have hch : ∀ i, (secretChunk seed (2*i) ++ secretChunk seed (2*i+1)).length = 32 := fun i => by
    rw [List.length_append, secretChunk_length, secretChunk_length]
  unfold Model.XXH3.initCustomSecret_avx2
  simp only [h1, h2, beq_self_eq_true, assert_true, Option.bind_eq_bind, Option.bind_some]
  rw [writeSeq (fun i => secretChunk seed (2*i) ++ secretChunk seed (2*i+1)) hch dst _ 6
    (by rw [hd]), drop_full hd (by decide), List.append_nil, derive_eq]
  · have e1 : List.range 6 = [0, 1, 2, 3, 4, 5] := rfl
    have e2 : List.range 12 = [0, 1, 2, 3, 4, 5, 6, 7, 8, 9, 10, 11] := rfl
    rw [e1, e2]
    simp only [List.flatMap_cons, List.flatMap_nil, List.append_assoc, Nat.reduceMul, Nat.reduceAdd]
  intro d i hi hd'
  have h3 : (cfg.kSecretAddr + 32*i) % 32 = 0 := by omega
  simp only [loadu256, h3, beq_self_eq_true, assert_true, Option.bind_eq_bind, Option.bind_some]
  rw [SimdP.loadu_eq hle hs (by omega), Option.bind_some, SimdP.loadu_eq hle hs (by omega),
    Option.bind_some]
  simp only [Option.pure_def, Option.bind_some]
  rw [← unit_bytes seed hle (2*i), ← unit_bytes seed hle (2*i+1), show 16 * (2*i) = 32*i by omega,
    show 16 * (2*i+1) = 32*i+16 by omega]

theorem initCustomSecret_avx512_eq (hle : cfg.littleEndian = true) (hk : cfg.kSecretAddr % 64 = 0)
    {addr : Nat} (ha : addr % 64 = 0) :
    Model.XXH3.initCustomSecret_avx512 cfg addr dst seed = some (Spec.XXH3.deriveSecret seed) := by
  have hs := kSecret_holds cfg
  have hl := default_length
  have hch : ∀ i, (secretChunk seed (4*i) ++ secretChunk seed (4*i+1) ++ secretChunk seed (4*i+2) ++
      secretChunk seed (4*i+3)).length = 64 := fun i => by
    simp only [List.length_append, secretChunk_length]
  have m0 : (0xAA : Nat).testBit 0 = false := by decide
  have m1 : (0xAA : Nat).testBit 1 = true := by decide
  have m2 : (0xAA : Nat).testBit 2 = false := by decide
  have m3 : (0xAA : Nat).testBit 3 = true := by decide
  have m4 : (0xAA : Nat).testBit 4 = false := by decide
  have m5 : (0xAA : Nat).testBit 5 = true := by decide
  have m6 : (0xAA : Nat).testBit 6 = false := by decide
  have m7 : (0xAA : Nat).testBit 7 = true := by decide
  unfold Model.XXH3.initCustomSecret_avx512
  simp only [ha, hk, beq_self_eq_true, assert_true, Option.bind_eq_bind, Option.bind_some, m0, m1, m2, m3,
    m4, m5, m6, m7, Bool.false_eq_true, if_false, if_true]
  rw [show Model.XXH3.SECRET_DEFAULT_SIZE / 64 = 3 from rfl,
    writeSeq (fun i => secretChunk seed (4*i) ++ secretChunk seed (4*i+1) ++ secretChunk seed (4*i+2) ++
      secretChunk seed (4*i+3)) hch dst _ 3
    (by rw [hd]), drop_full hd (by decide), List.append_nil, derive_eq]
  · have e1 : List.range 3 = [0, 1, 2] := rfl
    have e2 : List.range 12 = [0, 1, 2, 3, 4, 5, 6, 7, 8, 9, 10, 11] := rfl
    rw [e1, e2]
    simp only [List.flatMap_cons, List.flatMap_nil, List.append_assoc, Nat.reduceMul, Nat.reduceAdd]
  intro d i hi hd'
  have h3 : (cfg.kSecretAddr + 64*i) % 64 = 0 := by omega
  simp only [loadu512, h3, beq_self_eq_true, assert_true, Option.bind_eq_bind, Option.bind_some]
  rw [SimdP.loadu_eq hle hs (by omega), Option.bind_some, SimdP.loadu_eq hle hs (by omega),
    Option.bind_some, SimdP.loadu_eq hle hs (by omega), Option.bind_some,
    SimdP.loadu_eq hle hs (by omega), Option.bind_some]
  simp only [Option.pure_def, Option.bind_some]
  rw [← unit_bytes seed hle (4*i), ← unit_bytes seed hle (4*i+1), ← unit_bytes seed hle (4*i+2),
    ← unit_bytes seed hle (4*i+3), show 16 * (4*i) = 64*i by omega,
    show 16 * (4*i+1) = 64*i+16 by omega, show 16 * (4*i+2) = 64*i+32 by omega,
    show 16 * (4*i+3) = 64*i+48 by omega]

/-- Every implementation gives the secret of the specification. -/
theorem initCustomSecret_eq (hc : cfg.Valid) {addr : Nat} (ha : addr % cfg.secAlign = 0) :
    Model.XXH3.initCustomSecret cfg addr dst seed = some (Spec.XXH3.deriveSecret seed) := by
  unfold Model.XXH3.initCustomSecret
  split
  · exact initCustomSecret_scalar_eq hd seed hc addr
  · have hle := hc.simdLE
    have hn := SimdP.secAlign_need ha
    cases hv : cfg.vector <;> simp only [hv] at hle hn <;> simp only
    · exact initCustomSecret_scalar_eq hd seed hc addr
    · exact initCustomSecret_sse2_eq hd seed (hle (by simp)) hc.kSecret hn
    · exact initCustomSecret_avx2_eq hd seed (hle (by simp)) hc.kSecret hn
    · exact initCustomSecret_avx512_eq hd seed (hle (by simp)) hc.kSecret hn
    all_goals exact initCustomSecret_scalar_eq hd seed hc addr

end

end XXH3P
end XXH
