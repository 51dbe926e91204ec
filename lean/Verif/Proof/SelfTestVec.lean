import Verif.Model.SelfTest
import Verif.Spec.XXH32
import Verif.Spec.XXH3
import Verif.Spec.GenerateSecret
/-!
The tables of cli/xsum_sanity_check.c against the specification, and the random numbers drawn by the self-test, all
evaluated by the kernel.
-/
namespace XXH.SelfTestP
open Model.SelfTest
set_option maxRecDepth 100000

def buf : List Byte := fillTestBuffer 2367

theorem vectors32 : ∀ t ∈ XXH32_testdata,
    t.len ≤ 2367 ∧ Spec.XXH32.hash (buf.take t.len) t.seed = t.Nresult := by decide +kernel

theorem vectors64 : ∀ t ∈ XXH64_testdata,
    t.len ≤ 2367 ∧ Spec.XXH64.hash (buf.take t.len) t.seed = t.Nresult := by decide +kernel

theorem vectors3 : ∀ t ∈ XXH3_testdata,
    t.len ≤ 2367 ∧ Spec.XXH3.XXH3_64_withSeed (buf.take t.len) t.seed = t.Nresult := by decide +kernel

theorem vectors3s : ∀ t ∈ XXH3_withSecret_testdata,
    t.len ≤ 2367 ∧ Spec.XXH3.XXH3_64_withSecret (buf.take t.len) ((buf.drop 7).take 147) = t.Nresult := by
  decide +kernel

theorem vectors128 : ∀ t ∈ XXH128_testdata,
    t.len ≤ 2367 ∧ Spec.XXH3.XXH3_128_withSeed (buf.take t.len) t.seed = t.Nresult := by decide +kernel

theorem vectors128s : ∀ t ∈ XXH128_withSecret_testdata,
    t.len ≤ 2367 ∧ Spec.XXH3.XXH3_128_withSecret (buf.take t.len) ((buf.drop 7).take 147) = t.Nresult := by
  decide +kernel

/-- The random numbers drawn while `len` bytes are fed. -/
def walk (len : Nat) : Nat → Nat → W64 → Option W64
  | fuel, p, rnd =>
    if p < len then
      match fuel with
      | 0 => none
      | fuel + 1 =>
        let l := (rand rnd).1.toNat % (if len > 2 then len else 2)
        walk len fuel (p + if p + l > len then len - p else l) (rand rnd).2
    else some rnd

def walkAll : W64 → List Nat → Option W64
  | rnd, [] => some rnd
  | rnd, len :: lens => (walk len maxRounds 0 rnd).bind fun rnd => walkAll rnd lens

theorem walks : (walkAll PRIME32 (XXH3_testdata.map (·.len) ++ XXH3_withSecret_testdata.map (·.len) ++
    XXH128_testdata.map (·.len) ++ XXH128_withSecret_testdata.map (·.len))).isSome = true := by decide +kernel

/-- Byte `k` of a generated secret. -/
def genByte (size : Nat) (sd : List Byte) (h : H128) (k : Nat) : Byte :=
  sd.getD (k % sd.length) 0 ^^^
  (if k < 16 * (size / 16) then
    (Spec.XXH3.h128LE (Spec.XXH3.XXH3_128_withSeed (Spec.beBytes 8 h.high64 ++ Spec.beBytes 8 h.low64)
      (BitVec.ofNat 64 (k / 16)))).getD (k % 16) 0 else 0) ^^^
  (if size - 16 ≤ k then (Spec.XXH3.h128LE h).getD (k - (size - 16)) 0 else 0)

theorem generated_getD (size : Nat) (sd : List Byte) (k : Nat) (rest : List Byte) :
    (Spec.XXH3.generated size sd ++ rest).getD k 0 =
      if k < size then genByte size sd (Spec.XXH3.XXH3_128_withSeed sd 0) k else rest.getD (k - size) 0 := by
  have hl : (Spec.XXH3.generated size sd).length = size := by simp [Spec.XXH3.generated]
  split
  · next h =>
    rw [List.getD_eq_getElem?_getD, List.getElem?_append_left (by omega)]
    simp only [Spec.XXH3.generated, genByte, List.getElem?_map]
    rw [List.getElem?_range h]
    rfl
  · next h =>
    rw [List.getD_eq_getElem?_getD, List.getElem?_append_right (by omega), hl, List.getD_eq_getElem?_getD]

def sampleOK (t : TestDataSample) : Bool :=
  let sd := if t.seedLen = 0 then Spec.XXH3.defaultSecret else buf.take t.seedLen
  let h := Spec.XXH3.XXH3_128_withSeed sd 0
  136 ≤ t.secretLen && t.secretLen ≤ SECRET_SIZE_MAX && t.seedLen ≤ 2367 &&
  (sampleIndex.map fun k => if k < t.secretLen then genByte t.secretLen sd h k else 0) == t.byte

theorem samples : ∀ t ∈ XXH3_generateSecret_testdata, sampleOK t = true := by decide +kernel

end XXH.SelfTestP
