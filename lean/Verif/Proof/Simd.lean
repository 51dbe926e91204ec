import Verif.Model.XXH3
import Verif.Proof.XXH3Short
/-!
Every vector implementation computes the accumulation and the scrambling of the specification.
-/
namespace XXH
open Model Spec Model.Simd

namespace SimdP

/-- One lane of the accumulation: accumulator, neighbouring data lane, data xor key. -/
def laneAcc (a d x : W64) : W64 := a + d + lower32 x * higher32 x
/-- One lane of the scrambling. -/
def laneScr (a k : W64) : W64 := ((a ^^^ (a >>> 47)) ^^^ k) * Spec.XXH3.PRIME32_1

/-- The accumulation on all lanes. -/
def accLanes (acc : Acc) (d k : Fin 8 → W64) : Acc :=
  Vector.ofFn fun i => laneAcc acc[i] (d (i ^^^ 1)) (d i ^^^ k i)
/-- The scrambling on all lanes. -/
def scrLanes (acc : Acc) (k : Fin 8 → W64) : Acc := Vector.ofFn fun i => laneScr acc[i] (k i)

/-- The accumulator array with the given elements. -/
def mk8 (a0 a1 a2 a3 a4 a5 a6 a7 : W64) : Acc := #v[a0, a1, a2, a3, a4, a5, a6, a7]

theorem acc_lit (acc : Acc) :
    acc = mk8 acc[0] acc[1] acc[2] acc[3] acc[4] acc[5] acc[6] acc[7] := by
  apply Vector.ext
  intro i hi
  interval_cases i <;> rfl

theorem finRange8 : List.finRange 8 = [0, 1, 2, 3, 4, 5, 6, 7] := by decide
theorem finRange4 : List.finRange 4 = [0, 1, 2, 3] := by decide
theorem finRange2 : List.finRange 2 = [0, 1] := by decide

theorem accLanes_lit (a0 a1 a2 a3 a4 a5 a6 a7 : W64) (d k : Fin 8 → W64) :
    accLanes (mk8 a0 a1 a2 a3 a4 a5 a6 a7) d k =
      mk8 (laneAcc a0 (d 1) (d 0 ^^^ k 0)) (laneAcc a1 (d 0) (d 1 ^^^ k 1))
        (laneAcc a2 (d 3) (d 2 ^^^ k 2)) (laneAcc a3 (d 2) (d 3 ^^^ k 3))
        (laneAcc a4 (d 5) (d 4 ^^^ k 4)) (laneAcc a5 (d 4) (d 5 ^^^ k 5))
        (laneAcc a6 (d 7) (d 6 ^^^ k 6)) (laneAcc a7 (d 6) (d 7 ^^^ k 7)) := by
  apply Vector.ext
  intro i hi
  interval_cases i <;> simp [accLanes, mk8]

theorem scrLanes_lit (a0 a1 a2 a3 a4 a5 a6 a7 : W64) (k : Fin 8 → W64) :
    scrLanes (mk8 a0 a1 a2 a3 a4 a5 a6 a7) k =
      mk8 (laneScr a0 (k 0)) (laneScr a1 (k 1)) (laneScr a2 (k 2)) (laneScr a3 (k 3))
        (laneScr a4 (k 4)) (laneScr a5 (k 5)) (laneScr a6 (k 6)) (laneScr a7 (k 7)) := by
  apply Vector.ext
  intro i hi
  interval_cases i <;> simp [scrLanes, mk8]

/-! ### The specification in closed form -/

/-- The step of the specification on one lane. -/
def specStep (d k : Fin 8 → W64) (acc : Acc) (i : Fin 8) : Acc :=
  let value := d i ^^^ k i
  let j : Fin 8 := i ^^^ 1
  let acc := acc.set j (acc[j] + d i)
  acc.set i (acc[i] + lower32 value * higher32 value)

/-! ### Pairs of lanes -/

theorem getPair_lit (a0 a1 a2 a3 a4 a5 a6 a7 : W64) :
    getPair (mk8 a0 a1 a2 a3 a4 a5 a6 a7) 0 = ⟨a0, a1⟩ ∧
    getPair (mk8 a0 a1 a2 a3 a4 a5 a6 a7) 1 = ⟨a2, a3⟩ ∧
    getPair (mk8 a0 a1 a2 a3 a4 a5 a6 a7) 2 = ⟨a4, a5⟩ ∧
    getPair (mk8 a0 a1 a2 a3 a4 a5 a6 a7) 3 = ⟨a6, a7⟩ := ⟨rfl, rfl, rfl, rfl⟩

theorem setPair_lit (a0 a1 a2 a3 a4 a5 a6 a7 : W64) (v : V128) :
    setPair (mk8 a0 a1 a2 a3 a4 a5 a6 a7) 0 v = mk8 v.e0 v.e1 a2 a3 a4 a5 a6 a7 ∧
    setPair (mk8 a0 a1 a2 a3 a4 a5 a6 a7) 1 v = mk8 a0 a1 v.e0 v.e1 a4 a5 a6 a7 ∧
    setPair (mk8 a0 a1 a2 a3 a4 a5 a6 a7) 2 v = mk8 a0 a1 a2 a3 v.e0 v.e1 a6 a7 ∧
    setPair (mk8 a0 a1 a2 a3 a4 a5 a6 a7) 3 v = mk8 a0 a1 a2 a3 a4 a5 v.e0 v.e1 :=
  ⟨rfl, rfl, rfl, rfl⟩

/-- Lanes `2i` and `2i+1`. -/
def pairOf (d : Fin 8 → W64) (i : Fin 4) : V128 := ⟨d ⟨2 * i.val, by omega⟩, d ⟨2 * i.val + 1, by omega⟩⟩

/-- Accumulation of one pair of lanes. -/
def pairAcc (a d k : V128) : V128 :=
  ⟨laneAcc a.e0 d.e1 (d.e0 ^^^ k.e0), laneAcc a.e1 d.e0 (d.e1 ^^^ k.e1)⟩

/-- Scrambling of one pair of lanes. -/
def pairScr (a k : V128) : V128 := ⟨laneScr a.e0 k.e0, laneScr a.e1 k.e1⟩

/-- Accumulation of the pair `i` in place. -/
def unitAcc (d k : Fin 8 → W64) (acc : Acc) (i : Fin 4) : Acc :=
  setPair acc i (pairAcc (getPair acc i) (pairOf d i) (pairOf k i))

/-- Scrambling of the pair `i` in place. -/
def unitScr (k : Fin 8 → W64) (acc : Acc) (i : Fin 4) : Acc :=
  setPair acc i (pairScr (getPair acc i) (pairOf k i))

theorem unitAcc_lit (d k : Fin 8 → W64) (a0 a1 a2 a3 a4 a5 a6 a7 : W64) :
    unitAcc d k (mk8 a0 a1 a2 a3 a4 a5 a6 a7) 0 =
      mk8 (laneAcc a0 (d 1) (d 0 ^^^ k 0)) (laneAcc a1 (d 0) (d 1 ^^^ k 1)) a2 a3 a4 a5 a6 a7 ∧
    unitAcc d k (mk8 a0 a1 a2 a3 a4 a5 a6 a7) 1 =
      mk8 a0 a1 (laneAcc a2 (d 3) (d 2 ^^^ k 2)) (laneAcc a3 (d 2) (d 3 ^^^ k 3)) a4 a5 a6 a7 ∧
    unitAcc d k (mk8 a0 a1 a2 a3 a4 a5 a6 a7) 2 =
      mk8 a0 a1 a2 a3 (laneAcc a4 (d 5) (d 4 ^^^ k 4)) (laneAcc a5 (d 4) (d 5 ^^^ k 5)) a6 a7 ∧
    unitAcc d k (mk8 a0 a1 a2 a3 a4 a5 a6 a7) 3 =
      mk8 a0 a1 a2 a3 a4 a5 (laneAcc a6 (d 7) (d 6 ^^^ k 6)) (laneAcc a7 (d 6) (d 7 ^^^ k 7)) :=
  ⟨rfl, rfl, rfl, rfl⟩

theorem unitScr_lit (k : Fin 8 → W64) (a0 a1 a2 a3 a4 a5 a6 a7 : W64) :
    unitScr k (mk8 a0 a1 a2 a3 a4 a5 a6 a7) 0 =
      mk8 (laneScr a0 (k 0)) (laneScr a1 (k 1)) a2 a3 a4 a5 a6 a7 ∧
    unitScr k (mk8 a0 a1 a2 a3 a4 a5 a6 a7) 1 =
      mk8 a0 a1 (laneScr a2 (k 2)) (laneScr a3 (k 3)) a4 a5 a6 a7 ∧
    unitScr k (mk8 a0 a1 a2 a3 a4 a5 a6 a7) 2 =
      mk8 a0 a1 a2 a3 (laneScr a4 (k 4)) (laneScr a5 (k 5)) a6 a7 ∧
    unitScr k (mk8 a0 a1 a2 a3 a4 a5 a6 a7) 3 =
      mk8 a0 a1 a2 a3 a4 a5 (laneScr a6 (k 6)) (laneScr a7 (k 7)) :=
  ⟨rfl, rfl, rfl, rfl⟩

/-- Every order of the pairs gives the same result. -/
theorem unitAcc_all (acc : Acc) (d k : Fin 8 → W64) (l : List (Fin 4))
    (hl : l ∈ [[0, 1, 2, 3], [1, 2, 3, 0], [2, 3, 0, 1], [3, 0, 1, 2]]) :
    l.foldl (unitAcc d k) acc = accLanes acc d k := by
  rw [acc_lit acc]
  generalize acc[0] = a0, acc[1] = a1, acc[2] = a2, acc[3] = a3, acc[4] = a4, acc[5] = a5,
    acc[6] = a6, acc[7] = a7
  rw [accLanes_lit]
  simp only [List.mem_cons, List.not_mem_nil, or_false] at hl
  rcases hl with rfl | rfl | rfl | rfl <;> simp only [List.foldl, unitAcc_lit]

theorem unitScr_all (acc : Acc) (k : Fin 8 → W64) (l : List (Fin 4))
    (hl : l ∈ [[0, 1, 2, 3], [1, 2, 3, 0], [2, 3, 0, 1], [3, 0, 1, 2]]) :
    l.foldl (unitScr k) acc = scrLanes acc k := by
  rw [acc_lit acc]
  generalize acc[0] = a0, acc[1] = a1, acc[2] = a2, acc[3] = a3, acc[4] = a4, acc[5] = a5,
    acc[6] = a6, acc[7] = a7
  rw [scrLanes_lit]
  simp only [List.mem_cons, List.not_mem_nil, or_false] at hl
  rcases hl with rfl | rfl | rfl | rfl <;> simp only [List.foldl, unitScr_lit]

theorem add_right_comm64 (a x y : W64) : a + x + y = a + y + x := by
  rw [BitVec.add_assoc, BitVec.add_comm x y, BitVec.add_assoc]

/-- Two consecutive scalar steps are one pair. -/
theorem specStep_pair (acc : Acc) (d k : Fin 8 → W64) :
    specStep d k (specStep d k acc 0) 1 = unitAcc d k acc 0 ∧
    specStep d k (specStep d k acc 2) 3 = unitAcc d k acc 1 ∧
    specStep d k (specStep d k acc 4) 5 = unitAcc d k acc 2 ∧
    specStep d k (specStep d k acc 6) 7 = unitAcc d k acc 3 := by
  rw [acc_lit acc]
  generalize acc[0] = a0, acc[1] = a1, acc[2] = a2, acc[3] = a3, acc[4] = a4, acc[5] = a5,
    acc[6] = a6, acc[7] = a7
  simp only [unitAcc_lit, laneAcc, add_right_comm64 a0 (d 1), add_right_comm64 a2 (d 3),
    add_right_comm64 a4 (d 5), add_right_comm64 a6 (d 7)]
  exact ⟨rfl, rfl, rfl, rfl⟩

theorem specSteps (acc : Acc) (d k : Fin 8 → W64) :
    (List.finRange 8).foldl (specStep d k) acc = accLanes acc d k := by
  rw [← unitAcc_all acc d k [0, 1, 2, 3] (by simp), finRange8]
  simp only [List.foldl, specStep_pair]

theorem specScr (acc : Acc) (k : Fin 8 → W64) :
    (List.finRange 8).foldl (fun (acc : Acc) (i : Fin 8) =>
      let a := acc[i] ^^^ (acc[i] >>> 47)
      let a := a ^^^ k i
      acc.set i (a * Spec.XXH3.PRIME32_1)) acc = scrLanes acc k := by
  rw [acc_lit acc]
  generalize acc[0] = a0, acc[1] = a1, acc[2] = a2, acc[3] = a3, acc[4] = a4, acc[5] = a5,
    acc[6] = a6, acc[7] = a7
  rw [scrLanes_lit, finRange8]
  rfl

/-- Lane `i` of the 64 bytes at `off`. -/
def laneAt (xs : List Byte) (off : Nat) (i : Fin 8) : W64 :=
  u64 (slice xs (off + 8 * i.val) (off + 8 * i.val + 8))

theorem accumulate_closed (sec msg : List Byte) (acc : Acc) (io so : Nat) :
    Spec.XXH3.accumulate sec acc (slice msg io (io+64)) so =
      accLanes acc (laneAt msg io) (laneAt sec so) := by
  have h1 : ∀ i : Fin 8, word64 (slice msg io (io+64)) i.val = laneAt msg io i := fun i =>
    word64_slice _ _ _ _ (by omega)
  have h2 : ∀ i : Fin 8, word64 (slice sec so (so+64)) i.val = laneAt sec so i := fun i =>
    word64_slice _ _ _ _ (by omega)
  rw [← specSteps]
  simp only [Spec.XXH3.accumulate, h1, h2]
  rfl

theorem scramble_closed (sec : List Byte) (h : 64 ≤ sec.length) (acc : Acc) :
    Spec.XXH3.scramble sec acc = scrLanes acc (laneAt sec (sec.length - 64)) := by
  have h2 : ∀ i : Fin 8, word64 (slice sec (sec.length - 64) sec.length) i.val =
      laneAt sec (sec.length - 64) i := fun i => word64_slice _ _ _ _ (by omega)
  rw [← specScr]
  simp only [Spec.XXH3.scramble, h2]

/-! ### Scalar -/

section
variable {cfg : Cfg} (hc : cfg.Valid) {b s : Buf} {msg sec : List Byte} (hb : Holds b msg)
  (hs : Holds s sec)

/-- 64-byte alignment satisfies every `XXH_ACC_ALIGN`. -/
theorem accAlign_ok {cfg : Cfg} {a : Nat} (h : a % 64 = 0) : a % cfg.accAlign = 0 := by
  unfold Cfg.accAlign
  repeat' split
  all_goals omega

/-- 64-byte alignment satisfies every `XXH_SEC_ALIGN`. -/
theorem secAlign_ok {cfg : Cfg} {a : Nat} (h : a % 64 = 0) : a % cfg.secAlign = 0 := by
  unfold Cfg.secAlign
  split
  · exact accAlign_ok h
  · split
    · exact accAlign_ok h
    · omega

/-- `XXH_ACC_ALIGN` is what the selected vector code needs. -/
theorem accAlign_need {cfg : Cfg} {a : Nat} (h : a % cfg.accAlign = 0) :
    match cfg.vector with
    | .scalar => a % 8 = 0
    | .sse2 | .neon | .vsx => a % 16 = 0
    | .avx2 => a % 32 = 0
    | .avx512 | .sve => a % 64 = 0 := by
  unfold Cfg.accAlign at h
  split at h <;> cases hv : cfg.vector <;> simp only [hv] at h ⊢ <;> omega

/-- `XXH_SEC_ALIGN` is what the selected vector code needs. -/
theorem secAlign_need {cfg : Cfg} {a : Nat} (h : a % cfg.secAlign = 0) :
    match cfg.vector with
    | .sse2 => a % 16 = 0
    | .avx2 => a % 32 = 0
    | .avx512 => a % 64 = 0
    | _ => True := by
  have hn := @accAlign_need cfg a
  unfold Cfg.secAlign at h
  cases hv : cfg.vector <;> simp only [hv] at hn ⊢
  all_goals
    rw [if_pos (by simp [hv])] at h
    exact hn h

include hc hb hs in
theorem scalarRound_eq {accAddr io so : Nat} (ha : accAddr % cfg.accAlign = 0) (hi : io + 64 ≤ msg.length)
    (hj : so + 64 ≤ sec.length) (acc : Acc) (lane : Fin 8) :
    scalarRound cfg accAddr b io s so acc lane =
      some (specStep (laneAt msg io) (laneAt sec so) acc lane) := by
  have e1 : lane.val * 8 = 8 * lane.val := by omega
  simp (disch := omega) only [scalarRound, ha, beq_self_eq_true, assert_true, e1,
    hs.readLE64 hc, hb.readLE64 hc, Option.bind_eq_bind, Option.bind_some, Option.pure_def,
    mult32to64_eq, lower32_shift, specStep, laneAt]
  congr 2
  rw [BitVec.add_comm]

include hc hb hs in
theorem accumulate_512_scalar_eq {accAddr io so : Nat} (ha : accAddr % cfg.accAlign = 0)
    (hi : io + 64 ≤ msg.length) (hj : so + 64 ≤ sec.length) (acc : Acc) :
    accumulate_512_scalar cfg accAddr acc b io s so =
      some (accLanes acc (laneAt msg io) (laneAt sec so)) := by
  rw [accumulate_512_scalar, XXH3P.foldlM_some (f := specStep (laneAt msg io) (laneAt sec so)) _ _
    fun st i _ => scalarRound_eq hc hb hs ha hi hj st i, specSteps]

/-- Scrambling one lane. -/
def scrStep (k : Fin 8 → W64) (acc : Acc) (i : Fin 8) : Acc := acc.set i (laneScr acc[i] (k i))

include hc hs in
theorem scalarScrambleRound_eq {accAddr so : Nat} (ha : accAddr % cfg.accAlign = 0)
    (hj : so + 64 ≤ sec.length) (acc : Acc) (lane : Fin 8) :
    scalarScrambleRound cfg accAddr s so acc lane = some (scrStep (laneAt sec so) acc lane) := by
  have e1 : lane.val * 8 = 8 * lane.val := by omega
  simp (disch := omega) only [scalarScrambleRound, ha, beq_self_eq_true, assert_true, e1,
    hs.readLE64 hc, Option.bind_eq_bind, Option.bind_some, Option.pure_def, scrStep, laneScr, laneAt,
    Model.XXH3.xorshift64]
  rfl

include hc hs in
theorem scrambleAcc_scalar_eq {accAddr so : Nat} (ha : accAddr % cfg.accAlign = 0)
    (hj : so + 64 ≤ sec.length) (acc : Acc) :
    scrambleAcc_scalar cfg accAddr acc s so = some (scrLanes acc (laneAt sec so)) := by
  rw [scrambleAcc_scalar, XXH3P.foldlM_some (f := scrStep (laneAt sec so)) _ _
    fun st i _ => scalarScrambleRound_eq hc hs ha hj st i, ← specScr]
  rfl

end

/-! ### 32-bit halves -/

theorem lo32_w (x : W64) : (lo32 x).setWidth 64 = lower32 x := by
  apply BitVec.eq_of_toNat_eq
  rw [lo32, BitVec.toNat_setWidth, BitVec.toNat_setWidth, lower32_toNat]; omega

theorem hi32_w (x : W64) : (hi32 x).setWidth 64 = higher32 x := by
  apply BitVec.eq_of_toNat_eq
  have := x.isLt
  rw [hi32, BitVec.toNat_setWidth, BitVec.toNat_setWidth, higher32_toNat, shift32_toNat]; omega

theorem join_toNat (h l : W32) : (join h l).toNat = h.toNat * 2^32 + l.toNat := by
  rw [join, BitVec.toNat_append, Nat.shiftLeft_eq, Nat.mul_comm,
    ← Nat.two_pow_add_eq_or_of_lt l.isLt]

theorem lo32_join (h l : W32) : lo32 (join h l) = l := by
  apply BitVec.eq_of_toNat_eq
  have := l.isLt
  rw [lo32, BitVec.toNat_setWidth, join_toNat]; omega

theorem hi32_join (h l : W32) : hi32 (join h l) = h := by
  apply BitVec.eq_of_toNat_eq
  have := l.isLt
  have := h.isLt
  rw [hi32, BitVec.toNat_setWidth, shift32_toNat, join_toNat]; omega

theorem lo32_toNat (x : W64) : (lo32 x).toNat = x.toNat % 2^32 := by
  rw [lo32, BitVec.toNat_setWidth]

theorem hi32_toNat (x : W64) : (hi32 x).toNat = x.toNat / 2^32 := by
  have := x.isLt
  rw [hi32, BitVec.toNat_setWidth, shift32_toNat]; omega

theorem join_self (x : W64) : join (hi32 x) (lo32 x) = x := by
  apply BitVec.eq_of_toNat_eq
  rw [join_toNat, hi32_toNat, lo32_toNat]; omega

theorem lo32_shift (x : W64) : lo32 (x >>> 32) = hi32 x := rfl

theorem lo32_rotl (x : W64) : lo32 (rotl64 x 32) = hi32 x := by
  rw [rotl64]
  apply BitVec.eq_of_getLsbD_eq
  intro i hi
  simp [lo32, hi32, hi]

/-- Multiplying the halves separately, as the scramble functions do. -/
theorem mul_halves (x p : W64) : lower32 x * p + ((higher32 x * p) <<< 32) = x * p := by
  conv => rhs; rw [XXH3P.high_split x]
  rw [BitVec.shiftLeft_eq_mul_twoPow, BitVec.shiftLeft_eq_mul_twoPow, BitVec.add_mul, BitVec.add_comm,
    BitVec.mul_assoc, BitVec.mul_comm p, BitVec.mul_assoc]

/-! ### Loads -/

section
variable {cfg : Cfg} {b s : Buf} {msg sec : List Byte}

/-- The register holding lanes `2i`, `2i+1` of the bytes at `off`. -/
def pairAt (xs : List Byte) (off : Nat) : V128 :=
  ⟨u64 (slice xs off (off+8)), u64 (slice xs (off+8) (off+16))⟩

theorem loadu_eq (hle : cfg.littleEndian = true) (hb : Holds b msg) {off : Nat}
    (h : off + 16 ≤ msg.length) : loadu cfg b off = some (pairAt msg off) := by
  rw [loadu, hb.readBytes h]
  simp only [Option.bind_eq_bind, Option.bind_some, ofBytes, native64, hle, if_true, Option.pure_def,
    pairAt]
  congr 3
  · simp [slice, List.take_take]
  · simp only [slice, List.drop_take, List.drop_drop]
    congr 1

theorem pairAt_eq (xs : List Byte) (off : Nat) (i : Fin 4) :
    pairAt xs (off + 16 * i.val) = pairOf (laneAt xs off) i := by
  simp only [pairAt, pairOf, laneAt]
  congr 3 <;> omega

theorem vec_revb_halves (bs : List Byte) (h : bs.length = 16) :
    (vec_revb bs).take 8 = (bs.take 8).reverse ∧ (vec_revb bs).drop 8 = (bs.drop 8).reverse := by
  match bs, h with
  | [b0, b1, b2, b3, b4, b5, b6, b7, b8, b9, b10, b11, b12, b13, b14, b15], _ =>
    exact ⟨rfl, rfl⟩

theorem vec_loadu_eq (hb : Holds b msg) {off : Nat} (h : off + 16 ≤ msg.length) :
    vec_loadu cfg b off = some (pairAt msg off) := by
  cases hle : cfg.littleEndian with
  | true =>
    rw [← loadu_eq hle hb h, vec_loadu, loadu]
    simp only [hle, if_true]
  | false =>
    rw [vec_loadu, hb.readBytes h]
    have hl : (slice msg off (off+16)).length = 16 := by rw [slice_length h]; omega
    have hv := vec_revb_halves _ hl
    simp only [Option.bind_eq_bind, Option.bind_some, ofBytes, hle, Option.pure_def, pairAt, hv,
      Bool.false_eq_true, if_false]
    have key : ∀ l : List Byte, native cfg 64 l.reverse = u64 l := by
      intro l
      simp [native64, hle]
    rw [key, key]
    congr 3
    · simp [slice, List.take_take]
    · simp only [slice, List.drop_take, List.drop_drop]
      congr 1

/-! ### Loop bodies -/

theorem mul_lo_hi (x : W64) :
    (lo32 x).setWidth 64 * (hi32 x).setWidth 64 = lower32 x * higher32 x := by rw [lo32_w, hi32_w]

theorem accBody_sse2_eq (a d k : V128) : accBody_sse2 a d k = pairAcc a d k := by
  have h1 : MM_SHUFFLE 0 3 0 1 = 49 := rfl
  have h2 : MM_SHUFFLE 1 0 3 2 = 78 := rfl
  simp only [accBody_sse2, pairAcc, h1, h2, shuffle_epi32, V128.dword, Simd.xor, add_epi64, mul_epu32,
    V128.zip, lo32_join, join_self, laneAcc, mul_lo_hi, Nat.reduceDiv, Nat.reduceMod]
  congr 1 <;> exact BitVec.add_comm _ _

theorem accBody_avx_eq (a d k : V128) : accBody_avx a d k = pairAcc a d k := by
  have h2 : MM_SHUFFLE 1 0 3 2 = 78 := rfl
  simp only [accBody_avx, pairAcc, h2, shuffle_epi32, V128.dword, Simd.xor, add_epi64, mul_epu32,
    V128.zip, V128.map, srli_epi64, lo32_shift, join_self, laneAcc, mul_lo_hi, Nat.reduceDiv,
    Nat.reduceMod]
  congr 1 <;> exact BitVec.add_comm _ _

theorem prime_lo : (lo32 (join 0x9E3779B1#32 0x9E3779B1#32)).setWidth 64 = Spec.XXH3.PRIME32_1 := by
  rw [lo32_join]; rfl

theorem prime_hi : (hi32 (join 0x9E3779B1#32 0x9E3779B1#32)).setWidth 64 = Spec.XXH3.PRIME32_1 := by
  rw [hi32_join]; rfl

theorem mul_halves' (x : W64) :
    (lo32 x).setWidth 64 * Spec.XXH3.PRIME32_1 + ((hi32 x).setWidth 64 * Spec.XXH3.PRIME32_1) <<< 32 =
      x * Spec.XXH3.PRIME32_1 := by
  rw [lo32_w, hi32_w, mul_halves]

theorem mul_halves'' (x : W64) :
    ((hi32 x).setWidth 64 * Spec.XXH3.PRIME32_1) <<< 32 + (lo32 x).setWidth 64 * Spec.XXH3.PRIME32_1 =
      x * Spec.XXH3.PRIME32_1 := by
  rw [BitVec.add_comm, mul_halves']

theorem prime_w : (0x9E3779B1#32).setWidth 64 = Spec.XXH3.PRIME32_1 := rfl

theorem scrBody_sse2_eq (a k : V128) : scrBody_sse2 a k = pairScr a k := by
  have h1 : MM_SHUFFLE 0 3 0 1 = 49 := rfl
  simp only [scrBody_sse2, pairScr, h1, shuffle_epi32, V128.dword, Simd.xor, add_epi64, mul_epu32,
    V128.zip, V128.map, srli_epi64, slli_epi64, lo32_join, set1_epi32, prime_w, laneScr,
    Nat.reduceDiv, Nat.reduceMod, mul_halves']

theorem scrBody_avx2_eq (a k : V128) : scrBody_avx2 a k = pairScr a k := by
  simp only [scrBody_avx2, pairScr, Simd.xor, add_epi64, mul_epu32,
    V128.zip, V128.map, srli_epi64, slli_epi64, lo32_shift, set1_epi32, prime_lo, laneScr, mul_halves']

theorem scrBody_avx512_eq (a k : V128) : scrBody_avx512 a k = pairScr a k := by
  have hx : ∀ x y z : W64, x ^^^ y ^^^ z = y ^^^ z ^^^ x := fun x y z => by
    rw [BitVec.xor_assoc, BitVec.xor_comm]
  simp only [scrBody_avx512, pairScr, Simd.xor, ternarylogic_0x96, add_epi64, mul_epu32,
    V128.zip, V128.map, srli_epi64, slli_epi64, lo32_shift, set1_epi32, prime_lo, laneScr, mul_halves',
    hx k.e0, hx k.e1]

theorem scrBody_vsx_eq (a k : V128) : scrBody_vsx a k = pairScr a k := by
  simp only [scrBody_vsx, pairScr, Simd.xor, add_epi64, vec_mule, vec_mulo,
    V128.zip, V128.map, srli_epi64, slli_epi64, set1_epi32, prime_lo, prime_hi, laneScr, mul_halves']

theorem accBody_vsx_eq (a d k : V128) : accBody_vsx a d k = pairAcc a d k := by
  simp only [accBody_vsx, pairAcc, Simd.xor, add_epi64, vec_mulo, vec_rl, vec_swap,
    V128.zip, V128.map, lo32_rotl, laneAcc, mul_lo_hi]
  congr 1 <;> exact add_right_comm64 _ _ _

theorem accBody2_neon_eq (a d k : V128) : accBody2_neon a d k = pairAcc a d k := by
  have h : ∀ x : W64, (x >>> 32).setWidth 32 = hi32 x := fun _ => rfl
  simp only [accBody2_neon, pairAcc, Simd.xor, add_epi64, vextq_u64_1, vmovn_u64, vshrn_n_u64, vmlal_u32,
    V128.zip, laneAcc, h, mul_lo_hi, BitVec.add_assoc]

theorem accBody4_neon_eq (a1 a2 d1 d2 k1 k2 : V128) :
    accBody4_neon a1 a2 d1 d2 k1 k2 = (pairAcc a1 d1 k1, pairAcc a2 d2 k2) := by
  simp only [accBody4_neon, pairAcc, Simd.xor, add_epi64, vextq_u64_1, vuzpq_u32, vreinterpretq_u32_u64,
    vmlal_low_u32, vmlal_high_u32, vget_low_u32, vget_high_u32, vmlal_u32,
    V128.zip, laneAcc, mul_lo_hi, BitVec.add_assoc]

theorem join_mul_zero (x : W64) :
    join (hi32 x * 0x9E3779B1#32) (lo32 x * 0) =
      ((hi32 x).setWidth 64 * Spec.XXH3.PRIME32_1) <<< 32 := by
  apply BitVec.eq_of_toNat_eq
  have hp : Spec.XXH3.PRIME32_1.toNat = 0x9E3779B1 := rfl
  have hp' : (0x9E3779B1#32).toNat = 0x9E3779B1 := rfl
  have := (hi32 x).isLt
  rw [join_toNat, BitVec.toNat_mul, BitVec.toNat_mul, BitVec.toNat_shiftLeft, BitVec.toNat_mul,
    BitVec.toNat_setWidth, hp, hp', Nat.shiftLeft_eq]
  rw [Nat.mod_eq_of_lt (a := (hi32 x).toNat) (by omega)]
  have hz : (0 : W32).toNat = 0 := rfl
  rw [hz, Nat.mul_zero]
  omega

theorem scrBody_neon_eq (a k : V128) : scrBody_neon cfg a k = pairScr a k := by
  have e1 : lo32 (0x9E3779B1#64 <<< 32) = 0 := by decide
  have e2 : hi32 (0x9E3779B1#64 <<< 32) = 0x9E3779B1#32 := by decide
  have e3 : (0x9E3779B1#32).setWidth 64 = Spec.XXH3.PRIME32_1 := rfl
  have e4 : Model.XXH3.PRIME32_1 = Spec.XXH3.PRIME32_1 := rfl
  unfold scrBody_neon
  cases cfg.neonWasm
  · simp only [Bool.false_eq_true, if_false, pairScr, Simd.xor, vreinterpretq_u32_u64, vmulq_u32,
      vreinterpretq_u64_u32, vmovn_u64, vmlal_u32, V128.zip, V128.map, srli_epi64, laneScr, e1, e2, e3,
      join_mul_zero, mul_halves'']
  · simp only [if_true, pairScr, Simd.xor, V128.zip, V128.map, srli_epi64, laneScr, e4]

/-! ### The functions -/

theorem finRange_pairs : List.finRange 4 ∈ [[0, 1, 2, 3], [1, 2, 3, 0], [2, 3, 0, 1], [3, 0, 1, 2]] := by
  rw [finRange4]; simp

theorem getPair_setPair_ne (acc : Acc) {i j : Fin 4} (h : i ≠ j) (v : V128) :
    getPair (setPair acc i v) j = getPair acc j := by
  have h' : i.val ≠ j.val := fun e => h (Fin.ext e)
  simp only [getPair, setPair]
  congr 1 <;> rw [Vector.getElem_set_ne, Vector.getElem_set_ne] <;> omega

theorem slice_pair (h : Holds b msg) (hle : cfg.littleEndian = true) {off : Nat} (i : Fin 4)
    (hi : off + 64 ≤ msg.length) :
    loadu cfg b (off + 16 * i.val) = some (pairOf (laneAt msg off) i) := by
  rw [loadu_eq hle h (by omega), pairAt_eq]

theorem vec_pair (h : Holds b msg) {off : Nat} (i : Fin 4) (hi : off + 64 ≤ msg.length) :
    vec_loadu cfg b (off + 16 * i.val) = some (pairOf (laneAt msg off) i) := by
  rw [vec_loadu_eq h (by omega), pairAt_eq]

theorem load256 (h : Holds b msg) (hle : cfg.littleEndian = true) {off : Nat} (i : Fin 2)
    (hi : off + 64 ≤ msg.length) :
    loadu256 cfg b (off + 32 * i.val) =
      some ⟨pairOf (laneAt msg off) ⟨2 * i.val, by omega⟩,
        pairOf (laneAt msg off) ⟨2 * i.val + 1, by omega⟩⟩ := by
  have h0 := slice_pair h hle ⟨2 * i.val, by omega⟩ hi
  have h1 := slice_pair h hle ⟨2 * i.val + 1, by omega⟩ hi
  rw [show off + 16 * (2 * i.val) = off + 32 * i.val by omega] at h0
  rw [show off + 16 * (2 * i.val + 1) = off + 32 * i.val + 16 by omega] at h1
  rw [loadu256, h0, h1]
  rfl

theorem load512 (h : Holds b msg) (hle : cfg.littleEndian = true) {off : Nat}
    (hi : off + 64 ≤ msg.length) :
    loadu512 cfg b off =
      some ⟨pairOf (laneAt msg off) 0, pairOf (laneAt msg off) 1, pairOf (laneAt msg off) 2,
        pairOf (laneAt msg off) 3⟩ := by
  have h0 := slice_pair h hle 0 hi
  have h1 := slice_pair h hle 1 hi
  have h2 := slice_pair h hle 2 hi
  have h3 := slice_pair h hle 3 hi
  simp only [show ((0 : Fin 4) : Nat) = 0 from rfl, show ((1 : Fin 4) : Nat) = 1 from rfl,
    show ((2 : Fin 4) : Nat) = 2 from rfl, show ((3 : Fin 4) : Nat) = 3 from rfl, Nat.mul_zero,
    Nat.mul_one, Nat.add_zero, Nat.reduceMul] at h0 h1 h2 h3
  rw [loadu512, h0, h1, h2, h3]
  rfl

/-- Accumulating two different pairs. -/
theorem unitAcc_two (d k : Fin 8 → W64) (acc : Acc) {i j : Fin 4} (h : i ≠ j) :
    setPair (setPair acc i (pairAcc (getPair acc i) (pairOf d i) (pairOf k i))) j
      (pairAcc (getPair acc j) (pairOf d j) (pairOf k j)) = unitAcc d k (unitAcc d k acc i) j := by
  rw [unitAcc, unitAcc, getPair_setPair_ne acc h]

theorem unitScr_two (k : Fin 8 → W64) (acc : Acc) {i j : Fin 4} (h : i ≠ j) :
    setPair (setPair acc i (pairScr (getPair acc i) (pairOf k i))) j
      (pairScr (getPair acc j) (pairOf k j)) = unitScr k (unitScr k acc i) j := by
  rw [unitScr, unitScr, getPair_setPair_ne acc h]

theorem accLoop4_step (hle : cfg.littleEndian = true) (hb : Holds b msg) (hs : Holds s sec)
    {io so : Nat} (hi : io + 64 ≤ msg.length) (hj : so + 64 ≤ sec.length) (acc : Acc) (fuel i : Nat)
    (h : i + 1 < cfg.neonLanes / 2) (h4 : i + 1 < 4) :
    accLoop4_neon cfg b io s so (fuel+1) (acc, i) =
      accLoop4_neon cfg b io s so fuel
        (unitAcc (laneAt msg io) (laneAt sec so) (unitAcc (laneAt msg io) (laneAt sec so) acc
          ⟨i, by omega⟩) ⟨i+1, h4⟩, i + 2) := by
  have d1 := slice_pair hb hle ⟨i, by omega⟩ hi
  have d2 := slice_pair hb hle ⟨i+1, h4⟩ hi
  have k1 := slice_pair hs hle ⟨i, by omega⟩ hj
  have k2 := slice_pair hs hle ⟨i+1, h4⟩ hj
  simp only [Nat.mul_comm 16] at d1 d2 k1 k2
  rw [accLoop4_neon, dif_pos ⟨h, h4⟩, d1, d2, k1, k2]
  simp only [Option.bind_eq_bind, Option.bind_some, accBody4_neon_eq]
  rw [unitAcc_two]
  intro e
  have := congrArg Fin.val e
  simp only at this
  omega

theorem accLoop2_step (hle : cfg.littleEndian = true) (hb : Holds b msg) (hs : Holds s sec)
    {io so : Nat} (hi : io + 64 ≤ msg.length) (hj : so + 64 ≤ sec.length) (acc : Acc) (fuel i : Nat)
    (h : i < cfg.neonLanes / 2) (h4 : i < 4) :
    accLoop2_neon cfg b io s so (fuel+1) (acc, i) =
      accLoop2_neon cfg b io s so fuel
        (unitAcc (laneAt msg io) (laneAt sec so) acc ⟨i, h4⟩, i + 1) := by
  have d1 := slice_pair hb hle ⟨i, h4⟩ hi
  have k1 := slice_pair hs hle ⟨i, h4⟩ hj
  simp only [Nat.mul_comm 16] at d1 k1
  rw [accLoop2_neon, dif_pos ⟨h, h4⟩, d1, k1]
  simp only [Option.bind_eq_bind, Option.bind_some, accBody2_neon_eq]
  rw [unitAcc]

theorem scrStep_pair (acc : Acc) (k : Fin 8 → W64) :
    scrStep k (scrStep k acc 0) 1 = unitScr k acc 0 ∧
    scrStep k (scrStep k acc 2) 3 = unitScr k acc 1 ∧
    scrStep k (scrStep k acc 4) 5 = unitScr k acc 2 ∧
    scrStep k (scrStep k acc 6) 7 = unitScr k acc 3 := by
  rw [acc_lit acc]
  generalize acc[0] = a0, acc[1] = a1, acc[2] = a2, acc[3] = a3, acc[4] = a4, acc[5] = a5,
    acc[6] = a6, acc[7] = a7
  simp only [unitScr_lit]
  exact ⟨rfl, rfl, rfl, rfl⟩

theorem pairAcc_of (a0 a1 : W64) (d k : Fin 8 → W64) :
    pairAcc ⟨a0, a1⟩ (pairOf d 0) (pairOf k 0) =
      ⟨laneAcc a0 (d 1) (d 0 ^^^ k 0), laneAcc a1 (d 0) (d 1 ^^^ k 1)⟩ ∧
    pairAcc ⟨a0, a1⟩ (pairOf d 1) (pairOf k 1) =
      ⟨laneAcc a0 (d 3) (d 2 ^^^ k 2), laneAcc a1 (d 2) (d 3 ^^^ k 3)⟩ ∧
    pairAcc ⟨a0, a1⟩ (pairOf d 2) (pairOf k 2) =
      ⟨laneAcc a0 (d 5) (d 4 ^^^ k 4), laneAcc a1 (d 4) (d 5 ^^^ k 5)⟩ ∧
    pairAcc ⟨a0, a1⟩ (pairOf d 3) (pairOf k 3) =
      ⟨laneAcc a0 (d 7) (d 6 ^^^ k 6), laneAcc a1 (d 6) (d 7 ^^^ k 7)⟩ := ⟨rfl, rfl, rfl, rfl⟩

theorem pairScr_of (a0 a1 : W64) (k : Fin 8 → W64) :
    pairScr ⟨a0, a1⟩ (pairOf k 0) = ⟨laneScr a0 (k 0), laneScr a1 (k 1)⟩ ∧
    pairScr ⟨a0, a1⟩ (pairOf k 1) = ⟨laneScr a0 (k 2), laneScr a1 (k 3)⟩ ∧
    pairScr ⟨a0, a1⟩ (pairOf k 2) = ⟨laneScr a0 (k 4), laneScr a1 (k 5)⟩ ∧
    pairScr ⟨a0, a1⟩ (pairOf k 3) = ⟨laneScr a0 (k 6), laneScr a1 (k 7)⟩ := ⟨rfl, rfl, rfl, rfl⟩

section
variable (hle : cfg.littleEndian = true) (hb : Holds b msg) (hs : Holds s sec)
  {accAddr io so : Nat}

include hle hb hs in
theorem accumulate_512_sse2_eq (ha : accAddr % 16 = 0) (hi : io + 64 ≤ msg.length) (hj : so + 64 ≤ sec.length) (acc : Acc) :
    accumulate_512_sse2 cfg accAddr acc b io s so =
      some (accLanes acc (laneAt msg io) (laneAt sec so)) := by
  rw [← unitAcc_all acc _ _ _ finRange_pairs]
  unfold accumulate_512_sse2
  simp only [ha, beq_self_eq_true, assert_true, Option.bind_eq_bind, Option.bind_some]
  simp only [Option.bind_some, Option.pure_def, slice_pair hb hle _ hi, slice_pair hs hle _ hj, accBody_sse2_eq]
  rw [XXH3P.foldlM_some (f := unitAcc (laneAt msg io) (laneAt sec so))]
  intro st i _
  rw [unitAcc]

include hle hs in
theorem scrambleAcc_sse2_eq (ha : accAddr % 16 = 0) (hj : so + 64 ≤ sec.length) (acc : Acc) :
    scrambleAcc_sse2 cfg accAddr acc s so = some (scrLanes acc (laneAt sec so)) := by
  rw [← unitScr_all acc _ _ finRange_pairs]
  unfold scrambleAcc_sse2
  simp only [ha, beq_self_eq_true, assert_true, Option.bind_eq_bind, Option.bind_some]
  simp only [Option.bind_some, Option.pure_def, slice_pair hs hle _ hj, scrBody_sse2_eq]
  rw [XXH3P.foldlM_some (f := unitScr (laneAt sec so))]
  intro st i _
  rw [unitScr]

include hb hs in
theorem accumulate_512_vsx_eq (ha : accAddr % 16 = 0) (hi : io + 64 ≤ msg.length) (hj : so + 64 ≤ sec.length) (acc : Acc) :
    accumulate_512_vsx cfg accAddr acc b io s so =
      some (accLanes acc (laneAt msg io) (laneAt sec so)) := by
  rw [← unitAcc_all acc _ _ _ finRange_pairs]
  unfold accumulate_512_vsx
  simp only [ha, beq_self_eq_true, assert_true, Option.bind_eq_bind, Option.bind_some]
  simp only [Option.bind_some, Option.pure_def, vec_pair hb _ hi, vec_pair hs _ hj, accBody_vsx_eq]
  rw [XXH3P.foldlM_some (f := unitAcc (laneAt msg io) (laneAt sec so))]
  intro st i _
  rw [unitAcc]

include hs in
theorem scrambleAcc_vsx_eq (ha : accAddr % 16 = 0) (hj : so + 64 ≤ sec.length) (acc : Acc) :
    scrambleAcc_vsx cfg accAddr acc s so = some (scrLanes acc (laneAt sec so)) := by
  rw [← unitScr_all acc _ _ finRange_pairs]
  unfold scrambleAcc_vsx
  simp only [ha, beq_self_eq_true, assert_true, Option.bind_eq_bind, Option.bind_some]
  simp only [Option.bind_some, Option.pure_def, vec_pair hs _ hj, scrBody_vsx_eq]
  rw [XXH3P.foldlM_some (f := unitScr (laneAt sec so))]
  intro st i _
  rw [unitScr]

include hle hb hs in
theorem accumulate_512_avx2_eq (ha : accAddr % 32 = 0) (hi : io + 64 ≤ msg.length) (hj : so + 64 ≤ sec.length) (acc : Acc) :
    accumulate_512_avx2 cfg accAddr acc b io s so =
      some (accLanes acc (laneAt msg io) (laneAt sec so)) := by
  rw [← unitAcc_all acc _ _ [0, 1, 2, 3] (by simp)]
  unfold accumulate_512_avx2
  simp only [ha, beq_self_eq_true, assert_true, Option.bind_eq_bind, Option.bind_some]
  simp only [Option.bind_some, Option.pure_def, load256 hb hle _ hi, load256 hs hle _ hj, accBody_avx_eq]
  rw [XXH3P.foldlM_some (f := fun acc (i : Fin 2) =>
    unitAcc (laneAt msg io) (laneAt sec so) (unitAcc (laneAt msg io) (laneAt sec so) acc
      ⟨2 * i.val, by omega⟩) ⟨2 * i.val + 1, by omega⟩), finRange2]
  · rfl
  · intro st i _
    rw [unitAcc_two]
    intro e
    have := congrArg Fin.val e
    simp only at this
    omega

include hle hs in
theorem scrambleAcc_avx2_eq (ha : accAddr % 32 = 0) (hj : so + 64 ≤ sec.length) (acc : Acc) :
    scrambleAcc_avx2 cfg accAddr acc s so = some (scrLanes acc (laneAt sec so)) := by
  rw [← unitScr_all acc _ [0, 1, 2, 3] (by simp)]
  unfold scrambleAcc_avx2
  simp only [ha, beq_self_eq_true, assert_true, Option.bind_eq_bind, Option.bind_some]
  simp only [Option.bind_some, Option.pure_def, load256 hs hle _ hj, scrBody_avx2_eq]
  rw [XXH3P.foldlM_some (f := fun acc (i : Fin 2) =>
    unitScr (laneAt sec so) (unitScr (laneAt sec so) acc
      ⟨2 * i.val, by omega⟩) ⟨2 * i.val + 1, by omega⟩), finRange2]
  · rfl
  · intro st i _
    rw [unitScr_two]
    intro e
    have := congrArg Fin.val e
    simp only at this
    omega

include hle hb hs in
theorem accumulate_512_avx512_eq (ha : accAddr % 64 = 0) (hi : io + 64 ≤ msg.length) (hj : so + 64 ≤ sec.length) (acc : Acc) :
    accumulate_512_avx512 cfg accAddr acc b io s so =
      some (accLanes acc (laneAt msg io) (laneAt sec so)) := by
  rw [acc_lit acc]
  generalize acc[0] = a0, acc[1] = a1, acc[2] = a2, acc[3] = a3, acc[4] = a4, acc[5] = a5,
    acc[6] = a6, acc[7] = a7
  rw [accLanes_lit]
  unfold accumulate_512_avx512
  simp only [ha, beq_self_eq_true, assert_true, Option.bind_eq_bind, Option.bind_some]
  simp only [Option.bind_some, Option.pure_def, load512 hb hle hi, load512 hs hle hj, accBody_avx_eq,
    getPair_lit, setPair_lit, pairAcc_of]

include hle hs in
theorem scrambleAcc_avx512_eq (ha : accAddr % 64 = 0) (hj : so + 64 ≤ sec.length) (acc : Acc) :
    scrambleAcc_avx512 cfg accAddr acc s so = some (scrLanes acc (laneAt sec so)) := by
  rw [acc_lit acc]
  generalize acc[0] = a0, acc[1] = a1, acc[2] = a2, acc[3] = a3, acc[4] = a4, acc[5] = a5,
    acc[6] = a6, acc[7] = a7
  rw [scrLanes_lit]
  unfold scrambleAcc_avx512
  simp only [ha, beq_self_eq_true, assert_true, Option.bind_eq_bind, Option.bind_some]
  simp only [Option.bind_some, Option.pure_def, load512 hs hle hj, scrBody_avx512_eq,
    getPair_lit, setPair_lit, pairScr_of]

include hle hb hs in
theorem accumulate_512_neon_eq (h16 : accAddr % 16 = 0) (ha : accAddr % cfg.accAlign = 0) (hc : cfg.Valid) (hn : cfg.neonLanes ∈ [2, 4, 6, 8])
    (hi : io + 64 ≤ msg.length) (hj : so + 64 ≤ sec.length) (acc : Acc) :
    accumulate_512_neon cfg accAddr acc b io s so =
      some (accLanes acc (laneAt msg io) (laneAt sec so)) := by
  have hsc : ∀ (l : List (Fin 8)) (acc : Acc),
      l.foldlM (fun acc i => scalarRound cfg accAddr b io s so acc i) acc =
        some (l.foldl (specStep (laneAt msg io) (laneAt sec so)) acc) := fun l acc =>
    XXH3P.foldlM_some _ _ fun st i _ => scalarRound_eq hc hb hs ha hi hj st i
  unfold accumulate_512_neon
  simp only [h16, beq_self_eq_true, assert_true, Option.bind_eq_bind, Option.bind_some, hsc]
  simp only [List.mem_cons, List.not_mem_nil, or_false] at hn
  rcases hn with hn | hn | hn | hn
  · have hl : scalarLanes cfg = [2, 3, 4, 5, 6, 7] := by
      simp only [scalarLanes, hn, finRange8]; decide
    rw [hl, ← unitAcc_all acc _ _ [1, 2, 3, 0] (by simp), hn]
    rw [accLoop4_neon, dif_neg (by omega)]
    simp only [Option.bind_some, List.foldl, specStep_pair]
    rw [accLoop2_step hle hb hs hi hj _ 4 0 (by omega) (by omega), accLoop2_neon, dif_neg (by omega)]
    rfl
  · have hl : scalarLanes cfg = [4, 5, 6, 7] := by
      simp only [scalarLanes, hn, finRange8]; decide
    rw [hl, ← unitAcc_all acc _ _ [2, 3, 0, 1] (by simp), hn]
    rw [accLoop4_step hle hb hs hi hj _ 4 0 (by omega) (by omega), accLoop4_neon, dif_neg (by omega)]
    simp only [Option.bind_some, List.foldl, specStep_pair]
    rw [accLoop2_neon, dif_neg (by omega)]
    rfl
  · have hl : scalarLanes cfg = [6, 7] := by
      simp only [scalarLanes, hn, finRange8]; decide
    rw [hl, ← unitAcc_all acc _ _ [3, 0, 1, 2] (by simp), hn]
    rw [accLoop4_step hle hb hs hi hj _ 4 0 (by omega) (by omega), accLoop4_neon, dif_neg (by omega)]
    simp only [Option.bind_some, List.foldl, specStep_pair]
    rw [accLoop2_step hle hb hs hi hj _ 4 2 (by omega) (by omega), accLoop2_neon, dif_neg (by omega)]
    rfl
  · have hl : scalarLanes cfg = [] := by
      simp only [scalarLanes, hn, finRange8]; decide
    rw [hl, ← unitAcc_all acc _ _ [0, 1, 2, 3] (by simp), hn]
    rw [accLoop4_step hle hb hs hi hj _ 4 0 (by omega) (by omega),
      accLoop4_step hle hb hs hi hj _ 3 2 (by omega) (by omega), accLoop4_neon, dif_neg (by omega)]
    simp only [Option.bind_some, List.foldl]
    rw [accLoop2_neon, dif_neg (by omega)]
    rfl

include hle hs in
theorem scrambleAcc_neon_eq (h16 : accAddr % 16 = 0) (ha : accAddr % cfg.accAlign = 0) (hc : cfg.Valid) (hn : cfg.neonLanes ∈ [2, 4, 6, 8])
    (hj : so + 64 ≤ sec.length) (acc : Acc) :
    scrambleAcc_neon cfg accAddr acc s so = some (scrLanes acc (laneAt sec so)) := by
  have hsc : ∀ (l : List (Fin 8)) (acc : Acc),
      l.foldlM (fun acc i => scalarScrambleRound cfg accAddr s so acc i) acc =
        some (l.foldl (scrStep (laneAt sec so)) acc) := fun l acc =>
    XXH3P.foldlM_some _ _ fun st i _ => scalarScrambleRound_eq hc hs ha hj st i
  unfold scrambleAcc_neon
  simp only [h16, beq_self_eq_true, assert_true, Option.bind_eq_bind, Option.bind_some, hsc]
  rw [XXH3P.foldlM_some (f := unitScr (laneAt sec so))]
  · simp only [List.mem_cons, List.not_mem_nil, or_false] at hn
    rcases hn with hn | hn | hn | hn
    · have hl : scalarLanes cfg = [2, 3, 4, 5, 6, 7] := by
        simp only [scalarLanes, hn, finRange8]; decide
      have hu : neonUnits cfg = [0] := by simp only [neonUnits, hn, finRange4]; decide
      rw [hl, hu, ← unitScr_all acc _ [1, 2, 3, 0] (by simp)]
      simp only [List.foldl, scrStep_pair]
    · have hl : scalarLanes cfg = [4, 5, 6, 7] := by
        simp only [scalarLanes, hn, finRange8]; decide
      have hu : neonUnits cfg = [0, 1] := by simp only [neonUnits, hn, finRange4]; decide
      rw [hl, hu, ← unitScr_all acc _ [2, 3, 0, 1] (by simp)]
      simp only [List.foldl, scrStep_pair]
    · have hl : scalarLanes cfg = [6, 7] := by
        simp only [scalarLanes, hn, finRange8]; decide
      have hu : neonUnits cfg = [0, 1, 2] := by simp only [neonUnits, hn, finRange4]; decide
      rw [hl, hu, ← unitScr_all acc _ [3, 0, 1, 2] (by simp)]
      simp only [List.foldl, scrStep_pair]
    · have hl : scalarLanes cfg = [] := by
        simp only [scalarLanes, hn, finRange8]; decide
      have hu : neonUnits cfg = [0, 1, 2, 3] := by simp only [neonUnits, hn, finRange4]; decide
      rw [hl, hu, ← unitScr_all acc _ [0, 1, 2, 3] (by simp)]
      simp only [List.foldl]
  · intro st i _
    rw [Nat.mul_comm, slice_pair hs hle _ hj]
    simp only [Option.bind_some, Option.pure_def, scrBody_neon_eq]
    rw [unitScr]

end

/-! ### SVE -/

/-- Lane `j` of the 64 bytes at `off`, with a plain index. -/
def laneN (xs : List Byte) (off j : Nat) : W64 := u64 (slice xs (off + 8 * j) (off + 8 * j + 8))

theorem svld1_eq (hle : cfg.littleEndian = true) (hb : Holds b msg) {off n g : Nat}
    (h : off + 8 * (n * g) + 8 * n ≤ msg.length) :
    svld1 cfg n b (off + 8 * (n * g)) =
      some ((List.range n).map fun i => laneN msg off (n * g + i)) := by
  rw [svld1, hb.readBytes h]
  simp only [Option.bind_eq_bind, Option.bind_some, Option.pure_def, native64, hle, if_true]
  congr 1
  apply List.map_congr_left
  intro i hi
  have hi := List.mem_range.mp hi
  simp only [laneN, slice, List.drop_take, List.drop_drop, List.take_take]
  congr 2
  · omega
  · congr 1; omega

theorem sveLanes_mem (cfg : Cfg) :
    sveLanes cfg = 2 ∨ sveLanes cfg = 4 ∨ sveLanes cfg = 8 := by
  unfold sveLanes
  split
  · simp
  · split <;> simp

theorem sveLane (a d x : W64) :
    a + ((x.setWidth 32).setWidth 64 * x >>> 32 + d) = laneAcc a d x := by
  have h : (x.setWidth 32).setWidth 64 = lower32 x := lo32_w x
  have h' : x >>> 32 = higher32 x := by
    apply BitVec.eq_of_toNat_eq
    rw [higher32_toNat, shift32_toNat]
  rw [h, h', laneAcc, BitVec.add_comm _ d, ← BitVec.add_assoc]

theorem svswap_2 (d0 d1 : W64) :
    svswap [d0, d1] = [d1, d0] := by
  have e : List.range [d0, d1].length = [0, 1] := rfl
  rw [svswap, e]
  simp only [List.map, Nat.reduceXor, List.getD_cons_zero, List.getD_cons_succ]

theorem ACCRND_2 (a0 a1 d0 d1 k0 k1 : W64) :
    ACCRND [a0, a1] [d0, d1] [k0, k1] =
      [laneAcc a0 d1 (d0 ^^^ k0), laneAcc a1 d0 (d1 ^^^ k1)] := by
  rw [ACCRND, svswap_2]
  simp only [List.zipWith, List.map, sveLane,
    BitVec.xor_comm k0 d0, BitVec.xor_comm k1 d1]

theorem svswap_4 (d0 d1 d2 d3 : W64) :
    svswap [d0, d1, d2, d3] = [d1, d0, d3, d2] := by
  have e : List.range [d0, d1, d2, d3].length = [0, 1, 2, 3] := rfl
  rw [svswap, e]
  simp only [List.map, Nat.reduceXor, List.getD_cons_zero, List.getD_cons_succ]

theorem ACCRND_4 (a0 a1 a2 a3 d0 d1 d2 d3 k0 k1 k2 k3 : W64) :
    ACCRND [a0, a1, a2, a3] [d0, d1, d2, d3] [k0, k1, k2, k3] =
            [laneAcc a0 d1 (d0 ^^^ k0), laneAcc a1 d0 (d1 ^^^ k1), laneAcc a2 d3 (d2 ^^^ k2),
        laneAcc a3 d2 (d3 ^^^ k3)] := by
  rw [ACCRND, svswap_4]
  simp only [List.zipWith, List.map, sveLane,
    BitVec.xor_comm k0 d0, BitVec.xor_comm k1 d1, BitVec.xor_comm k2 d2, BitVec.xor_comm k3 d3]

theorem svswap_8 (d0 d1 d2 d3 d4 d5 d6 d7 : W64) :
    svswap [d0, d1, d2, d3, d4, d5, d6, d7] = [d1, d0, d3, d2, d5, d4, d7, d6] := by
  have e : List.range [d0, d1, d2, d3, d4, d5, d6, d7].length = [0, 1, 2, 3, 4, 5, 6, 7] := rfl
  rw [svswap, e]
  simp only [List.map, Nat.reduceXor, List.getD_cons_zero, List.getD_cons_succ]

theorem ACCRND_8 (a0 a1 a2 a3 a4 a5 a6 a7 d0 d1 d2 d3 d4 d5 d6 d7 k0 k1 k2 k3 k4 k5 k6 k7 : W64) :
        ACCRND [a0, a1, a2, a3, a4, a5, a6, a7] [d0, d1, d2, d3, d4, d5, d6, d7] [k0, k1, k2, k3,
      k4, k5, k6, k7] =
            [laneAcc a0 d1 (d0 ^^^ k0), laneAcc a1 d0 (d1 ^^^ k1), laneAcc a2 d3 (d2 ^^^ k2),
        laneAcc a3 d2 (d3 ^^^ k3), laneAcc a4 d5 (d4 ^^^ k4), laneAcc a5 d4 (d5 ^^^ k5), laneAcc a6
        d7 (d6 ^^^ k6), laneAcc a7 d6 (d7 ^^^ k7)] := by
  rw [ACCRND, svswap_8]
  simp only [List.zipWith, List.map, sveLane,
        BitVec.xor_comm k0 d0, BitVec.xor_comm k1 d1, BitVec.xor_comm k2 d2, BitVec.xor_comm k3 d3,
      BitVec.xor_comm k4 d4, BitVec.xor_comm k5 d5, BitVec.xor_comm k6 d6, BitVec.xor_comm k7 d7]

theorem sveStripe_eq (hle : cfg.littleEndian = true) (hb : Holds b msg) (hs : Holds s sec) {io so : Nat}
    (hi : io + 64 ≤ msg.length) (hj : so + 64 ≤ sec.length) (acc : Acc) :
    sveStripe cfg b io s so acc = some (accLanes acc (laneAt msg io) (laneAt sec so)) := by
  rw [acc_lit acc]
  generalize acc[0] = a0, acc[1] = a1, acc[2] = a2, acc[3] = a3, acc[4] = a4, acc[5] = a5,
    acc[6] = a6, acc[7] = a7
  have hl : (mk8 a0 a1 a2 a3 a4 a5 a6 a7).toList = [a0, a1, a2, a3, a4, a5, a6, a7] := rfl
  rw [accLanes_lit]
  have hd : ∀ xs off, laneN xs off 0 = laneAt xs off 0 ∧ laneN xs off 1 = laneAt xs off 1 ∧
      laneN xs off 2 = laneAt xs off 2 ∧ laneN xs off 3 = laneAt xs off 3 ∧
      laneN xs off 4 = laneAt xs off 4 ∧ laneN xs off 5 = laneAt xs off 5 ∧
      laneN xs off 6 = laneAt xs off 6 ∧ laneN xs off 7 = laneAt xs off 7 := fun _ _ =>
    ⟨rfl, rfl, rfl, rfl, rfl, rfl, rfl, rfl⟩
  have hg : ∀ n g, n * g + n ≤ 8 → sveLanes cfg = n →
      sveGroup cfg b io s so (mk8 a0 a1 a2 a3 a4 a5 a6 a7) g =
        some (ACCRND (([a0, a1, a2, a3, a4, a5, a6, a7].drop (n * g)).take n)
          ((List.range n).map fun i => laneN msg io (n * g + i))
          ((List.range n).map fun i => laneN sec so (n * g + i))) := by
    intro n g h hn
    rw [sveGroup, hn, hl, svld1_eq hle hb (by omega), svld1_eq hle hs (by omega)]
    rfl
  have hr : ∀ r0 r1 r2 r3 r4 r5 r6 r7 : W64,
      (Vector.ofFn fun i : Fin 8 => [r0, r1, r2, r3, r4, r5, r6, r7].getD i.val 0) =
        mk8 r0 r1 r2 r3 r4 r5 r6 r7 := fun _ _ _ _ _ _ _ _ => rfl
  rcases sveLanes_mem cfg with hn | hn | hn
  · have e : List.range (8 / 2) = [0, 1, 2, 3] := rfl
    have e2 : List.range 2 = [0, 1] := rfl
    rw [sveStripe, hn, e]
    simp only [List.mapM_cons, List.mapM_nil, hg 2 0 (by omega) hn, hg 2 1 (by omega) hn, hg 2 2 (by omega) hn, hg 2 3 (by omega) hn,
      Option.bind_eq_bind, Option.bind_some, Option.pure_def, e2, List.map, Nat.reduceMul, Nat.reduceAdd,
      List.drop, List.take, hd, ACCRND_2]
    simp only [List.flatten_cons, List.flatten_nil, List.cons_append, List.nil_append, hr]
  · have e : List.range (8 / 4) = [0, 1] := rfl
    have e2 : List.range 4 = [0, 1, 2, 3] := rfl
    rw [sveStripe, hn, e]
    simp only [List.mapM_cons, List.mapM_nil, hg 4 0 (by omega) hn, hg 4 1 (by omega) hn,
      Option.bind_eq_bind, Option.bind_some, Option.pure_def, e2, List.map, Nat.reduceMul, Nat.reduceAdd,
      List.drop, List.take, hd, ACCRND_4]
    simp only [List.flatten_cons, List.flatten_nil, List.cons_append, List.nil_append, hr]
  · have e : List.range (8 / 8) = [0] := rfl
    have e2 : List.range 8 = [0, 1, 2, 3, 4, 5, 6, 7] := rfl
    rw [sveStripe, hn, e]
    simp only [List.mapM_cons, List.mapM_nil, hg 8 0 (by omega) hn,
      Option.bind_eq_bind, Option.bind_some, Option.pure_def, e2, List.map, Nat.reduceMul, Nat.reduceAdd,
      List.drop, List.take, hd, ACCRND_8]
    simp only [List.flatten_cons, List.flatten_nil, List.cons_append, List.nil_append, hr]

/-! ### The selected implementation -/

section
variable (hc : cfg.Valid) (hb : Holds b msg) (hs : Holds s sec)
include hc hs

include hb in
/-- Every implementation of the stripe accumulation computes the specification. -/
theorem accumulate_512_eq {accAddr io so : Nat} (ha : accAddr % cfg.accAlign = 0) (hi : io + 64 ≤ msg.length)
    (hj : so + 64 ≤ sec.length) (acc : Acc) :
    Model.XXH3.accumulate_512 cfg accAddr acc b io s so =
      some (Spec.XXH3.accumulate sec acc (slice msg io (io+64)) so) := by
  rw [accumulate_closed]
  have hle := hc.simdLE
  have hn := accAlign_need ha
  cases hv : cfg.vector <;> simp only [hv] at hle hn <;> simp only [Model.XXH3.accumulate_512, hv]
  · exact accumulate_512_scalar_eq hc hb hs ha hi hj acc
  · exact accumulate_512_sse2_eq (hle (by simp)) hb hs hn hi hj acc
  · exact accumulate_512_avx2_eq (hle (by simp)) hb hs hn hi hj acc
  · exact accumulate_512_avx512_eq (hle (by simp)) hb hs hn hi hj acc
  · exact accumulate_512_neon_eq (hle (by simp)) hb hs hn ha hc (hc.neonLanes hv) hi hj acc
  · exact accumulate_512_vsx_eq hb hs hn hi hj acc
  · exact sveStripe_eq (hle (by simp)) hb hs hi hj acc

/-- Every implementation of the scrambling computes the specification. -/
theorem scrambleAcc_eq {accAddr : Nat} (ha : accAddr % cfg.accAlign = 0) (hl : 64 ≤ sec.length) (acc : Acc) :
    Model.XXH3.scrambleAcc cfg accAddr acc s (sec.length - 64) = some (Spec.XXH3.scramble sec acc) := by
  rw [scramble_closed _ hl]
  have hj : sec.length - 64 + 64 ≤ sec.length := by omega
  have hle := hc.simdLE
  have hn := accAlign_need ha
  cases hv : cfg.vector <;> simp only [hv] at hle hn <;> simp only [Model.XXH3.scrambleAcc, hv]
  · exact scrambleAcc_scalar_eq hc hs ha hj acc
  · exact scrambleAcc_sse2_eq (hle (by simp)) hs hn hj acc
  · exact scrambleAcc_avx2_eq (hle (by simp)) hs hn hj acc
  · exact scrambleAcc_avx512_eq (hle (by simp)) hs hn hj acc
  · exact scrambleAcc_neon_eq (hle (by simp)) hs hn ha hc (hc.neonLanes hv) hj acc
  · exact scrambleAcc_vsx_eq hs hn hj acc
  · exact scrambleAcc_scalar_eq hc hs ha hj acc

/-- Accumulating `nb` consecutive stripes, the secret advancing by 8 bytes. -/
def accStripes (sec msg : List Byte) (acc : Acc) (io so nb : Nat) : Acc :=
  (List.range nb).foldl (fun acc n =>
    Spec.XXH3.accumulate sec acc (slice msg (io + n*64) (io + n*64 + 64)) (so + n*8)) acc

omit hc hs in
theorem accStripes_succ (sec msg : List Byte) (acc : Acc) (io so nb : Nat) :
    accStripes sec msg acc io so (nb+1) =
      accStripes sec msg (Spec.XXH3.accumulate sec acc (slice msg io (io+64)) so) (io+64) (so+8) nb := by
  simp only [accStripes, List.range_succ_eq_map, List.foldl_cons, List.foldl_map, Nat.zero_mul,
    Nat.add_zero]
  congr 1
  funext acc n
  rw [show io + (n+1)*64 = io + 64 + n*64 by omega, show so + (n+1)*8 = so + 8 + n*8 by omega]

include hb in
theorem sveLoop_eq (hv : cfg.vector = .sve) :
    ∀ (nb io so : Nat) (_ : io + 64 * nb ≤ msg.length) (_ : nb = 0 ∨ so + 8 * (nb - 1) + 64 ≤ sec.length)
      (acc : Acc), sveLoop cfg b s nb io so acc = some (accStripes sec msg acc io so nb)
  | 0, _, _, _, _, _ => rfl
  | nb+1, io, so, hi, hj, acc => by
    have hle := hc.simdLE
    simp only [hv] at hle
    rw [sveLoop, sveStripe_eq (hle (by simp)) hb hs (by omega) (by omega), ← accumulate_closed,
      accStripes_succ]
    exact sveLoop_eq hv nb (io+64) (so+8) (by omega) (by omega) _

include hb in
theorem accumulate_eq {accAddr io so nb : Nat} (ha : accAddr % cfg.accAlign = 0) (hi : io + 64 * nb ≤ msg.length)
    (hj : nb = 0 ∨ so + 8 * (nb - 1) + 64 ≤ sec.length) (acc : Acc) :
    Model.XXH3.accumulate cfg accAddr acc b io s so nb = some (accStripes sec msg acc io so nb) := by
  have hT : Model.XXH3.accumulateTemplate (Model.XXH3.accumulate_512 cfg) accAddr acc b io s so nb =
      some (accStripes sec msg acc io so nb) := by
    refine XXH3P.foldlM_some _ _ fun st n hn => ?_
    have hn := List.mem_range.mp hn
    exact accumulate_512_eq hc hb hs ha (by omega) (by omega) st
  cases hv : cfg.vector
  case sve =>
    simp only [Model.XXH3.accumulate, hv, Model.XXH3.accumulate_sve]
    split
    · exact sveLoop_eq hc hb hs hv nb io so hi hj acc
    · have : nb = 0 := by omega
      subst this
      rfl
  all_goals
    simp only [Model.XXH3.accumulate, hv]
    exact hT

end

end

end SimdP
end XXH
