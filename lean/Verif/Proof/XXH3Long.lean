import Verif.Proof.Secret
/-!
The long-input path and the public one-shot functions of XXH3 against the specification.
-/
namespace XXH
open Model Spec Model.Simd SimdP

/-- An accumulation function (`XXH3_f_accumulate`) that computes the specification for accumulators
aligned to `al`. -/
def AccOK (al : Nat) (f : Model.XXH3.FAccumulate) : Prop :=
  ∀ {b s : Buf} {msg sec : List Byte}, Holds b msg → Holds s sec →
    ∀ {accAddr io so nb : Nat}, accAddr % al = 0 → io + 64 * nb ≤ msg.length →
      (nb = 0 ∨ so + 8 * (nb - 1) + 64 ≤ sec.length) → ∀ acc : Acc,
        f accAddr acc b io s so nb = some (accStripes sec msg acc io so nb)

/-- A scramble function (`XXH3_f_scrambleAcc`) that computes the specification for accumulators
aligned to `al`. -/
def ScrOK (al : Nat) (f : Scramble) : Prop :=
  ∀ {s : Buf} {sec : List Byte}, Holds s sec → ∀ {accAddr : Nat}, accAddr % al = 0 → 64 ≤ sec.length →
    ∀ acc : Acc, f accAddr acc s (sec.length - 64) = some (Spec.XXH3.scramble sec acc)

/-- A secret derivation function (`XXH3_f_initCustomSecret`) that computes the specification for a destination
aligned to `al`. -/
def InitOK (al : Nat) (f : Model.XXH3.FInitCustomSecret) : Prop :=
  ∀ {addr : Nat} {dst : List Byte}, addr % al = 0 → dst.length = 192 → ∀ seed : W64,
    f addr dst seed = some (Spec.XXH3.deriveSecret seed)

theorem accOK {cfg : Cfg} (hc : cfg.Valid) : AccOK cfg.accAlign (Model.XXH3.accumulate cfg) :=
  fun hb hs _ _ _ _ ha hi hj acc => accumulate_eq hc hb hs ha hi hj acc

theorem scrOK {cfg : Cfg} (hc : cfg.Valid) : ScrOK cfg.accAlign (Model.XXH3.scrambleAcc cfg) :=
  fun hs _ ha hl acc => scrambleAcc_eq hc hs ha hl acc

theorem initOK {cfg : Cfg} (hc : cfg.Valid) : InitOK cfg.secAlign (Model.XXH3.initCustomSecret cfg) :=
  fun ha hd seed => XXH3P.initCustomSecret_eq hd seed hc ha

namespace XXH3P

theorem foldl_congr {σ α : Type} {f g : σ → α → σ} :
    ∀ (l : List α) (st : σ), (∀ st, ∀ a ∈ l, f st a = g st a) → l.foldl f st = l.foldl g st
  | [], _, _ => rfl
  | a :: l, st, h => by
    rw [List.foldl_cons, List.foldl_cons, h st a (by simp)]
    exact foldl_congr l _ fun st a ha => h st a (by simp [ha])

theorem accStripes_block (sec msg : List Byte) (acc : Acc) (o n m : Nat) (h : n ≤ m) :
    Spec.XXH3.accumulateStripes sec acc (slice msg o (o + 64 * m)) n = accStripes sec msg acc o 0 n := by
  unfold Spec.XXH3.accumulateStripes accStripes
  apply foldl_congr
  intro a k hk
  have := List.mem_range.mp hk
  rw [slice_slice _ _ _ _ _ (by omega), Nat.zero_add]
  rfl

theorem accStripes_drop (sec msg : List Byte) (acc : Acc) (o n : Nat) :
    Spec.XXH3.accumulateStripes sec acc (msg.drop o) n = accStripes sec msg acc o 0 n := by
  unfold Spec.XXH3.accumulateStripes accStripes
  apply foldl_congr
  intro a k hk
  rw [slice_drop, Nat.zero_add]
  rfl

theorem initAcc_eq : Model.XXH3.INIT_ACC = Spec.XXH3.initAcc := rfl

section
variable {cfg : Cfg} (hc : cfg.Valid) {b s : Buf} {msg sec : List Byte} (hb : Holds b msg)
  (hs : Holds s sec) (hl : 136 ≤ sec.length)
include hc hb hs hl

theorem hashLong_internal_loop_eq {facc : Model.XXH3.FAccumulate} {fscr : Scramble} (ha : AccOK cfg.accAlign facc)
    (hf : ScrOK cfg.accAlign fscr) (hm : 64 < msg.length) :
    Model.XXH3.hashLong_internal_loop cfg Model.XXH3.INIT_ACC b msg.length s sec.length facc fscr =
      some (Spec.XXH3.longAccs msg sec) := by
  have h0 := hc.acc
  have hmin : decide (Model.XXH3.SECRET_SIZE_MIN ≤ sec.length) = true :=
    decide_eq_true hl
  obtain ⟨spb, hspb⟩ : ∃ spb, spb = (sec.length - 64) / 8 := ⟨_, rfl⟩
  obtain ⟨nb, hnb⟩ : ∃ nb, nb = (msg.length - 1) / (64 * spb) := ⟨_, rfl⟩
  have hsp : 9 ≤ spb := by omega
  have hlo : 64 * spb * nb ≤ msg.length - 1 := hnb ▸ Nat.mul_div_le _ _
  have hhi : msg.length - 1 < 64 * spb * (nb + 1) := hnb ▸ Nat.lt_mul_div_succ _ (by omega)
  have hhi' : 64 * spb * (nb + 1) = 64 * spb * nb + 64 * spb := by rw [Nat.mul_add, Nat.mul_one]
  have hcomm : nb * (64 * spb) = 64 * spb * nb := Nat.mul_comm _ _
  obtain ⟨off, hoff⟩ : ∃ off, off = 64 * spb * nb := ⟨_, rfl⟩
  obtain ⟨ns, hns⟩ : ∃ ns, ns = (msg.length - 1 - off) / 64 := ⟨_, rfl⟩
  rw [← hoff] at hlo hhi' hcomm
  have hsl : decide (ns ≤ sec.length / 8) = true := by simp; omega
  have h64 : decide (64 < msg.length) = true := by simpa using hm
  have hlast : (msg.drop off).length - 1 = msg.length - 1 - off := by rw [List.length_drop]; omega
  have hstep : ∀ (acc : Acc), ∀ n ∈ List.range nb,
      ((facc cfg.accAddr acc b (n * (64 * spb)) s 0 spb).bind fun acc =>
        fscr cfg.accAddr acc s (sec.length - 64)) =
        some (Spec.XXH3.round sec acc (slice msg (n * (64 * spb)) (n * (64 * spb) + 64 * spb))) := by
    intro acc n hn
    have hn := List.mem_range.mp hn
    have hn1 : (n + 1) * (64 * spb) ≤ nb * (64 * spb) := Nat.mul_le_mul_right _ hn
    have hn2 : (n + 1) * (64 * spb) = n * (64 * spb) + 64 * spb := by rw [Nat.add_mul, Nat.one_mul]
    rw [ha hb hs h0 (by omega) (by omega), Option.bind_some, hf hs h0 (by omega), Spec.XXH3.round, accStripes_block _ _ _ _ _ _ (by
      rw [Spec.XXH3.stripesPerBlock]; omega)]
    rw [Spec.XXH3.stripesPerBlock, ← hspb]
  unfold Model.XXH3.hashLong_internal_loop Spec.XXH3.longAccs
  simp only [Spec.XXH3.blockSize, Spec.XXH3.stripesPerBlock, hmin, assert_true, Option.bind_eq_bind,
    Option.bind_some, ← hspb, ← hnb, h64, ← hoff, ← hns, hsl, hcomm, hlast]
  rw [foldlM_some _ _ hstep, Option.bind_some, ha hb hs h0 (by omega) (by omega), Option.bind_some,
    accumulate_512_eq hc hb hs h0 (by omega) (by omega), accStripes_drop, initAcc_eq,
    show msg.length - 64 + 64 = msg.length by omega, Nat.sub_sub]

omit hb hl in
theorem mergeAccs_eq (acc : Acc) {so : Nat} (h : so + 64 ≤ sec.length) (start : W64) :
    Model.XXH3.mergeAccs cfg acc s so start = some (Spec.XXH3.finalMerge sec acc start so) := by
  have hw : ∀ i, i < 8 → word64 (slice sec so (so+64)) i = u64 (slice sec (so + 8*i) (so + 8*i + 8)) :=
    fun i hi => word64_slice _ _ _ _ (by omega)
  have hmix : ∀ (i : Nat) (x y : W64), i < 4 →
      Model.XXH3.mix2Accs cfg x y s (so + 16 * i) =
        some (mulLow (x ^^^ word64 (slice sec so (so+64)) (i*2)) (y ^^^ word64 (slice sec so (so+64)) (i*2+1))
          ^^^ mulHigh (x ^^^ word64 (slice sec so (so+64)) (i*2))
            (y ^^^ word64 (slice sec so (so+64)) (i*2+1))) := by
    intro i x y hi
    rw [Model.XXH3.mix2Accs, hs.readLE64 hc (by omega), hs.readLE64 hc (by omega), hw _ (by omega),
      hw _ (by omega), show so + 8 * (i*2) = so + 16 * i by omega,
      show so + 8 * (i*2+1) = so + 16 * i + 8 by omega]
    simp only [Option.bind_eq_bind, Option.bind_some, mul128_fold64_eq, Option.pure_def]
  unfold Model.XXH3.mergeAccs
  rw [finRange4]
  have i0 : ((0 : Fin 4) : Nat) = 0 := rfl
  have i1 : ((1 : Fin 4) : Nat) = 1 := rfl
  have i2 : ((2 : Fin 4) : Nat) = 2 := rfl
  have i3 : ((3 : Fin 4) : Nat) = 3 := rfl
  simp only [List.foldlM_cons, List.foldlM_nil, i0, i1, i2, i3,
    hmix 0 _ _ (by omega), hmix 1 _ _ (by omega), hmix 2 _ _ (by omega), hmix 3 _ _ (by omega),
    Option.bind_eq_bind, Option.bind_some, Option.pure_def, avalanche_eq, Spec.XXH3.finalMerge]

theorem hashLong_64b_internal_eq {facc : Model.XXH3.FAccumulate} {fscr : Scramble} (ha : AccOK cfg.accAlign facc)
    (hf : ScrOK cfg.accAlign fscr) (hm : 64 < msg.length) :
    Model.XXH3.hashLong_64b_internal cfg b msg.length s sec.length facc fscr =
      some (Spec.XXH3.large64 msg sec) := by
  have h75 : decide (64 + 11 ≤ sec.length) = true := decide_eq_true (by omega)
  rw [Model.XXH3.hashLong_64b_internal, hashLong_internal_loop_eq hc hb hs hl ha hf hm]
  simp only [Option.bind_eq_bind, Option.bind_some, h75, assert_true]
  rw [mergeAccs_eq hc hs _ (by omega)]
  rfl

theorem hashLong_128b_internal_eq {facc : Model.XXH3.FAccumulate} {fscr : Scramble} (ha : AccOK cfg.accAlign facc)
    (hf : ScrOK cfg.accAlign fscr) (hm : 64 < msg.length) :
    Model.XXH3.hashLong_128b_internal cfg b msg.length s sec.length facc fscr =
      some (Spec.XXH3.large128 msg sec) := by
  have h75 : decide (64 + 11 ≤ sec.length) = true := decide_eq_true (by omega)
  rw [Model.XXH3.hashLong_128b_internal, hashLong_internal_loop_eq hc hb hs hl ha hf hm]
  simp only [Option.bind_eq_bind, Option.bind_some, h75, assert_true]
  rw [mergeAccs_eq hc hs _ (by omega), Option.bind_some, mergeAccs_eq hc hs _ (by omega), Option.bind_some,
    Nat.sub_sub]
  rfl

theorem internal64_eq (seed : W64) {f : Option (Model.XXH3.FHashLong W64)} {long : List Byte}
    (hf : 240 < msg.length → ∃ g, f = some g ∧
      g b msg.length seed s sec.length = some (Spec.XXH3.large64 msg long)) {p q : Ptr}
    (hp : p.buf = b) (hq : q.buf = s) :
    Model.XXH3.bits64_internal cfg p msg.length seed q sec.length f =
      some (Spec.XXH3.hash64 msg seed sec long) := by
  have hmin : decide (Model.XXH3.SECRET_SIZE_MIN ≤ sec.length) = true := decide_eq_true hl
  have hmid : Model.XXH3.MIDSIZE_MAX = 240 := rfl
  simp only [Model.XXH3.bits64_internal, hmin, assert_true, Option.bind_eq_bind, Option.bind_some, hp, hq,
    hmid, Spec.XXH3.hash64]
  by_cases h16 : msg.length ≤ 16
  · rw [if_pos h16, len_0to16_64b_eq hc hb hs hl h16]
    simp only [if_pos h16]
  have e0 : ¬ msg.length = 0 := by omega
  have e3 : ¬ msg.length ≤ 3 := by omega
  have e8 : ¬ msg.length ≤ 8 := by omega
  rw [if_neg h16, if_neg e0, if_neg e3, if_neg e8, if_neg h16]
  by_cases h128 : msg.length ≤ 128
  · rw [if_pos h128, if_pos h128, len_17to128_64b_eq hc hb hs hl (by omega) h128]
  rw [if_neg h128, if_neg h128]
  by_cases h240 : msg.length ≤ 240
  · rw [if_pos h240, if_pos h240, len_129to240_64b_eq hc hb hs hl (by omega) h240]
  rw [if_neg h240, if_neg h240]
  obtain ⟨g, rfl, hg⟩ := hf (by omega)
  exact hg

theorem internal128_eq (seed : W64) {f : Option (Model.XXH3.FHashLong H128)} {long : List Byte}
    (hf : 240 < msg.length → ∃ g, f = some g ∧
      g b msg.length seed s sec.length = some (Spec.XXH3.large128 msg long)) {p q : Ptr}
    (hp : p.buf = b) (hq : q.buf = s) :
    Model.XXH3.bits128_internal cfg p msg.length seed q sec.length f =
      some (Spec.XXH3.hash128 msg seed sec long) := by
  have hmin : decide (Model.XXH3.SECRET_SIZE_MIN ≤ sec.length) = true := decide_eq_true hl
  have hmid : Model.XXH3.MIDSIZE_MAX = 240 := rfl
  simp only [Model.XXH3.bits128_internal, hmin, assert_true, Option.bind_eq_bind, Option.bind_some, hp, hq,
    hmid, Spec.XXH3.hash128]
  by_cases h16 : msg.length ≤ 16
  · rw [if_pos h16, len_0to16_128b_eq hc hb hs hl h16]
    simp only [if_pos h16]
  have e0 : ¬ msg.length = 0 := by omega
  have e3 : ¬ msg.length ≤ 3 := by omega
  have e8 : ¬ msg.length ≤ 8 := by omega
  rw [if_neg h16, if_neg e0, if_neg e3, if_neg e8, if_neg h16]
  by_cases h128 : msg.length ≤ 128
  · rw [if_pos h128, if_pos h128, len_17to128_128b_eq hc hb hs hl (by omega) h128]
  rw [if_neg h128, if_neg h128]
  by_cases h240 : msg.length ≤ 240
  · rw [if_pos h240, if_pos h240, len_129to240_128b_eq hc hb hs hl (by omega) h240]
  rw [if_neg h240, if_neg h240]
  obtain ⟨g, rfl, hg⟩ := hf (by omega)
  exact hg

end

theorem derive_zero : Spec.XXH3.deriveSecret 0 = Spec.XXH3.defaultSecret := by decide +kernel

theorem uninit_length : Model.XXH3.uninitSecret.length = 192 := by
  rw [Model.XXH3.uninitSecret, List.length_replicate]; rfl

section
variable {cfg : Cfg} (hc : cfg.Valid) {b : Buf} {msg : List Byte} (hb : Holds b msg)
include hc hb

theorem hashLong_64b_withSeed_internal_eq {facc : Model.XXH3.FAccumulate} {fscr : Scramble}
    {finit : Model.XXH3.FInitCustomSecret} (ha : AccOK cfg.accAlign facc)
    (hf : ScrOK cfg.accAlign fscr) (hi : InitOK cfg.secAlign finit) (hm : 64 < msg.length) (seed : W64) :
    Model.XXH3.hashLong_64b_withSeed_internal cfg b msg.length seed facc fscr finit =
      some (Spec.XXH3.large64 msg (Spec.XXH3.deriveSecret seed)) := by
  have hd : Model.XXH3.SECRET_DEFAULT_SIZE = Spec.XXH3.defaultSecret.length := by
    rw [default_length]; rfl
  have hd' : Model.XXH3.SECRET_DEFAULT_SIZE = (Spec.XXH3.deriveSecret seed).length := by
    rw [derive_length]; rfl
  unfold Model.XXH3.hashLong_64b_withSeed_internal
  split
  · next h =>
    rw [h.2, derive_zero, hd, hashLong_64b_internal_eq hc hb (kSecret_holds cfg)
      (by rw [default_length]; omega) ha hf hm]
  · rw [hi hc.sec uninit_length, hd']
    exact hashLong_64b_internal_eq hc hb (Holds.self _) (by rw [derive_length]; omega) ha hf hm

theorem hashLong_128b_withSeed_internal_eq {facc : Model.XXH3.FAccumulate} {fscr : Scramble}
    {finit : Model.XXH3.FInitCustomSecret} (ha : AccOK cfg.accAlign facc)
    (hf : ScrOK cfg.accAlign fscr) (hi : InitOK cfg.secAlign finit) (hm : 64 < msg.length) (seed : W64) :
    Model.XXH3.hashLong_128b_withSeed_internal cfg b msg.length seed facc fscr finit =
      some (Spec.XXH3.large128 msg (Spec.XXH3.deriveSecret seed)) := by
  have hd : Model.XXH3.SECRET_DEFAULT_SIZE = Spec.XXH3.defaultSecret.length := by
    rw [default_length]; rfl
  have hd' : Model.XXH3.SECRET_DEFAULT_SIZE = (Spec.XXH3.deriveSecret seed).length := by
    rw [derive_length]; rfl
  unfold Model.XXH3.hashLong_128b_withSeed_internal
  split
  · next h =>
    rw [h, derive_zero, hd, hashLong_128b_internal_eq hc hb (kSecret_holds cfg)
      (by rw [default_length]; omega) ha hf hm]
  · rw [hi hc.sec uninit_length, hd']
    exact hashLong_128b_internal_eq hc hb (Holds.self _) (by rw [derive_length]; omega) ha hf hm

variable {p : Ptr} (hp : p.buf = b)
include hp

theorem bits64_eq : Model.XXH3.XXH3_64bits cfg p msg.length = some (Spec.XXH3.XXH3_64 msg) := by
  have hd : Model.XXH3.SECRET_DEFAULT_SIZE = Spec.XXH3.defaultSecret.length := by
    rw [default_length]; rfl
  have hk := kSecret_holds cfg
  have hl : 136 ≤ Spec.XXH3.defaultSecret.length := by rw [default_length]; omega
  rw [Model.XXH3.XXH3_64bits, hd, Spec.XXH3.XXH3_64]
  refine internal64_eq hc hb hk hl 0 (fun hm => ⟨_, rfl, ?_⟩) hp rfl
  rw [Model.XXH3.hashLong_64b_default, hd]
  exact hashLong_64b_internal_eq hc hb hk hl (accOK hc) (scrOK hc) (by omega)

theorem bits64_withSeed_eq (seed : W64) :
    Model.XXH3.XXH3_64bits_withSeed cfg p msg.length seed = some (Spec.XXH3.XXH3_64_withSeed msg seed) := by
  have hd : Model.XXH3.SECRET_DEFAULT_SIZE = Spec.XXH3.defaultSecret.length := by
    rw [default_length]; rfl
  have hl : 136 ≤ Spec.XXH3.defaultSecret.length := by rw [default_length]; omega
  rw [Model.XXH3.XXH3_64bits_withSeed, hd, Spec.XXH3.XXH3_64_withSeed]
  exact internal64_eq hc hb (kSecret_holds cfg) hl seed (fun hm => ⟨_, rfl,
    hashLong_64b_withSeed_internal_eq hc hb (accOK hc) (scrOK hc) (initOK hc) (by omega) seed⟩) hp rfl

theorem bits64_withSecret_eq {q : Ptr} {s : Buf} {sec : List Byte} (hq : q.buf = s) (hs : Holds s sec)
    (hl : 136 ≤ sec.length) :
    Model.XXH3.XXH3_64bits_withSecret cfg p msg.length q sec.length =
      some (Spec.XXH3.XXH3_64_withSecret msg sec) := by
  rw [Model.XXH3.XXH3_64bits_withSecret, Spec.XXH3.XXH3_64_withSecret]
  exact internal64_eq hc hb hs hl 0 (fun hm => ⟨_, rfl,
    hashLong_64b_internal_eq hc hb hs hl (accOK hc) (scrOK hc) (by omega)⟩) hp hq

theorem bits64_withSecretandSeed_eq {q : Ptr} {s : Buf} {sec : List Byte} (hq : q.buf = s)
    (hs : Holds s sec) (hl : 136 ≤ sec.length) (seed : W64) :
    Model.XXH3.XXH3_64bits_withSecretandSeed cfg p msg.length q sec.length seed =
      some (Spec.XXH3.XXH3_64_withSecretandSeed msg sec seed) := by
  have hd : Model.XXH3.SECRET_DEFAULT_SIZE = Spec.XXH3.defaultSecret.length := by
    rw [default_length]; rfl
  have hmid : Model.XXH3.MIDSIZE_MAX = 240 := rfl
  have hl' : 136 ≤ Spec.XXH3.defaultSecret.length := by rw [default_length]; omega
  rw [Model.XXH3.XXH3_64bits_withSecretandSeed, Spec.XXH3.XXH3_64_withSecretandSeed, hmid]
  split
  · rw [hd]
    exact internal64_eq hc hb (kSecret_holds cfg) hl' seed (fun hm => by omega) hp rfl
  · next h =>
    rw [hp, hq, Model.XXH3.hashLong_64b_withSecret,
      hashLong_64b_internal_eq hc hb hs hl (accOK hc) (scrOK hc) (by omega), Spec.XXH3.XXH3_64_withSecret,
      Spec.XXH3.hash64]
    rw [if_neg (by omega), if_neg (by omega), if_neg (by omega), if_neg (by omega), if_neg (by omega),
      if_neg (by omega)]

theorem bits128_eq : Model.XXH3.XXH3_128bits cfg p msg.length = some (Spec.XXH3.XXH3_128 msg) := by
  have hd : Model.XXH3.SECRET_DEFAULT_SIZE = Spec.XXH3.defaultSecret.length := by
    rw [default_length]; rfl
  have hk := kSecret_holds cfg
  have hl : 136 ≤ Spec.XXH3.defaultSecret.length := by rw [default_length]; omega
  rw [Model.XXH3.XXH3_128bits, hd, Spec.XXH3.XXH3_128]
  refine internal128_eq hc hb hk hl 0 (fun hm => ⟨_, rfl, ?_⟩) hp rfl
  rw [Model.XXH3.hashLong_128b_default, hd]
  exact hashLong_128b_internal_eq hc hb hk hl (accOK hc) (scrOK hc) (by omega)

theorem bits128_withSeed_eq (seed : W64) :
    Model.XXH3.XXH3_128bits_withSeed cfg p msg.length seed = some (Spec.XXH3.XXH3_128_withSeed msg seed) := by
  have hd : Model.XXH3.SECRET_DEFAULT_SIZE = Spec.XXH3.defaultSecret.length := by
    rw [default_length]; rfl
  have hl : 136 ≤ Spec.XXH3.defaultSecret.length := by rw [default_length]; omega
  rw [Model.XXH3.XXH3_128bits_withSeed, hd, Spec.XXH3.XXH3_128_withSeed]
  exact internal128_eq hc hb (kSecret_holds cfg) hl seed (fun hm => ⟨_, rfl,
    hashLong_128b_withSeed_internal_eq hc hb (accOK hc) (scrOK hc) (initOK hc) (by omega) seed⟩) hp rfl

theorem bits128_withSecret_eq {q : Ptr} {s : Buf} {sec : List Byte} (hq : q.buf = s) (hs : Holds s sec)
    (hl : 136 ≤ sec.length) :
    Model.XXH3.XXH3_128bits_withSecret cfg p msg.length q sec.length =
      some (Spec.XXH3.XXH3_128_withSecret msg sec) := by
  rw [Model.XXH3.XXH3_128bits_withSecret, Spec.XXH3.XXH3_128_withSecret]
  exact internal128_eq hc hb hs hl 0 (fun hm => ⟨_, rfl,
    hashLong_128b_internal_eq hc hb hs hl (accOK hc) (scrOK hc) (by omega)⟩) hp hq

theorem bits128_withSecretandSeed_eq {q : Ptr} {s : Buf} {sec : List Byte} (hq : q.buf = s)
    (hs : Holds s sec) (hl : 136 ≤ sec.length) (seed : W64) :
    Model.XXH3.XXH3_128bits_withSecretandSeed cfg p msg.length q sec.length seed =
      some (Spec.XXH3.XXH3_128_withSecretandSeed msg sec seed) := by
  have hd : Model.XXH3.SECRET_DEFAULT_SIZE = Spec.XXH3.defaultSecret.length := by
    rw [default_length]; rfl
  have hmid : Model.XXH3.MIDSIZE_MAX = 240 := rfl
  have hl' : 136 ≤ Spec.XXH3.defaultSecret.length := by rw [default_length]; omega
  rw [Model.XXH3.XXH3_128bits_withSecretandSeed, Spec.XXH3.XXH3_128_withSecretandSeed, hmid]
  split
  · rw [hd]
    exact internal128_eq hc hb (kSecret_holds cfg) hl' seed (fun hm => by omega) hp rfl
  · next h =>
    rw [hp, hq, Model.XXH3.hashLong_128b_withSecret,
      hashLong_128b_internal_eq hc hb hs hl (accOK hc) (scrOK hc) (by omega), Spec.XXH3.XXH3_128_withSecret,
      Spec.XXH3.hash128]
    rw [if_neg (by omega), if_neg (by omega), if_neg (by omega), if_neg (by omega), if_neg (by omega),
      if_neg (by omega)]

end

end XXH3P
end XXH
