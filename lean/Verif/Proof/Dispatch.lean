import Verif.Model.Dispatch
import Verif.Proof.XXH3Stream
/-!
The dispatcher: what the feature test selects, and that the dispatched functions compute the specification.
-/
namespace XXH.DispatchP
open Model Model.Dispatch
open Model.XXH3 (State)

/-- The vector kind as a value of `XXH_VECTOR`. -/
def kind : Vec → VectorKind
  | .scalar => .scalar
  | .sse2 => .sse2
  | .avx2 => .avx2
  | .avx512 => .avx512

theorem valid_with {cfg : Cfg} (hc : cfg.Valid) (hle : cfg.littleEndian = true)
    (hx : cfg.x86dispatch = true) (v : Vec) :
    Cfg.Valid { cfg with vector := kind v, sizeOpt := 0 } where
  sizeLo := hc.sizeLo
  sizeHi := hc.sizeHi
  direct := hc.direct
  simdLE := fun _ => hle
  neonLanes := by intro h; cases v <;> cases h
  sve := by intro h; cases v <;> cases h
  kSecret := hc.kSecret
  acc := by
    have h := hc.acc
    simp only [Cfg.accAlign, hx, if_true] at h ⊢
    exact h
  sec := by
    have h := hc.sec
    simp only [Cfg.secAlign, Cfg.accAlign, hx, true_or, if_true] at h ⊢
    exact h

theorem accAlign64 {cfg : Cfg} (hx : cfg.x86dispatch = true) : cfg.accAlign = 64 := by
  rw [Cfg.accAlign, if_pos hx]

theorem secAlign64 {cfg : Cfg} (hx : cfg.x86dispatch = true) : cfg.secAlign = 64 := by
  rw [Cfg.secAlign, if_pos (.inl hx), accAlign64 hx]

theorem accOK_al {cfg : Cfg} (hc : cfg.Valid) {al : Nat} (h : cfg.accAlign = al) :
    AccOK al (Model.XXH3.accumulate cfg) := by
  subst h
  exact accOK hc

theorem scrOK_al {cfg : Cfg} (hc : cfg.Valid) {al : Nat} (h : cfg.accAlign = al) :
    ScrOK al (Model.XXH3.scrambleAcc cfg) := by
  subst h
  exact scrOK hc

theorem initOK_al {cfg : Cfg} (hc : cfg.Valid) {al : Nat} (h : cfg.secAlign = al) :
    InitOK al (Model.XXH3.initCustomSecret cfg) := by
  subst h
  exact initOK hc

theorem accOf {cfg : Cfg} (hc : cfg.Valid) (hle : cfg.littleEndian = true)
    (hx : cfg.x86dispatch = true) (v : Vec) :
    AccOK cfg.accAlign (accumulateOf cfg v) := by
  have h : AccOK 64 (Model.XXH3.accumulate { cfg with vector := kind v, sizeOpt := 0 }) :=
    accOK_al (valid_with hc hle hx v) (accAlign64 hx)
  rw [accAlign64 hx]
  obtain ⟨a1, a2, a3, a4, a5, a6, a7, a8, a9, a10, a11, a12, a13, a14, x, a16, a17, a18, a19, a20⟩ := cfg
  cases hx
  cases v <;> exact @h

theorem scrOf {cfg : Cfg} (hc : cfg.Valid) (hle : cfg.littleEndian = true)
    (hx : cfg.x86dispatch = true) (v : Vec) :
    ScrOK cfg.accAlign (scrambleOf cfg v) := by
  have h : ScrOK 64 (Model.XXH3.scrambleAcc { cfg with vector := kind v, sizeOpt := 0 }) :=
    scrOK_al (valid_with hc hle hx v) (accAlign64 hx)
  rw [accAlign64 hx]
  obtain ⟨a1, a2, a3, a4, a5, a6, a7, a8, a9, a10, a11, a12, a13, a14, x, a16, a17, a18, a19, a20⟩ := cfg
  cases hx
  cases v <;> exact @h

theorem initOf {cfg : Cfg} (hc : cfg.Valid) (hle : cfg.littleEndian = true)
    (hx : cfg.x86dispatch = true) (v : Vec) :
    InitOK cfg.secAlign (Dispatch.initOf cfg v) := by
  have h : InitOK 64 (Model.XXH3.initCustomSecret { cfg with vector := kind v, sizeOpt := 0 }) :=
    initOK_al (valid_with hc hle hx v) (secAlign64 hx)
  rw [secAlign64 hx]
  cases v <;> exact @h

/-- The tables after `XXH_setDispatch` on a vector kind that is compiled in, or before it. -/
inductive GOK (b : Build) (cfg : Cfg) (cpu : Cpu) : Globals → Prop
  | init : b.maybeNull = true → GOK b cfg cpu .init
  | set {v : Vec} : featureTest b cpu = some v →
      GOK b cfg cpu ⟨kDispatch b cfg v, kDispatch128 b cfg v⟩

theorem atMain_ok {b : Build} {cfg : Cfg} {cpu : Cpu} {g : Globals} (h : atMain b cfg cpu = some g) :
    GOK b cfg cpu g := by
  unfold atMain at h
  split at h
  · rename_i hb; cases h; exact .init hb
  · unfold setDispatch at h
    cases hf : featureTest b cpu with
    | none => simp [hf] at h
    | some v =>
      simp only [hf, Option.bind_eq_bind, Option.bind_some, Option.pure_def, Option.some.injEq] at h
      subst h; exact .set hf

/-- After the lazy initialisation the tables are those of the selected vector kind. -/
theorem lazySet_eq {b : Build} {cfg : Cfg} {cpu : Cpu} {v : Vec} (hf : featureTest b cpu = some v)
    (hv : b.has v = true) {g : Globals} (hg : GOK b cfg cpu g) (isNull : Globals → Bool)
    (h0 : isNull .init = true) :
    lazySet b cfg cpu (isNull g) g = some ⟨kDispatch b cfg v, kDispatch128 b cfg v⟩ := by
  have hs : setDispatch b cfg cpu = some ⟨kDispatch b cfg v, kDispatch128 b cfg v⟩ := by
    simp only [setDispatch, hf, Option.bind_eq_bind, Option.bind_some]; rfl
  cases hg with
  | init hm => simp only [lazySet, hm, h0, Bool.and_true, if_true, hs]
  | @set v' hf' =>
    have : v' = v := by rw [hf] at hf'; exact (Option.some.inj hf').symm
    subst this
    unfold lazySet
    split
    · exact hs
    · rfl

section
variable {b : Build} {cfg : Cfg} {cpu : Cpu} {v : Vec} {g : Globals} (hc : cfg.Valid)
  (hle : cfg.littleEndian = true) (hx : cfg.x86dispatch = true) (hf : featureTest b cpu = some v)
  (hv : b.has v = true) (hg : GOK b cfg cpu g)
include hc hle hx hf hv hg

section
variable {p : Ptr} {bf : Buf} {msg : List Byte} (hb : Holds bf msg) (hp : p.buf = bf)
include hb hp

theorem bits64_dispatch : ∃ g',
    XXH3_64bits_dispatch b cfg cpu g p msg.length = some (Spec.XXH3.XXH3_64 msg, g') ∧
      GOK b cfg cpu g' := by
  have hd : Model.XXH3.SECRET_DEFAULT_SIZE = Spec.XXH3.defaultSecret.length := by
    rw [XXH3P.default_length]; rfl
  have hl : 136 ≤ Spec.XXH3.defaultSecret.length := by rw [XXH3P.default_length]; omega
  have hs := XXH3P.kSecret_holds cfg
  have hz := lazySet_eq hf hv hg (fun g => g.g_dispatch.hashLong_default.isNone) rfl
  have hi := XXH3P.internal64_eq (long := Spec.XXH3.defaultSecret) hc hb hs hl 0
    (f := some (hashLong_64b_defaultSecret_selection b cfg cpu g)) (p := p)
    (q := some (Model.XXH3.kSecret cfg)) (fun hm => ⟨_, rfl, by
      simp only [hashLong_64b_defaultSecret_selection, hz, Option.bind_eq_bind, Option.bind_some, kDispatch,
        hv, if_true, XXHL64_default]
      rw [hd]
      exact XXH3P.hashLong_64b_internal_eq hc hb hs hl (accOf hc hle hx v) (scrOf hc hle hx v) (by omega)⟩) hp rfl
  unfold XXH3_64bits_dispatch
  rw [hd, hi]
  simp only [Option.bind_eq_bind, Option.bind_some]
  by_cases hm : Model.XXH3.MIDSIZE_MAX < msg.length
  · simp only [hm, if_true, hz, Option.bind_some]
    exact ⟨_, rfl, .set hf⟩
  · simp only [hm, if_false]
    exact ⟨_, rfl, hg⟩

theorem bits64_withSeed_dispatch (seed : W64) : ∃ g',
    XXH3_64bits_withSeed_dispatch b cfg cpu g p msg.length seed = some (Spec.XXH3.XXH3_64_withSeed msg seed, g') ∧
      GOK b cfg cpu g' := by
  have hd : Model.XXH3.SECRET_DEFAULT_SIZE = Spec.XXH3.defaultSecret.length := by
    rw [XXH3P.default_length]; rfl
  have hl : 136 ≤ Spec.XXH3.defaultSecret.length := by rw [XXH3P.default_length]; omega
  have hs := XXH3P.kSecret_holds cfg
  have hz := lazySet_eq hf hv hg (fun g => g.g_dispatch.hashLong_seed.isNone) rfl
  have hi := XXH3P.internal64_eq (long := Spec.XXH3.deriveSecret seed) hc hb hs hl seed
    (f := some (hashLong_64b_withSeed_selection b cfg cpu g)) (p := p)
    (q := some (Model.XXH3.kSecret cfg)) (fun hm => ⟨_, rfl, by
      simp only [hashLong_64b_withSeed_selection, hz, Option.bind_eq_bind, Option.bind_some, kDispatch,
        hv, if_true, XXHL64_seed]
      exact XXH3P.hashLong_64b_withSeed_internal_eq hc hb (accOf hc hle hx v) (scrOf hc hle hx v) (initOf hc hle hx v)
        (by omega) seed⟩) hp rfl
  unfold XXH3_64bits_withSeed_dispatch
  rw [hd, hi]
  simp only [Option.bind_eq_bind, Option.bind_some]
  by_cases hm : Model.XXH3.MIDSIZE_MAX < msg.length
  · simp only [hm, if_true, hz, Option.bind_some]
    exact ⟨_, rfl, .set hf⟩
  · simp only [hm, if_false]
    exact ⟨_, rfl, hg⟩

theorem bits64_withSecret_dispatch {q : Ptr} {s : Buf} {sec : List Byte} (hq : q.buf = s)
    (hs : Holds s sec) (hl : 136 ≤ sec.length) : ∃ g',
    XXH3_64bits_withSecret_dispatch b cfg cpu g p msg.length q sec.length = some (Spec.XXH3.XXH3_64_withSecret msg sec, g') ∧
      GOK b cfg cpu g' := by
  have hz := lazySet_eq hf hv hg (fun g => g.g_dispatch.hashLong_secret.isNone) rfl
  have hi := XXH3P.internal64_eq (long := sec) hc hb hs hl 0
    (f := some (hashLong_64b_withSecret_selection b cfg cpu g)) (p := p)
    (q := q) (fun hm => ⟨_, rfl, by
      simp only [hashLong_64b_withSecret_selection, hz, Option.bind_eq_bind, Option.bind_some, kDispatch,
        hv, if_true, XXHL64_secret]
      exact XXH3P.hashLong_64b_internal_eq hc hb hs hl (accOf hc hle hx v) (scrOf hc hle hx v) (by omega)⟩) hp hq
  unfold XXH3_64bits_withSecret_dispatch
  rw [hi]
  simp only [Option.bind_eq_bind, Option.bind_some]
  by_cases hm : Model.XXH3.MIDSIZE_MAX < msg.length
  · simp only [hm, if_true, hz, Option.bind_some]
    exact ⟨_, rfl, .set hf⟩
  · simp only [hm, if_false]
    exact ⟨_, rfl, hg⟩

theorem bits128_dispatch : ∃ g',
    XXH3_128bits_dispatch b cfg cpu g p msg.length = some (Spec.XXH3.XXH3_128 msg, g') ∧
      GOK b cfg cpu g' := by
  have hd : Model.XXH3.SECRET_DEFAULT_SIZE = Spec.XXH3.defaultSecret.length := by
    rw [XXH3P.default_length]; rfl
  have hl : 136 ≤ Spec.XXH3.defaultSecret.length := by rw [XXH3P.default_length]; omega
  have hs := XXH3P.kSecret_holds cfg
  have hz := lazySet_eq hf hv hg (fun g => g.g_dispatch128.hashLong_default.isNone) rfl
  have hi := XXH3P.internal128_eq (long := Spec.XXH3.defaultSecret) hc hb hs hl 0
    (f := some (hashLong_128b_defaultSecret_selection b cfg cpu g)) (p := p)
    (q := some (Model.XXH3.kSecret cfg)) (fun hm => ⟨_, rfl, by
      simp only [hashLong_128b_defaultSecret_selection, hz, Option.bind_eq_bind, Option.bind_some, kDispatch128,
        hv, if_true, XXHL128_default]
      rw [hd]
      exact XXH3P.hashLong_128b_internal_eq hc hb hs hl (accOf hc hle hx v) (scrOf hc hle hx v) (by omega)⟩) hp rfl
  unfold XXH3_128bits_dispatch
  rw [hd, hi]
  simp only [Option.bind_eq_bind, Option.bind_some]
  by_cases hm : Model.XXH3.MIDSIZE_MAX < msg.length
  · simp only [hm, if_true, hz, Option.bind_some]
    exact ⟨_, rfl, .set hf⟩
  · simp only [hm, if_false]
    exact ⟨_, rfl, hg⟩

theorem bits128_withSeed_dispatch (seed : W64) : ∃ g',
    XXH3_128bits_withSeed_dispatch b cfg cpu g p msg.length seed = some (Spec.XXH3.XXH3_128_withSeed msg seed, g') ∧
      GOK b cfg cpu g' := by
  have hd : Model.XXH3.SECRET_DEFAULT_SIZE = Spec.XXH3.defaultSecret.length := by
    rw [XXH3P.default_length]; rfl
  have hl : 136 ≤ Spec.XXH3.defaultSecret.length := by rw [XXH3P.default_length]; omega
  have hs := XXH3P.kSecret_holds cfg
  have hz := lazySet_eq hf hv hg (fun g => g.g_dispatch128.hashLong_seed.isNone) rfl
  have hi := XXH3P.internal128_eq (long := Spec.XXH3.deriveSecret seed) hc hb hs hl seed
    (f := some (hashLong_128b_withSeed_selection b cfg cpu g)) (p := p)
    (q := some (Model.XXH3.kSecret cfg)) (fun hm => ⟨_, rfl, by
      simp only [hashLong_128b_withSeed_selection, hz, Option.bind_eq_bind, Option.bind_some, kDispatch128,
        hv, if_true, XXHL128_seed]
      exact XXH3P.hashLong_128b_withSeed_internal_eq hc hb (accOf hc hle hx v) (scrOf hc hle hx v) (initOf hc hle hx v)
        (by omega) seed⟩) hp rfl
  unfold XXH3_128bits_withSeed_dispatch
  rw [hd, hi]
  simp only [Option.bind_eq_bind, Option.bind_some]
  by_cases hm : Model.XXH3.MIDSIZE_MAX < msg.length
  · simp only [hm, if_true, hz, Option.bind_some]
    exact ⟨_, rfl, .set hf⟩
  · simp only [hm, if_false]
    exact ⟨_, rfl, hg⟩

theorem bits128_withSecret_dispatch {q : Ptr} {s : Buf} {sec : List Byte} (hq : q.buf = s)
    (hs : Holds s sec) (hl : 136 ≤ sec.length) : ∃ g',
    XXH3_128bits_withSecret_dispatch b cfg cpu g p msg.length q sec.length = some (Spec.XXH3.XXH3_128_withSecret msg sec, g') ∧
      GOK b cfg cpu g' := by
  have hz := lazySet_eq hf hv hg (fun g => g.g_dispatch128.hashLong_secret.isNone) rfl
  have hi := XXH3P.internal128_eq (long := sec) hc hb hs hl 0
    (f := some (hashLong_128b_withSecret_selection b cfg cpu g)) (p := p)
    (q := q) (fun hm => ⟨_, rfl, by
      simp only [hashLong_128b_withSecret_selection, hz, Option.bind_eq_bind, Option.bind_some, kDispatch128,
        hv, if_true, XXHL128_secret]
      exact XXH3P.hashLong_128b_internal_eq hc hb hs hl (accOf hc hle hx v) (scrOf hc hle hx v) (by omega)⟩) hp hq
  unfold XXH3_128bits_withSecret_dispatch
  rw [hi]
  simp only [Option.bind_eq_bind, Option.bind_some]
  by_cases hm : Model.XXH3.MIDSIZE_MAX < msg.length
  · simp only [hm, if_true, hz, Option.bind_some]
    exact ⟨_, rfl, .set hf⟩
  · simp only [hm, if_false]
    exact ⟨_, rfl, hg⟩
end

section
variable {p : Ptr} {len : Nat} {sec msg : List Byte} {us : Option W64} {s : State}
  (h : XXH3P.Repr sec us msg s) (hp : p.buf.bytes.length = len)
include h hp

theorem update64_dispatch : ∃ s' g', XXH3_64bits_update_dispatch b cfg cpu g s p len = some ((s', .ok), g') ∧
    XXH3P.Repr sec us (msg ++ p.buf.bytes) s' ∧ GOK b cfg cpu g' := by
  have hz := lazySet_eq hf hv hg (fun g => g.g_dispatch.update.isNone) rfl
  obtain ⟨s', h1, h2⟩ := XXH3P.update_repr (cfg := cfg) hc (accOf hc hle hx v) (scrOf hc hle hx v) h hp
  refine ⟨s', _, ?_, h2, .set hf⟩
  simp only [XXH3_64bits_update_dispatch, hz, Option.bind_eq_bind, Option.bind_some, kDispatch, hv, if_true,
    update_vec, h1]
  rfl

theorem update128_dispatch : ∃ s' g', XXH3_128bits_update_dispatch b cfg cpu g s p len = some ((s', .ok), g') ∧
    XXH3P.Repr sec us (msg ++ p.buf.bytes) s' ∧ GOK b cfg cpu g' := by
  have hz := lazySet_eq hf hv hg (fun g => g.g_dispatch128.update.isNone) rfl
  obtain ⟨s', h1, h2⟩ := XXH3P.update_repr (cfg := cfg) hc (accOf hc hle hx v) (scrOf hc hle hx v) h hp
  refine ⟨s', _, ?_, h2, .set hf⟩
  simp only [XXH3_128bits_update_dispatch, hz, Option.bind_eq_bind, Option.bind_some, kDispatch128, hv, if_true,
    update_vec, h1]
  rfl
end
end
end XXH.DispatchP
