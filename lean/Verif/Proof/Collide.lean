import Verif.Proof.CollideFilter
import Verif.Props.XXH32
import Verif.Props.XXH64
import Verif.Props.XXH3
import Verif.Props.Secret
/-!
The collision tester finds what there is.
-/
namespace XXH.Proof.Collide
open XXH.Model XXH.Model.Collide XXH.CollideTerms XXH.Props
open Bench (Run Fp)

/-! ### Runs -/

theorem outcome_bind {α β : Type} {P : α → Prop} {Q : β → Prop} {X A : Prop} {r : Run α} {f : α → Run β}
    (h : EndsIn P X A r) (hf : ∀ a, P a → EndsIn Q X A (f a)) : EndsIn Q X A (r >>= f) := by
  cases r with
  | done a => exact hf a h
  | exit c => exact h
  | abort => exact h
  | undefined => exact h
  | unfinished => exact h

theorem outcome_mono {α : Type} {P Q : α → Prop} {X Y A B : Prop} {r : Run α} (h : EndsIn P X A r)
    (hp : ∀ a, P a → Q a) (hx : X → Y) (ha : A → B) : EndsIn Q Y B r := by
  cases r with
  | done a => exact hp a h
  | exit c => exact ⟨h.1, hx h.2⟩
  | abort => exact ha h
  | undefined => exact h
  | unfinished => exact h

/-! ### Hashes -/

/-- The hash of a message as the tester sees it. -/
def uni (id : ℕ) (msg : List Byte) : Uni := match id with
  | 0 => ⟨Spec.XXH3.XXH3_64 msg, 0⟩
  | 1 => ⟨Spec.XXH64.hash msg 0, 0⟩
  | 2 => ⟨(Spec.XXH3.XXH3_128 msg).low64, (Spec.XXH3.XXH3_128 msg).high64⟩
  | 3 => ⟨(Spec.XXH3.XXH3_128 msg).low64, 0⟩
  | 4 => ⟨(Spec.XXH3.XXH3_128 msg).high64, 0⟩
  | 5 => ⟨(Spec.XXH32.hash msg 0).setWidth 64, 0⟩
  | _ => ⟨BitVec.ofNat 64 (byteSum msg), 0⟩

/-- The hash as a number. -/
def key (u : Uni) : ℕ := u.high64.toNat * 2^64 + u.h64.toNat

theorem key_inj : Function.Injective key := by
  intro a b h
  obtain ⟨a1, a2⟩ := a
  obtain ⟨b1, b2⟩ := b
  have h1 := a1.isLt
  have h2 := b1.isLt
  simp only [key] at h
  have e1 : a1 = b1 := BitVec.eq_of_toNat_eq (by omega)
  have e2 : a2 = b2 := BitVec.eq_of_toNat_eq (by omega)
  rw [e1, e2]

theorem byteSum_lt (msg : List Byte) : byteSum msg < 2^32 := Nat.mod_lt _ (by norm_num)

theorem badsum_eq {a : ℕ} {msg : List Byte} :
    badsum32 ⟨a, msg⟩ msg.length = some (BitVec.ofNat 32 (byteSum msg)) := by
  have key : ∀ n ≤ msg.length, (List.range n).foldlM (m := Option)
      (fun (sum : W32) c => do return sum + (← read8 ⟨a, msg⟩ c).setWidth 32) 0 =
        some (BitVec.ofNat 32 ((msg.take n).map (·.toNat)).sum) := by
    intro n
    induction n with
    | zero => intro _; rfl
    | succ n ih =>
      intro hn
      rw [List.range_succ, List.foldlM_append, ih (by omega)]
      have hr := read8_eq (b := ⟨a, msg⟩) (off := n) hn
      simp only [Option.bind_eq_bind, Option.bind_some, List.foldlM_cons, List.foldlM_nil, hr]
      rw [List.take_succ_eq_append_getElem (by omega), List.map_append, List.sum_append]
      have hg : msg.getD n 0 = msg[n] := by simp [List.getD_eq_getElem?_getD, List.getElem?_eq_getElem (show n < msg.length by omega)]
      rw [hg]
      apply congrArg some
      apply BitVec.eq_of_toNat_eq
      simp [BitVec.toNat_add, BitVec.toNat_setWidth]
  have := key msg.length (le_refl _)
  rw [List.take_length] at this
  rw [badsum32, this]
  congr 1
  apply BitVec.eq_of_toNat_eq
  simp [byteSum]

theorem hashfn_eq {e : Env} (he : EnvOK e) {id : ℕ} (hid : id < 7) {msg : List Byte} (hm : msg.length < 2^63) :
    hashfn e.cfg id (some ⟨e.bufAddr, msg⟩) msg.length = some (uni id msg) := by
  have hr : Readable e.cfg (some ⟨e.bufAddr, msg⟩) msg.length := ⟨rfl, by
    show msg.length < 2^(e.cfg.sizeBits - 1)
    rw [he.size]; exact hm⟩
  match id, hid with
  | 0, _ => simp only [hashfn]; rw [C03_XXH3_64bits_eq_spec he.cfg hr]; rfl
  | 1, _ => simp only [hashfn]; rw [C02_XXH64_eq_spec he.cfg hr]; rfl
  | 2, _ => simp only [hashfn]; rw [C04_XXH3_128bits_eq_spec he.cfg hr]; rfl
  | 3, _ => simp only [hashfn]; rw [C04_XXH3_128bits_eq_spec he.cfg hr]; rfl
  | 4, _ => simp only [hashfn]; rw [C04_XXH3_128bits_eq_spec he.cfg hr]; rfl
  | 5, _ => simp only [hashfn]; rw [C01_XXH32_eq_spec he.cfg hr]; rfl
  | 6, _ =>
    simp only [hashfn]
    have : badsum32 (Ptr.buf (some ⟨e.bufAddr, msg⟩)) msg.length = some (BitVec.ofNat 32 (byteSum msg)) := badsum_eq
    rw [this]
    simp only [Option.map_some, uni]
    congr 2
    apply BitVec.eq_of_toNat_eq
    have := byteSum_lt msg
    rw [BitVec.toNat_setWidth, BitVec.toNat_ofNat, BitVec.toNat_ofNat]
    omega

theorem uni_key {id : ℕ} {name : String} {bits : ℕ} {H : List Byte → ℕ} (h : hashes[id]? = some (name, bits, H)) :
    id < 7 ∧ hashBits id = bits ∧ (∀ msg, key (uni id msg) = H msg) ∧ (bits = 128 ∨ ∀ msg, (uni id msg).high64 = 0) := by
  have hid : id < 7 := by
    by_contra hc
    rw [List.getElem?_eq_none (by simp [hashes]; omega)] at h
    simp at h
  refine ⟨hid, ?_⟩
  match id, hid with
  | 0, _ => simp only [hashes, List.getElem?_cons_zero, Option.some.injEq, Prod.mk.injEq] at h
            obtain ⟨-, rfl, rfl⟩ := h
            exact ⟨rfl, fun msg => by simp [key, uni], .inr fun msg => rfl⟩
  | 1, _ => simp only [hashes, List.getElem?_cons_zero, List.getElem?_cons_succ, Option.some.injEq, Prod.mk.injEq] at h
            obtain ⟨-, rfl, rfl⟩ := h
            exact ⟨rfl, fun msg => by simp [key, uni], .inr fun msg => rfl⟩
  | 2, _ => simp only [hashes, List.getElem?_cons_zero, List.getElem?_cons_succ, Option.some.injEq, Prod.mk.injEq] at h
            obtain ⟨-, rfl, rfl⟩ := h
            exact ⟨rfl, fun msg => by simp [key, uni], .inl rfl⟩
  | 3, _ => simp only [hashes, List.getElem?_cons_zero, List.getElem?_cons_succ, Option.some.injEq, Prod.mk.injEq] at h
            obtain ⟨-, rfl, rfl⟩ := h
            exact ⟨rfl, fun msg => by simp [key, uni], .inr fun msg => rfl⟩
  | 4, _ => simp only [hashes, List.getElem?_cons_zero, List.getElem?_cons_succ, Option.some.injEq, Prod.mk.injEq] at h
            obtain ⟨-, rfl, rfl⟩ := h
            exact ⟨rfl, fun msg => by simp [key, uni], .inr fun msg => rfl⟩
  | 5, _ => simp only [hashes, List.getElem?_cons_zero, List.getElem?_cons_succ, Option.some.injEq, Prod.mk.injEq] at h
            obtain ⟨-, rfl, rfl⟩ := h
            refine ⟨rfl, fun msg => ?_, .inr fun msg => rfl⟩
            have := (Spec.XXH32.hash msg 0).isLt
            simp only [key, uni, BitVec.toNat_setWidth]
            show 0 * 2^64 + _ % 2^64 = _
            omega
  | 6, _ => simp only [hashes, List.getElem?_cons_zero, List.getElem?_cons_succ, Option.some.injEq, Prod.mk.injEq] at h
            obtain ⟨-, rfl, rfl⟩ := h
            refine ⟨rfl, fun msg => ?_, .inr fun msg => rfl⟩
            have := byteSum_lt msg
            simp only [key, uni, BitVec.toNat_ofNat]
            show 0 * 2^64 + _ % 2^64 = _
            omega

/-- The hashes a search looks at. -/
def selected (p : Param) (hs : List Uni) : List Uni := hs.filter fun h => decide (h.h64 &&& p.mask = p.maskSelector)

theorem forSamples_eq {σ : Type} {e : Env} {p : Param} {body : σ → Uni → Run σ} {msgs : List (List Byte)} {f : Factory}
    (hg : Gen f msgs)
    (hh : ∀ m ∈ msgs, hashfn e.cfg p.hashID (some ⟨e.bufAddr, m⟩) p.sampleSize = some (uni p.hashID m)) (s : σ) :
    forSamples e p body msgs.length f s = (selected p (msgs.map (uni p.hashID))).foldlM body s := by
  induction hg generalizing s with
  | nil f => rfl
  | @cons f f' ms hu hg ih =>
    have ih := fun s => ih (fun m hm => hh m (List.mem_cons_of_mem _ hm)) s
    have h0 := hh f'.buffer (by simp)
    simp only [List.length_cons, forSamples]
    rw [hu]
    show (Run.of (hashfn e.cfg p.hashID (some ⟨e.bufAddr, f'.buffer⟩) p.sampleSize) >>= _) = _
    rw [h0]
    show (if (uni p.hashID f'.buffer).h64 &&& p.mask ≠ p.maskSelector then _ else _) = _
    simp only [selected, List.map_cons]
    by_cases hs : (uni p.hashID f'.buffer).h64 &&& p.mask = p.maskSelector
    · rw [if_neg (by simpa using hs), List.filter_cons_of_pos (by simpa using hs), List.foldlM_cons]
      congr 1
      funext s
      exact ih s
    · rw [if_pos hs, List.filter_cons_of_neg (by simpa using hs)]
      exact ih s

/-! ### Sorting and counting -/

theorem cmp_le {a b : H128} (h : XXH3.XXH128_cmp a b ≤ 0) : key ⟨a.low64, a.high64⟩ ≤ key ⟨b.low64, b.high64⟩ := by
  rw [C18_cmp_value] at h
  have := Int.sign_nonpos_iff.1 h
  simp only [H128.val] at this
  simp only [key]
  omega

theorem sortTable_ok {e : Env} (he : EnvOK e) {bits : ℕ} {cands : List Uni}
    (hz : bits = 128 ∨ ∀ u ∈ cands, u.high64 = 0) :
    (sortTable e bits cands).Perm cands ∧ (sortTable e bits cands).Pairwise (key · ≤ key ·) := by
  unfold sortTable
  by_cases hb : bits = 128
  · rw [if_pos hb]
    obtain ⟨h1, h2⟩ := he.sort128 (cands.map (·.h128))
    constructor
    · refine (h1.map _).trans ?_
      rw [List.map_map]
      have : ((fun h : H128 => (⟨h.low64, h.high64⟩ : Uni)) ∘ fun u : Uni => u.h128) = id := by funext u; rfl
      rw [this, List.map_id]
    · rw [List.pairwise_map]
      exact h2.imp cmp_le
  · rw [if_neg hb]
    have hz := hz.resolve_left hb
    obtain ⟨h1, h2⟩ := he.sort64 (cands.map (·.h64))
    constructor
    · refine (h1.map _).trans ?_
      rw [List.map_map]
      have : cands.map ((fun h : W64 => (⟨h, 0⟩ : Uni)) ∘ fun u : Uni => u.h64) = cands.map id := by
        apply List.map_congr_left
        intro u hu
        have := hz u hu
        cases u
        simp only at this
        simp [this]
      rw [this, List.map_id]
    · rw [List.pairwise_map]
      refine h2.imp ?_
      intro a b h
      simp only [key]
      show 0 * 2^64 + _ ≤ 0 * 2^64 + _
      omega

theorem count_ok {e : Env} (he : EnvOK e) {bits : ℕ} {cands : List Uni}
    (hz : bits = 128 ∨ ∀ u ∈ cands, u.high64 = 0) :
    countEqual (isEqual e.cfg bits) (sortTable e bits cands) = coll cands := by
  obtain ⟨hp, hs⟩ := sortTable_ok he hz
  generalize sortTable e bits cands = t at *
  rw [coll_perm hp.symm]
  by_cases hb : bits = 128
  · rw [countEqual_sorted (f := key) ?_ hs, coll_map key_inj]
    intro a b
    simp only [isEqual, if_pos hb]
    rw [C18_isEqual]
    have : (b.h128 = a.h128) ↔ (key a = key b) := by
      rw [key_inj.eq_iff]
      constructor
      · intro h
        cases a; cases b
        simp only [Uni.h128, H128.mk.injEq] at h
        rw [h.1, h.2]
      · rintro rfl; rfl
    by_cases hk : key a = key b
    · simp [hk, this.2 hk]
    · have : ¬ b.h128 = a.h128 := fun h => hk (this.1 h)
      simp [hk, this]
  · have hz := hz.resolve_left hb
    have hz' : ∀ u ∈ t, u.high64 = 0 := fun u hu => hz u (hp.mem_iff.1 hu)
    have hk : ∀ u ∈ t, key u = u.h64.toNat := by
      intro u hu
      simp only [key, hz' u hu]
      show 0 * 2^64 + _ = _
      omega
    have hs' : t.Pairwise (fun a b => a.h64.toNat ≤ b.h64.toNat) := by
      refine hs.imp_of_mem ?_
      intro a b ha hb h
      rwa [hk a ha, hk b hb] at h
    rw [countEqual_sorted (f := fun u => u.h64.toNat) ?_ hs', ← coll_map key_inj]
    · exact congrArg coll (List.map_congr_left fun u hu => (hk u hu).symm)
    · intro a b
      simp only [isEqual, if_neg hb]
      rw [decide_eq_decide]
      constructor
      · intro h; rw [h]
      · intro h; exact (BitVec.eq_of_toNat_eq h).symm

/-- The number of collisions of the high bits. -/
def collHigh (bits b : ℕ) (l : List Uni) : ℕ := coll (l.map fun u => key u / 2^(bits - b))

theorem countHigh_ok {bits b : ℕ} {t cands : List Uni} (hbits : bits ∈ [32, 64, 128]) (hb1 : 1 ≤ b) (hb2 : b < bits)
    (hb3 : b ≤ 64) (hz : bits = 128 ∨ ∀ u ∈ t, u.high64 = 0) (hp : t.Perm cands)
    (hs : t.Pairwise (key · ≤ key ·)) :
    countHigh bits t (bits - b) = .done (collHigh bits b cands) := by
  have hperm : collHigh bits b cands = coll (t.map fun u => key u / 2^(bits - b)) := coll_perm (hp.symm.map _)
  rw [hperm]
  unfold countHigh
  by_cases hlen : t.length < 2
  · rw [if_pos hlen]
    have : coll (t.map fun u => key u / 2^(bits - b)) = 0 := by
      match t, hlen with
      | [], _ => rfl
      | [a], _ => simp [coll]
    rw [this]
    rfl
  · rw [if_neg hlen]
    have hmono : t.Pairwise (fun a c => key a / 2^(bits - b) ≤ key c / 2^(bits - b)) :=
      hs.imp fun h => Nat.div_le_div_right h
    by_cases h128 : bits = 128
    · subst h128
      have c1 : check ((64 : ℤ) ≤ (128 : ℕ) - (b : ℤ)) = .done () := if_pos (by omega)
      have c2 : check ((0 : ℤ) ≤ (128 : ℕ) - (b : ℤ) - 64 ∧ ((128 : ℕ) : ℤ) - b - 64 < 64) = .done () := if_pos (by omega)
      simp only [if_true]
      rw [c1]
      show (check ((0 : ℤ) ≤ (128 : ℕ) - (b : ℤ) - 64 ∧ ((128 : ℕ) : ℤ) - b - 64 < 64) >>= _) = _
      rw [c2]
      refine congrArg Run.done ?_
      refine countEqual_sorted ?_ hmono
      intro a c
      have hsh : (((128 : ℕ) : ℤ) - b - 64).toNat = 64 - b := by omega
      have hdiv : ∀ u : Uni, key u / 2^(128 - b) = (u.high64 >>> (64 - b)).toNat := by
        intro u
        have := u.h64.isLt
        rw [BitVec.toNat_ushiftRight, Nat.shiftRight_eq_div_pow, show 128 - b = 64 + (64 - b) by omega, pow_add,
          ← Nat.div_div_eq_div_mul]
        congr 1
        simp only [key]
        omega
      rw [hsh, hdiv, hdiv]
      rw [Bool.eq_iff_iff]
      simp only [beq_iff_eq, decide_eq_true_eq]
      constructor
      · intro h; rw [h]
      · intro h; exact (BitVec.eq_of_toNat_eq h).symm
    · have hz := hz.resolve_left h128
      have hle : bits ≤ 64 := by
        simp only [List.mem_cons, List.not_mem_nil, or_false] at hbits
        omega
      have hk : ∀ u ∈ t, key u = u.h64.toNat := by
        intro u hu
        simp only [key, hz u hu]
        show 0 * 2^64 + _ = _
        omega
      have c2 : check ((0 : ℤ) ≤ (bits : ℤ) - (b : ℤ) ∧ (bits : ℤ) - b < 64) = .done () := if_pos (by omega)
      simp only [if_neg h128]
      show (check ((0 : ℤ) ≤ (bits : ℤ) - (b : ℤ) ∧ (bits : ℤ) - b < 64) >>= _) = _
      rw [c2]
      refine congrArg Run.done ?_
      have hmono' : t.Pairwise (fun a c => a.h64.toNat / 2^(bits - b) ≤ c.h64.toNat / 2^(bits - b)) := by
        refine hmono.imp_of_mem ?_
        intro a c ha hc h
        rwa [hk a ha, hk c hc] at h
      have hmap : (t.map fun u => key u / 2^(bits - b)) = t.map fun u => u.h64.toNat / 2^(bits - b) :=
        List.map_congr_left fun u hu => by rw [hk u hu]
      rw [hmap]
      refine countEqual_sorted ?_ hmono'
      intro a c
      have hsh : ((bits : ℤ) - b).toNat = bits - b := by omega
      have hdiv : ∀ u : Uni, u.h64.toNat / 2^(bits - b) = (u.h64 >>> (bits - b)).toNat := by
        intro u
        rw [BitVec.toNat_ushiftRight, Nat.shiftRight_eq_div_pow]
      rw [hsh, hdiv, hdiv]
      rw [Bool.eq_iff_iff]
      simp only [beq_iff_eq, decide_eq_true_eq]
      constructor
      · intro h; rw [h]
      · intro h; exact (BitVec.eq_of_toNat_eq h).symm

theorem highLoop_ok {e : Env} (he : EnvOK e) (hsh : Shifts e) {bits : ℕ} (hbits : bits ∈ [32, 64, 128])
    {t cands : List Uni} (hz : bits = 128 ∨ ∀ u ∈ t, u.high64 = 0) (hp : t.Perm cands)
    (hs : t.Pairwise (key · ≤ key ·)) (hlen : t.length ≤ 2^35) {n : ℕ} (hn : n < bits) :
    ∃ high, highLoop e bits t n = .done high ∧ ∀ x ∈ high, 1 ≤ x.1 ∧ x.1 < bits ∧ x.2 = collHigh bits x.1 cands := by
  induction n with
  | zero => exact ⟨[], rfl, by simp⟩
  | succ n ih =>
    obtain ⟨high, ih, hh⟩ := ih (by omega)
    have hb128 : bits ≤ 128 := by
      simp only [List.mem_cons, List.not_mem_nil, or_false] at hbits; omega
    simp only [highLoop]
    have hshl : ∃ w, e.shl ((bits - (n + 1) : ℕ) : ℤ) = some w := by
      unfold Env.shl
      split
      · exact ⟨_, rfl⟩
      · exact Option.isSome_iff_exists.1 (hsh _)
    obtain ⟨w, hw⟩ := hshl
    rw [hw]
    show ∃ high, (if e.cfg.size (t.length * 100) < w.toNat ∧
      18 < estimateNbCollisions e.fp (BitVec.ofNat 64 t.length) (bits - (n + 1)) then _ else _) = _ ∧ _
    by_cases hc : e.cfg.size (t.length * 100) < w.toNat ∧
      18 < estimateNbCollisions e.fp (BitVec.ofNat 64 t.length) (bits - (n + 1))
    · have hb64 := estimate_small he.fp (n := BitVec.ofNat 64 t.length)
        (by rw [BitVec.toNat_ofNat]; omega) (by omega) hc.2
      have hcount := countHigh_ok (b := bits - (n + 1)) hbits (by omega) (by omega) hb64 hz hp hs
      refine ⟨(bits - (n + 1), collHigh bits (bits - (n + 1)) cands) :: high, ?_, ?_⟩
      · rw [if_pos hc, hcount, ih]
        rfl
      · intro x hx
        rcases List.mem_cons.1 hx with rfl | hx
        · exact ⟨by show 1 ≤ bits - (n + 1); omega, by show bits - (n + 1) < bits; omega, rfl⟩
        · exact hh x hx
    · exact ⟨high, by rw [if_neg hc, ih], hh⟩

/-! ### The search -/

/-- The message from which all others are made. -/
def base (size : ℕ) (seed : W64) : List Byte := (List.range size).map fun n => randomByte (seed + BitVec.ofNat 64 n)

theorem base_length (size : ℕ) (seed : W64) : (base size seed).length = size := by simp [base]

theorem samples_differing {b : List Byte} {n : ℕ} {m : List Byte} (hm : m ∈ samples b n) :
    1 ≤ differing m b ∧ differing m b ≤ 14 := by
  simp only [samples, List.mem_map] at hm
  obtain ⟨r, hr, rfl⟩ := hm
  have hr := List.mem_of_mem_take hr
  simp only [sets, List.mem_flatMap, List.mem_range'_1] at hr
  obtain ⟨k, hk, hr⟩ := hr
  obtain ⟨h1, h2, h3⟩ := mem_enumR.1 hr
  have hnd : r.Nodup := h2.imp (fun h => Nat.ne_of_gt h)
  have : differing (flips b r) b = r.length := by
    unfold differing
    apply List.Perm.length_eq
    rw [List.perm_ext_iff_of_nodup (List.nodup_range.filter _) hnd]
    intro i
    have hb := bitOf_flips (j := i) hnd h3
    simp only [bitOf] at hb
    rw [List.mem_filter, List.mem_range, length_flips, hb]
    by_cases hi : i ∈ r
    · have := h3 i hi
      simp [hi, this]
    · simp [hi]
  omega

/-- What the search needs to know about its parameters. -/
structure ParamOK (p : Param) (n : ℕ) : Prop where
  number : p.nbH.toNat = n
  pos : 0 < n
  most : n ≤ 2^35
  size : 2 ≤ p.sampleSize ∧ 8 * p.sampleSize < 2^31 - 1
  reach : n ≤ reach p.sampleSize
  hash : p.hashID < 7

theorem initFactory_ok {e : Env} (he : EnvOK e) {p : Param} {n : ℕ} (hp : ParamOK p n) :
    ∃ f, initFactory e p.sampleSize p.nbH p.prngSeed = .done f ∧ Gen f (samples (base p.sampleSize p.prngSeed) n) := by
  have hc := enoughCombos_eq he hp.size.1 hp.size.2 (htotal := p.nbH) (by rw [hp.number]; have := hp.most; omega)
  rw [decide_eq_true (by rw [hp.number]; exact hp.reach)] at hc
  have hsz : e.cfg.size (p.sampleSize * 8) = 8 * (base p.sampleSize p.prngSeed).length := by
    rw [base_length, Cfg.size, he.size, Nat.mod_eq_of_lt (by have := hp.size.2; omega)]; omega
  refine ⟨⟨base p.sampleSize p.prngSeed, List.replicate SPARSE_LEVEL_MAX 0, 0, e.cfg.size (p.sampleSize * 8)⟩, ?_, ?_⟩
  · unfold initFactory
    rw [hc]
    rfl
  · refine gen_samples (by rw [base_length]; have := hp.size.1; omega) ⟨rfl, hsz, rfl, trivial, by simp [SPARSE_LEVEL_MAX]⟩

/-- All hashes. -/
def allHashes (p : Param) (n : ℕ) : List Uni := (samples (base p.sampleSize p.prngSeed) n).map (uni p.hashID)

theorem allHashes_length {p : Param} {n : ℕ} (hp : ParamOK p n) : (allHashes p n).length = n := by
  rw [allHashes, List.length_map, length_samples]
  have := hp.reach
  rw [base_length]
  exact this

theorem loop_eq {σ : Type} {e : Env} (he : EnvOK e) {p : Param} {n : ℕ} (hp : ParamOK p n) {f : Factory}
    (hg : Gen f (samples (base p.sampleSize p.prngSeed) n)) (body : σ → Uni → Run σ) (s : σ) :
    forSamples e p body p.nbH.toNat f s = (selected p (allHashes p n)).foldlM body s := by
  have hlen : (samples (base p.sampleSize p.prngSeed) n).length = n := by
    rw [length_samples]
    have := hp.reach
    rw [base_length]
    exact this
  have := forSamples_eq (e := e) (p := p) (body := body) hg ?_ s
  · rw [hlen] at this
    rw [hp.number]
    exact this
  · intro m hm
    have hml := samples_len m hm
    rw [base_length] at hml
    have := hashfn_eq he hp.hash (msg := m) (by rw [hml]; have := hp.size.2; omega)
    rwa [hml] at this

theorem add_all {hb T : ℕ} {maxNbH : W64} (hT : T = (maxNbH.toNat + 1) * hb) (l cs : List Uni)
    (h : cs.length + l.length ≤ maxNbH.toNat) :
    l.foldlM (addCandidate hb T maxNbH) cs = .done (cs ++ l) := by
  induction l generalizing cs with
  | nil => simp; rfl
  | cons u l ih =>
    simp only [List.length_cons] at h
    have : addCandidate hb T maxNbH cs u = .done (cs ++ [u]) := by
      unfold addCandidate
      have hc : check (cs.length < maxNbH.toNat) = .done () := if_pos (by omega)
      rw [hc]
      show (if (cs.length + 1) * hb ≤ T then _ else _) = _
      rw [if_pos (by rw [hT]; exact Nat.mul_le_mul_right _ (by omega))]
      rfl
    rw [List.foldlM_cons, this]
    show l.foldlM (addCandidate hb T maxNbH) (cs ++ [u]) = _
    rw [ih (cs ++ [u]) (by simp only [List.length_append, List.length_singleton]; omega)]
    simp

theorem add_some {hb T : ℕ} {maxNbH : W64} (hT : T = (maxNbH.toNat + 1) * hb) {check' : Uni → Option Bool}
    {keep : Uni → Bool} (hk : ∀ u, check' u = some (keep u)) {X A : Prop} (hA : A) (l cs : List Uni) :
    EndsIn (fun r => r = cs ++ l.filter keep) X A (l.foldlM (fun cands h => do
      if ← Run.of (check' h) then addCandidate hb T maxNbH cands h else return cands) cs) := by
  induction l generalizing cs with
  | nil => show cs = cs ++ []; simp
  | cons u l ih =>
    rw [List.foldlM_cons]
    refine outcome_bind (P := fun r => r = cs ++ [u].filter keep) ?_ ?_
    · rw [hk]
      show EndsIn _ _ _ (if keep u = true then addCandidate hb T maxNbH cs u else Run.done cs)
      cases hku : keep u with
      | false =>
        rw [if_neg (by simp)]
        show cs = _
        simp [hku]
      | true =>
        rw [if_pos rfl]
        unfold addCandidate check
        by_cases hlt : cs.length < maxNbH.toNat
        · rw [if_pos hlt]
          show EndsIn _ _ _ (if (cs.length + 1) * hb ≤ T then Run.done (cs ++ [u]) else .undefined)
          rw [if_pos (by rw [hT]; exact Nat.mul_le_mul_right _ (by omega))]
          show cs ++ [u] = _
          simp [hku]
        · rw [if_neg hlt]
          exact hA
    · rintro r rfl
      refine outcome_mono (ih _) ?_ id id
      rintro r rfl
      rw [List.append_assoc, ← List.filter_append]
      rfl

/-- What is known of the filter in the second pass. -/
def FilterOK (e : Env) (p : Param) (n : ℕ) (bflog : ℤ) (maxNbH : W64) : Option (List Byte) → Prop
  | none => maxNbH = p.nbH
  | some bf => ∃ keep : Uni → Bool, (∀ u, filterCheck e bf bflog u.h64 = some (keep u)) ∧
      ∀ u ∈ selected p (allHashes p n), keep u = false → (selected p (allHashes p n)).count u = 1

/-- What a search must find. -/
def ReportOK (bits : ℕ) (l : List Uni) (r : Report) : Prop :=
  r.collisions = coll l ∧ ∀ x ∈ r.high, 1 ≤ x.1 ∧ x.1 < bits ∧ x.2 = collHigh bits x.1 l

theorem storeAndCount_ok {e : Env} (he : EnvOK e) (hsh : Shifts e) {p : Param} {n : ℕ} (hp : ParamOK p n) {bits : ℕ}
    (hbits : hashBits p.hashID = bits) (hbits' : bits ∈ [32, 64, 128])
    (hz : bits = 128 ∨ ∀ msg, (uni p.hashID msg).high64 = 0) {bflog : ℤ} {maxNbH : W64} (hmax : maxNbH.toNat ≤ 2^36)
    {bf : Option (List Byte)} (hbf : FilterOK e p n bflog maxNbH bf) {X A : Prop} (hX : ¬ Memory e → X)
    (hA1 : bf.isSome = true → A) (hA2 : (selected p (allHashes p n)).length < n → ¬ Shrinks e → A) :
    EndsIn (ReportOK bits (selected p (allHashes p n))) X A (storeAndCount e p bflog p.nbH maxNbH bf) := by
  have hlen : (selected p (allHashes p n)).length ≤ n := by
    exact le_trans (List.length_filter_le _ _) (le_of_eq (allHashes_length hp))
  have hmost := hp.most
  have hz' : bits = 128 ∨ ∀ u ∈ selected p (allHashes p n), u.high64 = 0 := by
    rcases hz with h | h
    · exact .inl h
    · right
      intro u hu
      have := List.mem_of_mem_filter hu
      simp only [allHashes, List.mem_map] at this
      obtain ⟨m, _, rfl⟩ := this
      exact h m
  unfold storeAndCount
  simp only [hbits]
  obtain ⟨hb, hhb, hhb8⟩ : ∃ hb, (if bits = 128 then 16 else 8) = hb ∧ (hb = 16 ∨ hb = 8) := by
    refine ⟨_, rfl, ?_⟩
    split <;> simp
  rw [hhb]
  have hT : e.cfg.size ((maxNbH + 1) * BitVec.ofNat 64 hb).toNat = (maxNbH.toNat + 1) * hb := by
    rw [Cfg.size, he.size, BitVec.toNat_mul, BitVec.toNat_add, BitVec.toNat_ofNat]
    show (maxNbH.toNat + 1) % 2^64 * (hb % 2^64) % 2^64 % 2^64 = _
    rcases hhb8 with rfl | rfl <;> omega
  rw [hT]
  have hc : check (maxNbH.toNat < (maxNbH.toNat + 1) * hb) = .done () := if_pos (by rcases hhb8 with rfl | rfl <;> omega)
  rw [hc]
  show EndsIn _ _ _ (if (!e.alloc 3 ((maxNbH.toNat + 1) * hb)) = true then Run.exit 1 else _)
  by_cases hal : e.alloc 3 ((maxNbH.toNat + 1) * hb) = true
  swap
  · rw [if_pos (by simpa using hal)]
    exact ⟨rfl, hX fun hm => hal (hm _ _)⟩
  rw [if_neg (by simp [hal])]
  obtain ⟨f, hf, hg⟩ := initFactory_ok he hp
  rw [hf]
  show EndsIn _ _ _ (store e p bflog p.nbH f bf hb ((maxNbH.toNat + 1) * hb) maxNbH >>= _)
  have hstore : EndsIn (fun cands => coll cands = coll (selected p (allHashes p n)) ∧ cands.length ≤ n ∧
      (∀ u ∈ cands, u ∈ selected p (allHashes p n)) ∧
      (bf = none → cands = selected p (allHashes p n))) X A (store e p bflog p.nbH f bf hb ((maxNbH.toNat + 1) * hb) maxNbH) := by
    unfold store
    rw [loop_eq he hp hg]
    cases bf with
    | none =>
      have hbf : maxNbH = p.nbH := hbf
      have := add_all (hb := hb) (maxNbH := maxNbH) rfl (selected p (allHashes p n)) [] (by
        rw [hbf, hp.number]; simpa using hlen)
      show EndsIn _ _ _ (List.foldlM (addCandidate hb ((maxNbH.toNat + 1) * hb) maxNbH) [] (selected p (allHashes p n)))
      rw [this]
      exact ⟨rfl, hlen, fun u hu => hu, fun _ => rfl⟩
    | some bf =>
      obtain ⟨keep, hk, hcount⟩ := hbf
      refine outcome_mono (add_some rfl (check' := fun u => filterCheck e bf bflog u.h64) (keep := keep) hk (X := X) (hA1 rfl)
        (selected p (allHashes p n)) []) ?_ id id
      rintro r rfl
      rw [List.nil_append]
      exact ⟨coll_filter hcount, le_trans (List.length_filter_le _ _) hlen, fun u hu => List.mem_of_mem_filter hu, by simp⟩
  refine outcome_bind hstore ?_
  rintro cands ⟨hcoll, hcl, hmem, hnone⟩
  have hzc : bits = 128 ∨ ∀ u ∈ cands, u.high64 = 0 := by
    rcases hz' with h | h
    · exact .inl h
    · exact .inr fun u hu => h u (hmem u hu)
  have hcheck : EndsIn (fun _ => True) X A
      (check (¬ cands.length < maxNbH.toNat ∨ e.inPlace (e.cfg.size (cands.length * hb)) = true)) := by
    unfold check
    split
    · trivial
    · rename_i hno
      show A
      push Not at hno
      cases bf with
      | some bf => exact hA1 rfl
      | none =>
        have hbf : maxNbH = p.nbH := hbf
        refine hA2 ?_ fun hm => hno.2 (hm _)
        rw [← hnone rfl, ← hp.number, ← hbf]
        exact hno.1
  refine outcome_bind hcheck ?_
  rintro - -
  obtain ⟨hperm, hsorted⟩ := sortTable_ok he hzc
  have hcnt := count_ok he hzc
  rw [hcnt]
  by_cases hd : bf.isNone = true ∧ p.display = true
  · rw [if_pos hd]
    have hn : bf = none := by simpa using hd.1
    obtain ⟨high, hh, hok⟩ := highLoop_ok he hsh hbits' (cands := cands)
      (hzc.imp_right fun h u hu => h u (hperm.mem_iff.1 hu)) hperm hsorted (by rw [hperm.length_eq]; omega)
      (n := bits - 1) (by simp only [List.mem_cons, List.not_mem_nil, or_false] at hbits'; omega)
    rw [hh]
    rw [hnone hn] at hok
    exact ⟨hcoll, hok⟩
  · rw [if_neg hd]
    exact ⟨hcoll, by simp⟩

theorem highestBitSet_eq {v : W64} (h : 0 < v.toNat) : highestBitSet v = .done v.toNat.log2 := by
  unfold highestBitSet
  have : check (v ≠ 0) = .done () := if_pos (by rintro rfl; simp at h)
  rw [this]
  rfl

theorem search_ok {e : Env} (he : EnvOK e) (hsh : Shifts e) {p : Param} {n : ℕ} (hp : ParamOK p n) {bits : ℕ}
    (hbits : hashBits p.hashID = bits) (hbits' : bits ∈ [32, 64, 128])
    (hz : bits = 128 ∨ ∀ msg, (uni p.hashID msg).high64 = 0)
    (hfl : p.filterLog < 0 ∨ 7 ≤ p.filterLog ∧ p.filterLog < 64) {X A : Prop} (hX : ¬ Memory e → X)
    (hA1 : 0 ≤ p.filterLog → A) (hA2 : (selected p (allHashes p n)).length < n → ¬ Shrinks e → A) :
    EndsIn (ReportOK bits (selected p (allHashes p n))) X A (search e p) := by
  have hpos := hp.pos
  have hmost := hp.most
  have hlen : (selected p (allHashes p n)).length ≤ n := by
    exact le_trans (List.length_filter_le _ _) (le_of_eq (allHashes_length hp))
  have hne : p.nbH ≠ 0 := by
    intro h
    have := hp.number
    rw [h] at this
    simp at this
    omega
  unfold search
  simp only [hbits]
  rw [if_neg (not_not.2 hbits')]
  by_cases hal : e.alloc 0 p.sampleSize = true
  swap
  · rw [if_pos (by simpa using hal)]
    exact ⟨rfl, hX fun hm => hal (hm _ _)⟩
  rw [if_neg (by simp [hal])]
  obtain ⟨f, hf, hg⟩ := initFactory_ok he hp
  rw [hf]
  show EndsIn _ _ _ (if p.nbH = 0 then _ else (Run.done p.nbH >>= _))
  rw [if_neg hne]
  have hauto : autoLog p.filterLog p.nbH = .done p.filterLog := by
    unfold autoLog
    rw [if_neg (by omega)]
  show EndsIn _ _ _ (autoLog p.filterLog p.nbH >>= _)
  rw [hauto]
  have hshl : ∃ w, e.shl p.filterLog = some w := by
    unfold Env.shl
    split
    · exact ⟨_, rfl⟩
    · exact Option.isSome_iff_exists.1 (hsh _)
  obtain ⟨w, hw⟩ := hshl
  show EndsIn _ _ _ (Run.of (e.shl p.filterLog) >>= _)
  rw [hw]
  show EndsIn _ _ _ (if 0 ≤ p.filterLog then _ else _)
  rcases hfl with hfl | ⟨h7, h64⟩
  · rw [if_neg (by omega)]
    exact storeAndCount_ok he hsh hp hbits hbits' hz (by rw [hp.number]; omega) (bf := none) rfl hX (by simp) hA2
  · rw [if_pos (by omega)]
    have hA := hA1 (by omega)
    have hcr : EndsIn (fun bf => bf = List.replicate (2^(p.filterLog - 6).toNat * 64) 0) X A (createFilter e p.filterLog) := by
      unfold createFilter
      have hc : check (p.filterLog < 64 ∧ 1 < p.filterLog) = .done () := if_pos ⟨h64, by omega⟩
      have hs : e.shlSize p.filterLog = some (2^(p.filterLog - 6).toNat * 64) := by
        rw [Env.shlSize, if_pos ⟨by omega, by rw [he.size]; push_cast; omega⟩]
        congr 1
        rw [show p.filterLog.toNat = (p.filterLog - 6).toNat + 6 by omega, pow_add]
        norm_num
      rw [hc, hs]
      show EndsIn _ _ _ (if e.alloc 1 (2^(p.filterLog - 6).toNat * 64) = true then Run.done _ else Run.exit 1)
      by_cases ha : e.alloc 1 (2^(p.filterLog - 6).toNat * 64) = true
      · rw [if_pos ha]; rfl
      · rw [if_neg ha]; exact ⟨rfl, hX fun hm => ha (hm _ _)⟩
    refine outcome_bind hcr ?_
    rintro bf rfl
    have hfill := fill_ok he (by omega : 6 ≤ p.filterLog) h64 (selected p (allHashes p n))
      (bf := List.replicate (2^(p.filterLog - 6).toNat * 64) 0) (m := 0) (by simp) (by
        show 0 + _ < _; omega)
    obtain ⟨bf', m', hfold, hl', -, hm2, -, -, hdup⟩ := hfill
    have hfe : fillFilter e p p.filterLog p.nbH f (List.replicate (2^(p.filterLog - 6).toNat * 64) 0) = .done (bf', m') := by
      unfold fillFilter
      rw [loop_eq he hp hg]
      exact hfold
    rw [hfe]
    have hm2' : m'.toNat ≤ 0 + 2 * (selected p (allHashes p n)).length := hm2
    rw [List.length_replicate] at hl'
    show EndsIn _ _ _ (if m' = 0 then Run.done _ else _)
    have hcount : ∀ u : Uni, 2 ≤ (selected p (allHashes p n)).count u →
        Has bf' (2^(p.filterLog - 6).toNat) 512 256 u.h64 ∧ 0 < m'.toNat := by
      intro u hu
      exact hdup u.h64 (le_trans hu List.count_le_count_map)
    by_cases hm0 : m' = 0
    · rw [if_pos hm0]
      refine ⟨?_, by simp⟩
      symm
      apply coll_nodup
      rw [List.nodup_iff_count_le_one]
      intro u
      by_contra hc
      have := (hcount u (by omega)).2
      rw [hm0] at this
      simp at this
    · rw [if_neg hm0]
      rcases filterReduce_ok he h7 h64 hl' with ⟨hr, hno⟩ | ⟨bf2, hr, hl2, hhas⟩
      · rw [hr]
        exact ⟨rfl, hX hno⟩
      · rw [hr]
        show EndsIn _ _ _ (storeAndCount e p p.filterLog p.nbH m' (some bf2))
        refine storeAndCount_ok he hsh hp hbits hbits' hz (by omega) (bf := some bf2) ?_ hX (fun _ => hA) hA2
        have hck : ∀ w : W64, ∃ c, filterCheck e bf2 p.filterLog w = some c ∧
            (Has bf2 (2^(p.filterLog - 6).toNat) 256 0 w → c = true) := filterCheck_ok he (by omega) h64 hl2
        choose keep hk1 hk2 using hck
        refine ⟨fun u => keep u.h64, fun u => hk1 u.h64, ?_⟩
        intro u hu hku
        have h1 : 1 ≤ (selected p (allHashes p n)).count u := List.one_le_count_iff.2 hu
        by_contra hc
        have := hk2 _ (hhas _ (hcount u (by omega)).1)
        exact Bool.noConfusion (hku.symm.trans this)

/-! ### The whole program -/

theorem hashes_bits {id : ℕ} {name : String} {bits : ℕ} {H : List Byte → ℕ} (h : hashes[id]? = some (name, bits, H)) :
    bits ∈ [32, 64, 128] := by
  have := List.mem_of_getElem? h
  simp only [hashes, List.mem_cons, Prod.mk.injEq, List.not_mem_nil, or_false] at this
  simp only [List.mem_cons, List.not_mem_nil, or_false]
  omega

/-- The hashes of a request. -/
def requested (o : Opts) (n : ℕ) : List Uni := (samples (base o.sampleSize o.prngSeed) n).map (uni o.hashID)

/-- The parameters of a thread. -/
abbrev jobParam (o : Opts) (totalH : W64) (bflog : ℤ) (T tnb : ℕ) : Param :=
  ⟨totalH, BitVec.ofNat 64 T - 1, BitVec.ofNat 64 tnb, o.sampleSize, o.prngSeed, bflog - o.threadlog, o.hashID, false⟩

/-- The parameters without threads. -/
abbrev soleParam (o : Opts) (totalH : W64) (bflog : ℤ) : Param :=
  ⟨totalH, 0, 0, o.sampleSize, o.prngSeed, bflog, o.hashID, true⟩

theorem jobs_ok {e : Env} (he : EnvOK e) (hsh : Shifts e) {o : Opts} {bits n : ℕ} {totalH : W64}
    (htot : totalH.toNat = n) (hpos : 0 < n) (hmost : n ≤ 2^35)
    (hsize : 2 ≤ o.sampleSize ∧ 8 * o.sampleSize < 2^31 - 1) (hreach : n ≤ reach o.sampleSize) (hid : o.hashID < 7)
    (hbits : hashBits o.hashID = bits) (hbits' : bits ∈ [32, 64, 128])
    (hz : bits = 128 ∨ ∀ msg, (uni o.hashID msg).high64 = 0) {bflog : ℤ} (hbf : bflog ≠ 0)
    (hfl : bflog - o.threadlog < 0 ∨ 7 ≤ bflog - o.threadlog ∧ bflog - o.threadlog < 64) {T : ℕ} (hT1 : 1 ≤ T)
    (hT : T ≤ 2^31) {X A : Prop}
    (hX : ¬ Memory e → X) (hA1 : 0 ≤ bflog - o.threadlog → A) (hA2 : ¬ Shrinks e → A) {k tnb : ℕ} (hk : tnb + k = T)
    {sum : W64}
    (hsum : sum.toNat = coll ((requested o n).filter fun h => decide ((h.h64 &&& (BitVec.ofNat 64 T - 1)).toNat < tnb))) :
    EndsIn (fun s => s.toNat = coll (requested o n)) X A (jobs e o totalH bflog T k tnb sum) := by
  induction k generalizing tnb sum with
  | zero =>
    show sum.toNat = _
    rw [hsum]
    have hall : ∀ h : Uni, (h.h64 &&& (BitVec.ofNat 64 T - 1)).toNat < tnb := by
      intro h
      have : (BitVec.ofNat 64 T - 1).toNat = T - 1 := by
        rw [BitVec.toNat_sub, BitVec.toNat_ofNat]
        show (2^64 - 1 + T % 2^64) % 2^64 = _
        omega
      rw [BitVec.toNat_and, this]
      have := Nat.and_le_right (n := h.h64.toNat) (m := T - 1)
      omega
    rw [List.filter_eq_self.2 (fun h _ => by simpa using hall h)]
  | succ k ih =>
    simp only [jobs]
    rw [if_pos hbf]
    have hp : ParamOK (jobParam o totalH bflog T tnb) n := ⟨htot, hpos, hmost, hsize, hreach, hid⟩
    refine outcome_bind (search_ok he hsh hp hbits hbits' hz hfl hX hA1 (fun _ => hA2)) ?_
    rintro r ⟨hr, -⟩
    refine ih (by omega) ?_
    have hsel : selected (jobParam o totalH bflog T tnb) (requested o n) =
        (requested o n).filter fun h => decide ((h.h64 &&& (BitVec.ofNat 64 T - 1)).toNat = tnb) := by
      unfold selected
      refine List.filter_congr ?_
      intro h _
      rw [decide_eq_decide]
      constructor
      · intro hh
        rw [hh, BitVec.toNat_ofNat]
        exact Nat.mod_eq_of_lt (by omega)
      · intro hh
        apply BitVec.eq_of_toNat_eq
        rw [hh, BitVec.toNat_ofNat]
        exact (Nat.mod_eq_of_lt (by omega)).symm
    have hlen : coll (requested o n) ≤ n := by
      have : (requested o n).length = n := allHashes_length hp
      rw [coll, this]
      omega
    have hreq : allHashes (jobParam o totalH bflog T tnb) n = requested o n := rfl
    rw [hreq, hsel] at hr
    have hsplit := coll_split (fun h => decide ((h.h64 &&& (BitVec.ofNat 64 T - 1)).toNat < tnb))
      ((requested o n).filter fun h => decide ((h.h64 &&& (BitVec.ofNat 64 T - 1)).toNat < tnb + 1))
    rw [List.filter_filter, List.filter_filter] at hsplit
    have e1 : ((requested o n).filter fun h => decide ((h.h64 &&& (BitVec.ofNat 64 T - 1)).toNat < tnb) &&
        decide ((h.h64 &&& (BitVec.ofNat 64 T - 1)).toNat < tnb + 1)) =
        (requested o n).filter fun h => decide ((h.h64 &&& (BitVec.ofNat 64 T - 1)).toNat < tnb) := by
      refine List.filter_congr fun h _ => ?_
      rw [← Bool.decide_and, decide_eq_decide]
      omega
    have e2 : ((requested o n).filter fun h => !decide ((h.h64 &&& (BitVec.ofNat 64 T - 1)).toNat < tnb) &&
        decide ((h.h64 &&& (BitVec.ofNat 64 T - 1)).toNat < tnb + 1)) =
        (requested o n).filter fun h => decide ((h.h64 &&& (BitVec.ofNat 64 T - 1)).toNat = tnb) := by
      refine List.filter_congr fun h _ => ?_
      rw [← decide_not, ← Bool.decide_and, decide_eq_decide]
      omega
    rw [e1, e2, ← hsum, ← hr] at hsplit
    have htotal := coll_split (fun h => decide ((h.h64 &&& (BitVec.ofNat 64 T - 1)).toNat < tnb + 1)) (requested o n)
    rw [BitVec.toNat_add, BitVec.toNat_ofNat, hsplit]
    omega

theorem run_ok {e : Env} (he : EnvOK e) (hsh : Shifts e) {pool : Bool} {o : Opts} {name : String} {bits : ℕ}
    {H : List Byte → ℕ} (hh : hashes[o.hashID]? = some (name, bits, H)) {n : ℕ} (hr : Request o bits n) {X A : Prop}
    (hX : ¬ Memory e → X) (hX2 : o.threadlog ≠ 0 → pool = false → X) (hX3 : TooManyThreads o n → X)
    (hA1 : o.filter = true → A) (hA2 : o.threadlog ≠ 0 → ¬ Shrinks e → A) :
    EndsIn (fun s => s.toNat = coll (requested o n)) X A (run e pool o) := by
  obtain ⟨hid, hbits, -, hz⟩ := uni_key hh
  have hbits' := hashes_bits hh
  have hmost := hr.most
  have hthreads := hr.threads
  have hstd : standard bits = 24 * 2^16 ∨ standard bits = 24 * 2^30 := by
    unfold standard; split <;> simp
  have hpos : 0 < n := by
    rw [hr.number]
    split
    · omega
    · rename_i h
      by_contra hc
      exact h (BitVec.eq_of_toNat_eq (by simpa using hc))
  obtain ⟨totalH, htot, hsel⟩ : ∃ totalH : W64, totalH.toNat = n ∧
      (if o.totalH = 0 then select_nbh e.fp (hashBits o.hashID) else Run.done o.totalH) = .done totalH := by
    by_cases h0 : o.totalH = 0
    · refine ⟨BitVec.ofNat 64 (standard bits), ?_, ?_⟩
      · rw [hr.number, if_pos h0, BitVec.toNat_ofNat]
        omega
      · rw [if_pos h0, hbits, select_eq he.fp hbits']
    · exact ⟨o.totalH, by rw [hr.number, if_neg h0], by rw [if_neg h0]⟩
  have hauto : autoLog o.bflog totalH = .done (if o.bflog = 0 then (n.log2 : ℤ) + 1 else o.bflog) := by
    unfold autoLog
    by_cases h0 : o.bflog = 0
    · rw [if_pos h0, if_pos h0, highestBitSet_eq (by omega), htot]
      rfl
    · rw [if_neg h0, if_neg h0]
  have hrun : run e pool o = (do
    let totalH ← (if o.totalH = 0 then select_nbh e.fp (hashBits o.hashID) else Run.done o.totalH)
    let bflog ← autoLog o.bflog totalH
    let bflog := if o.filter then bflog else -1
    if ¬ (0 ≤ o.threadlog ∧ o.threadlog < 31) then .undefined
    else
      let nbThreads := 2^o.threadlog.toNat
      if nbThreads = 1 then do
        let r ← search e
          { nbH := totalH, mask := 0, maskSelector := 0, sampleSize := o.sampleSize, prngSeed := o.prngSeed
            filterLog := bflog, hashID := o.hashID, display := true }
        return BitVec.ofNat 64 r.collisions
      else if 30 ≤ o.threadlog then .exit 1
      else if totalH.toNat / 2^16 < nbThreads then .exit 1
      else if 0 < bflog ∧ bflog - 10 < o.threadlog then .exit 1
      else if !pool then .exit 1
      else jobs e o totalH bflog nbThreads nbThreads 0 0) := by
    unfold run
    by_cases h0 : o.totalH = 0
    · simp only [if_pos h0]
    · simp only [if_neg h0]
  rw [hrun, hsel]
  show EndsIn _ _ _ (autoLog o.bflog totalH >>= _)
  rw [hauto]
  generalize hbl : (if o.bflog = 0 then (n.log2 : ℤ) + 1 else o.bflog) = bl
  have hbl' : o.filter = true → 7 ≤ bl ∧ bl < 64 := by
    intro hf
    rw [← hbl]
    rcases hr.filter hf with ⟨h1, h2⟩ | ⟨h1, h2⟩
    · rw [if_pos h1]
      have hlo : 6 ≤ n.log2 := (Nat.le_log2 (by omega)).2 (by simpa using h2)
      have hhi : n.log2 < 36 := (Nat.log2_lt (by omega)).2 (by omega)
      omega
    · rw [if_neg (by omega)]
      omega
  show EndsIn _ _ _ (if ¬ (0 ≤ o.threadlog ∧ o.threadlog < 31) then _ else _)
  rw [if_neg (not_not.2 hthreads)]
  have hp0 : ParamOK (soleParam o totalH (if o.filter then bl else -1)) n :=
    ⟨htot, hpos, hmost, hr.size, hr.reach, hid⟩
  have hlenr : (requested o n).length = n := allHashes_length hp0
  have hle : coll (requested o n) ≤ n := by rw [coll, hlenr]; omega
  show EndsIn _ _ _ (if 2^o.threadlog.toNat = 1 then _ else _)
  by_cases ht : o.threadlog = 0
  · rw [if_pos (by rw [ht]; rfl)]
    have hself : selected (soleParam o totalH (if o.filter then bl else -1))
        (requested o n) = requested o n := by
      unfold selected
      exact List.filter_eq_self.2 (fun h _ => by simp)
    refine outcome_bind (search_ok he hsh hp0 hbits hbits' hz ?_ hX ?_ ?_) ?_
    · show (if o.filter then bl else -1) < 0 ∨ _
      cases hf : o.filter with
      | true => right; exact hbl' hf
      | false => left; simp
    · intro h
      cases hf : o.filter with
      | true => exact hA1 hf
      | false => simp [hf] at h
    · intro h
      have : (selected _ (requested o n)).length < n := h
      rw [hself, hlenr] at this
      omega
    · rintro r ⟨h1, -⟩
      have h1 : r.collisions = coll (selected _ (requested o n)) := h1
      rw [hself] at h1
      show (BitVec.ofNat 64 r.collisions).toNat = _
      rw [BitVec.toNat_ofNat, h1]
      omega
  · have hT : 2^1 ≤ 2^o.threadlog.toNat := Nat.pow_le_pow_right (by norm_num) (by omega)
    have hT2 : 2^o.threadlog.toNat ≤ 2^30 := Nat.pow_le_pow_right (by norm_num) (by omega)
    have hnlog : (if o.bflog = 0 then (n.log2 : ℤ) + 1 else o.bflog) = bl := hbl
    rw [if_neg (by omega)]
    by_cases h30 : 30 ≤ o.threadlog
    · rw [if_pos h30]
      exact ⟨rfl, hX3 ⟨ht, .inl (by omega)⟩⟩
    rw [if_neg h30]
    by_cases h16 : totalH.toNat / 2^16 < 2^o.threadlog.toNat
    · rw [if_pos h16]
      refine ⟨rfl, hX3 ⟨ht, .inr (.inl ?_)⟩⟩
      rw [htot] at h16
      omega
    rw [if_neg h16]
    by_cases hfl : 0 < (if o.filter then bl else -1) ∧ (if o.filter then bl else -1) - 10 < o.threadlog
    · rw [if_pos hfl]
      refine ⟨rfl, hX3 ⟨ht, .inr (.inr ?_)⟩⟩
      cases hf : o.filter with
      | false => simp [hf] at hfl
      | true =>
        simp only [hf, if_true] at hfl
        rw [hbl]
        exact ⟨rfl, by omega⟩
    rw [if_neg hfl]
    cases hpool : pool with
    | false => exact ⟨rfl, hX2 ht hpool⟩
    | true =>
      show EndsIn _ _ _ (jobs e o totalH (if o.filter then bl else -1) (2^o.threadlog.toNat) (2^o.threadlog.toNat) 0 0)
      refine jobs_ok he hsh htot hpos hmost hr.size hr.reach hid hbits hbits' hz ?_ ?_ (by omega) (by omega) hX ?_
        (hA2 ht) (by omega) ?_
      · cases hf : o.filter with
        | true => have := hbl' hf; simp; omega
        | false => simp
      · cases hf : o.filter with
        | true =>
          have := hbl' hf
          simp only [hf, if_true] at hfl ⊢
          omega
        | false => simp; omega
      · intro h
        cases hf : o.filter with
        | true => exact hA1 hf
        | false => simp [hf] at h; omega
      · simp [coll]

end XXH.Proof.Collide
