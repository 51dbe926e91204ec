import Verif.Proof.Collide
import Verif.Proof.CollideArgs
import Verif.Proof.CollideSlab
import Verif.Proof.Bench
import Verif.Props.Examples
/-!
The example machine of C49, the completeness of the samples, and requests that abort.
-/
namespace XXH.Proof.Collide
open XXH.Model XXH.Model.Collide XXH.CollideTerms XXH.Examples
open Bench (Run Fp)

/-! ### The example machine -/

theorem nearest_exact {n : ℕ} (hn : n < 2^53) (k : ℕ) : Proof.Bench.nearest.rnd (n * 2^k) = n * 2^k := by
  simp only [Proof.Bench.nearest]
  by_cases h0 : n = 0
  · subst h0; simp
  have hpos : (0 : ℚ) < n := by exact_mod_cast Nat.pos_of_ne_zero h0
  have hq : (0 : ℚ) < n * 2^k := by positivity
  rw [if_neg hq.ne', abs_of_pos hq]
  have hl : Int.log 2 ((n : ℚ) * 2^k) < k + 53 := by
    refine (Int.lt_zpow_iff_log_lt (by norm_num) hq).1 ?_
    push_cast
    rw [zpow_add₀ (by norm_num), zpow_natCast, mul_comm]
    have : (n : ℚ) < 2^(53 : ℤ) := by
      have : (n : ℚ) < ((2^53 : ℕ) : ℚ) := by exact_mod_cast hn
      norm_num at this ⊢
      exact this
    exact mul_lt_mul_of_pos_left this (by positivity)
  generalize Int.log 2 ((n : ℚ) * 2^k) = l at *
  have hne : (2 : ℚ)^(l - 52) ≠ 0 := zpow_ne_zero _ (by norm_num)
  have hd : (n : ℚ) * 2^k / 2^(l - 52) = ((n * 2^((k : ℤ) - (l - 52)).toNat : ℤ) : ℚ) := by
    push_cast
    rw [mul_div_assoc]
    congr 1
    rw [← zpow_natCast, ← zpow_sub₀ (by norm_num), ← zpow_natCast]
    congr 1
    omega
  rw [hd, round_intCast, ← hd]
  field_simp

theorem nearest_fp : FpOK Proof.Bench.nearest := by
  refine ⟨fun q h => Proof.Bench.nearest_ok.near q (.inr h), ?_⟩
  intro n hn k _
  rcases Nat.lt_or_eq_of_le hn with h | h
  · exact nearest_exact h k
  · subst h
    have := nearest_exact (n := 1) (by norm_num) (53 + k)
    rw [pow_add] at this
    push_cast at this ⊢
    rw [one_mul] at this
    exact this
end XXH.Proof.Collide

namespace XXH.Examples
open XXH.Model XXH.Model.Collide

/-- A 64-bit machine with enough memory, whose shifts use the low six bits of the count. -/
def collider : Env where
  cfg := x64
  fp := Proof.Bench.nearest
  shiftOut n := some ((1 : W64) <<< (n % 64).toNat)
  bufAddr := 0x1000
  alloc _ _ := true
  inPlace _ := true
  sort64 l := l.mergeSort fun a b => decide (a.toNat ≤ b.toNat)
  sort128 l := l.mergeSort fun a b => decide (XXH3.XXH128_cmp a b ≤ 0)
end XXH.Examples

namespace XXH.Proof.Collide
open XXH.Model XXH.Model.Collide XXH.CollideTerms XXH.Examples XXH.Props
open Bench (Run Fp)

theorem collider_ok : EnvOK collider := by
  refine ⟨x64_valid, rfl, Proof.Collide.nearest_fp, fun l => ⟨List.mergeSort_perm _ _, ?_⟩, fun l => ⟨List.mergeSort_perm _ _, ?_⟩⟩
  · have := List.pairwise_mergeSort (le := fun a b : W64 => decide (a.toNat ≤ b.toNat))
      (fun a b c h1 h2 => by simp only [decide_eq_true_eq] at *; omega)
      (fun a b => by simp only [Bool.or_eq_true, decide_eq_true_eq]; omega) l
    exact this.imp fun h => by simpa using h
  · have h := List.pairwise_mergeSort (le := fun a b : H128 => decide (XXH3.XXH128_cmp a b ≤ 0))
      (fun a b c h1 h2 => by
        simp only [decide_eq_true_eq] at *
        exact C18_cmp_trans h1 h2)
      (fun a b => by
        simp only [Bool.or_eq_true, decide_eq_true_eq]
        rw [C18_cmp_antisymm a b]
        omega) l
    exact h.imp fun h => by simpa using h

/-! ### All messages -/

theorem samples_all {b m : List Byte} {n : ℕ} (hn : reach b.length ≤ n) (hm : m.length = b.length)
    (h1 : 1 ≤ differing m b) (h14 : differing m b ≤ 14) : m ∈ samples b n := by
  set r := ((List.range (8 * m.length)).filter fun i =>
    (m.getD (i / 8) 0).getLsbD (i % 8) != (b.getD (i / 8) 0).getLsbD (i % 8)).reverse with hr
  have hlen : r.length = differing m b := by rw [hr, List.length_reverse]; rfl
  have hdec : r.Pairwise (· > ·) := by
    rw [hr, List.pairwise_reverse]
    exact List.Pairwise.filter _ List.pairwise_lt_range
  have hlt : ∀ x ∈ r, x < 8 * b.length := by
    intro x hx
    rw [hr, List.mem_reverse, List.mem_filter, List.mem_range, hm] at hx
    exact hx.1
  have hset : r ∈ sets (8 * b.length) 14 := by
    simp only [sets, List.mem_flatMap, List.mem_range'_1]
    exact ⟨r.length, by omega, mem_enumR.2 ⟨rfl, hdec, hlt⟩⟩
  have hflip : flips b r = m := by
    refine bytes_ext b.length (length_flips _ _) hm ?_
    intro j hj k hk
    have hb := bitOf_flips (j := 8 * j + k) (hdec.imp (fun h => Nat.ne_of_gt h)) hlt
    simp only [bitOf] at hb
    rw [show (8 * j + k) / 8 = j by omega, show (8 * j + k) % 8 = k by omega] at hb
    rw [hb]
    have hmem : (8 * j + k ∈ r) ↔ ((m.getD j 0).getLsbD k != (b.getD j 0).getLsbD k) = true := by
      rw [hr, List.mem_reverse, List.mem_filter, List.mem_range,
        show (8 * j + k) / 8 = j by omega, show (8 * j + k) % 8 = k by omega]
      constructor
      · exact fun h => h.2
      · exact fun h => ⟨by omega, h⟩
    by_cases hx : 8 * j + k ∈ r
    · rw [decide_eq_true hx]
      have := hmem.1 hx
      revert this
      cases (m.getD j 0).getLsbD k <;> cases (b.getD j 0).getLsbD k <;> simp
    · rw [decide_eq_false hx]
      have := mt hmem.2 hx
      revert this
      cases (m.getD j 0).getLsbD k <;> cases (b.getD j 0).getLsbD k <;> simp
  rw [samples, List.mem_map]
  refine ⟨r, ?_, hflip⟩
  rw [List.take_of_length_le]
  · exact hset
  · rw [length_sets]
    exact hn

/-! ### A request that aborts -/

/-- The second pass. -/
def passBody (e : Env) (bf : List Byte) (m : W64) (cands : List Uni) (h : Uni) : Run (List Uni) := do
  if ← Run.of (filterCheck e bf 7 h.h64) then addCandidate 8 (e.cfg.size ((m + 1) * 8).toNat) m cands h
  else return cands

/-- The two passes of a search with a filter of 2^7 bytes. -/
def passes (e : Env) (us : List Uni) : Run (List Uni) := do
  let (bf, m) ← us.foldlM (fillBody e 7) (List.replicate 128 0, 0)
  if m = 0 then .done []
  else do
    let bf ← filterReduce e bf 7
    us.foldlM (passBody e bf m) []

/-- Whether the run aborts. -/
def isAbort {α : Type} : Run α → Bool
  | .abort => true
  | _ => false

set_option maxRecDepth 100000 in
theorem passes_collider : isAbort (passes collider ((samples (base 2 9200) 64).map (uni 1))) = true := by decide +kernel

theorem filterInsert_same {e : Env} (he : EnvOK e) (bf : List Byte) (h : W64) :
    filterInsert e bf 7 h = filterInsert collider bf 7 h := by
  unfold filterInsert
  rw [shl_size he (by norm_num) (by norm_num), shl_size collider_ok (by norm_num) (by norm_num)]

theorem filterCheck_same {e : Env} (he : EnvOK e) (bf : List Byte) (h : W64) :
    filterCheck e bf 7 h = filterCheck collider bf 7 h := by
  unfold filterCheck
  rw [shl_size he (by norm_num) (by norm_num), shl_size collider_ok (by norm_num) (by norm_num)]

theorem filterReduce_same {e : Env} (he : EnvOK e) (hm : Memory e) (bf : List Byte) :
    filterReduce e bf 7 = filterReduce collider bf 7 := by
  unfold filterReduce
  rw [shl_size he (by norm_num) (by norm_num), shl_size collider_ok (by norm_num) (by norm_num)]
  have : ∀ n, e.cfg.size n = collider.cfg.size n := by
    intro n
    rw [Cfg.size, Cfg.size, he.size, collider_ok.size]
  simp only [hm _ _, this]
  rfl

theorem passes_same {e : Env} (he : EnvOK e) (hm : Memory e) (us : List Uni) : passes e us = passes collider us := by
  unfold passes
  have h1 : fillBody e 7 = fillBody collider 7 := by
    funext ⟨bf, m⟩ h
    simp only [fillBody, filterInsert_same he]
  have h2 : ∀ n, e.cfg.size n = collider.cfg.size n := by
    intro n
    rw [Cfg.size, Cfg.size, he.size, collider_ok.size]
  have h3 : passBody e = passBody collider := by
    funext bf m cands h
    simp only [passBody, h2, filterCheck_same he]
  simp only [h1, h3, filterReduce_same he hm]

/-- A search whose passes abort. -/
theorem search_abort {e : Env} (he : EnvOK e) (hm : Memory e) {p : Param} {n : ℕ} (hp : ParamOK p n)
    (hbits : hashBits p.hashID = 64) (hl : p.filterLog = 7) (hab : isAbort (passes e (selected p (allHashes p n))) = true) :
    search e p = .abort := by
  have hmost := hp.most
  have hlen : (selected p (allHashes p n)).length ≤ n :=
    le_trans (List.length_filter_le _ _) (le_of_eq (allHashes_length hp))
  have hne : p.nbH ≠ 0 := by
    intro h
    have := hp.number
    have := hp.pos
    rw [h] at *
    simp at *
    omega
  obtain ⟨f, hf, hg⟩ := initFactory_ok he hp
  have hshl : e.shl p.filterLog = some (1 <<< 7) := by
    rw [hl]; rfl
  have hcr : createFilter e p.filterLog = .done (List.replicate 128 0) := by
    rw [hl]
    unfold createFilter
    have hc : check ((7 : ℤ) < 64 ∧ (1 : ℤ) < 7) = .done () := if_pos (by norm_num)
    have hs : e.shlSize 7 = some 128 := by
      rw [Env.shlSize, if_pos ⟨by norm_num, by rw [he.size]; norm_num⟩]
      rfl
    rw [hc, hs]
    show (if e.alloc 1 128 = true then Run.done _ else Run.exit 1) = _
    rw [if_pos (hm _ _)]
  obtain ⟨bf', m', hfold, hl', -, hm2, -, -, -⟩ := fill_ok he (by norm_num : (6 : ℤ) ≤ 7) (by norm_num) (selected p (allHashes p n))
      (bf := List.replicate 128 0) (m := 0) (by simp) (by show 0 + _ < _; omega)
  have hm2' : m'.toNat ≤ 0 + 2 * (selected p (allHashes p n)).length := hm2
  have hfe : fillFilter e p p.filterLog p.nbH f (List.replicate 128 0) = .done (bf', m') := by
    unfold fillFilter
    rw [loop_eq he hp hg, hl]
    exact hfold
  unfold passes at hab
  rw [hfold] at hab
  have hab : isAbort (if m' = 0 then .done []
    else filterReduce e bf' 7 >>= fun bf => (selected p (allHashes p n)).foldlM (passBody e bf m') []) = true := hab
  have hm0 : m' ≠ 0 := by
    rintro rfl
    rw [if_pos rfl] at hab
    exact Bool.noConfusion hab
  rw [if_neg hm0] at hab
  rw [List.length_replicate] at hl'
  obtain ⟨hr, hno⟩ | ⟨bf2, hr, hl2, -⟩ := filterReduce_ok he (by norm_num : (7 : ℤ) ≤ 7) (by norm_num) (bf := bf') (by rw [hl']; norm_num)
  · exact absurd hm hno
  rw [hr] at hab
  have hab : isAbort ((selected p (allHashes p n)).foldlM (passBody e bf2 m') []) = true := hab
  have hstore : store e p 7 p.nbH f (some bf2) 8 (e.cfg.size ((m' + 1) * 8).toNat) m' = .abort := by
    unfold store
    rw [loop_eq he hp hg]
    show (selected p (allHashes p n)).foldlM (passBody e bf2 m') [] = _
    revert hab
    generalize (selected p (allHashes p n)).foldlM (passBody e bf2 m') [] = r
    intro hab
    cases r <;> first | rfl | simp [isAbort] at hab
  unfold search
  simp only [hbits]
  rw [if_neg (by simp), if_neg (by simp [hm 0 _]), hf]
  show (if p.nbH = 0 then _ else (Run.done p.nbH >>= _)) = _
  rw [if_neg hne]
  have hauto : autoLog p.filterLog p.nbH = .done p.filterLog := by
    unfold autoLog
    rw [if_neg (by omega)]
  show (autoLog p.filterLog p.nbH >>= _) = _
  rw [hauto]
  show (Run.of (e.shl p.filterLog) >>= _) = _
  rw [hshl]
  show (if 0 ≤ p.filterLog then _ else _) = _
  rw [if_pos (by omega), hcr]
  show (fillFilter e p p.filterLog p.nbH f (List.replicate 128 0) >>= _) = _
  rw [hfe]
  show (if m' = 0 then Run.done _ else _) = _
  rw [if_neg hm0, hl, hr]
  show storeAndCount e p 7 p.nbH m' (some bf2) = _
  unfold storeAndCount
  simp only [hbits]
  have hT : e.cfg.size ((m' + 1) * 8).toNat = (m'.toNat + 1) * 8 := by
    rw [Cfg.size, he.size, BitVec.toNat_mul, BitVec.toNat_add]
    show (m'.toNat + 1) % 2^64 * 8 % 2^64 % 2^64 = _
    omega
  have hc : check (m'.toNat < e.cfg.size ((m' + 1) * 8).toNat) = .done () := if_pos (by omega)
  show (check (m'.toNat < e.cfg.size ((m' + 1) * 8).toNat) >>= _) = _
  rw [hc]
  show (if (!e.alloc 3 (e.cfg.size ((m' + 1) * 8).toNat)) = true then Run.exit 1 else _) = _
  rw [if_neg (by simp [hm 3 _]), hf]
  show (store e p 7 p.nbH f (some bf2) 8 (e.cfg.size ((m' + 1) * 8).toNat) m' >>= _) = _
  rw [hstore]
  rfl

/-! ### Without threads -/

theorem selected_all {p : Param} (h1 : p.mask = 0) (h2 : p.maskSelector = 0) (us : List Uni) : selected p us = us := by
  unfold selected
  exact List.filter_eq_self.2 fun h _ => by simp [h1, h2]

theorem run_sole {e : Env} {pool : Bool} {o : Opts} (ht : o.threadlog = 0) (h0 : o.totalH ≠ 0) :
    run e pool o = (search e (soleParam o o.totalH
      (if o.filter then (if o.bflog = 0 then (o.totalH.toNat.log2 : ℤ) + 1 else o.bflog) else -1)) >>= fun r =>
        .done (BitVec.ofNat 64 r.collisions)) := by
  have hpos : 0 < o.totalH.toNat := by
    rcases Nat.eq_zero_or_pos o.totalH.toNat with h | h
    · exact absurd (BitVec.eq_of_toNat_eq (by simpa using h)) h0
    · exact h
  have hauto : autoLog o.bflog o.totalH = .done (if o.bflog = 0 then (o.totalH.toNat.log2 : ℤ) + 1 else o.bflog) := by
    unfold autoLog
    by_cases h0 : o.bflog = 0
    · rw [if_pos h0, if_pos h0, highestBitSet_eq hpos]
      rfl
    · rw [if_neg h0, if_neg h0]
  unfold run
  rw [if_neg h0]
  show (autoLog o.bflog o.totalH >>= _) = _
  rw [hauto]
  show (if ¬ (0 ≤ o.threadlog ∧ o.threadlog < 31) then _ else _) = _
  rw [if_neg (by omega)]
  show (if 2^o.threadlog.toNat = 1 then _ else _) = _
  rw [if_pos (by rw [ht]; rfl)]
  rfl

/-- A search up to the filter. -/
theorem search_start {e : Env} (he : EnvOK e) (hm : Memory e) {p : Param} {n : ℕ} (hp : ParamOK p n)
    (hbits : hashBits p.hashID ∈ [32, 64, 128]) (hl : p.filterLog ≠ 0) :
    ∃ f, Gen f (samples (base p.sampleSize p.prngSeed) n) ∧ search e p = (Run.of (e.shl p.filterLog) >>= fun _ =>
      if 0 ≤ p.filterLog then do
        let bf ← createFilter e p.filterLog
        let (bf, maxNbH) ← fillFilter e p p.filterLog p.nbH f bf
        if maxNbH = 0 then return { collisions := 0, high := [] }
        else
          let bf ← filterReduce e bf p.filterLog
          storeAndCount e p p.filterLog p.nbH maxNbH (some bf)
      else storeAndCount e p p.filterLog p.nbH p.nbH none) := by
  have hne : p.nbH ≠ 0 := by
    intro h
    have := hp.number
    have := hp.pos
    rw [h] at *
    simp at *
    omega
  obtain ⟨f, hf, hg⟩ := initFactory_ok he hp
  refine ⟨f, hg, ?_⟩
  unfold search
  simp only []
  rw [if_neg (not_not.2 hbits), if_neg (by simp [hm 0 _]), hf]
  show (if p.nbH = 0 then _ else (Run.done p.nbH >>= _)) = _
  rw [if_neg hne]
  have hauto : autoLog p.filterLog p.nbH = .done p.filterLog := by
    unfold autoLog
    rw [if_neg hl]
  show (autoLog p.filterLog p.nbH >>= _) = _
  rw [hauto]
  rfl

/-- The shift by a negative number without filter. -/
theorem search_shift {e : Env} (he : EnvOK e) (hm : Memory e) {p : Param} {n : ℕ} (hp : ParamOK p n)
    (hbits : hashBits p.hashID ∈ [32, 64, 128]) (hl : p.filterLog = -1) (hs : e.shiftOut (-1) = none) :
    search e p = .undefined := by
  obtain ⟨f, -, h⟩ := search_start he hm hp hbits (by omega)
  rw [h, hl]
  have : e.shl (-1) = none := by
    unfold Env.shl
    rw [if_neg (by norm_num), hs]
  rw [this]
  rfl

/-- Filters that are too small. -/
theorem search_small {e : Env} (he : EnvOK e) (hm : Memory e) {p : Param} {n : ℕ} (hp : ParamOK p n)
    (hbits : hashBits p.hashID ∈ [32, 64, 128]) (hmask : p.mask = 0) (hsel : p.maskSelector = 0) (h1 : 1 ≤ p.filterLog)
    (h6 : p.filterLog < 6) (hs : ∀ k < 0, e.shiftOut k = none) :
    search e p = if p.filterLog = 1 then .abort else .undefined := by
  obtain ⟨f, hg, h⟩ := search_start he hm hp hbits (by omega)
  rw [h]
  have hw : e.shl p.filterLog = some ((1 : W64) <<< p.filterLog.toNat) := if_pos (by omega)
  rw [hw]
  show (if 0 ≤ p.filterLog then _ else _) = _
  rw [if_pos (by omega)]
  unfold createFilter
  by_cases hone : p.filterLog = 1
  · rw [if_pos hone]
    have : check (p.filterLog < 64 ∧ 1 < p.filterLog) = .abort := if_neg (by omega)
    rw [this]
    rfl
  · rw [if_neg hone]
    have hc : check (p.filterLog < 64 ∧ 1 < p.filterLog) = .done () := if_pos (by omega)
    have hz : e.shlSize p.filterLog = some (2^p.filterLog.toNat) := if_pos ⟨by omega, by rw [he.size]; push_cast; omega⟩
    rw [hc, hz]
    show ((if e.alloc 1 (2^p.filterLog.toNat) = true then Run.done _ else Run.exit 1) >>= _) = _
    rw [if_pos (hm _ _)]
    show (fillFilter e p p.filterLog p.nbH f (List.replicate (2^p.filterLog.toNat) 0) >>= _) = _
    have : fillFilter e p p.filterLog p.nbH f (List.replicate (2^p.filterLog.toNat) 0) = .undefined := by
      unfold fillFilter
      rw [loop_eq he hp hg, selected_all hmask hsel]
      have hlen := allHashes_length hp
      have hpos := hp.pos
      cases hall : allHashes p n with
      | nil => rw [hall] at hlen; simp at hlen; omega
      | cons u us =>
        rw [List.foldlM_cons]
        have hins : filterInsert e (List.replicate (2^p.filterLog.toNat) 0) p.filterLog u.h64 = none := by
          unfold filterInsert
          have : e.shlSize (p.filterLog - 6) = none := by
            unfold Env.shlSize
            rw [if_neg (by omega), hs _ (by omega)]
            rfl
          rw [this]
          rfl
        simp only [hins]
        rfl
    rw [this]
    rfl

end XXH.Proof.Collide
