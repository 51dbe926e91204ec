import Verif.Proof.CollideMore
/-!
Properties of the collision tester: C49.
-/
namespace XXH.Props
open XXH.Model XXH.Model.Collide XXH.Examples XXH.CollideTerms
open Bench (Run Fp)
open Proof.Collide (coll key uni samples base requested allHashes selected)

theorem collisions_eq (l : List ℕ) : collisions l = coll l := rfl

theorem requested_collisions {o : Opts} {name : String} {bits : ℕ} {H : List Byte → ℕ}
    (hh : hashes[o.hashID]? = some (name, bits, H)) (n : ℕ) :
    coll (requested o n) = collisions ((samples (base o.sampleSize o.prngSeed) n).map H) := by
  obtain ⟨-, -, hk, -⟩ := Proof.Collide.uni_key hh
  rw [collisions_eq, ← Proof.Collide.coll_map Proof.Collide.key_inj, requested, List.map_map]
  congr 1
  exact List.map_congr_left fun m _ => hk m

/-- **C49.** For every size and seed there are messages of that size, all different, each different from a common one
in 1 to 14 bits (and all such messages if the number asked for is theirs), with the following property. Whatever the hash, however many threads, with or without filter: when the
collision tester ends regularly, the number it reports is exactly how many of the hashes of these messages occurred
before. It does nothing undefined (apart from the shifts, see `C49_shift`). It ends with an error only when memory or
threads are missing, and aborts only with a filter, or when a thread has too few hashes and `realloc` moves what it
shrinks. -/
theorem C49_collisions {size n : ℕ} (hn : n ≤ reach size) (seed : W64) :
    ∃ msgs : List (List Byte), msgs.length = n ∧ msgs.Nodup ∧ (∀ m ∈ msgs, m.length = size) ∧
      (∃ first : List Byte, first.length = size ∧ (∀ m ∈ msgs, 1 ≤ differing m first ∧ differing m first ≤ 14) ∧
        (n = reach size → ∀ m : List Byte, m.length = size → 1 ≤ differing m first → differing m first ≤ 14 → m ∈ msgs)) ∧
      ∀ (e : Env) (pool : Bool) (o : Opts) (name : String) (bits : ℕ) (H : List Byte → ℕ), EnvOK e → Shifts e →
        hashes[o.hashID]? = some (name, bits, H) → o.sampleSize = size → o.prngSeed = seed → Request o bits n →
        EndsIn (fun c => c.toNat = collisions (msgs.map H))
          (¬ Memory e ∨ o.threadlog ≠ 0 ∧ pool = false ∨ TooManyThreads o n)
          (o.filter = true ∨ o.threadlog ≠ 0 ∧ ¬ Shrinks e)
          (run e pool o) := by
  refine ⟨samples (base size seed) n, ?_, Proof.Collide.nodup_samples _ _, ?_, ⟨base size seed, ?_, ?_, ?_⟩, ?_⟩
  · rw [Proof.Collide.length_samples]
    rw [Proof.Collide.base_length]
    exact hn
  · intro m hm
    rw [Proof.Collide.samples_len m hm, Proof.Collide.base_length]
  · exact Proof.Collide.base_length _ _
  · intro m hm
    exact Proof.Collide.samples_differing hm
  · intro hn m hm h1 h14
    have hb := Proof.Collide.base_length size seed
    exact Proof.Collide.samples_all (by rw [hb]; exact hn.ge) (hm.trans hb.symm) h1 h14
  · rintro e pool o name bits H he hs hh rfl rfl hr
    refine Proof.Collide.outcome_mono (Proof.Collide.run_ok he hs hh hr (X := ¬ Memory e ∨ o.threadlog ≠ 0 ∧ pool = false ∨ TooManyThreads o n)
      (A := o.filter = true ∨ o.threadlog ≠ 0 ∧ ¬ Shrinks e) (fun h => .inl h) (fun h1 h2 => .inr (.inl ⟨h1, h2⟩))
      (fun h => .inr (.inr h)) (fun h => .inl h) (fun h1 h2 => .inr ⟨h1, h2⟩)) ?_ id id
    intro c hc
    rw [hc, requested_collisions hh]

/-- **C49.** Without filter and with enough memory the tester gives its answer. -/
theorem C49_answers {e : Env} (he : EnvOK e) (hs : Shifts e) (hm : Memory e) (hsh : Shrinks e) {o : Opts} {name : String}
    {bits n : ℕ} {H : List Byte → ℕ} (hh : hashes[o.hashID]? = some (name, bits, H)) (hr : Request o bits n)
    (hf : o.filter = false) (ht : ¬ TooManyThreads o n) : ∃ c, run e true o = .done c := by
  obtain ⟨msgs, -, -, -, -, h⟩ := C49_collisions hr.reach o.prngSeed
  have := h e true o name bits H he hs hh rfl rfl hr
  cases hrun : run e true o with
  | done c => exact ⟨c, rfl⟩
  | exit c => rw [hrun] at this; exact absurd this.2 (by simp [hm, ht])
  | abort => rw [hrun] at this; exact absurd this (by simp [EndsIn, hf, hsh])
  | undefined => rw [hrun] at this; exact this.elim
  | unfinished => rw [hrun] at this; exact this.elim

/-- **C49.** The numbers the search prints for the high bits alone are exact too, for every number of bits. -/
theorem C49_high_bits {size n : ℕ} (hs : 2 ≤ size ∧ 8 * size < 2^31 - 1) (h1 : 1 ≤ n) (hn : n ≤ reach size) (hmost : n ≤ 2^35)
    (seed : W64) :
    ∃ msgs : List (List Byte), msgs.length = n ∧ msgs.Nodup ∧ (∀ m ∈ msgs, m.length = size) ∧
      ∀ (e : Env) (hashID : ℕ) (name : String) (bits : ℕ) (H : List Byte → ℕ), EnvOK e → Shifts e →
        hashes[hashID]? = some (name, bits, H) →
        EndsIn (fun r => r.collisions = collisions (msgs.map H) ∧
            ∀ x ∈ r.high, 1 ≤ x.1 ∧ x.1 < bits ∧ x.2 = collisions (msgs.map fun m => H m / 2^(bits - x.1)))
          (¬ Memory e) False (search e ⟨BitVec.ofNat 64 n, 0, 0, size, seed, -1, hashID, true⟩) := by
  refine ⟨samples (base size seed) n, ?_, Proof.Collide.nodup_samples _ _, ?_, ?_⟩
  · rw [Proof.Collide.length_samples]
    rw [Proof.Collide.base_length]
    exact hn
  · intro m hm
    rw [Proof.Collide.samples_len m hm, Proof.Collide.base_length]
  · intro e hashID name bits H he hsh hh
    obtain ⟨hid, hbits, hk, hz⟩ := Proof.Collide.uni_key hh
    have hp : Proof.Collide.ParamOK ⟨BitVec.ofNat 64 n, 0, 0, size, seed, -1, hashID, true⟩ n :=
      ⟨by show (BitVec.ofNat 64 n).toNat = n; rw [BitVec.toNat_ofNat]; omega, by omega, hmost, hs, hn, hid⟩
    have hsel := Proof.Collide.selected_all (p := ⟨BitVec.ofNat 64 n, 0, 0, size, seed, -1, hashID, true⟩) rfl rfl
      (allHashes ⟨BitVec.ofNat 64 n, 0, 0, size, seed, -1, hashID, true⟩ n)
    have hkey : ∀ m, key (uni hashID m) = H m := hk
    refine Proof.Collide.outcome_mono (Proof.Collide.search_ok he hsh hp hbits (Proof.Collide.hashes_bits hh) hz
      (.inl (by norm_num)) (X := ¬ Memory e) (A := False) id (fun h => absurd h (by norm_num)) ?_) ?_ id id
    · intro h
      rw [hsel, Proof.Collide.allHashes_length hp] at h
      exact absurd h (lt_irrefl _)
    · rintro r ⟨hc, hhigh⟩
      rw [hsel] at hc hhigh
      refine ⟨?_, fun x hx => ?_⟩
      · rw [hc, collisions_eq, ← Proof.Collide.coll_map Proof.Collide.key_inj, allHashes, List.map_map]
        congr 1
        exact List.map_congr_left fun m _ => hkey m
      · obtain ⟨ha, hb, hc⟩ := hhigh x hx
        refine ⟨ha, hb, ?_⟩
        rw [hc, Proof.Collide.collHigh, collisions_eq, allHashes, List.map_map]
        congr 1
        exact List.map_congr_left fun m _ => by
          show key (uni hashID m) / _ = _
          rw [hkey]

/-! ### Limits -/

/-- **C49.** The shift: without filter (the default) the search evaluates `1ULL << -1`. Where this is undefined, as it
is in C, so is every run without threads. -/
theorem C49_shift {e : Env} (he : EnvOK e) (hm : Memory e) (hs : e.shiftOut (-1) = none) {o : Opts} {name : String}
    {bits n : ℕ} {H : List Byte → ℕ} (hh : hashes[o.hashID]? = some (name, bits, H)) (hr : Request o bits n)
    (hn : o.totalH ≠ 0) (hf : o.filter = false) (ht : o.threadlog = 0) (pool : Bool) : run e pool o = .undefined := by
  obtain ⟨hid, hbits, -, -⟩ := Proof.Collide.uni_key hh
  have hnum := hr.number
  rw [if_neg hn] at hnum
  have hpos : 0 < n := by
    rw [hnum]
    rcases Nat.eq_zero_or_pos o.totalH.toNat with h | h
    · exact absurd (BitVec.eq_of_toNat_eq (by simpa using h)) hn
    · exact h
  rw [Proof.Collide.run_sole ht hn, hf]
  have hp : Proof.Collide.ParamOK (Proof.Collide.soleParam o o.totalH (-1)) n :=
    ⟨hnum.symm, hpos, hr.most, hr.size, hr.reach, hid⟩
  rw [show (if false = true then (if o.bflog = 0 then (o.totalH.toNat.log2 : ℤ) + 1 else o.bflog) else -1) = -1 from rfl,
    Proof.Collide.search_shift he hm hp (by rw [show hashBits _ = bits from hbits]; exact Proof.Collide.hashes_bits hh)
    rfl hs]
  rfl

/-- **C49.** The filter needs 64 hashes: with an automatic size and fewer than 32 of them the tester aborts (one hash)
or shifts by a negative number. -/
theorem C49_small_filter {e : Env} (he : EnvOK e) (hm : Memory e) (hs : ∀ k < 0, e.shiftOut k = none) {size hashID n : ℕ}
    (hsize : 2 ≤ size ∧ 8 * size < 2^31 - 1) (hid : hashID < hashes.length) (h1 : 1 ≤ n) (h32 : n < 32)
    (hn : n ≤ reach size) (seed : W64) (pool : Bool) :
    run e pool ⟨BitVec.ofNat 64 n, 0, true, size, hashID, 0, seed⟩ = if n = 1 then .abort else .undefined := by
  have hnat : (BitVec.ofNat 64 n).toNat = n := by rw [BitVec.toNat_ofNat]; omega
  have hne : BitVec.ofNat 64 n ≠ 0 := by
    intro h
    rw [h] at hnat
    simp at hnat
    omega
  have hlog : n.log2 < 5 := (Nat.log2_lt (by omega)).2 (by omega)
  have hlog1 : n.log2 = 0 ↔ n = 1 := by
    constructor
    · intro h
      have := Nat.lt_log2_self (n := n)
      rw [h] at this
      omega
    · rintro rfl
      decide
  rw [Proof.Collide.run_sole rfl hne]
  simp only [if_true, hnat]
  have hp : Proof.Collide.ParamOK (Proof.Collide.soleParam ⟨BitVec.ofNat 64 n, 0, true, size, hashID, 0, seed⟩ (BitVec.ofNat 64 n)
      ((n.log2 : ℤ) + 1)) n := ⟨hnat, by omega, by omega, hsize, hn, hid⟩
  rw [Proof.Collide.search_small he hm hp (by
      show hashBits hashID ∈ _
      revert hid
      have : ∀ i < 7, hashBits i ∈ [32, 64, 128] := by decide
      exact this hashID) rfl rfl (by simp) (by
      show (n.log2 : ℤ) + 1 < 6
      omega) hs]
  show ((if (n.log2 : ℤ) + 1 = 1 then Run.abort else Run.undefined) >>= _) = _
  by_cases hc : n = 1
  · rw [if_pos hc, if_pos (by have := hlog1.2 hc; omega)]; rfl
  · rw [if_neg hc, if_neg (by have := mt hlog1.1 hc; omega)]; rfl

/-- **C49.** With a filter an assertion can fail although nothing is wrong: the number of candidates is estimated from
the first pass, and the second one can find more. XXH64, 64 hashes of two bytes, automatic filter, seed 9200: abort on
every machine. -/
theorem C49_filter_abort {e : Env} (he : EnvOK e) (hm : Memory e) (pool : Bool) :
    Request ⟨64, 0, true, 2, 1, 0, 9200⟩ 64 64 ∧ run e pool ⟨64, 0, true, 2, 1, 0, 9200⟩ = .abort := by
  have hreach : 64 ≤ reach 2 := by decide
  constructor
  · exact ⟨rfl, by norm_num, by norm_num, hreach, by norm_num, fun _ => .inl ⟨rfl, le_refl _⟩⟩
  · rw [Proof.Collide.run_sole rfl (by decide)]
    have hlog : ((64 : W64).toNat.log2 : ℤ) + 1 = 7 := by decide +kernel
    simp only [if_true]
    rw [hlog]
    have hp : Proof.Collide.ParamOK (Proof.Collide.soleParam ⟨64, 0, true, 2, 1, 0, 9200⟩ 64 7) 64 :=
      ⟨rfl, by norm_num, by norm_num, by norm_num, hreach, by show 1 < 7; norm_num⟩
    rw [Proof.Collide.search_abort he hm hp rfl rfl (by
      rw [Proof.Collide.selected_all rfl rfl, Proof.Collide.passes_same he hm]
      exact Proof.Collide.passes_collider)]
    rfl

/-! ### Arguments -/

/-- **C49.** The names choose the hashes they name. -/
theorem C49_hash_names (cfg : Cfg) (o : Opts) {i : ℕ} {name : String} {bits : ℕ} {H : List Byte → ℕ}
    (h : hashes[i]? = some (name, bits, H)) : parseArg cfg o (ascii name) = .done (some { o with hashID := i }) := by
  have hi : i < 7 := by
    have := (List.getElem?_eq_some_iff.1 h).1
    exact this
  have hname : (hashTable[i]?).map (·.1) = some name := by
    have : ∀ k < 7, (hashTable[k]?).map (·.1) = (hashes[k]?).map (·.1) := by decide
    rw [this i hi, h]
    rfl
  obtain rfl : name = ((hashTable[i]?).map (·.1)).getD "" := by rw [hname]; rfl
  interval_cases i <;> rfl

/-- **C49.** A number is read exactly or the tester aborts; it aborts for numbers near 2^64 only. -/
theorem C49_numbers {digits : List Byte} (hd : ∀ c ∈ digits, (Spec.Cli.decVal c).isSome) :
    readU64 digits = if Spec.Cli.decimal digits < 2^64 - 16 then .done (BitVec.ofNat 64 (Spec.Cli.decimal digits), [])
      else .abort := by
  have := Proof.Collide.readU64_plain (rest := []) hd (by simp)
  rw [List.append_nil] at this
  exact this

/-- The units of numbers and their powers of 1024. -/
def unitNames : List (String × ℕ) := [("K", 1), ("KB", 1), ("Ki", 1), ("KiB", 1), ("M", 2), ("MB", 2), ("Mi", 2), ("MiB", 2),
  ("G", 3), ("GB", 3), ("Gi", 3), ("GiB", 3)]

/-- **C49.** So is one with a unit: `K`, `M`, `G`, with or without `i` and `B`. -/
theorem C49_units {digits : List Byte} (hd : ∀ c ∈ digits, (Spec.Cli.decVal c).isSome) {u : String} {k : ℕ}
    (hu : (u, k) ∈ unitNames) :
    EndsIn (fun r => r.1.toNat = Spec.Cli.decimal digits * 1024^k ∧ r.2 = []) False
      (2^63 ≤ Spec.Cli.decimal digits * 1024^k) (readU64 (digits ++ ascii u)) := by
  simp only [unitNames, List.mem_cons, Prod.mk.injEq, List.not_mem_nil, or_false] at hu
  rcases hu with ⟨rfl, rfl⟩ | ⟨rfl, rfl⟩ | ⟨rfl, rfl⟩ | ⟨rfl, rfl⟩ | ⟨rfl, rfl⟩ | ⟨rfl, rfl⟩ | ⟨rfl, rfl⟩ | ⟨rfl, rfl⟩ |
    ⟨rfl, rfl⟩ | ⟨rfl, rfl⟩ | ⟨rfl, rfl⟩ | ⟨rfl, rfl⟩
  · exact Proof.Collide.readU64_unit hd (u := 0x4B) (.inl ⟨rfl, rfl⟩) (t := []) (by simp)
  · exact Proof.Collide.readU64_unit hd (u := 0x4B) (.inl ⟨rfl, rfl⟩) (t := [0x42]) (by simp)
  · exact Proof.Collide.readU64_unit hd (u := 0x4B) (.inl ⟨rfl, rfl⟩) (t := [0x69]) (by simp)
  · exact Proof.Collide.readU64_unit hd (u := 0x4B) (.inl ⟨rfl, rfl⟩) (t := [0x69, 0x42]) (by simp)
  · exact Proof.Collide.readU64_unit hd (u := 0x4D) (.inr (.inl ⟨rfl, rfl⟩)) (t := []) (by simp)
  · exact Proof.Collide.readU64_unit hd (u := 0x4D) (.inr (.inl ⟨rfl, rfl⟩)) (t := [0x42]) (by simp)
  · exact Proof.Collide.readU64_unit hd (u := 0x4D) (.inr (.inl ⟨rfl, rfl⟩)) (t := [0x69]) (by simp)
  · exact Proof.Collide.readU64_unit hd (u := 0x4D) (.inr (.inl ⟨rfl, rfl⟩)) (t := [0x69, 0x42]) (by simp)
  · exact Proof.Collide.readU64_unit hd (u := 0x47) (.inr (.inr ⟨rfl, rfl⟩)) (t := []) (by simp)
  · exact Proof.Collide.readU64_unit hd (u := 0x47) (.inr (.inr ⟨rfl, rfl⟩)) (t := [0x42]) (by simp)
  · exact Proof.Collide.readU64_unit hd (u := 0x47) (.inr (.inr ⟨rfl, rfl⟩)) (t := [0x69]) (by simp)
  · exact Proof.Collide.readU64_unit hd (u := 0x47) (.inr (.inr ⟨rfl, rfl⟩)) (t := [0x69, 0x42]) (by simp)

/-- What the arguments with a number say, and the numbers they are for. -/
def settings (cfg : Cfg) : List (String × ℕ × (ℕ → Opts → Opts)) := [
  ("-T", 2^31, fun v o => { o with threadlog := v }),
  ("--threadlog=", 2^31, fun v o => { o with threadlog := v }),
  ("--seed", 2^63, fun v o => { o with prngSeed := BitVec.ofNat 64 v }),
  ("--nbh=", 2^63, fun v o => { o with totalH := BitVec.ofNat 64 v }),
  ("--size=", min (2^63) (2^cfg.sizeBits), fun v o => { o with sampleSize := v }),
  ("--len=", min (2^63) (2^cfg.sizeBits), fun v o => { o with sampleSize := v }),
  ("--filter=", 64, fun v o => { o with filter := true, bflog := v }),
  ("--filterlog=", 64, fun v o => { o with filter := true, bflog := v })]

theorem toInt_small {v : ℕ} (h : v < 2^31) : toInt (BitVec.ofNat 64 v) = v := by
  unfold toInt
  rw [BitVec.toInt_eq_toNat_cond, BitVec.toNat_setWidth, BitVec.toNat_ofNat]
  rw [Nat.mod_eq_of_lt (by omega : v < 2^64), Nat.mod_eq_of_lt (by omega), if_pos (by omega)]

/-- **C49.** The arguments with a number set what they name to that number. -/
theorem C49_settings {cfg : Cfg} {p : String} {limit : ℕ} {set : ℕ → Opts → Opts} (h : (p, limit, set) ∈ settings cfg)
    {digits : List Byte} (hd : ∀ c ∈ digits, (Spec.Cli.decVal c).isSome) (hv : Spec.Cli.decimal digits < limit) (o : Opts) :
    parseArg cfg o (ascii p ++ digits) = .done (some (set (Spec.Cli.decimal digits) o)) := by
  have key : Spec.Cli.decimal digits < 2^63 → readU64 digits = .done (BitVec.ofNat 64 (Spec.Cli.decimal digits), []) := by
    intro hlt
    rw [C49_numbers hd, if_pos (by omega)]
  simp only [settings, List.mem_cons, Prod.mk.injEq, List.not_mem_nil, or_false] at h
  have hcheck : ∀ v : ℕ, v < 64 → check ((v : ℤ) < 64) = .done () := fun v h => if_pos (by omega)
  rcases h with ⟨rfl, rfl, rfl⟩ | ⟨rfl, rfl, rfl⟩ | ⟨rfl, rfl, rfl⟩ | ⟨rfl, rfl, rfl⟩ | ⟨rfl, rfl, rfl⟩ | ⟨rfl, rfl, rfl⟩ |
    ⟨rfl, rfl, rfl⟩ | ⟨rfl, rfl, rfl⟩
  · show (do return some { o with threadlog := toInt (← (readU64 digits >>= fun r => Run.done r.1)) } : Run (Option Opts)) = _
    rw [key (by omega)]
    show Run.done (some { o with threadlog := toInt _ }) = _
    rw [toInt_small hv]
  · show (do return some { o with threadlog := toInt (← (readU64 digits >>= fun r => Run.done r.1)) } : Run (Option Opts)) = _
    rw [key (by omega)]
    show Run.done (some { o with threadlog := toInt _ }) = _
    rw [toInt_small hv]
  · show (do return some { o with prngSeed := ← (readU64 digits >>= fun r => Run.done r.1) } : Run (Option Opts)) = _
    rw [key (by omega)]
    rfl
  · show (do return some { o with totalH := ← (readU64 digits >>= fun r => Run.done r.1) } : Run (Option Opts)) = _
    rw [key (by omega)]
    rfl
  · have h1 := lt_of_lt_of_le hv (min_le_left _ _)
    have h2 := lt_of_lt_of_le hv (min_le_right _ _)
    show (do return some { o with sampleSize := cfg.size (← (readU64 digits >>= fun r => Run.done r.1)).toNat } : Run (Option Opts)) = _
    rw [key h1]
    show Run.done (some { o with sampleSize := cfg.size (BitVec.ofNat 64 (Spec.Cli.decimal digits)).toNat }) = _
    rw [BitVec.toNat_ofNat, Cfg.size, Nat.mod_eq_of_lt (show Spec.Cli.decimal digits < 2^64 by omega), Nat.mod_eq_of_lt h2]
  · have h1 := lt_of_lt_of_le hv (min_le_left _ _)
    have h2 := lt_of_lt_of_le hv (min_le_right _ _)
    show (do return some { o with sampleSize := cfg.size (← (readU64 digits >>= fun r => Run.done r.1)).toNat } : Run (Option Opts)) = _
    rw [key h1]
    show Run.done (some { o with sampleSize := cfg.size (BitVec.ofNat 64 (Spec.Cli.decimal digits)).toNat }) = _
    rw [BitVec.toNat_ofNat, Cfg.size, Nat.mod_eq_of_lt (show Spec.Cli.decimal digits < 2^64 by omega), Nat.mod_eq_of_lt h2]
  · show (do
      let b := toInt (← (readU64 digits >>= fun r => Run.done r.1))
      check (b < 64)
      return some { o with filter := true, bflog := b } : Run (Option Opts)) = _
    rw [key (by omega)]
    show (check (toInt (BitVec.ofNat 64 (Spec.Cli.decimal digits)) < 64) >>= fun _ =>
      Run.done (some { o with filter := true, bflog := toInt (BitVec.ofNat 64 (Spec.Cli.decimal digits)) })) = _
    rw [toInt_small (by omega), hcheck _ hv]
    rfl
  · show (do
      let b := toInt (← (readU64 digits >>= fun r => Run.done r.1))
      check (b < 64)
      return some { o with filter := true, bflog := b } : Run (Option Opts)) = _
    rw [key (by omega)]
    show (check (toInt (BitVec.ofNat 64 (Spec.Cli.decimal digits)) < 64) >>= fun _ =>
      Run.done (some { o with filter := true, bflog := toInt (BitVec.ofNat 64 (Spec.Cli.decimal digits)) })) = _
    rw [toInt_small (by omega), hcheck _ hv]
    rfl

/-- **C49.** Every argument `--seed=...` sets the seed to 0: the `=` is taken for the end of the number (the seed is set
by `--seed5`). -/
theorem C49_seed_equals (cfg : Cfg) (o : Opts) (s : List Byte) :
    parseArg cfg o (ascii "--seed=" ++ s) = .done (some { o with prngSeed := 0 }) := rfl

/-! ### The other generation of samples -/

/-- **C49.** The generation `SLAB5` makes as many different samples of the size asked for as it accepts to make. -/
theorem C49_slab {size : ℕ} {htotal : W64} {f : Slab} (h : initSlab size htotal = .done f) (cfg : Cfg) :
    ∃ l, slabSamples cfg size htotal.toNat f = some l ∧ l.length = htotal.toNat ∧ l.Nodup ∧ ∀ m ∈ l, m.length = size :=
  Proof.Collide.slab_ok h

/-! ### Examples -/

theorem collider_shifts : Shifts collider := fun _ => rfl
theorem collider_memory : Memory collider := fun _ _ => rfl

/-- The default request (xxh3, 256 bytes) is one for 24 G hashes; there are enough samples for it. -/
example : Request Opts.default 64 (24 * 2^30) :=
  ⟨rfl, by norm_num, by decide, by
    have h : 24 * 2^30 ≤ Nat.choose 2048 4 := by decide +kernel
    have h2 : Nat.choose 2048 4 ≤ reach 256 := by
      show Nat.choose (8 * 256) 4 ≤ _
      exact List.single_le_sum (by simp) _ (List.mem_map.2 ⟨4, by decide, rfl⟩)
    exact h.trans h2, by decide, by decide⟩

/-- 1000 hashes of `badsum32`, 3 bytes long: the run ends with their collisions. -/
example : ∃ c, run collider true ⟨1000, 0, false, 3, 6, 0, 0⟩ = .done c :=
  C49_answers Proof.Collide.collider_ok collider_shifts collider_memory (fun _ => rfl) (o := ⟨1000, 0, false, 3, 6, 0, 0⟩) (n := 1000) rfl
    ⟨rfl, by norm_num, by norm_num, by decide +kernel, by norm_num, by decide⟩ rfl (by simp [TooManyThreads])

/-- Values 1, 1, 2, 1: two of them have been there before. -/
example : collisions [1, 1, 2, 1] = 2 := by decide

/-- `--nbh=10` -/
example : parseArg x64 Opts.default (ascii "--nbh=10") = .done (some { Opts.default with totalH := 10 }) :=
  C49_settings (p := "--nbh=") (limit := 2^63) (set := fun v o => { o with totalH := BitVec.ofNat 64 v }) (by simp [settings])
    (digits := ascii "10") (by decide) (by decide) _

/-- `SLAB5` accepts 2^32 samples of five bytes. -/
example : ∃ f, initSlab 5 (2^32) = .done f := ⟨_, rfl⟩

/-! ### The theorems applied -/

example (cfg : Cfg) (o : Opts) : ∃ i, parseArg cfg o (ascii "xxh64") = .done (some { o with hashID := i }) := ⟨_, C49_hash_names cfg o (i := 1) rfl⟩

example : EndsIn (fun r => r.1.toNat = 5 * 1024^3 ∧ r.2 = []) False (2^63 ≤ 5 * 1024^3) (readU64 ([0x35] ++ ascii "GB")) :=
  C49_units (digits := [0x35]) (by decide) (u := "GB") (k := 3) (by decide +kernel)

example (pool : Bool) : run collider pool ⟨64, 0, true, 2, 1, 0, 9200⟩ = .abort := (C49_filter_abort Proof.Collide.collider_ok collider_memory pool).2

end XXH.Props
