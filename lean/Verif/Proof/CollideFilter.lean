import Verif.Proof.CollideSample
import Verif.Proof.CollideCount
import Verif.Proof.Bytes
/-!
The filter of the collision tester does not lose hashes that occur twice.
-/
namespace XXH.Proof.Collide
open XXH.Model XXH.Model.Collide XXH.CollideTerms
open Bench (Run Fp)

/-- The line of a hash. -/
def lineOf (N : ℕ) (h : W64) : ℕ := (avalanche64 h >>> 8 >>> 8).toNat % N

/-- The two bits of a hash. -/
def slotA (h : W64) : ℕ := (avalanche64 h &&& 255).toNat
@[inherit_doc slotA] def slotB (h : W64) : ℕ := ((avalanche64 h >>> 8) &&& 255).toNat

theorem slotA_lt (h : W64) : slotA h < 256 := by
  have : ∀ w : W64, (w &&& 255).toNat < 256 := fun w => by
    rw [BitVec.toNat_and]; exact Nat.lt_of_le_of_lt Nat.and_le_right (by decide)
  exact this _

theorem slotB_lt (h : W64) : slotB h < 256 := by
  have : ∀ w : W64, (w &&& 255).toNat < 256 := fun w => by
    rw [BitVec.toNat_and]; exact Nat.lt_of_le_of_lt Nat.and_le_right (by decide)
  exact this _

theorem lineOf_lt {N : ℕ} (hN : 0 < N) (h : W64) : lineOf N h < N := Nat.mod_lt _ hN

theorem shl_size {e : Env} (he : EnvOK e) {b : ℤ} (h6 : 6 ≤ b) (hb : b < 64) : e.shlSize (b - 6) = some (2^(b - 6).toNat) := by
  rw [Env.shlSize, if_pos ⟨by omega, by rw [he.size]; push_cast; omega⟩]

/-- Both bits of a hash are set in the half `o` of its line. -/
def Has (bf : List Byte) (N : ℕ) (w o : ℕ) (h : W64) : Prop :=
  bitOf bf (lineOf N h * w + o + slotA h) = true ∧ bitOf bf (lineOf N h * w + o + slotB h) = true

theorem orAt_ok {bf : List Byte} {i : ℕ} (v : Byte) (h : i < bf.length) :
    ∃ bf', orAt bf i v = some bf' ∧ bf'.length = bf.length ∧
      ∀ j, bitOf bf' j = (bitOf bf j || (decide (j / 8 = i) && v.getLsbD (j % 8))) := by
  refine ⟨bf.modify i (· ||| v), if_pos h, by simp, fun j => ?_⟩
  simp only [bitOf, List.getD_eq_getElem?_getD, List.getElem?_modify]
  by_cases hj : i = j / 8
  · subst hj
    simp [List.getElem?_eq_getElem h, BitVec.getLsbD_or]
  · have : j / 8 ≠ i := fun h => hj h.symm
    simp [hj, this]

theorem byte_all {P : ℕ → Byte → Prop} (h : ∀ r : Fin 8, ∀ n : Fin 256, P r.1 (BitVec.ofNat 8 n.1)) :
    ∀ r < 8, ∀ b : Byte, P r b := by
  intro r hr b
  have := h ⟨r, hr⟩ ⟨b.toNat, b.isLt⟩
  simpa using this

theorem byte_shift : ∀ r < 8, ∀ b : Byte, (b &&& ((1 : Byte) <<< r)) >>> r = if b.getLsbD r then 1 else 0 :=
  byte_all (by decide +kernel)

theorem byte_present : ∀ r < 8, ∀ b : Byte, b.getLsbD r = true → b &&& ((1 : Byte) <<< r) = (1 : Byte) <<< r :=
  byte_all (P := fun r b => b.getLsbD r = true → b &&& ((1 : Byte) <<< r) = (1 : Byte) <<< r) (by decide +kernel)

theorem byte_bit : ∀ r < 8, ∀ s < 8, ((1 : Byte) <<< r).getLsbD s = decide (r = s) := by decide

theorem byte_shr : ∀ r < 8, ∀ b : Byte, (b >>> r) &&& 1 = if b.getLsbD r then 1 else 0 :=
  byte_all (by decide +kernel)

theorem byte_ones (x : Byte) : x &&& (0 - 1) = x := by
  rw [show (0 - 1 : Byte) = BitVec.allOnes 8 from rfl, BitVec.and_allOnes]

theorem bitOf_split (bf : List Byte) (L s : ℕ) (hL : L % 8 = 0) :
    bitOf bf (L + s) = (bf.getD (L / 8 + s / 8) 0).getLsbD (s % 8) := by
  have h1 : (L + s) / 8 = L / 8 + s / 8 := by omega
  have h2 : (L + s) % 8 = s % 8 := by omega
  rw [bitOf, h1, h2]

/-- `filterInsert` with the bits `p * 8 + r` and `q * 8 + t`. -/
def insertAt (bf : List Byte) (p r q t : ℕ) : Option (List Byte × ℕ) := do
  let bit1 : Byte := (1 : Byte) <<< r
  let present1 := (← byteAt bf p) &&& bit1
  let bit2 : Byte := (1 : Byte) <<< t
  let present2 := (← byteAt bf q) &&& bit2
  let maybePresent := (present1 >>> r) &&& (present2 >>> t)
  let present1 := present1 &&& (0 - maybePresent)
  let present2 := present2 &&& (0 - maybePresent)
  let bf ← orAt bf (p + 32) present1
  let bf ← orAt bf (q + 32) present2
  let bf ← orAt bf p bit1
  let bf ← orAt bf q bit2
  return (bf, maybePresent.toNat)

theorem byteAt_ok {bf : List Byte} {p : ℕ} (h : p < bf.length) : byteAt bf p = some (bf.getD p 0) := by
  simp [byteAt, List.getElem?_eq_getElem h, List.getD_eq_getElem?_getD]

theorem bitOf_at (bf : List Byte) (p : ℕ) {r : ℕ} (h : r < 8) : bitOf bf (p * 8 + r) = (bf.getD p 0).getLsbD r := by
  have h1 : (p * 8 + r) / 8 = p := by omega
  have h2 : (p * 8 + r) % 8 = r := by omega
  rw [bitOf, h1, h2]

theorem insertAt_ok {bf : List Byte} {p r q t : ℕ} (hp : p + 32 < bf.length) (hq : q + 32 < bf.length) (hr : r < 8)
    (ht : t < 8) :
    ∃ bf' m, insertAt bf p r q t = some (bf', m) ∧ bf'.length = bf.length ∧ m ≤ 1 ∧
      (∀ j, bitOf bf j = true → bitOf bf' j = true) ∧ bitOf bf' (p * 8 + r) = true ∧ bitOf bf' (q * 8 + t) = true ∧
      (bitOf bf (p * 8 + r) = true → bitOf bf (q * 8 + t) = true →
        m = 1 ∧ bitOf bf' ((p + 32) * 8 + r) = true ∧ bitOf bf' ((q + 32) * 8 + t) = true) := by
  rw [bitOf_at bf p hr, bitOf_at bf q ht]
  unfold insertAt
  rw [byteAt_ok (by omega), byteAt_ok (by omega)]
  simp only [Option.bind_eq_bind, Option.bind_some]
  generalize bf.getD p 0 = x1
  generalize bf.getD q 0 = x2
  have hmayv : ((x1 &&& (1 : Byte) <<< r) >>> r) &&& ((x2 &&& (1 : Byte) <<< t) >>> t) =
      if x1.getLsbD r && x2.getLsbD t then 1 else 0 := by
    rw [byte_shift _ hr, byte_shift _ ht]
    cases x1.getLsbD r <;> cases x2.getLsbD t <;> rfl
  rw [hmayv]
  generalize hmay : (if x1.getLsbD r && x2.getLsbD t then 1 else 0 : Byte) = may
  generalize hq1 : x1 &&& (1 : Byte) <<< r &&& (0 - may) = q1
  generalize hq2 : x2 &&& (1 : Byte) <<< t &&& (0 - may) = q2
  obtain ⟨b1, o1, l1, e1⟩ := orAt_ok (bf := bf) (i := p + 32) q1 (by omega)
  obtain ⟨b2, o2, l2, e2⟩ := orAt_ok (bf := b1) (i := q + 32) q2 (by omega)
  obtain ⟨b3, o3, l3, e3⟩ := orAt_ok (bf := b2) (i := p) ((1 : Byte) <<< r) (by omega)
  obtain ⟨b4, o4, l4, e4⟩ := orAt_ok (bf := b3) (i := q) ((1 : Byte) <<< t) (by omega)
  rw [o1]
  simp only [Option.bind_some]
  rw [o2]
  simp only [Option.bind_some]
  rw [o3]
  simp only [Option.bind_some]
  rw [o4]
  have d : ∀ (p r : ℕ), r < 8 → (p * 8 + r) / 8 = p ∧ (p * 8 + r) % 8 = r := by intro p r h; omega
  refine ⟨b4, may.toNat, rfl, by omega, ?_, ?_, ?_, ?_, ?_⟩
  · rw [← hmay]; split <;> decide
  · intro j hj
    rw [e4, e3, e2, e1, hj]
    simp only [Bool.true_or]
  · rw [e4, e3, (d p r hr).1, (d p r hr).2, byte_bit _ hr _ hr]
    simp
  · rw [e4, (d q t ht).1, (d q t ht).2, byte_bit _ ht _ ht]
    simp
  · intro t1 t2
    have hm1 : may = 1 := by rw [← hmay, t1, t2]; rfl
    rw [hm1, byte_ones, byte_present _ hr _ t1] at hq1
    rw [hm1, byte_ones, byte_present _ ht _ t2] at hq2
    refine ⟨by rw [hm1]; rfl, ?_, ?_⟩
    · rw [e4, e3, e2, e1, ← hq1, (d (p + 32) r hr).1, (d (p + 32) r hr).2, byte_bit _ hr _ hr]
      simp
    · rw [e4, e3, e2, ← hq2, (d (q + 32) t ht).1, (d (q + 32) t ht).2, byte_bit _ ht _ ht]
      simp

theorem filterInsert_ok {e : Env} (he : EnvOK e) {b : ℤ} (h6 : 6 ≤ b) (hb : b < 64) {bf : List Byte}
    (hl : bf.length = 2^(b - 6).toNat * 64) (h : W64) :
    ∃ bf' r, filterInsert e bf b h = some (bf', r) ∧ bf'.length = bf.length ∧ r ≤ 1 ∧
      (∀ j, bitOf bf j = true → bitOf bf' j = true) ∧ Has bf' (2^(b - 6).toNat) 512 0 h ∧
      (Has bf (2^(b - 6).toNat) 512 0 h → r = 1 ∧ Has bf' (2^(b - 6).toNat) 512 256 h) := by
  have hNpos : 0 < 2^(b - 6).toNat := Nat.two_pow_pos _
  have hshl := shl_size he h6 hb
  generalize 2^(b - 6).toNat = N at *
  have hline := lineOf_lt hNpos h
  have ha := slotA_lt h
  have hbb := slotB_lt h
  have heq : filterInsert e bf b h = insertAt bf (lineOf N h * 64 + slotA h / 8) (slotA h % 8)
      (lineOf N h * 64 + slotB h / 8) (slotB h % 8) := by
    unfold filterInsert
    rw [hshl]
    rfl
  simp only [Has]
  rw [heq]
  generalize lineOf N h = L at *
  generalize slotA h = sa at *
  generalize slotB h = sb at *
  have h1 := insertAt_ok (bf := bf) (p := L * 64 + sa / 8) (r := sa % 8) (q := L * 64 + sb / 8) (t := sb % 8)
    (by omega) (by omega) (by omega) (by omega)
  rw [show (L * 64 + sa / 8) * 8 + sa % 8 = L * 512 + 0 + sa by omega,
    show (L * 64 + sb / 8) * 8 + sb % 8 = L * 512 + 0 + sb by omega,
    show (L * 64 + sa / 8 + 32) * 8 + sa % 8 = L * 512 + 256 + sa by omega,
    show (L * 64 + sb / 8 + 32) * 8 + sb % 8 = L * 512 + 256 + sb by omega] at h1
  obtain ⟨bf', m, i1, i2, i3, i4, i5, i6, i7⟩ := h1
  exact ⟨bf', m, i1, i2, i3, i4, ⟨i5, i6⟩, fun hh => ⟨(i7 hh.1 hh.2).1, (i7 hh.1 hh.2).2⟩⟩

/-- The body of the filter loop. -/
def fillBody (e : Env) (bflog : ℤ) : List Byte × W64 → Uni → Run (List Byte × W64) := fun (bf, maxNbH) h => do
  let (bf, r) ← Run.of (filterInsert e bf bflog h.h64)
  return (bf, maxNbH + 2 * BitVec.ofNat 64 r)

theorem fill_ok {e : Env} (he : EnvOK e) {b : ℤ} (h6 : 6 ≤ b) (hb : b < 64) (hs : List Uni) {bf : List Byte} {m : W64}
    (hl : bf.length = 2^(b - 6).toNat * 64) (hm : m.toNat + 2 * hs.length < 2^64) :
    ∃ bf' m', hs.foldlM (fillBody e b) (bf, m) = .done (bf', m') ∧ bf'.length = bf.length ∧ m.toNat ≤ m'.toNat ∧
      m'.toNat ≤ m.toNat + 2 * hs.length ∧
      (∀ j, bitOf bf j = true → bitOf bf' j = true) ∧
      (∀ u ∈ hs, Has bf (2^(b - 6).toNat) 512 0 u.h64 →
        Has bf' (2^(b - 6).toNat) 512 256 u.h64 ∧ m.toNat < m'.toNat) ∧
      (∀ w : W64, 2 ≤ (hs.map (·.h64)).count w → Has bf' (2^(b - 6).toNat) 512 256 w ∧ m.toNat < m'.toNat) := by
  induction hs generalizing bf m with
  | nil => exact ⟨bf, m, rfl, rfl, le_refl _, by simp, fun _ h => h, by simp, by simp⟩
  | cons u hs ih =>
    simp only [List.length_cons] at hm
    obtain ⟨b1, r, hi, hl1, hr, hmono, hhas, hdup⟩ := filterInsert_ok he h6 hb hl u.h64
    have hr2 : (m + 2 * BitVec.ofNat 64 r).toNat = m.toNat + 2 * r := by
      rw [BitVec.toNat_add, BitVec.toNat_mul, BitVec.toNat_ofNat]
      show (m.toNat + 2 * (r % 2^64) % 2^64) % 2^64 = _
      omega
    obtain ⟨b2, m2, hf, hl2, hm1, hm2, hmono2, hd2, hc2⟩ := ih (bf := b1) (m := m + 2 * BitVec.ofNat 64 r)
      (by omega) (by omega)
    rw [hr2] at hm1 hm2 hd2 hc2
    have hup : ∀ o w, Has b1 (2^(b - 6).toNat) 512 o w → Has b2 (2^(b - 6).toNat) 512 o w :=
      fun o w h => ⟨hmono2 _ h.1, hmono2 _ h.2⟩
    have hup1 : ∀ o w, Has bf (2^(b - 6).toNat) 512 o w → Has b1 (2^(b - 6).toNat) 512 o w :=
      fun o w h => ⟨hmono _ h.1, hmono _ h.2⟩
    refine ⟨b2, m2, ?_, by omega, by omega, by simp only [List.length_cons]; omega, fun j hj => hmono2 j (hmono j hj),
      ?_, ?_⟩
    · rw [List.foldlM_cons]
      have : fillBody e b (bf, m) u = .done (b1, m + 2 * BitVec.ofNat 64 r) := by
        show (Run.of (filterInsert e bf b u.h64) >>= _) = _
        rw [hi]
        rfl
      rw [this]
      exact hf
    · intro v hv hh
      rcases List.mem_cons.1 hv with rfl | hv
      · obtain ⟨h1, h2⟩ := hdup hh
        exact ⟨hup _ _ h2, by omega⟩
      · obtain ⟨h1, h2⟩ := hd2 v hv (hup1 _ _ hh)
        exact ⟨h1, by omega⟩
    · intro w hw
      rw [List.map_cons, List.count_cons] at hw
      by_cases hwu : u.h64 = w
      · subst hwu
        simp only [beq_self_eq_true, if_true] at hw
        have hmem : u.h64 ∈ hs.map (·.h64) := List.one_le_count_iff.1 (by omega)
        obtain ⟨v, hv, hvu⟩ := List.mem_map.1 hmem
        rw [← hvu] at hhas ⊢
        obtain ⟨h1, h2⟩ := hd2 v hv hhas
        exact ⟨h1, by omega⟩
      · have : (u.h64 == w) = false := by simpa using hwu
        rw [this] at hw
        obtain ⟨h1, h2⟩ := hc2 w (by simpa using hw)
        exact ⟨h1, by omega⟩

theorem reduceLoop_ok {bf0 : List Byte} {n k : ℕ} (hl : bf0.length = (k + n) * 64) {bf : List Byte}
    (hlb : bf.length = bf0.length) (h1 : ∀ i < k * 32, bf.getD i 0 = bf0.getD (i / 32 * 64 + 32 + i % 32) 0)
    (h2 : ∀ i, k * 32 ≤ i → bf.getD i 0 = bf0.getD i 0) :
    ∃ bf', reduceLoop bf n k = some bf' ∧ bf'.length = bf0.length ∧
      ∀ i < (k + n) * 32, bf'.getD i 0 = bf0.getD (i / 32 * 64 + 32 + i % 32) 0 := by
  induction n generalizing k bf with
  | zero => exact ⟨bf, rfl, hlb, h1⟩
  | succ n ih =>
    simp only [reduceLoop]
    have ha : (assert (k * 32 + 32 ≤ k * 64 + 32) : Option Unit) = some () := by simp [assert]; omega
    have hrd : readBytes ⟨0, bf⟩ (k * 64 + 32) 32 = some ((bf.drop (k * 64 + 32)).take 32) :=
      if_pos (show k * 64 + 32 + 32 ≤ bf.length by omega)
    have hlen : ((bf.drop (k * 64 + 32)).take 32).length = 32 := by
      rw [List.length_take, List.length_drop]; omega
    have hwr : writeBytes bf (k * 32) ((bf.drop (k * 64 + 32)).take 32) =
        some (bf.take (k * 32) ++ (bf.drop (k * 64 + 32)).take 32 ++ bf.drop (k * 32 + 32)) := by
      have := writeBytes_eq (dst := bf) (off := k * 32) (src := (bf.drop (k * 64 + 32)).take 32) (by omega)
      rwa [hlen] at this
    rw [ha, hrd]
    simp only [Option.bind_eq_bind, Option.bind_some]
    rw [hwr]
    simp only [Option.bind_some]
    rw [show k + (n + 1) = k + 1 + n by omega] at hl ⊢
    have hget : ∀ i, (bf.take (k * 32) ++ (bf.drop (k * 64 + 32)).take 32 ++ bf.drop (k * 32 + 32)).getD i 0 =
        if i < k * 32 then bf.getD i 0 else if i < k * 32 + 32 then bf.getD (k * 64 + 32 + (i - k * 32)) 0
          else bf.getD i 0 := by
      intro i
      simp only [List.getD_eq_getElem?_getD]
      have t1 : (bf.take (k * 32)).length = k * 32 := by rw [List.length_take]; omega
      rw [List.append_assoc, List.getElem?_append, t1]
      split
      · rw [List.getElem?_take_of_lt (by assumption)]
      · rw [List.getElem?_append, hlen]
        split
        · rw [List.getElem?_take_of_lt (by assumption), List.getElem?_drop, if_pos (by omega)]
        · rw [List.getElem?_drop, if_neg (by omega)]
          congr 2
          omega
    refine ih hl ?_ ?_ ?_
    · simp only [List.length_append, List.length_take, List.length_drop]; omega
    · intro i hi
      rw [hget]
      split
      · rw [h1 i (by assumption)]
      · rw [if_pos (by omega), h2 _ (by omega)]
        congr 1
        omega
    · intro i hi
      rw [hget, if_neg (by omega), if_neg (by omega), h2 i (by omega)]

theorem line_byte (L s : ℕ) : L * 256 / 8 + s / 8 = L * 32 + s / 8 := by omega

theorem filterReduce_ok {e : Env} (he : EnvOK e) {b : ℤ} (h7 : 7 ≤ b) (hb : b < 64) {bf : List Byte}
    (hl : bf.length = 2^(b - 6).toNat * 64) :
    (filterReduce e bf b = .exit 1 ∧ ¬ Memory e) ∨
    ∃ bf', filterReduce e bf b = .done bf' ∧ bf'.length = 2^(b - 6).toNat * 32 ∧
      ∀ h, Has bf (2^(b - 6).toNat) 512 256 h → Has bf' (2^(b - 6).toNat) 256 0 h := by
  have hc : check (6 < b ∧ b < 64) = .done () := if_pos ⟨by omega, hb⟩
  have hpow : 2^(b - 6).toNat ≤ 144115188075855872 :=
    le_trans (Nat.pow_le_pow_right (by norm_num) (by omega : (b - 6).toNat ≤ 57)) (by norm_num)
  have hNpos : 0 < 2^(b - 6).toNat := Nat.two_pow_pos _
  have hshl := shl_size he (by omega : 6 ≤ b) hb
  generalize 2^(b - 6).toNat = N at *
  obtain ⟨b1, hr, hl1, hv⟩ := reduceLoop_ok (bf0 := bf) (n := N) (k := 0) (by omega) (bf := bf) rfl
    (by intro i hi; omega) (fun _ _ => rfl)
  have hsz : e.cfg.size (N * 32) = N * 32 := by rw [Cfg.size, he.size]; exact Nat.mod_eq_of_lt (by omega)
  have heq : filterReduce e bf b = if e.alloc 2 (N * 32) then .done (b1.take (N * 32)) else .exit 1 := by
    unfold filterReduce
    rw [hc, hshl]
    show (Run.of (reduceLoop bf N 0) >>= _) = _
    rw [hr]
    show (if e.alloc 2 (e.cfg.size (N * 32)) then _ else _) = _
    rw [hsz]
    rfl
  rw [heq]
  by_cases ha : e.alloc 2 (N * 32) = true
  · right
    refine ⟨b1.take (N * 32), if_pos ha, by rw [List.length_take]; omega, ?_⟩
    have key : ∀ L < N, ∀ s < 256, bitOf bf (L * 512 + 256 + s) = true → bitOf (b1.take (N * 32)) (L * 256 + s) = true := by
      intro L hL s hs hbit
      rw [bitOf_split _ _ _ (by omega)] at hbit ⊢
      have d1 : (L * 512 + 256) / 8 + s / 8 = L * 64 + 32 + s / 8 := by omega
      have d2 : L * 256 / 8 + s / 8 = L * 32 + s / 8 := line_byte L s
      rw [d1] at hbit
      rw [d2]
      have hlt : L * 32 + s / 8 < N * 32 := by omega
      have ht : (b1.take (N * 32)).getD (L * 32 + s / 8) 0 = b1.getD (L * 32 + s / 8) 0 := by
        simp only [List.getD_eq_getElem?_getD]
        rw [List.getElem?_take_of_lt hlt]
      rw [ht, hv _ (by omega)]
      have e1 : (L * 32 + s / 8) / 32 = L := by omega
      have e2 : (L * 32 + s / 8) % 32 = s / 8 := by omega
      rw [e1, e2]
      exact hbit
    intro h hh
    have ha := slotA_lt h
    have hbb := slotB_lt h
    have hline := lineOf_lt hNpos h
    unfold Has at hh ⊢
    generalize slotA h = sa at *
    generalize slotB h = sb at *
    generalize lineOf N h = L at *
    rw [Nat.add_zero]
    exact ⟨key _ hline _ ha hh.1, key _ hline _ hbb hh.2⟩
  · left
    exact ⟨if_neg ha, fun hm => ha (hm _ _)⟩

theorem filterCheck_ok {e : Env} (he : EnvOK e) {b : ℤ} (h6 : 6 ≤ b) (hb : b < 64) {bf : List Byte}
    (hl : bf.length = 2^(b - 6).toNat * 32) (h : W64) :
    ∃ c, filterCheck e bf b h = some c ∧ (Has bf (2^(b - 6).toNat) 256 0 h → c = true) := by
  have hNpos : 0 < 2^(b - 6).toNat := Nat.two_pow_pos _
  have hshl := shl_size he h6 hb
  generalize 2^(b - 6).toNat = N at *
  have hline := lineOf_lt hNpos h
  have ha := slotA_lt h
  have hbb := slotB_lt h
  have p1 : lineOf N h * 32 + slotA h / 8 < bf.length := by omega
  have p2 : lineOf N h * 32 + slotB h / 8 < bf.length := by omega
  have g1 : byteAt bf (lineOf N h * 32 + slotA h / 8) = some (bf.getD (lineOf N h * 32 + slotA h / 8) 0) := by
    simp [byteAt, List.getElem?_eq_getElem p1, List.getD_eq_getElem?_getD]
  have g2 : byteAt bf (lineOf N h * 32 + slotB h / 8) = some (bf.getD (lineOf N h * 32 + slotB h / 8) 0) := by
    simp [byteAt, List.getElem?_eq_getElem p2, List.getD_eq_getElem?_getD]
  have hsa' : (avalanche64 h &&& 255).toNat = slotA h := rfl
  have hsb' : ((avalanche64 h >>> 8) &&& 255).toNat = slotB h := rfl
  have hL' : (avalanche64 h >>> 8 >>> 8).toNat % N = lineOf N h := rfl
  simp only [filterCheck, hshl, Option.bind_eq_bind, Option.bind_some, hsa', hsb', hL', g1, g2]
  refine ⟨_, rfl, ?_⟩
  rintro ⟨t1, t2⟩
  rw [bitOf_split _ _ _ (by omega)] at t1 t2
  rw [show (lineOf N h * 256 + 0) / 8 = lineOf N h * 32 by omega] at t1 t2
  rw [byte_shr _ (Nat.mod_lt _ (by norm_num)), byte_shr _ (Nat.mod_lt _ (by norm_num)), t1, t2]
  decide

end XXH.Proof.Collide
