import Verif.Proof.Bytes
import Verif.Proof.XXH64
import Verif.Spec.XXH32
import Verif.Spec.XXH3
import Mathlib.Data.Nat.ModEq
import Mathlib.Data.Nat.GCD.Basic
/-!
Injectivity of the mixing steps.
-/
namespace XXH.Inj
open XXH.Spec

/-- `x ^ (x >> k)` can be undone. -/
theorem xorshift {w : Nat} {k : Nat} (hk : 0 < k) {x y : BitVec w} (h : x ^^^ (x >>> k) = y ^^^ (y >>> k)) : x = y := by
  have key : ∀ n i, w ≤ i + n → x.getLsbD i = y.getLsbD i := by
    intro n
    induction n using Nat.strong_induction_on with
    | _ n ih =>
      intro i hi
      by_cases hw : w ≤ i
      · rw [BitVec.getLsbD_of_ge _ _ hw, BitVec.getLsbD_of_ge _ _ hw]
      · have h1 := congrArg (fun z => z.getLsbD i) h
        simp only [BitVec.getLsbD_xor, BitVec.getLsbD_ushiftRight] at h1
        rw [ih (n - k) (by omega) (k + i) (by omega)] at h1
        revert h1
        cases x.getLsbD i <;> cases y.getLsbD i <;> cases y.getLsbD (k+i) <;> simp
  apply BitVec.eq_of_getLsbD_eq
  intro i _
  exact key w i (by omega)

/-- Multiplication by an odd number can be undone. -/
theorem mul_odd {w : Nat} {p x y : BitVec w} (hp : p.toNat % 2 = 1) (h : x * p = y * p) : x = y := by
  have hc : Nat.Coprime (2^w) p.toNat := by
    apply Nat.Coprime.pow_left
    rw [Nat.coprime_comm, Nat.Coprime, Nat.gcd_comm, Nat.gcd_rec, hp]; rfl
  have h1 := congrArg BitVec.toNat h
  simp only [BitVec.toNat_mul] at h1
  have h2 : x.toNat ≡ y.toNat [MOD 2^w] := Nat.ModEq.cancel_right_of_coprime hc h1
  apply BitVec.eq_of_toNat_eq
  rw [Nat.ModEq, Nat.mod_eq_of_lt x.isLt, Nat.mod_eq_of_lt y.isLt] at h2
  exact h2

theorem rotateLeft {w : Nat} (k : Nat) {x y : BitVec w} (h : x.rotateLeft k = y.rotateLeft k) : x = y := by
  rcases Nat.eq_zero_or_pos w with rfl | hw
  · exact BitVec.eq_of_toNat_eq (by have := x.isLt; have := y.isLt; omega)
  apply BitVec.eq_of_getLsbD_eq
  intro i hi
  have hr : k % w < w := Nat.mod_lt _ hw
  have h1 := fun j => congrArg (fun z => z.getLsbD j) h
  simp only [BitVec.getLsbD_rotateLeft] at h1
  by_cases hlt : i + k % w < w
  · have := h1 (i + k % w)
    have e1 : decide (i + k % w < k % w) = false := decide_eq_false (by omega)
    have e2 : decide (i + k % w < w) = true := decide_eq_true hlt
    rw [e1, e2, show i + k % w - k % w = i by omega] at this
    simpa using this
  · have := h1 (i + k % w - w)
    have e1 : decide (i + k % w - w < k % w) = true := decide_eq_true (by omega)
    rw [e1, show w - k % w + (i + k % w - w) = i by omega] at this
    simpa using this

theorem add_right {w : Nat} {x y c : BitVec w} (h : x + c = y + c) : x = y := by
  have := congrArg (· - c) h
  simpa [BitVec.add_sub_cancel] using this
theorem add_left {w : Nat} {x y c : BitVec w} (h : c + x = c + y) : x = y := by
  rw [BitVec.add_comm c, BitVec.add_comm c] at h
  exact add_right h

theorem xor_right {w : Nat} {x y c : BitVec w} (h : x ^^^ c = y ^^^ c) : x = y := by
  have := congrArg (· ^^^ c) h
  simpa [BitVec.xor_assoc] using this

theorem xor_left {w : Nat} {x y c : BitVec w} (h : c ^^^ x = c ^^^ y) : x = y := by
  rw [BitVec.xor_comm c, BitVec.xor_comm c] at h
  exact xor_right h

theorem sub_left {w : Nat} {x y c : BitVec w} (h : c - x = c - y) : x = y := by
  rw [BitVec.sub_eq_add_neg, BitVec.sub_eq_add_neg] at h
  exact BitVec.neg_inj.mp (add_left h)

theorem setWidth {v w : Nat} (hvw : v ≤ w) {x y : BitVec v} (h : x.setWidth w = y.setWidth w) : x = y := by
  apply BitVec.eq_of_toNat_eq
  have h1 := congrArg BitVec.toNat h
  have h2 : 2^v ≤ 2^w := Nat.pow_le_pow_right (by decide) hvw
  have hx := x.isLt
  have hy := y.isLt
  rw [BitVec.toNat_setWidth, BitVec.toNat_setWidth, Nat.mod_eq_of_lt (by omega), Nat.mod_eq_of_lt (by omega)] at h1
  exact h1

theorem u32_inj {x y : List Byte} (hx : x.length = 4) (hy : y.length = 4) (h : u32 x = u32 y) : x = y := by
  rw [← leBytes_u32 x hx, ← leBytes_u32 y hy, h]

theorem u64_inj {x y : List Byte} (hx : x.length = 8) (hy : y.length = 8) (h : u64 x = u64 y) : x = y := by
  rw [← leBytes_u64 x hx, ← leBytes_u64 y hy, h]

/-! ### Lanes -/

section
variable {pre x y post : List Byte} {n : Nat}

theorem drop_pre (h : n ≤ pre.length) : (pre ++ x ++ post).drop n = pre.drop n ++ x ++ post := by
  rw [List.append_assoc, List.drop_append_of_le_length h, List.append_assoc]

theorem drop_post (hxy : x.length = y.length) (h : pre.length + x.length ≤ n) :
    (pre ++ x ++ post).drop n = (pre ++ y ++ post).drop n := by
  rw [List.drop_append, List.drop_append (l₁ := pre ++ y)]
  simp only [List.length_append, hxy]
  rw [List.drop_eq_nil_of_le (as := pre ++ x) (by simp only [List.length_append]; omega),
    List.drop_eq_nil_of_le (as := pre ++ y) (by simp only [List.length_append]; omega)]

theorem slice_pre {a b : Nat} (h : b ≤ pre.length) : slice (pre ++ x ++ post) a b = slice pre a b := by
  rw [List.append_assoc, slice_append_left _ _ _ _ h]

theorem slice_post (hxy : x.length = y.length) {a b : Nat} (h : pre.length + x.length ≤ a) :
    slice (pre ++ x ++ post) a b = slice (pre ++ y ++ post) a b := by
  simp only [slice]
  rw [drop_post hxy h]

theorem slice_mid {a b : Nat} (ha : a = pre.length) (hb : b = pre.length + x.length) :
    slice (pre ++ x ++ post) a b = x := by
  rw [List.append_assoc, slice_append_right _ _ _ _ (by omega), slice_append_left _ _ _ _ (by omega),
    slice_all' (by omega) (by omega)]
where
  slice_all' {xs : List Byte} {a b : Nat} (ha : a = 0) (hb : b = xs.length) : slice xs a b = xs := by
    subst ha hb; exact slice_all _ _ (Nat.le_refl _)

/-- Aligned lanes other than the changed one are the same. -/
theorem lane_other (hx : x.length = n) (hy : y.length = n) (hd : n ∣ pre.length) {q : Nat}
    (hq : n ∣ q) (hne : q ≠ pre.length) :
    slice (pre ++ x ++ post) q (q+n) = slice (pre ++ y ++ post) q (q+n) := by
  obtain ⟨c, hc⟩ := hd
  obtain ⟨d, hd⟩ := hq
  rcases Nat.lt_or_gt_of_ne hne with h | h
  · have : d < c := by
      apply Nat.lt_of_mul_lt_mul_left (a := n); omega
    have : n * (d+1) ≤ n * c := Nat.mul_le_mul_left _ this
    rw [Nat.mul_add, Nat.mul_one] at this
    rw [slice_pre (by omega), slice_pre (by omega)]
  · have : c < d := by
      apply Nat.lt_of_mul_lt_mul_left (a := n); omega
    have : n * (c+1) ≤ n * d := Nat.mul_le_mul_left _ this
    rw [Nat.mul_add, Nat.mul_one] at this
    exact slice_post (by omega) (by omega)

end

/-! ### XXH32 -/
namespace X32
open XXH.Spec.XXH32

theorem round_acc {a b l : W32} (h : round a l = round b l) : a = b :=
  add_right (rotateLeft 13 (mul_odd (by decide) h))

theorem round_lane {a l m : W32} (h : round a l = round a m) : l = m :=
  mul_odd (p := PRIME32_2) (by decide) (add_left (rotateLeft 13 (mul_odd (by decide) h)))

theorem avalanche_inj {a b : W32} (h : avalanche a = avalanche b) : a = b :=
  xorshift (by decide) (mul_odd (by decide) (xorshift (by decide) (mul_odd (by decide) (xorshift (by decide) h))))

theorem lane4_acc {a b l : W32} (h : (a + l * PRIME32_3).rotateLeft 17 * PRIME32_4 =
    (b + l * PRIME32_3).rotateLeft 17 * PRIME32_4) : a = b :=
  add_right (rotateLeft 17 (mul_odd (by decide) h))

theorem lane4_lane {a l m : W32} (h : (a + l * PRIME32_3).rotateLeft 17 * PRIME32_4 =
    (a + m * PRIME32_3).rotateLeft 17 * PRIME32_4) : l = m :=
  mul_odd (p := PRIME32_3) (by decide) (add_left (rotateLeft 17 (mul_odd (by decide) h)))

theorem byte_acc {a b : W32} {c : Byte} (h : (a + c.setWidth 32 * PRIME32_5).rotateLeft 11 * PRIME32_1 =
    (b + c.setWidth 32 * PRIME32_5).rotateLeft 11 * PRIME32_1) : a = b :=
  add_right (rotateLeft 11 (mul_odd (by decide) h))

theorem byte_byte {a : W32} {c d : Byte} (h : (a + c.setWidth 32 * PRIME32_5).rotateLeft 11 * PRIME32_1 =
    (a + d.setWidth 32 * PRIME32_5).rotateLeft 11 * PRIME32_1) : c = d :=
  setWidth (by decide) (mul_odd (p := PRIME32_5) (by decide) (add_left (rotateLeft 11 (mul_odd (by decide) h))))

theorem remaining_acc : ∀ (bs : List Byte) {a b : W32}, remaining a bs = remaining b bs → a = b
  | _ :: _ :: _ :: _ :: rest, _, _, h => by
    simp only [remaining] at h
    exact lane4_acc (remaining_acc rest h)
  | [_, _, _], _, _, h => by
    simp only [remaining] at h
    exact byte_acc (byte_acc (byte_acc h))
  | [_, _], _, _, h => by
    simp only [remaining] at h
    exact byte_acc (byte_acc h)
  | [_], _, _, h => by
    simp only [remaining] at h
    exact byte_acc h
  | [], _, _, h => h

/-- A prefix of whole lanes. -/
theorem remaining_append : ∀ (m : Nat) (pre rest : List Byte), pre.length = 4*m → ∀ a : W32,
    remaining a (pre ++ rest) = remaining (remaining a pre) rest
  | 0, pre, rest, h, a => by
    have : pre = [] := List.length_eq_zero_iff.mp (by omega)
    subst this
    rfl
  | m+1, b0 :: b1 :: b2 :: b3 :: pre, rest, h, a => by
    simp only [List.cons_append, remaining]
    exact remaining_append m pre rest (by simp only [List.length_cons] at h; omega) _
  | m+1, [], rest, h, a => by simp at h
  | m+1, [_], rest, h, a => by simp at h; omega
  | m+1, [_, _], rest, h, a => by simp at h; omega
  | m+1, [_, _, _], rest, h, a => by simp at h; omega

/-- One byte among the last few. -/
theorem remaining_byte {s t : List Byte} {c d : Byte} (hl : s.length + t.length + 1 < 4) {a : W32}
    (h : remaining a (s ++ [c] ++ t) = remaining a (s ++ [d] ++ t)) : c = d := by
  match s, t with
  | [], [] => simp only [List.nil_append, List.append_nil, remaining] at h; exact byte_byte h
  | [], [_] => simp only [List.nil_append, List.cons_append, remaining] at h; exact byte_byte (byte_acc h)
  | [], [_, _] =>
    simp only [List.nil_append, List.cons_append, remaining] at h; exact byte_byte (byte_acc (byte_acc h))
  | [_], [] => simp only [List.nil_append, List.cons_append, List.append_nil, remaining] at h; exact byte_byte h
  | [_], [_] => simp only [List.nil_append, List.cons_append, remaining] at h; exact byte_byte (byte_acc h)
  | [_, _], [] => simp only [List.nil_append, List.cons_append, List.append_nil, remaining] at h; exact byte_byte h
  | _ :: _ :: _ :: _, _ => simp only [List.length_cons] at hl; omega
  | [], _ :: _ :: _ :: _ => simp only [List.length_cons] at hl; omega
  | [_], _ :: _ :: _ => simp only [List.length_cons] at hl; omega
  | [_, _], _ :: _ => simp only [List.length_cons] at hl; omega

/-- One whole lane. -/
theorem remaining_lane {pre x y post : List Byte} (hp : 4 ∣ pre.length) (hx : x.length = 4) (hy : y.length = 4)
    {a : W32} (h : remaining a (pre ++ x ++ post) = remaining a (pre ++ y ++ post)) : x = y := by
  obtain ⟨m, hm⟩ := hp
  rw [List.append_assoc, List.append_assoc, remaining_append m _ _ hm, remaining_append m _ _ hm] at h
  generalize remaining a pre = b at h
  match x, y, hx, hy with
  | [x0, x1, x2, x3], [y0, y1, y2, y3], hx, hy =>
    simp only [List.cons_append, List.nil_append, remaining] at h
    exact u32_inj hx hy (lane4_lane (remaining_acc post h))

/-- The accumulators differ in exactly one lane. -/
def OneDiff (a b : Accs) : Prop :=
  (a.acc1 ≠ b.acc1 ∧ a.acc2 = b.acc2 ∧ a.acc3 = b.acc3 ∧ a.acc4 = b.acc4) ∨
  (a.acc1 = b.acc1 ∧ a.acc2 ≠ b.acc2 ∧ a.acc3 = b.acc3 ∧ a.acc4 = b.acc4) ∨
  (a.acc1 = b.acc1 ∧ a.acc2 = b.acc2 ∧ a.acc3 ≠ b.acc3 ∧ a.acc4 = b.acc4) ∨
  (a.acc1 = b.acc1 ∧ a.acc2 = b.acc2 ∧ a.acc3 = b.acc3 ∧ a.acc4 ≠ b.acc4)

theorem converge_ne {a b : Accs} (h : OneDiff a b) : converge a ≠ converge b := by
  intro he
  simp only [converge] at he
  rcases h with ⟨h1, h2, h3, h4⟩ | ⟨h1, h2, h3, h4⟩ | ⟨h1, h2, h3, h4⟩ | ⟨h1, h2, h3, h4⟩
  · rw [h2, h3, h4] at he; exact h1 (rotateLeft 1 (add_right (add_right (add_right he))))
  · rw [h1, h3, h4] at he; exact h2 (rotateLeft 7 (add_left (add_right (add_right he))))
  · rw [h1, h2, h4] at he; exact h3 (rotateLeft 12 (add_left (add_right he)))
  · rw [h1, h2, h3] at he; exact h4 (rotateLeft 18 (add_left he))

theorem stripe_same {a b : Accs} (h : OneDiff a b) (s : List Byte) : OneDiff (stripe a s) (stripe b s) := by
  rcases h with ⟨h1, h2, h3, h4⟩ | ⟨h1, h2, h3, h4⟩ | ⟨h1, h2, h3, h4⟩ | ⟨h1, h2, h3, h4⟩
  · exact .inl ⟨fun h => h1 (round_acc h), congrArg (round · _) h2, congrArg (round · _) h3, congrArg (round · _) h4⟩
  · exact .inr (.inl ⟨congrArg (round · _) h1, fun h => h2 (round_acc h), congrArg (round · _) h3, congrArg (round · _) h4⟩)
  · exact .inr (.inr (.inl ⟨congrArg (round · _) h1, congrArg (round · _) h2, fun h => h3 (round_acc h), congrArg (round · _) h4⟩))
  · exact .inr (.inr (.inr ⟨congrArg (round · _) h1, congrArg (round · _) h2, congrArg (round · _) h3, fun h => h4 (round_acc h)⟩))

theorem stripe_diff {a : Accs} {s t : List Byte} {j : Nat} (hj : j < 4) (hne : word32 s j ≠ word32 t j)
    (heq : ∀ m, m < 4 → m ≠ j → word32 s m = word32 t m) : OneDiff (stripe a s) (stripe a t) := by
  have h0 := heq 0 (by decide)
  have h1 := heq 1 (by decide)
  have h2 := heq 2 (by decide)
  have h3 := heq 3 (by decide)
  match j, hj with
  | 0, _ => exact .inl ⟨fun h => hne (round_lane h), congrArg (round _) (h1 (by decide)), congrArg (round _) (h2 (by decide)), congrArg (round _) (h3 (by decide))⟩
  | 1, _ => exact .inr (.inl ⟨congrArg (round _) (h0 (by decide)), fun h => hne (round_lane h), congrArg (round _) (h2 (by decide)), congrArg (round _) (h3 (by decide))⟩)
  | 2, _ => exact .inr (.inr (.inl ⟨congrArg (round _) (h0 (by decide)), congrArg (round _) (h1 (by decide)), fun h => hne (round_lane h), congrArg (round _) (h3 (by decide))⟩))
  | 3, _ => exact .inr (.inr (.inr ⟨congrArg (round _) (h0 (by decide)), congrArg (round _) (h1 (by decide)), congrArg (round _) (h2 (by decide)), fun h => hne (round_lane h)⟩))

theorem stripes_succ (a : Accs) (m : List Byte) (n : Nat) :
    stripes a m (n+1) = stripe (stripes a m n) (slice m (16*n) (16*n+16)) := by
  simp only [stripes, List.range_succ, List.foldl_append, List.foldl_cons, List.foldl_nil]

theorem stripes_congr (a : Accs) {m m' : List Byte} {n : Nat}
    (h : ∀ i, i < n → slice m (16*i) (16*i+16) = slice m' (16*i) (16*i+16)) : stripes a m n = stripes a m' n := by
  induction n with
  | zero => simp only [stripes, List.range_zero, List.foldl_nil]
  | succ n ih => rw [stripes_succ, stripes_succ, ih (fun i hi => h i (by omega)), h n (by omega)]

section
variable {pre x y post : List Byte} (hd : 4 ∣ pre.length) (hx : x.length = 4) (hy : y.length = 4) (hne : x ≠ y)
include hd hx hy hne

theorem stripes_diff (a : Accs) : ∀ n, pre.length < 16*n →
    OneDiff (stripes a (pre ++ x ++ post) n) (stripes a (pre ++ y ++ post) n)
  | 0, h => by omega
  | n+1, h => by
    rw [stripes_succ, stripes_succ]
    by_cases hn : pre.length < 16*n
    · rw [slice_post (x := x) (y := y) (by omega) (by omega)]
      exact stripe_same (stripes_diff a n hn) _
    · have e : stripes a (pre ++ x ++ post) n = stripes a (pre ++ y ++ post) n := by
        apply stripes_congr
        intro i hi
        rw [slice_pre (by omega), slice_pre (by omega)]
      rw [e]
      have hw : ∀ (z : List Byte) (m : Nat), m < 4 →
          word32 (slice (pre ++ z ++ post) (16*n) (16*n+16)) m = u32 (slice (pre ++ z ++ post) (16*n+4*m) (16*n+4*m+4)) := by
        intro z m hm
        rw [word32, slice_slice _ _ _ _ _ (by omega), Nat.add_assoc]
      apply stripe_diff (j := (pre.length - 16*n)/4) (by omega)
      · rw [hw _ _ (by omega), hw _ _ (by omega), slice_mid (by omega) (by omega), slice_mid (by omega) (by omega)]
        exact fun h => hne (u32_inj hx hy h)
      · intro m hm hmj
        rw [hw _ _ hm, hw _ _ hm, lane_other hx hy hd (by omega) (by omega)]

theorem hash_lane (seed : W32) : XXH32.hash (pre ++ x ++ post) seed ≠ XXH32.hash (pre ++ y ++ post) seed := by
  intro h
  have hl : (pre ++ y ++ post).length = (pre ++ x ++ post).length := by
    simp only [List.length_append]; omega
  simp only [XXH.Spec.XXH32.hash, hl] at h
  replace h := avalanche_inj h
  obtain ⟨L, hL⟩ : ∃ L, L = (pre ++ x ++ post).length := ⟨_, rfl⟩
  have hL' : L = pre.length + 4 + post.length := by rw [hL]; simp only [List.length_append]; omega
  rw [← hL] at h
  by_cases hcase : L/16*16 ≤ pre.length
  · have e : stripes (init seed) (pre ++ x ++ post) (L/16) = stripes (init seed) (pre ++ y ++ post) (L/16) := by
      apply stripes_congr
      intro i hi
      rw [slice_pre (by omega), slice_pre (by omega)]
    rw [e, drop_pre hcase, drop_pre hcase] at h
    exact hne (remaining_lane (by rw [List.length_drop]; omega) hx hy h)
  · rw [drop_post (y := y) (by omega) (by omega)] at h
    replace h := add_right (remaining_acc _ h)
    by_cases h16 : L < 16
    · omega
    · rw [if_neg h16, if_neg h16] at h
      exact converge_ne (stripes_diff hd hx hy hne _ _ (by omega)) h

end

/-- One byte among the last `L % 4`. -/
theorem hash_byte {pre post : List Byte} {c d : Byte} (hpos : (pre.length + 1 + post.length)/4*4 ≤ pre.length)
    (hne : c ≠ d) (seed : W32) : XXH32.hash (pre ++ [c] ++ post) seed ≠ XXH32.hash (pre ++ [d] ++ post) seed := by
  intro h
  have hl : (pre ++ [d] ++ post).length = (pre ++ [c] ++ post).length := by simp
  simp only [XXH.Spec.XXH32.hash, hl] at h
  replace h := avalanche_inj h
  obtain ⟨L, hL⟩ : ∃ L, L = (pre ++ [c] ++ post).length := ⟨_, rfl⟩
  have hL' : L = pre.length + 1 + post.length := by
    rw [hL]; simp only [List.length_append, List.length_cons, List.length_nil]
  rw [← hL'] at hpos
  rw [← hL] at h
  have e : stripes (init seed) (pre ++ [c] ++ post) (L/16) = stripes (init seed) (pre ++ [d] ++ post) (L/16) := by
    apply stripes_congr
    intro i hi
    rw [slice_pre (by omega), slice_pre (by omega)]
  rw [e, drop_pre (by omega), drop_pre (by omega)] at h
  generalize (if L < 16 then seed + PRIME32_5 else converge (stripes (init seed) (pre ++ [d] ++ post) (L / 16))) +
    BitVec.ofNat 32 L = acc at h
  -- split the prefix of the remaining bytes into whole lanes and the rest
  obtain ⟨r, hr⟩ : ∃ r, r = pre.drop (L/16*16) := ⟨_, rfl⟩
  rw [← hr] at h
  have hrl : r.length = pre.length - L/16*16 := by rw [hr, List.length_drop]
  have hsplit : r = r.take (r.length/4*4) ++ r.drop (r.length/4*4) := (List.take_append_drop _ _).symm
  rw [hsplit, List.append_assoc, List.append_assoc, List.append_assoc, List.append_assoc] at h
  have ht : (r.take (r.length/4*4)).length = 4 * (r.length/4) := by rw [List.length_take]; omega
  rw [remaining_append (r.length/4) (r.take (r.length/4*4)) _ ht,
    remaining_append (r.length/4) (r.take (r.length/4*4)) _ ht, ← List.append_assoc, ← List.append_assoc] at h
  exact hne (remaining_byte (by rw [List.length_drop]; omega) h)

/-- Distinct seeds, short input. -/
theorem hash_seed {m : List Byte} (hl : m.length < 16) {s t : W32} (h : XXH32.hash m s = XXH32.hash m t) : s = t := by
  simp only [XXH.Spec.XXH32.hash, if_pos hl] at h
  exact add_right (add_right (remaining_acc _ (avalanche_inj h)))

end X32

/-! ### XXH64 -/
namespace X64
open XXH.Spec.XXH64

theorem round_acc {a b l : W64} (h : round a l = round b l) : a = b :=
  add_right (rotateLeft 31 (mul_odd (by decide) h))

theorem round_lane {a l m : W64} (h : round a l = round a m) : l = m :=
  mul_odd (p := PRIME64_2) (by decide) (add_left (rotateLeft 31 (mul_odd (by decide) h)))

theorem avalanche_inj {a b : W64} (h : avalanche a = avalanche b) : a = b :=
  xorshift (by decide) (mul_odd (by decide) (xorshift (by decide) (mul_odd (by decide) (xorshift (by decide) h))))

theorem lane8_acc {a b l : W64} (h : lane8 a l = lane8 b l) : a = b :=
  xor_right (rotateLeft 27 (mul_odd (by decide) (add_right h)))

theorem lane8_lane {a l m : W64} (h : lane8 a l = lane8 a m) : l = m :=
  round_lane (xor_left (rotateLeft 27 (mul_odd (by decide) (add_right h))))

theorem lane4_acc {a b : W64} {l : W32}
    (h : (a ^^^ l.setWidth 64 * PRIME64_1).rotateLeft 23 * PRIME64_2 + PRIME64_3 =
      (b ^^^ l.setWidth 64 * PRIME64_1).rotateLeft 23 * PRIME64_2 + PRIME64_3) : a = b :=
  xor_right (rotateLeft 23 (mul_odd (by decide) (add_right h)))

theorem lane4_lane {a : W64} {l m : W32}
    (h : (a ^^^ l.setWidth 64 * PRIME64_1).rotateLeft 23 * PRIME64_2 + PRIME64_3 =
      (a ^^^ m.setWidth 64 * PRIME64_1).rotateLeft 23 * PRIME64_2 + PRIME64_3) : l = m :=
  setWidth (by decide) (mul_odd (p := PRIME64_1) (by decide)
    (xor_left (rotateLeft 23 (mul_odd (by decide) (add_right h)))))

theorem byte_acc {a b : W64} {c : Byte} (h : (a ^^^ c.setWidth 64 * PRIME64_5).rotateLeft 11 * PRIME64_1 =
    (b ^^^ c.setWidth 64 * PRIME64_5).rotateLeft 11 * PRIME64_1) : a = b :=
  xor_right (rotateLeft 11 (mul_odd (by decide) h))

theorem byte_byte {a : W64} {c d : Byte} (h : (a ^^^ c.setWidth 64 * PRIME64_5).rotateLeft 11 * PRIME64_1 =
    (a ^^^ d.setWidth 64 * PRIME64_5).rotateLeft 11 * PRIME64_1) : c = d :=
  setWidth (by decide) (mul_odd (p := PRIME64_5) (by decide) (xor_left (rotateLeft 11 (mul_odd (by decide) h))))

theorem remaining1_acc : ∀ (bs : List Byte) {a b : W64}, remaining1 a bs = remaining1 b bs → a = b
  | [], _, _, h => h
  | _ :: rest, _, _, h => by
    simp only [remaining1] at h
    exact byte_acc (remaining1_acc rest h)

theorem remaining1_byte : ∀ (s t : List Byte) {c d : Byte} {a : W64},
    remaining1 a (s ++ [c] ++ t) = remaining1 a (s ++ [d] ++ t) → c = d
  | [], t, _, _, _, h => by
    simp only [List.nil_append, List.cons_append, remaining1] at h
    exact byte_byte (remaining1_acc t h)
  | _ :: s, t, _, _, _, h => by
    simp only [List.cons_append, remaining1] at h
    exact remaining1_byte s t h

theorem remaining4_acc (bs : List Byte) {a b : W64} (h : remaining4 a bs = remaining4 b bs) : a = b := by
  by_cases hl : bs.length < 4
  · rw [XXH.Proof.XXH64.remaining4_lt4 hl, XXH.Proof.XXH64.remaining4_lt4 hl] at h
    exact remaining1_acc bs h
  · match bs, hl with
    | [], hl | [_], hl | [_, _], hl | [_, _, _], hl => simp at hl
    | _ :: _ :: _ :: _ :: rest, _ =>
      simp only [remaining4] at h
      exact lane4_acc (remaining1_acc rest h)

theorem foldl_inj {α β : Type} (f : α → β → α) (hf : ∀ a b i, f a i = f b i → a = b) (l : List β) {a b : α}
    (h : l.foldl f a = l.foldl f b) : a = b := by
  induction l generalizing a b with
  | nil => exact h
  | cons i l ih => exact hf _ _ _ (ih h)

theorem remaining_acc (bs : List Byte) {a b : W64} (h : remaining a bs = remaining b bs) : a = b :=
  foldl_inj (fun acc i => lane8 acc (word64 bs i)) (fun _ _ _ h => lane8_acc h) _ (remaining4_acc _ h)

/-- A prefix of whole lanes. -/
theorem remaining_append : ∀ (m : Nat) (pre : List Byte), pre.length = 8*m → ∀ a : W64,
    ∃ b, ∀ rest, remaining a (pre ++ rest) = remaining b rest
  | 0, pre, h, a => by
    have : pre = [] := List.length_eq_zero_iff.mp (by omega)
    subst this
    exact ⟨a, fun _ => rfl⟩
  | m+1, pre, h, a => by
    obtain ⟨b, hb⟩ := remaining_append m (pre.drop 8) (by rw [List.length_drop]; omega)
      (XXH.Proof.XXH64.step8 a (u64 (pre.take 8)))
    refine ⟨b, fun r => ?_⟩
    rw [← hb, ← XXH.Proof.XXH64.remaining_append (pre.take 8) _ (by rw [List.length_take]; omega), ← List.append_assoc,
      List.take_append_drop]

section
variable {pre x y post : List Byte}

theorem remaining_lane8 (hp : 8 ∣ pre.length) (hx : x.length = 8) (hy : y.length = 8)
    {a : W64} (h : remaining a (pre ++ x ++ post) = remaining a (pre ++ y ++ post)) : x = y := by
  obtain ⟨m, hm⟩ := hp
  obtain ⟨b, hb⟩ := remaining_append m pre hm a
  rw [List.append_assoc, List.append_assoc, hb, hb, XXH.Proof.XXH64.remaining_append _ _ hx, XXH.Proof.XXH64.remaining_append _ _ hy] at h
  exact u64_inj hx hy (lane8_lane (remaining_acc post h))

theorem remaining_lane4 (hp : 8 ∣ pre.length) (hx : x.length = 4) (hy : y.length = 4) (hr : post.length < 4)
    {a : W64} (h : remaining a (pre ++ x ++ post) = remaining a (pre ++ y ++ post)) : x = y := by
  obtain ⟨m, hm⟩ := hp
  obtain ⟨b, hb⟩ := remaining_append m pre hm a
  rw [List.append_assoc, List.append_assoc, hb, hb, XXH.Proof.XXH64.remaining_lt8 (by rw [List.length_append]; omega),
    XXH.Proof.XXH64.remaining_lt8 (by rw [List.length_append]; omega)] at h
  match x, y, hx, hy with
  | [x0, x1, x2, x3], [y0, y1, y2, y3], hx, hy =>
    simp only [List.cons_append, List.nil_append, remaining4] at h
    exact u32_inj hx hy (lane4_lane (remaining1_acc post h))

theorem remaining_byte {c d : Byte} (hp : (pre.length + 1 + post.length)/4*4 ≤ pre.length)
    {a : W64} (h : remaining a (pre ++ [c] ++ post) = remaining a (pre ++ [d] ++ post)) : c = d := by
  have hsplit : pre = pre.take (pre.length/8*8) ++ pre.drop (pre.length/8*8) := (List.take_append_drop _ _).symm
  obtain ⟨b, hb⟩ := remaining_append (pre.length/8) (pre.take (pre.length/8*8))
    (by rw [List.length_take]; omega) a
  obtain ⟨r, hr⟩ : ∃ r, r = pre.drop (pre.length/8*8) := ⟨_, rfl⟩
  have hrl : r.length = pre.length % 8 := by rw [hr, List.length_drop]; omega
  rw [hsplit, ← hr, List.append_assoc, List.append_assoc, List.append_assoc, List.append_assoc, hb, hb,
    ← List.append_assoc, ← List.append_assoc,
    XXH.Proof.XXH64.remaining_lt8 (by simp only [List.length_append, List.length_cons, List.length_nil]; omega),
    XXH.Proof.XXH64.remaining_lt8 (by simp only [List.length_append, List.length_cons, List.length_nil]; omega)] at h
  by_cases h4 : r.length < 4
  · rw [XXH.Proof.XXH64.remaining4_lt4 (by simp only [List.length_append, List.length_cons, List.length_nil]; omega),
      XXH.Proof.XXH64.remaining4_lt4 (by simp only [List.length_append, List.length_cons, List.length_nil]; omega)] at h
    exact remaining1_byte _ _ h
  · match r, h4 with
    | [], h4 | [_], h4 | [_, _], h4 | [_, _, _], h4 => simp at h4
    | _ :: _ :: _ :: _ :: r, _ =>
      simp only [List.cons_append, remaining4] at h
      exact remaining1_byte _ _ h

theorem stripes_congr (a : Accs) {m m' : List Byte} {n : Nat}
    (h : ∀ i, i < n → slice m (32*i) (32*i+32) = slice m' (32*i) (32*i+32)) : stripes a m n = stripes a m' n := by
  induction n with
  | zero => simp only [stripes, List.range_zero, List.foldl_nil]
  | succ n ih =>
    have := ih (fun i hi => h i (by omega))
    simp only [stripes] at this ⊢
    simp only [List.range_succ, List.foldl_append, List.foldl_cons, List.foldl_nil]
    rw [this, h n (by omega)]

/-- A change in the bytes after the last stripe reaches the tail function. -/
theorem hash_tail (hxy : x.length = y.length)
    (hp : (pre.length + x.length + post.length)/32*32 ≤ pre.length) {seed : W64}
    (h : XXH64.hash (pre ++ x ++ post) seed = XXH64.hash (pre ++ y ++ post) seed) :
    ∃ a, remaining a (pre.drop ((pre.length + x.length + post.length)/32*32) ++ x ++ post) =
      remaining a (pre.drop ((pre.length + x.length + post.length)/32*32) ++ y ++ post) := by
  have hl : (pre ++ y ++ post).length = (pre ++ x ++ post).length := by
    simp only [List.length_append]; omega
  simp only [XXH.Spec.XXH64.hash, hl] at h
  replace h := avalanche_inj h
  obtain ⟨L, hL⟩ : ∃ L, L = (pre ++ x ++ post).length := ⟨_, rfl⟩
  have hL' : L = pre.length + x.length + post.length := by rw [hL]; simp only [List.length_append]
  rw [← hL'] at hp ⊢
  rw [← hL] at h
  have e : stripes (init seed) (pre ++ x ++ post) (L/32) = stripes (init seed) (pre ++ y ++ post) (L/32) := by
    apply stripes_congr
    intro i hi
    rw [slice_pre (by omega), slice_pre (by omega)]
  rw [e, drop_pre hp, drop_pre hp] at h
  exact ⟨_, h⟩

end

/-- Distinct seeds, short input. -/
theorem hash_seed {m : List Byte} (hl : m.length < 32) {s t : W64} (h : XXH64.hash m s = XXH64.hash m t) : s = t := by
  simp only [XXH.Spec.XXH64.hash, if_pos hl] at h
  exact add_right (add_right (remaining_acc _ (avalanche_inj h)))

end X64

end XXH.Inj
