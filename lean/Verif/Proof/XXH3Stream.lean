import Verif.Proof.XXH3Stripes
import Verif.Proof.Generate
/-!
XXH3 streaming: the invariant of the state and its preservation by update, digest, copy and resets.
-/
namespace XXH
open Model Spec Model.Simd SimdP

namespace XXH3P
open Model.XXH3 (State)

theorem getD_append (xs ys : List Byte) (j : Nat) :
    (xs ++ ys).getD j 0 = if j < xs.length then xs.getD j 0 else ys.getD (j - xs.length) 0 := by
  simp only [List.getD_eq_getElem?_getD]
  split
  · rw [List.getElem?_append_left (by assumption)]
  · rw [List.getElem?_append_right (by omega)]

theorem assert_of {p : Bool} (h : p = true) : assert p = some () := by rw [h]; rfl

theorem slice_ext {xs ys : List Byte} {a b n : Nat} (hx : a + n ≤ xs.length) (hy : b + n ≤ ys.length)
    (h : ∀ j, j < n → xs.getD (a+j) 0 = ys.getD (b+j) 0) : slice xs a (a+n) = slice ys b (b+n) := by
  apply list_ext_getD
  · rw [slice_length hx, slice_length hy]; omega
  · intro j hj
    rw [slice_length hx] at hj
    rw [slice_getD _ _ _ _ (by omega), slice_getD _ _ _ _ (by omega)]
    exact h j (by omega)

/-- What the fields that no update touches say: the secret in use and its size. -/
structure Params (sec : List Byte) (s : State) : Prop where
  typed : s.Typed
  secret : Holds s.secret sec
  secLen : 136 ≤ sec.length
  limit : s.secretLimit = sec.length - 64
  perBlock : s.nbStripesPerBlock = Spec.XXH3.stripesPerBlock sec

/-- The 64 bytes before the consumed position are kept at the end of the buffer, where the buffered
data has not overwritten them. -/
def Tail (msg : List Byte) (k : Nat) (buffer : List Byte) (n : Nat) : Prop :=
  ∀ j, 192 ≤ j → j < 256 → n ≤ j → buffer.getD j 0 = msg.getD (k*64+j-256) 0

/-- `k` stripes of `msg` are consumed, the rest is in the buffer. -/
structure Buffered (sec msg : List Byte) (k : Nat) (s : State) : Prop where
  acc : s.acc = accAfter sec msg k
  soFar : s.nbStripesSoFar = k % Spec.XXH3.stripesPerBlock sec
  size : k*64 + s.bufferedSize.toNat = msg.length
  le : s.bufferedSize.toNat ≤ 256
  data : ∀ j, j < s.bufferedSize.toNat → s.buffer.getD j 0 = msg.getD (k*64+j) 0
  pos : 0 < k → 4 ≤ k ∧ 0 < s.bufferedSize.toNat
  tail : 0 < k → Tail msg k s.buffer s.bufferedSize.toNat

section
variable {cfg : Cfg} (hc : cfg.Valid) {facc : Model.XXH3.FAccumulate} {fscr : Scramble} (ha : AccOK cfg.accAlign facc) (hf : ScrOK cfg.accAlign fscr)
  {s : State} {b : Buf} {sec msg x : List Byte} (hp : Params sec s)

theorem accAddr_ok (hp : Params sec s) (hc : cfg.Valid) (acc : Acc) (buffer : List Byte) (n : W32) (t : W64) (m : Nat) :
    Model.XXH3.accAddrOf cfg { s with acc := acc, buffer := buffer, bufferedSize := n, totalLen := t, nbStripesSoFar := m }
      % cfg.accAlign = 0 := by
  unfold Model.XXH3.accAddrOf
  split
  · exact hc.acc
  · exact SimdP.accAlign_ok hp.typed.align

include hc ha hf hp in
/-- `if (state->bufferedSize) ...` -/
theorem updateFill_eq {k : Nat} (hb : Holds b x) (hB : Buffered sec msg k s)
    (hx : 256 - s.bufferedSize.toNat < x.length) :
    ∃ (k' io : Nat) (buf : List Byte), buf.length = 256 ∧ io < x.length ∧ k'*64 = msg.length + io ∧
      (k' = 0 ∨ 4 ≤ k' ∧ Tail (msg ++ x) k' buf 0) ∧
      Model.XXH3.updateFill cfg s b facc fscr = some ({ s with
        acc := accAfter sec (msg ++ x) k', nbStripesSoFar := k' % Spec.XXH3.stripesPerBlock sec,
        buffer := buf, bufferedSize := 0 }, io) := by
  have hsz := hB.size
  have hle := hB.le
  have hlen : s.buffer.length = 256 := hp.typed.buffer
  unfold Model.XXH3.updateFill
  by_cases hz : s.bufferedSize = 0
  · rw [if_neg (by simpa using hz)]
    have hz' : s.bufferedSize.toNat = 0 := by rw [hz]; rfl
    have hk : k = 0 := by
      by_contra hk
      have := (hB.pos (by omega)).2
      omega
    subst hk
    refine ⟨0, 0, s.buffer, hlen, by omega, by omega, .inl rfl, ?_⟩
    have h1 := hB.acc
    have h2 := hB.soFar
    have e : accAfter sec (msg ++ x) 0 = s.acc := h1.symm
    rw [e, ← h2, ← hz]
    rfl
  · rw [if_pos (by simpa using hz)]
    have hz' : 0 < s.bufferedSize.toNat := by
      rcases Nat.eq_zero_or_pos s.bufferedSize.toNat with h | h
      · exact absurd (BitVec.eq_of_toNat_eq h) hz
      · exact h
    obtain ⟨n, hn⟩ : ∃ n, n = s.bufferedSize.toNat := ⟨_, rfl⟩
    have hI : Model.XXH3.INTERNALBUFFER_SIZE = 256 := rfl
    simp only [hI, ← hn]
    rw [← hn] at hsz hle hz' hx
    have hr : readBytes b 0 (256 - n) = some (slice x 0 (256 - n)) := by
      have := hb.readBytes (off := 0) (n := 256 - n) (by omega)
      rwa [Nat.zero_add] at this
    have hsl : (slice x 0 (256 - n)).length = 256 - n := by rw [slice_length (by omega)]; omega
    rw [hr]
    simp only [Option.bind_eq_bind, Option.bind_some]
    rw [writeBytes_eq (by rw [hsl]; omega), Option.bind_some]
    obtain ⟨buf, hbuf⟩ : ∃ buf, buf = s.buffer.take n ++ slice x 0 (256 - n) ++
      s.buffer.drop (n + (slice x 0 (256 - n)).length) := ⟨_, rfl⟩
    have hbl : buf.length = 256 := by
      rw [hbuf]
      simp only [List.length_append, List.length_take, List.length_drop, hsl]; omega
    have hbg : ∀ j, j < 256 → buf.getD j 0 = (msg ++ x).getD (k*64 + j) 0 := by
      intro j hj
      rw [hbuf, splice_getD _ _ _ _ (by rw [hsl]; omega), hsl, getD_append]
      by_cases hjn : j < n
      · rw [if_neg (by omega), if_pos (by omega)]
        exact hB.data j (by omega)
      · rw [if_pos (by omega), if_neg (by omega), slice_getD _ _ _ _ (by omega)]
        congr 1
        omega
    rw [← hbuf]
    have hst : SameStripes buf 0 (msg ++ x) k 4 := by
      apply SameStripes.of_slice
      apply slice_ext (by omega) (by rw [List.length_append]; omega)
      intro j hj
      rw [Nat.zero_add]
      exact hbg j (by omega)
    have hacc : s.acc = accAfter sec (msg ++ x) k := by
      rw [hB.acc, accAfter_append _ _ _ _ (by omega)]
    have hcs := consumeStripes_eq ha hf (Holds.self ⟨s.addr + 256, buf⟩) hp.secret hp.secLen
      (accAddr_ok hp hc s.acc buf s.bufferedSize s.totalLen s.nbStripesSoFar) (nb := 4) (io := 0) (k := k)
      (msg := msg ++ x) (by simp only; omega) hst
    rw [← hacc, ← hB.soFar, ← hp.limit, ← hp.perBlock] at hcs
    refine ⟨k + 4, 256 - n, buf, hbl, by omega, by omega, .inr ⟨by omega, ?_⟩, ?_⟩
    · intro j h1 h2 _
      have e : (k+4)*64 + j - 256 = k*64 + j := by omega
      rw [hbg j h2, e]
    · have hcs' : Model.XXH3.consumeStripes (Model.XXH3.accAddrOf cfg { s with buffer := buf }) s.acc
          s.nbStripesSoFar s.nbStripesPerBlock (Model.XXH3.State.bufferObj { s with buffer := buf }) 0 (256 / 64)
          (Model.XXH3.State.secret { s with buffer := buf }) s.secretLimit facc fscr = _ := hcs
      rw [hcs', Option.bind_some, ← hp.perBlock]
      rfl

include hc ha hf hp in
/-- `if (bEnd - input > XXH3_INTERNALBUFFER_SIZE) ...` -/
theorem updateBulk_eq {k io : Nat} (hb : Holds b x) (hacc : s.acc = accAfter sec (msg ++ x) k)
    (hso : s.nbStripesSoFar = k % Spec.XXH3.stripesPerBlock sec) (hk : k*64 = msg.length + io)
    (hio : io < x.length) (ht : k = 0 ∨ 4 ≤ k ∧ Tail (msg ++ x) k s.buffer 0) :
    ∃ (k' io' : Nat) (buf : List Byte), buf.length = 256 ∧ io' < x.length ∧ x.length ≤ io' + 256 ∧
      k'*64 = msg.length + io' ∧ (k' = 0 ∨ 4 ≤ k' ∧ Tail (msg ++ x) k' buf 0) ∧
      Model.XXH3.updateBulk cfg s b io x.length facc fscr = some ({ s with
        acc := accAfter sec (msg ++ x) k', nbStripesSoFar := k' % Spec.XXH3.stripesPerBlock sec,
        buffer := buf }, io') := by
  have hlen : s.buffer.length = 256 := hp.typed.buffer
  unfold Model.XXH3.updateBulk
  have hI : Model.XXH3.INTERNALBUFFER_SIZE = 256 := rfl
  simp only [hI]
  by_cases hbig : 256 < x.length - io
  · rw [if_pos hbig]
    obtain ⟨nb, hnb⟩ : ∃ nb, nb = (x.length - 1 - io) / 64 := ⟨_, rfl⟩
    have hnb1 : 4 ≤ nb := by omega
    have hnb2 : io + 64*nb < x.length := by omega
    have hnb3 : x.length ≤ io + 64*nb + 64 := by omega
    rw [← hnb]
    have hst : SameStripes x io (msg ++ x) k nb := by
      apply SameStripes.of_slice
      apply slice_ext (by omega) (by rw [List.length_append]; omega)
      intro j hj
      rw [getD_append, if_neg (by omega)]
      congr 1
      omega
    have hcs := consumeStripes_eq ha hf hb hp.secret hp.secLen
      (accAddr_ok hp hc s.acc s.buffer s.bufferedSize s.totalLen s.nbStripesSoFar) (by omega) hst
    rw [← hacc, ← hso, ← hp.limit, ← hp.perBlock] at hcs
    have hcs' : Model.XXH3.consumeStripes (Model.XXH3.accAddrOf cfg s) s.acc
          s.nbStripesSoFar s.nbStripesPerBlock b io nb s.secret s.secretLimit facc fscr = _ := hcs
    have hr : readBytes b (io + 64*nb - 64) 64 = some (slice x (io + 64*nb - 64) (io + 64*nb - 64 + 64)) :=
      hb.readBytes (by omega)
    have hsl : (slice x (io + 64*nb - 64) (io + 64*nb - 64 + 64)).length = 64 := by
      rw [slice_length (by omega)]; omega
    simp only [Option.bind_eq_bind]
    rw [hcs', Option.bind_some]
    simp only []
    rw [hr, Option.bind_some, writeBytes_eq (by rw [hsl]; omega), Option.bind_some, ← hp.perBlock]
    refine ⟨k + nb, io + 64*nb, _, ?_, hnb2, by omega, by omega, .inr ⟨by omega, ?_⟩, rfl⟩
    · simp only [List.length_append, List.length_take, List.length_drop, hsl]; omega
    · intro j h1 h2 _
      rw [splice_getD _ _ _ _ (by rw [hsl]; omega), hsl, if_pos (by omega), slice_getD _ _ _ _ (by omega),
        getD_append, if_neg (by omega)]
      have e : io + 64*nb - 64 + (j - (256 - 64)) = (k+nb)*64 + j - 256 - msg.length := by omega
      rw [e]
  · rw [if_neg hbig]
    refine ⟨k, io, s.buffer, hlen, hio, by omega, hk, ht, ?_⟩
    rw [← hacc, ← hso]
    rfl

/-- The final part of `XXH3_update`. -/
theorem updateRest_eq {k io : Nat} (hb : Holds b x) (hlen : s.buffer.length = 256) (hz : s.bufferedSize = 0)
    (hacc : s.acc = accAfter sec (msg ++ x) k)
    (hso : s.nbStripesSoFar = k % Spec.XXH3.stripesPerBlock sec) (hk : k*64 = msg.length + io)
    (hio : io < x.length) (hle : x.length ≤ io + 256) (ht : k = 0 ∨ 4 ≤ k ∧ Tail (msg ++ x) k s.buffer 0) :
    ∃ (buf : List Byte), buf.length = 256 ∧
      Model.XXH3.updateRest s b io x.length = some { s with
        buffer := buf, bufferedSize := BitVec.ofNat 32 (x.length - io) } ∧
      Buffered sec (msg ++ x) k { s with
        buffer := buf, bufferedSize := BitVec.ofNat 32 (x.length - io) } := by
  have hI : Model.XXH3.INTERNALBUFFER_SIZE = 256 := rfl
  have hr : readBytes b io (x.length - io) = some (slice x io (io + (x.length - io))) :=
    hb.readBytes (by omega)
  have hsl : (slice x io (io + (x.length - io))).length = x.length - io := by
    rw [slice_length (by omega)]; omega
  have hn : (BitVec.ofNat 32 (x.length - io)).toNat = x.length - io := by
    rw [BitVec.toNat_ofNat]; apply Nat.mod_eq_of_lt; omega
  unfold Model.XXH3.updateRest
  simp only [hI]
  rw [assert_of (by simpa using hio), assert_of (by simp; omega), assert_of (by simp [hz]), hr]
  simp only [Option.bind_eq_bind, Option.bind_some]
  rw [writeBytes_eq (by rw [hsl]; omega), Option.bind_some]
  refine ⟨_, ?_, rfl, ⟨hacc, hso, ?_, ?_, ?_, ?_, ?_⟩⟩
  · simp only [List.length_append, List.length_take, List.length_drop, hsl]; omega
  · simp only [hn, List.length_append]; omega
  · simp only [hn]; omega
  · simp only [hn]
    intro j hj
    rw [splice_getD _ _ _ _ (by rw [hsl]; omega), hsl, if_pos (by omega), slice_getD _ _ _ _ (by omega),
      getD_append, if_neg (by omega)]
    congr 1
    omega
  · simp only [hn]
    intro h0
    rcases ht with h | h
    · omega
    · omega
  · simp only [hn]
    intro h0 j h1 h2 h3
    rcases ht with h | h
    · omega
    · rw [splice_getD _ _ _ _ (by rw [hsl]; omega), hsl, if_neg (by omega)]
      exact h.2 j h1 h2 (by omega)

theorem Params.with_buffer (hp : Params sec s) {buf : List Byte} (h : buf.length = 256) (acc : Acc) (n : W32)
    (t : W64) (m : Nat) : Params sec { s with acc := acc, buffer := buf, bufferedSize := n, totalLen := t, nbStripesSoFar := m } :=
  ⟨⟨hp.typed.align, hp.typed.custom, h⟩, hp.secret, hp.secLen, hp.limit, hp.perBlock⟩

include hc ha hf hp in
/-- `XXH3_update` on data `x`: the state now represents `msg ++ x`. -/
theorem update_some_eq {k : Nat} (hb : b.bytes = x) (hB : Buffered sec msg k s) :
    ∃ (k' : Nat) (acc : Acc) (buf : List Byte) (n : W32) (m : Nat), buf.length = 256 ∧
      Model.XXH3.update cfg s (some b) x.length facc fscr = some ({ s with
        acc := acc, buffer := buf, bufferedSize := n, nbStripesSoFar := m,
        totalLen := s.totalLen + BitVec.ofNat 64 x.length }, .ok) ∧
      Buffered sec (msg ++ x) k' { s with
        acc := acc, buffer := buf, bufferedSize := n, nbStripesSoFar := m,
        totalLen := s.totalLen + BitVec.ofNat 64 x.length } := by
  have hI : Model.XXH3.INTERNALBUFFER_SIZE = 256 := rfl
  have hlen : s.buffer.length = 256 := hp.typed.buffer
  have hH : Holds b x := by rw [← hb]; exact Holds.self b
  have hle := hB.le
  have hsz := hB.size
  unfold Model.XXH3.update
  simp only [hI]
  rw [assert_of (by simpa using hle)]
  simp only [Option.bind_eq_bind, Option.bind_some]
  by_cases hsm : x.length ≤ 256 - s.bufferedSize.toNat
  · rw [if_pos hsm]
    have hr : readBytes b 0 x.length = some x := by
      have := hH.readBytes (off := 0) (n := x.length) (by omega)
      rw [Nat.zero_add] at this
      rw [this, slice_all _ _ (Nat.le_refl _)]
    have hn : (s.bufferedSize + BitVec.ofNat 32 x.length).toNat = s.bufferedSize.toNat + x.length := by
      rw [BitVec.toNat_add, BitVec.toNat_ofNat]; omega
    rw [hr, Option.bind_some, writeBytes_eq (by omega), Option.bind_some]
    refine ⟨k, s.acc, _, _, s.nbStripesSoFar, ?_, rfl, ⟨?_, hB.soFar, ?_, ?_, ?_, ?_, ?_⟩⟩
    · simp only [List.length_append, List.length_take, List.length_drop]; omega
    · simp only
      rw [hB.acc, accAfter_append _ _ _ _ (by omega)]
    · simp only [hn, List.length_append]; omega
    · simp only [hn]; omega
    · simp only [hn]
      intro j hj
      rw [splice_getD _ _ _ _ (by omega), getD_append]
      by_cases hjn : j < s.bufferedSize.toNat
      · rw [if_neg (by omega), if_pos (by omega)]
        exact hB.data j hjn
      · rw [if_pos (by omega), if_neg (by omega)]
        congr 1
        omega
    · simp only [hn]
      intro h0
      have := hB.pos h0
      omega
    · simp only [hn]
      intro h0 j h1 h2 h3
      have := hB.pos h0
      rw [splice_getD _ _ _ _ (by omega), if_neg (by omega), getD_append, if_pos (by omega)]
      exact hB.tail h0 j h1 h2 (by omega)
  · rw [if_neg hsm]
    have hp1 : Params sec { s with totalLen := s.totalLen + BitVec.ofNat 64 x.length } :=
      hp.with_buffer hlen s.acc s.bufferedSize _ s.nbStripesSoFar
    have hB1 : Buffered sec msg k { s with totalLen := s.totalLen + BitVec.ofNat 64 x.length } :=
      ⟨hB.acc, hB.soFar, hB.size, hB.le, hB.data, hB.pos, hB.tail⟩
    obtain ⟨k1, io1, buf1, hl1, hio1, hk1, ht1, he1⟩ := updateFill_eq (cfg := cfg) hc ha hf hp1 hH hB1 (by simp only; omega)
    rw [he1, Option.bind_some]
    simp only []
    rw [assert_of (by simpa using hio1), Option.bind_some]
    have hp2 := hp1.with_buffer hl1 (accAfter sec (msg ++ x) k1) 0 (s.totalLen + BitVec.ofNat 64 x.length)
      (k1 % Spec.XXH3.stripesPerBlock sec)
    obtain ⟨k2, io2, buf2, hl2, hio2, hle2, hk2, ht2, he2⟩ := updateBulk_eq (cfg := cfg) hc ha hf hp2 hH rfl rfl hk1 hio1 ht1
    simp only [] at he2
    rw [he2, Option.bind_some]
    simp only []
    obtain ⟨buf3, hl3, he3, hB3⟩ := updateRest_eq (s := { s with
      acc := accAfter sec (msg ++ x) k2, nbStripesSoFar := k2 % Spec.XXH3.stripesPerBlock sec, buffer := buf2,
      bufferedSize := 0, totalLen := s.totalLen + BitVec.ofNat 64 x.length }) (sec := sec) hH hl2 rfl rfl rfl hk2 hio2 hle2 ht2
    simp only [] at he3
    rw [he3, Option.bind_some]
    exact ⟨k2, _, buf3, _, _, hl3, rfl, hB3⟩

/-- The accumulators after the whole message. -/
theorem catchup_eq {k : Nat} (hp : Params sec s) (hB : Buffered sec msg k s) (hk : 0 < k)
    (hs : s.bufferedSize.toNat < 64) :
    Model.XXH3.catchup s = some (slice msg (msg.length - 64) msg.length) := by
  have hI : Model.XXH3.INTERNALBUFFER_SIZE = 256 := rfl
  have hlen : s.buffer.length = 256 := hp.typed.buffer
  have hpos := (hB.pos hk).2
  have hk4 := (hB.pos hk).1
  have hsz := hB.size
  have hdata := hB.data
  have htail := hB.tail hk
  unfold Model.XXH3.catchup
  generalize s.bufferedSize.toNat = n at *
  simp only [hI]
  have hH : Holds s.bufferObj s.buffer := Holds.self ⟨s.addr + 256, s.buffer⟩
  have r1 : readBytes s.bufferObj (256 - (64 - n)) (64 - n) = some (slice s.buffer (256 - (64 - n)) (256 - (64 - n) + (64 - n))) :=
    hH.readBytes (by omega)
  have r2 : readBytes s.bufferObj 0 n = some (slice s.buffer 0 n) := by
    have := hH.readBytes (off := 0) (n := n) (by omega)
    rwa [Nat.zero_add] at this
  have l1 : (slice s.buffer (256 - (64 - n)) (256 - (64 - n) + (64 - n))).length = 64 - n := by
    rw [slice_length (by omega)]; omega
  have l2 : (slice s.buffer 0 n).length = n := by
    rw [slice_length (by omega)]; omega
  rw [assert_of (by simpa using hpos), r1, r2]
  simp only [Option.bind_eq_bind, Option.bind_some]
  rw [writeBytes_eq (by rw [l1, List.length_replicate]; omega), Option.bind_some]
  have l3 : ((List.replicate 64 (0xA5 : Byte)).take 0 ++ slice s.buffer (256 - (64 - n)) (256 - (64 - n) + (64 - n)) ++
      (List.replicate 64 (0xA5 : Byte)).drop (0 + (slice s.buffer (256 - (64 - n)) (256 - (64 - n) + (64 - n))).length)).length = 64 := by
    simp only [List.length_append, List.length_take, List.length_drop, l1, List.length_replicate]; omega
  rw [writeBytes_eq (by rw [l2, l3]; omega)]
  congr 1
  apply list_ext_getD
  · rw [slice_length (Nat.le_refl _), List.length_append, List.length_append, List.length_take, List.length_drop, l2, l3]
    omega
  · intro j hj
    rw [List.length_append, List.length_append, List.length_take, List.length_drop, l2, l3] at hj
    rw [splice_getD _ _ _ _ (by rw [l2, l3]; omega), l2, slice_getD _ _ _ _ (by omega)]
    by_cases hjn : j < 64 - n
    · rw [if_neg (by omega), splice_getD _ _ _ _ (by rw [l1, List.length_replicate]; omega), l1, if_pos (by omega),
        slice_getD _ _ _ _ (by omega), htail _ (by omega) (by omega) (by omega)]
      have e : k*64 + (256 - (64 - n) + (j - 0)) - 256 = msg.length - 64 + j := by omega
      rw [e, slice_getD _ _ _ _ (by omega)]
    · rw [if_pos (by omega), slice_getD _ _ _ _ (by omega), hdata _ (by omega)]
      have e : k*64 + (0 + (j - (64 - n))) = msg.length - 64 + j := by omega
      rw [e]

theorem digest_long_eq {k : Nat} (hc : cfg.Valid) (hp : Params sec s) (hB : Buffered sec msg k s)
    (hL : 240 < msg.length) :
    Model.XXH3.digest_long cfg s s.secret = some (Spec.XXH3.longAccs msg sec) := by
  have hlen : s.buffer.length = 256 := hp.typed.buffer
  have hsz := hB.size
  have hle := hB.le
  have hsl := hp.secLen
  have hH : Holds s.bufferObj s.buffer := Holds.self ⟨s.addr + 256, s.buffer⟩
  have ha0 := hc.acc
  have hlim : s.secretLimit - 7 = sec.length - 71 := by rw [hp.limit]; omega
  rw [longAccs_eq sec msg (by omega) (by omega)]
  unfold Model.XXH3.digest_long
  by_cases h64 : 64 ≤ s.bufferedSize.toNat
  · rw [if_pos h64]
    obtain ⟨nb, hnb⟩ : ∃ nb, nb = (s.bufferedSize.toNat - 1) / 64 := ⟨_, rfl⟩
    simp only [← hnb]
    have hst : SameStripes s.buffer 0 msg k nb := by
      apply SameStripes.of_slice
      apply slice_ext (by omega) (by omega)
      intro j hj
      rw [Nat.zero_add]
      exact hB.data j (by omega)
    have hcs := consumeStripes_eq (accOK hc) (scrOK hc) hH hp.secret hp.secLen ha0 (nb := nb) (io := 0) (k := k)
      (msg := msg) (by omega) hst
    have e : k + nb = (msg.length - 1) / 64 := by omega
    have e2 : slice s.buffer (s.bufferedSize.toNat - 64) (s.bufferedSize.toNat - 64 + 64) =
        slice msg (msg.length - 64) msg.length := by
      have : msg.length = msg.length - 64 + 64 := by omega
      rw [slice_ext (b := msg.length - 64) (ys := msg) (by omega) (by omega)]
      · rw [← this]
      · intro j hj
        rw [hB.data _ (by omega)]
        congr 1
        omega
    rw [hB.acc, hB.soFar, hp.limit, hp.perBlock, hcs]
    simp only [Option.bind_eq_bind, Option.bind_some]
    rw [← hp.limit, hlim, accumulate_512_eq hc hH hp.secret ha0 (by omega) (by omega), e2, e]
  · rw [if_neg h64]
    have hk : 0 < k := by omega
    have hpos := (hB.pos hk).2
    rw [catchup_eq hp hB hk (by omega)]
    simp only [Option.bind_eq_bind, Option.bind_some]
    have e : k = (msg.length - 1) / 64 := by omega
    have l : (slice msg (msg.length - 64) msg.length).length = 64 := by
      rw [slice_length (Nat.le_refl _)]; omega
    rw [hlim, accumulate_512_eq hc (Holds.self _) hp.secret ha0 (by simp only [l]; omega) (by omega), hB.acc, ← e,
      slice_all _ _ (by rw [l])]

/-- While nothing is consumed, the buffer holds the message. -/
theorem bufferObj_holds {k : Nat} (hp : Params sec s) (hB : Buffered sec msg k s) (hk : msg.length ≤ 256) :
    Holds s.bufferObj msg := by
  have hlen : s.buffer.length = 256 := hp.typed.buffer
  have hsz := hB.size
  have hk0 : k = 0 := by
    by_contra h
    have := hB.pos (by omega)
    omega
  subst hk0
  have e : msg = s.buffer.take msg.length := by
    apply list_ext_getD
    · rw [List.length_take]; omega
    · intro j hj
      have := hB.data j (by omega)
      rw [Nat.zero_mul, Nat.zero_add] at this
      rw [← this, List.getD_eq_getElem?_getD, List.getD_eq_getElem?_getD, List.getElem?_take, if_pos hj]
  show msg <+: s.buffer
  rw [e]
  exact List.take_prefix _ _

/-- What is known of any state between calls, whatever happened to it: the cached secret of a seeded
state is the one derived from the remembered seed. -/
structure Fresh (s : State) : Prop where
  typed : s.Typed
  cached : s.extSecret = none → s.seed ≠ 0 → s.customSecret = Spec.XXH3.deriveSecret s.seed

/-- The state was reset to use secret `sec`, and for short inputs the seed `us` if any, then fed `msg`. -/
structure Repr (sec : List Byte) (us : Option W64) (msg : List Byte) (s : State) : Prop where
  params : Params sec s
  buffered : ∃ k, Buffered sec msg k s
  total : s.totalLen = BitVec.ofNat 64 msg.length
  useSeed : s.useSeed = us.isSome
  seed : ∀ sd, us = some sd → s.seed = sd
  fresh : Fresh s

/-- `XXH3_update` for any correct back end. -/
theorem update_repr (hc : cfg.Valid) {facc : Model.XXH3.FAccumulate} {fscr : Scramble}
    (ha : AccOK cfg.accAlign facc) (hf : ScrOK cfg.accAlign fscr) {us : Option W64} {p : Ptr} {len : Nat} (h : Repr sec us msg s) (hp : p.buf.bytes.length = len) :
    ∃ s', Model.XXH3.update cfg s p len facc fscr = some (s', .ok) ∧ Repr sec us (msg ++ p.buf.bytes) s' := by
  cases p with
  | none =>
    have hl : len = 0 := hp.symm
    subst hl
    exact ⟨s, rfl, by simpa [Ptr.buf] using h⟩
  | some b =>
    have hl : b.bytes.length = len := hp
    subst hl
    obtain ⟨k, hB⟩ := h.buffered
    obtain ⟨k', acc, buf, n, m, h1, h2, h3⟩ := update_some_eq (cfg := cfg) hc ha hf h.params rfl hB
    refine ⟨_, h2, ⟨h.params.with_buffer h1 acc n _ m, ⟨k', h3⟩, ?_, h.useSeed, h.seed,
      ⟨⟨h.fresh.typed.align, h.fresh.typed.custom, h1⟩, h.fresh.cached⟩⟩⟩
    simp only [Ptr.buf, Option.getD_some]
    rw [h.total, List.length_append, BitVec.ofNat_add]

/-- The specified results. -/
def value64 (sec : List Byte) (us : Option W64) (msg : List Byte) : W64 :=
  if msg.length ≤ 240 then
    match us with
    | some sd => Spec.XXH3.XXH3_64_withSeed msg sd
    | none => Spec.XXH3.XXH3_64_withSecret msg sec
  else Spec.XXH3.large64 msg sec

@[inherit_doc value64]
def value128 (sec : List Byte) (us : Option W64) (msg : List Byte) : H128 :=
  if msg.length ≤ 240 then
    match us with
    | some sd => Spec.XXH3.XXH3_128_withSeed msg sd
    | none => Spec.XXH3.XXH3_128_withSecret msg sec
  else Spec.XXH3.large128 msg sec

theorem total_toNat {us : Option W64} (h : Repr sec us msg s) (hL : msg.length < 2^64) :
    s.totalLen.toNat = msg.length := by
  rw [h.total, BitVec.toNat_ofNat, Nat.mod_eq_of_lt hL]

theorem size_small (hc : cfg.Valid) {n : Nat} (h : n ≤ 240) : cfg.size n = n := by
  apply Nat.mod_eq_of_lt
  have : 2^16 ≤ 2 ^ cfg.sizeBits := Nat.pow_le_pow_right (by decide) hc.sizeLo
  omega

theorem digest64_repr (hc : cfg.Valid) {us : Option W64} (h : Repr sec us msg s) (hL : msg.length < 2^64) :
    Model.XXH3.bits64_digest cfg s = some (value64 sec us msg) := by
  obtain ⟨k, hB⟩ := h.buffered
  have hp := h.params
  have hsl := hp.secLen
  have hM : Model.XXH3.MIDSIZE_MAX = 240 := rfl
  unfold Model.XXH3.bits64_digest value64
  simp only [hM, total_toNat h hL]
  by_cases hbig : msg.length ≤ 240
  · rw [if_neg (by omega), if_pos hbig, size_small hc hbig]
    have hH := bufferObj_holds hp hB (by omega)
    cases us with
    | none =>
      rw [h.useSeed, hp.limit, show sec.length - 64 + 64 = sec.length by omega]
      exact bits64_withSecret_eq hc hH rfl rfl hp.secret hsl
    | some sd =>
      rw [h.useSeed, h.seed sd rfl]
      exact bits64_withSeed_eq hc hH rfl sd
  · rw [if_pos (by omega), if_neg hbig, digest_long_eq hc hp hB (by omega)]
    simp only [Option.bind_eq_bind, Option.bind_some]
    rw [mergeAccs_eq hc hp.secret _ (by omega), h.total]
    rfl

theorem digest128_repr (hc : cfg.Valid) {us : Option W64} (h : Repr sec us msg s) (hL : msg.length < 2^64) :
    Model.XXH3.bits128_digest cfg s = some (value128 sec us msg) := by
  obtain ⟨k, hB⟩ := h.buffered
  have hp := h.params
  have hsl := hp.secLen
  have hM : Model.XXH3.MIDSIZE_MAX = 240 := rfl
  unfold Model.XXH3.bits128_digest value128
  simp only [hM, total_toNat h hL]
  by_cases hbig : msg.length ≤ 240
  · rw [if_neg (by omega), if_pos hbig, size_small hc hbig]
    have hH := bufferObj_holds hp hB (by omega)
    cases us with
    | none =>
      rw [h.useSeed, hp.limit, show sec.length - 64 + 64 = sec.length by omega]
      exact bits128_withSecret_eq hc hH rfl rfl hp.secret hsl
    | some sd =>
      rw [h.useSeed, h.seed sd rfl]
      exact bits128_withSeed_eq hc hH rfl sd
  · rw [if_pos (by omega), if_neg hbig, digest_long_eq hc hp hB (by omega)]
    have e : s.secretLimit + 64 - 64 - 11 = sec.length - 75 := by rw [hp.limit]; omega
    simp only [Option.bind_eq_bind, Option.bind_some]
    rw [assert_of (by simp [hp.limit]; omega), Option.bind_some, mergeAccs_eq hc hp.secret _ (by omega),
      Option.bind_some, e, mergeAccs_eq hc hp.secret _ (by omega), h.total]
    rfl

/-- A state that `XXH3_reset_internal` has just set up. -/
theorem reset_internal_repr (hF : s.Typed) (seed : W64) {q : Ptr} {size : Nat} (us : Option W64)
    (hs : 136 ≤ size) (hl : sec.length = size)
    (hsec : Holds (Model.XXH3.State.secret { s with extSecret := q }) sec)
    (hcache : q = none → seed ≠ 0 → s.customSecret = Spec.XXH3.deriveSecret seed)
    (husd : ∀ sd, us = some sd → seed = sd) :
    ∃ s', Model.XXH3.reset_internal (some s) seed q size = some s' ∧ s'.useSeed = decide (seed ≠ 0) ∧
      Repr sec us [] { s' with useSeed := us.isSome } := by
  unfold Model.XXH3.reset_internal
  rw [show assert (decide (Model.XXH3.SECRET_SIZE_MIN ≤ size)) = some () from
    assert_of (decide_eq_true hs)]
  simp only [Option.bind_eq_bind, Option.bind_some]
  refine ⟨_, rfl, rfl, ⟨⟨⟨hF.align, hF.custom, hF.buffer⟩, hsec, by omega, ?_, ?_⟩,
    ⟨0, ⟨?_, ?_, rfl, Nat.zero_le _, ?_, ?_, ?_⟩⟩, rfl, rfl, husd, ⟨⟨hF.align, hF.custom, hF.buffer⟩, hcache⟩⟩⟩
  · simp only [hl]
  · simp only [Spec.XXH3.stripesPerBlock, hl]
  · rfl
  · simp
  · intro j hj; simp at hj
  · intro h; omega
  · intro h; omega

theorem Repr.congr_useSeed {us : Option W64} {b' : Bool} (hb : b' = us.isSome)
    (h : Repr sec us msg { s with useSeed := us.isSome }) : Repr sec us msg { s with useSeed := b' } := by
  rw [hb]; exact h

/-- `XXH3_64bits_reset` -/
theorem reset_repr (hF : s.Typed) (cfg : Cfg) : ∃ s', Model.XXH3.reset cfg (some s) = some (some s', .ok) ∧
    Repr Spec.XXH3.defaultSecret none [] s' := by
  obtain ⟨s', h1, h2, h3⟩ := reset_internal_repr (sec := Spec.XXH3.defaultSecret) hF 0
    (q := some (Model.XXH3.kSecret cfg)) (size := Model.XXH3.SECRET_DEFAULT_SIZE) none (by decide)
    (by rw [default_length]; rfl) (kSecret_holds cfg) (by simp) (by simp)
  refine ⟨s', ?_, ?_⟩
  · rw [Model.XXH3.reset, h1]; rfl
  · have e : s' = { s' with useSeed := s'.useSeed } := rfl
    rw [e]
    exact Repr.congr_useSeed (by rw [h2]; decide) h3

/-- `XXH3_64bits_reset_withSecret` -/
theorem reset_withSecret_repr (hF : s.Typed) {q : Buf} {size : Nat} (hs : 136 ≤ size) (hl : q.bytes.length = size) :
    ∃ s', Model.XXH3.reset_withSecret (some s) (some q) size = some (some s', .ok) ∧ Repr q.bytes none [] s' := by
  obtain ⟨s', h1, h2, h3⟩ := reset_internal_repr (sec := q.bytes) hF 0
    (q := some q) (size := size) none hs hl (Holds.self q) (by simp) (by simp)
  refine ⟨s', ?_, ?_⟩
  · rw [Model.XXH3.reset_withSecret, h1]
    simp [show ¬ size < Model.XXH3.SECRET_SIZE_MIN from by unfold Model.XXH3.SECRET_SIZE_MIN; omega]
  · have e : s' = { s' with useSeed := s'.useSeed } := rfl
    rw [e]
    exact Repr.congr_useSeed (by rw [h2]; decide) h3

/-- `XXH3_64bits_reset_withSecretandSeed` -/
theorem reset_withSecretandSeed_repr (hF : s.Typed) {q : Buf} {size : Nat} (hs : 136 ≤ size)
    (hl : q.bytes.length = size) (seed : W64) :
    ∃ s', Model.XXH3.reset_withSecretandSeed (some s) (some q) size seed = some (some s', .ok) ∧
      Repr q.bytes (some seed) [] s' := by
  obtain ⟨s', h1, h2, h3⟩ := reset_internal_repr (sec := q.bytes) hF seed
    (q := some q) (size := size) (some seed) hs hl (Holds.self q) (by simp) (by simp)
  refine ⟨_, ?_, h3⟩
  simp [Model.XXH3.reset_withSecretandSeed, h1, show ¬ size < Model.XXH3.SECRET_SIZE_MIN from by
      unfold Model.XXH3.SECRET_SIZE_MIN; omega]

/-- `XXH3_64bits_reset_withSeed` with a nonzero seed -/
theorem reset_withSeed_repr (hc : cfg.Valid) (hF : Fresh s) {seed : W64} (h0 : seed ≠ 0) :
    ∃ s', Model.XXH3.reset_withSeed cfg (some s) seed = some (some s', .ok) ∧
      Repr (Spec.XXH3.deriveSecret seed) (some seed) [] s' := by
  have hF' : Fresh { s with customSecret := Spec.XXH3.deriveSecret seed, seed := seed } :=
    ⟨⟨hF.typed.align, derive_length seed, hF.typed.buffer⟩, fun _ _ => rfl⟩
  obtain ⟨s', h1, h2, h3⟩ := reset_internal_repr (sec := Spec.XXH3.deriveSecret seed) hF'.typed seed
    (q := none) (size := Model.XXH3.SECRET_DEFAULT_SIZE) (some seed) (by decide) (derive_length seed)
    (Holds.self ⟨s.addr + 64, _⟩) (fun _ _ => rfl) (by simp)
  refine ⟨s', ?_, ?_⟩
  · have h1' : Model.XXH3.reset_internal (some { s with customSecret := Spec.XXH3.deriveSecret seed }) seed none
        Model.XXH3.SECRET_DEFAULT_SIZE = some s' := h1
    simp only [Model.XXH3.reset_withSeed, if_neg h0, Option.bind_eq_bind]
    split
    · rw [initCustomSecret_eq hF.typed.custom seed hc (SimdP.secAlign_ok (by have := hF.typed.align; omega)), Option.bind_some, h1']
      rfl
    · rename_i h
      simp only [not_or, not_not, Bool.not_eq_true, Option.isSome_eq_false_iff, Option.isNone_iff_eq_none] at h
      have e : s.customSecret = Spec.XXH3.deriveSecret seed := by rw [h.1, hF.cached h.2 (h.1 ▸ h0)]
      rw [← e] at h1'
      rw [Option.bind_some, h1']
      rfl
  · have e : s' = { s' with useSeed := s'.useSeed } := rfl
    rw [e]
    exact Repr.congr_useSeed (by rw [h2]; simpa using h0) h3

/-- `XXH3_copyState` -/
theorem Fresh.copy {d : State} (hd : Fresh d) (hF : Fresh s) : Fresh (Model.XXH3.copyState d s) :=
  ⟨⟨hd.typed.align, hF.typed.custom, hF.typed.buffer⟩, hF.cached⟩

theorem Repr.copy {us : Option W64} {d : State} (hd : Fresh d) (h : Repr sec us msg s) :
    Repr sec us msg (Model.XXH3.copyState d s) := by
  refine ⟨⟨⟨hd.typed.align, h.params.typed.custom, h.params.typed.buffer⟩, ?_, h.params.secLen, h.params.limit,
    h.params.perBlock⟩, ?_, h.total, h.useSeed, h.seed, hd.copy h.fresh⟩
  · have := h.params.secret
    unfold Model.XXH3.State.secret at this ⊢
    unfold Model.XXH3.copyState
    simp only
    cases he : s.extSecret with
    | none => rw [he] at this; exact this
    | some q => rw [he] at this; exact this
  · obtain ⟨k, hB⟩ := h.buffered
    exact ⟨k, ⟨hB.acc, hB.soFar, hB.size, hB.le, hB.data, hB.pos, hB.tail⟩⟩

theorem total_le {us : Option W64} (h : Repr sec us msg s) : s.totalLen.toNat ≤ msg.length := by
  rw [h.total, BitVec.toNat_ofNat]; exact Nat.mod_le _ _

/-- Whatever the length, a digest is defined. -/
theorem digest64_defined (hc : cfg.Valid) {us : Option W64} (h : Repr sec us msg s) :
    ∃ v, Model.XXH3.bits64_digest cfg s = some v := by
  obtain ⟨k, hB⟩ := h.buffered
  have hp := h.params
  have hsl := hp.secLen
  have htot := total_le h
  have hM : Model.XXH3.MIDSIZE_MAX = 240 := rfl
  unfold Model.XXH3.bits64_digest
  simp only [hM]
  split
  · rename_i hbig
    rw [digest_long_eq hc hp hB (by omega)]
    simp only [Option.bind_eq_bind, Option.bind_some]
    exact ⟨_, mergeAccs_eq hc hp.secret _ (by omega) _⟩
  · rename_i hbig
    obtain ⟨n, hn⟩ : ∃ n, n = s.totalLen.toNat := ⟨_, rfl⟩
    rw [← hn] at hbig ⊢
    have hl : (s.buffer.take n).length = n := by
      rw [List.length_take, hp.typed.buffer]; unfold Model.XXH3.INTERNALBUFFER_SIZE; omega
    have hH : Holds s.bufferObj (s.buffer.take n) := List.take_prefix _ _
    have e : sec.length - 64 + 64 = sec.length := by omega
    rw [size_small hc (by omega), hp.limit, e]
    generalize s.buffer.take n = x at hl hH
    subst hl
    split
    · exact ⟨_, bits64_withSeed_eq hc hH rfl s.seed⟩
    · exact ⟨_, bits64_withSecret_eq hc hH rfl rfl hp.secret hsl⟩

theorem digest128_defined (hc : cfg.Valid) {us : Option W64} (h : Repr sec us msg s) :
    ∃ v, Model.XXH3.bits128_digest cfg s = some v := by
  obtain ⟨k, hB⟩ := h.buffered
  have hp := h.params
  have hsl := hp.secLen
  have htot := total_le h
  have hM : Model.XXH3.MIDSIZE_MAX = 240 := rfl
  unfold Model.XXH3.bits128_digest
  simp only [hM]
  split
  · rename_i hbig
    have e : s.secretLimit + 64 - 64 - 11 = sec.length - 75 := by rw [hp.limit]; omega
    rw [digest_long_eq hc hp hB (by omega)]
    simp only [Option.bind_eq_bind, Option.bind_some]
    rw [assert_of (by simp [hp.limit]; omega), Option.bind_some, mergeAccs_eq hc hp.secret _ (by omega),
      Option.bind_some, e, mergeAccs_eq hc hp.secret _ (by omega)]
    exact ⟨_, rfl⟩
  · rename_i hbig
    obtain ⟨n, hn⟩ : ∃ n, n = s.totalLen.toNat := ⟨_, rfl⟩
    rw [← hn] at hbig ⊢
    have hl : (s.buffer.take n).length = n := by
      rw [List.length_take, hp.typed.buffer]; unfold Model.XXH3.INTERNALBUFFER_SIZE; omega
    have hH : Holds s.bufferObj (s.buffer.take n) := List.take_prefix _ _
    have e : sec.length - 64 + 64 = sec.length := by omega
    rw [size_small hc (by omega), hp.limit, e]
    generalize s.buffer.take n = x at hl hH
    subst hl
    split
    · exact ⟨_, bits128_withSeed_eq hc hH rfl s.seed⟩
    · exact ⟨_, bits128_withSecret_eq hc hH rfl rfl hp.secret hsl⟩

end
end XXH3P
end XXH
