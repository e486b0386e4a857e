import Verif.Lemmas.BitsTerm

/-!
Invariant of the writer, padding and termination of the bitstream.
-/

namespace LC3

/-- Invariant of the writer. -/
structure WInv (b : Bits) : Prop where
  rd : b.rd = false
  accu : AccuW b.accu b.buf
  ac : AcW b.ac
  fw : FwW b.ac b.buf
  range : 2 ^ 16 ≤ b.ac.range
  error : b.ac.error = false

theorem flushLoop_bw (k : Nat) (a : Accu) (b : Buf) : (flushLoop k a b).2.bw = b.bw - k := by
  induction k generalizing a b with
  | zero => rfl
  | succ k ih => simp only [flushLoop, ih]; omega

theorem accuFlush_bw (a : Accu) (b : Buf) :
    (accuFlush a b).2.bw = b.bw - min (a.n / 8) (b.bw - b.fw) := by
  simp only [accuFlush, flushLoop_bw, shr3]

theorem putBits_bw (b : Bits) (v n : Nat) (hn : b.accu.n ≤ 32) :
    (putBits b v n).buf.bw =
      if b.accu.n + n ≤ 32 then b.buf.bw else b.buf.bw - min 4 (b.buf.bw - b.buf.fw) := by
  unfold putBits
  split
  · rfl
  · unfold putBitsGeneric
    simp only [accuFlush_bw]
    split
    · dsimp only
    · have : b.accu.n = 32 := by omega
      rw [this]

theorem padLoop_spec (f n : Nat) (b : Bits) (hf : n ≤ f) (h : AccuW b.accu b.buf)
    (hn : 8 * (b.buf.bw - b.buf.fw) = b.accu.n + n) (hle : b.buf.fw ≤ b.buf.bw) :
    let r := padLoop f n b
    r.rd = b.rd ∧ r.ac = b.ac ∧ AccuW r.accu r.buf ∧ r.buf.fw = b.buf.fw ∧
    r.buf.data.length = b.buf.data.length ∧ b.buf.fw ≤ r.buf.bw ∧
    8 * (r.buf.bw - b.buf.fw) = r.accu.n ∧
    r.buf.data.take b.buf.fw = b.buf.data.take b.buf.fw ∧
    plainS r.accu r.buf = plainS b.accu b.buf := by
  induction f generalizing n b with
  | zero =>
    have : n = 0 := by omega
    subst this
    simp only [padLoop]
    exact ⟨trivial, trivial, h, trivial, trivial, hle, by omega, trivial, trivial⟩
  | succ f ih =>
    simp only [padLoop]
    by_cases h0 : n = 0
    · subst h0
      rw [if_pos rfl]
      exact ⟨rfl, rfl, h, rfl, rfl, hle, by omega, rfl, rfl⟩
    · rw [if_neg h0]
      have hbw := putBits_bw b 0 (min n 32) h.n_le
      obtain ⟨p1, p2, p3, p4, p5, p6, p7⟩ :=
        putBits_spec b 0 (min n 32) h (by omega) (Nat.pow_pos (by decide))
      have hlt : b.buf.fw < (putBits b 0 (min n 32)).buf.bw := by
        rw [hbw]; split <;> omega
      obtain ⟨p8, p9, p10⟩ := p7 hlt
      have hbl := p3.bw_le
      have hbl0 := h.bw_le
      unfold plainP at p9
      obtain ⟨q1, q2, q3, q4, q5, q6, q7, q8, q9⟩ := ih (n - 32) (putBits b 0 (min n 32)) (by omega) p3
        (by rw [p4]; omega) (by rw [p4]; omega)
      rw [p4] at q6 q7 q8
      refine ⟨by rw [q1, p1], by rw [q2, p2], q3, by rw [q4, p4], by rw [q5, p5], q6, q7,
        by rw [q8, p8], ?_⟩
      rw [q9, p10]; simp

/-- Padding never leaves the buffer. -/
theorem padLoop_gen (f n : Nat) (b : Bits) (h : AccuW b.accu b.buf) :
    let r := padLoop f n b
    r.rd = b.rd ∧ r.ac = b.ac ∧ AccuW r.accu r.buf ∧ r.buf.fw = b.buf.fw ∧
    r.buf.data.length = b.buf.data.length := by
  induction f generalizing n b with
  | zero => exact ⟨rfl, rfl, h, rfl, rfl⟩
  | succ f ih =>
    simp only [padLoop]
    by_cases h0 : n = 0
    · rw [if_pos h0]; exact ⟨rfl, rfl, h, rfl, rfl⟩
    · rw [if_neg h0]
      obtain ⟨p1, p2, p3, p4, p5, p6, p7⟩ :=
        putBits_spec b 0 (min n 32) h (by omega) (Nat.pow_pos (by decide))
      obtain ⟨q1, q2, q3, q4, q5⟩ := ih (n - 32) (putBits b 0 (min n 32)) p3
      exact ⟨by rw [q1, p1], by rw [q2, p2], q3, by rw [q4, p4], by rw [q5, p5]⟩

/-- The number of bits left, in the writer. -/
theorem bitsLeftRaw_write (b : Bits) (h : WInv b) :
    bitsLeftRaw b = 8 * (b.buf.bw : Int) - b.accu.n - 8 * (acK b.ac b.buf : Int) -
      (26 - (rangeBits b.ac : Int)) := by
  have h1 := h.rd
  have h2 := h.accu.nover
  unfold bitsLeftRaw pendingBits acK
  rw [h1, h2]
  simp only [Bool.false_eq_true, if_false]
  split <;> push_cast <;> omega

theorem div_interval (Q D S X Y e : Nat) (hS : S < D) (hY : 0 < Y) (hX : D * X = 2 ^ e * Y) :
    Q * 2 ^ e ≤ (Q * D + S) * X / Y ∧ (Q * D + S) * X / Y < Q * 2 ^ e + 2 ^ e := by
  have h1 : (Q * D + S) * X = (Q * 2 ^ e) * Y + S * X := by
    rw [Nat.add_mul, Nat.mul_assoc, hX, Nat.mul_assoc]
  have hXp : 0 < X := by
    rcases Nat.eq_zero_or_pos X with h | h
    · subst h
      have : 0 < 2 ^ e * Y := Nat.mul_pos (Nat.pow_pos (by decide)) hY
      omega
    · exact h
  have h2 : S * X < 2 ^ e * Y := by
    rw [← hX]; exact Nat.mul_lt_mul_of_pos_right hS hXp
  rw [h1, Nat.mul_comm (Q * 2 ^ e) Y, Nat.mul_add_div hY]
  have h3 : S * X / Y < 2 ^ e := by
    rw [Nat.div_lt_iff_lt_mul hY]; exact h2
  exact ⟨Nat.le_add_right _ _, Nat.add_lt_add_left h3 _⟩

/-- The content `F` of the buffer is consistent with the state `b` of the writer. -/
structure Covers (F : List Nat) (b : Bits) : Prop where
  len : F.length = b.buf.data.length
  bytes : Bytes F
  plain : bval F % 2 ^ plainP b.accu b.buf = plainS b.accu b.buf
  ge : acT b.ac b.buf ≤ pval F (acK b.ac b.buf + 3)
  lt : pval F (acK b.ac b.buf + 3) < acT b.ac b.buf + b.ac.range
  fit : 8 * acK b.ac b.buf + 2 + plainP b.accu b.buf ≤ 8 * F.length

/-- After termination, all that has been written is in the buffer. -/
theorem flushBits_covers (b : Bits) (h : WInv b) (hfit : 0 ≤ bitsLeftRaw b) :
    Covers (flushBits b).buf.data b ∧ (flushBits b).buf.ub = false ∧
      (flushBits b).ac.ub = false ∧ (flushBits b).accu.ub = false := by
  rw [bitsLeftRaw_write b h] at hfit
  obtain ⟨hrd, hA, hAc, hF, hR, hE⟩ := h
  obtain ⟨r1, r2, r3, r4⟩ := rangeBits_spec b.ac hR hAc.range_lt
  have hfwk : b.buf.fw ≤ acK b.ac b.buf := by unfold acK; omega
  have hbl := hA.bw_le
  obtain ⟨p1, p2, p3, p4, p5, p6, p7, p8, p9⟩ :=
    padLoop_spec (8 * (b.buf.bw - b.buf.fw) - b.accu.n) (8 * (b.buf.bw - b.buf.fw) - b.accu.n) b
      (Nat.le_refl _) hA (by omega) (by omega)
  have hn : (8 * ((b.buf.bw : Int) - b.buf.fw) - b.accu.n).toNat =
      8 * (b.buf.bw - b.buf.fw) - b.accu.n := by omega
  unfold flushBits
  simp only [hn]
  generalize padLoop (8 * (b.buf.bw - b.buf.fw) - b.accu.n) (8 * (b.buf.bw - b.buf.fw) - b.accu.n) b
    = c at *
  obtain ⟨f1, f2, f3, f4, f5, f6, f7, f8, f9⟩ := accuFlush_spec c.accu c.buf p3 (by omega)
  generalize accuFlush c.accu c.buf = d at *
  obtain ⟨a, e⟩ := d
  simp only at *
  have he : e.bw = b.buf.fw := by omega
  have hlen : e.data.length = b.buf.data.length := by omega
  have htake : e.data.take b.buf.fw = b.buf.data.take b.buf.fw := by
    have : e.data.take b.buf.fw = c.buf.data.take b.buf.fw := by rw [he] at f6; exact f6
    rw [this, p8]
  have hfw : e.fw = b.buf.fw := by omega
  have hv0 : a.v = 0 := by
    have h1 := f1.v_lt
    have h2 : a.n = 0 := by omega
    rw [h2] at h1; omega
  have hdrop : bval (e.data.drop b.buf.fw) = plainS b.accu b.buf := by
    rw [← p9, ← f8]; unfold plainS; rw [hv0, he]; simp
  have hF' : FwW c.ac e := by
    rw [p2]
    exact ⟨by rw [hfw, hlen]; exact hF.fw_le, f1.bytes, fun hc => by rw [hfw]; exact hF.none hc⟩
  have hK : acK c.ac e = acK b.ac b.buf := by rw [p2]; unfold acK; rw [hfw]
  have hHi : acHi c.ac e = acHi b.ac b.buf := by rw [p2]; unfold acHi; rw [hfw, htake]
  obtain ⟨t1, t2, t3, t4, t, A, t5, t6, t7⟩ := acTerminate_spec c.ac e (by rw [p2]; exact hAc) hF'
    (by rw [p2]; exact hR) (by rw [hK, p2]; omega)
  rw [p2] at t5
  rw [hK] at t6
  rw [hK, hHi] at t7
  generalize acTerminate c.ac e = q at *
  obtain ⟨acq, F⟩ := q
  simp only at *
  refine ⟨?_, by rw [t3]; exact f1.bub, t4, f1.aub⟩
  have hP : plainP b.accu b.buf ≤ 8 * e.data.length - 8 * acK b.ac b.buf - t := by
    have := t5.bits
    unfold plainP; omega
  have hS := plainS_lt hA
  have hpow : 2 ^ plainP b.accu b.buf ≤ 2 ^ (8 * e.data.length - 8 * acK b.ac b.buf - t) :=
    Nat.pow_le_pow_right (by decide) hP
  -- the low part
  have hlow : bval e.data % 2 ^ (8 * e.data.length - 8 * acK b.ac b.buf - t) =
      plainS b.accu b.buf := by
    rw [bval_split e.data b.buf.fw, hdrop]
    have hd : 2 ^ (8 * e.data.length - 8 * acK b.ac b.buf - t) ∣ 256 ^ (e.data.length - b.buf.fw) := by
      rw [pow256]; exact Nat.pow_dvd_pow 2 (by omega)
    obtain ⟨x, hx⟩ := hd
    rw [hx, ← Nat.mul_assoc, Nat.mul_comm (bval _) _, Nat.mul_assoc, Nat.mul_add_mod]
    exact Nat.mod_eq_of_lt (by omega)
  rw [hlow] at t7
  have hb1 := t5.t1
  have hb9 := t5.t9
  -- exact division
  have hdvd : (acHi b.ac b.buf * 2 ^ 24 + A) / 2 ^ (24 - t) * 2 ^ (24 - t) =
      acHi b.ac b.buf * 2 ^ 24 + A := by
    have h1 : 2 ^ (24 - t) ∣ acHi b.ac b.buf * 2 ^ 24 + A :=
      Nat.dvd_add (Nat.dvd_trans (Nat.pow_dvd_pow 2 (by omega)) (Nat.dvd_mul_left _ _))
        (Nat.dvd_of_mod_eq_zero t5.dvd)
    exact Nat.div_mul_cancel h1
  have hint := div_interval ((acHi b.ac b.buf * 2 ^ 24 + A) / 2 ^ (24 - t))
    (2 ^ (8 * e.data.length - 8 * acK b.ac b.buf - t)) (plainS b.accu b.buf)
    (256 ^ (acK b.ac b.buf + 3)) (256 ^ F.data.length) (24 - t) (by omega)
    (Nat.pow_pos (by decide)) (by
      rw [pow256, pow256, ← Nat.pow_add, ← Nat.pow_add, t1]
      congr 1; omega)
  rw [← t7, hdvd] at hint
  have hge := t5.ge
  have hle := t5.le
  have hbits := t5.bits
  refine ⟨by omega, t2, ?_, ?_, ?_, ?_⟩
  · rw [t7]
    have hd : 2 ^ plainP b.accu b.buf ∣ 2 ^ (8 * e.data.length - 8 * acK b.ac b.buf - t) :=
      Nat.pow_dvd_pow 2 hP
    obtain ⟨x, hx⟩ := hd
    rw [hx, ← Nat.mul_assoc, Nat.mul_comm _ (2 ^ plainP b.accu b.buf), Nat.mul_assoc,
      Nat.mul_add_mod]
    exact Nat.mod_eq_of_lt hS
  · change acHi b.ac b.buf * 2 ^ 24 + b.ac.low ≤ bval F.data * _ / _
    omega
  · change bval F.data * _ / _ < acHi b.ac b.buf * 2 ^ 24 + b.ac.low + b.ac.range
    omega
  · unfold plainP; omega

/-- Termination never leaves the buffer. -/
theorem acTerminate_gen (ac : Ac) (b : Buf) (h : AcW ac) (hf : FwW ac b) (hr : 2 ^ 16 ≤ ac.range) :
    let r := acTerminate ac b
    r.2.data.length = b.data.length ∧ Bytes r.2.data ∧ r.2.ub = b.ub ∧ r.1.ub = false := by
  obtain ⟨t, A, hterm, hs⟩ := termVal_spec ac h hr
  have hnb : ∀ (f n : Nat) (ac : Ac) (b : Buf), -1 ≤ ac.cache → FwW ac b →
      let r := termLoop f n ac b
      r.2.2.data.length = b.data.length ∧ FwW r.2.1 r.2.2 ∧ r.2.2.ub = b.ub ∧ r.2.1.ub = ac.ub ∧
      -1 ≤ r.2.1.cache := by
    intro f
    induction f with
    | zero => intro n ac b hc hf; exact ⟨rfl, hf, rfl, rfl, hc⟩
    | succ f ih =>
      intro n ac b hc hf
      simp only [termLoop]
      split
      · obtain ⟨g1, g2, g3, g4, g5, g6, g7, g8, g9, g10⟩ := acShift_gen ac b hf hc
        have hc' : -1 ≤ (acShift ac b).1.cache := by
          unfold acShift
          by_cases hcase : ac.low < 0xff0000 ∨ ac.carry ≠ 0
          · simp only [if_pos hcase]; omega
          · simp only [if_neg hcase]; exact hc
        obtain ⟨i1, i2, i3, i4, i5⟩ := ih (n - 8) (acShift ac b).1 (acShift ac b).2 hc' g1
        exact ⟨by rw [i1, g3], i2, by rw [i3, g5], by rw [i4, g8], i5⟩
      · exact ⟨rfl, hf, rfl, rfl, hc⟩
  unfold acTerminate
  simp only [hterm]
  obtain ⟨n1, n2, n3, n4, n5⟩ := hnb 4 t { ac with low := A % 2 ^ 24, carry := ac.carry + A / 2 ^ 24 } b
    h.cache_ge ⟨hf.1, hf.2, hf.3⟩
  generalize termLoop 4 t { ac with low := A % 2 ^ 24, carry := ac.carry + A / 2 ^ 24 } b = q at *
  obtain ⟨nb, ac1, b1⟩ := q
  simp only at *
  obtain ⟨g1, g2, g3, g4, g5, g6, g7, g8, g9, g10⟩ := acShift_gen ac1 b1 n2 n5
  generalize acShift ac1 b1 = q at *
  obtain ⟨ac2, b2⟩ := q
  simp only at *
  have hub : ac2.ub = false := by rw [g8, n4]; exact h.ub
  -- the output of the pending bytes
  have hput : ∀ b3 : Buf, b3.data.length = b.data.length → Bytes b3.data → b3.ub = b.ub →
      ∀ x, x < 256 →
      (if b3.fw < b3.data.length then { b3 with data := b3.data.set b3.fw x } else b3).data.length =
        b.data.length ∧
      Bytes (if b3.fw < b3.data.length then { b3 with data := b3.data.set b3.fw x } else b3).data ∧
      (if b3.fw < b3.data.length then { b3 with data := b3.data.set b3.fw x } else b3).ub = b.ub := by
    intro b3 k1 k2 k3 x hx
    split
    · exact ⟨by simpa using k1, k2.set _ hx, k3⟩
    · exact ⟨k1, k2, k3⟩
  have hor : ∀ x n y : Nat, x < 256 → y < 256 → ((x &&& (0xff >>> n)) ||| y) < 256 := by
    intro x n y hx hy
    apply Nat.or_lt_two_pow (n := 8) _ hy
    exact Nat.lt_of_le_of_lt Nat.and_le_left hx
  split
  · rename_i hcc
    obtain ⟨p1, p2, p3, p4, p5, p6, p7⟩ := acPut_spec b2 ac2.cache g1.fw_le g1.bytes
    obtain ⟨q1, q2, q3, q4, q5, q6, q7⟩ :=
        acPutN_gen (ac2.carryCount - 1) 0xff (acPut b2 ac2.cache) (by omega) p4
    obtain ⟨x1, x2, x3⟩ := hput _ (by omega) q4 (by rw [q6, p6, g5, n3]) _
      (hor _ nb _ (q4.getD _) (byteOf_lt _))
    exact ⟨x1, x2, x3, hub⟩
  · obtain ⟨x1, x2, x3⟩ := hput b2 (by omega) g1.bytes (by rw [g5, n3]) _
      (hor _ nb _ (g1.bytes.getD _) (byteOf_lt _))
    exact ⟨x1, x2, x3, hub⟩

/-- Termination never leaves the buffer. -/
theorem flushBits_safe (b : Bits) (h : WInv b) :
    (flushBits b).buf.data.length = b.buf.data.length ∧ Bytes (flushBits b).buf.data ∧
    (flushBits b).buf.ub = false ∧ (flushBits b).ac.ub = false ∧ (flushBits b).accu.ub = false := by
  obtain ⟨hrd, hA, hAc, hF, hR, hE⟩ := h
  unfold flushBits
  simp only
  generalize (8 * ((b.buf.bw : Int) - b.buf.fw) - b.accu.n).toNat = n
  obtain ⟨p1, p2, p3, p4, p5⟩ := padLoop_gen n n b hA
  generalize padLoop n n b = c at *
  have hacc : (accuFlush c.accu c.buf).2.fw = c.buf.fw ∧
      (accuFlush c.accu c.buf).2.data.length = c.buf.data.length ∧
      Bytes (accuFlush c.accu c.buf).2.data ∧ (accuFlush c.accu c.buf).2.ub = false ∧
      (accuFlush c.accu c.buf).1.ub = false := by
    by_cases hroom : c.accu.n / 8 ≤ c.buf.bw - c.buf.fw
    · obtain ⟨f1, f2, f3, f4, f5, f6, f7, f8, f9⟩ := accuFlush_spec c.accu c.buf p3 hroom
      exact ⟨f4, f5, f1.bytes, f1.bub, f1.aub⟩
    · obtain ⟨f1, f2, f3, f4, f5, f6, f7⟩ := accuFlush_over c.accu c.buf p3 (by omega)
      exact ⟨f2, f3, f4, f5, f7⟩
  generalize accuFlush c.accu c.buf = d at *
  obtain ⟨a, e⟩ := d
  simp only at *
  obtain ⟨k1, k2, k3, k4, k5⟩ := hacc
  obtain ⟨t1, t2, t3, t4⟩ := acTerminate_gen c.ac e (by rw [p2]; exact hAc)
    (by rw [p2]; exact ⟨by have := hF.fw_le; omega, k3, fun hc => by have := hF.none hc; omega⟩)
    (by rw [p2]; exact hR)
  exact ⟨by omega, t2, by rw [t3, k4], t4, k5⟩

end LC3
