import Verif.Lemmas.BitsSync

/-!
Bounds of the reader on any content, count of the bits left.
-/

namespace LC3

/-! #### Writer -/

theorem accuFlush_take (a : Accu) (b : Buf) (h : AccuW a b) :
    (accuFlush a b).2.data.take b.fw = b.data.take b.fw := by
  have hbw := h.bw_le
  simp only [accuFlush]
  obtain ⟨h1, h2, h3, h4, h5, h6, h7, h8⟩ :=
    flushLoop_spec (min (a.n >>> 3) (b.bw - b.fw)) { a with n := a.n - 8 * min (a.n >>> 3) (b.bw - b.fw) }
      b (by omega) h.bw_le h.bytes
  generalize hk : min (a.n >>> 3) (b.bw - b.fw) = k at *
  by_cases hle : b.fw ≤ b.bw
  · have : b.fw ≤ b.bw - k := by omega
    have e := congrArg (List.take b.fw) h5
    simp only [List.take_take, Nat.min_eq_left this] at e
    exact e
  · have : k = 0 := by omega
    subst this
    rfl

/-- Plain bits do not change the bytes of the arithmetic coder. -/
theorem putBits_take (b : Bits) (v n : Nat) (h : AccuW b.accu b.buf) (hv : v < 2 ^ 32)
    (hn : n ≤ 32) :
    (putBits b v n).buf.data.take b.buf.fw = b.buf.data.take b.buf.fw := by
  unfold putBits
  split
  · rfl
  · rename_i hfit
    unfold putBitsGeneric
    dsimp only
    split
    · rename_i hn1
      refine accuFlush_take _ _ ⟨h.bw_le, by dsimp only; omega, ?_, h.nover, ?_, h.bub, h.bytes⟩
      · dsimp only
        refine Nat.or_lt_two_pow ?_ (Nat.mod_lt _ (by decide))
        exact Nat.lt_of_lt_of_le h.v_lt (Nat.pow_le_pow_right (by decide) h.n_le)
      · dsimp only
        rw [h.aub]
        have : ¬ 32 ≤ b.accu.n := by omega
        simp [this]
    · exact accuFlush_take _ _ h

/-- Forward effect of plain bits on the bits left. -/
theorem putBits_bitsLeft (b : Bits) (h : WInv b) (v n : Nat) (hn : 1 ≤ n ∧ n ≤ 32) (hv : v < 2 ^ n)
    (hl : (n : Int) ≤ bitsLeftRaw b) :
    bitsLeftRaw (putBits b v n) = bitsLeftRaw b - n ∧ Fit (putBits b v n) := by
  obtain ⟨q1, q2, q3, q4⟩ := winv_bits b h v n hn hv
  have hbw := putBits_bw b v n h.accu.n_le
  rw [bitsLeftRaw_write b h] at hl ⊢
  rw [bitsLeftRaw_write _ q1]
  obtain ⟨r1, r2, r3, r4⟩ := rangeBits_spec b.ac h.range h.ac.range_lt
  have hfw : b.buf.fw ≤ acK b.ac b.buf := by unfold acK; omega
  have hfit : Fit (putBits b v n) := by
    unfold Fit
    rw [q3, hbw]
    split <;> omega
  obtain ⟨e1, e2, e3, e4, e5⟩ := bits_effect b h v n hn hv hfit
  refine ⟨?_, hfit⟩
  rw [e3, e5]
  unfold plainP at e1
  have := h.accu.bw_le
  omega

/-- A symbol does not increase the bits left. -/
theorem putSymbol_bitsLeft (b : Bits) (h : WInv b) (m : AcModel) (s : Nat) (hm : m.WF)
    (hs : m.Codable s) (hf : Fit (putSymbol b m s)) :
    bitsLeftRaw (putSymbol b m s) ≤ bitsLeftRaw b := by
  obtain ⟨q1, q2, q3⟩ := winv_sym b h m s hm hs
  obtain ⟨e1, e2, e6, e7, j, e3, e4, e5⟩ := sym_effect b h m s hm hs hf
  rw [bitsLeftRaw_write b h, bitsLeftRaw_write _ q1, e3, q3]
  obtain ⟨r1, r2, r3, r4⟩ := rangeBits_spec b.ac h.range h.ac.range_lt
  obtain ⟨t1, t2, t3, t4⟩ := rangeBits_spec _ q1.range q1.ac.range_lt
  have hP : (putSymbol b m s).accu.n = b.accu.n := by
    unfold plainP at e1
    rw [q2, q3] at e1
    omega
  rw [hP]
  -- the range
  have hle : b.ac.range / 1024 * (m.sym s).range ≤ b.ac.range := by
    have hhi := hm.high_le s hs.1
    calc b.ac.range / 1024 * (m.sym s).range ≤ b.ac.range / 1024 * 1024 :=
          Nat.mul_le_mul_left _ (by omega)
      _ ≤ b.ac.range := Nat.div_mul_le_self _ _
  have hlt : (putSymbol b m s).ac.range < 2 ^ (rangeBits b.ac + 8 * j) := by
    rw [e5, Nat.pow_add, ← pow256]
    exact Nat.mul_lt_mul_of_pos_right (by omega) (Nat.pow_pos (by decide))
  have hrb : rangeBits (putSymbol b m s).ac ≤ rangeBits b.ac + 8 * j := by
    have := Nat.lt_of_le_of_lt t4 hlt
    have := (Nat.pow_lt_pow_iff_right (by decide : 1 < 2)).1 this
    omega
  push_cast
  omega

/-! #### Reader -/

/-- The number of bits left, in the reader. -/
theorem bitsLeftRaw_read (F : List Nat) (b r : Bits) (h : WInv b) (hl : F.length = b.buf.data.length)
    (hs : Sync F b r) :
    bitsLeftRaw b ≤ bitsLeftRaw r ∧
    (acK b.ac b.buf + 3 ≤ F.length → bitsLeftRaw r = bitsLeftRaw b) := by
  rw [bitsLeftRaw_write b h]
  obtain ⟨s1, s2, s3, s4, s5, s6, s7, s8, s9⟩ := hs
  have hrb : rangeBits r.ac = rangeBits b.ac := by unfold rangeBits; rw [s4]
  have hpos := s2.pos
  have hle := s2.bw_le
  have hbw := h.accu.bw_le
  unfold plainP at hpos
  unfold bitsLeftRaw pendingBits
  rw [hrb, s1, s6, s7, s3]
  simp only [if_true]
  have : ¬ ((0 : Int) ≤ -1) := by decide
  rw [if_neg this]
  push_cast
  omega

/-- Invariant of the reader, on any content. -/
structure RInv (F : List Nat) (r : Bits) : Prop where
  rd : r.rd = true
  data : r.buf.data = F
  bw_le : r.buf.bw ≤ F.length
  fw_le : r.buf.fw ≤ F.length
  bub : r.buf.ub = false
  n_le : r.accu.n ≤ 32
  range_ge : 2 ^ 16 ≤ r.ac.range
  range_lt : r.ac.range < 2 ^ 24
  aub : r.ac.ub = false

theorem loadLoop_gen (k : Nat) (a : Accu) (b : Buf) (hk : k ≤ b.bw) (hle : b.bw ≤ b.data.length)
    (hb : b.ub = false) :
    (loadLoop k a b).1.n = a.n ∧ (loadLoop k a b).2 = { b with bw := b.bw - k } := by
  induction k generalizing a b with
  | zero => exact ⟨rfl, rfl⟩
  | succ k ih =>
    simp only [loadLoop]
    have hub : (b.ub || decide (b.bw = 0) || decide (b.data.length < b.bw)) = false := by
      rw [hb]
      have h1 : ¬ b.bw = 0 := by omega
      have h2 : ¬ b.data.length < b.bw := by omega
      simp [h1, h2]
    obtain ⟨i1, i2⟩ := ih
      { a with v := (a.v >>> 8) ||| (b.data.getD (b.bw - 1) 0 <<< 24) }
      { b with bw := b.bw - 1
               ub := b.ub || decide (b.bw = 0) || decide (b.data.length < b.bw) }
      (by dsimp only; omega) (by dsimp only; omega) hub
    refine ⟨i1, ?_⟩
    rw [i2]
    dsimp only
    rw [hub, hb, show b.bw - 1 - k = b.bw - (k + 1) by omega]

theorem accuLoad_gen (a : Accu) (b : Buf) (hle : b.bw ≤ b.data.length) (hb : b.ub = false) :
    (accuLoad a b).1.n ≤ 7 ∧ (accuLoad a b).2.data = b.data ∧ (accuLoad a b).2.bw ≤ b.bw ∧
    (accuLoad a b).2.fw = b.fw ∧ (accuLoad a b).2.ub = false := by
  unfold accuLoad
  dsimp only
  obtain ⟨l1, l2⟩ := loadLoop_gen (min (a.n >>> 3) b.bw) { a with n := a.n - 8 * min (a.n >>> 3) b.bw }
    b (by omega) hle hb
  generalize loadLoop (min (a.n >>> 3) b.bw) { a with n := a.n - 8 * min (a.n >>> 3) b.bw } b = q at *
  obtain ⟨a', b'⟩ := q
  dsimp only at *
  subst l2
  refine ⟨?_, rfl, by dsimp only; omega, rfl, hb⟩
  split
  · dsimp only; omega
  · omega

theorem getBits_safe (F : List Nat) (n : Nat) (r : Bits) (h : RInv F r) (hn' : n ≤ 31) :
    (getBits r n).1 < 2 ^ n ∧ RInv F (getBits r n).2 := by
  obtain ⟨h1, h2, h3, h4, h5, h6, h7, h8, h9⟩ := h
  unfold getBits
  split
  · rename_i hfit
    exact ⟨Nat.mod_lt _ (Nat.pow_pos (by decide)), h1, h2, h3, h4, h5, hfit, h7, h8, h9⟩
  · unfold getBitsGeneric
    dsimp only
    obtain ⟨l1, l2, l3, l4, l5⟩ := accuLoad_gen r.accu r.buf (by rw [h2]; exact h3) h5
    generalize accuLoad r.accu r.buf = q at *
    obtain ⟨a, c⟩ := q
    dsimp only at *
    split
    · rename_i h0
      obtain ⟨m1, m2, m3, m4, m5⟩ := accuLoad_gen
        (Accu.mk a.v (a.n + min (32 - a.n) n) a.nover a.sh32
          (a.ub || decide (32 ≤ a.n) || decide (32 ≤ min (32 - a.n) n))) c (by rw [l2, h2]; omega) l5
      generalize accuLoad (Accu.mk a.v (a.n + min (32 - a.n) n) a.nover a.sh32
          (a.ub || decide (32 ≤ a.n) || decide (32 ≤ min (32 - a.n) n))) c = q at *
      obtain ⟨a', c'⟩ := q
      dsimp only at *
      refine ⟨?_, h1, by rw [m2, l2, h2], by dsimp only; omega, by dsimp only; omega, m5,
        by dsimp only; omega, h7, h8, h9⟩
      refine Nat.or_lt_two_pow ?_ ?_
      · exact Nat.lt_of_lt_of_le (Nat.mod_lt _ (Nat.pow_pos (by decide)))
          (Nat.pow_le_pow_right (by decide) (by omega))
      · refine Nat.lt_of_le_of_lt (Nat.mod_le _ _) ?_
        rw [Nat.shiftLeft_eq]
        calc _ < 2 ^ (n - min (32 - a.n) n) * 2 ^ min (32 - a.n) n :=
              Nat.mul_lt_mul_of_pos_right (Nat.mod_lt _ (Nat.pow_pos (by decide)))
                (Nat.pow_pos (by decide))
          _ = 2 ^ n := by rw [← Nat.pow_add]; congr 1; omega
    · rename_i h0
      refine ⟨?_, h1, by rw [l2, h2], by dsimp only; omega, by dsimp only; omega, l5,
        by dsimp only; omega, h7, h8, h9⟩
      exact Nat.lt_of_lt_of_le (Nat.mod_lt _ (Nat.pow_pos (by decide)))
        (Nat.pow_le_pow_right (by decide) (by omega))

/-- A value below the total range lies in the interval of a symbol of non-null share. -/
theorem AcModel.WF.exists_symbol {m : AcModel} (hm : m.WF) (low range : Nat)
    (h : low < range * 1024) :
    ∃ s, m.Codable s ∧ range * (m.sym s).low ≤ low ∧
      low < range * (m.sym s).low + range * (m.sym s).range := by
  have key : ∀ k, k ≤ 17 → (low < range * (if k = 17 then 1024 else (m.sym k).low)) →
      ∃ s, s < k ∧ range * (m.sym s).low ≤ low ∧
        low < range * (m.sym s).low + range * (m.sym s).range := by
    intro k
    induction k with
    | zero => intro _ h; rw [if_neg (by decide), hm.zero] at h; omega
    | succ k ih =>
      intro hk hlt
      by_cases hc : low < range * (m.sym k).low
      · obtain ⟨s, s1, s2⟩ := ih (by omega) (by rw [if_neg (by omega)]; exact hc)
        exact ⟨s, by omega, s2⟩
      · refine ⟨k, by omega, by omega, ?_⟩
        rw [← Nat.mul_add]
        split at hlt
        · have : k = 16 := by omega
          subst this
          rw [hm.last]; exact hlt
        · rw [hm.next k (by omega)]; exact hlt
  obtain ⟨s, s1, s2, s3⟩ := key 17 (Nat.le_refl _) (by simpa using h)
  refine ⟨s, ⟨by omega, ?_⟩, s2, s3⟩
  rcases Nat.eq_zero_or_pos (m.sym s).range with h0 | h0
  · rw [h0] at s3; omega
  · exact h0

theorem acGet_gen (b : Buf) (h : b.fw ≤ b.data.length) (hb : Bytes b.data) :
    (acGet b).1 < 256 ∧ (acGet b).2.data = b.data ∧ (acGet b).2.fw ≤ b.data.length ∧
    (acGet b).2.bw = b.bw ∧ (acGet b).2.ub = b.ub := by
  unfold acGet
  split
  · exact ⟨hb.getD _, rfl, by dsimp only; omega, rfl, rfl⟩
  · exact ⟨by dsimp only; omega, rfl, h, rfl, rfl⟩

theorem readRenorm_gen (f : Nat) (ac : Ac) (b : Buf) (h : b.fw ≤ b.data.length) (hb : Bytes b.data)
    (hr : ac.range < 2 ^ 24) (hr2 : 2 ^ 16 ≤ ac.range * 256 ^ f) (hu : ac.ub = false) :
    let r := readRenorm f ac b
    r.2.data = b.data ∧ r.2.fw ≤ b.data.length ∧ r.2.bw = b.bw ∧ r.2.ub = b.ub ∧
    2 ^ 16 ≤ r.1.range ∧ r.1.range < 2 ^ 24 ∧ r.1.ub = false := by
  induction f generalizing ac b with
  | zero =>
    simp only [readRenorm]
    rw [Nat.pow_zero, Nat.mul_one] at hr2
    refine ⟨trivial, h, trivial, trivial, hr2, hr, ?_⟩
    have : ¬ ac.range < 0x10000 := by omega
    rw [hu]; simp only [this, decide_false, Bool.or_self]
  | succ f ih =>
    simp only [readRenorm]
    split
    · obtain ⟨g1, g2, g3, g4, g5⟩ := acGet_gen b h hb
      generalize acGet b = q at *
      obtain ⟨x, b'⟩ := q
      dsimp only at *
      have hsh : (ac.range <<< 8) % 2 ^ 32 = ac.range * 256 := by
        rw [shl8]; exact Nat.mod_eq_of_lt (by omega)
      rw [hsh]
      obtain ⟨i1, i2, i3, i4, i5, i6, i7⟩ := ih
        { ac with low := ((ac.low <<< 8) ||| x) &&& 0xffffff, range := ac.range * 256 } b'
        (by rw [g2]; exact g3) (by rw [g2]; exact hb) (by dsimp only; omega)
        (by dsimp only; rw [Nat.mul_assoc, Nat.mul_comm 256, ← Nat.pow_succ]; exact hr2) hu
      exact ⟨by rw [i1, g2], by rw [g2] at i2; exact i2, by rw [i3, g4], by rw [i4, g5], i5, i6, i7⟩
    · rename_i hge
      exact ⟨rfl, h, rfl, rfl, by dsimp only; omega, hr, hu⟩

theorem readRenorm_bw (f : Nat) (ac : Ac) (b : Buf) : (readRenorm f ac b).2.bw = b.bw := by
  induction f generalizing ac b with
  | zero => rfl
  | succ f ih =>
    simp only [readRenorm]
    split
    · rw [ih]
      unfold acGet
      split <;> rfl
    · rfl

theorem getSymbol_accu (r : Bits) (m : AcModel) : (getSymbol r m).2.accu = r.accu := rfl

theorem renorm_bw (c : Prop) [Decidable c] (f : Nat) (ac : Ac) (b : Buf) :
    (if c then readRenorm f ac b else (ac, b)).2.bw = b.bw := by
  split
  · exact readRenorm_bw f ac b
  · rfl

theorem getSymbol_bw (r : Bits) (m : AcModel) : (getSymbol r m).2.buf.bw = r.buf.bw := by
  unfold getSymbol
  dsimp only
  exact renorm_bw _ _ _ _

theorem symFinish (F : List Nat) (hF : Bytes F) (r : Bits) (h : RInv F r) (L R : Nat) (e : Bool)
    (hR2 : 64 ≤ R) (hR3 : R < 2 ^ 24) :
    RInv F (Bits.mk r.rd
      (if R < 0x10000 then
          readRenorm 3 (Ac.mk L R r.ac.cache r.ac.carry r.ac.carryCount e r.ac.ub) r.buf
        else (Ac.mk L R r.ac.cache r.ac.carry r.ac.carryCount e r.ac.ub, r.buf)).1
      r.accu
      (if R < 0x10000 then
          readRenorm 3 (Ac.mk L R r.ac.cache r.ac.carry r.ac.carryCount e r.ac.ub) r.buf
        else (Ac.mk L R r.ac.cache r.ac.carry r.ac.carryCount e r.ac.ub, r.buf)).2) := by
  obtain ⟨h1, h2, h3, h4, h5, h6, h7, h8, h9⟩ := h
  split
  · obtain ⟨i1, i2, i3, i4, i5, i6, i7⟩ := readRenorm_gen 3
      (Ac.mk L R r.ac.cache r.ac.carry r.ac.carryCount e r.ac.ub) r.buf (by rw [h2]; exact h4)
      (by rw [h2]; exact hF) hR3 (by dsimp only; omega) h9
    exact ⟨h1, by rw [i1, h2], by rw [i3]; exact h3, by rw [h2] at i2; exact i2, by rw [i4]; exact h5,
      h6, i5, i6, i7⟩
  · rename_i hge
    exact ⟨h1, h2, h3, h4, h5, h6, Nat.le_of_not_lt hge, hR3, h9⟩

theorem getSymbol_safe (F : List Nat) (hF : Bytes F) (m : AcModel) (hm : m.WF) (r : Bits)
    (h : RInv F r) : m.Codable (getSymbol r m).1 ∧ RInv F (getSymbol r m).2 := by
  obtain ⟨h1, h2, h3, h4, h5, h6, h7, h8, h9⟩ := h
  have hmod : (r.ac.range >>> 10) &&& 0xffff = r.ac.range / 1024 := by
    rw [shr10, and_ffff]; exact Nat.mod_eq_of_lt (by omega)
  unfold getSymbol
  simp only [hmod]
  have hlow : (if r.ac.error || decide (r.ac.low ≥ (r.ac.range / 1024) <<< 10) then 0 else r.ac.low) <
      r.ac.range / 1024 * 1024 := by
    split
    · omega
    · rename_i hc
      simp only [Bool.or_eq_true, decide_eq_true_eq, not_or, Nat.shiftLeft_eq] at hc
      omega
  generalize (r.ac.error || decide (r.ac.low ≥ (r.ac.range / 1024) <<< 10)) = e at *
  generalize (if e = true then 0 else r.ac.low) = low at *
  obtain ⟨s, s1, s2, s3⟩ := hm.exists_symbol low (r.ac.range / 1024) hlow
  have hs := searchSymbol_spec m hm s low (r.ac.range / 1024) s1.1 s2 s3
  rw [hs]
  refine ⟨s1, ?_⟩
  have hhi := hm.high_le s s1.1
  have hR1 : r.ac.range / 1024 * (m.sym s).range ≤ r.ac.range / 1024 * 1024 :=
    Nat.mul_le_mul_left _ (by omega)
  have hR2 : 64 ≤ r.ac.range / 1024 * (m.sym s).range := by
    have h64 : 64 ≤ r.ac.range / 1024 := by omega
    calc 64 = 64 * 1 := rfl
      _ ≤ _ := Nat.mul_le_mul h64 s1.2
  have hRs : r.ac.range / 1024 * (m.sym s).range % 2 ^ 32 = r.ac.range / 1024 * (m.sym s).range := by
    apply Nat.mod_eq_of_lt; omega
  rw [hRs]
  exact symFinish F hF r ⟨h1, h2, h3, h4, h5, h6, h7, h8, h9⟩ _ _ e hR2
    (Nat.lt_of_le_of_lt hR1 (Nat.lt_of_le_of_lt (Nat.div_mul_le_self _ _) h8))

theorem rinv_setup (sh32 : Nat → Nat) (F : List Nat) (hF : Bytes F) : RInv F (setupRead sh32 F) := by
  unfold setupRead
  dsimp only
  obtain ⟨a1, a2, a3, a4, a5⟩ := acGet_gen (Buf.mk F 0 F.length false) (by dsimp only; omega) hF
  generalize acGet (Buf.mk F 0 F.length false) = q at *
  obtain ⟨x0, b0⟩ := q
  dsimp only at *
  obtain ⟨c1, c2, c3, c4, c5⟩ := acGet_gen b0 (by rw [a2]; exact a3) (by rw [a2]; exact hF)
  generalize acGet b0 = q at *
  obtain ⟨x1, b1⟩ := q
  dsimp only at *
  obtain ⟨d1, d2, d3, d4, d5⟩ := acGet_gen b1 (by rw [c2]; exact c3) (by rw [c2, a2]; exact hF)
  generalize acGet b1 = q at *
  obtain ⟨x2, b2⟩ := q
  dsimp only at *
  obtain ⟨l1, l2, l3, l4, l5⟩ := accuLoad_gen (Accu.mk 0 32 0 sh32 false) b2
    (by rw [d2, c2, a2, d4, c4, a4]) (by rw [d5, c5, a5])
  generalize accuLoad (Accu.mk 0 32 0 sh32 false) b2 = q at *
  obtain ⟨ac, b3⟩ := q
  dsimp only at *
  exact ⟨rfl, by rw [l2, d2, c2, a2], by dsimp only; omega,
    by dsimp only; rw [l4]; rw [c2, a2] at d3; exact d3, l5, by dsimp only; omega, by dsimp only; omega,
    by dsimp only; omega, rfl⟩

end LC3
