import Verif.Lemmas.BitsRead

/-!
The reader follows the writer.
-/

namespace LC3

/-- Operations that respect the interface: from 1 to 31 plain bits, symbols of a model. -/
def Op.Valid : Op → Prop
  | .bits v n => 1 ≤ n ∧ n ≤ 31 ∧ v < 2 ^ n
  | .sym m s => m.WF ∧ m.Codable s

/-- The read that corresponds to a write. -/
def Op.get (r : Bits) : Op → Nat × Bits
  | .bits _ n => getBits r n
  | .sym m _ => getSymbol r m

/-- The value written. -/
def Op.val : Op → Nat
  | .bits v _ => v
  | .sym _ s => s

theorem winv_setup (data : List Nat) (h : Bytes data) : WInv (setupWrite data) := by
  refine ⟨rfl, ⟨Nat.le_refl _, ?_, ?_, rfl, rfl, rfl, h⟩, ⟨?_, ?_, ?_, ?_, ?_, ?_, ?_, ?_, ?_, rfl⟩,
    ⟨Nat.zero_le _, h, fun _ => rfl⟩, ?_, rfl⟩ <;> simp [setupWrite]

theorem winv_bits (b : Bits) (h : WInv b) (v n : Nat) (hn : 1 ≤ n ∧ n ≤ 32) (hv : v < 2 ^ n) :
    WInv (putBits b v n) ∧ (putBits b v n).buf.data.length = b.buf.data.length ∧
    acK (putBits b v n).ac (putBits b v n).buf = acK b.ac b.buf ∧
    (putBits b v n).buf.bw ≤ b.buf.bw := by
  obtain ⟨p1, p2, p3, p4, p5, p6, p7⟩ := putBits_spec b v n h.accu hn hv
  refine ⟨⟨by rw [p1]; exact h.rd, p3, by rw [p2]; exact h.ac, ?_, by rw [p2]; exact h.range,
    by rw [p2]; exact h.error⟩, p5, ?_, p6⟩
  · rw [p2]
    exact ⟨by rw [p4, p5]; exact h.fw.fw_le, p3.bytes, fun hc => by rw [p4]; exact h.fw.none hc⟩
  · rw [p2]; unfold acK; rw [p4]

theorem winv_sym (b : Bits) (h : WInv b) (m : AcModel) (s : Nat) (hm : m.WF) (hs : m.Codable s) :
    WInv (putSymbol b m s) ∧ (putSymbol b m s).buf.data.length = b.buf.data.length ∧
    (putSymbol b m s).buf.bw = b.buf.bw := by
  obtain ⟨p1, p2, p3, p4, p5, p6, p7, p8, p9, p10, p11⟩ :=
    putSymbol_spec b m s hm hs h.ac h.fw h.range h.accu.bw_le
  have ha := h.accu
  refine ⟨⟨by rw [p1]; exact h.rd, ?_, p3, p4, p5, by rw [p10]; exact h.error⟩, p8, p6⟩
  rw [p2]
  exact ⟨by rw [p6, p8]; exact ha.bw_le, ha.n_le, ha.v_lt, ha.nover, ha.aub, by rw [p7]; exact ha.bub,
    p4.bytes⟩

theorem winv_put (b : Bits) (h : WInv b) (o : Op) (ho : o.Valid) :
    WInv (o.put b) ∧ (o.put b).buf.data.length = b.buf.data.length := by
  cases o with
  | bits v n =>
    obtain ⟨h1, h2, h3⟩ := ho
    obtain ⟨q1, q2, q3, q4⟩ := winv_bits b h v n ⟨h1, by omega⟩ h3
    exact ⟨q1, q2⟩
  | sym m s =>
    obtain ⟨q1, q2, q3⟩ := winv_sym b h m s ho.1 ho.2
    exact ⟨q1, q2⟩

theorem winv_ops (ops : List Op) (b : Bits) (h : WInv b) (ho : ∀ o ∈ ops, o.Valid) :
    WInv (putOps b ops) ∧ (putOps b ops).buf.data.length = b.buf.data.length := by
  induction ops generalizing b with
  | nil => exact ⟨h, rfl⟩
  | cons o ops ih =>
    obtain ⟨h1, h2⟩ := winv_put b h o (ho o (by simp))
    obtain ⟨h3, h4⟩ := ih (o.put b) h1 (fun o' ho' => ho o' (by simp [ho']))
    exact ⟨h3, by rw [← h2]; exact h4⟩

/-- The two streams do not meet. -/
def Fit (b : Bits) : Prop := acK b.ac b.buf < b.buf.bw

theorem fit_of_bitsLeft (b : Bits) (h : WInv b) (hl : 0 ≤ bitsLeftRaw b) : Fit b := by
  rw [bitsLeftRaw_write b h] at hl
  obtain ⟨r1, r2, r3, r4⟩ := rangeBits_spec b.ac h.range h.ac.range_lt
  unfold Fit
  omega

theorem fit_back (b : Bits) (h : WInv b) (o : Op) (ho : o.Valid) (hf : Fit (o.put b)) : Fit b := by
  unfold Fit at *
  cases o with
  | bits v n =>
    obtain ⟨h1, h2, h3⟩ := ho
    obtain ⟨q1, q2, q3, q4⟩ := winv_bits b h v n ⟨h1, by omega⟩ h3
    change acK (putBits b v n).ac (putBits b v n).buf < (putBits b v n).buf.bw at hf
    omega
  | sym m s =>
    obtain ⟨p1, p2, p3, p4, p5, p6, p7, p8, p9, p10, p11⟩ :=
      putSymbol_spec b m s ho.1 ho.2 h.ac h.fw h.range h.accu.bw_le
    change acK (putSymbol b m s).ac (putSymbol b m s).buf < (putSymbol b m s).buf.bw at hf
    obtain ⟨j, j1, j2⟩ := p11 (by omega)
    omega

theorem fit_back_ops (ops : List Op) (b : Bits) (h : WInv b) (ho : ∀ o ∈ ops, o.Valid)
    (hf : Fit (putOps b ops)) : Fit b := by
  induction ops generalizing b with
  | nil => exact hf
  | cons o ops ih =>
    have hv := ho o (by simp)
    exact fit_back b h o hv (ih (o.put b) (winv_put b h o hv).1
      (fun o' ho' => ho o' (by simp [ho'])) hf)

/-- Effect of plain bits on the streams. -/
theorem bits_effect (b : Bits) (h : WInv b) (v n : Nat) (hn : 1 ≤ n ∧ n ≤ 32) (hv : v < 2 ^ n)
    (hf : Fit (putBits b v n)) :
    plainP (putBits b v n).accu (putBits b v n).buf = plainP b.accu b.buf + n ∧
    plainS (putBits b v n).accu (putBits b v n).buf =
      plainS b.accu b.buf + v * 2 ^ plainP b.accu b.buf ∧
    acK (putBits b v n).ac (putBits b v n).buf = acK b.ac b.buf ∧
    acT (putBits b v n).ac (putBits b v n).buf = acT b.ac b.buf ∧
    (putBits b v n).ac = b.ac := by
  obtain ⟨p1, p2, p3, p4, p5, p6, p7⟩ := putBits_spec b v n h.accu hn hv
  have hk : acK (putBits b v n).ac (putBits b v n).buf = acK b.ac b.buf := by
    rw [p2]; unfold acK; rw [p4]
  unfold Fit at hf
  have hfw : b.buf.fw ≤ acK b.ac b.buf := by unfold acK; omega
  obtain ⟨p8, p9, p10⟩ := p7 (by omega)
  refine ⟨p9, p10, hk, ?_, p2⟩
  rw [p2]; unfold acT acHi; rw [p4, p8]

/-- Effect of a symbol on the streams. -/
theorem sym_effect (b : Bits) (h : WInv b) (m : AcModel) (s : Nat) (hm : m.WF) (hs : m.Codable s)
    (hf : Fit (putSymbol b m s)) :
    plainP (putSymbol b m s).accu (putSymbol b m s).buf = plainP b.accu b.buf ∧
    plainS (putSymbol b m s).accu (putSymbol b m s).buf = plainS b.accu b.buf ∧
    2 ^ 16 ≤ (putSymbol b m s).ac.range ∧ (putSymbol b m s).ac.range < 2 ^ 24 ∧
    ∃ j, acK (putSymbol b m s).ac (putSymbol b m s).buf = acK b.ac b.buf + j ∧
      acT (putSymbol b m s).ac (putSymbol b m s).buf =
        (acT b.ac b.buf + b.ac.range / 1024 * (m.sym s).low) * 256 ^ j ∧
      (putSymbol b m s).ac.range = b.ac.range / 1024 * (m.sym s).range * 256 ^ j := by
  obtain ⟨p1, p2, p3, p4, p5, p6, p7, p8, p9, p10, p11⟩ :=
    putSymbol_spec b m s hm hs h.ac h.fw h.range h.accu.bw_le
  unfold Fit at hf
  obtain ⟨j, j1, j2, j3, j4⟩ := p11 (by omega)
  refine ⟨?_, ?_, p5, p3.range_lt, j, j1, j2, j3⟩
  · rw [p2]; unfold plainP; rw [p6, p8]
  · rw [p2]; unfold plainS; rw [p6, p8, j4]

theorem pval_bounds (F : List Nat) (hF : Bytes F) (m j a c : Nat)
    (h1 : a * 256 ^ j ≤ pval F (m + j)) (h2 : pval F (m + j) < a * 256 ^ j + c * 256 ^ j) :
    a ≤ pval F m ∧ pval F m < a + c := by
  obtain ⟨x, hx, e⟩ := pval_add F hF m j
  rw [e] at h1 h2
  rw [← Nat.add_mul] at h2
  have hp : 0 < 256 ^ j := Nat.pow_pos (by decide)
  generalize 256 ^ j = X at *
  constructor
  · have : a * X < (pval F m + 1) * X := by rw [Nat.add_mul]; omega
    have := Nat.lt_of_mul_lt_mul_right this
    omega
  · have : pval F m * X < (a + c) * X := by omega
    exact Nat.lt_of_mul_lt_mul_right this

/-- What covers a state covers the previous one. -/
theorem covers_back (F : List Nat) (b : Bits) (h : WInv b) (o : Op) (ho : o.Valid)
    (hf : Fit (o.put b)) (hc : Covers F (o.put b)) : Covers F b := by
  obtain ⟨c1, c2, c3, c4, c5, c6⟩ := hc
  cases o with
  | bits v n =>
    obtain ⟨h1, h2, h3⟩ := ho
    obtain ⟨e1, e2, e3, e4, e5⟩ := bits_effect b h v n ⟨h1, by omega⟩ h3 hf
    have hl := (winv_bits b h v n ⟨h1, by omega⟩ h3).2.1
    simp only [Op.put] at *
    rw [e1, e2] at c3
    rw [e3, e4] at c4
    rw [e3, e4, e5] at c5
    rw [e1, e3] at c6
    refine ⟨by rw [c1, hl], c2, ?_, c4, c5, by omega⟩
    have hd : 2 ^ plainP b.accu b.buf ∣ 2 ^ (plainP b.accu b.buf + n) :=
      Nat.pow_dvd_pow 2 (by omega)
    rw [← Nat.mod_mod_of_dvd _ hd, c3, Nat.add_mul_mod_self_right]
    exact Nat.mod_eq_of_lt (plainS_lt h.accu)
  | sym m s =>
    obtain ⟨e1, e2, e6, e7, j, e3, e4, e5⟩ := sym_effect b h m s ho.1 ho.2 hf
    have hl := (winv_sym b h m s ho.1 ho.2).2.1
    simp only [Op.put] at *
    rw [e1, e2] at c3
    rw [e3, e4, show acK b.ac b.buf + j + 3 = acK b.ac b.buf + 3 + j by omega] at c4
    rw [e3, e4, e5, show acK b.ac b.buf + j + 3 = acK b.ac b.buf + 3 + j by omega] at c5
    rw [e1, e3] at c6
    obtain ⟨g1, g2⟩ := pval_bounds F c2 _ j _ _ c4 c5
    have hhi := ho.1.high_le s ho.2.1
    have hle : b.ac.range / 1024 * (m.sym s).low + b.ac.range / 1024 * (m.sym s).range ≤
        b.ac.range := by
      rw [← Nat.mul_add]
      calc b.ac.range / 1024 * ((m.sym s).low + (m.sym s).range) ≤ b.ac.range / 1024 * 1024 :=
            Nat.mul_le_mul_left _ hhi
        _ ≤ b.ac.range := Nat.div_mul_le_self _ _
    refine ⟨by rw [c1, hl], c2, c3, ?_, ?_, by omega⟩
    · clear c3 c4 c5 c6 e1 e2 e3 e4 e5; omega
    · clear c3 c4 c5 c6 e1 e2 e3 e4 e5; omega

theorem covers_back_ops (F : List Nat) (ops : List Op) (b : Bits) (h : WInv b)
    (ho : ∀ o ∈ ops, o.Valid) (hf : Fit (putOps b ops)) (hc : Covers F (putOps b ops)) :
    Covers F b := by
  induction ops generalizing b with
  | nil => exact hc
  | cons o ops ih =>
    have hv := ho o (by simp)
    have hi := (winv_put b h o hv).1
    have hr := fun o' (ho' : o' ∈ ops) => ho o' (by simp [ho'])
    exact covers_back F b h o hv (fit_back_ops ops _ hi hr hf) (ih (o.put b) hi hr hf hc)

/-- The state `r` of a reader of `F` corresponds to the state `b` of the writer. -/
structure Sync (F : List Nat) (b r : Bits) : Prop where
  rd : r.rd = true
  accu : AccuR F (plainP b.accu b.buf) r.accu r.buf
  fw : r.buf.fw = min (acK b.ac b.buf + 3) F.length
  range : r.ac.range = b.ac.range
  low : acT b.ac b.buf + r.ac.low = pval F (acK b.ac b.buf + 3)
  cache : r.ac.cache = -1
  count : r.ac.carryCount = 0
  error : r.ac.error = false
  ub : r.ac.ub = false

/-- One read follows one write. -/
theorem sync_step (F : List Nat) (b r : Bits) (h : WInv b) (o : Op) (ho : o.Valid)
    (hf : Fit (o.put b)) (hc : Covers F (o.put b)) (hs : Sync F b r) :
    (o.get r).1 = o.val ∧ Sync F (o.put b) (o.get r).2 := by
  obtain ⟨c1, c2, c3, c4, c5, c6⟩ := hc
  obtain ⟨s1, s2, s3, s4, s5, s6, s7, s8, s9⟩ := hs
  cases o with
  | bits v n =>
    obtain ⟨h1, h2, h3⟩ := ho
    obtain ⟨e1, e2, e3, e4, e5⟩ := bits_effect b h v n ⟨h1, by omega⟩ h3 hf
    simp only [Op.put, Op.get, Op.val] at *
    rw [e1, e2] at c3
    rw [e1, e3] at c6
    obtain ⟨g1, g2, g3, g4, g5, g6⟩ := getBits_spec F c2 (plainP b.accu b.buf) n r s2 h1 h2 (by omega)
    refine ⟨?_, ⟨by rw [g5]; exact s1, by rw [e1]; exact g2, by rw [g3, e3]; exact s3,
      by rw [g4, e5]; exact s4, by rw [g4, e3, e4]; exact s5, by rw [g4]; exact s6,
      by rw [g4]; exact s7, by rw [g4]; exact s8, by rw [g4]; exact s9⟩⟩
    rw [g1]
    have hS := plainS_lt h.accu
    have hp : 0 < 2 ^ plainP b.accu b.buf := Nat.pow_pos (by decide)
    rw [Nat.pow_add] at c3
    generalize 2 ^ plainP b.accu b.buf = X at *
    have h4 : bval F / X % 2 ^ n = bval F % (X * 2 ^ n) / X := by
      rw [Nat.mod_mul_right_div_self]
    rw [h4, c3, Nat.add_mul_div_right _ _ hp, Nat.div_eq_of_lt hS]
    omega
  | sym m s =>
    obtain ⟨hm, hcod⟩ := ho
    obtain ⟨e1, e2, e6, e7, j, e3, e4, e5⟩ := sym_effect b h m s hm hcod hf
    simp only [Op.put, Op.get, Op.val] at *
    have hR := h.range
    have hR' := h.ac.range_lt
    have hk3 : acK b.ac b.buf + j + 3 = acK b.ac b.buf + 3 + j := by omega
    rw [e3, e4, hk3] at c4
    rw [e3, e4, e5, hk3] at c5
    obtain ⟨g1, g2⟩ := pval_bounds F c2 _ j _ _ c4 c5
    have hlo : b.ac.range / 1024 * (m.sym s).low ≤ r.ac.low := by
      clear c3 c4 c5 c6 e1 e2 e3 e4 e5 e6 e7; omega
    have hhi : r.ac.low < b.ac.range / 1024 * (m.sym s).low + b.ac.range / 1024 * (m.sym s).range := by
      clear c3 c4 c5 c6 e1 e2 e3 e4 e5 e6 e7; omega
    have hle : b.ac.range / 1024 * (m.sym s).low + b.ac.range / 1024 * (m.sym s).range ≤
        b.ac.range / 1024 * 1024 := by
      rw [← Nat.mul_add]
      exact Nat.mul_le_mul_left _ (hm.high_le s hcod.1)
    have hmod : (r.ac.range >>> 10) &&& 0xffff = b.ac.range / 1024 := by
      rw [s4, shr10, and_ffff]; exact Nat.mod_eq_of_lt (by clear c3 c4 c5 c6; omega)
    have hnerr : ¬ (r.ac.low ≥ (b.ac.range / 1024) <<< 10) := by
      rw [Nat.shiftLeft_eq]
      clear c3 c4 c5 c6 e1 e2 e3 e4 e5; omega
    have hsearch := searchSymbol_spec m hm s r.ac.low (b.ac.range / 1024) hcod.1 hlo hhi
    have hrpos : 64 ≤ b.ac.range / 1024 * (m.sym s).range := by
      have h64 : 64 ≤ b.ac.range / 1024 := by clear c3 c4 c5 c6; omega
      calc 64 = 64 * 1 := rfl
        _ ≤ _ := Nat.mul_le_mul h64 hcod.2
    unfold getSymbol
    simp only [hmod, s8, hnerr, decide_false, Bool.or_self, Bool.false_eq_true, if_false, hsearch,
      true_and]
    have hRs : b.ac.range / 1024 * (m.sym s).range % 2 ^ 32 = b.ac.range / 1024 * (m.sym s).range := by
      apply Nat.mod_eq_of_lt; clear c3 c4 c5 c6 e1 e2 e3 e4 e5; omega
    have hLs : (r.ac.low + 2 ^ 32 - b.ac.range / 1024 * (m.sym s).low) % 2 ^ 32 =
        r.ac.low - b.ac.range / 1024 * (m.sym s).low := by
      clear c3 c4 c5 c6 e1 e2 e3 e4 e5; omega
    rw [hRs, hLs]
    have hs5 : acT b.ac b.buf + b.ac.range / 1024 * (m.sym s).low +
        (r.ac.low - b.ac.range / 1024 * (m.sym s).low) = pval F (acK b.ac b.buf + 3) := by
      clear c3 c4 c5 c6 e1 e2 e3 e4 e5; omega
    rw [e5] at e6 e7
    -- the renormalisation
    have hj : j < 3 := by
      rcases Nat.lt_or_ge j 3 with hj | hj
      · exact hj
      · exfalso
        have : 256 ^ 3 ≤ 256 ^ j := Nat.pow_le_pow_right (by decide) hj
        have : 64 * 256 ^ 3 ≤ b.ac.range / 1024 * (m.sym s).range * 256 ^ j :=
          Nat.mul_le_mul hrpos this
        clear c3 c4 c5 c6 e1 e2 e3 e4 e5
        omega
    obtain ⟨i1, i2, i3, i4, i5, i6, i7, i8, i9, i10, i11⟩ := readRenorm_spec F c2 3 j
      (acK b.ac b.buf + 3) (acT b.ac b.buf + b.ac.range / 1024 * (m.sym s).low)
      { r.ac with
          low := r.ac.low - b.ac.range / 1024 * (m.sym s).low
          range := b.ac.range / 1024 * (m.sym s).range
          error := false } r.buf hj s2.data (by dsimp only; omega) e6 e7
        (by dsimp only; clear c3 c4 c5 c6 e1 e2 e3 e4 e5; omega) hs5 s3
    have hren : (if b.ac.range / 1024 * (m.sym s).range < 0x10000 then
        readRenorm 3 (Ac.mk (r.ac.low - b.ac.range / 1024 * (m.sym s).low)
          (b.ac.range / 1024 * (m.sym s).range) r.ac.cache r.ac.carry r.ac.carryCount false r.ac.ub)
          r.buf
        else (Ac.mk (r.ac.low - b.ac.range / 1024 * (m.sym s).low)
          (b.ac.range / 1024 * (m.sym s).range) r.ac.cache r.ac.carry r.ac.carryCount false r.ac.ub,
          r.buf)) =
        readRenorm 3 (Ac.mk (r.ac.low - b.ac.range / 1024 * (m.sym s).low)
          (b.ac.range / 1024 * (m.sym s).range) r.ac.cache r.ac.carry r.ac.carryCount false r.ac.ub)
          r.buf := by
      split
      · rfl
      · rename_i hge
        simp only [readRenorm]
        rw [if_neg hge]
    rw [hren]
    generalize readRenorm 3 (Ac.mk (r.ac.low - b.ac.range / 1024 * (m.sym s).low)
          (b.ac.range / 1024 * (m.sym s).range) r.ac.cache r.ac.carry r.ac.carryCount false r.ac.ub)
          r.buf = q at *
    obtain ⟨acq, bq⟩ := q
    dsimp only at *
    obtain ⟨a1, a2, a3, a4, a5, a6, a7, a8, a9⟩ := s2
    refine ⟨s1, ?_, by rw [i3, e3, hk3], by rw [i1, e5], by rw [e4, e3, hk3]; exact i2,
      by rw [i7]; exact s6, by rw [i9]; exact s7, i10, by rw [i11]; exact s9⟩
    rw [e1]
    exact ⟨i4, by rw [i5]; exact a2, a3, by rw [i5]; exact a4, by rw [i5]; exact a5,
      by rw [i5]; exact a6, by rw [i5]; exact a7, a8, by rw [i6]; exact a9⟩

/-- Initial correspondence. -/
theorem sync_setup (sh32 : Nat → Nat) (data F : List Nat) (hlen : F.length = data.length)
    (hF : Bytes F) (h4 : 4 ≤ F.length) : Sync F (setupWrite data) (setupRead sh32 F) := by
  have hP : plainP (setupWrite data).accu (setupWrite data).buf = 0 := by
    simp [plainP, setupWrite]
  have hK : acK (setupWrite data).ac (setupWrite data).buf = 0 := by
    simp [acK, setupWrite]
  have hT : acT (setupWrite data).ac (setupWrite data).buf = 0 := by
    simp [acT, acHi, setupWrite]
  have g0 : acGet { data := F, fw := 0, bw := F.length, ub := false } =
      (F.getD 0 0, { data := F, fw := 1, bw := F.length, ub := false }) := by
    unfold acGet; rw [if_pos (by dsimp only; omega)]
  have g1 : acGet { data := F, fw := 1, bw := F.length, ub := false } =
      (F.getD 1 0, { data := F, fw := 2, bw := F.length, ub := false }) := by
    unfold acGet; rw [if_pos (by dsimp only; omega)]
  have g2 : acGet { data := F, fw := 2, bw := F.length, ub := false } =
      (F.getD 2 0, { data := F, fw := 3, bw := F.length, ub := false }) := by
    unfold acGet; rw [if_pos (by dsimp only; omega)]
  have hacc : accuLoad { v := 0, n := 32, nover := 0, sh32 := sh32, ub := false }
      { data := F, fw := 3, bw := F.length, ub := false } =
      ({ v := bval F % 2 ^ 32, n := 0, nover := 0, sh32 := sh32, ub := false },
       { data := F, fw := 3, bw := F.length - 4, ub := false }) := by
    have hmin : min (32 >>> 3) F.length = 4 := by
      have : 32 >>> 3 = 4 := rfl
      omega
    unfold accuLoad
    simp only [hmin]
    have d : ∀ i, i < F.length → F.getD i 0 = bval F / 256 ^ (F.length - 1 - i) % 256 :=
      fun i hi => getD_bval F hF i hi
    have d1 : F.getD (F.length - 1) 0 = bval F % 256 := by
      rw [d _ (by omega), show F.length - 1 - (F.length - 1) = 0 by omega]; simp
    have d2 : F.getD (F.length - 1 - 1) 0 = bval F / 256 % 256 := by
      rw [d _ (by omega), show F.length - 1 - (F.length - 1 - 1) = 1 by omega]; simp
    have d3 : F.getD (F.length - 1 - 1 - 1) 0 = bval F / 65536 % 256 := by
      rw [d _ (by omega), show F.length - 1 - (F.length - 1 - 1 - 1) = 2 by omega]; rfl
    have d4 : F.getD (F.length - 1 - 1 - 1 - 1) 0 = bval F / 16777216 % 256 := by
      rw [d _ (by omega), show F.length - 1 - (F.length - 1 - 1 - 1 - 1) = 3 by omega]; rfl
    simp only [loadLoop, d1, d2, d3, d4]
    have u1 : ¬ F.length = 0 := by omega
    have u2 : ¬ F.length - 1 = 0 := by omega
    have u3 : ¬ F.length - 1 - 1 = 0 := by omega
    have u4 : ¬ F.length - 1 - 1 - 1 = 0 := by omega
    have w1 : ¬ F.length < F.length := by omega
    have w2 : ¬ F.length < F.length - 1 := by omega
    have w3 : ¬ F.length < F.length - 1 - 1 := by omega
    have w4 : ¬ F.length < F.length - 1 - 1 - 1 := by omega
    simp only [u1, u2, u3, u4, w1, w2, w3, w4, decide_false, Bool.or_self]
    rw [if_neg (by decide)]
    have hv : (((((0 >>> 8 ||| (bval F % 256) <<< 24) >>> 8 ||| (bval F / 256 % 256) <<< 24) >>> 8) |||
        (bval F / 65536 % 256) <<< 24) >>> 8) ||| (bval F / 16777216 % 256) <<< 24 =
        bval F % 2 ^ 32 := by
      generalize bval F = B
      rw [or_shl (0 >>> 8) _ 24 (by decide)]
      rw [or_shl _ (B / 256 % 256) 24 (by rw [shr8]; omega)]
      rw [or_shl _ (B / 65536 % 256) 24 (by rw [shr8, shr8]; omega)]
      rw [or_shl _ (B / 16777216 % 256) 24 (by rw [shr8, shr8, shr8]; omega)]
      simp only [shr8]
      omega
    rw [hv]
    rfl
  have hlow : ((F.getD 0 0 <<< 16) ||| (F.getD 1 0 <<< 8)) ||| F.getD 2 0 = pval F 3 := by
    rw [pval_succ F hF, pval_succ F hF, pval_succ F hF, pval_zero F hF]
    have b0 := hF.getD 0
    have b1 := hF.getD 1
    have b2 := hF.getD 2
    rw [Nat.or_comm, Nat.or_comm (_ <<< 16)]
    have e1 : (F.getD 1 0 <<< 8) ||| (F.getD 0 0 <<< 16) = F.getD 1 0 * 256 + F.getD 0 0 * 65536 := by
      rw [or_shl _ _ 16 (by rw [shl8]; omega), shl8]; rfl
    have e2 : F.getD 1 0 * 256 + F.getD 0 0 * 65536 = (F.getD 1 0 + F.getD 0 0 * 256) <<< 8 := by
      rw [shl8]; omega
    rw [e1, e2, or_shl _ _ 8 b2]
    omega
  unfold setupRead
  simp only [g0, g1, g2, hacc, hlow]
  refine ⟨rfl, ?_, by rw [hK]; dsimp only; omega, rfl, by rw [hT, hK]; simp, rfl, rfl, rfl, rfl⟩
  rw [hP]
  have e : F.length - (F.length - 4) = 4 := by omega
  refine ⟨rfl, by dsimp only; omega, by dsimp only; omega, by dsimp only; omega, by dsimp only; omega,
    ?_, fun h => by simp at h, rfl, rfl⟩
  dsimp only
  rw [e]; simp

/-- A reader is ready to read the operations `ops`. -/
structure Ready (F : List Nat) (b r : Bits) (ops : List Op) : Prop where
  inv : WInv b
  valid : ∀ o ∈ ops, o.Valid
  fit : Fit (putOps b ops)
  covers : Covers F (putOps b ops)
  sync : Sync F b r

theorem Ready.step {F : List Nat} {b r : Bits} {o : Op} {ops : List Op} (h : Ready F b r (o :: ops)) :
    (o.get r).1 = o.val ∧ Ready F (o.put b) (o.get r).2 ops := by
  obtain ⟨h1, h2, h3, h4, h5⟩ := h
  have hv := h2 o (by simp)
  have hr := fun o' (ho' : o' ∈ ops) => h2 o' (by simp [ho'])
  have hi := (winv_put b h1 o hv).1
  have hfit := fit_back_ops ops _ hi hr h3
  have hcov := covers_back_ops F ops _ hi hr h3 h4
  obtain ⟨s1, s2⟩ := sync_step F b r h1 o hv hfit hcov h5
  exact ⟨s1, hi, hr, h3, h4, s2⟩

end LC3
