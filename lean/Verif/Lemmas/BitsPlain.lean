import Verif.Model.Bits
import Verif.Lemmas.Bval

/-!
Writing of plain bits: invariant and effect on the abstract stream of bits.
-/

namespace LC3

/-- Number of plain bits written. -/
def plainP (a : Accu) (b : Buf) : Nat := 8 * (b.data.length - b.bw) + a.n

/-- Plain bits written, the first one being of least weight. -/
def plainS (a : Accu) (b : Buf) : Nat := bval (b.data.drop b.bw) + a.v * 256 ^ (b.data.length - b.bw)

/-- Invariant of the plain bits writer. -/
structure AccuW (a : Accu) (b : Buf) : Prop where
  bw_le : b.bw ≤ b.data.length
  n_le : a.n ≤ 32
  v_lt : a.v < 2 ^ a.n
  nover : a.nover = 0
  aub : a.ub = false
  bub : b.ub = false
  bytes : Bytes b.data

theorem plainS_lt {a : Accu} {b : Buf} (h : AccuW a b) : plainS a b < 2 ^ plainP a b := by
  unfold plainS plainP
  have h1 := bval_drop_lt h.bytes b.bw
  have h2 := h.v_lt
  rw [Nat.pow_add, ← pow256]
  generalize 256 ^ (b.data.length - b.bw) = X at *
  generalize 2 ^ a.n = Y at *
  have : (a.v + 1) * X ≤ Y * X := Nat.mul_le_mul_right _ h2
  rw [Nat.mul_comm X Y]
  rw [Nat.add_mul] at this
  omega

/-- Effect of the flush loop. -/
theorem flushLoop_spec (k : Nat) (a : Accu) (b : Buf) (hk : k ≤ b.bw)
    (hbw : b.bw ≤ b.data.length) (hb : Bytes b.data) :
    let r := flushLoop k a b
    r.1 = { a with v := a.v / 256 ^ k } ∧ r.2.bw = b.bw - k ∧ r.2.fw = b.fw ∧
    r.2.data.length = b.data.length ∧ r.2.data.take (b.bw - k) = b.data.take (b.bw - k) ∧
    Bytes r.2.data ∧ r.2.ub = b.ub ∧
    bval (r.2.data.drop (b.bw - k)) =
      bval (b.data.drop b.bw) + (a.v % 256 ^ k) * 256 ^ (b.data.length - b.bw) := by
  induction k generalizing a b with
  | zero => simp [flushLoop, hb, Nat.mod_one]
  | succ k ih =>
    have hset : Bytes (b.data.set (b.bw - 1) (a.v % 256)) := hb.set _ (Nat.mod_lt _ (by decide))
    obtain ⟨h1, h2, h3, h4, h5, h6, h7, h8⟩ :=
      ih { a with v := a.v >>> 8 }
        { b with data := b.data.set (b.bw - 1) (a.v % 256), bw := b.bw - 1
                 ub := b.ub || decide (b.bw = 0) || decide (b.data.length < b.bw) }
        (by simp only; omega) (by simp only [List.length_set]; omega) hset
    simp only [List.length_set] at h1 h2 h3 h4 h5 h6 h7 h8
    have e : b.bw - 1 - k = b.bw - (k + 1) := by omega
    rw [e] at h2 h5 h8
    simp only [flushLoop]
    refine ⟨?_, h2, h3, h4, ?_, h6, ?_, ?_⟩
    · rw [h1]
      simp only [shr8, Nat.div_div_eq_div_mul]
      rw [Nat.pow_succ, Nat.mul_comm (256 ^ k) 256]
    · rw [h5, take_set_le _ _ _ _ (by omega)]
    · rw [h7]
      have e1 : decide (b.bw = 0) = false := by simp; omega
      have e2 : decide (b.data.length < b.bw) = false := by simp; omega
      rw [e1, e2]; simp
    · rw [h8, drop_set_self _ _ _ (by omega), bval_cons, List.length_drop]
      have e3 : b.bw - 1 + 1 = b.bw := by omega
      have e4 : b.data.length - (b.bw - 1) = b.data.length - b.bw + 1 := by omega
      have e5 : a.v % 256 ^ (k + 1) = a.v % 256 + 256 * (a.v / 256 % 256 ^ k) := by
        rw [Nat.pow_succ, Nat.mul_comm, Nat.mod_mul]
      rw [e3, e4, e5, shr8, Nat.pow_succ 256 (b.data.length - b.bw)]
      ring

/-- `accu_flush` when there is room for the complete bytes of the accumulator. -/
theorem accuFlush_spec (a : Accu) (b : Buf) (h : AccuW a b) (hroom : a.n / 8 ≤ b.bw - b.fw) :
    let r := accuFlush a b
    AccuW r.1 r.2 ∧ r.1.n = a.n % 8 ∧ r.2.bw = b.bw - a.n / 8 ∧ r.2.fw = b.fw ∧
    r.2.data.length = b.data.length ∧
    r.2.data.take r.2.bw = b.data.take r.2.bw ∧
    plainP r.1 r.2 = plainP a b ∧ plainS r.1 r.2 = plainS a b ∧ r.1.sh32 = a.sh32 := by
  have hmin : min (a.n >>> 3) (b.bw - b.fw) = a.n / 8 := by
    rw [shr3]; omega
  have hk : a.n / 8 ≤ b.bw := by omega
  have hbw := h.bw_le
  have hnle := h.n_le
  obtain ⟨h1, h2, h3, h4, h5, h6, h7, h8⟩ :=
    flushLoop_spec (a.n / 8) { a with n := a.n - 8 * (a.n / 8) } b hk h.bw_le h.bytes
  simp only [accuFlush, hmin]
  generalize hr : flushLoop (a.n / 8) { a with n := a.n - 8 * (a.n / 8) } b = r at *
  simp only at h1
  have hn : a.n - 8 * (a.n / 8) = a.n % 8 := by omega
  have hlt : ¬ (r.1.n ≥ 8) := by rw [h1]; simp only; omega
  simp only [hlt, if_false]
  rw [h1]
  have hv : a.v / 256 ^ (a.n / 8) < 2 ^ (a.n % 8) := by
    rw [Nat.div_lt_iff_lt_mul (Nat.pow_pos (by decide)), pow256, ← Nat.pow_add]
    have : a.n % 8 + 8 * (a.n / 8) = a.n := by omega
    rw [this]; exact h.v_lt
  refine ⟨⟨by omega, by simp only; omega, ?_, h.nover, h.aub, by rw [h7]; exact h.bub, h6⟩,
    by simp only; omega, h2, h3, h4, by rw [h2]; exact h5, ?_, ?_, rfl⟩
  · simp only; rw [hn]; exact hv
  · unfold plainP; simp only; rw [h2, h4]
    have := h.bw_le
    omega
  · unfold plainS; simp only; rw [h2, h4, h8]
    have := h.bw_le
    have e : b.data.length - (b.bw - a.n / 8) = a.n / 8 + (b.data.length - b.bw) := by omega
    rw [e, Nat.pow_add]
    have e2 := Nat.div_add_mod a.v (256 ^ (a.n / 8))
    conv => rhs; rw [← e2]
    ring

/-- `accu_flush` when the room is missing: all of the room is taken. -/
theorem accuFlush_over (a : Accu) (b : Buf) (h : AccuW a b) (hroom : b.bw - b.fw < a.n / 8) :
    let r := accuFlush a b
    r.2.bw = b.bw - (b.bw - b.fw) ∧ r.2.fw = b.fw ∧ r.2.data.length = b.data.length ∧
    Bytes r.2.data ∧ r.2.ub = false ∧ r.1.nover = 0 ∧ r.1.ub = false := by
  have hmin : min (a.n >>> 3) (b.bw - b.fw) = b.bw - b.fw := by
    rw [shr3]; omega
  obtain ⟨h1, h2, h3, h4, h5, h6, h7, h8⟩ :=
    flushLoop_spec (b.bw - b.fw) { a with n := a.n - 8 * (b.bw - b.fw) } b (by omega) h.bw_le
      h.bytes
  simp only [accuFlush, hmin]
  generalize flushLoop (b.bw - b.fw) { a with n := a.n - 8 * (b.bw - b.fw) } b = r at *
  refine ⟨h2, h3, h4, h6, by rw [h7]; exact h.bub, ?_, ?_⟩
  · split <;> (rw [h1]; exact h.nover)
  · split <;> (rw [h1]; exact h.aub)

theorem Accu.ext' {a a' : Accu} (h1 : a.v = a'.v) (h2 : a.n = a'.n) (h3 : a.nover = a'.nover)
    (h4 : a.sh32 = a'.sh32) (h5 : a.ub = a'.ub) : a = a' := by
  cases a; cases a'; simp_all

/-- The plain writer after `lc3_put_bits`: safe whatever the room; when the pointers have not
met, the bits have been appended. -/
theorem putBits_spec (b : Bits) (v n : Nat) (h : AccuW b.accu b.buf) (hn : 1 ≤ n ∧ n ≤ 32)
    (hv : v < 2 ^ n) :
    let r := putBits b v n
    r.rd = b.rd ∧ r.ac = b.ac ∧
    AccuW r.accu r.buf ∧ r.buf.fw = b.buf.fw ∧ r.buf.data.length = b.buf.data.length ∧
    r.buf.bw ≤ b.buf.bw ∧
    (b.buf.fw < r.buf.bw → r.buf.data.take b.buf.fw = b.buf.data.take b.buf.fw ∧
      plainP r.accu r.buf = plainP b.accu b.buf + n ∧
      plainS r.accu r.buf = plainS b.accu b.buf + v * 2 ^ plainP b.accu b.buf) := by
  have hbw := h.bw_le
  have hnle := h.n_le
  unfold putBits
  split
  · rename_i hfit
    have hnlt : b.accu.n < 32 := by omega
    have hsm : (v <<< b.accu.n) % 2 ^ 32 = v <<< b.accu.n := by
      apply Nat.mod_eq_of_lt
      rw [Nat.shiftLeft_eq]
      calc v * 2 ^ b.accu.n < 2 ^ n * 2 ^ b.accu.n :=
            Nat.mul_lt_mul_of_pos_right hv (Nat.pow_pos (by decide))
        _ = 2 ^ (n + b.accu.n) := by rw [Nat.pow_add]
        _ ≤ 2 ^ 32 := Nat.pow_le_pow_right (by decide) (by omega)
    have hor := or_shl b.accu.v v b.accu.n h.v_lt
    simp only [hsm, hor]
    refine ⟨trivial, trivial, ⟨hbw, by simp only; omega, ?_, h.nover, ?_, h.bub, h.bytes⟩, trivial,
      trivial, Nat.le_refl _, fun _ => ⟨trivial, ?_, ?_⟩⟩
    · simp only
      have h1 := h.v_lt
      have : (v + 1) * 2 ^ b.accu.n ≤ 2 ^ n * 2 ^ b.accu.n := Nat.mul_le_mul_right _ hv
      rw [← Nat.pow_add] at this
      rw [Nat.add_comm b.accu.n n]
      rw [Nat.add_mul] at this
      omega
    · simp only [h.aub, Bool.false_or, decide_eq_false_iff_not]
      omega
    · unfold plainP; simp only; omega
    · unfold plainS plainP; simp only
      rw [Nat.pow_add, ← pow256]; ring
  · rename_i hfit
    unfold putBitsGeneric
    -- bits kept in the accumulator
    have hn1 : min (32 - b.accu.n) n = 32 - b.accu.n := by omega
    simp only [hn1]
    have hor : b.accu.v ||| (v <<< b.accu.n) % 2 ^ 32 =
        b.accu.v + (v % 2 ^ (32 - b.accu.n)) * 2 ^ b.accu.n := by
      have e : (v <<< b.accu.n) % 2 ^ 32 = (v % 2 ^ (32 - b.accu.n)) <<< b.accu.n := by
        rw [Nat.shiftLeft_eq, Nat.shiftLeft_eq]
        have : 2 ^ 32 = 2 ^ (32 - b.accu.n) * 2 ^ b.accu.n := by
          rw [← Nat.pow_add]; congr 1; omega
        rw [this, Nat.mul_mod_mul_right]
      rw [e, or_shl _ _ _ h.v_lt]
    -- the accumulator, full
    have hA : ∃ a1 : Accu, (if 32 - b.accu.n ≠ 0 then
        { b.accu with v := b.accu.v ||| ((v <<< b.accu.n) % 2 ^ 32), n := 32
                      ub := b.accu.ub || decide (32 ≤ b.accu.n) } else b.accu) = a1 ∧
        AccuW a1 b.buf ∧ a1.n = 32 ∧
        a1.v = b.accu.v + (v % 2 ^ (32 - b.accu.n)) * 2 ^ b.accu.n ∧ a1.sh32 = b.accu.sh32 := by
      refine ⟨_, rfl, ?_⟩
      have hlt : b.accu.v + (v % 2 ^ (32 - b.accu.n)) * 2 ^ b.accu.n < 2 ^ 32 := by
        have h1 := h.v_lt
        have h2 : v % 2 ^ (32 - b.accu.n) < 2 ^ (32 - b.accu.n) :=
          Nat.mod_lt _ (Nat.pow_pos (by decide))
        have : (v % 2 ^ (32 - b.accu.n) + 1) * 2 ^ b.accu.n ≤ 2 ^ (32 - b.accu.n) * 2 ^ b.accu.n :=
          Nat.mul_le_mul_right _ h2
        rw [← Nat.pow_add, show 32 - b.accu.n + b.accu.n = 32 by omega] at this
        rw [Nat.add_mul] at this
        omega
      by_cases h0 : 32 - b.accu.n ≠ 0
      · rw [if_pos h0, hor]
        refine ⟨⟨hbw, Nat.le_refl _, hlt, h.nover, ?_, h.bub, h.bytes⟩, rfl, rfl, rfl⟩
        simp only [h.aub, Bool.false_or, decide_eq_false_iff_not]
        omega
      · rw [if_neg h0]
        have : b.accu.n = 32 := by omega
        refine ⟨h, this, ?_, rfl⟩
        rw [this]; simp [Nat.mod_one]
    obtain ⟨a1, ha1, hW1, hn32, hv1, _⟩ := hA
    rw [ha1]
    have hub1 : decide (32 ≤ 32 - b.accu.n) = false := by simp; omega
    have hvrest : v >>> (32 - b.accu.n) < 2 ^ (n - (32 - b.accu.n)) := by
      rw [Nat.shiftRight_eq_div_pow, Nat.div_lt_iff_lt_mul (Nat.pow_pos (by decide)), ← Nat.pow_add]
      rw [show n - (32 - b.accu.n) + (32 - b.accu.n) = n by omega]; exact hv
    by_cases hroom : 4 ≤ b.buf.bw - b.buf.fw
    · obtain ⟨r1, r2, r3, r4, r5, r6, r7, r8, r9⟩ :=
        accuFlush_spec a1 b.buf hW1 (by rw [hn32]; omega)
      generalize accuFlush a1 b.buf = q at *
      rw [hn32] at r2 r3
      refine ⟨trivial, trivial, ⟨r1.bw_le, by dsimp only; omega, hvrest, r1.nover, ?_, r1.bub,
        r1.bytes⟩, r4, r5, by omega, fun hlt => ⟨?_, ?_, ?_⟩⟩
      · dsimp only; rw [r1.aub, hub1]; rfl
      · have hle : b.buf.fw ≤ q.2.bw := Nat.le_of_lt hlt
        have := congrArg (List.take b.buf.fw) r6
        simpa [List.take_take, Nat.min_eq_left hle] using this
      · unfold plainP at r7 ⊢
        simp only
        rw [hn32] at r7
        omega
      · have hP : plainP b.accu b.buf + (32 - b.accu.n) = 8 * (q.2.data.length - q.2.bw) := by
          unfold plainP at r7 ⊢
          rw [hn32] at r7
          omega
        have hS : plainS q.1 q.2 = bval (q.2.data.drop q.2.bw) := by
          have hz : q.1.v = 0 := by
            have := r1.v_lt
            rw [r2] at this; norm_num at this; exact this
          unfold plainS; rw [hz]; simp
        have hS1 : plainS a1 b.buf =
            plainS b.accu b.buf + (v % 2 ^ (32 - b.accu.n)) * 2 ^ plainP b.accu b.buf := by
          unfold plainS plainP
          rw [hv1, Nat.pow_add, ← pow256]; ring
        change bval (q.2.data.drop q.2.bw) +
          (v >>> (32 - b.accu.n)) * 256 ^ (q.2.data.length - q.2.bw) = _
        rw [← hS, r8, hS1, pow256, ← hP, Nat.pow_add, Nat.shiftRight_eq_div_pow]
        have e2 := Nat.mod_add_div v (2 ^ (32 - b.accu.n))
        generalize 2 ^ (32 - b.accu.n) = Z at *
        generalize 2 ^ plainP b.accu b.buf = Y at *
        generalize v / Z = d at *
        generalize v % Z = m at *
        subst e2
        ring
    · obtain ⟨r1, r2, r3, r4, r5, r6, r7⟩ := accuFlush_over a1 b.buf hW1 (by rw [hn32]; omega)
      generalize accuFlush a1 b.buf = q at *
      refine ⟨trivial, trivial, ⟨by omega, by dsimp only; omega, hvrest, r6, ?_, r5, r4⟩,
        r2, r3, by omega, fun hlt => ?_⟩
      · dsimp only; rw [r7, hub1]; rfl
      · exfalso; omega

end LC3
