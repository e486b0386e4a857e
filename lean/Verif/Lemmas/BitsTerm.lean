import Verif.Lemmas.BitsAc
import Verif.Lemmas.BitsPlain

/-!
Termination of the arithmetic coder and flush of the bitstream.
-/

namespace LC3

theorem bitsLoop_spec (f r : Nat) (h : r < 2 ^ f) :
    r < 2 ^ bitsLoop f r ∧ (0 < r → 2 ^ bitsLoop f r ≤ 2 * r) ∧ bitsLoop f r ≤ f := by
  induction f generalizing r with
  | zero => simp [bitsLoop]; omega
  | succ f ih =>
    unfold bitsLoop
    split
    · rename_i h0; subst h0; simp
    · rename_i h0
      rw [Nat.shiftRight_one]
      obtain ⟨h1, h2, h3⟩ := ih (r / 2) (by rw [Nat.pow_succ] at h; omega)
      rw [Nat.pow_succ]
      refine ⟨by omega, fun _ => ?_, by omega⟩
      rcases Nat.eq_zero_or_pos (r / 2) with hz | hp
      · rw [hz] at h1 h2 h3 ⊢
        have : bitsLoop f 0 = 0 := by cases f <;> simp [bitsLoop]
        rw [this]; omega
      · have := h2 hp; omega

theorem rangeBits_spec (ac : Ac) (h1 : 2 ^ 16 ≤ ac.range) (h2 : ac.range < 2 ^ 24) :
    17 ≤ rangeBits ac ∧ rangeBits ac ≤ 24 ∧ ac.range < 2 ^ rangeBits ac ∧
    2 ^ (rangeBits ac - 1) ≤ ac.range := by
  obtain ⟨a1, a2, a3⟩ := bitsLoop_spec 32 ac.range (by omega)
  unfold rangeBits
  have a2 := a2 (by omega)
  generalize bitsLoop 32 ac.range = n at *
  have hn1 : 17 ≤ n := by
    rcases Nat.lt_or_ge n 17 with hh | hh
    · have : 2 ^ n ≤ 2 ^ 16 := Nat.pow_le_pow_right (by decide) (by omega)
      omega
    · exact hh
  have hn2 : n ≤ 24 := by
    rcases Nat.lt_or_ge 24 n with hh | hh
    · have : 2 ^ 25 ≤ 2 ^ n := Nat.pow_le_pow_right (by decide) (by omega)
      omega
    · exact hh
  refine ⟨hn1, hn2, a1, ?_⟩
  have : 2 ^ n = 2 * 2 ^ (n - 1) := by
    rw [← Nat.pow_succ']; congr 1; omega
  omega

theorem and_not32 (x j : Nat) (hx : x < 2 ^ 32) (hj : j ≤ 32) :
    x &&& not32 (2 ^ j - 1) = x / 2 ^ j * 2 ^ j := by
  apply Nat.eq_of_testBit_eq
  intro i
  rw [← Nat.shiftLeft_eq, ← Nat.shiftRight_eq_div_pow]
  unfold not32
  rw [show (0xffffffff : Nat) = 2 ^ 32 - 1 by rfl]
  simp only [Nat.testBit_and, Nat.testBit_xor, Nat.testBit_two_pow_sub_one, Nat.testBit_shiftLeft,
    Nat.testBit_shiftRight]
  by_cases h1 : i < j
  · have : i < 32 := by omega
    have h3 : ¬ (j ≤ i) := by omega
    simp [h1, this, h3]
  · have h3 : j ≤ i := by omega
    simp only [h1, decide_false, Bool.xor_false, h3, ge_iff_le, decide_true, Bool.true_and]
    rw [show j + (i - j) = i by omega]
    by_cases h4 : i < 32
    · simp [h4]
    · have : x.testBit i = false := Nat.testBit_lt_two_pow (by
        calc x < 2 ^ 32 := hx
          _ ≤ 2 ^ i := Nat.pow_le_pow_right (by decide) (by omega))
      simp [this]

/-- The termination value: a multiple `A` of `2^(24-t)` such that all of `A .. A + 2^(24-t) - 1` is
inside the interval. -/
structure TermSpec (ac : Ac) (t A : Nat) : Prop where
  t1 : 1 ≤ t
  t9 : t ≤ 9
  bits : t + rangeBits ac ≤ 26
  dvd : A % 2 ^ (24 - t) = 0
  ge : ac.low ≤ A
  le : A + 2 ^ (24 - t) ≤ ac.low + ac.range

/-- Rounding up to a multiple of `M`, modulo `2^24`. -/
theorem roundUp_spec (low M c : Nat) (hM : 0 < M) (hc : 2 ^ 24 = M * c) :
    ∃ A, A % M = 0 ∧ low ≤ A ∧ A ≤ low + (M - 1) ∧
      (low + (M - 1)) % 2 ^ 24 / M * M = A % 2 ^ 24 ∧
      (2 ^ 24 ≤ A ↔ 2 ^ 24 ≤ low + (M - 1)) ∧
      (A < 2 ^ 24 → A + M ≤ 2 ^ 24) := by
  have hx := Nat.div_add_mod (low + (M - 1)) M
  have hxlt := Nat.mod_lt (low + (M - 1)) hM
  refine ⟨M * ((low + (M - 1)) / M), by simp, by omega, by omega, ?_, ?_, ?_⟩
  · rw [hc, Nat.mul_comm M c, Nat.mul_comm M ((low + (M - 1)) / M), Nat.mul_mod_mul_right]
    congr 1
    rw [Nat.mul_comm c M, Nat.mod_mul_right_div_self]
  · constructor
    · intro h; omega
    · intro h
      have : c ≤ (low + (M - 1)) / M := by
        rw [Nat.le_div_iff_mul_le hM, Nat.mul_comm, ← hc]; exact h
      rw [hc]; exact Nat.mul_le_mul_left M this
  · intro h
    rw [hc] at h ⊢
    have : (low + (M - 1)) / M < c := Nat.lt_of_mul_lt_mul_left h
    calc M * ((low + (M - 1)) / M) + M = M * ((low + (M - 1)) / M + 1) := by ring
      _ ≤ M * c := Nat.mul_le_mul_left M this

/-- Carry of the termination value. -/
theorem term_carry (low range carry A : Nat) (hlow : low < 2 ^ 24)
    (hcar : carry ≤ 1) (h7 : carry = 1 → low + range ≤ 2 ^ 24) (h1 : low ≤ A)
    (h2 : A < low + 2 ^ 23) (h3 : A < low + range) :
    (carry ||| (if A % 2 ^ 24 < low then 1 else 0)) = carry + A / 2 ^ 24 := by
  have h4 : A / 2 ^ 24 = 0 ∨ A / 2 ^ 24 = 1 := by omega
  rcases h4 with hq | hq
  · rw [hq, if_neg (by omega), Nat.or_zero]; rfl
  · have hc0 : carry = 0 := by omega
    rw [hq, hc0, if_pos (by omega)]; rfl

theorem termVal_spec (ac : Ac) (h : AcW ac) (hr : 2 ^ 16 ≤ ac.range) :
    ∃ t A, termVal ac = (t, A % 2 ^ 24, ac.carry + A / 2 ^ 24) ∧ TermSpec ac t A := by
  obtain ⟨b1, b2, b3, b4⟩ := rangeBits_spec ac hr h.range_lt
  obtain ⟨j, hj⟩ : ∃ j, rangeBits ac = j + 1 := ⟨rangeBits ac - 1, by omega⟩
  have hj1 : 16 ≤ j := by omega
  have hj2 : j ≤ 23 := by omega
  rw [hj] at b4
  replace b4 : 2 ^ j ≤ ac.range := b4
  have h1 := h.low_lt
  have h3 := h.range_lt
  have h6 := h.carry_le
  have h7 := h.carry1
  clear h b1 b2 b3
  have hm : 0xffffff >>> (25 - (j + 1)) = 2 ^ j - 1 := by
    have : j = 16 ∨ j = 17 ∨ j = 18 ∨ j = 19 ∨ j = 20 ∨ j = 21 ∨ j = 22 ∨ j = 23 := by omega
    rcases this with h | h | h | h | h | h | h | h <;> subst h <;> rfl
  have hm2 : (2 ^ j - 1) >>> 1 = 2 ^ (j - 1) - 1 := by
    have : j = 16 ∨ j = 17 ∨ j = 18 ∨ j = 19 ∨ j = 20 ∨ j = 21 ∨ j = 22 ∨ j = 23 := by omega
    rcases this with h | h | h | h | h | h | h | h <;> subst h <;> rfl
  unfold termVal
  simp only [hj, hm, hm2, and_ffffff, shr24]
  rw [and_not32 _ j (by have := Nat.mod_lt (ac.low + (2 ^ j - 1)) (show 0 < 2 ^ 24 by decide); omega)
      (by omega),
    and_not32 _ (j - 1) (by
      have := Nat.mod_lt (ac.low + (2 ^ (j - 1) - 1)) (show 0 < 2 ^ 24 by decide); omega) (by omega)]
  have e24 : 24 - (25 - (j + 1)) = j := by omega
  have e24' : 24 - (25 - (j + 1) + 1) = j - 1 := by omega
  have hMlt : 2 ^ j ≤ 2 ^ 23 := Nat.pow_le_pow_right (by decide) hj2
  have hMpos : 0 < 2 ^ j := Nat.pow_pos (by decide)
  have hM2pos : 0 < 2 ^ (j - 1) := Nat.pow_pos (by decide)
  have hM2 : 2 ^ j = 2 * 2 ^ (j - 1) := by rw [← Nat.pow_succ']; congr 1; omega
  obtain ⟨A, r1, r2, r3, r4, r5, r6⟩ := roundUp_spec ac.low (2 ^ j) (2 ^ (24 - j)) hMpos
    (by rw [← Nat.pow_add]; congr 1; omega)
  obtain ⟨A2, s1, s2, s3, s4, s5, s6⟩ := roundUp_spec ac.low (2 ^ (j - 1)) (2 ^ (24 - (j - 1)))
    hM2pos (by rw [← Nat.pow_add]; congr 1; omega)
  rw [r4, s4]
  have t1 : TermSpec ac (25 - (j + 1) + 1) A2 := by
    refine ⟨by omega, by omega, by omega, by rw [e24']; exact s1, s2, ?_⟩
    rw [e24']
    clear r1 r2 r3 r4 r5 r6 s4 s5 s6 s1 h7
    omega
  have t2 : A + 2 ^ j ≤ ac.low + ac.range → TermSpec ac (25 - (j + 1)) A := by
    intro hle
    refine ⟨by omega, by omega, by omega, by rw [e24]; exact r1, r2, by rw [e24]; exact hle⟩
  have hd1 : (ac.low + (2 ^ j - 1)) / 16777216 ≠ 0 ↔ 2 ^ 24 ≤ A := by
    rw [r5]
    generalize ac.low + (2 ^ j - 1) = x
    omega
  have hd2 : (ac.low + ac.range) / 16777216 ≠ 0 ↔ 2 ^ 24 ≤ ac.low + ac.range := by
    generalize ac.low + ac.range = x
    omega
  have hdec : (decide ((ac.low + (2 ^ j - 1)) / 16777216 ≠ 0) =
      decide ((ac.low + ac.range) / 16777216 ≠ 0)) ↔
      (2 ^ 24 ≤ A ↔ 2 ^ 24 ≤ ac.low + ac.range) := by
    rw [decide_eq_decide, hd1, hd2]
  clear hd1 hd2 s1 r1 r4 s4 hm hm2
  generalize 2 ^ (j - 1) = M2 at *
  generalize 2 ^ j = M at *
  by_cases hov : (2 ^ 24 ≤ A ↔ 2 ^ 24 ≤ ac.low + ac.range)
  · rw [if_pos (hdec.2 hov)]
    clear hdec
    by_cases hhigh : A % 2 ^ 24 + (M - 1) ≥ (ac.low + ac.range) % 2 ^ 24
    · -- half of the mask
      rw [if_pos hhigh]
      refine ⟨_, A2, ?_, t1⟩
      simp only
      rw [term_carry ac.low ac.range ac.carry A2 h1 h6 h7 s2 (by omega) (by omega)]
    · rw [if_neg hhigh]
      have hle : A + M ≤ ac.low + ac.range := by
        clear h7 t1 t2 s2 s3 s5 s6
        by_cases hA : 2 ^ 24 ≤ A
        · have := hov.1 hA; omega
        · have : ¬ (2 ^ 24 ≤ ac.low + ac.range) := fun hh => hA (hov.2 hh)
          omega
      refine ⟨_, A, ?_, t2 hle⟩
      simp only
      rw [term_carry ac.low ac.range ac.carry A h1 h6 h7 r2 (by omega) (by omega)]
  · rw [if_neg (fun hh => hov (hdec.1 hh))]
    clear hdec
    have hA : ¬ (2 ^ 24 ≤ A) := by
      intro hA; exact hov ⟨fun _ => by omega, fun _ => hA⟩
    have hH : 2 ^ 24 ≤ ac.low + ac.range := by
      by_cases hH : 2 ^ 24 ≤ ac.low + ac.range
      · exact hH
      · exact absurd ⟨fun h => absurd h hA, fun h => absurd h hH⟩ hov
    have := r6 (by omega)
    refine ⟨_, A, ?_, t2 (by omega)⟩
    have hq : A / 2 ^ 24 = 0 := Nat.div_eq_of_lt (by omega)
    rw [hq]; rfl

theorem low_bits_lt (x n : Nat) (hn : n ≤ 8) : x &&& (0xff >>> n) = x % 2 ^ (8 - n) := by
  have : 0xff >>> n = 2 ^ (8 - n) - 1 := by
    have : n = 0 ∨ n = 1 ∨ n = 2 ∨ n = 3 ∨ n = 4 ∨ n = 5 ∨ n = 6 ∨ n = 7 ∨ n = 8 := by omega
    rcases this with h | h | h | h | h | h | h | h | h <;> subst h <;> rfl
  rw [this, Nat.and_two_pow_sub_one_eq_mod]

/-- Writing the last byte. -/
theorem last_byte_val (l : List Nat) (hl : Bytes l) (i nb e : Nat) (hi : i < l.length)
    (hnb : nb ≤ 8) (he : e < 256) (hed : e % 2 ^ (8 - nb) = 0) :
    bval (l.set i ((l.getD i 0 &&& (0xff >>> nb)) ||| e)) =
      (bval (l.take i) * 256 + e) * 256 ^ (l.length - (i + 1)) +
        bval l % (2 ^ (8 - nb) * 256 ^ (l.length - (i + 1))) ∧
    ((l.getD i 0 &&& (0xff >>> nb)) ||| e) < 256 := by
  have hM : 0 < 2 ^ (8 - nb) := Nat.pow_pos (by decide)
  have hX : 0 < 256 ^ (l.length - (i + 1)) := Nat.pow_pos (by decide)
  have hlt : l.getD i 0 % 2 ^ (8 - nb) < 2 ^ (8 - nb) := Nat.mod_lt _ hM
  have hM256 : 2 ^ (8 - nb) * 2 ^ nb = 256 := by
    rw [← Nat.pow_add, show 8 - nb + nb = 8 by omega]
  have hor : (l.getD i 0 &&& (0xff >>> nb)) ||| e = l.getD i 0 % 2 ^ (8 - nb) + e := by
    rw [low_bits_lt _ _ hnb]
    have : e = (e / 2 ^ (8 - nb)) <<< (8 - nb) := by
      rw [Nat.shiftLeft_eq]
      have := Nat.div_add_mod e (2 ^ (8 - nb))
      rw [hed] at this
      rw [Nat.mul_comm]; omega
    conv => lhs; rw [this]
    rw [or_shl _ _ _ hlt, Nat.mul_comm (e / _)]
    have := Nat.div_add_mod e (2 ^ (8 - nb))
    omega
  have hle : l.getD i 0 % 2 ^ (8 - nb) + e < 256 := by
    have h1 := Nat.div_add_mod e (2 ^ (8 - nb))
    rw [hed, Nat.add_zero] at h1
    have h2 : e / 2 ^ (8 - nb) < 2 ^ nb := by
      rw [Nat.div_lt_iff_lt_mul hM, Nat.mul_comm, hM256]; exact he
    have h3 : 2 ^ (8 - nb) * (e / 2 ^ (8 - nb) + 1) ≤ 2 ^ (8 - nb) * 2 ^ nb :=
      Nat.mul_le_mul_left _ h2
    rw [Nat.mul_add, h1, hM256] at h3
    omega
  rw [hor]
  refine ⟨?_, hle⟩
  -- value of the new list
  have hnew : bval (l.set i (l.getD i 0 % 2 ^ (8 - nb) + e)) =
      (bval (l.take i) * 256 + (l.getD i 0 % 2 ^ (8 - nb) + e)) * 256 ^ (l.length - (i + 1)) +
        bval (l.drop (i + 1)) := by
    rw [bval_split _ (i + 1), take_set_succ _ _ _ hi, bval_concat, List.length_set,
      List.drop_set_of_lt (by omega)]
  -- value of the old one
  have hold : bval l = (bval (l.take i) * 256 + l.getD i 0) * 256 ^ (l.length - (i + 1)) +
      bval (l.drop (i + 1)) := by
    rw [bval_split l (i + 1), List.take_succ_eq_append_getElem hi, bval_concat, getD_lt _ _ hi]
  have hmod : bval l % (2 ^ (8 - nb) * 256 ^ (l.length - (i + 1))) =
      l.getD i 0 % 2 ^ (8 - nb) * 256 ^ (l.length - (i + 1)) + bval (l.drop (i + 1)) := by
    have hd := bval_drop_lt hl (i + 1)
    rw [hold]
    generalize bval (l.take i) = a at *
    generalize bval (l.drop (i + 1)) = d at *
    generalize 256 ^ (l.length - (i + 1)) = X at *
    generalize l.getD i 0 = o at *
    generalize 2 ^ (8 - nb) = M at *
    generalize 2 ^ nb = N at *
    have h1 := Nat.div_add_mod o M
    have : (a * 256 + o) * X + d = (M * X) * (a * N + o / M) + ((o % M) * X + d) := by
      conv => lhs; rw [← h1, ← hM256]
      ring
    rw [this, Nat.mul_add_mod]
    apply Nat.mod_eq_of_lt
    have : (o % M + 1) * X ≤ M * X := Nat.mul_le_mul_right _ hlt
    rw [Nat.add_mul] at this
    omega
  rw [hnew, hmod]
  ring

theorem ff_run (Z c : Nat) : (Z * 256 ^ c + (256 ^ c - 1)) * 256 + 255 =
    Z * 256 ^ (c + 1) + (256 ^ (c + 1) - 1) := by
  rw [Nat.pow_succ]
  have : 0 < 256 ^ c := Nat.pow_pos (by decide)
  generalize 256 ^ c = Y at *
  have : Z * (Y * 256) = Z * Y * 256 := by ring
  omega

/-- State after the shifts of the termination: the value on `k + s` bytes. -/
theorem acTerminate_spec (ac : Ac) (b : Buf) (h : AcW ac) (hf : FwW ac b) (hr : 2 ^ 16 ≤ ac.range)
    (hfit : 8 * acK ac b + (26 - rangeBits ac) ≤ 8 * b.data.length) :
    let r := acTerminate ac b
    r.2.data.length = b.data.length ∧ Bytes r.2.data ∧ r.2.ub = b.ub ∧ r.1.ub = false ∧
    ∃ t A, TermSpec ac t A ∧ 8 * acK ac b + t ≤ 8 * b.data.length ∧
      bval r.2.data = (acHi ac b * 2 ^ 24 + A) / 2 ^ (24 - t) *
          2 ^ (8 * b.data.length - 8 * acK ac b - t) +
        bval b.data % 2 ^ (8 * b.data.length - 8 * acK ac b - t) := by
  obtain ⟨t, A, hterm, hs⟩ := termVal_spec ac h hr
  obtain ⟨b1, b2, b3, b4⟩ := rangeBits_spec ac hr h.range_lt
  have hcar : ac.carry + A / 2 ^ 24 ≤ 1 := by
    have := hs.le; have := hs.ge; have := h.carry_le; have := h.carry1
    have := h.range_lt; have := h.low_lt
    have : 0 < 2 ^ (24 - t) := Nat.pow_pos (by decide)
    omega
  have hnone : ac.cache = -1 → ac.carry + A / 2 ^ 24 = 0 ∧ A + 2 ^ (24 - t) < 2 ^ 24 := by
    intro hc
    have := h.cache_none hc; have := hs.le
    have : 0 < 2 ^ (24 - t) := Nat.pow_pos (by decide)
    omega
  have hff : ac.cache = 255 → ac.carry + A / 2 ^ 24 = 0 := by
    intro hc
    have := h.cache_ff hc; have := hs.le
    have : 0 < 2 ^ (24 - t) := Nat.pow_pos (by decide)
    omega
  have hbits := hs.bits
  have ht1 := hs.t1
  have ht9 := hs.t9
  have hdvd := hs.dvd
  have hcge := h.cache_ge
  have hcle := h.cache_le
  -- the coder with the termination value
  let ac0 : Ac := { ac with low := A % 2 ^ 24, carry := ac.carry + A / 2 ^ 24 }
  have hK0 : acK ac0 b = acK ac b := rfl
  have hHi0 : acHi ac0 b * 2 ^ 24 + A % 2 ^ 24 = acHi ac b * 2 ^ 24 + A := by
    change ((if 0 ≤ ac.cache then bval (List.take b.fw b.data) * 256 + ac.cache.toNat
          else bval (List.take b.fw b.data)) * 256 ^ ac.carryCount +
          (256 ^ ac.carryCount - 1) + (ac.carry + A / 2 ^ 24)) * 2 ^ 24 + A % 2 ^ 24 =
          ((if 0 ≤ ac.cache then bval (List.take b.fw b.data) * 256 + ac.cache.toNat
          else bval (List.take b.fw b.data)) * 256 ^ ac.carryCount +
          (256 ^ ac.carryCount - 1) + ac.carry) * 2 ^ 24 + A
    generalize (if 0 ≤ ac.cache then bval (List.take b.fw b.data) * 256 + ac.cache.toNat
          else bval (List.take b.fw b.data)) * 256 ^ ac.carryCount +
          (256 ^ ac.carryCount - 1) = X
    have := Nat.div_add_mod A (2 ^ 24)
    generalize A / 2 ^ 24 = d at *
    generalize A % 2 ^ 24 = m at *
    rw [← this]; ring
  have hf0 : FwW ac0 b := ⟨hf.1, hf.2, hf.3⟩
  -- the shifts: s of them, on the last one `nb` bits are significant
  have hshift : ∃ s nb ac2 b2, 1 ≤ s ∧ s ≤ 2 ∧ t = 8 * (s - 1) + nb ∧ 1 ≤ nb ∧ nb ≤ 8 ∧
      (∃ ac1 b1', termLoop 4 t ac0 b = (nb, ac1, b1') ∧ acShift ac1 b1' = (ac2, b2)) ∧
      b2.data.length = b.data.length ∧ b2.ub = b.ub ∧ FwW ac2 b2 ∧ ac2.ub = false ∧
      acK ac2 b2 = acK ac b + s ∧
      acHi ac2 b2 = (acHi ac b * 2 ^ 24 + A) / 2 ^ (24 - 8 * s) ∧
      (∀ j, acK ac b + s - 1 ≤ j → b2.data.drop j = b.data.drop j) ∧
      ac2.carry = 0 ∧ 0 ≤ ac2.cache ∧ ac2.cache ≤ 255 ∧
      (ac2.carryCount ≠ 0 → nb = 8) := by
    obtain ⟨g1, g2, g3, g4, g5, g6, g7, g8, g9, g10⟩ := acShift_gen ac0 b hf0 hcge
    have hroom : acK ac0 b ≤ b.data.length := by rw [hK0]; omega
    obtain ⟨v1, v2, v3, v4⟩ := acShift_val ac0 b hf0 (Nat.mod_lt _ (by decide)) hcge hcle hcar
      (fun e => (hnone e).1) hff hroom
    have hlowmod : ac0.low % 2 ^ (24 - t) = 0 := by
      change A % 2 ^ 24 % 2 ^ (24 - t) = 0
      rw [Nat.mod_mod_of_dvd _ (Nat.pow_dvd_pow 2 (by omega))]; exact hdvd
    have hlow0 : ac0.low = A % 2 ^ 24 := rfl
    by_cases ht : t ≤ 8
    · -- one shift
      have hl : termLoop 4 t ac0 b = (t, ac0, b) := by
        simp only [termLoop]; rw [if_neg (by omega)]
      refine ⟨1, t, (acShift ac0 b).1, (acShift ac0 b).2, by omega, by omega, by omega, ht1, ht,
        ⟨ac0, b, hl, rfl⟩, g3, g5, g1, by rw [g8]; exact h.ub, ?_, ?_, ?_, ?_⟩
      · rw [g9 hroom, hK0]
      · rw [v1, ← hHi0, hlow0]
        have : A % 2 ^ 24 < 2 ^ 24 := Nat.mod_lt _ (by decide)
        generalize A % 2 ^ 24 = y at *
        rw [show 24 - 8 * 1 = 16 by rfl]
        omega
      · intro j hj; exact v3 j (by rw [hK0]; omega)
      · -- cache and carry
        have hmax : 2 ^ (24 - t) ≤ 2 ^ 23 := Nat.pow_le_pow_right (by decide) (by omega)
        unfold acShift
        by_cases hcase : ac0.low < 0xff0000 ∨ ac0.carry ≠ 0
        · simp only [if_pos hcase]
          have : ac0.low < 2 ^ 24 := Nat.mod_lt _ (by decide)
          rw [shr16]
          refine ⟨trivial, by omega, by omega, fun hh => absurd rfl hh⟩
        · simp only [if_neg hcase]
          -- the last byte is 0xff: 8 bits significant
          have ht8 : t = 8 := by
            rcases Nat.lt_or_ge t 8 with hlt | hge
            · exfalso
              have h1 : ac0.low % 2 ^ 17 = 0 := by
                have hd : 2 ^ 17 ∣ 2 ^ (24 - t) := Nat.pow_dvd_pow 2 (by omega)
                exact Nat.mod_eq_zero_of_dvd (Nat.dvd_trans hd (Nat.dvd_of_mod_eq_zero hlowmod))
              have : ac0.low < 2 ^ 24 := Nat.mod_lt _ (by decide)
              omega
            · omega
          refine ⟨?_, ?_, hcle, fun _ => ht8⟩
          · omega
          · -- the cache is not empty
            rcases Int.lt_or_le ac.cache 0 with hlt | hge
            · exfalso
              have hn := hnone (by omega)
              rw [ht8] at hn
              have : ac0.low = A := by rw [hlow0]; omega
              omega
            · exact hge
    · -- two shifts
      have ht' : t = 9 := by omega
      subst ht'
      have hl : termLoop 4 9 ac0 b = (1, (acShift ac0 b).1, (acShift ac0 b).2) := by
        simp only [termLoop]
        rw [if_pos (by omega), if_neg (by omega)]
      -- state after the first shift
      have hc1 : (acShift ac0 b).1.carry = 0 ∨ ac0.low < 2 ^ 24 := by
        right; exact Nat.mod_lt _ (by decide)
      have hlow0lt : ac0.low < 2 ^ 24 := Nat.mod_lt _ (by decide)
      have hst : (acShift ac0 b).1.carry = 0 ∧ -1 ≤ (acShift ac0 b).1.cache ∧
          (acShift ac0 b).1.cache ≤ 255 := by
        unfold acShift
        by_cases hcase : ac0.low < 0xff0000 ∨ ac0.carry ≠ 0
        · simp only [if_pos hcase]; rw [shr16]
          refine ⟨trivial, by omega, by omega⟩
        · simp only [if_neg hcase]
          refine ⟨by omega, hcge, hcle⟩
      have hmod : (acShift ac0 b).1.low % 2 ^ 23 = 0 := by
        rw [v2]
        have : ac0.low % 2 ^ 15 = 0 := hlowmod
        omega
      have hlow1 : (acShift ac0 b).1.low < 2 ^ 24 := by rw [v2]; omega
      have hK1 := g9 hroom
      generalize acShift ac0 b = q at *
      obtain ⟨ac1, b1'⟩ := q
      simp only at *
      obtain ⟨g1', g2', g3', g4', g5', g6', g7', g8', g9', g10'⟩ := acShift_gen ac1 b1' g1 hst.2.1
      have hroom1 : acK ac1 b1' ≤ b1'.data.length := by rw [hK1, hK0]; omega
      obtain ⟨v1', v2', v3', v4'⟩ := acShift_val ac1 b1' g1 hlow1 hst.2.1 hst.2.2 (by omega)
        (fun _ => hst.1) (fun _ => hst.1) hroom1
      refine ⟨2, 1, (acShift ac1 b1').1, (acShift ac1 b1').2, by omega, by omega, rfl, by omega,
        by omega, ⟨ac1, b1', hl, rfl⟩, by omega, by rw [g5', g5], g1', by rw [g8', g8]; exact h.ub,
        ?_, ?_, ?_, ?_⟩
      · rw [g9' hroom1, hK1, hK0]
      · rw [v1', v1, v2, ← hHi0, hlow0]
        have : A % 2 ^ 24 < 2 ^ 24 := Nat.mod_lt _ (by decide)
        generalize A % 2 ^ 24 = y at *
        rw [show 24 - 8 * 2 = 8 by rfl]
        omega
      · intro j hj
        rw [v3' j (by rw [hK1, hK0]; omega), v3 j (by rw [hK0]; omega)]
      · unfold acShift
        have hcase : ac1.low < 0xff0000 ∨ ac1.carry ≠ 0 := by left; omega
        simp only [if_pos hcase]
        rw [shr16]
        refine ⟨trivial, by omega, by omega, fun hh => absurd rfl hh⟩
  obtain ⟨s, nb, ac2, b2, hs1, hs2, htnb, hnb1, hnb8, ⟨ac1, b1', e1, e2⟩, c1, c2, c3, c4, c5, c6, c7,
    c8, c9, c10, c11⟩ := hshift
  -- the bytes before the last one, and the last one
  have hlast : ∃ endVal b3, (if ac2.carryCount ≠ 0 then
        ((if nb < 8 then 0 else 0xff : Int), acPutN (ac2.carryCount - 1) 0xff (acPut b2 ac2.cache))
      else (ac2.cache >>> (8 - nb), b2)) = (endVal, b3) ∧
      b3.data.length = b.data.length ∧ Bytes b3.data ∧ b3.ub = b.ub ∧
      b3.fw = acK ac b + s - 1 ∧
      (∀ j, acK ac b + s - 1 ≤ j → b3.data.drop j = b.data.drop j) ∧
      byteOf (endVal * 2 ^ (8 - nb)) % 2 ^ (8 - nb) = 0 ∧
      bval (b3.data.take b3.fw) * 256 + byteOf (endVal * 2 ^ (8 - nb)) = acHi ac2 b2 := by
    have hKs : acK ac b + s ≤ b.data.length := by omega
    have hK2 : acK ac2 b2 = b2.fw + 1 + ac2.carryCount := by
      unfold acK; rw [if_pos c9]
    have hHi2 : acHi ac2 b2 = (bval (b2.data.take b2.fw) * 256 + ac2.cache.toNat) *
        256 ^ ac2.carryCount + (256 ^ ac2.carryCount - 1) := by
      unfold acHi; rw [if_pos c9, c8]; rfl
    by_cases hcc : ac2.carryCount ≠ 0
    · have hnb : nb = 8 := c11 hcc
      simp only [if_pos hcc]
      refine ⟨_, _, rfl, ?_⟩
      rw [if_neg (by omega)]
      have hcache : ac2.cache = (ac2.cache.toNat : Int) := by omega
      obtain ⟨p1, p2, p3, p4, p5, p6, p7⟩ := acPut_spec b2 ac2.cache c3.fw_le c3.bytes
      have hpv := acPut_val b2 ac2.cache.toNat (by omega) (by omega)
      rw [← hcache] at hpv
      obtain ⟨pv1, pv2⟩ := hpv
      have hpf : (acPut b2 ac2.cache).fw = b2.fw + 1 := by omega
      obtain ⟨q1, q2, q3, q4, q5, q6, q7⟩ :=
        acPutN_gen (ac2.carryCount - 1) 0xff (acPut b2 ac2.cache) (by omega) p4
      obtain ⟨w1, w2⟩ := acPutN_val (ac2.carryCount - 1) 0xff (by decide) (acPut b2 ac2.cache) p4
        (by omega)
      have hcast : ((0xff : Nat) : Int) = (0xff : Int) := rfl
      rw [hcast] at w1 w2
      generalize acPutN (ac2.carryCount - 1) 0xff (acPut b2 ac2.cache) = b3 at *
      have hf3 : b3.fw = acK ac b + s - 1 := by omega
      subst hnb
      refine ⟨by omega, q4, by rw [q6, p6, c2], hf3, ?_, by simp [Nat.mod_one], ?_⟩
      · intro j hj
        rw [w2 j (by omega), pv2 j (by omega), c7 j hj]
      · have hf3' : b3.fw = (acPut b2 ac2.cache).fw + (ac2.carryCount - 1) := by omega
        rw [hf3', w1, hpf, pv1, bval_append, bval_concat, bval_replicate_ff, List.length_replicate,
          hHi2]
        have hcc' : ac2.carryCount = (ac2.carryCount - 1) + 1 := by omega
        have hb : byteOf (255 * 2 ^ (8 - 8)) = 255 := by decide
        rw [hb]
        rw [hcc']
        exact ff_run _ _
    · have hcc0 : ac2.carryCount = 0 := by omega
      simp only [if_neg hcc]
      refine ⟨_, _, rfl, c1, c3.bytes, c2, by omega, c7, ?_⟩
      rw [hHi2, hcc0]
      simp only [Nat.pow_zero, Nat.mul_one, Nat.sub_self, Nat.add_zero]
      -- the low bits of the last byte are null
      have hQ : acHi ac2 b2 % 2 ^ (8 - nb) = 0 := by
        rw [c6]
        have : 24 - 8 * s + (8 - nb) = 24 - t := by omega
        have h1 : (acHi ac b * 2 ^ 24 + A) % 2 ^ (24 - t) = 0 := by
          have : acHi ac b * 2 ^ 24 % 2 ^ (24 - t) = 0 := by
            apply Nat.mod_eq_zero_of_dvd
            exact Nat.dvd_trans (Nat.pow_dvd_pow 2 (by omega)) (Nat.dvd_mul_left _ _)
          rw [Nat.add_mod, this, hdvd]; simp
        obtain ⟨c, hc⟩ := Nat.dvd_of_mod_eq_zero h1
        rw [hc, ← this, Nat.pow_add, Nat.mul_assoc, Nat.mul_div_cancel_left _ (Nat.pow_pos (by decide))]
        simp
      have hQ2 : ac2.cache.toNat % 2 ^ (8 - nb) = 0 := by
        rw [hHi2, hcc0] at hQ
        simp only [Nat.pow_zero, Nat.mul_one, Nat.sub_self, Nat.add_zero] at hQ
        have h256 : 256 = 2 ^ (8 - nb) * 2 ^ nb := by
          rw [← Nat.pow_add, show 8 - nb + nb = 8 by omega]
        rw [h256, ← Nat.mul_assoc, Nat.mul_comm (bval _) (2 ^ (8 - nb)), Nat.mul_assoc,
          Nat.mul_add_mod] at hQ
        exact hQ
      have hbyte : byteOf (ac2.cache >>> (8 - nb) * 2 ^ (8 - nb)) = ac2.cache.toNat := by
        have hcache : ac2.cache = (ac2.cache.toNat : Int) := by omega
        obtain ⟨c, hc⟩ := Nat.dvd_of_mod_eq_zero hQ2
        have hsh : ac2.cache >>> (8 - nb) = (c : Int) := by
          rw [Int.shiftRight_eq_div_pow, hcache, hc]
          norm_cast
          exact Nat.mul_div_cancel_left _ (Nat.pow_pos (by decide))
        rw [hsh]
        have : (c : Int) * 2 ^ (8 - nb) = ac2.cache := by
          rw [hcache, hc]; push_cast; ring
        rw [this]
        unfold byteOf; omega
      rw [hbyte]
      exact ⟨hQ2, rfl⟩
  obtain ⟨endVal, b3, l1, l2, l3, l4, l5, l6, l7, l8⟩ := hlast
  have hres : acTerminate ac b = (ac2, Buf.mk (b3.data.set b3.fw
      ((b3.data.getD b3.fw 0 &&& (0xff >>> nb)) ||| byteOf (endVal * 2 ^ (8 - nb))))
      b3.fw b3.bw b3.ub) := by
    unfold acTerminate
    have e1' : termLoop 4 t { ac with low := A % 2 ^ 24, carry := ac.carry + A / 2 ^ 24 } b =
      (nb, ac1, b1') := e1
    simp only [hterm, e1', e2]
    have hlt : b3.fw < b3.data.length := by omega
    by_cases hcc : ac2.carryCount ≠ 0
    · rw [if_pos hcc] at l1 ⊢
      obtain ⟨rfl, rfl⟩ := Prod.mk.inj l1
      simp only [if_pos hlt]
    · rw [if_neg hcc] at l1 ⊢
      obtain ⟨rfl, rfl⟩ := Prod.mk.inj l1
      simp only [if_pos hlt]
  rw [hres]
  obtain ⟨y1, y2⟩ := last_byte_val b3.data l3 b3.fw nb (byteOf (endVal * 2 ^ (8 - nb))) (by omega)
    hnb8 (byteOf_lt _) l7
  refine ⟨by simpa using l2, l3.set _ y2, l4, c4, t, A, hs, by omega, ?_⟩
  dsimp only
  rw [y1, l8, c6]
  have hD : 2 ^ (8 - nb) * 256 ^ (b3.data.length - (b3.fw + 1)) =
      2 ^ (8 * b.data.length - 8 * acK ac b - t) := by
    rw [pow256, ← Nat.pow_add]; congr 1; omega
  rw [hD]
  congr 1
  · -- high part
    have h1 : (acHi ac b * 2 ^ 24 + A) % 2 ^ (24 - t) = 0 := by
      have : acHi ac b * 2 ^ 24 % 2 ^ (24 - t) = 0 := by
        apply Nat.mod_eq_zero_of_dvd
        exact Nat.dvd_trans (Nat.pow_dvd_pow 2 (by omega)) (Nat.dvd_mul_left _ _)
      rw [Nat.add_mod, this, hdvd]; simp
    obtain ⟨c, hc⟩ := Nat.dvd_of_mod_eq_zero h1
    rw [hc, Nat.mul_div_cancel_left _ (Nat.pow_pos (by decide))]
    have : 24 - t = 24 - 8 * s + (8 - nb) := by omega
    rw [this, Nat.pow_add, Nat.mul_assoc, Nat.mul_div_cancel_left _ (Nat.pow_pos (by decide)), ← hD]
    ring
  · -- low part: not changed
    have hsplit : ∀ l : List Nat, l.length = b.data.length → Bytes l →
        bval l % 2 ^ (8 * b.data.length - 8 * acK ac b - t) =
        bval (l.drop (acK ac b + s - 1)) % 2 ^ (8 * b.data.length - 8 * acK ac b - t) := by
      intro l hl _
      rw [bval_split l (acK ac b + s - 1)]
      have : 2 ^ (8 * b.data.length - 8 * acK ac b - t) ∣ 256 ^ (l.length - (acK ac b + s - 1)) := by
        rw [pow256]; exact Nat.pow_dvd_pow 2 (by omega)
      obtain ⟨c, hc⟩ := this
      rw [hc, ← Nat.mul_assoc, Nat.mul_comm (bval _) _, Nat.mul_assoc, Nat.mul_add_mod]
    rw [hsplit b3.data l2 l3, hsplit b.data rfl hf.bytes, l6 _ (Nat.le_refl _)]

end LC3
