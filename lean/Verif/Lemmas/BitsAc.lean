import Verif.Model.Bits
import Verif.Lemmas.Bval

/-!
Writing side of the arithmetic coder: invariant, and exact value of the code produced.
-/

namespace LC3

/-- Number of bytes shifted out of the coder, written or pending. -/
def acK (ac : Ac) (b : Buf) : Nat := b.fw + (if 0 ≤ ac.cache then 1 else 0) + ac.carryCount

/-- Value of the bytes shifted out of the coder, including the pending carry. -/
def acHi (ac : Ac) (b : Buf) : Nat :=
  (if 0 ≤ ac.cache then bval (b.data.take b.fw) * 256 + ac.cache.toNat
   else bval (b.data.take b.fw)) * 256 ^ ac.carryCount + (256 ^ ac.carryCount - 1) + ac.carry

/-- Lower bound of the current interval, as an integer on `acK + 3` bytes. -/
def acT (ac : Ac) (b : Buf) : Nat := acHi ac b * 2 ^ 24 + ac.low

/-- Invariant of the coder state. -/
structure AcW (ac : Ac) : Prop where
  low_lt : ac.low < 2 ^ 24
  range_pos : 0 < ac.range
  range_lt : ac.range < 2 ^ 24
  cache_ge : -1 ≤ ac.cache
  cache_le : ac.cache ≤ 255
  carry_le : ac.carry ≤ 1
  carry1 : ac.carry = 1 → ac.low + ac.range ≤ 2 ^ 24
  cache_none : ac.cache = -1 → ac.carry = 0 ∧ ac.low + ac.range < 2 ^ 24
  cache_ff : ac.cache = 255 → ac.carry = 0 ∧ ac.low + ac.range ≤ 2 ^ 24
  ub : ac.ub = false

/-- Invariant of the forward part of the buffer. -/
structure FwW (ac : Ac) (b : Buf) : Prop where
  fw_le : b.fw ≤ b.data.length
  bytes : Bytes b.data
  none : ac.cache = -1 → b.fw = 0

/-! #### Output of bytes -/

theorem byteOf_lt (x : Int) : byteOf x < 256 := by unfold byteOf; omega

theorem acPut_spec (b : Buf) (x : Int) (h : b.fw ≤ b.data.length) (hb : Bytes b.data) :
    (acPut b x).fw ≤ b.data.length ∧ b.fw ≤ (acPut b x).fw ∧
    (acPut b x).data.length = b.data.length ∧ Bytes (acPut b x).data ∧
    (acPut b x).bw = b.bw ∧ (acPut b x).ub = b.ub ∧
    (acPut b x).fw = min (b.fw + 1) b.data.length := by
  unfold acPut
  split
  · refine ⟨by dsimp only; omega, by dsimp only; omega, by simp, hb.set _ (byteOf_lt x), rfl, rfl,
      by dsimp only; omega⟩
  · refine ⟨h, Nat.le_refl _, rfl, hb, rfl, rfl, by omega⟩

theorem acPutN_gen (k : Nat) (x : Int) (b : Buf) (h : b.fw ≤ b.data.length) (hb : Bytes b.data) :
    (acPutN k x b).fw ≤ b.data.length ∧ b.fw ≤ (acPutN k x b).fw ∧
    (acPutN k x b).data.length = b.data.length ∧ Bytes (acPutN k x b).data ∧
    (acPutN k x b).bw = b.bw ∧ (acPutN k x b).ub = b.ub ∧
    (acPutN k x b).fw = min (b.fw + k) b.data.length := by
  induction k generalizing b with
  | zero => simp [acPutN, h, hb]
  | succ k ih =>
    obtain ⟨h1, h2, h3, h4, h5, h6, h7⟩ := acPut_spec b x h hb
    obtain ⟨i1, i2, i3, i4, i5, i6, i7⟩ := ih (acPut b x) (by omega) h4
    simp only [acPutN]
    refine ⟨by omega, by omega, by omega, i4, by omega, by rw [i6, h6], by rw [i7, h7, h3]; omega⟩

theorem acPut_val (b : Buf) (x : Nat) (hx : x < 256) (h : b.fw < b.data.length) :
    (acPut b x).data.take (b.fw + 1) = b.data.take b.fw ++ [x] ∧
    (∀ j, b.fw + 1 ≤ j → (acPut b x).data.drop j = b.data.drop j) := by
  unfold acPut
  rw [if_pos h]
  have : byteOf x = x := by unfold byteOf; omega
  rw [this]
  exact ⟨take_set_succ _ _ _ h, fun j hj => List.drop_set_of_lt (by omega)⟩

theorem acPutN_val (k : Nat) (x : Nat) (hx : x < 256) (b : Buf) (hb : Bytes b.data)
    (h : b.fw + k ≤ b.data.length) :
    (acPutN k x b).data.take (b.fw + k) = b.data.take b.fw ++ List.replicate k x ∧
    (∀ j, b.fw + k ≤ j → (acPutN k x b).data.drop j = b.data.drop j) := by
  induction k generalizing b with
  | zero => simp [acPutN]
  | succ k ih =>
    obtain ⟨h1, h2, h3, h4, h5, h6, h7⟩ := acPut_spec b x (by omega) hb
    obtain ⟨v1, v2⟩ := acPut_val b x hx (by omega)
    have hf : (acPut b x).fw = b.fw + 1 := by omega
    obtain ⟨i1, i2⟩ := ih (acPut b x) h4 (by omega)
    simp only [acPutN]
    constructor
    · rw [hf] at i1
      rw [show b.fw + (k + 1) = b.fw + 1 + k by omega, i1, v1, List.append_assoc,
        List.replicate_succ]
      rfl
    · intro j hj
      rw [i2 j (by omega), v2 j (by omega)]

/-! #### Shift -/

/-- What holds of a shift whatever the room. -/
theorem acShift_gen (ac : Ac) (b : Buf) (hf : FwW ac b) (hc : -1 ≤ ac.cache) :
    let r := acShift ac b
    FwW r.1 r.2 ∧ b.fw ≤ r.2.fw ∧ r.2.data.length = b.data.length ∧ r.2.bw = b.bw ∧
    r.2.ub = b.ub ∧ r.1.range = ac.range ∧ r.1.error = ac.error ∧ r.1.ub = ac.ub ∧
    (acK ac b ≤ b.data.length → acK r.1 r.2 = acK ac b + 1) ∧
    (b.data.length < acK ac b → b.data.length < acK r.1 r.2) := by
  unfold acShift
  by_cases h : ac.low < 0xff0000 ∨ ac.carry ≠ 0
  · simp only [if_pos h]
    have hP : ∃ b1, (if 0 ≤ ac.cache then acPut b (ac.cache + ac.carry) else b) = b1 ∧
        b1.fw ≤ b.data.length ∧ b.fw ≤ b1.fw ∧ b1.data.length = b.data.length ∧ Bytes b1.data ∧
        b1.bw = b.bw ∧ b1.ub = b.ub ∧
        b1.fw = min (b.fw + if 0 ≤ ac.cache then 1 else 0) b.data.length := by
      refine ⟨_, rfl, ?_⟩
      split
      · exact acPut_spec b _ hf.fw_le hf.bytes
      · exact ⟨hf.fw_le, Nat.le_refl _, rfl, hf.bytes, rfl, rfl, by have := hf.fw_le; omega⟩
    obtain ⟨b1, e1, p1, p2, p3, p4, p5, p6, p7⟩ := hP
    rw [e1]
    obtain ⟨q1, q2, q3, q4, q5, q6, q7⟩ :=
      acPutN_gen ac.carryCount (if ac.carry ≠ 0 then 0x00 else 0xff) b1 (by omega) p4
    generalize acPutN ac.carryCount (if ac.carry ≠ 0 then 0x00 else 0xff) b1 = b2 at *
    refine ⟨⟨by omega, q4, fun hh => ?_⟩, by omega, by omega, by omega, by rw [q6, p6], trivial, trivial,
      trivial, ?_, ?_⟩
    · exfalso; dsimp only at hh; omega
    · unfold acK; dsimp only
      rw [if_pos (by omega : (0:Int) ≤ ((ac.low >>> 16 : Nat) : Int))]
      intro hk; rw [q7, p7, p3]; omega
    · unfold acK; dsimp only
      rw [if_pos (by omega : (0:Int) ≤ ((ac.low >>> 16 : Nat) : Int))]
      intro hk; rw [q7, p7, p3]; omega
  · simp only [if_neg h]
    refine ⟨⟨hf.fw_le, hf.bytes, hf.none⟩, Nat.le_refl _, trivial, trivial, trivial, trivial, trivial, trivial,
      ?_, ?_⟩
    · intro _; unfold acK; dsimp only; omega
    · unfold acK; dsimp only; omega

/-- Value of a shift, when there is room for the bytes output. -/
theorem acShift_val (ac : Ac) (b : Buf) (hf : FwW ac b) (hlow : ac.low < 2 ^ 24)
    (hc : -1 ≤ ac.cache) (hc' : ac.cache ≤ 255) (hcar : ac.carry ≤ 1)
    (hn : ac.cache = -1 → ac.carry = 0) (hff : ac.cache = 255 → ac.carry = 0)
    (hroom : acK ac b ≤ b.data.length) :
    let r := acShift ac b
    acHi r.1 r.2 = 256 * acHi ac b + ac.low / 2 ^ 16 ∧ r.1.low = ac.low % 2 ^ 16 * 256 ∧
    (∀ j, acK ac b ≤ j → r.2.data.drop j = b.data.drop j) ∧ r.2.fw ≤ acK ac b := by
  have hk : ac.low <<< 8 &&& 0xffffff = ac.low % 2 ^ 16 * 256 := by
    rw [shl8, and_ffffff]; omega
  unfold acShift
  by_cases h : ac.low < 0xff0000 ∨ ac.carry ≠ 0
  · simp only [if_pos h]
    refine ⟨?_, hk, ?_⟩
    all_goals
      have hP : ∃ b1, (if 0 ≤ ac.cache then acPut b (ac.cache + ac.carry) else b) = b1 ∧
          b1.data.length = b.data.length ∧ Bytes b1.data ∧
          b1.fw = b.fw + (if 0 ≤ ac.cache then 1 else 0) ∧
          bval (b1.data.take b1.fw) = (if 0 ≤ ac.cache then
            bval (b.data.take b.fw) * 256 + ac.cache.toNat else bval (b.data.take b.fw)) +
              ac.carry ∧
          (∀ j, b1.fw ≤ j → b1.data.drop j = b.data.drop j) := by
        refine ⟨_, rfl, ?_⟩
        unfold acK at hroom
        by_cases h0 : 0 ≤ ac.cache
        · simp only [if_pos h0] at hroom ⊢
          obtain ⟨p1, p2, p3, p4, p5, p6, p7⟩ := acPut_spec b (ac.cache + ac.carry) hf.fw_le hf.bytes
          have hx : ac.cache + (ac.carry : Int) = ((ac.cache.toNat + ac.carry : Nat) : Int) := by omega
          have hx' : ac.cache.toNat + ac.carry < 256 := by
            rcases Nat.lt_or_ge ac.cache.toNat 255 with hl | hl
            · omega
            · have := hff (by omega); omega
          have hfw : (acPut b (ac.cache + ac.carry)).fw = b.fw + 1 := by omega
          obtain ⟨v1, v2⟩ := acPut_val b (ac.cache.toNat + ac.carry) hx' (by omega)
          rw [← hx] at v1 v2
          refine ⟨p3, p4, hfw, ?_, ?_⟩
          · rw [hfw, v1, bval_concat]; omega
          · rw [hfw]; exact v2
        · simp only [if_neg h0] at hroom ⊢
          have := hn (by omega)
          exact ⟨trivial, hf.bytes, rfl, by rw [this]; rfl, fun _ _ => trivial⟩
      obtain ⟨b1, e1, p3, p4, p7, p8, p9⟩ := hP
      rw [e1]
      have hroom2 : b1.fw + ac.carryCount ≤ b1.data.length := by
        unfold acK at hroom; omega
      obtain ⟨q1, q2, q3, q4, q5, q6, q7⟩ :=
        acPutN_gen ac.carryCount (if ac.carry ≠ 0 then 0x00 else 0xff) b1 (by omega) p4
      have hv := acPutN_val ac.carryCount (if ac.carry ≠ 0 then 0x00 else 0xff)
        (by split <;> decide) b1 p4 hroom2
      have hcast : (((if ac.carry ≠ 0 then 0x00 else 0xff : Nat)) : Int) =
        (if ac.carry ≠ 0 then 0x00 else 0xff : Int) := by split <;> rfl
      rw [hcast] at hv
      obtain ⟨v1, v2⟩ := hv
      generalize hb2 : acPutN ac.carryCount (if ac.carry ≠ 0 then 0x00 else 0xff) b1 = b2 at *
      have hfw2 : b2.fw = b1.fw + ac.carryCount := by omega
    · unfold acHi
      dsimp only
      rw [if_pos (by omega : (0:Int) ≤ ((ac.low >>> 16 : Nat) : Int))]
      rw [hfw2, v1, bval_append, List.length_replicate, p8]
      generalize (if 0 ≤ ac.cache then bval (List.take b.fw b.data) * 256 + ac.cache.toNat
          else bval (List.take b.fw b.data)) = X
      have hlow16 : ((ac.low >>> 16 : Nat) : Int).toNat = ac.low / 2 ^ 16 := by
        rw [Int.toNat_natCast, Nat.shiftRight_eq_div_pow]
      rw [hlow16]
      have hpow : 0 < 256 ^ ac.carryCount := Nat.pow_pos (by decide)
      by_cases hcar0 : ac.carry = 0
      · rw [hcar0]
        simp only [ne_eq, not_true_eq_false, if_false, bval_replicate_ff, Nat.pow_zero,
          Nat.mul_one, Nat.sub_self, Nat.add_zero]
        ring
      · have hcar1 : ac.carry = 1 := by omega
        rw [hcar1]
        simp only [ne_eq, Nat.one_ne_zero, not_false_eq_true, if_true, bval_replicate_zero,
          Nat.pow_zero, Nat.mul_one, Nat.sub_self, Nat.add_zero]
        have : 256 ^ ac.carryCount - 1 + 1 = 256 ^ ac.carryCount := by omega
        rw [Nat.add_assoc (X * _), this]
        ring
    · refine ⟨?_, ?_⟩
      · intro j hj
        unfold acK at hj
        rw [v2 j (by omega), p9 j (by omega)]
      · unfold acK; omega
  · simp only [if_neg h]
    refine ⟨?_, hk, fun _ _ => trivial, ?_⟩
    · have hcar0 : ac.carry = 0 := by omega
      have hl : ac.low / 2 ^ 16 = 255 := by omega
      unfold acHi
      dsimp only
      rw [hcar0, hl]
      generalize (if 0 ≤ ac.cache then bval (List.take b.fw b.data) * 256 + ac.cache.toNat
          else bval (List.take b.fw b.data)) = X
      have hpow : 0 < 256 ^ ac.carryCount := Nat.pow_pos (by decide)
      rw [Nat.pow_succ]
      generalize 256 ^ ac.carryCount = Y at *
      have : X * (Y * 256) = 256 * (X * Y) := by ring
      rw [this]
      omega
    · unfold acK; omega

/-- Preservation of the coder invariant by a shift followed by the scaling of the range. -/
theorem acShift_inv (ac : Ac) (b : Buf) (h : AcW ac) (hr : ac.range < 0x10000) :
    AcW { (acShift ac b).1 with range := (ac.range <<< 8) % 2 ^ 32 } := by
  obtain ⟨h1, h2, h3, h4, h5, h6, h7, h8, h9, h10⟩ := h
  have hk : ac.low <<< 8 &&& 0xffffff = ac.low % 2 ^ 16 * 256 := by
    rw [shl8, and_ffffff]; omega
  have hr2 : (ac.range <<< 8) % 2 ^ 32 = ac.range * 256 := by rw [shl8]; omega
  rw [hr2]
  unfold acShift
  by_cases hcase : ac.low < 0xff0000 ∨ ac.carry ≠ 0
  · simp only [if_pos hcase, hk, shr16]
    refine ⟨by dsimp only; omega, by dsimp only; omega, by dsimp only; omega, by dsimp only; omega,
      by dsimp only; omega, by dsimp only; omega, by dsimp only; omega, ?_, ?_, h10⟩
    · dsimp only; omega
    · dsimp only; omega
  · simp only [if_neg hcase, hk]
    refine ⟨by dsimp only; omega, by dsimp only; omega, by dsimp only; omega, h4, h5, h6,
      by dsimp only; omega, ?_, ?_, h10⟩
    · dsimp only; omega
    · dsimp only; omega

/-! #### Renormalisation -/

theorem acHi_congr {ac ac' : Ac} (b : Buf) (h1 : ac.cache = ac'.cache)
    (h2 : ac.carryCount = ac'.carryCount) (h3 : ac.carry = ac'.carry) :
    acHi ac b = acHi ac' b := by unfold acHi; rw [h1, h2, h3]

theorem acK_congr {ac ac' : Ac} (b : Buf) (h1 : ac.cache = ac'.cache)
    (h2 : ac.carryCount = ac'.carryCount) : acK ac b = acK ac' b := by unfold acK; rw [h1, h2]

/-- Effect of the write renormalisation, when the code fits before `bw`. -/
theorem writeRenorm_spec (f : Nat) (ac : Ac) (b : Buf) (h : AcW ac) (hf : FwW ac b)
    (hr : 2 ^ 16 ≤ ac.range * 256 ^ f) (hbw : b.bw ≤ b.data.length) :
    let r := writeRenorm f ac b
    AcW r.1 ∧ FwW r.1 r.2 ∧ 2 ^ 16 ≤ r.1.range ∧ r.2.bw = b.bw ∧ r.2.ub = b.ub ∧
    r.2.data.length = b.data.length ∧ b.fw ≤ r.2.fw ∧ r.1.error = ac.error ∧
    (acK r.1 r.2 ≤ b.bw → ∃ j, acK r.1 r.2 = acK ac b + j ∧
      acT r.1 r.2 = acT ac b * 256 ^ j ∧ r.1.range = ac.range * 256 ^ j ∧
      (r.2.fw ≤ b.bw ∨ j = 0) ∧
      r.2.data.drop b.bw = b.data.drop b.bw) := by
  induction f generalizing ac b with
  | zero =>
    simp only [Nat.pow_zero, Nat.mul_one] at hr
    have : ¬ (ac.range < 0x10000) := by omega
    simp only [writeRenorm, this, decide_false, Bool.or_false]
    exact ⟨⟨h.1, h.2, h.3, h.4, h.5, h.6, h.7, h.8, h.9, h.10⟩, ⟨hf.1, hf.2, hf.3⟩, hr, trivial, trivial, trivial,
      Nat.le_refl _, trivial, fun _ => ⟨0, rfl, by simp [acT, acHi], by simp, .inr rfl, trivial⟩⟩
  | succ f ih =>
    by_cases hlt : ac.range < 0x10000
    · obtain ⟨g1, g2, g3, g4, g5, g6, g7, g8, g9, g10⟩ := acShift_gen ac b hf h.cache_ge
      have hinv := acShift_inv ac b h hlt
      have hval := acShift_val ac b hf h.low_lt h.cache_ge h.cache_le h.carry_le
        (fun e => (h.cache_none e).1) (fun e => (h.cache_ff e).1)
      have hr2 : (ac.range <<< 8) % 2 ^ 32 = ac.range * 256 := by rw [shl8]; omega
      simp only [writeRenorm, if_pos hlt]
      generalize hs : acShift ac b = s at *
      obtain ⟨s1, s2⟩ := s
      simp only at g1 g2 g3 g4 g5 g6 g7 g8 g9 g10 hinv hval ⊢
      rw [g6]
      have hfw : FwW { s1 with range := (ac.range <<< 8) % 2 ^ 32 } s2 := ⟨g1.1, g1.2, g1.3⟩
      obtain ⟨i1, i2, i3, i4, i5, i6, i7, i8, i9⟩ := ih _ s2 hinv hfw (by
        dsimp only; rw [hr2]; rw [Nat.pow_succ] at hr
        rw [Nat.mul_assoc, Nat.mul_comm 256]; exact hr) (by omega)
      generalize writeRenorm f { s1 with range := (ac.range <<< 8) % 2 ^ 32 } s2 = w at *
      refine ⟨i1, i2, i3, by omega, by rw [i5, g5], by omega, by omega, by rw [i8]; exact g7, ?_⟩
      intro hk
      obtain ⟨j, j1, j2, j3, j4, j5⟩ := i9 (by omega)
      replace j1 : acK w.1 w.2 = acK s1 s2 + j := j1
      have hroom : acK ac b ≤ b.data.length := by
        rcases Nat.lt_or_ge b.data.length (acK ac b) with hh | hh
        · have := g10 hh; omega
        · exact hh
      have hk1 := g9 hroom
      obtain ⟨v1, v2, v3, v4⟩ := hval hroom
      refine ⟨j + 1, by omega, ?_, ?_, .inl ?_, ?_⟩
      · rw [j2]
        change (acHi s1 s2 * 2 ^ 24 + s1.low) * 256 ^ j = (acHi ac b * 2 ^ 24 + ac.low) * 256 ^ (j + 1)
        rw [v1, v2, Nat.pow_succ]
        have := Nat.div_add_mod ac.low (2 ^ 16)
        generalize ac.low / 2 ^ 16 = d at *
        generalize ac.low % 2 ^ 16 = m at *
        rw [← this]
        ring
      · rw [j3]; dsimp only; rw [hr2, Nat.pow_succ]; ring
      · rcases j4 with j4 | j4
        · omega
        · -- no further shift: the write pointer is that of the first shift
          have : w.2.fw ≤ acK w.1 w.2 := by unfold acK; omega
          omega
      · rw [← g4, j5, g4, v3 _ (by omega)]
    · have : ac.range ≥ 2 ^ 16 := by omega
      simp only [writeRenorm, if_neg hlt]
      exact ⟨h, hf, this, trivial, trivial, trivial, Nat.le_refl _, trivial,
        fun _ => ⟨0, rfl, by simp, by simp, .inr rfl, trivial⟩⟩

/-! #### Symbols -/

/-- A well formed distribution: 17 symbols that tile `[0, 1024)`. -/
structure AcModel.WF (m : AcModel) : Prop where
  zero : (m.sym 0).low = 0
  next : ∀ s, s < 16 → (m.sym s).low + (m.sym s).range = (m.sym (s + 1)).low
  last : (m.sym 16).low + (m.sym 16).range = 1024

theorem AcModel.WF.low_le {m : AcModel} (h : m.WF) (s t : Nat) (hst : s < t) (ht : t ≤ 16) :
    (m.sym s).low + (m.sym s).range ≤ (m.sym t).low := by
  induction t with
  | zero => omega
  | succ t ih =>
    rcases Nat.lt_or_ge s t with hlt | hge
    · have := ih hlt (by omega)
      have := h.next t (by omega)
      omega
    · have : s = t := by omega
      subst this
      rw [h.next s (by omega)]

theorem AcModel.WF.high_le {m : AcModel} (h : m.WF) (s : Nat) (hs : s ≤ 16) :
    (m.sym s).low + (m.sym s).range ≤ 1024 := by
  rcases Nat.lt_or_ge s 16 with hlt | hge
  · have := h.low_le s 16 hlt (by omega)
    have := h.last
    omega
  · have : s = 16 := by omega
    subst this; rw [h.last]

/-- A symbol that can be coded. -/
def AcModel.Codable (m : AcModel) (s : Nat) : Prop := s ≤ 16 ∧ 0 < (m.sym s).range

/-- Effect of coding a symbol. -/
theorem putSymbol_spec (b : Bits) (m : AcModel) (s : Nat) (hm : m.WF) (hs : m.Codable s)
    (h : AcW b.ac) (hf : FwW b.ac b.buf) (hr : 2 ^ 16 ≤ b.ac.range)
    (hbw : b.buf.bw ≤ b.buf.data.length) :
    let r := putSymbol b m s
    r.rd = b.rd ∧ r.accu = b.accu ∧
    AcW r.ac ∧ FwW r.ac r.buf ∧ 2 ^ 16 ≤ r.ac.range ∧ r.buf.bw = b.buf.bw ∧ r.buf.ub = b.buf.ub ∧
    r.buf.data.length = b.buf.data.length ∧ b.buf.fw ≤ r.buf.fw ∧ r.ac.error = b.ac.error ∧
    (acK r.ac r.buf ≤ b.buf.bw → ∃ j, acK r.ac r.buf = acK b.ac b.buf + j ∧
      acT r.ac r.buf = (acT b.ac b.buf + b.ac.range / 1024 * (m.sym s).low) * 256 ^ j ∧
      r.ac.range = b.ac.range / 1024 * (m.sym s).range * 256 ^ j ∧
      r.buf.data.drop b.buf.bw = b.buf.data.drop b.buf.bw) := by
  obtain ⟨h1, h2, h3, h4, h5, h6, h7, h8, h9, h10⟩ := h
  obtain ⟨hs16, hpos⟩ := hs
  have hhigh := hm.high_le s hs16
  -- the products
  have hlow : b.ac.range / 1024 * (m.sym s).low + b.ac.range / 1024 * (m.sym s).range ≤ b.ac.range := by
    rw [← Nat.mul_add]
    calc b.ac.range / 1024 * ((m.sym s).low + (m.sym s).range) ≤ b.ac.range / 1024 * 1024 :=
          Nat.mul_le_mul_left _ hhigh
      _ ≤ b.ac.range := Nat.div_mul_le_self _ _
  have hrpos : 64 ≤ b.ac.range / 1024 * (m.sym s).range := by
    have h64 : 64 ≤ b.ac.range / 1024 := by omega
    calc 64 = 64 * 1 := rfl
      _ ≤ b.ac.range / 1024 * (m.sym s).range := Nat.mul_le_mul h64 hpos
  unfold putSymbol
  simp only [shr10, shr24, and_ffffff]
  generalize hL : b.ac.range / 1024 * (m.sym s).low = L at *
  generalize hR : b.ac.range / 1024 * (m.sym s).range = R at *
  have e1 : (b.ac.low + L) % 2 ^ 32 = b.ac.low + L := Nat.mod_eq_of_lt (by omega)
  have e2 : R % 2 ^ 32 = R := Nat.mod_eq_of_lt (by omega)
  rw [e1, e2]
  -- carry
  have hc : (b.ac.carry ||| (b.ac.low + L) / 16777216) * 2 ^ 24 + (b.ac.low + L) % 2 ^ 24 =
      b.ac.carry * 2 ^ 24 + (b.ac.low + L) ∧
      (b.ac.carry ||| (b.ac.low + L) / 16777216) = b.ac.carry + (b.ac.low + L) / 16777216 := by
    have hd : (b.ac.low + L) / 16777216 = 0 ∨ (b.ac.low + L) / 16777216 = 1 := by omega
    rcases hd with hd | hd
    · rw [hd, Nat.or_zero]; omega
    · have : b.ac.carry = 0 := by omega
      rw [hd, this]; simp; omega
  obtain ⟨hc1, hc2⟩ := hc
  -- the state before renormalisation
  have hW : AcW { b.ac with low := (b.ac.low + L) % 2 ^ 24, range := R
                            carry := b.ac.carry ||| (b.ac.low + L) / 16777216 } := by
    refine ⟨by dsimp only; omega, by dsimp only; omega, by dsimp only; omega, h4, h5, ?_, ?_, ?_,
      ?_, h10⟩ <;> dsimp only <;> rw [hc2]
    · omega
    · omega
    · intro hh; have := h8 hh; omega
    · intro hh; have := h9 hh; omega
  have hF : FwW { b.ac with low := (b.ac.low + L) % 2 ^ 24, range := R
                            carry := b.ac.carry ||| (b.ac.low + L) / 16777216 } b.buf :=
    ⟨hf.1, hf.2, hf.3⟩
  have hT : acT { b.ac with low := (b.ac.low + L) % 2 ^ 24, range := R
                            carry := b.ac.carry ||| (b.ac.low + L) / 16777216 } b.buf =
      acT b.ac b.buf + L := by
    unfold acT acHi
    dsimp only
    generalize (if 0 ≤ b.ac.cache then bval (List.take b.buf.fw b.buf.data) * 256 + b.ac.cache.toNat
          else bval (List.take b.buf.fw b.buf.data)) * 256 ^ b.ac.carryCount +
          (256 ^ b.ac.carryCount - 1) = X
    rw [Nat.add_mul, Nat.add_mul, Nat.add_assoc, hc1]
    ring
  by_cases hren : R < 0x10000
  · simp only [if_pos hren]
    have h3' : 2 ^ 16 ≤ R * 256 ^ 3 := by omega
    have key := fun f hf => writeRenorm_spec f _ b.buf hW hF hf hbw
    replace key := key 3 h3'
    generalize writeRenorm 3 _ b.buf = w at key ⊢
    obtain ⟨i1, i2, i3, i4, i5, i6, i7, i8, i9⟩ := key
    refine ⟨trivial, trivial, i1, i2, i3, i4, i5, i6, i7, i8, ?_⟩
    intro hk
    obtain ⟨j, j1, j2, j3, j4, j5⟩ := i9 hk
    exact ⟨j, by rw [j1]; rfl, by rw [j2, hT], j3, j5⟩
  · simp only [if_neg hren]
    refine ⟨trivial, trivial, hW, hF, by omega, trivial, trivial, trivial, Nat.le_refl _, trivial, ?_⟩
    intro _
    exact ⟨0, rfl, by rw [hT]; simp, by simp, trivial⟩

end LC3
