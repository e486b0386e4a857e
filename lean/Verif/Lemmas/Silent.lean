import Verif.Lemmas.FrameSpec

/-!
Frames without any arithmetic coded symbol.
-/

namespace LC3

/-- The arithmetic coder at its beginning. -/
def acFresh : Ac :=
  { low := 0, range := 0xffffff, cache := -1, carry := 0, carryCount := 0, error := false, ub := false }

theorem bval_set0_le (l : List Nat) (m : Nat) : bval (l.set 0 (l.getD 0 0 &&& m)) ≤ bval l := by
  cases l with
  | nil => simp
  | cons a l =>
    simp only [List.set_cons_zero, List.getD_cons_zero]
    have e : ∀ x : Nat, bval (x :: l) = x * 256 ^ l.length + bval l := by
      intro x
      have := bval_split (x :: l) 1
      simpa [bval] using this
    rw [e, e]
    have : a &&& m ≤ a := Nat.and_le_left
    have := Nat.mul_le_mul_right (256 ^ l.length) this
    omega

theorem acTerminate_fresh (b : Buf) (h : b.fw = 0) : bval (acTerminate acFresh b).2.data ≤ bval b.data := by
  have e : (acTerminate acFresh b).2.data =
      if b.fw < b.data.length then b.data.set b.fw (b.data.getD b.fw 0 &&& 127) else b.data := by
    have h1 : termVal acFresh = (1, 0, 0) := by decide +kernel
    unfold acTerminate
    rw [h1]
    simp only [termLoop, acShift, acFresh]
    have hb : byteOf 0 = 0 := by decide +kernel
    simp [hb, acPutN]
    split <;> rfl
  rw [e]
  split
  · rw [h]; exact bval_set0_le _ _
  · exact Nat.le_refl _

/-- The frame holds the plain bits only, nothing in the high weights. -/
theorem flush_fresh (b : Bits) (h : WInv b) (hac : b.ac = acFresh) (hfw : b.buf.fw = 0) (hfit : 0 ≤ bitsLeftRaw b) :
    bval (flushBits b).buf.data ≤ plainS b.accu b.buf := by
  rw [bitsLeftRaw_write b h] at hfit
  obtain ⟨hrd, hA, hAc, hF, hR, hE⟩ := h
  obtain ⟨r1, r2, r3, r4⟩ := rangeBits_spec b.ac hR hAc.range_lt
  have hfwk : b.buf.fw ≤ acK b.ac b.buf := by unfold acK; omega
  have hbl := hA.bw_le
  obtain ⟨p1, p2, p3, p4, p5, p6, p7, p8, p9⟩ :=
    padLoop_spec (8 * (b.buf.bw - b.buf.fw) - b.accu.n) (8 * (b.buf.bw - b.buf.fw) - b.accu.n) b
      (Nat.le_refl _) hA (by omega) (by omega)
  have hn : (8 * ((b.buf.bw : Int) - b.buf.fw) - b.accu.n).toNat =
      8 * (b.buf.bw - b.buf.fw) - b.accu.n := by omega
  unfold flushBits
  simp only [hn]
  generalize padLoop (8 * (b.buf.bw - b.buf.fw) - b.accu.n) (8 * (b.buf.bw - b.buf.fw) - b.accu.n) b
    = c at *
  obtain ⟨f1, f2, f3, f4, f5, f6, f7, f8, f9⟩ := accuFlush_spec c.accu c.buf p3 (by omega)
  generalize accuFlush c.accu c.buf = d at *
  obtain ⟨a, e⟩ := d
  simp only at *
  have he : e.bw = b.buf.fw := by omega
  have hv0 : a.v = 0 := by
    have h1 := f1.v_lt
    have h2 : a.n = 0 := by omega
    rw [h2] at h1; omega
  have hdrop : bval e.data = plainS b.accu b.buf := by
    rw [← p9, ← f8]; unfold plainS; rw [hv0, he, hfw]; simp
  rw [p2, hac, ← hdrop]
  exact acTerminate_fresh e (by omega)

/-- A frame of plain bits: the coder remains at its beginning. -/
theorem fresh_ops (ops : List Op) (hp : ∀ o ∈ ops, ∃ v n, o = .bits v n) (b : Bits) (hb : WInv b)
    (hv : ∀ o ∈ ops, o.Valid) (hf : Fit (putOps b ops)) : (putOps b ops).ac = b.ac ∧ (putOps b ops).buf.fw = b.buf.fw := by
  induction ops generalizing b with
  | nil => exact ⟨rfl, rfl⟩
  | cons o ops ih =>
    obtain ⟨v, n, rfl⟩ := hp o (by simp)
    have ho := hv _ (List.mem_cons_self ..)
    have hr := fun o' (ho' : o' ∈ ops) => hv o' (by simp [ho'])
    have hi := (winv_put b hb (.bits v n) ho).1
    have hf1 := fit_back_ops ops _ hi hr hf
    obtain ⟨i1, i2⟩ := ih (fun o ho => hp o (by simp [ho])) _ hi hr hf
    rw [putOps_cons]
    obtain ⟨e1, e2, e3, e4, e5⟩ := bits_effect b hb v n ⟨ho.1, by have := ho.2.1; omega⟩ ho.2.2 hf1
    refine ⟨by rw [i1]; exact e5, ?_⟩
    rw [i2]
    change (putBits b v n).buf.fw = b.buf.fw
    unfold acK at e3
    rw [e5] at e3
    omega

theorem putSymbol_fresh (b : Bits) (hac : b.ac = acFresh) (hfw : b.buf.fw = 0) (m : AcModel) (hm : m.WF)
    (h0 : 0 < (m.sym 0).range) :
    (putSymbol b m 0).buf.bw = b.buf.bw ∧ acK (putSymbol b m 0).ac (putSymbol b m 0).buf ≤ 1 := by
  have hR : (m.sym 0).range ≤ 1024 := by
    have h1 := hm.next 0 (by decide)
    have h2 := hm.low_le 0 16 (by decide) (by decide)
    have h3 := hm.last
    have h4 := hm.zero
    omega
  have e1 : acFresh.range >>> 10 = 16383 := by decide
  have e2 : (acFresh.low + 16383 * 0) % 2 ^ 32 = 0 := by decide
  unfold putSymbol
  rw [hac, hm.1]
  dsimp only
  rw [e1, e2]
  generalize (m.sym 0).range = R at *
  have e3 : 16383 * R % 2 ^ 32 = 16383 * R := Nat.mod_eq_of_lt (by omega)
  rw [e3]
  by_cases h : 16383 * R < 0x10000
  · rw [if_pos h, writeRenorm, if_pos h]
    dsimp only
    have e4 : (16383 * R) <<< 8 % 2 ^ 32 = 16383 * R * 256 := by
      rw [Nat.shiftLeft_eq]; exact Nat.mod_eq_of_lt (by omega)
    have e5 : acShift { acFresh with low := 0 &&& 0xffffff, range := 16383 * R, carry := acFresh.carry ||| 0 >>> 24 } b.buf =
        ({ acFresh with range := 16383 * R, cache := 0 }, b.buf) := by
      simp [acShift, acFresh, acPutN]
    rw [e5]
    dsimp only
    rw [e4, writeRenorm, if_neg (by dsimp only; omega)]
    simp [acK, acFresh, hfw]
  · rw [if_neg h]
    simp [acK, acFresh, hfw]

/-- After plain bits only, the reader finds symbols 0. -/
theorem ready_fresh (data : List Nat) (ops : List Op) (sh32 : Nat → Nat) (hd : Bytes data) (h4 : 4 ≤ data.length)
    (hv : ∀ o ∈ ops, o.Valid) (hp : ∀ o ∈ ops, ∃ v n, o = .bits v n)
    (hroom : (ops.map Op.plain).sum + 32 ≤ 8 * data.length)
    (hl : 0 ≤ bitsLeftRaw (putOps (setupWrite data) ops)) (m : AcModel) (hm : m.WF) (h0 : 0 < (m.sym 0).range) :
    Ready (encodeOps data ops) (setupWrite data) (setupRead sh32 (encodeOps data ops)) (ops ++ [.sym m 0]) := by
  have hR := ready_of_encode data ops sh32 hd h4 hv hl
  have hi := hR.inv
  obtain ⟨w1, w2⟩ := winv_ops ops _ hi hv
  obtain ⟨e1, e2⟩ := fresh_ops ops hp _ hi hv hR.fit
  have hP := plainP_ops ops _ hi hv hR.fit
  have hP0 : plainP (setupWrite data).accu (setupWrite data).buf = 0 := by simp [plainP, setupWrite]
  have hfl := flush_fresh _ w1 e1 e2 hl
  have hS := plainS_lt w1.accu
  have hc := hR.covers
  have hlen : (encodeOps data ops).length = data.length := by
    rw [hc.len, w2]; rfl
  have hbv : bval (encodeOps data ops) < 2 ^ (8 * data.length - 32) := by
    have : 2 ^ plainP (putOps (setupWrite data) ops).accu (putOps (setupWrite data) ops).buf ≤ 2 ^ (8 * data.length - 32) :=
      Nat.pow_le_pow_right (by decide) (by omega)
    have h2 : bval (encodeOps data ops) ≤ _ := hfl
    omega
  have hpv : ∀ k, k ≤ 4 → pval (encodeOps data ops) k = 0 := by
    intro k hk
    unfold pval
    apply Nat.div_eq_of_lt
    have h1 : 256 ^ k ≤ 256 ^ 4 := Nat.pow_le_pow_right (by decide) hk
    have h2 := Nat.mul_le_mul_left (bval (encodeOps data ops)) h1
    have h3 : 256 ^ data.length = 2 ^ (8 * data.length - 32) * 256 ^ 4 := by
      rw [pow256, pow256, ← Nat.pow_add]; congr 1; omega
    rw [hlen, h3]
    have h4 := Nat.mul_lt_mul_of_pos_right hbv (show 0 < 256 ^ 4 by decide)
    omega
  have hv' : ∀ o ∈ ops ++ [Op.sym m 0], o.Valid := by
    intro o ho
    rcases List.mem_append.mp ho with ho | ho
    · exact hv o ho
    · rw [List.mem_singleton] at ho; subst ho; exact ⟨hm, by omega, h0⟩
  have hbw : 3 ≤ (putOps (setupWrite data) ops).buf.bw := by
    have h1 := w1.accu.n_le
    have h2 := w1.accu.bw_le
    unfold plainP at hP hP0
    rw [w2] at h2 hP
    change _ ≤ data.length at h2
    change 8 * (data.length - _) + _ = _ at hP
    omega
  have hsym : (putSymbol (putOps (setupWrite data) ops) m 0).buf.bw = (putOps (setupWrite data) ops).buf.bw ∧
      acK (putSymbol (putOps (setupWrite data) ops) m 0).ac (putSymbol (putOps (setupWrite data) ops) m 0).buf ≤ 1 :=
    putSymbol_fresh _ e1 e2 m hm h0
  have hfit : Fit (putOps (setupWrite data) (ops ++ [.sym m 0])) := by
    rw [putOps_append]
    show Fit (putSymbol (putOps (setupWrite data) ops) m 0)
    unfold Fit
    omega
  refine ⟨hi, hv', hfit, ?_, hR.sync⟩
  rw [putOps_append] at hfit ⊢
  change Fit (putSymbol (putOps (setupWrite data) ops) m 0) at hfit
  show Covers _ (putSymbol (putOps (setupWrite data) ops) m 0)
  have hs0 : m.Codable 0 := ⟨by omega, h0⟩
  obtain ⟨s1, s2, s3, s4, j, s5, s6, s7⟩ := sym_effect _ w1 m 0 hm hs0 hfit
  have hK : acK (putOps (setupWrite data) ops).ac (putOps (setupWrite data) ops).buf = 0 := by
    rw [e1]; unfold acK; rw [e2]; rfl
  have hT : acT (putOps (setupWrite data) ops).ac (putOps (setupWrite data) ops).buf = 0 := by
    rw [acT, acHi, e1, e2]; simp [setupWrite]
  rw [hT, hm.1, Nat.mul_zero, Nat.add_zero, Nat.zero_mul] at s6
  rw [hK, Nat.zero_add] at s5
  have hj : j ≤ 1 := by omega
  refine ⟨?_, hc.bytes, by rw [s1, s2]; exact hc.plain, by rw [s6]; exact Nat.zero_le _, ?_, ?_⟩
  · rw [hc.len]
    exact ((winv_put _ w1 (.sym m 0) ⟨hm, hs0⟩).2).symm
  · rw [s6, s5, Nat.zero_add, hpv _ (by omega)]
    omega
  · rw [s5, s1, hlen]; omega

end LC3
