import Verif.Lemmas.FrameRt
import Verif.Props.Spec

/-!
Complete frame: spectrum.
-/

namespace LC3

variable {R : Type}

/-! ### Gain -/

theorem gainDown_range (A : Arith R) (f : Nat) (i : Int) (g : R) (h : i.natAbs ≤ f) :
    0 ≤ (gainDown A f i g).1 ∧ ((gainDown A f i g).1 = i ∨ (gainDown A f i g).1 < 28) := by
  induction f generalizing i g with
  | zero => rw [gainDown]; exact ⟨by omega, Or.inl rfl⟩
  | succ f ih =>
    rw [gainDown]
    by_cases hi : i < 0
    · rw [if_pos hi]
      by_cases h2 : i + 28 < 0
      · obtain ⟨h3, h4⟩ := ih (i + 28) (A.mul g (A.ofRat (1/10))) (by omega)
        exact ⟨h3, Or.inr (by omega)⟩
      · have e : ∀ (f : Nat) g', (gainDown A f (i + 28) g').1 = i + 28 := by
          intro f g'
          cases f with
          | zero => rfl
          | succ f => rw [gainDown, if_neg h2]
        rw [e]
        exact ⟨by omega, Or.inr (by omega)⟩
    · rw [if_neg hi]
      exact ⟨by dsimp only; omega, Or.inl rfl⟩

theorem gainUp_range (A : Arith R) (f : Nat) (i : Int) (g : R) (h0 : 0 ≤ i) (h : i < 28 + f) :
    0 ≤ (gainUp A f i g).1 ∧ (gainUp A f i g).1 < 28 := by
  induction f generalizing i g with
  | zero => rw [gainUp]; exact ⟨by dsimp only; omega, by dsimp only; omega⟩
  | succ f ih =>
    rw [gainUp]
    by_cases hi : i ≥ 28
    · rw [if_pos hi]; exact ih _ _ (by omega) (by omega)
    · rw [if_neg hi]; exact ⟨h0, by dsimp only; omega⟩

/-- The index in the gain table is always inside. -/
theorem unquantizeGain_some (A : Arith R) (i : Int) : ∃ g, unquantizeGain A i = some g := by
  unfold unquantizeGain
  dsimp only
  obtain ⟨h1, h2⟩ := gainDown_range A i.natAbs i (A.ofRat 1) (Nat.le_refl _)
  obtain ⟨h3, h4⟩ := gainUp_range A i.natAbs _ (gainDown A i.natAbs i (A.ofRat 1)).2 h1 (by omega)
  rw [if_neg (by omega)]
  generalize (gainUp A i.natAbs _ (gainDown A i.natAbs i (A.ofRat 1)).2) = q at *
  have : q.1.toNat < iqTable.length := by
    have : iqTable.length = 28 := rfl
    omega
  rw [List.getElem?_eq_getElem this]
  exact ⟨_, rfl⟩

theorem bwStop_le (dt : Dt) (sr : Srate) (bw : Nat) (h : BwValid sr bw) : bwStop dt bw ≤ ne dt sr := by
  have hb : bw ≤ sr.idx := by
    unfold BwValid at h
    split at h <;> omega
  have hall : ∀ (k : Fin 7), k.1 ≤ sr.idx → bwStop dt k.1 ≤ ne dt sr := by cases dt <;> cases sr <;> decide
  have h7 : sr.idx < 7 := by cases sr <;> decide
  exact hall ⟨bw, by omega⟩ hb

theorem ne_ge (dt : Dt) (sr : Srate) : 2 ≤ ne dt sr := by cases dt <;> cases sr <;> decide

theorem unquantize_length (A : Arith R) (n : Nat) (g : R) (x : List R) (h : x.length ≤ n) :
    (unquantize A n g x).length = n := by
  unfold unquantize
  rw [List.length_append, List.length_map, List.length_replicate]
  omega

theorem specFinish_some (A : Arith R) (dt : Dt) (sr : Srate) (bw nbytes : Nat) (side : SpecSide) (nf seed : Nat)
    (xq : List R) (hb : BwValid sr bw) (hx : xq.length ≤ ne dt sr) :
    ∃ x, specFinish A dt sr bw nbytes side nf seed xq = some x := by
  unfold specFinish
  obtain ⟨g, hg⟩ := unquantizeGain_some A ((side.gIdx : Int) - gainOffset sr nbytes)
  rw [hg, Option.bind_some]
  dsimp only
  have hl := unquantize_length A (ne dt sr) g xq hx
  have h2 := ne_ge dt sr
  rw [List.getElem?_eq_getElem (by omega), List.getElem?_eq_getElem (by omega), Option.bind_some, Option.bind_some]
  split
  · rw [fillNoise_eq A dt bw nf seed g side.nq _ (by rw [hl]; exact bwStop_le dt sr bw hb)]
    exact ⟨_, rfl⟩
  · exact ⟨_, rfl⟩

/-! ### Noise seed -/

theorem seedAll_noise (l : List Int) (h : l.length % 2 = 0) : seedAll 0 0 l = noiseSeed l := by
  rw [seedAll_eq _ _ _ h (by decide), Nat.zero_add, seedSum_noise]

theorem seedLsb_noise (l : List Coef) (n : Int) (heven : l.length % 2 = 0) :
    seedLsb (seedAll 0 0 (received true l)) 0 (received true l) (restored n l) = noiseSeed (restored n l) := by
  have hlen : (received true l).length % 2 = 0 := by rw [received_length true l heven]; exact heven
  have hs := seedAll_eq (received true l) 0 0 hlen (by decide)
  rw [Nat.zero_add] at hs
  obtain ⟨s1, s2⟩ := seedLsb_eq _ _ (seedAll 0 0 (received true l)) 0 (restored_step l n heven) hlen (by
    rw [hs]; exact Nat.mod_lt _ (by decide))
  rw [← seedSum_noise]
  rw [hs] at s1 s2 ⊢
  generalize seedSum 0 (received true l) = A at *
  generalize seedSum 0 (restored n l) = B at *
  generalize seedLsb (A % 65536) 0 (received true l) (restored n l) = C at *
  omega

/-! ### Spectrum -/

/-- The operations of the spectrum, until the quantised values. -/
def opsSpecHead (dt : Dt) (sr : Srate) (nbytes : Nat) (side : SpecSide) (nf : Nat) (c : List Coef) : List Op :=
  .bits nf 3 :: opsQuantized (highRate sr nbytes) side.lsbMode (ne dt sr) 0 0 c

/-- The operations of the spectrum, after the quantised values, with `n` bits left. -/
def opsSpecTail (A : Arith R) (sr : Srate) (side : SpecSide) (x : List R) (n : Int) : List Op :=
  if side.lsbMode then opsLsb n ((x.take side.nq).map (quantCoef A sr.hr))
  else opsResidual A sr.hr n.toNat (x.take side.nq)

/-- The coefficients coded in the frame. -/
def codedCoefs (A : Arith R) (sr : Srate) (side : SpecSide) (x : List R) : List Coef :=
  (x.take side.nq).map (quantCoef A sr.hr)

theorem specEncode_ops (A : Arith R) (dt : Dt) (sr : Srate) (bw nbytes : Nat) (side : SpecSide) (x : List R)
    (hb : BwValid sr bw) (hx : x.length = ne dt sr) (b : Bits) :
    ∃ nf ≤ 7, estimateNoise A dt bw sr.hr x side.nq = some nf ∧ specEncode A dt sr bw nbytes side x b =
      let b := putOps b (opsSpecHead dt sr nbytes side nf (codedCoefs A sr side x))
      some (putOps b (opsSpecTail A sr side x (getBitsLeft b))) := by
  have h1 := bwStop_le dt sr bw hb
  refine ⟨noiseFactor A (noiseAll A x
      (noiseLines dt bw (zeroEst A sr.hr (min side.nq (bwStop dt bw)) x)) (A.ofRat 0, 0)), noiseFactor_le A _,
      estimateNoise_eq A dt bw sr.hr x side.nq (by omega), ?_⟩
  unfold specEncode
  rw [estimateNoise_eq A dt bw sr.hr x side.nq (by omega), Option.map_some]
  dsimp only
  unfold opsSpecHead codedCoefs opsSpecTail
  rw [putOps_cons, putQuantized_ops]
  generalize noiseFactor A _ = nf
  change some (if side.lsbMode then putLsb (getBitsLeft (putOps (putBits b nf 3) _)) _ (putOps (putBits b nf 3) _) else
    putResidual A sr.hr (getBitsLeft (putOps (putBits b nf 3) _)).toNat _ (putOps (putBits b nf 3) _)) = some (putOps (putOps (putBits b nf 3) _) _)
  by_cases hl : side.lsbMode = true
  · rw [if_pos hl, if_pos hl, putLsb_ops]; rfl
  · rw [if_neg hl, if_neg hl, putResidual_ops]; rfl

theorem opsSpecHead_valid (A : Arith R) (dt : Dt) (sr : Srate) (nbytes : Nat) (side : SpecSide) (nf : Nat) (x : List R)
    (hn : nf ≤ 7) (hc : CoefOk sr.hr (codedCoefs A sr side x)) :
    ∀ o ∈ opsSpecHead dt sr nbytes side nf (codedCoefs A sr side x), o.Valid := by
  intro o ho
  unfold opsSpecHead at ho
  rcases List.mem_cons.mp ho with rfl | ho
  · exact ⟨by omega, by omega, by omega⟩
  · exact opsQuantized_valid _ _ sr.hr _ _ _ _ (by decide) hc o ho

theorem opsSpecTail_valid (A : Arith R) (sr : Srate) (side : SpecSide) (x : List R) (n : Int) :
    ∀ o ∈ opsSpecTail A sr side x n, o.Valid := by
  unfold opsSpecTail
  split
  · exact opsLsb_valid _ _
  · exact encIter_valid _ _ _ _ _ _

theorem opsSpecTail_bits (A : Arith R) (sr : Srate) (side : SpecSide) (x : List R) (n : Int) :
    (∀ o ∈ opsSpecTail A sr side x n, ∃ v, v < 2 ∧ o = Op.bits v 1) ∧
    ((opsSpecTail A sr side x n).length : Int) ≤ max n 0 := by
  unfold opsSpecTail
  split
  · exact ⟨opsLsb_bits _ _, opsLsb_length _ _⟩
  · refine ⟨encIter_bits _ _ _ _ _ _, ?_⟩
    have := encIter_count A (A.ofRat (if sr.hr then 1/2 else 10/16))
      (A.div (A.ofRat (if sr.hr then 1/2 else 10/16)) (A.ofRat 2)) (if sr.hr then 20 else 1) n.toNat (x.take side.nq)
    unfold opsResidual
    omega

/-- When the quantised values fit, everything fits. -/
theorem tail_fits (A : Arith R) (sr : Srate) (side : SpecSide) (x : List R) (b : Bits) (hb : WInv b)
    (h : 0 ≤ bitsLeftRaw b) : 0 ≤ bitsLeftRaw (putOps b (opsSpecTail A sr side x (getBitsLeft b))) := by
  obtain ⟨h1, h2⟩ := opsSpecTail_bits A sr side x (getBitsLeft b)
  have h3 : ((opsSpecTail A sr side x (getBitsLeft b)).length : Int) ≤ bitsLeftRaw b := by
    have h4 : max (getBitsLeft b) 0 = bitsLeftRaw b := by unfold getBitsLeft; split <;> omega
    omega
  rw [putOps_bits _ h1 b hb h3]
  omega

theorem getResidual_length (A : Arith R) (hr : Bool) (n : Nat) (l : List R) (r : Bits) :
    (getResidual A hr n l r).1.length = l.length := by
  have hp : ∀ o1 o2 n (l : List R) r, (getResidualPass A o1 o2 n l r).2.1.length = l.length := by
    intro o1 o2 n l r
    fun_induction getResidualPass A o1 o2 n l r with
    | case1 => rfl
    | case2 n x l r h w ih => simp only [List.length_cons, w, ih]
    | case3 n x l r h v r' e w ih => simp only [List.length_cons, w, ih]
    | case4 => rfl
  have hi : ∀ f o1 o2 n (l : List R) r, (getResidualIter A f o1 o2 n l r).1.length = l.length := by
    intro f
    induction f with
    | zero => intros; rfl
    | succ f ih =>
      intro o1 o2 n l r
      rw [getResidualIter]
      split
      · rfl
      · dsimp only; rw [ih, hp]
  exact hi _ _ _ _ _ _

/-- Decoding of the spectrum, in sync with the encoding. -/
theorem specDecode_ready (A : Arith R) (dt : Dt) (sr : Srate) (bw nbytes : Nat) (side : SpecSide) (x : List R)
    (nf : Nat) (hb : BwValid sr bw) (hx : x.length = ne dt sr) (hs : side.Valid dt sr)
    (hc : CoefOk sr.hr (codedCoefs A sr side x)) {F : List Nat} (b r : Bits)
    (h15 : 15 ≤ plainP b.accu b.buf)
    (hl : 0 ≤ bitsLeftRaw (putOps b (opsSpecHead dt sr nbytes side nf (codedCoefs A sr side x))))
    (h : Ready F b r (opsSpecHead dt sr nbytes side nf (codedCoefs A sr side x) ++ opsSpecTail A sr side x
      (getBitsLeft (putOps b (opsSpecHead dt sr nbytes side nf (codedCoefs A sr side x)))))) :
    ∃ (l : List Int) (xq xf : List R) (r1 r2 : Bits),
      specDecode A dt sr bw nbytes side r = (.ok ⟨nf, l, noiseSeed l, xq, xf⟩, r2) ∧
      checkBits r2 = true ∧
      specFinish A dt sr bw nbytes side nf (noiseSeed l) xq = some xf ∧
      let b1 := putOps b (opsSpecHead dt sr nbytes side nf (codedCoefs A sr side x))
      Ready F b1 r1 (opsSpecTail A sr side x (getBitsLeft b1)) ∧
      (side.lsbMode = true → l = restored (getBitsLeft b1) (codedCoefs A sr side x) ∧ xq = l.map A.ofInt) ∧
      (side.lsbMode = false → l = (codedCoefs A sr side x).map Coef.val ∧
        xq = (getResidual A sr.hr (getBitsLeft b1).toNat (l.map A.ofInt) r1).1) := by
  have hclen : (codedCoefs A sr side x).length = side.nq := by
    unfold codedCoefs
    rw [List.length_map, List.length_take]
    have := hs.nq
    omega
  have heven : (codedCoefs A sr side x).length % 2 = 0 := by rw [hclen]; exact hs.even
  generalize hC : codedCoefs A sr side x = c at *
  have hv0 : ∀ o ∈ opsSpecHead dt sr nbytes side nf c, o.Valid := fun o ho => h.valid o (List.mem_append_left _ ho)
  have hw1 := (winv_ops _ b h.inv hv0).1
  have hf1 : Fit (putOps b (opsSpecHead dt sr nbytes side nf c)) := by
    have := h.fit
    rw [putOps_append] at this
    exact fit_back_ops _ _ hw1 (opsSpecTail_valid A sr side x _) this
  have hp1 : 15 ≤ plainP (putOps b (opsSpecHead dt sr nbytes side nf c)).accu (putOps b (opsSpecHead dt sr nbytes side nf c)).buf := by
    rw [plainP_ops _ b h.inv hv0 hf1]; omega
  generalize hb1 : putOps b (opsSpecHead dt sr nbytes side nf c) = b1 at *
  generalize hT : opsSpecTail A sr side x (getBitsLeft b1) = T at *
  have htail := tail_fits A sr side x b1 hw1 hl
  rw [hT] at htail
  -- noise factor, quantised values
  unfold opsSpecHead at h hb1
  obtain ⟨ra, ea, ha⟩ := Ready.bits (rest := opsQuantized (highRate sr nbytes) side.lsbMode (ne dt sr) 0 0 c ++ T) h
  obtain ⟨r1, e1, h1⟩ := getQuantized_ready (highRate sr nbytes) side.lsbMode sr.hr (ne dt sr) (side.nq / 2) 0 0 0 c
    (by have := hs.even; omega) hc _ _ ha
  have hbb : putOps (putBits b nf 3) (opsQuantized (highRate sr nbytes) side.lsbMode (ne dt sr) 0 0 c) = b1 := hb1
  rw [hbb] at h1
  have hraw := h1.bitsLeft hp1
  have hleft : getBitsLeft r1 = getBitsLeft b1 := by unfold getBitsLeft; rw [hraw]
  unfold specDecode
  rw [ea]
  dsimp only
  rw [e1]
  dsimp only
  rw [hleft]
  by_cases hlsb : side.lsbMode = true
  · -- LSB mode
    have hT' : T = opsLsb (getBitsLeft b1) c := by
      rw [← hT, ← hC]
      unfold opsSpecTail codedCoefs
      rw [if_pos hlsb]
    have h1' : Ready F b1 r1 (opsLsb (getBitsLeft b1) c ++ []) := by rw [List.append_nil, ← hT']; exact h1
    obtain ⟨r2, e2, h2⟩ := getLsb_ready c 0 (seedAll 0 0 (received true c)) (getBitsLeft b1) (getBitsLeft b1) (Or.inl rfl) _ _ h1'
    rw [seedLsb_noise _ _ heven] at e2
    rw [← hT'] at h2
    obtain ⟨xf, hxf⟩ := specFinish_some A dt sr bw nbytes side nf (noiseSeed (restored (getBitsLeft b1) c))
      ((restored (getBitsLeft b1) c).map A.ofInt) hb (by
        rw [List.length_map, ← (restored_lsbOf c (getBitsLeft b1) heven).length_eq, hclen]; exact hs.nq)
    refine ⟨restored (getBitsLeft b1) c, _, xf, r1, r2, ?_, ?_, hxf, hT.symm ▸ h1, fun _ => ⟨rfl, rfl⟩, fun hh => ?_⟩
    · rw [hlsb, if_pos rfl, e2]
      dsimp only
      rw [hxf]
    · have hp2 : 15 ≤ plainP (putOps b1 T).accu (putOps b1 T).buf := by
        have hvT := h1.valid
        rw [plainP_ops T b1 hw1 hvT h1.fit]; omega
      have := h2.bitsLeft hp2
      unfold checkBits
      rw [h2.sync.error, this, decide_eq_false (by omega)]
      rfl
    · rw [hlsb] at hh; cases hh
  · -- residual
    have hlf : side.lsbMode = false := by simpa using hlsb
    rw [hlf, received_false c heven, seedAll_noise _ (by rw [List.length_map]; exact heven)]
    rw [if_neg (by decide)]
    obtain ⟨xf, hxf⟩ := specFinish_some A dt sr bw nbytes side nf (noiseSeed (c.map Coef.val))
      (getResidual A sr.hr (getBitsLeft b1).toNat ((c.map Coef.val).map A.ofInt) r1).1 hb (by
        rw [getResidual_length, List.length_map, List.length_map, hclen]; exact hs.nq)
    refine ⟨c.map Coef.val, _, xf, r1, (getResidual A sr.hr (getBitsLeft b1).toNat ((c.map Coef.val).map A.ofInt) r1).2,
      ?_, ?_, hxf, hT.symm ▸ h1, fun hh => ?_, fun _ => ⟨rfl, rfl⟩⟩
    · rw [hxf]
    · obtain ⟨g1, g2⟩ := getResidualIter_left A (if sr.hr then 20 else 1) (A.ofRat (if sr.hr then 1/4 else 5/16))
        (A.ofRat (if sr.hr then 1/4 else 3/16)) (getBitsLeft b1).toNat ((c.map Coef.val).map A.ofInt) r1
      unfold checkBits getResidual
      rw [g2, h1.sync.error, decide_eq_false]
      · rfl
      · have : ((getBitsLeft b1).toNat : Int) ≤ bitsLeftRaw r1 := by
          rw [hraw]; unfold getBitsLeft; split <;> omega
        omega
    · cases hh

end LC3
