import Mathlib.Data.Nat.Bitwise
import Verif.Lemmas.Lcg
import Verif.Props.Frame

/-!
Properties of the noise: C30 (pseudo-random generators) and C44 (lines filled with noise).
-/

namespace LC3

/-! ### C30: pseudo-random generators -/

/-- **C30**, noise filling: from any state, each of the 65536 states is reached exactly once in 65536 steps. -/
theorem C30_noise_visits_all (s t : Nat) (hs : s < 65536) (ht : t < 65536) :
    ∃! k, k < 65536 ∧ noiseLcg^[k] s = t := by
  rw [noiseLcg_affine]; exact affine_visits _ noise15 noise16 s t hs ht

/-- **C30**, noise filling: a state comes back after `n` steps only when `n` is a multiple of 65536. -/
theorem C30_noise_period (s n : Nat) (hs : s < 65536) : noiseLcg^[n] s = s ↔ 65536 ∣ n := by
  rw [noiseLcg_affine, ← affine_period _ noise15 noise16 s hs]
  exact Function.isPeriodicPt_iff_minimalPeriod_dvd

/-- **C30**, concealment: from any state, each of the 65536 states is reached exactly once in 65536 steps. -/
theorem C30_plc_visits_all (s t : Nat) (hs : s < 65536) (ht : t < 65536) :
    ∃! k, k < 65536 ∧ plcLcg^[k] s = t := by
  rw [plcLcg_affine]; exact affine_visits _ plc15 plc16 s t hs ht

/-- **C30**, concealment: a state comes back after `n` steps only when `n` is a multiple of 65536. -/
theorem C30_plc_period (s n : Nat) (hs : s < 65536) : plcLcg^[n] s = s ↔ 65536 ∣ n := by
  rw [plcLcg_affine, ← affine_period _ plc15 plc16 s hs]
  exact Function.isPeriodicPt_iff_minimalPeriod_dvd

/-- **C30**, the products and the sums of the two generators fit in an `int` of 32 bits, for all states; the state remains
a `uint16_t`. -/
theorem C30_no_overflow (s : Nat) (hs : s < 65536) :
    (13849 + s * 31821 < 2 ^ 31 ∧ noiseLcg s = (13849 + s * 31821) % 2 ^ 16) ∧
    (16831 + s * 12821 < 2 ^ 31 ∧ plcLcg s = (16831 + s * 12821) % 2 ^ 16) := by
  rw [noiseLcg_affine, plcLcg_affine]
  exact ⟨⟨by omega, rfl⟩, ⟨by omega, rfl⟩⟩

/-- The first states from 0, and from the initial seed of the concealment. -/
example : noiseLcg^[1] 0 = 13849 ∧ noiseLcg^[2] 0 = 38814 ∧ plcLcg^[1] 24607 = 12874 := by decide +kernel

/-! ### C44: lines filled with noise -/

/-- Width of the neighbourhood, per duration. -/
def noiseWidth : Dt → Nat
  | .m2_5 => 1 | .m5 => 1 | .m7_5 => 2 | .m10 => 3

/-- The line `j` is in the noise region, and `zero` holds for the coefficients around it that are below `lim`. -/
structure NoiseLine {R : Type} (dt : Dt) (bwEnd lim : Nat) (zero : R → Prop) (x : List R) (j : Nat) : Prop where
  /-- not in the low frequencies -/
  low : 6 * (1 + dt.idx) ≤ j
  /-- in the coded bandwidth -/
  stop : j < bwEnd
  near : ∀ k v, j ≤ k + noiseWidth dt → k ≤ j + noiseWidth dt → k < min lim bwEnd → x[k]? = some v → zero v

theorem mem_noiseLines {R : Type} (dt : Dt) (bw lim : Nat) (zero : R → Prop) (f : Nat → Bool) (x : List R) (j : Nat)
    (hx : bwStop dt bw ≤ x.length)
    (hf : ∀ k, f k = true ↔ (k < min lim (bwStop dt bw) → ∀ v, x[k]? = some v → zero v)) :
    j ∈ noiseLines dt bw f ↔ NoiseLine dt (bwStop dt bw) lim zero x j := by
  have hw : noiseW dt = noiseWidth dt := by cases dt <;> rfl
  have hi : noiseStart dt + noiseW dt = 6 * (1 + dt.idx) := by cases dt <;> rfl
  unfold noiseLines
  rw [List.mem_filter, quiet_iff, List.mem_range, hi, hw]
  constructor
  · rintro ⟨h1, h2, h3⟩
    exact ⟨h2, h1, fun k v k1 k2 k3 hv => (hf k).mp (h3 k k1 k2) k3 v hv⟩
  · rintro ⟨h1, h2, h3⟩
    exact ⟨h2, h1, fun k k1 k2 => (hf k).mpr fun k3 v hv => h3 k v k1 k2 k3 hv⟩

theorem mem_noiseLines_fill {R : Type} (A : Arith R) (dt : Dt) (bw nq : Nat) (x : List R) (j : Nat)
    (hx : bwStop dt bw ≤ x.length) :
    j ∈ noiseLines dt bw (zeroFill A (min nq (bwStop dt bw)) x) ↔
      NoiseLine dt (bwStop dt bw) nq (fun v => A.isZero v = true) x j := by
  apply mem_noiseLines _ _ _ _ _ _ _ hx
  intro k
  unfold zeroFill
  by_cases hk : min nq (bwStop dt bw) ≤ k
  · rw [decide_eq_true hk]
    exact ⟨fun _ h => absurd hk (Nat.not_le.mpr h), fun _ => rfl⟩
  · rw [decide_eq_false hk, Bool.false_or, List.getElem?_eq_getElem (by omega)]
    exact ⟨fun h _ v hv => (Option.some.inj hv) ▸ h, fun h => h (by omega) _ rfl⟩

theorem mem_noiseLines_est {R : Type} (A : Arith R) (hr : Bool) (dt : Dt) (bw nq : Nat) (x : List R) (j : Nat)
    (hx : bwStop dt bw ≤ x.length) :
    j ∈ noiseLines dt bw (zeroEst A hr (min nq (bwStop dt bw)) x) ↔
      NoiseLine dt (bwStop dt bw) nq (fun v => A.lt (A.abs v) (A.ofRat (if hr then 1/2 else 10/16)) = true) x j := by
  apply mem_noiseLines _ _ _ _ _ _ _ hx
  intro k
  unfold zeroEst
  by_cases hk : min nq (bwStop dt bw) ≤ k
  · rw [decide_eq_true hk]
    exact ⟨fun _ h => absurd hk (Nat.not_le.mpr h), fun _ => rfl⟩
  · rw [decide_eq_false hk, Bool.false_or, List.getElem?_eq_getElem (by omega)]
    exact ⟨fun h _ v hv => (Option.some.inj hv) ▸ h, fun h => h (by omega) _ rfl⟩

theorem lcgIter_eq (k s : Nat) : lcgIter k s = noiseLcg^[k] s := by
  induction k generalizing s with
  | zero => rfl
  | succ k ih => rw [lcgIter, ih]; rfl

/-- The list of the noise lines, increasing. -/
theorem noiseLines_sorted (dt : Dt) (bw : Nat) (f : Nat → Bool) : (noiseLines dt bw f).Pairwise (· < ·) := by
  unfold noiseLines
  exact List.Pairwise.filter _ List.pairwise_lt_range

theorem noiseLines_nodup (dt : Dt) (bw : Nat) (f : Nat → Bool) : (noiseLines dt bw f).Nodup :=
  (noiseLines_sorted dt bw f).imp (fun h => Nat.ne_of_lt h)

/-- **C44**, filling. Whatever the arithmetic: there is an increasing list of lines, exactly those surrounded by zero values in
the region of the noise; the `n`-th one receives `±g(8-nf)/16`, with the sign given by the bit 15 of the `n`-th state of
the generator; all other lines are unchanged. No access is done out of the spectrum. -/
theorem C44_filled {R : Type} (A : Arith R) (dt : Dt) (bw nf seed : Nat) (g : R) (nq : Nat) (x : List R)
    (hx : bwStop dt bw ≤ x.length) :
    ∃ (y : List R) (L : List Nat), fillNoise A dt bw nf seed g nq x = some y ∧ y.length = x.length ∧
      L.Pairwise (· < ·) ∧
      (∀ j, j ∈ L ↔ NoiseLine dt (bwStop dt bw) nq (fun v => A.isZero v = true) x j) ∧
      (∀ j, j ∉ L → y[j]? = x[j]?) ∧
      (∀ n j, L[n]? = some j → y[j]? = some (
        let s := A.div (A.mul g (A.ofInt (8 - (nf : Int)))) (A.ofRat 16)
        if (noiseLcg^[n + 1] seed).testBit 15 then A.sub (A.ofRat 0) s else s)) := by
  refine ⟨_, _, fillNoise_eq A dt bw nf seed g nq x hx, fillAll_length _ _ _ _, noiseLines_sorted _ _ _,
    fun j => mem_noiseLines_fill A dt bw nq x j hx, fun j h => fillAll_not_mem _ _ _ _ _ h, ?_⟩
  intro n j hn
  have hm := List.mem_of_getElem? hn
  have hnd := noiseLines_nodup dt bw (zeroFill A (min nq (bwStop dt bw)) x)
  have hj : j < x.length := by
    have := ((mem_noiseLines_fill A dt bw nq x j hx).mp hm).stop
    omega
  rw [fillAll_mem _ _ _ hnd _ _ hm hj]
  obtain ⟨hl, e⟩ := List.getElem?_eq_some_iff.mp hn
  have hidx : (noiseLines dt bw (zeroFill A (min nq (bwStop dt bw)) x)).idxOf j = n := by
    rw [← e]; exact hnd.idxOf_getElem n hl
  rw [hidx, lcgIter_eq]
  unfold noiseVal
  dsimp only
  congr 1
  generalize noiseLcg^[n + 1] seed = t
  have : (t &&& 0x8000 ≠ 0) ↔ t.testBit 15 = true := by
    rw [show 0x8000 = 2 ^ 15 from rfl, Nat.and_two_pow]
    cases t.testBit 15 <;> decide
  by_cases h : t.testBit 15 = true
  · rw [if_pos (this.mpr h), if_pos h]
  · rw [if_neg (fun hh => h (this.mp hh)), if_neg h]

/-- **C44**, estimation, in exact arithmetic: the noise factor is derived from the mean of the magnitudes on the lines surrounded
by values quantised to zero: `8 - 16 mean`, rounded, between 0 and 7; it is 7 (the lowest noise) without such lines. -/
theorem C44_estimated (dt : Dt) (bw : Nat) (hr : Bool) (nq : Nat) (x : List Rat) (hx : bwStop dt bw ≤ x.length) :
    ∃ (nf : Nat) (L : List Nat), estimateNoise Arith.exact dt bw hr x nq = some nf ∧ nf ≤ 7 ∧
      L.Pairwise (· < ·) ∧
      (∀ j, j ∈ L ↔ NoiseLine dt (bwStop dt bw) nq (fun v => |v| < if hr then 1/2 else 10/16) x j) ∧
      (L = [] → nf = 7) ∧
      (L ≠ [] → (nf : Int) = max 0 (min 7 (8 - ⌊16 * (L.map fun j => |x.getD j 0|).sum / L.length + 1/2⌋))) := by
  refine ⟨_, noiseLines dt bw (zeroEst Arith.exact hr (min nq (bwStop dt bw)) x), estimateNoise_eq _ dt bw hr x nq hx, noiseFactor_le _ _, noiseLines_sorted _ _ _, ?_, ?_, ?_⟩
  · intro j
    rw [mem_noiseLines_est Arith.exact hr dt bw nq x j hx]
    have e : (fun v => Arith.exact.lt (Arith.exact.abs v) (Arith.exact.ofRat (if hr then 1/2 else 10/16)) = true) =
        fun v => |v| < if hr then 1/2 else 10/16 := by
      funext v
      rw [exact_abs, exact_lt]
      exact propext decide_eq_true_iff
    rw [e]
  · intro h; rw [h]; rfl
  · generalize noiseLines dt bw _ = L
    intro h
    have key : ∀ (L : List Nat) (q : Rat × Nat), noiseAll Arith.exact x L q =
        (q.1 + (L.map fun j => |x.getD j 0|).sum, q.2 + L.length) := by
      intro L
      induction L with
      | nil => intro q; simp [noiseAll]
      | cons j L ih =>
        intro q
        have : noiseAll Arith.exact x (j :: L) q =
            noiseAll Arith.exact x L (q.1 + |(x[j]?).getD 0|, q.2 + 1) := by
          rw [← exact_abs]; rfl
        rw [this, ih]
        rw [List.map_cons, List.sum_cons, List.length_cons, List.getD_eq_getElem?_getD]
        apply Prod.ext
        · dsimp only; ring
        · dsimp only; omega
    rw [key]
    unfold noiseFactor
    dsimp only
    have hlen : 0 + L.length ≠ 0 := by
      have := List.length_pos_iff.mpr h
      omega
    have hs : 0 ≤ (L.map fun j => |x.getD j 0|).sum := by
      apply List.sum_nonneg
      intro v hv
      obtain ⟨j, -, rfl⟩ := List.mem_map.mp hv
      exact abs_nonneg _
    rw [if_pos hlen, exact_trunc]
    · have e : Arith.exact.add (Arith.exact.div (Arith.exact.mul (Arith.exact.ofRat 16)
          (Arith.exact.ofRat 0 + (L.map fun j => |x.getD j 0|).sum)) (Arith.exact.ofInt ((0 + L.length : Nat) : Int)))
          (Arith.exact.ofRat (1/2)) = 16 * (L.map fun j => |x.getD j 0|).sum / L.length + 1/2 := by
        change 16 * (0 + _) / (((0 + L.length : Nat) : Int) : Rat) + 1/2 = _
        rw [zero_add, Nat.zero_add]; rfl
      rw [e]
      generalize ⌊16 * (L.map fun j => |x.getD j 0|).sum / (L.length : Rat) + 1/2⌋ = m
      by_cases h1 : 8 - m < 0
      · rw [if_pos h1]; omega
      · rw [if_neg h1]
        by_cases h2 : 8 - m > 7
        · rw [if_pos h2]; omega
        · rw [if_neg h2]; omega
    · change 0 ≤ 16 * (0 + _) / (((0 + L.length : Nat) : Int) : Rat) + 1/2
      positivity

/-! #### End to end -/

theorem gainDown_pos (f : Nat) (i : Int) (g : Rat) (h : 0 < g) : 0 < (gainDown Arith.exact f i g).2 := by
  induction f generalizing i g with
  | zero => exact h
  | succ f ih =>
    rw [gainDown]
    split
    · exact ih _ _ (mul_pos h (show (0:Rat) < 1/10 by norm_num))
    · exact h

theorem gainUp_pos (f : Nat) (i : Int) (g : Rat) (h : 0 < g) : 0 < (gainUp Arith.exact f i g).2 := by
  induction f generalizing i g with
  | zero => exact h
  | succ f ih =>
    rw [gainUp]
    split
    · exact ih _ _ (mul_pos h (show (0:Rat) < 10 by norm_num))
    · exact h

theorem unquantizeGain_pos (i : Int) (g : Rat) (h : unquantizeGain Arith.exact i = some g) : 0 < g := by
  unfold unquantizeGain at h
  dsimp only at h
  split at h
  · cases h
  · obtain ⟨v, hv, rfl⟩ := Option.map_eq_some_iff.mp h
    apply mul_pos
    · exact gainUp_pos _ _ _ (gainDown_pos _ _ _ (show (0:Rat) < 1 by norm_num))
    · have : ∀ v ∈ iqTable, (0:Rat) < v := by decide +kernel
      exact this v (List.mem_of_getElem? hv)

theorem refined_zero (hr : Bool) (j : Nat) (x z : Rat) (h : Refined hr j x z) : z = 0 ↔ |x| < xqLim hr := by
  obtain ⟨h1, h2, h3⟩ := h
  refine ⟨fun hz => ?_, h1⟩
  by_contra hx
  have hx := not_lt.mp hx
  have h3 := h3 hx
  obtain ⟨q1, -⟩ := quantCoef_exact hr x
  have q2 := (quant_cases hr x _ q1).2.2
  have q3 : (quantCoef Arith.exact hr x).1 ≠ 0 := fun h => absurd (q2.mpr h) (not_lt.mpr hx)
  have q4 : 1 ≤ |((quantCoef Arith.exact hr x).val : Rat)| := by
    have : 1 ≤ |(quantCoef Arith.exact hr x).val| := by
      unfold Coef.val
      split
      · rw [abs_neg, Nat.abs_cast]; omega
      · rw [Nat.abs_cast]; omega
    exact_mod_cast this
  subst hz
  cases hr with
  | true =>
    rw [if_pos rfl] at h3
    have := h3.2
    rw [zero_sub, abs_neg] at this
    linarith
  | false =>
    rw [if_neg (by decide)] at h3
    by_cases hj : j = 0
    · rw [← h2 hj, abs_zero] at q4
      linarith
    · have := (h3 (by omega)).1
      rw [sub_zero] at this
      unfold xqLim at hx
      rw [if_neg (by decide)] at hx
      linarith

theorem getElem?_unquantize (n : Nat) (g : Rat) (x : List Rat) (h : x.length ≤ n) (k : Nat) (hk : k < n) :
    (unquantize Arith.exact n g x)[k]? = some (g * x.getD k 0) := by
  unfold unquantize
  by_cases hx : k < x.length
  · rw [List.getElem?_append_left (by rw [List.length_map]; exact hx), List.getElem?_map, List.getElem?_eq_getElem hx,
      List.getD_eq_getElem _ _ hx]
    change some (x[k] * g) = _
    rw [mul_comm]
  · rw [List.getElem?_append_right (by rw [List.length_map]; omega), List.getElem?_replicate, if_pos (by
      rw [List.length_map]; omega), List.getD_eq_default _ _ (by omega), mul_zero]
    rfl

/-- **C44**, end to end, in exact arithmetic and in normal mode: when the encoder writes a frame that does not
overflow, the spectrum rebuilt by the decoder is, with a positive gain `g`: `±g(8-nf)/16` on the lines where the
encoder has estimated the noise, which is on the lines surrounded by values quantised to zero *in the spectrum of the encoder*;
and `g` times the value obtained for the coefficient (within `5/8`) on all the other lines, zero after the last one coded.

A spectrum of two coefficients with the gain index 0 may be a silent frame: it is excluded, see C26. -/
theorem C44_frame (dt : Dt) (sr : Srate) (data : List Nat) (hd : Bytes data)
    (h4 : 4 ≤ data.length) (sh32 : Nat → Nat) (junk : LtpfData) (side : SideData) (hv : Encodable dt sr data.length side)
    (hnq : 2 ≤ side.spec.nq) (hns : 2 < side.spec.nq ∨ 0 < side.spec.gIdx) (hm : side.spec.lsbMode = false)
    (x : List Rat) (hx : x.length = ne dt sr)
    (hmag : ∀ v ∈ x.take side.spec.nq, (quantCoef Arith.exact sr.hr v).1 < if sr.hr then 2 ^ 24 else 2 ^ 16)
    (bE : Bits) (he : encodeBits Arith.exact dt sr data side x = some bE) (hl : 0 ≤ bitsLeftRaw bE) :
    ∃ (sd : SideData) (s : SpecData Rat) (r : Bits) (g : Rat) (L : List Nat),
      decodeFrame Arith.exact dt sr sh32 junk (flushBits bE).buf.data = (.ok (sd, s), r) ∧
      0 < g ∧ s.x.length = ne dt sr ∧ L.Pairwise (· < ·) ∧
      (∀ j, j ∈ L ↔ NoiseLine dt (bwStop dt side.bw) side.spec.nq
        (fun v => |v| < if sr.hr then 1/2 else 10/16) x j) ∧
      (∀ n j, L[n]? = some j → s.x.getD j 0 =
        (if (noiseLcg^[n + 1] s.seed).testBit 15 then -1 else 1) * (g * (8 - s.nf) / 16)) ∧
      (∀ j, j < ne dt sr → j ∉ L → ∃ z, s.x.getD j 0 = g * z ∧
        if j < side.spec.nq then |x.getD j 0 - z| ≤ 5/8 else z = 0) := by
  have hc : CoefOk sr.hr (codedCoefs Arith.exact sr side.spec x) := by
    intro p hp
    unfold codedCoefs at hp
    obtain ⟨v, hv, rfl⟩ := List.mem_map.mp hp
    have := hmag v hv
    generalize sr.hr = h at *
    cases h <;> exact this
  obtain ⟨nf, l, xq, xf, b1, r1, r2, h1, h2, h3, h5, h6, h7, h8, h9, h10⟩ :=
    frame_ready Arith.exact dt sr data hd h4 sh32 junk side hv hnq x hx hc bE he hl
  have hn := hv.spec.nq
  obtain ⟨e1, e2⟩ := h10 hm
  have ht : opsSpecTail Arith.exact sr side.spec x (getBitsLeft b1) =
      opsResidual Arith.exact sr.hr (getBitsLeft b1).toNat (x.take side.spec.nq) ++ [] := by
    unfold opsSpecTail
    rw [hm, List.append_nil]; rfl
  rw [ht] at h8
  obtain ⟨r', zs, z1, z2, -, z4⟩ := getResidual_ready sr.hr _ _ _ _ h8
  have e3 : xq = zs := by
    rw [e2, e1]
    unfold codedCoefs
    rw [List.map_map, List.map_map]
    exact congrArg Prod.fst z1
  have hll : xq.length = side.spec.nq := by rw [e3, z2, List.length_take]; omega
  have href : ∀ i, i < side.spec.nq → ∃ j, Refined sr.hr j (x.getD i 0) (xq.getD i 0) := by
    intro i hi
    rw [List.getD_eq_getElem _ _ (by omega), List.getD_eq_getElem _ _ (by omega)]
    obtain ⟨j, hj, -⟩ := z4 i (by rw [List.length_take]; omega) (by rw [← e3]; omega)
    rw [List.getElem_take] at hj
    refine ⟨j, ?_⟩
    subst e3
    exact hj
  unfold specFinish at h7
  obtain ⟨g, hg, h7⟩ := Option.bind_eq_some_iff.mp h7
  obtain ⟨x0, -, h7⟩ := Option.bind_eq_some_iff.mp h7
  obtain ⟨x1, -, h7⟩ := Option.bind_eq_some_iff.mp h7
  rw [if_pos (by rcases hns with h | h <;> simp [h])] at h7
  have hgp := unquantizeGain_pos _ _ hg
  have hbw := bwStop_le dt sr side.bw hv.bw
  have hul := unquantize_length Arith.exact (ne dt sr) g xq (by omega)
  obtain ⟨y, L, f1, f2, f3, f4, f5, f6⟩ := C44_filled Arith.exact dt side.bw nf (noiseSeed l) g side.spec.nq
    (unquantize Arith.exact (ne dt sr) g xq) (by omega)
  rw [h7] at f1
  obtain rfl := Option.some.inj f1
  refine ⟨_, _, r2, g, L, h6, hgp, by dsimp only; rw [f2, hul], f3, ?_, ?_, ?_⟩
  · intro j
    rw [f4]
    constructor
    · rintro ⟨a, b, c⟩
      refine ⟨a, b, fun k v k1 k2 k3 hv => ?_⟩
      have k4 : k < side.spec.nq := by omega
      have := c k _ k1 k2 k3 (getElem?_unquantize _ _ _ (by omega) k (by omega))
      rw [exact_isZero, decide_eq_true_eq, mul_eq_zero] at this
      obtain ⟨i, hi⟩ := href k k4
      have := (refined_zero _ _ _ _ hi).mp (this.resolve_left (ne_of_gt hgp))
      rw [List.getD_eq_getElem?_getD, hv] at this
      exact this
    · rintro ⟨a, b, c⟩
      refine ⟨a, b, fun k v k1 k2 k3 hv => ?_⟩
      have k4 : k < side.spec.nq := by omega
      rw [getElem?_unquantize _ _ _ (by omega) k (by omega)] at hv
      obtain rfl := Option.some.inj hv
      obtain ⟨i, hi⟩ := href k k4
      have hxk : x[k]? = some (x.getD k 0) := by
        rw [List.getD_eq_getElem _ _ (by omega), List.getElem?_eq_getElem]
      have := (refined_zero _ _ _ _ hi).mpr (c k _ k1 k2 k3 hxk)
      rw [exact_isZero, this, mul_zero]; rfl
  · intro n j hj
    have := f6 n j hj
    dsimp only at this ⊢
    rw [List.getD_eq_getElem?_getD, this, Option.getD_some]
    have e : Arith.exact.div (Arith.exact.mul g (Arith.exact.ofInt (8 - (nf : Int)))) (Arith.exact.ofRat 16) =
        g * (8 - nf) / 16 := by
      change g * (((8 - (nf : Int) : Int)) : Rat) / 16 = _
      push_cast; rfl
    rw [e]
    split
    · change (0:Rat) - _ = _
      ring
    · ring
  · intro j hj hjL
    refine ⟨xq.getD j 0, ?_, ?_⟩
    · dsimp only
      rw [List.getD_eq_getElem?_getD, f5 j hjL, getElem?_unquantize _ _ _ (by omega) j hj]; rfl
    · by_cases hq : j < side.spec.nq
      · rw [if_pos hq]
        obtain ⟨i, hi⟩ := href j hq
        exact refined_error _ _ _ _ hi
      · rw [if_neg hq]
        exact List.getD_eq_default _ _ (by omega)

/-- Non-vacuity of C44: the frame of C25, the noise is estimated and filled from the line 24 (12 coefficients coded among 80); and a
spectrum where the lines are only free around the line 27. -/
example : (exSide false).spec.lsbMode = false ∧ 2 < (exSide false).spec.nq ∧
    estimateNoise Arith.exact .m10 0 false exSpec 12 = some 6 ∧
    noiseLines .m10 0 (zeroEst Arith.exact false 34 ((exSpec.set 23 3).set 31 2)) =
      [27] ++ List.range' 35 45 := by
  refine ⟨rfl, by decide, by decide +kernel, by decide +kernel⟩

end LC3
