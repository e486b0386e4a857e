import Verif.Lemmas.TnsField
import Verif.Props.EndToEnd
import Verif.Props.Noise

/-!
In the arithmetic of the real numbers: the gain, and the spectrum that the decoder obtains from a frame of the encoder.
-/

namespace LC3.Fld

variable {K : Type} [Field K] [LinearOrder K] [IsStrictOrderedRing K] [FloorRing K]

open LC3

/-! ### Gain -/

theorem gainDown_fld (f : Nat) (i : Int) (hf : i.natAbs ≤ f) (g : K) :
    ∃ s : Nat, (gainDown (Arith.ofField K) f i g).1 = i + 28 * s ∧ 0 ≤ i + 28 * s ∧ (s ≠ 0 → i + 28 * s < 28) ∧
      (gainDown (Arith.ofField K) f i g).2 = g / 10 ^ s := by
  induction f generalizing i g with
  | zero => exact ⟨0, by rw [gainDown]; simp, by omega, fun h => absurd rfl h, by rw [gainDown, pow_zero, div_one]⟩
  | succ f ih =>
    rw [gainDown]
    have e0 : (Arith.ofField K).mul g ((Arith.ofField K).ofRat (1 / 10)) = g / 10 := by unfold Arith.ofField; push_cast; ring
    rw [e0]
    by_cases c : i < 0
    · rw [if_pos c]
      by_cases c2 : i + 28 < 0
      · obtain ⟨s, h1, h2, h3, h4⟩ := ih (i + 28) (by omega) (g / 10)
        refine ⟨s + 1, by rw [h1]; push_cast; ring, by push_cast; omega, fun _ => ?_, ?_⟩
        · have := h3 (by rintro rfl; push_cast at h2; omega)
          push_cast; omega
        · rw [h4, pow_succ]; field_simp
      · have e : ∀ (f : Nat) g', gainDown (Arith.ofField K) f (i + 28) g' = (i + 28, g') := by
          intro f g'
          cases f with
          | zero => rfl
          | succ f => rw [gainDown, if_neg c2]
        rw [e]
        exact ⟨1, by push_cast; ring, by push_cast; omega, fun _ => by push_cast; omega, by rw [pow_one]⟩
    · rw [if_neg c]
      exact ⟨0, by push_cast; ring, by push_cast; omega, fun h => absurd rfl h, by rw [pow_zero, div_one]⟩

theorem gainUp_fld (f : Nat) (i : Int) (h0 : 0 ≤ i) (hf : i < 28 + f) (g : K) :
    ∃ s : Nat, (gainUp (Arith.ofField K) f i g).1 = i - 28 * s ∧ 0 ≤ i - 28 * s ∧ i - 28 * s < 28 ∧
      (gainUp (Arith.ofField K) f i g).2 = g * 10 ^ s := by
  induction f generalizing i g with
  | zero => exact ⟨0, by rw [gainUp]; simp, by push_cast; omega, by push_cast at *; omega, by rw [gainUp, pow_zero, mul_one]⟩
  | succ f ih =>
    rw [gainUp]
    have e0 : (Arith.ofField K).mul g ((Arith.ofField K).ofRat 10) = g * 10 := by unfold Arith.ofField; push_cast; ring
    rw [e0]
    by_cases c : i ≥ 28
    · rw [if_pos c]
      obtain ⟨s, h1, h2, h3, h4⟩ := ih (i - 28) (by omega) (by push_cast at hf; omega) (g * 10)
      refine ⟨s + 1, by rw [h1]; push_cast; ring, by push_cast; omega, by push_cast; omega, ?_⟩
      rw [h4, pow_succ]; ring
    · rw [if_neg c]
      exact ⟨0, by push_cast; ring, by push_cast; omega, by push_cast; omega, by rw [pow_zero, mul_one]⟩

theorem gain_fld (i : Int) : unquantizeGain (Arith.ofField K) i = some ((gainE i : Rat) : K) := by
  have e1 : (Arith.ofField K).ofRat 1 = 1 := by unfold Arith.ofField; norm_num
  obtain ⟨s, h1, h2, h3, h4⟩ := gainDown_fld i.natAbs i (Nat.le_refl _) (1 : K)
  obtain ⟨s', k1, k2, k3, k4⟩ := gainUp_fld i.natAbs (i + 28 * s) h2 (by
    by_cases c : s = 0
    · subst c; omega
    · have := h3 c; omega) ((1 : K) / 10 ^ s)
  unfold unquantizeGain
  dsimp only
  rw [e1, h1, h4, k1, k4, if_neg (by omega)]
  have hj : (i + 28 * s - 28 * s').toNat < iqTable.length := by
    have : iqTable.length = 28 := rfl
    omega
  rw [List.getElem?_eq_getElem hj, Option.map_some]
  have hm : (i + 28 * s - 28 * s').toNat = (i % 28).toNat := by omega
  have hd : i / 28 = (s' : Int) - s := by omega
  unfold gainE iqVal
  rw [← hm, List.getD_eq_getElem _ _ hj, hd]
  congr 1
  unfold Arith.ofField
  push_cast
  rw [zpow_sub₀ (by norm_num), zpow_natCast, zpow_natCast]
  ring

/-- The gain of the decoder is the inverse of those of the encoder, within `10^-7`. -/
theorem gain_ratio_real (g adj : Int) :
    |((gainE (g + adj) : Rat) : ℝ) * ((gainE (-g) : Rat) : ℝ) * ((gainE (-adj) : Rat) : ℝ) - 1| ≤ 1 / 10 ^ 7 ∧
    |((gainE g : Rat) : ℝ) * ((gainE (-g) : Rat) : ℝ) - 1| ≤ 1 / 10 ^ 7 := by
  obtain ⟨a1, a2⟩ := gainE_real (g + adj)
  obtain ⟨b1, b2⟩ := gainE_real (-g)
  obtain ⟨c1, c2⟩ := gainE_real (-adj)
  obtain ⟨d1, d2⟩ := gainE_real g
  have hp : ∀ r : ℝ, (0 : ℝ) < (10 : ℝ) ^ r := fun r => Real.rpow_pos_of_pos (by norm_num) _
  have t3 : (10 : ℝ) ^ (((g + adj : Int) : ℝ) / 28) * (10 : ℝ) ^ (((-g : Int) : ℝ) / 28) * (10 : ℝ) ^ (((-adj : Int) : ℝ) / 28) = 1 := by
    rw [← Real.rpow_add (by norm_num), ← Real.rpow_add (by norm_num)]
    push_cast
    rw [show ((g : ℝ) + adj) / 28 + -g / 28 + -adj / 28 = 0 by ring, Real.rpow_zero]
  have t2 : (10 : ℝ) ^ ((g : ℝ) / 28) * (10 : ℝ) ^ (((-g : Int) : ℝ) / 28) = 1 := by
    rw [← Real.rpow_add (by norm_num)]
    push_cast
    rw [show (g : ℝ) / 28 + -g / 28 = 0 by ring, Real.rpow_zero]
  have pa := hp (((g + adj : Int) : ℝ) / 28)
  have pb := hp (((-g : Int) : ℝ) / 28)
  have pc := hp (((-adj : Int) : ℝ) / 28)
  have pd := hp ((g : ℝ) / 28)
  generalize (10 : ℝ) ^ (((g + adj : Int) : ℝ) / 28) = A at *
  generalize (10 : ℝ) ^ (((-g : Int) : ℝ) / 28) = B at *
  generalize (10 : ℝ) ^ (((-adj : Int) : ℝ) / 28) = C at *
  generalize (10 : ℝ) ^ ((g : ℝ) / 28) = D at *
  generalize ((gainE (g + adj) : Rat) : ℝ) = a at *
  generalize ((gainE (-g) : Rat) : ℝ) = b at *
  generalize ((gainE (-adj) : Rat) : ℝ) = c at *
  generalize ((gainE g : Rat) : ℝ) = d at *
  have hl : (0 : ℝ) < 1 - 1 / 10 ^ 8 := by norm_num
  have ha : 0 < a := lt_of_lt_of_le (mul_pos pa hl) a1
  have hb : 0 < b := lt_of_lt_of_le (mul_pos pb hl) b1
  have hc : 0 < c := lt_of_lt_of_le (mul_pos pc hl) c1
  have hd : 0 < d := lt_of_lt_of_le (mul_pos pd hl) d1
  constructor
  · have u : a * b * c ≤ (A * (1 + 1 / 10 ^ 8)) * (B * (1 + 1 / 10 ^ 8)) * (C * (1 + 1 / 10 ^ 8)) := by gcongr
    have l : (A * (1 - 1 / 10 ^ 8)) * (B * (1 - 1 / 10 ^ 8)) * (C * (1 - 1 / 10 ^ 8)) ≤ a * b * c := by
      gcongr
    rw [show (A * (1 + 1 / 10 ^ 8)) * (B * (1 + 1 / 10 ^ 8)) * (C * (1 + 1 / 10 ^ 8)) = A * B * C * (1 + 1 / 10 ^ 8) ^ 3 by ring, t3] at u
    rw [show (A * (1 - 1 / 10 ^ 8)) * (B * (1 - 1 / 10 ^ 8)) * (C * (1 - 1 / 10 ^ 8)) = A * B * C * (1 - 1 / 10 ^ 8) ^ 3 by ring, t3] at l
    rw [abs_le]
    constructor <;> norm_num at u l ⊢ <;> linarith
  · have u : d * b ≤ (D * (1 + 1 / 10 ^ 8)) * (B * (1 + 1 / 10 ^ 8)) := by gcongr
    have l : (D * (1 - 1 / 10 ^ 8)) * (B * (1 - 1 / 10 ^ 8)) ≤ d * b := by
      gcongr
    rw [show (D * (1 + 1 / 10 ^ 8)) * (B * (1 + 1 / 10 ^ 8)) = D * B * (1 + 1 / 10 ^ 8) ^ 2 by ring, t2] at u
    rw [show (D * (1 - 1 / 10 ^ 8)) * (B * (1 - 1 / 10 ^ 8)) = D * B * (1 - 1 / 10 ^ 8) ^ 2 by ring, t2] at l
    rw [abs_le]
    constructor <;> norm_num at u l ⊢ <;> linarith

theorem gain_ratio (g adj : Int) :
    |((gainE (g + adj) : Rat) : K) * ((gainE (-g) : Rat) : K) * ((gainE (-adj) : Rat) : K) - 1| ≤ 1 / 10 ^ 7 ∧
    |((gainE g : Rat) : K) * ((gainE (-g) : Rat) : K) - 1| ≤ 1 / 10 ^ 7 := by
  obtain ⟨h1, h2⟩ := gain_ratio_real g adj
  have k1 : |gainE (g + adj) * gainE (-g) * gainE (-adj) - 1| ≤ 1 / 10 ^ 7 := (Rat.cast_le (K := ℝ)).mp (by push_cast; exact h1)
  have k2 : |gainE g * gainE (-g) - 1| ≤ 1 / 10 ^ 7 := (Rat.cast_le (K := ℝ)).mp (by push_cast; exact h2)
  constructor
  · have := (Rat.cast_le (K := K)).mpr k1
    push_cast at this
    exact this
  · have := (Rat.cast_le (K := K)).mpr k2
    push_cast at this
    exact this

/-! ### Quantisation -/

theorem quant_error (hr : Bool) (x : K) : |x - ((quantCoef (Arith.ofField K) hr x).val : K)| ≤ 5/8 := by
  obtain ⟨h1, h2⟩ := quantCoef_exact hr x
  obtain ⟨c1, c2, -⟩ := quant_cases hr x _ h1
  have hx := xqLim_range (K := K) hr
  unfold Coef.val
  rw [h2]
  by_cases h : x < 0
  · rw [decide_eq_true h, if_pos rfl]
    rw [abs_of_neg h] at c1 c2
    push_cast
    rw [abs_le]
    constructor <;> linarith
  · rw [decide_eq_false h, if_neg (by decide)]
    rw [abs_of_nonneg (not_lt.mp h)] at c1 c2
    push_cast
    rw [abs_le]
    constructor <;> linarith

theorem refined_error (hr : Bool) (j : Nat) (x z : K) (h : Refined hr j x z) : |x - z| ≤ 5/8 := by
  obtain ⟨h1, h2, h3⟩ := h
  by_cases hj : j = 0
  · rw [h2 hj]; exact quant_error hr x
  · by_cases hx : xqLim K hr ≤ |x|
    · have := h3 hx
      cases hr with
      | true =>
        rw [if_pos rfl] at this
        have hp : ((1:K)/2) ^ (j + 1) ≤ 1/2 := by
          calc ((1:K)/2) ^ (j + 1) ≤ (1/2) ^ 1 := pow_le_pow_of_le_one (by norm_num) (by norm_num) (by omega)
            _ = 1/2 := by norm_num
        linarith [this.1]
      | false =>
        rw [if_neg (by decide)] at this
        linarith [(this (by omega)).1]
    · rw [h1 (not_le.mp hx), sub_zero]
      have := (xqLim_range (K := K) hr).2
      linarith [not_le.mp hx]

theorem withoutLsb_error (p : Coef) (y : Int) (h : OrWithoutLsb p y) : |(p.val : K) - (y : K)| ≤ 1 := by
  rcases h with rfl | rfl
  · rw [sub_self, abs_zero]; norm_num
  · unfold Coef.val
    have h1 : p.1 = 2 * (p.1 / 2) + p.1 % 2 := by omega
    have h2 : p.1 % 2 ≤ 1 := by omega
    generalize p.1 / 2 = a at *
    generalize p.1 % 2 = b at *
    rw [h1]
    have h2 : (b : K) ≤ 1 := by exact_mod_cast h2
    have h3 : (0 : K) ≤ b := Nat.cast_nonneg _
    split
    · push_cast
      rw [abs_le]
      constructor <;> linarith
    · push_cast
      rw [abs_le]
      constructor <;> linarith

theorem getElem?_unquantize (n : Nat) (g : K) (x : List K) (h : x.length ≤ n) (k : Nat) (hk : k < n) :
    (unquantize (Arith.ofField K) n g x)[k]? = some (g * x.getD k 0) := by
  unfold unquantize
  by_cases hx : k < x.length
  · rw [List.getElem?_append_left (by rw [List.length_map]; exact hx), List.getElem?_map, List.getElem?_eq_getElem hx,
      List.getD_eq_getElem _ _ hx]
    change some (x[k] * g) = _
    rw [mul_comm]
  · rw [List.getElem?_append_right (by rw [List.length_map]; omega), List.getElem?_replicate, if_pos (by
      rw [List.length_map]; omega), List.getD_eq_default _ _ (by omega), mul_zero, fld_zero]

theorem refined_zero (hr : Bool) (j : Nat) (x z : K) (h : Refined hr j x z) : z = 0 ↔ |x| < xqLim K hr := by
  obtain ⟨h1, h2, h3⟩ := h
  refine ⟨fun hz => ?_, h1⟩
  by_contra hx
  have hx := not_lt.mp hx
  have h3 := h3 hx
  obtain ⟨q1, -⟩ := quantCoef_exact hr x
  have q2 := (quant_cases hr x _ q1).2.2
  have q3 : (quantCoef (Arith.ofField K) hr x).1 ≠ 0 := fun h => absurd (q2.mpr h) (not_lt.mpr hx)
  have q4 : 1 ≤ |((quantCoef (Arith.ofField K) hr x).val : K)| := by
    have : 1 ≤ |(quantCoef (Arith.ofField K) hr x).val| := by
      unfold Coef.val
      split
      · rw [abs_neg, Nat.abs_cast]; omega
      · rw [Nat.abs_cast]; omega
    exact_mod_cast this
  subst hz
  cases hr with
  | true =>
    rw [if_pos rfl] at h3
    have := h3.2
    rw [zero_sub, abs_neg] at this
    linarith
  | false =>
    rw [if_neg (by decide)] at h3
    by_cases hj : j = 0
    · rw [← h2 hj, abs_zero] at q4
      linarith
    · have := (h3 (by omega)).1
      rw [sub_zero] at this
      unfold xqLim at hx
      rw [if_neg (by decide)] at hx
      linarith


/-- What the decoder obtains from a frame of the encoder: a multiple of the gain, of which the first term is the coefficient within the error of the
quantisation, and the second one the noise, on the null values only. -/
theorem frame_error (dt : Dt) (sr : Srate) (data : List Nat) (hd : Bytes data)
    (h4 : 4 ≤ data.length) (sh32 : Nat → Nat) (junk : LtpfData) (side : SideData) (hv : Encodable dt sr data.length side)
    (hnq : 2 ≤ side.spec.nq) (x : List K) (hx : x.length = ne dt sr)
    (hmag : ∀ v ∈ x.take side.spec.nq, (quantCoef (Arith.ofField K) sr.hr v).1 < if sr.hr then 2 ^ 24 else 2 ^ 16)
    (bE : Bits) (he : encodeBits (Arith.ofField K) dt sr data side x = some bE) (hl : 0 ≤ bitsLeftRaw bE) :
    ∃ (s : SpecData K) (r : Bits),
      decodeFrame (Arith.ofField K) dt sr sh32 junk (flushBits bE).buf.data =
        (.ok ({ side with ltpf := if side.pitchPresent then side.ltpf else junk }, s), r) ∧ s.x.length = ne dt sr ∧
      ∀ j, j < ne dt sr → ∃ z n, s.x.getD j 0 = ((gainE ((side.spec.gIdx : Int) - gainOffset sr data.length) : Rat) : K) * (z + n) ∧
        (z ≠ 0 → n = 0) ∧ |n| ≤ 1/2 ∧ (side.spec.nq ≤ j → z = 0) ∧
        (j < side.spec.nq → |x.getD j 0 - z| ≤ if side.spec.lsbMode then 13/8 else 5/8) := by
  have hc : CoefOk sr.hr (codedCoefs (Arith.ofField K) sr side.spec x) := by
    intro p hp
    unfold codedCoefs at hp
    obtain ⟨v, hv, rfl⟩ := List.mem_map.mp hp
    have := hmag v hv
    generalize sr.hr = h at *
    cases h <;> exact this
  obtain ⟨nf, l, xq, xf, b1, r1, r2, h1, h2, h3, h5, h6, h7, h8, h9, h10⟩ :=
    frame_ready (Arith.ofField K) dt sr data hd h4 sh32 junk side hv hnq x hx hc bE he hl
  have hn := hv.spec.nq
  have hclen : (codedCoefs (Arith.ofField K) sr side.spec x).length = side.spec.nq := by
    unfold codedCoefs
    rw [List.length_map, List.length_take]
    omega
  have heven : (codedCoefs (Arith.ofField K) sr side.spec x).length % 2 = 0 := by rw [hclen]; exact hv.spec.even
  have herr : xq.length = side.spec.nq ∧ ∀ i, i < side.spec.nq → |x.getD i 0 - xq.getD i 0| ≤ if side.spec.lsbMode then 13/8 else 5/8 := by
    cases hm : side.spec.lsbMode with
    | true =>
      obtain ⟨e1, e2⟩ := h9 hm
      have hf := restored_lsbOf _ (getBitsLeft b1) heven
      rw [← e1] at hf
      have hll : l.length = side.spec.nq := by rw [← hf.length_eq, hclen]
      refine ⟨by rw [e2, List.length_map, hll], ?_⟩
      intro i hi
      rw [if_pos rfl]
      have hcl : i < (codedCoefs (Arith.ofField K) sr side.spec x).length := by omega
      have hil : i < l.length := by omega
      have hix : i < x.length := by omega
      have ho : OrWithoutLsb (codedCoefs (Arith.ofField K) sr side.spec x)[i] l[i] := (List.forall₂_iff_get.mp hf).2 i hcl hil
      have hq : (codedCoefs (Arith.ofField K) sr side.spec x)[i] = quantCoef (Arith.ofField K) sr.hr x[i] := by
        simp [codedCoefs]
      rw [hq] at ho
      have e3 : xq.getD i 0 = (l[i] : K) := by
        rw [e2, List.getD_eq_getElem _ _ (by rw [List.length_map]; exact hil), List.getElem_map]
        simp [Arith.ofInt, Arith.ofField]
      rw [e3, List.getD_eq_getElem _ _ hix]
      have b1 := withoutLsb_error (K := K) _ _ ho
      have b2 := quant_error sr.hr x[i]
      have b3 := abs_add_le (x[i] - ((quantCoef (Arith.ofField K) sr.hr x[i]).val : K))
        (((quantCoef (Arith.ofField K) sr.hr x[i]).val : K) - (l[i] : K))
      rw [sub_add_sub_cancel] at b3
      linarith
    | false =>
      obtain ⟨e1, e2⟩ := h10 hm
      have ht : opsSpecTail (Arith.ofField K) sr side.spec x (getBitsLeft b1) =
          opsResidual (Arith.ofField K) sr.hr (getBitsLeft b1).toNat (x.take side.spec.nq) ++ [] := by
        unfold opsSpecTail
        rw [hm, List.append_nil]; rfl
      rw [ht] at h8
      obtain ⟨r', zs, z1, z2, -, z4⟩ := getResidual_ready sr.hr _ _ _ _ h8
      have e3 : xq = zs := by
        rw [e2, e1]
        unfold codedCoefs
        rw [List.map_map, List.map_map]
        have : (((Arith.ofField K).ofInt ∘ Coef.val) ∘ quantCoef (Arith.ofField K) sr.hr) = fun x => ((quantCoef (Arith.ofField K) sr.hr x).val : K) := by
          funext v; simp [Arith.ofInt, Arith.ofField]
        rw [this]
        exact congrArg Prod.fst z1
      have hll : zs.length = side.spec.nq := by rw [z2, List.length_take]; omega
      refine ⟨by rw [e3, hll], ?_⟩
      intro i hi
      rw [if_neg (by decide), e3, List.getD_eq_getElem _ _ (by omega), List.getD_eq_getElem _ _ (by omega)]
      obtain ⟨j, hj, -⟩ := z4 i (by rw [List.length_take]; omega) (by omega)
      rw [List.getElem_take] at hj
      exact refined_error _ _ _ _ hj
  obtain ⟨hll, herr⟩ := herr
  refine ⟨_, r2, h6, ?_⟩
  dsimp only
  unfold specFinish at h7
  rw [gain_fld, Option.bind_some] at h7
  obtain ⟨x0, -, h7⟩ := Option.bind_eq_some_iff.mp h7
  obtain ⟨x1, -, h7⟩ := Option.bind_eq_some_iff.mp h7
  have hbw := bwStop_le dt sr side.bw hv.bw
  have hgp : (0:K) < ((gainE ((side.spec.gIdx : Int) - gainOffset sr data.length) : Rat) : K) := by exact_mod_cast gainE_pos _
  generalize ((gainE ((side.spec.gIdx : Int) - gainOffset sr data.length) : Rat) : K) = g at *
  have hul := unquantize_length (Arith.ofField K) (ne dt sr) g xq (by omega)
  have plain : ∀ j, j < ne dt sr → (unquantize (Arith.ofField K) (ne dt sr) g xq).getD j 0 = g * xq.getD j 0 := by
    intro j hj
    rw [List.getD_eq_getElem?_getD, getElem?_unquantize _ _ _ (by omega) j hj, Option.getD_some]
  have keep : ∀ (v : K) j, j < ne dt sr → v = g * xq.getD j 0 → ∃ z n, v = g * (z + n) ∧
        (z ≠ 0 → n = 0) ∧ |n| ≤ 1/2 ∧ (side.spec.nq ≤ j → z = 0) ∧
        (j < side.spec.nq → |x.getD j 0 - z| ≤ if side.spec.lsbMode then 13/8 else 5/8) := by
    intro v j hj e
    refine ⟨xq.getD j 0, 0, by rw [e, add_zero], fun _ => rfl, by norm_num, fun h => List.getD_eq_default _ _ (by omega), fun h => herr j h⟩
  split at h7
  · obtain ⟨y, L, f1, f2, f3, f4, f5, f6⟩ := C44_filled (Arith.ofField K) dt side.bw nf (noiseSeed l) g side.spec.nq
      (unquantize (Arith.ofField K) (ne dt sr) g xq) (by omega)
    rw [h7] at f1
    obtain rfl := Option.some.inj f1
    refine ⟨by omega, fun j hj => ?_⟩
    by_cases hL : j ∈ L
    · obtain ⟨k, hk⟩ := List.getElem?_of_mem hL
      have hz := f6 k j hk
      have hN := (f4 j).mp hL
      have hq0 : xq.getD j 0 = 0 := by
        by_cases hq : j < side.spec.nq
        · have := hN.near j _ (by omega) (by omega) (by have := hN.stop; omega) (getElem?_unquantize _ _ _ (by omega) j hj)
          rw [fld_isZero, decide_eq_true_eq, mul_eq_zero] at this
          exact this.resolve_left (ne_of_gt hgp)
        · exact List.getD_eq_default _ _ (by omega)
      have e : (Arith.ofField K).div ((Arith.ofField K).mul g ((Arith.ofField K).ofInt (8 - (nf : Int)))) ((Arith.ofField K).ofRat 16) =
          g * ((8 - nf) / 16) := by
        simp [Arith.ofInt, Arith.ofField]
        ring
      have hb : |((8:K) - nf) / 16| ≤ 1/2 := by
        have : (nf:K) ≤ 7 := by exact_mod_cast h1
        have : (0:K) ≤ nf := Nat.cast_nonneg _
        rw [abs_le]; constructor <;> linarith
      have herr0 : j < side.spec.nq → |x.getD j 0 - 0| ≤ if side.spec.lsbMode then 13/8 else 5/8 := by
        intro h; have := herr j h; rw [hq0] at this; exact this
      rw [e] at hz
      rw [List.getD_eq_getElem?_getD, hz, Option.getD_some]
      refine ⟨0, if (noiseLcg^[k + 1] (noiseSeed l)).testBit 15 then -((8 - nf) / 16) else (8 - nf) / 16, ?_, fun h => absurd rfl h, ?_, fun _ => rfl, herr0⟩
      · dsimp only
        split
        · rw [fld_zero]; change (0:K) - _ = _; ring
        · ring
      · split
        · rw [abs_neg]; exact hb
        · exact hb
    · refine keep _ j hj ?_
      rw [← plain j hj, List.getD_eq_getElem?_getD, List.getD_eq_getElem?_getD, f5 j hL]
  · obtain rfl := Option.some.inj h7
    exact ⟨hul, fun j hj => keep _ j hj (plain j hj)⟩

/-! ### Shaping -/

theorem neg_fld (a : K) : (Arith.ofField K).neg a = -a := by simp [Arith.neg, Arith.ofField]

theorem interpLoop_neg : ∀ (l : List K) (s : K), interpLoop (Arith.ofField K) (-s) (l.map fun v => -v) = (interpLoop (Arith.ofField K) s l).map fun v => -v
  | [], _ => rfl
  | s1 :: l, s => by
    rw [List.map_cons, interpLoop, interpLoop, interpLoop_neg l s1]
    simp only [List.map_cons, Arith.ofField]
    congr 1
    · ring
    congr 1
    · ring
    congr 1
    · ring
    congr 1
    ring

theorem interpLast_neg : ∀ (l : List K), interpLast (Arith.ofField K) (l.map fun v => -v) = (interpLast (Arith.ofField K) l).map fun v => -v
  | [] => rfl
  | [_] => rfl
  | [a, b] => by
    simp only [List.map_cons, List.map_nil, interpLast, Arith.ofField]
    congr 1
    · ring
    congr 1
    ring
  | a :: b :: c :: l => by
    have h := interpLast_neg (b :: c :: l)
    have e : ∀ (u v w : K) (l : List K), interpLast (Arith.ofField K) (u :: v :: w :: l) = interpLast (Arith.ofField K) (v :: w :: l) := fun _ _ _ _ => rfl
    simp only [List.map_cons] at h ⊢
    rw [e, e, h]

theorem interpScf_neg (scf : List K) (s : List K) (h : interpScf (Arith.ofField K) scf false = some s) :
    interpScf (Arith.ofField K) scf true = some (s.map fun v => -v) := by
  unfold interpScf at h ⊢
  have e1 : scf.map (fun v => if false = true then (Arith.ofField K).neg v else v) = scf := by simp
  have e2 : scf.map (fun v => if true = true then (Arith.ofField K).neg v else v) = scf.map fun v => -v := by
    simp only [if_true, neg_fld]
  rw [e1] at h
  rw [e2]
  cases scf with
  | nil => cases h
  | cons s0 l =>
    rw [List.map_cons]
    dsimp only at h ⊢
    by_cases c : l.length ≠ 15
    · rw [if_pos c] at h; cases h
    · rw [if_neg c] at h
      rw [if_neg (by simpa using c)]
      have h := Option.some.inj h
      rw [← h, interpLoop_neg]
      have := interpLast_neg (s0 :: l)
      rw [List.map_cons] at this
      rw [this]
      simp

theorem foldAt_neg (nb n4 n2 : Nat) (s : List K) (b : Nat) :
    foldAt (Arith.ofField K) 0 nb n4 n2 (s.map fun v => -v) b = -foldAt (Arith.ofField K) 0 nb n4 n2 s b := by
  have e : ∀ k, (s.map fun v => -v).getD k 0 = -s.getD k 0 := by
    intro k
    rw [List.getD_eq_getElem?_getD, List.getD_eq_getElem?_getD, List.getElem?_map]
    cases s[k]? <;> simp
  unfold foldAt
  simp only [e, Arith.ofField]
  split_ifs <;> ring

theorem bandGains_fld (M : SnsMath K) (dt : Dt) (sr : Srate) (hc : Config dt sr) (scf : List K) (hs : scf.length = 16) (b : Nat) (hb : b < numBands dt sr) :
    ∃ v : K, (bandGains (Arith.ofField K) M dt sr scf false).getD b 0 = M.exp2 (-v) ∧
      (bandGains (Arith.ofField K) M dt sr scf true).getD b 0 = M.exp2 v := by
  obtain ⟨n1, n2⟩ := numBands_range dt sr hc
  obtain ⟨n4, m2, p1, p2, p3⟩ := padCounts_some _ n1 n2
  obtain ⟨s, a1, a2⟩ := interpScf_some (Arith.ofField K) scf false hs
  obtain ⟨f, b1, b2, b3⟩ := foldScf_spec (Arith.ofField K) 0 (numBands dt sr) n4 m2 p1 p2 p3 s a2
  obtain ⟨f', c1, c2, c3⟩ := foldScf_spec (Arith.ofField K) 0 (numBands dt sr) n4 m2 p1 p2 p3 (s.map fun v => -v) (by simpa using a2)
  refine ⟨f.getD b 0, ?_, ?_⟩
  · unfold bandGains
    rw [a1]; dsimp only
    rw [b1]; dsimp only
    rw [List.getD_eq_getElem _ _ (by rw [List.length_map]; omega), List.getElem_map, neg_fld, List.getD_eq_getElem _ _ (by omega)]
  · unfold bandGains
    rw [interpScf_neg scf s a1]; dsimp only
    rw [c1]; dsimp only
    rw [List.getD_eq_getElem _ _ (by rw [List.length_map]; omega), List.getElem_map, neg_fld]
    have : f'[b]'(by omega) = -f.getD b 0 := by
      rw [b3 b hb, ← foldAt_neg, ← c3 b hb, List.getD_eq_getElem _ _ (by omega)]
    rw [this, neg_neg]


/-! ### Scaling -/

/-- The spectrum in quantisation steps, times the gain of the decoder, is the spectrum given to the rate control, within `2 10^-7`. -/
theorem scaled_error (x y : List K) (g adj : Int) (h : Scaled (Arith.ofField K) x y g adj) (j : Nat) :
    |((gainE (g + adj) : Rat) : K) * y.getD j 0 - x.getD j 0| ≤ ((gainE (g + adj) : Rat) : K) * (|y.getD j 0| * 2 / 10 ^ 7) := by
  have hG : (0 : K) < ((gainE (g + adj) : Rat) : K) := by exact_mod_cast gainE_pos _
  obtain ⟨u, h1, h2⟩ := h
  rw [gain_fld] at h1
  have h1 := Option.some.inj h1
  obtain ⟨r1, r2⟩ := gain_ratio (K := K) g adj
  have key : ∃ w : K, y.getD j 0 = x.getD j 0 * w ∧ |((gainE (g + adj) : Rat) : K) * w - 1| ≤ 1 / 10 ^ 7 := by
    by_cases ha : adj = 0
    · rw [if_pos ha] at h2
      subst ha
      refine ⟨u, ?_, by rw [← h1, add_zero]; exact r2⟩
      rw [h2, List.getD_eq_getElem?_getD, List.getD_eq_getElem?_getD, List.getElem?_map]
      cases x[j]? with
      | none => simp
      | some v => rfl
    · rw [if_neg ha] at h2
      obtain ⟨u', h3, h4⟩ := h2
      rw [gain_fld] at h3
      have h3 := Option.some.inj h3
      refine ⟨u * u', ?_, by rw [← h1, ← h3, ← mul_assoc]; exact r1⟩
      rw [h4, List.getD_eq_getElem?_getD, List.getD_eq_getElem?_getD, List.getElem?_map]
      cases x[j]? with
      | none => simp
      | some v => exact mul_assoc _ _ _
  obtain ⟨w, k1, k2⟩ := key
  generalize ((gainE (g + adj) : Rat) : K) = G at *
  generalize y.getD j 0 = b at *
  generalize x.getD j 0 = a at *
  have e : G * b - a = a * (G * w - 1) := by rw [k1]; ring
  have hb : G * |b| = |G * b| := by rw [abs_mul, abs_of_pos hG]
  have t1 : |G * b - a| ≤ |a| * (1 / 10 ^ 7) := by
    rw [e, abs_mul]
    exact mul_le_mul_of_nonneg_left k2 (abs_nonneg _)
  have t2 : |a| ≤ |G * b| + |G * b - a| := by
    have := abs_sub_abs_le_abs_sub a (G * b)
    rw [abs_sub_comm a] at this
    linarith
  have : G * (|b| * 2 / 10 ^ 7) = |G * b| * 2 / 10 ^ 7 := by rw [← hb]; ring
  rw [this]
  have := abs_nonneg (G * b)
  have := abs_nonneg (G * b - a)
  generalize |G * b| = B at *
  generalize |G * b - a| = D at *
  generalize |a| = C at *
  norm_num at t1 ⊢
  linarith

end LC3.Fld
