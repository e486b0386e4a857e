import Verif.Lemmas.Level
import Verif.Props.Gain

/-!
C61: accuracy of the gain, and bound of the quantised coefficients given by the lower bound of the gain.
-/

namespace LC3

variable {R : Type}

/-! ### The gain -/

/-- **C61**, gain: the gain applied by the encoder and the decoder, for a gain index `g` relative to the offset, is `10^(g/28)` with an
error lower than two millionths, whatever the rounding to 24 bits of the operations. -/
theorem C61_gain (rnd : Rat → Rat) (h : Round24 rnd) (g : Int) (hg : g.natAbs ≤ 255) :
    ∃ u : Rat, unquantizeGain (Arith.rounded rnd) g = some u ∧
      |((u : Rat) : ℝ) - (10 : ℝ) ^ ((g : ℝ) / 28)| ≤ (10 : ℝ) ^ ((g : ℝ) / 28) / 500000 := by
  obtain ⟨u, hu, n1, n2⟩ := unquantizeGain_near h g hg
  refine ⟨u, hu, ?_⟩
  obtain ⟨e1, e2⟩ := gainE_real g
  have hE := gainE_pos g
  have m1 : gainE g * (1 - 1 / 600000) ≤ u := by
    refine le_trans ?_ n1
    rw [mul_comm]
    exact mul_le_mul_of_nonneg_right (by norm_num) (le_of_lt hE)
  have m2 : u ≤ gainE g * (1 + 1 / 600000) := by
    refine le_trans n2 ?_
    rw [mul_comm]
    exact mul_le_mul_of_nonneg_left (by norm_num) (le_of_lt hE)
  have m1' := (Rat.cast_le (K := ℝ)).mpr m1
  have m2' := (Rat.cast_le (K := ℝ)).mpr m2
  push_cast at m1' m2'
  have hr : (0 : ℝ) < (10 : ℝ) ^ ((g : ℝ) / 28) := Real.rpow_pos_of_pos (by norm_num) _
  generalize (10 : ℝ) ^ ((g : ℝ) / 28) = t at *
  generalize ((gainE g : Rat) : ℝ) = E at *
  generalize ((u : Rat) : ℝ) = w at *
  rw [abs_le]
  constructor <;> nlinarith

theorem rne24_round24 : Round24 rne24 := rne24_error

theorem id_round24 : Round24 id := fun x => by
  rw [id, sub_self, abs_zero]
  positivity

/-- Non vacuity: the gains of the two rounding functions, for the lowest and highest indices. -/
example : ∃ u : Rat, unquantizeGain (Arith.rounded rne24) (-255) = some u ∧
    |((u : Rat) : ℝ) - (10 : ℝ) ^ (((-255 : Int) : ℝ) / 28)| ≤ (10 : ℝ) ^ (((-255 : Int) : ℝ) / 28) / 500000 :=
  C61_gain rne24 rne24_round24 (-255) (by decide)

/-! ### The greatest coefficient -/

/-- `sqrtf`, with a relative error. -/
def SqrtOk (sq : Rat → Rat) : Prop := ∀ y, 0 ≤ y → 0 ≤ sq y ∧ y ≤ sq y * sq y * (1 + 1 / 10 ^ 6)

theorem isqrt_spec (f n s : Nat) (h1 : s * s ≤ n) (h2 : n < (s + 2 ^ f) * (s + 2 ^ f)) :
    isqrt f n s * isqrt f n s ≤ n ∧ n < (isqrt f n s + 1) * (isqrt f n s + 1) := by
  induction f generalizing s with
  | zero => rw [isqrt]; exact ⟨h1, by simpa using h2⟩
  | succ f ih =>
    rw [isqrt]
    split
    · rename_i c
      refine ih _ c ?_
      rw [show s + 2 ^ f + 2 ^ f = s + 2 ^ (f + 1) by rw [pow_succ]; ring]
      exact h2
    · rename_i c
      exact ih _ h1 (by omega)

/-- The square root of the model satisfies the hypothesis. -/
theorem sqrt24_ok : SqrtOk sqrt24 := by
  intro y hy
  unfold sqrt24
  by_cases c : y ≤ 0
  · rw [if_pos c]
    refine ⟨le_refl _, ?_⟩
    rw [mul_zero, zero_mul]; exact c
  rw [if_neg c]
  dsimp only
  have hy0 : 0 < y := not_le.mp c
  obtain ⟨e1, e2⟩ := rneExp_spec y hy0
  have ee : expOf y = rneExp y := rfl
  rw [ee]
  generalize rneExp y = e at *
  obtain ⟨q, hq, hq'⟩ : ∃ q : Int, e.fdiv 2 = q ∧ (2 * q = e ∨ 2 * q + 1 = e) :=
    ⟨_, rfl, by rw [Int.fdiv_eq_ediv_of_nonneg _ (by norm_num)]; omega⟩
  rw [hq]
  generalize hk : 24 - q = k
  have hpk := pow2_pos k
  have hpk' := pow2_pos (-k)
  have hinv : pow2 k * pow2 (-k) = 1 := by rw [← pow2_add, add_neg_cancel, pow2_zero]
  have h2k : pow2 (2 * k) = pow2 k * pow2 k := by rw [← pow2_add]; congr 1; ring
  have z1 : pow2 48 ≤ y * pow2 (2 * k) := by
    calc pow2 48 = pow2 (48 - 2 * k) * pow2 (2 * k) := by rw [← pow2_add]; congr 1; ring
      _ ≤ y * pow2 (2 * k) := mul_le_mul_of_nonneg_right (le_trans (pow2_le (by omega)) e1) (le_of_lt (pow2_pos _))
  have z2 : y * pow2 (2 * k) < pow2 50 := by
    calc y * pow2 (2 * k) < pow2 (e + 1) * pow2 (2 * k) := mul_lt_mul_of_pos_right e2 (pow2_pos _)
      _ ≤ pow2 50 := by rw [← pow2_add]; exact pow2_le (by omega)
  have p48 : pow2 48 = 281474976710656 := by decide +kernel
  have p50 : pow2 50 = 1125899906842624 := by decide +kernel
  rw [p48] at z1
  rw [p50] at z2
  generalize hz : y * pow2 (2 * k) = z at *
  have f1 : ((Rat.floor z : Int) : Rat) ≤ z := Int.floor_le z
  have f2 : z < (Rat.floor z : Int) + 1 := Int.lt_floor_add_one z
  have f3 : (281474976710656 : Int) ≤ Rat.floor z := Int.le_floor.mpr (by push_cast; exact z1)
  have f4 : Rat.floor z < (1125899906842624 : Int) := Int.floor_lt.mpr (by push_cast; exact z2)
  obtain ⟨n, hn⟩ : ∃ n : Nat, Rat.floor z = n := ⟨(Rat.floor z).toNat, by omega⟩
  rw [hn] at f1 f2 f3 f4 ⊢
  rw [Int.toNat_natCast]
  have hn1 : 281474976710656 ≤ n := by exact_mod_cast f3
  have hn2 : n < 1125899906842624 := by exact_mod_cast f4
  obtain ⟨s1, s2⟩ := isqrt_spec 25 n 0 (by omega) (by norm_num; omega)
  generalize isqrt 25 n 0 = s at *
  have hs : 16777216 ≤ s := by
    by_contra hc
    have : (s + 1) * (s + 1) ≤ 16777216 * 16777216 := Nat.mul_le_mul (by omega) (by omega)
    omega
  obtain ⟨r, hr, hr'⟩ : ∃ r : Nat, (if s % 2 = 0 then s else s + 1 : Nat) = r ∧ s ≤ r := ⟨_, rfl, by split <;> omega⟩
  rw [hr]
  have hrs : (s : Rat) ≤ r := by exact_mod_cast hr'
  have hs' : (16777216 : Rat) ≤ s := by exact_mod_cast hs
  have hz2 : z ≤ (s + 1) * (s + 1) := by
    have : ((n + 1 : Nat) : Rat) ≤ ((s + 1) * (s + 1) : Nat) := by exact_mod_cast s2
    push_cast at this f2
    linarith
  push_cast
  refine ⟨by positivity, ?_⟩
  have hy' : y = z * (pow2 (-k) * pow2 (-k)) := by
    rw [← hz, h2k]
    calc y = y * ((pow2 k * pow2 (-k)) * (pow2 k * pow2 (-k))) := by rw [hinv]; ring
      _ = _ := by ring
  rw [hy']
  calc z * (pow2 (-k) * pow2 (-k)) ≤ (r * r * (1 + 1 / 10 ^ 6)) * (pow2 (-k) * pow2 (-k)) := by
        refine mul_le_mul_of_nonneg_right ?_ (by positivity)
        nlinarith
    _ = _ := by ring

theorem gainBlocks_max (rnd : Rat → Rat) (x : List Rat) (h4 : x.length % 4 = 0) (m : Rat) :
    m ≤ (gainBlocks (Arith.rounded rnd) x m).1 ∧ ∀ v ∈ x, rnd (v * v) ≤ (gainBlocks (Arith.rounded rnd) x m).1 := by
  have hmax : ∀ a b : Rat, a ≤ (Arith.rounded rnd).max a b ∧ b ≤ (Arith.rounded rnd).max a b := by
    intro a b
    show a ≤ (if a ≤ b then b else a) ∧ b ≤ (if a ≤ b then b else a)
    split
    · rename_i c; exact ⟨c, le_refl _⟩
    · rename_i c; exact ⟨le_refl _, le_of_lt (not_le.mp c)⟩
  induction hn : x.length using Nat.strong_induction_on generalizing x m with
  | _ n ih =>
    match x, hn, h4 with
    | [], _, _ => exact ⟨le_refl _, fun v hv => by cases hv⟩
    | [_], _, h4 => simp at h4
    | [_, _], _, h4 => simp at h4
    | [_, _, _], _, h4 => simp at h4
    | x0 :: x1 :: x2 :: x3 :: l, hn, h4 =>
      rw [gainBlocks]
      dsimp only
      have hl : l.length + 4 = n := hn
      have a0 := hmax m (rnd (x0 * x0))
      have a1 := hmax ((Arith.rounded rnd).max m (rnd (x0 * x0))) (rnd (x1 * x1))
      have a2 := hmax ((Arith.rounded rnd).max ((Arith.rounded rnd).max m (rnd (x0 * x0))) (rnd (x1 * x1))) (rnd (x2 * x2))
      have a3 := hmax ((Arith.rounded rnd).max ((Arith.rounded rnd).max ((Arith.rounded rnd).max m (rnd (x0 * x0))) (rnd (x1 * x1)))
        (rnd (x2 * x2))) (rnd (x3 * x3))
      have i := ih l.length (by omega) l (by simp only [List.length_cons] at h4; omega)
        ((Arith.rounded rnd).max ((Arith.rounded rnd).max ((Arith.rounded rnd).max ((Arith.rounded rnd).max m (rnd (x0 * x0))) (rnd (x1 * x1)))
          (rnd (x2 * x2))) (rnd (x3 * x3))) rfl
      change m ≤ (gainBlocks (Arith.rounded rnd) l ((Arith.rounded rnd).max ((Arith.rounded rnd).max ((Arith.rounded rnd).max
        ((Arith.rounded rnd).max m (rnd (x0 * x0))) (rnd (x1 * x1))) (rnd (x2 * x2))) (rnd (x3 * x3)))).1 ∧
        ∀ v ∈ x0 :: x1 :: x2 :: x3 :: l, rnd (v * v) ≤ (gainBlocks (Arith.rounded rnd) l ((Arith.rounded rnd).max ((Arith.rounded rnd).max
          ((Arith.rounded rnd).max ((Arith.rounded rnd).max m (rnd (x0 * x0))) (rnd (x1 * x1))) (rnd (x2 * x2))) (rnd (x3 * x3)))).1
      generalize (Arith.rounded rnd).max ((Arith.rounded rnd).max ((Arith.rounded rnd).max ((Arith.rounded rnd).max m (rnd (x0 * x0)))
        (rnd (x1 * x1))) (rnd (x2 * x2))) (rnd (x3 * x3)) = t3 at *
      generalize (Arith.rounded rnd).max ((Arith.rounded rnd).max ((Arith.rounded rnd).max m (rnd (x0 * x0)))
        (rnd (x1 * x1))) (rnd (x2 * x2)) = t2 at *
      generalize (Arith.rounded rnd).max ((Arith.rounded rnd).max m (rnd (x0 * x0))) (rnd (x1 * x1)) = t1 at *
      generalize (Arith.rounded rnd).max m (rnd (x0 * x0)) = t0 at *
      obtain ⟨i1, i2⟩ := i
      refine ⟨by linarith [a0.1, a1.1, a2.1, a3.1], ?_⟩
      intro v hv
      simp only [List.mem_cons] at hv
      rcases hv with rfl | rfl | rfl | rfl | hv
      · linarith [a0.2, a1.1, a2.1, a3.1]
      · linarith [a1.2, a2.1, a3.1]
      · linarith [a2.2, a3.1]
      · linarith [a3.2]
      · exact i2 v hv

/-- The lower bound of the gain: the highest one, or a gain for which the greatest coefficient is below the limit. -/
theorem gainMin_bound (A : Arith R) (lim xMax : R) (is : List Nat) (g0 g r : Int) (h : gainMin A lim xMax is g = some r)
    (hg : g = g0 ∨ ∃ u, unquantizeGain A g = some u ∧ A.lt xMax (A.mul lim u) = true) :
    r = g0 ∨ ∃ u, unquantizeGain A r = some u ∧ A.lt xMax (A.mul lim u) = true := by
  induction is generalizing g with
  | nil =>
    rw [gainMin] at h
    injection h with h
    subst h
    exact hg
  | cons i is ih =>
    rw [gainMin] at h
    obtain ⟨u, hu, h⟩ := Option.bind_eq_some_iff.mp h
    refine ih _ h ?_
    split
    · rename_i c
      exact Or.inr ⟨u, hu, c⟩
    · exact hg

/-- The analysis, with the lower bound of the gain. -/
theorem specAnalyze_min (A : Arith R) (G : GainMath R) (dt : Dt) (sr : Srate) (nbytes : Nat) (pitch : Bool) (tns : TnsData)
    (st st' : SpecSt R) (x y : List R) (hx : x.length = ne dt sr) (side : SpecSide)
    (h : specAnalyze A G dt sr nbytes pitch tns st x = some (st', y, side)) :
    ∃ g adj gMin : Int, Scaled A x y g adj ∧ (side.gIdx : Int) = g + adj + gainOffset sr nbytes ∧ gMin ≤ g + adj ∧
      -(gainOffset sr nbytes : Int) ≤ gMin ∧ gMin ≤ g ∧ g ≤ 255 - gainOffset sr nbytes ∧ g + adj ≤ 255 - gainOffset sr nbytes ∧ -1 ≤ adj ∧
      (gMin = 255 - gainOffset sr nbytes ∨ ∃ u, unquantizeGain A gMin = some u ∧
        A.lt (G.sqrt (gainBlocks A x (A.ofRat 0)).1) (A.mul (A.ofRat (xLim sr)) u) = true) := by
  unfold specAnalyze at h
  dsimp only at h
  obtain ⟨est, hest, h⟩ := Option.bind_eq_some_iff.mp h
  obtain ⟨⟨q, n1⟩, hq, h⟩ := Option.bind_eq_some_iff.mp h
  split at h
  · cases h
  obtain ⟨m1, hm1, h⟩ := Option.bind_eq_some_iff.mp h
  obtain ⟨⟨q2, n2⟩, hq2, h⟩ := Option.bind_eq_some_iff.mp h
  split at h
  · cases h
  obtain ⟨m2, hm2, h⟩ := Option.bind_eq_some_iff.mp h
  split at h
  · cases h
  rename_i hg0
  injection h with h
  rw [Prod.mk.injEq, Prod.mk.injEq] at h
  obtain ⟨-, hy, hside⟩ := h
  obtain ⟨r1, r2, r3⟩ := estimateGain_range _ _ _ _ _ _ _ _ _ _ hest
  obtain ⟨u, k, hu, e1, k1, k2, -⟩ := quantize_some A dt sr est.gInt x hx
  rw [hq] at e1
  injection e1 with e1
  rw [Prod.mk.injEq] at e1
  obtain ⟨eq1, en1⟩ := e1
  have hqlen : q.length = ne dt sr := by rw [eq1, List.length_map]; exact hx
  obtain ⟨em1, hm1⟩ := magnitudes_spec _ _ _ _ _ hm1
  have hn0 := computeNbits_nonneg dt sr nbytes m1 hm1 0
  have hadj := adjustGain_range dt sr (gainOffset sr nbytes + est.gInt) (computeNbits dt sr nbytes m1 0).nbits
    (specBudget dt sr nbytes pitch tns) (gainOffset sr nbytes + est.gMin) (by omega) (by omega) hn0
  generalize computeNbits dt sr nbytes m1 0 = c1 at *
  generalize hA : adjustGain dt sr (gainOffset sr nbytes + est.gInt) c1.nbits (specBudget dt sr nbytes pitch tns)
    (gainOffset sr nbytes + est.gMin) = adj at *
  have hsc : Scaled A x q2 est.gInt adj := by
    by_cases c : adj = 0
    · rw [if_neg (fun h => h c)] at hq2
      injection hq2 with hq2
      rw [Prod.mk.injEq] at hq2
      refine ⟨u, hu, ?_⟩
      rw [if_pos c, ← hq2.1, eq1]
    · rw [if_pos c] at hq2
      obtain ⟨u', k', hu', e', k1', k2', -⟩ := quantize_some A dt sr adj q hqlen
      rw [hq2] at e'
      injection e' with e'
      rw [Prod.mk.injEq] at e'
      refine ⟨u, hu, ?_⟩
      rw [if_neg c]
      refine ⟨u', hu', ?_⟩
      rw [e'.1, eq1, List.map_map]
      rfl
  subst hy
  have e1 : side.gIdx = (est.gInt + adj + gainOffset sr nbytes).toNat := by rw [← hside]
  obtain ⟨a1, a2, a3, -⟩ := hadj
  refine ⟨est.gInt, adj, est.gMin, hsc, by omega, by omega, r1, r2, r3, by omega, a3, ?_⟩
  unfold estimateGain at hest
  dsimp only at hest
  obtain ⟨nf, -, hest⟩ := Option.bind_eq_some_iff.mp hest
  obtain ⟨nb, -, hest⟩ := Option.bind_eq_some_iff.mp hest
  obtain ⟨g, hg, hest⟩ := Option.bind_eq_some_iff.mp hest
  obtain ⟨m, hm, hest⟩ := Option.map_eq_some_iff.mp hest
  subst hest
  exact gainMin_bound A _ _ _ _ _ _ hm (Or.inl rfl)

theorem ne_mod4 (dt : Dt) (sr : Srate) : ne dt sr % 4 = 0 := by cases dt <;> cases sr <;> decide

theorem round24_abs {rnd : Rat → Rat} (h : Round24 rnd) (a : Rat) : |rnd a| ≤ |a| * (1 + 1 / 2 ^ 24) := by
  have h1 := h a
  have h2 : |rnd a| ≤ |rnd a - a| + |a| := by
    have := abs_add_le (rnd a - a) a
    rwa [sub_add_cancel] at this
  linarith

/-- **C61**, magnitudes: with any rounding to 24 bits, after the analysis of a spectrum `x` whose coefficients do not exceed the limit
`xLim` (32767, 256 times more in high resolution) scaled by the gain of the highest index, no quantised coefficient exceeds what can
be coded: 16 bits, 24 in high resolution. This is the hypothesis on the magnitudes of `C25_round_trip` and `C46_analysis_partial`. -/
theorem C61_magnitudes_partial (rnd : Rat → Rat) (hr : Round24 rnd) (G : GainMath Rat) (hG : SqrtOk G.sqrt) (dt : Dt) (sr : Srate) (nbytes : Nat)
    (pitch : Bool) (tns : TnsData) (st st' : SpecSt Rat) (x y : List Rat) (hx : x.length = ne dt sr) (side : SpecSide)
    (h : specAnalyze (Arith.rounded rnd) G dt sr nbytes pitch tns st x = some (st', y, side))
    (hlev : ∀ v ∈ x, |((v : Rat) : ℝ)| ≤ (if sr.hr then 32767 * 256 else 32767) * (10 : ℝ) ^ ((255 - gainOffset sr nbytes : ℝ) / 28)) :
    ∀ w ∈ y, (quantCoef (Arith.rounded rnd) sr.hr w).1 < if sr.hr then 2 ^ 24 else 2 ^ 16 := by
  obtain ⟨g, adj, gMin, hsc, -, h1, h2, h3, h4, h5, h6, hmin⟩ := specAnalyze_min _ G dt sr nbytes pitch tns st st' x y hx side h
  have hoff := gainOffset_le sr nbytes
  have hlim : 0 < xLim sr := by unfold xLim; split <;> norm_num
  -- the level of the input
  have hV : ∀ v ∈ x, |v| ≤ xLim sr * gainE gMin * (1 + 1 / 10 ^ 5) := by
    rcases hmin with hm | ⟨u, hu, hlt⟩
    · intro v hv
      have hl := hlev v hv
      obtain ⟨e1, -⟩ := gainE_real gMin
      rw [hm] at e1 ⊢
      have ec : ((255 - (gainOffset sr nbytes : Int) : Int) : ℝ) = (255 - gainOffset sr nbytes : ℝ) := by push_cast; ring
      rw [ec] at e1
      have hp : (0 : ℝ) < (10 : ℝ) ^ ((255 - gainOffset sr nbytes : ℝ) / 28) := Real.rpow_pos_of_pos (by norm_num) _
      have hxl : (if sr.hr then 32767 * 256 else 32767 : ℝ) = ((xLim sr : Rat) : ℝ) := by unfold xLim; split <;> norm_num
      rw [hxl] at hl
      have hlim' : (0 : ℝ) < ((xLim sr : Rat) : ℝ) := by exact_mod_cast hlim
      have : |((v : Rat) : ℝ)| ≤ ((xLim sr * gainE (255 - (gainOffset sr nbytes : Int)) * (1 + 1 / 10 ^ 5) : Rat) : ℝ) := by
        push_cast
        refine le_trans hl ?_
        rw [mul_assoc]
        refine mul_le_mul_of_nonneg_left ?_ (le_of_lt hlim')
        nlinarith
      exact_mod_cast this
    · intro v hv
      obtain ⟨b0, b1⟩ := gainBlocks_max rnd x (by rw [hx]; exact ne_mod4 dt sr) ((Arith.rounded rnd).ofRat 0)
      have hz : (Arith.rounded rnd).ofRat 0 = 0 := by
        show rnd 0 = 0
        have := hr 0
        rw [abs_zero, zero_div, sub_zero] at this
        exact abs_eq_zero.mp (le_antisymm this (abs_nonneg _))
      have b1 := b1 v hv
      rw [hz] at b0 b1 hlt
      generalize (gainBlocks (Arith.rounded rnd) x 0).1 = b at *
      obtain ⟨q1, q2⟩ := hG b b0
      generalize G.sqrt b = s at *
      have hlt : s < rnd (rnd (xLim sr) * u) := of_decide_eq_true hlt
      obtain ⟨u', hu', n1⟩ := unquantizeGain_near hr gMin (by omega)
      rw [hu] at hu'
      injection hu' with hu'
      subst hu'
      have hE := gainE_pos gMin
      have n2 := ((hr.near (le_of_lt hlim)).mul n1 (le_of_lt hlim) (le_of_lt hE))
      have n3 := n2.trans (hr.near (n2.nonneg (by positivity)))
      have hs : s ≤ xLim sr * gainE gMin * (1 + 1 / 500000) := by
        refine le_trans (le_of_lt hlt) (le_trans n3.2 ?_)
        rw [mul_comm]
        exact mul_le_mul_of_nonneg_left (by norm_num) (by positivity)
      have hvv : v * v * (1 - 1 / 2 ^ 24) ≤ b := by
        have := (hr.near (mul_self_nonneg v)).1
        rw [pow_one] at this
        linarith
      have hv2 : |v| * |v| ≤ (s * (1 + 1 / 10 ^ 6)) * (s * (1 + 1 / 10 ^ 6)) := by
        rw [abs_mul_abs_self]
        nlinarith [mul_self_nonneg v, mul_self_nonneg s]
      have hv3 : |v| ≤ s * (1 + 1 / 10 ^ 6) := nonneg_le_nonneg_of_sq_le_sq (by positivity) hv2
      have hK : 0 < xLim sr * gainE gMin := by positivity
      nlinarith
  have hE := gainE_pos gMin
  -- the scaling
  have hU : ∃ U : Rat, 0 ≤ U ∧ U ≤ gainE (-(g + adj)) * (1 + 1 / 10 ^ 5) ∧ ∀ w ∈ y, ∃ v ∈ x, |w| ≤ |v| * U * (1 + 1 / 10 ^ 6) := by
    obtain ⟨u, hu, hsc⟩ := hsc
    obtain ⟨u1, hu1, n1⟩ := unquantizeGain_near hr (-g) (by omega)
    rw [hu] at hu1
    injection hu1 with hu1
    subst hu1
    have hE3 := gainE_pos (-g)
    have p1 := n1.pos hE3
    have hu24 : u ≤ gainE (-g) * (1 + 1 / 500000) := by
      refine le_trans n1.2 ?_
      rw [mul_comm]
      exact mul_le_mul_of_nonneg_left (by norm_num) (le_of_lt hE3)
    by_cases c : adj = 0
    · rw [if_pos c] at hsc
      refine ⟨u, le_of_lt p1, ?_, ?_⟩
      · rw [c, add_zero]
        nlinarith
      · intro w hw
        rw [hsc] at hw
        obtain ⟨v, hv, rfl⟩ := List.mem_map.mp hw
        refine ⟨v, hv, ?_⟩
        show |rnd (v * u)| ≤ _
        refine le_trans (round24_abs hr _) ?_
        rw [abs_mul, abs_of_pos p1]
        exact mul_le_mul_of_nonneg_left (by norm_num) (by positivity)
    · rw [if_neg c] at hsc
      obtain ⟨u2, hu2, hsc⟩ := hsc
      obtain ⟨u3, hu3, n3⟩ := unquantizeGain_near hr (-adj) (by omega)
      rw [hu2] at hu3
      injection hu3 with hu3
      subst hu3
      have hE4 := gainE_pos (-adj)
      have p2 := n3.pos hE4
      have hu25 : u2 ≤ gainE (-adj) * (1 + 1 / 500000) := by
        refine le_trans n3.2 ?_
        rw [mul_comm]
        exact mul_le_mul_of_nonneg_left (by norm_num) (le_of_lt hE4)
      refine ⟨u * u2, by positivity, ?_, ?_⟩
      · have hm := gainE_mul (-g) (-adj)
        rw [show -g + -adj = -(g + adj) by ring] at hm
        have hE5 := gainE_pos (-(g + adj))
        calc u * u2 ≤ (gainE (-g) * (1 + 1 / 500000)) * (gainE (-adj) * (1 + 1 / 500000)) :=
              mul_le_mul hu24 hu25 (le_of_lt p2) (by positivity)
          _ = gainE (-g) * gainE (-adj) * ((1 + 1 / 500000) * (1 + 1 / 500000)) := by ring
          _ ≤ gainE (-(g + adj)) * (1 + 1 / 10 ^ 7) * ((1 + 1 / 500000) * (1 + 1 / 500000)) :=
              mul_le_mul_of_nonneg_right hm (by norm_num)
          _ ≤ gainE (-(g + adj)) * (1 + 1 / 10 ^ 5) := by
              rw [mul_assoc]
              exact mul_le_mul_of_nonneg_left (by norm_num) (le_of_lt hE5)
      · intro w hw
        rw [hsc] at hw
        obtain ⟨v, hv, rfl⟩ := List.mem_map.mp hw
        refine ⟨v, hv, ?_⟩
        show |rnd (rnd (v * u) * u2)| ≤ _
        refine le_trans (round24_abs hr _) ?_
        have r1 := round24_abs hr (v * u)
        rw [abs_mul, abs_of_pos p1] at r1
        rw [abs_mul, abs_of_pos p2]
        calc |rnd (v * u)| * u2 * (1 + 1 / 2 ^ 24) ≤ |v| * u * (1 + 1 / 2 ^ 24) * u2 * (1 + 1 / 2 ^ 24) := by
              have := mul_le_mul_of_nonneg_right r1 (le_of_lt p2)
              exact mul_le_mul_of_nonneg_right this (by norm_num)
          _ = |v| * (u * u2) * ((1 + 1 / 2 ^ 24) * (1 + 1 / 2 ^ 24)) := by ring
          _ ≤ |v| * (u * u2) * (1 + 1 / 10 ^ 6) := mul_le_mul_of_nonneg_left (by norm_num) (by positivity)
  -- the scaled coefficients
  have hW : ∀ w ∈ y, |w| ≤ xLim sr * (1 + 1 / 10 ^ 4) := by
    obtain ⟨U, u0, u1, u2⟩ := hU
    intro w hw
    obtain ⟨v, hv, hw⟩ := u2 w hw
    have hv := hV v hv
    have hm1 := gainE_mul gMin (-(g + adj))
    have hm2 := gainE_mono (show gMin + -(g + adj) ≤ 0 by omega)
    have hz : gainE 0 = 1 := by decide +kernel
    rw [hz] at hm2
    have hE2 := gainE_pos (-(g + adj))
    have hprod : gainE gMin * gainE (-(g + adj)) ≤ 1 + 1 / 10 ^ 7 := by nlinarith
    have hEE := mul_pos hE hE2
    calc |w| ≤ |v| * U * (1 + 1 / 10 ^ 6) := hw
      _ ≤ (xLim sr * gainE gMin * (1 + 1 / 10 ^ 5)) * (gainE (-(g + adj)) * (1 + 1 / 10 ^ 5)) * (1 + 1 / 10 ^ 6) :=
          mul_le_mul_of_nonneg_right (mul_le_mul hv u1 u0 (by positivity)) (by norm_num)
      _ = xLim sr * (gainE gMin * gainE (-(g + adj))) * ((1 + 1 / 10 ^ 5) * (1 + 1 / 10 ^ 5) * (1 + 1 / 10 ^ 6)) := by ring
      _ ≤ xLim sr * (1 + 1 / 10 ^ 7) * ((1 + 1 / 10 ^ 5) * (1 + 1 / 10 ^ 5) * (1 + 1 / 10 ^ 6)) :=
          mul_le_mul_of_nonneg_right (mul_le_mul_of_nonneg_left hprod (le_of_lt hlim)) (by norm_num)
      _ ≤ xLim sr * (1 + 1 / 10 ^ 4) := by
          rw [mul_assoc]
          exact mul_le_mul_of_nonneg_left (by norm_num) (le_of_lt hlim)
  -- the integers
  intro w hw
  have hw := hW w hw
  have habs : (Arith.rounded rnd).abs w = |w| := by
    show (if w < 0 then -w else w) = |w|
    split
    · rename_i c; rw [abs_of_neg c]
    · rename_i c; rw [abs_of_nonneg (not_lt.mp c)]
  unfold quantCoef
  rw [habs]
  have hc : 0 ≤ (if sr.hr then 1 / 2 else 6 / 16 : Rat) ∧ (if sr.hr then 1 / 2 else 6 / 16 : Rat) ≤ 1 / 2 := by split <;> norm_num
  have hc' := hr.near hc.1
  show ((if rnd (|w| + rnd (if sr.hr then 1 / 2 else 6 / 16)) < 0 then -Rat.floor (-rnd (|w| + rnd (if sr.hr then 1 / 2 else 6 / 16)))
    else Rat.floor (rnd (|w| + rnd (if sr.hr then 1 / 2 else 6 / 16)))).toNat) < _
  generalize (if sr.hr then 1 / 2 else 6 / 16 : Rat) = cc at *
  have hq1 : rnd cc ≤ 1 := by
    have := hc'.2
    rw [pow_one] at this
    nlinarith
  have hq0 := hc'.nonneg hc.1
  have hn := hr.near (show 0 ≤ |w| + rnd cc by positivity)
  have hz0 := hn.nonneg (by positivity)
  have hz1 := hn.2
  rw [pow_one] at hz1
  generalize rnd (|w| + rnd cc) = z at *
  rw [if_neg (not_lt.mpr hz0)]
  have hB : z < ((if sr.hr then 2 ^ 24 else 2 ^ 16 : Nat) : Rat) := by
    unfold xLim at hw
    cases hs : sr.hr with
    | false =>
      rw [hs, if_neg (by simp)] at hw
      rw [if_neg (by simp)]
      push_cast
      nlinarith
    | true =>
      rw [hs, if_pos rfl] at hw
      rw [if_pos rfl]
      push_cast
      nlinarith
  have hBp : 0 < (if sr.hr then 2 ^ 24 else 2 ^ 16 : Nat) := by split <;> norm_num
  generalize (if sr.hr then 2 ^ 24 else 2 ^ 16 : Nat) = B at *
  have hfl : (Rat.floor z : Rat) ≤ z := Int.floor_le z
  have : Rat.floor z < (B : Int) := by
    have : ((Rat.floor z : Int) : Rat) < ((B : Int) : Rat) := by push_cast; linarith
    exact_mod_cast this
  omega

/-- Non vacuity: the spectrum of `C46_refuted_from_analysis`, in the arithmetic of binary32. -/
example : ∃ st' y side, specAnalyze (Arith.rounded rne24) floatMath .m10 .k8 71 false ⟨false, [[]]⟩ ⟨0, 0⟩ overX = some (st', y, side) ∧
    ∀ w ∈ y, (quantCoef (Arith.rounded rne24) false w).1 < 2 ^ 16 := by
  have h := over_analysis
  rw [Option.any_eq_true] at h
  obtain ⟨⟨st', y, s⟩, h1, -⟩ := h
  refine ⟨st', y, s, h1, ?_⟩
  refine C61_magnitudes_partial rne24 rne24_round24 floatMath sqrt24_ok .m10 .k8 71 false ⟨false, [[]]⟩ ⟨0, 0⟩ st' overX y (by decide +kernel) s h1 ?_
  intro v hv
  have hb : ∀ v ∈ overX, |v| ≤ 60 := by decide +kernel
  have hb : |((v : Rat) : ℝ)| ≤ 60 := by exact_mod_cast hb v hv
  have ho := gainOffset_le .k8 71
  have ho' : ((gainOffset .k8 71 : Nat) : ℝ) ≤ 255 := by exact_mod_cast ho
  have : (1 : ℝ) ≤ (10 : ℝ) ^ ((255 - gainOffset .k8 71 : ℝ) / 28) :=
    Real.one_le_rpow (by norm_num) (div_nonneg (by linarith) (by norm_num))
  show |((v : Rat) : ℝ)| ≤ 32767 * _
  linarith

/-! ### Above the level -/

/-- A spectrum of one coefficient, above the level of `C61_magnitudes_partial`. -/
def loudX : List Rat := 2000000 :: List.replicate 79 0

/-- The spectrum in quantisation steps. -/
def loudY : List Rat := 10858789 / 64 :: List.replicate 79 0

/-- The side information. -/
def loudSide : SideData :=
  ⟨0, ⟨255, 2, false⟩, ⟨false, [[]]⟩, false, ⟨0, 0, 0, 0, 0, false, 0, false⟩, ⟨false, 0⟩⟩

theorem loud_analysis :
    (specAnalyze (Arith.rounded rne24) floatMath .m10 .k8 144 false ⟨false, [[]]⟩ ⟨0, 0⟩ loudX).any
      (fun r => decide (r.2.1 = loudY) && decide (r.2.2 = loudSide.spec)) = true := by
  decide +kernel

theorem loud_refused (sh32 : Nat → Nat) (junk : LtpfData) :
    (encodeFrame (Arith.rounded rne24) .m10 .k8 (List.replicate 144 0) loudSide loudY).any
      (fun F => isRefused (decodeFrame (Arith.rounded rne24) .m10 .k8 sh32 junk F)) = true := by
  run_tac do
    let g ← Lean.Elab.Tactic.getMainGoal
    g.assign (Lean.mkApp2 (.const ``Eq.refl [1]) (.const ``Bool []) (.const ``Bool.true []))

/-- **C61**, the level is needed: at 8 kHz with 144 bytes, the gain offset is 225 and the gain is at most `10^(30/28)`, nearly 11.8. On a
spectrum with one coefficient of 2000000, the analysis retains this highest gain, the coefficient in quantisation steps is 169668,
it is not coded, and the frame is refused by the decoder. -/
theorem C61_level_refuted :
    ∃ st' F, specAnalyze (Arith.rounded rne24) floatMath .m10 .k8 144 false loudSide.tns ⟨0, 0⟩ loudX =
        some (st', loudY, loudSide.spec) ∧
      (∃ w ∈ loudY, (quantCoef (Arith.rounded rne24) false w).1 = 169668) ∧
      encodeFrame (Arith.rounded rne24) .m10 .k8 (List.replicate 144 0) loudSide loudY = some F ∧
      ∀ sh32 junk, ∃ r, decodeFrame (Arith.rounded rne24) .m10 .k8 sh32 junk F = (.refused, r) := by
  have h := loud_analysis
  rw [Option.any_eq_true] at h
  obtain ⟨⟨st', y, s⟩, h1, h2⟩ := h
  rw [Bool.and_eq_true, decide_eq_true_eq, decide_eq_true_eq] at h2
  dsimp only at h2
  obtain ⟨rfl, rfl⟩ := h2
  have h3 := loud_refused id ⟨false, 0⟩
  rw [Option.any_eq_true] at h3
  obtain ⟨F, hF, -⟩ := h3
  refine ⟨st', F, h1, ⟨10858789 / 64, List.mem_cons_self, by decide +kernel⟩, hF, fun sh32 junk => ?_⟩
  have h := loud_refused sh32 junk
  rw [hF, Option.any_some] at h
  generalize decodeFrame (Arith.rounded rne24) .m10 .k8 sh32 junk F = w at *
  obtain ⟨o, r⟩ := w
  cases o with
  | refused => exact ⟨r, rfl⟩
  | ub => cases h
  | ok => cases h

end LC3
