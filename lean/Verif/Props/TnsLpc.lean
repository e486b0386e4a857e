import Mathlib.Tactic.IntervalCases
import Verif.Lemmas.Lattice
import Verif.Lemmas.Float

/-!
# C70: the temporal noise shaping filter is the optimal predictor

In exact arithmetic: the correlations, the Levinson-Durbin recursion, the reflection coefficients, the lattice filter.
-/

namespace LC3

open Finset

/-! ### Correlations -/

/-- The autocorrelation of the coefficients `xs .. xe-1` at the lag `k`. -/
def autocorr (x : List Rat) (xs xe k : Nat) : Rat :=
  ∑ i ∈ range (xe - xs - k), x.getD (xs + i) 0 * x.getD (xs + i + k) 0

theorem tnsDot_exact (x : List Rat) (n i j : Nat) (v w : Rat) (h : tnsDot Arith.exact x n i j v = some w) :
    w = v + ∑ t ∈ range n, x.getD (i + t) 0 * x.getD (j + t) 0 := by
  induction n generalizing i j v with
  | zero => cases h; simp
  | succ n ih =>
    rw [tnsDot] at h
    simp only [Option.bind_eq_some_iff] at h
    obtain ⟨a, ha, b, hb, h⟩ := h
    rw [ih _ _ _ h, sum_range_succ']
    have e1 : x.getD (i + 0) 0 = a := by rw [Nat.add_zero, List.getD_eq_getElem?_getD, ha]; rfl
    have e2 : x.getD (j + 0) 0 = b := by rw [Nat.add_zero, List.getD_eq_getElem?_getD, hb]; rfl
    rw [e1, e2]
    have e3 : ∀ t ∈ range n, x.getD (i + 1 + t) 0 * x.getD (j + 1 + t) 0 = x.getD (i + (t + 1)) 0 * x.getD (j + (t + 1)) 0 := by
      intro t _
      rw [show i + 1 + t = i + (t + 1) by omega, show j + 1 + t = j + (t + 1) by omega]
    rw [sum_congr rfl e3]
    change v + a * b + _ = _
    ring

theorem tnsCorr_exact (x : List Rat) (xs xe m : Nat) (c : List Rat) (h : tnsCorr Arith.exact x xs xe m = some c) :
    c = (List.range (m + 1)).map (autocorr x xs xe) := by
  unfold tnsCorr at h
  have := mapM_forall₂ _ _ _ h
  apply List.ext_getElem
  · rw [← this.length_eq]; simp
  intro k h1 h2
  have hk : k < (List.range (m + 1)).length := by simpa using h2
  have e := (List.forall₂_iff_get.mp this).2 k hk h1
  simp only [List.get_eq_getElem, List.getElem_range] at e
  split at e
  · cases e
  rw [List.getElem_map, List.getElem_range, tnsDot_exact _ _ _ _ _ _ e]
  unfold autocorr
  change (0 : Rat) + _ = _
  rw [zero_add]
  apply sum_congr rfl
  intro t _
  rw [show xs + k + t = xs + t + k by omega]

/-! ### Optimality -/

/-- C70: the coefficients computed solve the normal equations of the correlations `r`, `e` is the energy of the prediction error, and
any other predictor of the same order adds the energy of its difference: none is better when the energies are not negative. -/
theorem C70_optimal (r : List Rat) (e0 : Rat) (n : Nat) (a : List Rat) (e : Rat)
    (h : levinson Arith.exact r n ([], e0) = some (a, e)) (he : e ≠ 0) :
    a.length = n ∧
    (∀ i, 1 ≤ i → i ≤ n → ∑ j ∈ range (n + 1), (1 :: a).getD j 0 * (e0 :: r).getD ((i : Int) - (j : Int)).natAbs 0 = 0) ∧
    energy (fun k => (e0 :: r).getD k 0) n (fun j => (1 :: a).getD j 0) = e ∧
    (∀ b : Nat → Rat, b 0 = 1 →
      energy (fun k => (e0 :: r).getD k 0) n b =
        e + energy (fun k => (e0 :: r).getD k 0) n (fun j => b j - (1 :: a).getD j 0)) := by
  obtain ⟨h1, h2⟩ := levinson_normal e0 r n [] e0 (a, e) h he (normal_start e0 r)
  dsimp only at h1 h2
  rw [List.length_nil, Nat.zero_add] at h1
  refine ⟨h1, fun i hi hn => ?_, ?_, fun b hb => ?_⟩
  · have := h2.eqs i hi (by omega)
    unfold crossErr at this
    rw [h1] at this
    exact this
  · have := energy_self _ _ _ h2
    rw [h1] at this
    exact this
  · have := energy_normal _ _ _ h2 b hb
    rw [h1] at this
    exact this

/-- C70: the lattice filter of the encoder, with the reflection coefficients computed from the predictor, outputs the prediction error
of this predictor; the energy of the error is the one of the signal, times the product of the `1 - rc²`. -/
theorem C70_lattice (r : List Rat) (e0 : Rat) (n : Nat) (h8 : n ≤ 8) (a : List Rat) (e : Rat)
    (h : levinson Arith.exact r n ([], e0) = some (a, e)) (he : e ≠ 0) (l : List Rat) :
    e = e0 * ((lpcReflection Arith.exact n a).map fun k => 1 - k * k).prod ∧
    ∃ y s, filterRun (fwdStep Arith.exact (lpcReflection Arith.exact n a)) l (List.replicate 8 0) = some (y, s) ∧ y.length = l.length ∧
      ∀ i, i < l.length → y.getD i 0 =
        ∑ j ∈ range (n + 1), (1 :: a).getD j 0 * (if j ≤ i then l.getD (i - j) 0 else 0) := by
  obtain ⟨ks, hk, ha, hp⟩ := levinson_steps r n [] e0 (a, e) h
  dsimp only at ha hp
  have hne : ∀ k ∈ ks, k * k ≠ 1 := by
    intro k hk h1
    apply he
    rw [hp, List.prod_eq_zero, mul_zero]
    exact List.mem_map.mpr ⟨k, hk, by rw [h1, sub_self]⟩
  have hr : lpcReflection Arith.exact n a = ks := by
    rw [ha]
    exact lpcReflection_up ks (fun k hm => hne k (List.mem_of_mem_tail hm)) n (by omega)
  rw [hr]
  refine ⟨hp, ?_⟩
  obtain ⟨y, s, h1, h2, h3⟩ := lattice_fir ks (by omega) l
  refine ⟨y, s, h1, h2, fun i hi => ?_⟩
  rw [h3 i hi, hk, ← ha]
  rfl

/-- C70: the predictor of a frame, for each filter: the gain is the ratio of the energies, and the predictor is the optimal one of
correlations `r` of the code, for the lags from 1. -/
theorem C70_frame (dt : Dt) (bw m : Nat) (x : List Rat) (g : List (Rat × List Rat))
    (h : computeLpcCoeffs Arith.exact dt bw m x = some g) :
    ∃ sub rs, tnsSub dt bw = some sub ∧
      tnsAutocorr Arith.exact x m (2 + b2n (decide (dt.idx ≥ 2))) (tnsNfilters dt bw) sub = some rs ∧ rs.length = g.length ∧
      ∀ f, (hf : f < g.length) → ∃ e : Rat, (g[f]).1 = ((2 + b2n (decide (dt.idx ≥ 2)) : Nat) : Rat) / e ∧
        ∃ r, rs[f]? = some r ∧ levinson Arith.exact r m ([], ((2 + b2n (decide (dt.idx ≥ 2)) : Nat) : Rat)) = some ((g[f]).2, e) := by
  unfold computeLpcCoeffs at h
  dsimp only at h
  simp only [Option.bind_eq_some_iff] at h
  obtain ⟨sub, h1, rs, h2, h3⟩ := h
  have := mapM_forall₂ _ _ _ h3
  refine ⟨sub, rs, h1, h2, this.length_eq, fun f hf => ?_⟩
  have hr : f < rs.length := by rw [this.length_eq]; exact hf
  have e := (List.forall₂_iff_get.mp this).2 f hr hf
  simp only [List.get_eq_getElem, Option.map_eq_some_iff] at e
  obtain ⟨q, e1, e2⟩ := e
  refine ⟨q.2, ?_, rs[f], List.getElem?_eq_getElem hr, ?_⟩
  · rw [← e2]
    rfl
  · rw [← e2]
    exact e1

/-- C70: the correlations of the code are the sums, over the subdivisions, of the autocorrelations normalised by the energies, times the
lag window, or zeros if a subdivision is null. Case of two subdivisions. -/
theorem C70_corr2 (x : List Rat) (m x0 x1 x2 : Nat) (sub : List Nat) (r : List Rat) (rs : List (List Rat)) (nf : Nat)
    (h : tnsAutocorr Arith.exact x m 2 (nf + 1) (x0 :: x1 :: x2 :: sub) = some (r :: rs)) :
    r.length = m ∧ ∀ k, k < m → r.getD k 0 =
      if autocorr x x0 x1 0 = 0 ∨ autocorr x x1 x2 0 = 0 then 0 else
        (autocorr x x0 x1 (k + 1) / autocorr x x0 x1 0 + autocorr x x1 x2 (k + 1) / autocorr x x1 x2 0) * lagWindow.getD (k + 1) 0 := by
  rw [tnsAutocorr] at h
  simp only [Option.bind_eq_some_iff, Option.map_eq_some_iff] at h
  obtain ⟨c, h1, r', h2, l, -, h4⟩ := h
  obtain ⟨rfl, -⟩ := List.cons.inj h4
  rw [tnsCorrs] at h1
  simp only [Option.bind_eq_some_iff, Option.map_eq_some_iff, tnsCorrs] at h1
  obtain ⟨c0, hc0, cs, ⟨c1, hc1, cs', hcs', rfl⟩, rfl⟩ := h1
  cases hcs'
  have e0 := tnsCorr_exact _ _ _ _ _ hc0
  have e1 := tnsCorr_exact _ _ _ _ _ hc1
  have hf := mapM_forall₂ _ _ _ h2
  have hl : r'.length = m := by rw [← hf.length_eq]; simp
  refine ⟨hl, fun k hk => ?_⟩
  have e := (List.forall₂_iff_get.mp hf).2 k (by simpa using hk) (by omega)
  simp only [List.get_eq_getElem, List.getElem_range', Nat.one_mul] at e
  rw [List.getD_eq_getElem?_getD, List.getElem?_eq_getElem (by omega), Option.getD_some]
  unfold tnsNorm at e
  have g : ∀ (xs xe i : Nat), i < m + 1 → ((List.range (m + 1)).map (autocorr x xs xe))[i]? = some (autocorr x xs xe i) := by
    intro xs xe i hi
    rw [List.getElem?_map, List.getElem?_range hi]
    rfl
  rw [e0, e1] at e
  simp only [List.mapM_cons, List.mapM_nil, g _ _ 0 (by omega), g _ _ (1 + k) (by omega), Option.bind_some, Option.map_some,
    Option.pure_def, Option.bind_eq_bind, List.any_cons, List.any_nil, Bool.or_false, Bool.or_eq_true] at e
  have hz : ∀ v : Rat, Arith.exact.isZero v = true ↔ v = 0 := by
    intro v
    unfold Arith.isZero
    simp only [Arith.exact, id, Bool.and_eq_true, decide_eq_true_eq]
    constructor
    · intro h; linarith
    · intro h; rw [h]; exact ⟨le_refl _, le_refl _⟩
  simp only [hz] at e
  rw [show k + 1 = 1 + k by omega]
  split at e
  · rw [if_pos ‹_›]
    exact (Option.some.inj e).symm
  · rw [if_neg ‹_›]
    rw [Option.map_eq_some_iff] at e
    obtain ⟨w, hw, e⟩ := e
    rw [← e, List.getD_eq_getElem?_getD, hw]
    rfl

/-- C70: same with three subdivisions. -/
theorem C70_corr3 (x : List Rat) (m x0 x1 x2 x3 : Nat) (sub : List Nat) (r : List Rat) (rs : List (List Rat)) (nf : Nat)
    (h : tnsAutocorr Arith.exact x m 3 (nf + 1) (x0 :: x1 :: x2 :: x3 :: sub) = some (r :: rs)) :
    r.length = m ∧ ∀ k, k < m → r.getD k 0 =
      if autocorr x x0 x1 0 = 0 ∨ autocorr x x1 x2 0 = 0 ∨ autocorr x x2 x3 0 = 0 then 0 else
        (autocorr x x0 x1 (k + 1) / autocorr x x0 x1 0 + autocorr x x1 x2 (k + 1) / autocorr x x1 x2 0 +
          autocorr x x2 x3 (k + 1) / autocorr x x2 x3 0) * lagWindow.getD (k + 1) 0 := by
  rw [tnsAutocorr] at h
  simp only [Option.bind_eq_some_iff, Option.map_eq_some_iff] at h
  obtain ⟨c, h1, r', h2, l, -, h4⟩ := h
  obtain ⟨rfl, -⟩ := List.cons.inj h4
  rw [tnsCorrs] at h1
  simp only [Option.bind_eq_some_iff, Option.map_eq_some_iff, tnsCorrs] at h1
  obtain ⟨c0, hc0, cs, ⟨c1, hc1, cs', ⟨c2, hc2, cs'', hcs'', rfl⟩, rfl⟩, rfl⟩ := h1
  cases hcs''
  have e0 := tnsCorr_exact _ _ _ _ _ hc0
  have e1 := tnsCorr_exact _ _ _ _ _ hc1
  have e2 := tnsCorr_exact _ _ _ _ _ hc2
  have hf := mapM_forall₂ _ _ _ h2
  have hl : r'.length = m := by rw [← hf.length_eq]; simp
  refine ⟨hl, fun k hk => ?_⟩
  have e := (List.forall₂_iff_get.mp hf).2 k (by simpa using hk) (by omega)
  simp only [List.get_eq_getElem, List.getElem_range', Nat.one_mul] at e
  rw [List.getD_eq_getElem?_getD, List.getElem?_eq_getElem (by omega), Option.getD_some]
  unfold tnsNorm at e
  have g : ∀ (xs xe i : Nat), i < m + 1 → ((List.range (m + 1)).map (autocorr x xs xe))[i]? = some (autocorr x xs xe i) := by
    intro xs xe i hi
    rw [List.getElem?_map, List.getElem?_range hi]
    rfl
  rw [e0, e1, e2] at e
  simp only [List.mapM_cons, List.mapM_nil, g _ _ 0 (by omega), g _ _ (1 + k) (by omega), Option.bind_some, Option.map_some,
    Option.pure_def, Option.bind_eq_bind, List.any_cons, List.any_nil, Bool.or_false, Bool.or_eq_true] at e
  have hz : ∀ v : Rat, Arith.exact.isZero v = true ↔ v = 0 := by
    intro v
    unfold Arith.isZero
    simp only [Arith.exact, id, Bool.and_eq_true, decide_eq_true_eq]
    constructor
    · intro h; linarith
    · intro h; rw [h]; exact ⟨le_refl _, le_refl _⟩
  simp only [hz] at e
  rw [show k + 1 = 1 + k by omega]
  split at e
  · rw [if_pos ‹_›]
    exact (Option.some.inj e).symm
  · rw [if_neg ‹_›]
    rw [Option.map_eq_some_iff] at e
    obtain ⟨w, hw, e⟩ := e
    rw [← e, List.getD_eq_getElem?_getD, hw]
    rfl

/-! ### Stability -/

/-- C70: if the energies of the outputs of the prediction filters are positive, up to the order `n`, the error computed is positive, all
the reflection coefficients are lower than 1 in magnitude and the prediction gain is at least 1. The positivity does not hold
for all spectra because of the lag window: `C70_refuted`. -/
theorem C70_stable_partial (r : List Rat) (e0 : Rat) (n : Nat) (a : List Rat) (e : Rat)
    (h : levinson Arith.exact r n ([], e0) = some (a, e))
    (pos : ∀ m, m ≤ n → ∀ b : Nat → Rat, b 0 = 1 → 0 < energy (fun k => (e0 :: r).getD k 0) m b) :
    0 < e ∧ (∀ k ∈ lpcReflection Arith.exact n a, |k| < 1) ∧ 1 ≤ e0 / e := by
  have gen : ∀ (m : Nat) (b : List Rat) (d : Rat), Normal (lag e0 r) b d → b.length + m = n → 0 < d → ∀ a e,
      levinson Arith.exact r m (b, d) = some (a, e) →
      0 < e ∧ e ≤ d ∧ ∃ ks : List Rat, ks.length = m ∧ a = ks.foldl stepUp b ∧ ∀ k ∈ ks, |k| < 1 := by
    intro m
    induction m with
    | zero =>
      intro b d _ _ hd a e h
      cases h
      exact ⟨hd, le_refl _, [], rfl, rfl, fun k hk => by cases hk⟩
    | succ m ih =>
      intro b d hb hm hd a e h
      rw [levinson, Option.bind_eq_some_iff] at h
      obtain ⟨s, h1, h2⟩ := h
      obtain ⟨-, rc, hrc, hs1, hs2⟩ := levinsonStep_eq e0 r b d s h1
      have hn := normal_step _ b d (ne_of_gt hd) hb
      rw [← hrc, ← hs1, ← hs2] at hn
      have hl : s.1.length = b.length + 1 := by rw [hs1, stepUp_length]
      have hp : 0 < s.2 := by
        have := pos (b.length + 1) (by omega) (pef s.1) rfl
        rw [← hl] at this
        have e1 := energy_self _ _ _ hn
        rw [← e1]
        exact this
      have hrc2 : 0 < 1 - rc * rc := by
        rw [hs2] at hp
        exact pos_of_mul_pos_right hp hd.le
      obtain ⟨i1, i2, ks, i3, i4, i5⟩ := ih s.1 s.2 hn (by omega) hp a e h2
      refine ⟨i1, i2.trans ?_, rc :: ks, by simp [i3], ?_, ?_⟩
      · rw [hs2]
        have : 0 ≤ rc * rc := mul_self_nonneg rc
        nlinarith
      · rw [i4, hs1]; rfl
      · intro k hk
        rcases List.mem_cons.mp hk with rfl | hk
        · rw [abs_lt]
          constructor <;> nlinarith
        · exact i5 k hk
  have he0 : 0 < e0 := by
    have := pos 0 (Nat.zero_le _) (fun _ => 1) rfl
    unfold energy at this
    simpa using this
  obtain ⟨h1, h2, ks, h3, h4, h5⟩ := gen n [] e0 (normal_start e0 r) (by simp) he0 a e h
  have hr : lpcReflection Arith.exact n a = ks := by
    rw [h4]
    apply lpcReflection_up ks _ n (by omega)
    intro k hk h
    have := h5 k (List.mem_of_mem_tail hk)
    rw [abs_lt] at this
    have h6 : (k - 1) * (k + 1) = 0 := by linarith
    rcases mul_eq_zero.mp h6 with h7 | h7 <;> linarith
  refine ⟨h1, ?_, ?_⟩
  · rw [hr]; exact h5
  · rw [le_div_iff₀ h1]
    linarith

/-- A spectrum of three bells, at 24 kHz. -/
def bellX : List Rat := (List.range 240).map fun (i : Nat) =>
  let d : Int := (min (min ((i : Int) - 50).natAbs ((i : Int) - 126).natAbs) ((i : Int) - 202).natAbs : Nat)
  let t : Int := 400 - d * d
  if t < 0 then 0 else ((t ^ 6 / 4096000000 : Int) : Rat)

set_option maxRecDepth 10000 in
/-- C70: the lag window, rounded to 9 digits, is not positive definite: in exact arithmetic the computation of the predictor of a spectrum
gives a negative energy of the prediction error, and the shaping is disabled for a spectrum of which a predictor of order 4 has a gain
over 10000. -/
theorem C70_refuted :
    (∃ g a, computeLpcCoeffs Arith.exact .m10 2 8 bellX = some [(g, a)] ∧ g < 0) ∧
    (∃ g a, computeLpcCoeffs Arith.exact .m10 2 4 bellX = some [(g, a)] ∧ 10000 < g) ∧
    (tnsAnalyze Arith.exact .m10 2 false 100 bellX).map (·.1.filters) = some [[]] := by
  refine ⟨?_, ?_, by decide +kernel⟩
  · have h : (match computeLpcCoeffs Arith.exact .m10 2 8 bellX with
      | some [(g, _)] => decide (g < 0)
      | _ => false) = true := by decide +kernel
    split at h
    · exact ⟨_, _, ‹_›, of_decide_eq_true h⟩
    · cases h
  · have h : (match computeLpcCoeffs Arith.exact .m10 2 4 bellX with
      | some [(g, _)] => decide (10000 < g)
      | _ => false) = true := by decide +kernel
    split at h
    · exact ⟨_, _, ‹_›, of_decide_eq_true h⟩
    · cases h

/-- A spectrum of three bells, at 8 kHz. -/
def bellX8 : List Rat := (List.range 80).map fun (i : Nat) =>
  let d : Int := (min (min ((i : Int) - 23).natAbs ((i : Int) - 45).natAbs) ((i : Int) - 68).natAbs : Nat)
  let t : Int := 121 - d * d
  if t < 0 then 0 else ((t ^ 6 / 31384284 : Int) : Rat)

set_option maxRecDepth 10000 in
/-- C70: in single precision the recursion is unstable: for this spectrum, of exact gain over 100000 at the order 8, the gain computed
is negative and the shaping is disabled. -/
theorem C70_refuted_f32 :
    (∃ g a, computeLpcCoeffs Arith.exact .m10 0 8 bellX8 = some [(g, a)] ∧ 100000 < g) ∧
    (∃ g a, computeLpcCoeffs (Arith.rounded rne24) .m10 0 8 bellX8 = some [(g, a)] ∧ g < 0) := by
  refine ⟨?_, ?_⟩
  · have h : (match computeLpcCoeffs Arith.exact .m10 0 8 bellX8 with
      | some [(g, _)] => decide (100000 < g)
      | _ => false) = true := by decide +kernel
    split at h
    · exact ⟨_, _, ‹_›, of_decide_eq_true h⟩
    · cases h
  · have h : (match computeLpcCoeffs (Arith.rounded rne24) .m10 0 8 bellX8 with
      | some [(g, _)] => decide (g < 0)
      | _ => false) = true := by decide +kernel
    split at h
    · exact ⟨_, _, ‹_›, of_decide_eq_true h⟩
    · cases h

/-! ### Quantisation -/

theorem quantRcLoop_spec (m : Rat) (n q r : Nat) (h : quantRcLoop Arith.exact m n q = some r)
    (hq : ∀ t, q ≠ 0 → tnsThr[q - 1]? = some t → t ≤ m) :
    q ≤ r ∧ r ≤ q + n ∧ (∀ t, r ≠ 0 → tnsThr[r - 1]? = some t → t ≤ m) ∧ (r < q + n → ∀ t, tnsThr[r]? = some t → m < t) := by
  induction n generalizing q with
  | zero =>
    cases h
    exact ⟨Nat.le_refl _, Nat.le_refl _, hq, fun h => absurd h (by omega)⟩
  | succ n ih =>
    rw [quantRcLoop, Option.bind_eq_some_iff] at h
    obtain ⟨t, ht, h⟩ := h
    split at h
    · have hle : t ≤ m := of_decide_eq_true ‹_›
      obtain ⟨a, b, c, d⟩ := ih (q + 1) h (by
        intro t' _ ht'
        rw [Nat.add_sub_cancel, ht] at ht'
        cases ht'
        exact hle)
      exact ⟨by omega, by omega, c, fun h => d (by omega)⟩
    · cases h
      refine ⟨Nat.le_refl _, by omega, hq, fun _ t' ht' => ?_⟩
      rw [ht] at ht'
      cases ht'
      have : ¬ t ≤ m := fun h => ‹¬ _› (decide_eq_true h)
      linarith

/-- The magnitude selected, by the thresholds that surround the value. -/
theorem quantRc_spec (rc : Rat) : ∃ q : Nat, q ≤ 8 ∧ quantRc Arith.exact rc = some (if rc < 0 then -(q : Int) else q) ∧
    (∀ t, q ≠ 0 → tnsThr[q - 1]? = some t → t ≤ |rc|) ∧ (∀ t, tnsThr[q]? = some t → |rc| < t) := by
  obtain ⟨z, hz, -, -⟩ := quantRc_some Arith.exact rc
  have hz' := hz
  unfold quantRc at hz
  dsimp only at hz
  rw [show tnsThr[4]? = some (0x5e98/32768) from rfl, Option.bind_some, Option.map_eq_some_iff] at hz
  obtain ⟨q', hq', hz⟩ := hz
  obtain ⟨q, hq, hqq⟩ := Option.bind_eq_some_iff.mp hq'
  obtain rfl : (q : Int) = q' := Option.some.inj hqq
  clear hq' hqq
  have habs : Arith.exact.abs rc = |rc| := by
    dsimp only [Arith.exact]
    split
    · rw [abs_of_neg ‹_›]
    · rw [abs_of_nonneg (not_lt.mp ‹_›)]
  rw [habs] at hq
  have hsg : z = if rc < 0 then -(q : Int) else q := by
    rw [← hz]
    change (if decide (rc < 0) = true then _ else _) = _
    simp only [decide_eq_true_eq]
  refine ⟨q, ?_, by rw [hz', hsg], ?_⟩
  all_goals
    by_cases h4 : (0x5e98/32768 : Rat) ≤ |rc|
  all_goals
    have hc : Arith.exact.le (Arith.exact.ofRat (0x5e98/32768)) |rc| = decide ((0x5e98/32768 : Rat) ≤ |rc|) := rfl
    rw [hc] at hq
    simp only [decide_eq_true_eq] at hq
  · rw [if_pos h4] at hq
    obtain ⟨a, b, -, -⟩ := quantRcLoop_spec _ _ _ _ hq (by
      intro t _ ht
      rw [show tnsThr[4 - 1]? = some (0x4d23/32768) from rfl] at ht
      cases ht
      linarith)
    omega
  · rw [if_neg h4] at hq
    obtain ⟨a, b, -, -⟩ := quantRcLoop_spec _ _ _ _ hq (by intro t h; exact absurd rfl h)
    omega
  · rw [if_pos h4] at hq
    obtain ⟨a, b, c, d⟩ := quantRcLoop_spec _ _ _ _ hq (by
      intro t _ ht
      rw [show tnsThr[4 - 1]? = some (0x4d23/32768) from rfl] at ht
      cases ht
      linarith)
    refine ⟨c, fun t ht => ?_⟩
    by_cases h8 : q < 8
    · exact d (by omega) t ht
    · rw [List.getElem?_eq_none (by change 8 ≤ q; omega)] at ht
      cases ht
  · rw [if_neg h4] at hq
    obtain ⟨a, b, c, d⟩ := quantRcLoop_spec _ _ _ _ hq (by intro t h; exact absurd rfl h)
    refine ⟨c, fun t ht => ?_⟩
    by_cases h8 : q < 4
    · exact d (by omega) t ht
    · have : q = 4 := by omega
      subst this
      rw [show tnsThr[4]? = some (0x5e98/32768) from rfl] at ht
      cases ht
      linarith

/-- C70: the coefficient decoded differs from the one quantised by 3023/32768 at most, for any coefficient of a stable filter. -/
theorem C70_quantised (rc : Rat) (h : |rc| ≤ 1) :
    ∃ q v, quantRc Arith.exact rc = some q ∧ unquantizeRc Arith.exact [q] = some [v] ∧ |v - rc| ≤ 3023 / 32768 := by
  obtain ⟨q, h8, h1, h2, h3⟩ := quantRc_spec rc
  have key : ∀ w, tnsInv[q]? = some w → |w - (|rc|)| ≤ 3023 / 32768 := by
    intro w hw
    rw [abs_le]
    have hp := abs_nonneg rc
    interval_cases q
    all_goals
      cases hw
      try have a := h2 _ (by decide) rfl
      try have b := h3 _ rfl
      constructor <;> linarith
  obtain ⟨w, hw⟩ : ∃ w, tnsInv[q]? = some w := ⟨_, List.getElem?_eq_getElem (by change q < 9; omega)⟩
  have hk := key w hw
  refine ⟨_, if (if rc < 0 then -(q : Int) else q) < 0 then 0 - w else w, h1, ?_, ?_⟩
  · unfold unquantizeRc
    rw [List.mapM_cons, List.mapM_nil, show (if rc < 0 then -(q : Int) else q).natAbs = q by split <;> omega, hw]
    rfl
  · by_cases hr : rc < 0
    · rw [if_pos hr]
      by_cases hq0 : q = 0
      · subst hq0
        cases hw
        rw [if_neg (by omega)]
        rw [abs_of_neg hr] at hk
        rw [abs_le] at hk ⊢
        constructor <;> linarith
      · rw [if_pos (by omega)]
        rw [abs_of_neg hr] at hk
        rw [abs_le] at hk ⊢
        constructor <;> linarith
    · rw [if_neg hr, if_neg (by omega)]
      rw [abs_of_nonneg (not_lt.mp hr)] at hk
      exact hk

/-- C70: the coefficients decoded are quantised to the same indexes. -/
theorem C70_idempotent (q : Int) (h1 : -8 ≤ q) (h2 : q ≤ 8) :
    ∃ v, unquantizeRc Arith.exact [q] = some [v] ∧ quantRc Arith.exact v = some q := by
  interval_cases q <;> exact ⟨_, rfl, by decide +kernel⟩

theorem rcOrder_spec (m : Nat) (l : List Int) (o : Nat) :
    ∃ z, rcOrder m l o = (if ∀ c ∈ l, c = 0 then o else m) - z ∧ z ≤ l.length ∧
      (l.drop (l.length - z)) = List.replicate z 0 ∧ (z < l.length → (l.take (l.length - z)).getLast? ≠ some 0) ∧
      ((∀ c ∈ l, c = 0) → z = l.length) := by
  induction l generalizing o with
  | nil => exact ⟨0, by simp [rcOrder], by simp, by simp, by simp, by simp⟩
  | cons c l ih =>
    rw [rcOrder]
    obtain ⟨z, h1, h2, h3, h4, h5⟩ := ih (if c ≠ 0 then m else o - 1)
    by_cases hl : ∀ c ∈ l, c = 0
    · have hz := h5 hl
      subst hz
      rw [if_pos hl] at h1
      rw [Nat.sub_self, List.drop_zero] at h3
      by_cases hc : c = 0
      · refine ⟨l.length + 1, ?_, by simp, ?_, by simp, by simp⟩
        · rw [h1, if_neg (by simpa using hc), if_pos (show ∀ d ∈ c :: l, d = 0 by
            intro d hd; rcases List.mem_cons.mp hd with rfl | hd; exacts [hc, hl d hd])]
          omega
        · rw [List.length_cons, Nat.sub_self, List.drop_zero, List.replicate_succ, ← h3, hc]
      · refine ⟨l.length, ?_, by simp, ?_, ?_, ?_⟩
        · rw [h1, if_pos hc, if_neg (show ¬ ∀ d ∈ c :: l, d = 0 from fun h => hc (h c (List.mem_cons_self ..)))]
        · rw [List.length_cons, show l.length + 1 - l.length = 1 by omega, List.drop_one, List.tail_cons]
          exact h3
        · intro _
          rw [List.length_cons, show l.length + 1 - l.length = 1 by omega]
          simpa using hc
        · intro h
          exact absurd (h c (List.mem_cons_self ..)) hc
    · rw [if_neg hl] at h1
      have hz : z < l.length := by
        by_contra hzz
        have : z = l.length := by omega
        subst this
        rw [Nat.sub_self, List.drop_zero] at h3
        apply hl
        intro d hd
        rw [h3] at hd
        exact List.eq_of_mem_replicate hd
      refine ⟨z, ?_, by simp; omega, ?_, ?_, ?_⟩
      · rw [h1, if_neg (show ¬ ∀ d ∈ c :: l, d = 0 from fun h => hl fun d hd => h d (List.mem_cons_of_mem _ hd))]
      · rw [List.length_cons, show l.length + 1 - z = (l.length - z) + 1 by omega, List.drop_succ_cons]
        exact h3
      · intro _
        have := h4 hz
        rw [List.length_cons, show l.length + 1 - z = (l.length - z) + 1 by omega, List.take_succ_cons]
        rw [List.getLast?_cons]
        intro he
        apply this
        cases hg : (List.take (l.length - z) l).getLast? with
        | none =>
          rw [List.getLast?_eq_none_iff] at hg
          have := congrArg List.length hg
          rw [List.length_take, List.length_nil] at this
          omega
        | some g =>
          rw [hg] at he
          simpa using he
      · intro h
        exact absurd (fun d hd => h d (List.mem_cons_of_mem _ hd)) hl

/-- C70: the order transmitted drops the null coefficients of the end, and only these: the coefficients quantised are the ones kept
followed by zeros, and the last one kept is not null. -/
theorem C70_order {R : Type} (A : Arith R) (m : Nat) (rc : List R) (hm : rc.length = m) (q : List Int) (h : quantizeRc A m rc = some q) :
    ∃ full, rc.mapM (quantRc A) = some full ∧ full = q ++ List.replicate (m - q.length) 0 ∧ q.getLast? ≠ some 0 := by
  unfold quantizeRc at h
  rw [Option.map_eq_some_iff] at h
  obtain ⟨full, h1, h2⟩ := h
  have hl : full.length = m := by
    have := (mapM_forall₂ _ _ _ h1).length_eq
    omega
  refine ⟨full, h1, ?_⟩
  obtain ⟨z, z1, z2, z3, z4, z5⟩ := rcOrder_spec m full m
  rw [ite_self, ] at z1
  rw [z1] at h2
  have hq : q.length = m - z := by rw [← h2, List.length_take]; omega
  rw [hq, show m - (m - z) = z by omega, ← h2]
  rw [hl] at z3 z4
  refine ⟨?_, ?_⟩
  · rw [← z3, List.take_append_drop]
  · by_cases hz : z < m
    · exact z4 (by omega)
    · rw [show m - z = 0 by omega]
      simp

/-- C70: when the correlations are weak, the predictor is stable. -/
theorem C70_weak (r : List Rat) (e0 : Rat) (n : Nat) (hn : n ≤ r.length) (hr : 2 * ∑ k ∈ Icc 1 n, |(e0 :: r).getD k 0| < e0) :
    ∃ a e, levinson Arith.exact r n ([], e0) = some (a, e) ∧
      0 < e ∧ (∀ k ∈ lpcReflection Arith.exact n a, |k| < 1) ∧ 1 ≤ e0 / e := by
  obtain ⟨q, h, -⟩ := levinson_some Arith.exact r n ([], e0) (by simpa using hn)
  exact ⟨q.1, q.2, h, C70_stable_partial r e0 n q.1 q.2 h (fun m hm b hb => energy_pos _ n m hm hr b hb)⟩

/-- Non-vacuity: weak correlations of three subdivisions, the coefficients and the error. -/
example : 2 * ∑ k ∈ Icc 1 4, |((3 : Rat) :: [1, -1/4, 1/8, 0]).getD k 0| < 3 ∧
    (levinson Arith.exact [1, -1/4, 1/8, 0] 4 ([], 3)).map (fun q => decide (q.2 ≠ 0)) = some true := by decide +kernel

example : quantizeRc Arith.exact 4 [1/2, 0, -3/4, 1/100] = some [3, 0, -5] := by decide +kernel

end LC3
