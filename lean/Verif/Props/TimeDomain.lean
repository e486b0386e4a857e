import Verif.Lemmas.Tdac
import Verif.Props.AccuracyNeon
import Verif.Props.Fidelity

/-!
C84: from samples to samples. The inverse transforms of two successive frames give back the input, delayed, up to the difference of their
spectra with those of the input; then the same through `lc3_encode` and `lc3_decode`.
-/

namespace LC3
open Finset

/-- The spectrum of the frame `i` of a signal `s`, with a window: frames of `n` samples, overlapping. -/
noncomputable def frameMdct (n : ℕ) (win : List ℝ) (s : ℕ → ℝ) (i j : ℕ) : ℝ := mdct n (fun l => win.getD l 0 * s (i * n + l)) j

/-- The sum of the magnitudes of the samples of a frame, in the window. -/
noncomputable def frameMag (n : ℕ) (win : List ℝ) (s : ℕ → ℝ) (i : ℕ) : ℝ := ∑ l ∈ range (2 * n), |win.getD l 0 * s (i * n + l)|

theorem frameMag_nonneg (n : ℕ) (win : List ℝ) (s : ℕ → ℝ) (i : ℕ) : 0 ≤ frameMag n win s i := Finset.sum_nonneg fun _ _ => abs_nonneg _

theorem frameMdct_le (n : ℕ) (win : List ℝ) (s : ℕ → ℝ) (i j : ℕ) : |frameMdct n win s i j| ≤ Real.sqrt (2 / n) * frameMag n win s i := by
  unfold frameMdct mdct frameMag
  rw [abs_mul, abs_of_nonneg (Real.sqrt_nonneg _)]
  refine mul_le_mul_of_nonneg_left ((Finset.abs_sum_le_sum_abs _ _).trans (Finset.sum_le_sum fun l _ => ?_)) (Real.sqrt_nonneg _)
  rw [abs_mul]
  exact (mul_le_mul_of_nonneg_left (Real.abs_cos_le_one _) (abs_nonneg _)).trans (le_of_eq (mul_one _))

/-- The memory and the samples of a frame are those of the signal. -/
structure FrameOf {R : Type} (v : R → ℝ) (z : R) (n nd i : ℕ) (s : ℕ → ℝ) (d x : List R) : Prop where
  d : ∀ k, k < nd → v (d.getD k z) = s (i * n + k)
  x : ∀ k, k < n → v (x.getD k z) = s (i * n + nd + k)

theorem windowed_signal (n nd : ℕ) (win : List ℝ) (hwl : win.length = n + nd) (s : ℕ → ℝ) (i : ℕ) (d x : List ℝ) (h : FrameOf id 0 n nd i s d x) (l : ℕ) :
    windowed nd win d x l = win.getD l 0 * s (i * n + l) := by
  unfold windowed
  by_cases c : l < n + nd
  · rw [mul_comm]
    congr 1
    unfold span
    by_cases c' : l < nd
    · rw [if_pos c']; exact h.d l c'
    · rw [if_neg c']
      have := h.x (l - nd) (by omega)
      rw [show i * n + nd + (l - nd) = i * n + l by omega] at this
      exact this
  · rw [List.getD_eq_default win 0 (by omega), mul_zero, zero_mul]

theorem FrameOf.map {R : Type} {v : R → ℝ} {z : R} {n nd i : ℕ} {s : ℕ → ℝ} {d x : List R} (h : FrameOf v z n nd i s d x) (hd : nd ≤ d.length)
    (hx : n ≤ x.length) : FrameOf id 0 n nd i s (d.map v) (x.map v) := by
  constructor
  · intro k hk
    rw [← h.d k hk, id, List.getD_eq_getElem _ _ (by rw [List.length_map]; omega), List.getElem_map, List.getD_eq_getElem _ _ (by omega)]
  · intro k hk
    rw [← h.x k hk, id, List.getD_eq_getElem _ _ (by rw [List.length_map]; omega), List.getElem_map, List.getD_eq_getElem _ _ (by omega)]

variable {R : Type}

/-- The analysis of a frame of a signal. -/
theorem forward_signal (A : Arith R) (v : R → ℝ) (hA : Approx A v) (z : R) (sqrt : R → R) (dt : Dt) (sr srDst : Srate)
    (h : ¬ (dt = .m7_5 ∧ sr.hr = true)) (hdst : ns dt srDst ≤ ns dt sr) (Φ : ℕ → List R → List R → Option (Bool × List R × List R)) (tol : ℝ)
    (hO : FftOk v z (Φ (ns dt sr / 2)) (ns dt sr / 2) tol) (hab : tol ≤ 500 / 10 ^ 8)
    (hs : ns dt sr ≠ ns dt srDst → NearScale A v sqrt (ns dt sr) (ns dt srDst)) (win : List ℝ) (hwin : (mdctTables Arith.real).win dt sr = some win)
    (s : ℕ → ℝ) (i : ℕ) (buf x d y : List R) (hb : ns dt sr ≤ buf.length) (hx : ns dt sr ≤ x.length) (hd : nd dt sr ≤ d.length) (hy : ns dt sr ≤ y.length)
    (hf : FrameOf v z (ns dt sr) (nd dt sr) i s d x) (hsum : frameMag (ns dt sr) win s i ≤ 2 ^ 99) :
    ∃ y' d', forwardWith A Φ sqrt (mdctTables A) dt sr srDst buf x d y = some (y', d') ∧ y'.length = y.length ∧
      ∀ k, k < ns dt srDst → |v (y'.getD k z) - rateScale Real.sqrt (ns dt sr) (ns dt srDst) * frameMdct (ns dt sr) win s i k| ≤
        65 / 10 ^ 7 * (rateScale Real.sqrt (ns dt sr) (ns dt srDst) * (Real.sqrt (2 / ns dt sr) * (frameMag (ns dt sr) win s i + 1 / 2 ^ 80))) := by
  obtain ⟨_, _, w, win', _, _, _, hrot, hwt, hwt', hw, hwl, _⟩ := tables_near A v hA z dt sr h
  rw [hwin] at hwt'
  injection hwt' with hwt'
  subst hwt'
  have hwd : windowed (nd dt sr) win (d.map v) (x.map v) = fun l => win.getD l 0 * s (i * ns dt sr + l) :=
    funext fun l => windowed_signal _ _ win hwl s i _ _ (hf.map hd hx) l
  obtain ⟨y', d', f1, f2, f3⟩ := forward_err A v hA z sqrt (mdctTables A) dt sr srDst Φ tol hO hab hrot w win hwt hw hwl hdst hs buf x d y hb hx hd hy
    (by rw [hwd]; exact hsum)
  refine ⟨y', d', f1, f2, fun k hk => ?_⟩
  have := f3 k hk
  rw [hwd] at this
  exact this

/-- The synthesis of two successive frames. -/
theorem overlap_signal (A : Arith R) (v : R → ℝ) (hA : Approx A v) (z : R) (sqrt : R → R) (dt : Dt) (sr srSrc : Srate)
    (h : ¬ (dt = .m7_5 ∧ sr.hr = true)) (hsrc : ns dt srSrc ≤ ns dt sr) (Φ : ℕ → List R → List R → Option (Bool × List R × List R)) (tol : ℝ)
    (hO : FftOk v z (Φ (ns dt sr / 2)) (ns dt sr / 2) tol) (hab : tol ≤ 500 / 10 ^ 8)
    (hs : ns dt sr ≠ ns dt srSrc → NearScale A v sqrt (ns dt srSrc) (ns dt sr)) (win : List ℝ) (hwin : (mdctTables Arith.real).win dt sr = some win)
    (s : ℕ → ℝ) (b0 b1 : List R) (a0 a1 : Option (List R)) (e0 y0 y1 : List R) (hb0 : ns dt sr ≤ b0.length) (hb1 : ns dt sr ≤ b1.length)
    (ha0 : ∀ l, a0 = some l → ns dt sr ≤ l.length) (ha1 : ∀ l, a1 = some l → ns dt sr ≤ l.length)
    (he0 : nd dt sr ≤ e0.length) (hy0 : ns dt sr ≤ y0.length) (hy1 : ns dt sr ≤ y1.length)
    (hsum0 : ∑ k ∈ range (ns dt sr), |v ((a0.getD y0).getD k z)| ≤ 2 ^ 90) (hsum1 : ∑ k ∈ range (ns dt sr), |v ((a1.getD y1).getD k z)| ≤ 2 ^ 90)
    (he : ∀ k, k < nd dt sr → |v (e0.getD k z)| ≤ 2 ^ 100) (F c : ℝ)
    (hF : F = rateScale Real.sqrt (ns dt srSrc) (ns dt sr)) (hc : F * c = 1) :
    ∃ o0 e1 o1 e2, inverseWith A Φ sqrt (mdctTables A) dt sr srSrc b0 a0 e0 y0 = some (o0, e1) ∧
      inverseWith A Φ sqrt (mdctTables A) dt sr srSrc b1 a1 e1 y1 = some (o1, e2) ∧ o1.length = y1.length ∧
      ∀ k, k < ns dt sr → |v (o1.getD k z) - s (2 * ns dt sr - nd dt sr + k)| ≤ 1 / 10 ^ 7 * |s (2 * ns dt sr - nd dt sr + k)| +
        2 * (F * (Real.sqrt (2 / ns dt sr) *
          (∑ j ∈ range (ns dt sr), |v ((a0.getD y0).getD j z) - c * frameMdct (ns dt sr) win s 0 j| +
           ∑ j ∈ range (ns dt sr), |v ((a1.getD y1).getD j z) - c * frameMdct (ns dt sr) win s 1 j|))) +
        15 / 10 ^ 6 * (F * (Real.sqrt (2 / ns dt sr) * (∑ j ∈ range (ns dt sr), |v ((a0.getD y0).getD j z)| +
          ∑ j ∈ range (ns dt sr), |v ((a1.getD y1).getD j z)| + 1 / 2 ^ 79))) := by
  obtain ⟨_, _, w, win', _, _, _, hrot, hwt, hwt', hw, hwl, hw2⟩ := tables_near A v hA z dt sr h
  rw [hwin] at hwt'
  injection hwt' with hwt'
  subst hwt'
  obtain ⟨h4, hpos, hnd, hn2, hev⟩ := mdct_shape dt sr
  have hR := C50_windows dt sr win hwin
  have hget : ∀ (f : ℕ → ℝ) (m k : ℕ), k < m → ((List.range m).map f).getD k 0 = f k := by
    intro f m k hk
    rw [List.getD_eq_getElem _ _ (by simpa using hk), List.getElem_map, List.getElem_range]
  have hfr : ∀ i, FrameOf id 0 (ns dt sr) (nd dt sr) i s ((List.range (nd dt sr)).map fun k => s (i * ns dt sr + k))
      ((List.range (ns dt sr)).map fun k => s (i * ns dt sr + nd dt sr + k)) := fun i =>
    ⟨fun k hk => hget _ _ k hk, fun k hk => hget _ _ k hk⟩
  have hsp : ∀ i l, l < ns dt sr + nd dt sr → span (nd dt sr) ((List.range (nd dt sr)).map fun k => s (i * ns dt sr + k))
      ((List.range (ns dt sr)).map fun k => s (i * ns dt sr + nd dt sr + k)) l = s (i * ns dt sr + l) := by
    intro i l hl
    unfold span
    by_cases c : l < nd dt sr
    · rw [if_pos c, hget _ _ _ c]
    · rw [if_neg c, hget _ _ _ (by omega)]
      congr 1
      omega
  have key := overlap_err A v hA z sqrt (mdctTables A) dt sr srSrc hsrc Φ tol hO hab hrot w win hwt hw hw2 hwl hs (1 / 10 ^ 7) hR
    ((List.range (ns dt sr)).map fun k => s (0 * ns dt sr + nd dt sr + k)) ((List.range (nd dt sr)).map fun k => s (0 * ns dt sr + k))
    ((List.range (ns dt sr)).map fun k => s (1 * ns dt sr + nd dt sr + k)) ((List.range (nd dt sr)).map fun k => s (1 * ns dt sr + k))
    (by simp) (by simp) (by
      intro k hk
      rw [hsp 0 _ (by omega), hget _ _ _ hk]
      congr 1
      omega) b0 b1 a0 a1 e0 y0 y1 hb0 hb1 ha0 ha1 he0 hy0 hy1 hsum0 hsum1 he F c hF hc
  obtain ⟨o0, e1, o1, e2, k1, k2, k3, k4⟩ := key
  refine ⟨o0, e1, o1, e2, k1, k2, k3, fun k hk => ?_⟩
  have := k4 k hk
  rw [hsp 1 _ (by omega), show 1 * ns dt sr + (ns dt sr - nd dt sr + k) = 2 * ns dt sr - nd dt sr + k by omega] at this
  have w0 : ∀ i, windowed (nd dt sr) win ((List.range (nd dt sr)).map fun k => s (i * ns dt sr + k))
      ((List.range (ns dt sr)).map fun k => s (i * ns dt sr + nd dt sr + k)) = fun l => win.getD l 0 * s (i * ns dt sr + l) :=
    fun i => funext fun l => windowed_signal _ _ win hwl s i _ _ (hfr i) l
  rw [w0 0, w0 1] at this
  exact this

/-! ### In binary32 -/

theorem scale_inverse (n n' : ℕ) (h : 0 < n) (h' : 0 < n') : rateScale Real.sqrt n' n * rateScale Real.sqrt n n' = 1 := by
  unfold rateScale
  by_cases c : n = n'
  · rw [if_neg (by omega), if_neg (by omega), mul_one]
  · rw [if_pos (by omega), if_pos c, ← Real.sqrt_mul (by positivity)]
    have e1 : (n : ℝ) ≠ 0 := by exact_mod_cast h.ne'
    have e2 : (n' : ℝ) ≠ 0 := by exact_mod_cast h'.ne'
    rw [show (n : ℝ) / n' * ((n' : ℝ) / n) = 1 by field_simp, Real.sqrt_one]

/-- The transforms of the generic code, or of the code of processors with vector instructions. -/
inductive FftCode (dt : Dt) (sr : Srate) : (ℕ → List Rat → List Rat → Option (Bool × List Rat × List Rat)) → Prop
  | generic : FftCode dt sr (fft (Arith.rounded fl) (mdctTables (Arith.rounded fl)))
  | neon : FftCode dt sr (neonFft (Neon.rounded fl) (mdctTables (Arith.rounded fl)))

theorem FftCode.ok {dt : Dt} {sr : Srate} {Φ : ℕ → List Rat → List Rat → Option (Bool × List Rat × List Rat)} (hΦ : FftCode dt sr Φ)
    (h : ¬ (dt = .m7_5 ∧ sr.hr = true)) : ∃ tol : ℝ, tol ≤ 500 / 10 ^ 8 ∧ FftOk (fun q : Rat => (q : ℝ)) 0 (Φ (ns dt sr / 2)) (ns dt sr / 2) tol := by
  cases hΦ with
  | generic => exact fftOk_fl dt sr h
  | neon => exact neonFftOk_fl dt sr h

/-- The synthesis of the decoder, with either code: these are the functions that the decoder uses. -/
theorem inverse_codes (sqrt : Rat → Rat) (dt : Dt) (sr srSrc : Srate) (b : List Rat) (a : Option (List Rat)) (d y : List Rat) :
    inverseWith (Arith.rounded fl) (fft (Arith.rounded fl) (mdctTables (Arith.rounded fl))) sqrt (mdctTables (Arith.rounded fl)) dt sr srSrc b a d y =
      mdctInverse (Arith.rounded fl) sqrt (mdctTables (Arith.rounded fl)) dt sr srSrc b a d y ∧
    inverseWith (Arith.rounded fl) (neonFft (Neon.rounded fl) (mdctTables (Arith.rounded fl))) sqrt (mdctTables (Arith.rounded fl)) dt sr srSrc b a d y =
      neonMdctInverse (Neon.rounded fl) sqrt (mdctTables (Arith.rounded fl)) dt sr srSrc b a d y := ⟨rfl, rfl⟩

theorem overlap_fl (Φ : ℕ → List Rat → List Rat → Option (Bool × List Rat × List Rat)) (sqrt : Rat → Rat)
    (hs : ∀ q : Rat, 0 < q → |((sqrt q : Rat) : ℝ) - Real.sqrt q| ≤ Real.sqrt q / 2 ^ 24) (dt : Dt) (sr srSrc : Srate) (hΦ : FftCode dt sr Φ)
    (h : ¬ (dt = .m7_5 ∧ sr.hr = true)) (hsrc : ns dt srSrc ≤ ns dt sr) (win : List ℝ) (hwin : (mdctTables Arith.real).win dt sr = some win)
    (s : ℕ → ℝ) (b0 b1 : List Rat) (a0 a1 : Option (List Rat)) (e0 y0 y1 : List Rat) (hb0 : ns dt sr ≤ b0.length) (hb1 : ns dt sr ≤ b1.length)
    (ha0 : ∀ l, a0 = some l → ns dt sr ≤ l.length) (ha1 : ∀ l, a1 = some l → ns dt sr ≤ l.length)
    (he0 : nd dt sr ≤ e0.length) (hy0 : ns dt sr ≤ y0.length) (hy1 : ns dt sr ≤ y1.length) (X0 X1 : ℕ → ℝ)
    (hX0 : ∀ j, X0 j = ((a0.getD y0).getD j 0 : Rat)) (hX1 : ∀ j, X1 j = ((a1.getD y1).getD j 0 : Rat))
    (hsum0 : ∑ j ∈ range (ns dt sr), |X0 j| ≤ 2 ^ 90) (hsum1 : ∑ j ∈ range (ns dt sr), |X1 j| ≤ 2 ^ 90)
    (he : ∀ k, k < nd dt sr → |((e0.getD k 0 : Rat) : ℝ)| ≤ 2 ^ 100) (F c : ℝ)
    (hF : F = if ns dt sr = ns dt srSrc then 1 else Real.sqrt (ns dt sr / ns dt srSrc))
    (hc : c = if ns dt sr = ns dt srSrc then 1 else Real.sqrt (ns dt srSrc / ns dt sr)) :
    ∃ o0 e1 o1 e2, inverseWith (Arith.rounded fl) Φ sqrt (mdctTables (Arith.rounded fl)) dt sr srSrc b0 a0 e0 y0 = some (o0, e1) ∧
      inverseWith (Arith.rounded fl) Φ sqrt (mdctTables (Arith.rounded fl)) dt sr srSrc b1 a1 e1 y1 = some (o1, e2) ∧ o1.length = y1.length ∧
      ∀ k, k < ns dt sr → |((o1.getD k 0 : Rat) : ℝ) - s (2 * ns dt sr - nd dt sr + k)| ≤ 1 / 10 ^ 7 * |s (2 * ns dt sr - nd dt sr + k)| +
        2 * (F * (Real.sqrt (2 / ns dt sr) * (∑ j ∈ range (ns dt sr), |X0 j - c * frameMdct (ns dt sr) win s 0 j| +
          ∑ j ∈ range (ns dt sr), |X1 j - c * frameMdct (ns dt sr) win s 1 j|))) +
        15 / 10 ^ 6 * (F * (Real.sqrt (2 / ns dt sr) * (∑ j ∈ range (ns dt sr), |X0 j| + ∑ j ∈ range (ns dt sr), |X1 j| + 1 / 2 ^ 79))) := by
  obtain ⟨tol, htol, hO⟩ := hΦ.ok h
  have hn6 : ns dt sr ≤ 1000 := by cases dt <;> cases sr <;> decide
  have hn10 : 10 ≤ ns dt sr := by cases dt <;> cases sr <;> decide
  have hs10 : 10 ≤ ns dt srSrc := by cases dt <;> cases srSrc <;> decide
  have eF : F = rateScale Real.sqrt (ns dt srSrc) (ns dt sr) := by
    rw [hF]; unfold rateScale
    by_cases c : ns dt sr = ns dt srSrc
    · rw [if_pos c, if_neg (by omega)]
    · rw [if_neg c, if_pos (by omega)]
  have ec : c = rateScale Real.sqrt (ns dt sr) (ns dt srSrc) := by
    rw [hc]; unfold rateScale
    by_cases c : ns dt sr = ns dt srSrc
    · rw [if_pos c, if_neg (by omega)]
    · rw [if_neg c, if_pos (by omega)]
  obtain rfl : X0 = fun j => (((a0.getD y0).getD j 0 : Rat) : ℝ) := funext hX0
  obtain rfl : X1 = fun j => (((a1.getD y1).getD j 0 : Rat) : ℝ) := funext hX1
  exact overlap_signal (Arith.rounded fl) (fun q : Rat => (q : ℝ)) approx_fl 0 sqrt dt sr srSrc h hsrc Φ tol hO htol
    (fun _ => nearScale_fl sqrt hs _ _ hs10 (by omega) hn10 hn6) win hwin s b0 b1 a0 a1 e0 y0 y1 hb0 hb1 ha0 ha1 he0 hy0 hy1 hsum0 hsum1 he F c eF
    (by rw [eF, ec]; exact scale_inverse _ _ (by omega) (by omega))

/-- **C84**, transforms. In binary32, with the tables of the code and with the generic code of the Fourier transform or the one with vector instructions,
for every supported configuration: the synthesis of two successive frames, whose spectra `X0` and `X1` are any, gives back any signal `s`, delayed by
`2 LC3_ND - LC3_NS` samples, up to `10^-7` of the sample, the sum of the differences of the spectra with those of the signal (times `2 F √(2/N)`)
and `1.5 10^-5` of the sum of their magnitudes. When the output rate is higher than the rate of the codec the spectra are those of the signal at the
output rate, scaled. Nothing of the frame before the first one is left. -/
theorem C84_overlap (Φ : ℕ → List Rat → List Rat → Option (Bool × List Rat × List Rat)) (sqrt : Rat → Rat)
    (hs : ∀ q : Rat, 0 < q → |((sqrt q : Rat) : ℝ) - Real.sqrt q| ≤ Real.sqrt q / 2 ^ 24) (dt : Dt) (sr srSrc : Srate) (hΦ : FftCode dt sr Φ)
    (h : ¬ (dt = .m7_5 ∧ sr.hr = true)) (hsrc : ns dt srSrc ≤ ns dt sr) (win : List ℝ) (hwin : (mdctTables Arith.real).win dt sr = some win)
    (s : ℕ → ℝ) (b0 b1 : List Rat) (a0 a1 : List Rat) (e0 y0 y1 : List Rat) (hb0 : ns dt sr ≤ b0.length) (hb1 : ns dt sr ≤ b1.length)
    (ha0 : ns dt sr ≤ a0.length) (ha1 : ns dt sr ≤ a1.length)
    (he0 : nd dt sr ≤ e0.length) (hy0 : ns dt sr ≤ y0.length) (hy1 : ns dt sr ≤ y1.length) (X0 X1 : ℕ → ℝ)
    (hX0 : ∀ j, X0 j = (a0.getD j 0 : Rat)) (hX1 : ∀ j, X1 j = (a1.getD j 0 : Rat))
    (hsum0 : ∑ j ∈ range (ns dt sr), |X0 j| ≤ 2 ^ 90) (hsum1 : ∑ j ∈ range (ns dt sr), |X1 j| ≤ 2 ^ 90)
    (he : ∀ k, k < nd dt sr → |((e0.getD k 0 : Rat) : ℝ)| ≤ 2 ^ 100) (F c : ℝ)
    (hF : F = if ns dt sr = ns dt srSrc then 1 else Real.sqrt (ns dt sr / ns dt srSrc))
    (hc : c = if ns dt sr = ns dt srSrc then 1 else Real.sqrt (ns dt srSrc / ns dt sr)) :
    ∃ o0 e1 o1 e2, inverseWith (Arith.rounded fl) Φ sqrt (mdctTables (Arith.rounded fl)) dt sr srSrc b0 (some a0) e0 y0 = some (o0, e1) ∧
      inverseWith (Arith.rounded fl) Φ sqrt (mdctTables (Arith.rounded fl)) dt sr srSrc b1 (some a1) e1 y1 = some (o1, e2) ∧ o1.length = y1.length ∧
      ∀ k, k < ns dt sr → |((o1.getD k 0 : Rat) : ℝ) - s (2 * ns dt sr - nd dt sr + k)| ≤ 1 / 10 ^ 7 * |s (2 * ns dt sr - nd dt sr + k)| +
        2 * (F * (Real.sqrt (2 / ns dt sr) * (∑ j ∈ range (ns dt sr), |X0 j - c * frameMdct (ns dt sr) win s 0 j| +
          ∑ j ∈ range (ns dt sr), |X1 j - c * frameMdct (ns dt sr) win s 1 j|))) +
        15 / 10 ^ 6 * (F * (Real.sqrt (2 / ns dt sr) * (∑ j ∈ range (ns dt sr), |X0 j| + ∑ j ∈ range (ns dt sr), |X1 j| + 1 / 2 ^ 79))) :=
  overlap_fl Φ sqrt hs dt sr srSrc hΦ h hsrc win hwin s b0 b1 (some a0) (some a1) e0 y0 y1 hb0 hb1 (fun l hl => by injection hl with hl; rw [← hl]; exact ha0)
    (fun l hl => by injection hl with hl; rw [← hl]; exact ha1) he0 hy0 hy1 X0 X1 hX0 hX1 hsum0 hsum1 he F c hF hc

/-- The memory after the analysis of a frame: its last samples, whatever the code of the Fourier transform. -/
theorem forward_delay (A : Arith R) (z : R) (sqrt : R → R) (dt : Dt) (sr srDst : Srate) (h : ¬ (dt = .m7_5 ∧ sr.hr = true))
    (hdst : ns dt srDst ≤ ns dt sr) (Φ : ℕ → List R → List R → Option (Bool × List R × List R)) (buf x d y y' d' : List R) (hb : ns dt sr ≤ buf.length)
    (hx : ns dt sr ≤ x.length) (hd : nd dt sr ≤ d.length) (hy : ns dt sr ≤ y.length)
    (hf : forwardWith A Φ sqrt (mdctTables A) dt sr srDst buf x d y = some (y', d')) :
    d'.length = d.length ∧ ∀ k, k < nd dt sr → d'.getD k z = x.getD (ns dt sr - nd dt sr + k) z := by
  obtain ⟨h4, hpos, hnd, hn2, hev⟩ := mdct_shape dt sr
  obtain ⟨y'', d'', g1, g2, g3, g4⟩ := C49_forward_safe A sqrt dt sr srDst h hdst buf x d y hb hx hd hy
  have e : d' = d'' := by
    rw [mdctForward_with] at g1
    unfold forwardWith at hf g1
    simp only [Option.bind_eq_bind, Option.bind_eq_some_iff, Option.some.injEq, Prod.mk.injEq] at hf g1
    obtain ⟨r, r1, w, w1, u, u1, _, _, _, _, _, _, _, _, _, e1⟩ := hf
    obtain ⟨r', r1', w', w1', u', u1', _, _, _, _, _, _, _, _, _, e1'⟩ := g1
    rw [r1] at r1'; rw [w1] at w1'
    cases r1'; cases w1'
    rw [u1] at u1'; cases u1'
    rw [← e1, ← e1']
  subst e
  refine ⟨g3, fun k hk => ?_⟩
  have e1 : (d'.take (nd dt sr))[k]? = ((x.drop (ns dt sr - nd dt sr)).take (nd dt sr))[k]? := by rw [g4]
  rw [List.getElem?_take_of_lt hk, List.getElem?_take_of_lt hk, List.getElem?_drop] at e1
  rw [List.getD_eq_getElem?_getD, List.getD_eq_getElem?_getD, e1]

/-- From a spectrum within a relative distance of the spectrum of a frame: the sums of its magnitudes. -/
theorem spectrum_sums (n : ℕ) (hn : 0 < n) (win : List ℝ) (s : ℕ → ℝ) (i : ℕ) (X : ℕ → ℝ) (τ : ℝ) (h0 : 0 ≤ τ)
    (h : ∀ k, k < n → |X k - frameMdct n win s i k| ≤ τ * (Real.sqrt (2 / n) * (frameMag n win s i + 1 / 2 ^ 80))) :
    Real.sqrt (2 / n) * ∑ k ∈ range n, |X k - frameMdct n win s i k| ≤ 2 * τ * (frameMag n win s i + 1 / 2 ^ 80) ∧
    Real.sqrt (2 / n) * ∑ k ∈ range n, |X k| ≤ 2 * (1 + τ) * (frameMag n win s i + 1 / 2 ^ 80) := by
  have hq : Real.sqrt (2 / n) * Real.sqrt (2 / n) * n = 2 := by
    rw [Real.mul_self_sqrt (by positivity)]
    have : (n : ℝ) ≠ 0 := by exact_mod_cast hn.ne'
    field_simp
  have hM := frameMag_nonneg n win s i
  have key : ∀ (f : ℕ → ℝ) (c : ℝ), (∀ k, k < n → |f k| ≤ c * (Real.sqrt (2 / n) * (frameMag n win s i + 1 / 2 ^ 80))) →
      Real.sqrt (2 / n) * ∑ k ∈ range n, |f k| ≤ 2 * c * (frameMag n win s i + 1 / 2 ^ 80) := by
    intro f c hf
    have h1 : ∑ k ∈ range n, |f k| ≤ n * (c * (Real.sqrt (2 / n) * (frameMag n win s i + 1 / 2 ^ 80))) := by
      have := Finset.sum_le_card_nsmul (range n) (fun k => |f k|) _ (fun k hk => hf k (Finset.mem_range.mp hk))
      rw [Finset.card_range, nsmul_eq_mul] at this
      exact this
    have h2 := mul_le_mul_of_nonneg_left h1 (Real.sqrt_nonneg (2 / n))
    refine h2.trans (le_of_eq ?_)
    linear_combination c * (frameMag n win s i + 1 / 2 ^ 80) * hq
  refine ⟨key _ τ h, key X (1 + τ) fun k hk => ?_⟩
  have h1 := abs_add_le (X k - frameMdct n win s i k) (frameMdct n win s i k)
  rw [sub_add_cancel] at h1
  have h2 := frameMdct_le n win s i k
  have h3 := h k hk
  have h4 : Real.sqrt (2 / n) * frameMag n win s i ≤ Real.sqrt (2 / n) * (frameMag n win s i + 1 / 2 ^ 80) :=
    mul_le_mul_of_nonneg_left (by linarith [show (0 : ℝ) ≤ 1 / 2 ^ 80 by positivity]) (Real.sqrt_nonneg _)
  linarith

/-- **C84**, transforms, in binary32. What the decoder gives back from the very spectra that the encoder computed, when the sampling rate is that of the
codec, is the signal, delayed, within `10^-7` of the sample and `5.7 10^-5` of the sum of the magnitudes of the samples of the two frames; on
both sides with the generic code or the one with vector instructions. -/
theorem C84_round_trip (Φ Ψ : ℕ → List Rat → List Rat → Option (Bool × List Rat × List Rat)) (sqrt : Rat → Rat)
    (hs : ∀ q : Rat, 0 < q → |((sqrt q : Rat) : ℝ) - Real.sqrt q| ≤ Real.sqrt q / 2 ^ 24) (dt : Dt) (sr : Srate) (hΦ : FftCode dt sr Φ) (hΨ : FftCode dt sr Ψ)
    (h : ¬ (dt = .m7_5 ∧ sr.hr = true)) (win : List ℝ) (hwin : (mdctTables Arith.real).win dt sr = some win)
    (s : ℕ → Rat) (d0 x0 x1 : List Rat) (hd0 : d0 = (List.range (nd dt sr)).map s) (hx0 : x0 = (List.range (ns dt sr)).map fun k => s (nd dt sr + k))
    (hx1 : x1 = (List.range (ns dt sr)).map fun k => s (ns dt sr + nd dt sr + k))
    (u0 u1 b0 b1 w0 w1 y0 y1 e0 : List Rat) (hu0 : ns dt sr ≤ u0.length) (hu1 : ns dt sr ≤ u1.length) (hb0 : ns dt sr ≤ b0.length)
    (hb1 : ns dt sr ≤ b1.length) (hw0 : ns dt sr ≤ w0.length) (hw1 : ns dt sr ≤ w1.length) (hy0 : ns dt sr ≤ y0.length) (hy1 : ns dt sr ≤ y1.length)
    (he0 : nd dt sr ≤ e0.length) (he : ∀ k, k < nd dt sr → |((e0.getD k 0 : Rat) : ℝ)| ≤ 2 ^ 100)
    (hs0 : frameMag (ns dt sr) win (fun k => (s k : ℝ)) 0 ≤ 2 ^ 80) (hs1 : frameMag (ns dt sr) win (fun k => (s k : ℝ)) 1 ≤ 2 ^ 80) :
    ∃ X0 d1 X1 d2 o0 e1 o1 e2, forwardWith (Arith.rounded fl) Φ sqrt (mdctTables (Arith.rounded fl)) dt sr sr u0 x0 d0 w0 = some (X0, d1) ∧
      forwardWith (Arith.rounded fl) Φ sqrt (mdctTables (Arith.rounded fl)) dt sr sr u1 x1 d1 w1 = some (X1, d2) ∧
      inverseWith (Arith.rounded fl) Ψ sqrt (mdctTables (Arith.rounded fl)) dt sr sr b0 (some X0) e0 y0 = some (o0, e1) ∧
      inverseWith (Arith.rounded fl) Ψ sqrt (mdctTables (Arith.rounded fl)) dt sr sr b1 (some X1) e1 y1 = some (o1, e2) ∧ o1.length = y1.length ∧
      ∀ k, k < ns dt sr → |((o1.getD k 0 : Rat) : ℝ) - s (2 * ns dt sr - nd dt sr + k)| ≤ 1 / 10 ^ 7 * |(s (2 * ns dt sr - nd dt sr + k) : ℝ)| +
        57 / 10 ^ 6 * (frameMag (ns dt sr) win (fun k => (s k : ℝ)) 0 + frameMag (ns dt sr) win (fun k => (s k : ℝ)) 1 + 1 / 2 ^ 78) := by
  obtain ⟨h4, hpos, hnd, hn2, hev⟩ := mdct_shape dt sr
  have hn6 : ns dt sr ≤ 1000 := by cases dt <;> cases sr <;> decide
  obtain ⟨tol, htol, hO⟩ := hΦ.ok h
  have hget : ∀ (f : ℕ → Rat) (m k : ℕ), k < m → ((List.range m).map f).getD k 0 = f k := by
    intro f m k hk
    rw [List.getD_eq_getElem _ _ (by simpa using hk), List.getElem_map, List.getElem_range]
  have l0 : d0.length = nd dt sr := by rw [hd0]; simp
  have l1 : x0.length = ns dt sr := by rw [hx0]; simp
  have l2 : x1.length = ns dt sr := by rw [hx1]; simp
  have hr1 : rateScale Real.sqrt (ns dt sr) (ns dt sr) = 1 := by unfold rateScale; rw [if_neg (by omega)]
  have f0 : FrameOf (fun q : Rat => (q : ℝ)) 0 (ns dt sr) (nd dt sr) 0 (fun k => (s k : ℝ)) d0 x0 := by
    constructor
    · intro k hk; rw [hd0, hget _ _ _ hk]; congr 2; omega
    · intro k hk; rw [hx0, hget _ _ _ hk]; congr 2; omega
  obtain ⟨X0, d1, p1, p2, p3⟩ := forward_signal (Arith.rounded fl) (fun q : Rat => (q : ℝ)) approx_fl 0 sqrt dt sr sr h (le_refl _) Φ tol hO htol
    (fun hc => absurd rfl hc) win hwin (fun k => (s k : ℝ)) 0 u0 x0 d0 w0 hu0 l1.ge l0.ge hw0 f0 (hs0.trans (by norm_num))
  obtain ⟨p4, p5⟩ := forward_delay (Arith.rounded fl) 0 sqrt dt sr sr h (le_refl _) Φ u0 x0 d0 w0 X0 d1 hu0 l1.ge l0.ge hw0 p1
  have f1 : FrameOf (fun q : Rat => (q : ℝ)) 0 (ns dt sr) (nd dt sr) 1 (fun k => (s k : ℝ)) d1 x1 := by
    constructor
    · intro k hk
      rw [p5 k hk, hx0, hget _ _ _ (by omega)]
      congr 2; omega
    · intro k hk; rw [hx1, hget _ _ _ hk]; congr 2; omega
  obtain ⟨X1, d2, q1, q2, q3⟩ := forward_signal (Arith.rounded fl) (fun q : Rat => (q : ℝ)) approx_fl 0 sqrt dt sr sr h (le_refl _) Φ tol hO htol
    (fun hc => absurd rfl hc) win hwin (fun k => (s k : ℝ)) 1 u1 x1 d1 w1 hu1 l2.ge (by omega) hw1 f1 (hs1.trans (by norm_num))
  rw [hr1] at p3 q3
  obtain ⟨a1, a2⟩ := spectrum_sums (ns dt sr) hpos win (fun k => (s k : ℝ)) 0 (fun k => ((X0.getD k 0 : Rat) : ℝ)) (65 / 10 ^ 7) (by norm_num)
    (fun k hk => by have := p3 k hk; rw [one_mul, one_mul] at this; exact this)
  obtain ⟨c1, c2⟩ := spectrum_sums (ns dt sr) hpos win (fun k => (s k : ℝ)) 1 (fun k => ((X1.getD k 0 : Rat) : ℝ)) (65 / 10 ^ 7) (by norm_num)
    (fun k hk => by have := q3 k hk; rw [one_mul, one_mul] at this; exact this)
  have hq : 1 / 100 ≤ Real.sqrt (2 / ns dt sr) ∧ Real.sqrt (2 / ns dt sr) ≤ 1 := by
    have qp : (0 : ℝ) < ((ns dt sr : ℕ) : ℝ) := by exact_mod_cast hpos
    have q1 : ((ns dt sr : ℕ) : ℝ) ≤ 1000 := by exact_mod_cast hn6
    constructor
    · refine Real.le_sqrt_of_sq_le ?_
      rw [le_div_iff₀ qp]; nlinarith
    · rw [Real.sqrt_le_left (by norm_num), one_pow, div_le_one qp]
      have : 2 ≤ ns dt sr := by omega
      exact_mod_cast this
  have big : ∀ (S m : ℝ), 0 ≤ S → m ≤ 2 ^ 80 → Real.sqrt (2 / ns dt sr) * S ≤ 2 * (1 + 65 / 10 ^ 7) * (m + 1 / 2 ^ 80) → S ≤ 2 ^ 90 := by
    intro S m hS hm hle
    have := mul_le_mul_of_nonneg_right hq.1 hS
    have : (2 : ℝ) * (1 + 65 / 10 ^ 7) * (m + 1 / 2 ^ 80) ≤ 2 * (1 + 65 / 10 ^ 7) * (2 ^ 80 + 1 / 2 ^ 80) := by
      have : m + 1 / 2 ^ 80 ≤ 2 ^ 80 + 1 / 2 ^ 80 := by linarith
      exact mul_le_mul_of_nonneg_left this (by norm_num)
    have : (2 : ℝ) * (1 + 65 / 10 ^ 7) * (2 ^ 80 + 1 / 2 ^ 80) ≤ 2 ^ 90 / 100 := by norm_num
    linarith
  obtain ⟨o0, e1, o1, e2, r1, r2, r3, r4⟩ := C84_overlap Ψ sqrt hs dt sr sr hΨ h (le_refl _) win hwin (fun k => (s k : ℝ)) b0 b1 X0 X1 e0 y0 y1 hb0 hb1
    (by omega) (by omega) he0 hy0 hy1 (fun k => ((X0.getD k 0 : Rat) : ℝ)) (fun k => ((X1.getD k 0 : Rat) : ℝ)) (fun _ => rfl) (fun _ => rfl)
    (big _ _ (Finset.sum_nonneg fun _ _ => abs_nonneg _) hs0 a2) (big _ _ (Finset.sum_nonneg fun _ _ => abs_nonneg _) hs1 c2) he 1 1
    (by rw [if_pos rfl]) (by rw [if_pos rfl])
  refine ⟨X0, d1, X1, d2, o0, e1, o1, e2, p1, q1, r1, r2, r3, fun k hk => ?_⟩
  have := r4 k hk
  simp only [one_mul] at this
  have t1 : Real.sqrt (2 / ns dt sr) * (1 / 2 ^ 79) ≤ 1 / 2 ^ 79 := by
    have := mul_le_mul_of_nonneg_right hq.2 (show (0 : ℝ) ≤ 1 / 2 ^ 79 by positivity)
    linarith
  have m0 := frameMag_nonneg (ns dt sr) win (fun k => (s k : ℝ)) 0
  have m1 := frameMag_nonneg (ns dt sr) win (fun k => (s k : ℝ)) 1
  rw [mul_add, mul_add (Real.sqrt _), mul_add (Real.sqrt _)] at this
  have n1 : (1 : ℝ) / 2 ^ 79 = 2 * (1 / 2 ^ 80) := by norm_num
  have n2 : (1 : ℝ) / 2 ^ 78 = 4 * (1 / 2 ^ 80) := by norm_num
  have n3 : (0 : ℝ) ≤ 1 / 2 ^ 80 := by positivity
  rw [n1] at t1 this
  rw [n2]
  linarith

/-! ### Through the codec -/

section Field
variable {K : Type} [Field K] [LinearOrder K] [IsStrictOrderedRing K] [FloorRing K]

theorem approx_field (φ : K →+*o ℝ) : Approx (Arith.ofField K) φ := by
  have h : ∀ x y : ℝ, y = x → |y - x| ≤ (|x| + 1 / 2 ^ 126) / 2 ^ 24 := by
    intro x y e
    rw [e, sub_self, abs_zero]
    have := abs_nonneg x
    positivity
  exact ⟨fun a b _ => h _ _ (map_add φ a b), fun a b _ => h _ _ (map_sub φ a b), fun a b _ => h _ _ (map_mul φ a b), fun q _ => h _ _ (map_ratCast φ q),
    (map_ratCast φ 0).trans Rat.cast_zero⟩

theorem nearScale_field (φ : K →+*o ℝ) (sqrt : K → K) (h : ∀ q, φ (sqrt q) = Real.sqrt (φ q)) (n n' : ℕ) : NearScale (Arith.ofField K) φ sqrt n n' := by
  unfold NearScale
  have e : φ (sqrt ((Arith.ofField K).div ((Arith.ofField K).ofInt (n' : ℤ)) ((Arith.ofField K).ofInt (n : ℤ)))) = Real.sqrt ((n' : ℝ) / n) := by
    rw [h, Fld.fld_ofInt, Fld.fld_ofInt]
    change Real.sqrt (φ (((n' : ℤ) : K) / ((n : ℤ) : K))) = _
    rw [map_div₀, map_intCast, map_intCast, Int.cast_natCast, Int.cast_natCast]
  rw [e, sub_self, abs_zero]
  positivity

theorem fftOk_field (φ : K →+*o ℝ) (dt : Dt) (sr : Srate) (h : ¬ (dt = .m7_5 ∧ sr.hr = true)) : ∃ tol : ℝ, tol ≤ 500 / 10 ^ 8 ∧
    FftOk φ 0 (fft (Arith.ofField K) (mdctTables (Arith.ofField K)) (ns dt sr / 2)) (ns dt sr / 2) tol := by
  obtain ⟨a, b, w, win, hm, htol, hT, _⟩ := tables_near (Arith.ofField K) φ (approx_field φ) 0 dt sr h
  exact ⟨_, htol, fftOk _ _ (approx_field φ) 0 _ a b _ hm hT (htol.trans (by norm_num))⟩

end Field

theorem encRun_append {α : Type} [Inhabited R] (P : EncPlatform R) (l l' : List (EncOp R α)) : ∀ e,
    encRun P (l ++ l') e = (encRun P l e).bind fun r => (encRun P l' r.2).map fun w => (r.1 ++ w.1, w.2) := by
  induction l with
  | nil =>
    intro e
    show encRun P l' e = (encRun P l' e).map fun w => ([] ++ w.1, w.2)
    cases encRun P l' e <;> rfl
  | cons c l ih =>
    intro e
    show (encStep P c e).bind _ = ((encStep P c e).bind _).bind _
    cases encStep P c e with
    | none => rfl
    | some r =>
      rw [Option.bind_some, Option.bind_some]
      show (encRun P (l ++ l') r.2).map _ = _
      rw [ih]
      cases encRun P l r.2 with
      | none => rfl
      | some w =>
        rw [Option.bind_some, Option.map_some, Option.bind_some]
        dsimp only
        cases encRun P l' w.2 with
        | none => rfl
        | some w' => rfl

/-- One more frame encoded. -/
theorem EncPlayed.encode {α : Type} [Inhabited R] {P : EncPlatform R} {hr : Bool} {dtUs srHz srPcmHz : Int} {ops : List (EncOp R α)}
    {rets : List (Option (Int × List Nat))} {e : Enc R} (h : EncPlayed P hr dtUs srHz srPcmHz ops rets e) (c : EncCall R α)
    (hc : c.Ok (ns e.dt e.srPcm)) (r : Int) (out : List Nat) (e1 : Enc R) (hd : lc3Encode P c (some e) = some (r, out, some e1)) (hdt : e1.dt = e.dt)
    (hsr : e1.srPcm = e.srPcm) : EncPlayed P hr dtUs srHz srPcmHz (ops ++ [.encode c]) (rets ++ [some (r, out)]) e1 := by
  obtain ⟨ok, e0, h1, h2⟩ := h
  refine ⟨?_, e0, h1, ?_⟩
  · intro c' hc'
    rw [hdt, hsr]
    rcases List.mem_append.1 hc' with hc' | hc'
    · exact ok c' hc'
    · rw [List.mem_singleton] at hc'
      injection hc' with hc'
      rw [hc']; exact hc
  · rw [encRun_append, h2, Option.bind_some]
    unfold encRun encStep
    dsimp only
    rw [hd]
    rfl

/-- One more frame decoded. -/
theorem Played.decode {α : Type} {P : Platform R} {hr : Bool} {dtUs srHz srPcmHz : Int} {calls : List (DecCall R α)} {rets : List Int} {d : Dec R}
    {mem : Int → α} (h : Played P hr dtUs srHz srPcmHz calls rets d mem) (c : DecCall R α) (hc : CallOk c) (r : Int) (d1 : Dec R) (mem1 : Int → α)
    (hd : lc3Decode P c (some d) mem = some (r, some d1, mem1)) :
    Played P hr dtUs srHz srPcmHz (calls ++ [c]) (rets ++ [r]) d1 mem1 := by
  obtain ⟨ok, d0, mem0, h1, h2⟩ := h
  refine ⟨?_, d0, mem0, h1, ?_⟩
  · intro c' hc'
    rcases List.mem_append.1 hc' with hc' | hc'
    · exact ok c' hc'
    · rw [List.mem_singleton] at hc'
      rw [hc']; exact hc
  · rw [decRun_append, h2, Option.bind_some]
    unfold decRun
    dsimp only
    rw [hd]
    rfl

/-- The sums, for a spectrum that is that of a frame with an error `D` on the first `m` lines, and null above. -/
theorem coded_sums (n m : ℕ) (hn : 0 < n) (hm : m ≤ n) (win : List ℝ) (s : ℕ → ℝ) (i : ℕ) (X D Xh : ℕ → ℝ) (F c τ : ℝ) (hF : 0 ≤ F) (hc : 0 ≤ c)
    (hFc : F * c = 1) (hτ : 0 ≤ τ)
    (hX : ∀ k, k < m → |X k - c * frameMdct n win s i k| ≤ τ * (c * (Real.sqrt (2 / n) * (frameMag n win s i + 1 / 2 ^ 80))))
    (h1 : ∀ k, k < m → Xh k = X k + D k) (h2 : ∀ k, m ≤ k → Xh k = 0) :
    F * (Real.sqrt (2 / n) * ∑ k ∈ range n, |Xh k - c * frameMdct n win s i k|) ≤ F * (Real.sqrt (2 / n) * ∑ k ∈ range m, |D k|) +
      Real.sqrt (2 / n) * ∑ k ∈ Ico m n, |frameMdct n win s i k| + 2 * τ * (frameMag n win s i + 1 / 2 ^ 80) ∧
    F * (Real.sqrt (2 / n) * ∑ k ∈ range n, |Xh k|) ≤ F * (Real.sqrt (2 / n) * ∑ k ∈ range m, |D k|) +
      2 * (1 + τ) * (frameMag n win s i + 1 / 2 ^ 80) := by
  have hn' : (n : ℝ) ≠ 0 := by exact_mod_cast hn.ne'
  have hq : Real.sqrt (2 / n) * Real.sqrt (2 / n) * n = 2 := by
    rw [Real.mul_self_sqrt (by positivity)]
    field_simp
  have hM := frameMag_nonneg n win s i
  have hq0 := Real.sqrt_nonneg (2 / (n : ℝ))
  have hmr : (m : ℝ) ≤ n := by exact_mod_cast hm
  have sum_const : ∀ (f : ℕ → ℝ) (B : ℝ), 0 ≤ B → (∀ k, k < m → f k ≤ B) → ∑ k ∈ range m, f k ≤ n * B := by
    intro f B hB hf
    have := Finset.sum_le_card_nsmul (range m) f B (fun k hk => hf k (Finset.mem_range.mp hk))
    rw [Finset.card_range, nsmul_eq_mul] at this
    exact this.trans (mul_le_mul_of_nonneg_right hmr hB)
  have split : ∀ f : ℕ → ℝ, ∑ k ∈ range n, f k = ∑ k ∈ range m, f k + ∑ k ∈ Ico m n, f k := by
    intro f
    rw [Finset.range_eq_Ico, Finset.range_eq_Ico, Finset.sum_Ico_consecutive _ (Nat.zero_le _) hm]
  have hW : 0 ≤ c * (Real.sqrt (2 / n) * (frameMag n win s i + 1 / 2 ^ 80)) := by positivity
  have scale : ∀ a b : ℝ, F * (Real.sqrt (2 / n) * (n * (b * (c * (Real.sqrt (2 / n) * a))))) = 2 * b * a := by
    intro a b
    linear_combination (b * a * Real.sqrt (2 / n) * Real.sqrt (2 / n) * n) * hFc + b * a * hq
  constructor
  · have g1 : ∑ k ∈ range m, |Xh k - c * frameMdct n win s i k| ≤ ∑ k ∈ range m, |D k| +
        n * (τ * (c * (Real.sqrt (2 / n) * (frameMag n win s i + 1 / 2 ^ 80)))) := by
      have a1 : ∀ k ∈ range m, |Xh k - c * frameMdct n win s i k| ≤ |D k| + |X k - c * frameMdct n win s i k| := by
        intro k hk
        rw [h1 k (Finset.mem_range.mp hk), show X k + D k - c * frameMdct n win s i k = D k + (X k - c * frameMdct n win s i k) by ring]
        exact abs_add_le _ _
      have a2 := Finset.sum_le_sum a1
      rw [Finset.sum_add_distrib] at a2
      have a3 := sum_const (fun k => |X k - c * frameMdct n win s i k|) _ (mul_nonneg hτ hW) hX
      linarith
    have g2 : ∑ k ∈ Ico m n, |Xh k - c * frameMdct n win s i k| = c * ∑ k ∈ Ico m n, |frameMdct n win s i k| := by
      rw [Finset.mul_sum]
      refine Finset.sum_congr rfl fun k hk => ?_
      rw [h2 k (Finset.mem_Ico.mp hk).1, zero_sub, abs_neg, abs_mul, abs_of_nonneg hc]
    rw [split, g2]
    have g3 : ∑ k ∈ range m, |Xh k - c * frameMdct n win s i k| + c * ∑ k ∈ Ico m n, |frameMdct n win s i k| ≤
      ∑ k ∈ range m, |D k| + n * (τ * (c * (Real.sqrt (2 / n) * (frameMag n win s i + 1 / 2 ^ 80)))) + c * ∑ k ∈ Ico m n, |frameMdct n win s i k| := by linarith
    have g4 := mul_le_mul_of_nonneg_left (mul_le_mul_of_nonneg_left g3 hq0) hF
    refine g4.trans (le_of_eq ?_)
    have := scale (frameMag n win s i + 1 / 2 ^ 80) τ
    linear_combination this + (Real.sqrt (2 / n) * ∑ k ∈ Ico m n, |frameMdct n win s i k|) * hFc
  · have g2 : ∑ k ∈ Ico m n, |Xh k| = 0 := Finset.sum_eq_zero fun k hk => by rw [h2 k (Finset.mem_Ico.mp hk).1, abs_zero]
    have g1 : ∑ k ∈ range m, |Xh k| ≤ ∑ k ∈ range m, |D k| + n * ((1 + τ) * (c * (Real.sqrt (2 / n) * (frameMag n win s i + 1 / 2 ^ 80)))) := by
      have a1 : ∀ k ∈ range m, |Xh k| ≤ |D k| + |X k| := by
        intro k hk
        rw [h1 k (Finset.mem_range.mp hk), add_comm]
        exact abs_add_le _ _
      have a2 := Finset.sum_le_sum a1
      rw [Finset.sum_add_distrib] at a2
      have a3 := sum_const (fun k => |X k|) ((1 + τ) * (c * (Real.sqrt (2 / n) * (frameMag n win s i + 1 / 2 ^ 80)))) (by positivity) (by
        intro k hk
        have b1 := abs_add_le (X k - c * frameMdct n win s i k) (c * frameMdct n win s i k)
        rw [sub_add_cancel, abs_mul, abs_of_nonneg hc] at b1
        have b2 := mul_le_mul_of_nonneg_left (frameMdct_le n win s i k) hc
        have b3 := hX k hk
        have b4 : c * (Real.sqrt (2 / n) * frameMag n win s i) ≤ c * (Real.sqrt (2 / n) * (frameMag n win s i + 1 / 2 ^ 80)) :=
          mul_le_mul_of_nonneg_left (mul_le_mul_of_nonneg_left (by linarith [show (0 : ℝ) ≤ 1 / 2 ^ 80 by positivity]) hq0) hc
        linarith)
      linarith
    rw [split, g2, add_zero]
    have g4 := mul_le_mul_of_nonneg_left (mul_le_mul_of_nonneg_left g1 hq0) hF
    refine g4.trans (le_of_eq ?_)
    have := scale (frameMag n win s i + 1 / 2 ^ 80) (1 + τ)
    linear_combination this

section Field
variable {K : Type} [Field K] [LinearOrder K] [IsStrictOrderedRing K] [FloorRing K]

/-- The error of a frame in the spectrum, as in C78: `E` on the coefficients, of 9/8 quantisation steps `G` at most (17/8 in LSB mode) on the lines
that are coded, and its synthesis `D`. -/
structure FrameError (P : Platform K) (dt : Dt) (sr srPcm : Srate) (side : SideData) (scf y : List K) (G : K) (E D : List K) : Prop where
  synth : goodSpectrum P dt sr srPcm side E = some D
  len : E.length = ns dt sr
  bound : ∀ j, j < ne dt sr → |E.getD j 0| ≤ G * ((if j < side.spec.nq then (if side.spec.lsbMode then 17/8 else 9/8) else 1/2 + |y.getD j 0|) +
    |y.getD j 0| * 2 / 10 ^ 7)
  high : ∀ j, ne dt sr ≤ j → E.getD j 0 = 0
  bands : (∀ f ∈ side.tns.filters, f = []) → ∀ k, k < ne dt sr → ∃ b, b < numBands dt sr ∧ (bandLim dt sr).getD b 0 ≤ k ∧
    k < (bandLim dt sr).getD (b + 1) 0 ∧ 0 < (bandGains P.A P.M dt sr scf true).getD b 0 ∧
    D.getD k 0 = (bandGains P.A P.M dt sr scf true).getD b 0 * E.getD k 0

/-- What a frame is made of: the samples, the side data, the coefficients in quantisation steps and the step. -/
structure FrameMade {α : Type} [Inhabited K] (P : EncPlatform K) (e : Enc K) (c : EncCall K α) (x : List K) (e1 : Enc K) (side : SideData)
    (y scf : List K) (G : K) : Prop where
  made : ∃ v, c.samples (ns e.dt e.srPcm) = some v ∧ v.map Prod.snd = x ∧ encAnalyze P c.junk c.nbytes.toNat (encLoad v e) = some (side, e1)
  len : x.length = ns e.dt e.srPcm
  coeffs : e1.xs.take (ne e.dt e.sr) = y
  gain : unquantizeGain P.A ((side.spec.gIdx : Int) - gainOffset e.sr c.nbytes.toNat) = some G
  pos : 0 < G
  scale : snsDecodeScf P.A P.M side.sns = some scf

/-- The frame can be decoded as it was quantised, see C62, and the post filter of the decoder is off. -/
structure FrameClean (P : EncPlatform K) (dt : Dt) (sr : Srate) (nbytes : Nat) (side : SideData) (y : List K) : Prop where
  fits : Fits P.A dt sr nbytes side y
  nq : 2 ≤ side.spec.nq
  ltpf : sr.hr = false → side.pitchPresent = true → side.ltpf.active = false

/-- The signal of two frames, after the memory of the encoder. -/
def twoFrames (φ : K →+*o ℝ) (d x0 x1 : List K) (k : ℕ) : ℝ := φ ((d ++ x0 ++ x1).getD k 0)

theorem encode_state {α : Type} [Inhabited R] (P : EncPlatform R) (hcand : CandidatesOk P.A) (hr : Bool) (dtUs srHz srPcmHz : Int)
    (ops : List (EncOp R α)) (rets : List (Option (Int × List Nat))) (e : Enc R) (h : EncPlayed P hr dtUs srHz srPcmHz ops rets e)
    (c : EncCall R α) (hc : c.Ok (ns e.dt e.srPcm)) (out : List Nat) (e1 : Enc R) (hd : lc3Encode P c (some e) = some (0, out, some e1))
    (v : List (Int × R)) (hv : c.samples (ns e.dt e.srPcm) = some v) (side : SideData) (e1' : Enc R)
    (ha : encAnalyze P c.junk c.nbytes.toNat (encLoad v e) = some (side, e1')) :
    e1' = e1 ∧ e1.dt = e.dt ∧ e1.sr = e.sr ∧ e1.srPcm = e.srPcm ∧ v.length = ns e.dt e.srPcm ∧ EncInv e := by
  obtain ⟨hi, -⟩ := h.inv hcand
  have hn : ¬ (c.nbytes < minFrameBytes e.dt e.sr ∨ c.nbytes > maxFrameBytes e.dt e.sr) := by
    intro hn
    unfold lc3Encode at hd
    dsimp only at hd
    rw [if_pos hn] at hd
    have hd := Option.some.inj hd
    rw [Prod.mk.injEq] at hd
    exact absurd hd.1 (by decide)
  obtain ⟨v', s, w1, -, -, -, -, w2⟩ := encode_step P hcand e hi c hc hn
  obtain ⟨f, e2, -, k1, -, -, -, -, k2, k3, k4, -⟩ := w2 0 out (some e1) hd
  obtain rfl := Option.some.inj k1
  obtain ⟨v'', u1, u2, -⟩ := samples_some c _ hc
  rw [hv] at u1
  obtain rfl := Option.some.inj u1
  refine ⟨?_, k2, k3, k4, u2, hi⟩
  unfold lc3Encode at hd
  dsimp only at hd
  rw [if_neg hn, encProcess_core P c e v hv hc.out] at hd
  unfold encCore at hd
  rw [ha, Option.bind_some] at hd
  dsimp only at hd
  obtain ⟨r, r1, r2⟩ := Option.map_eq_some_iff.1 hd
  obtain ⟨r', r1', r2'⟩ := Option.map_eq_some_iff.1 r1
  obtain ⟨f', -, z2⟩ := Option.bind_eq_some_iff.1 r1'
  have z2 := Option.some.inj z2
  subst z2
  subst r2'
  simp only [Prod.mk.injEq, Option.some.injEq] at r2
  exact r2.2.2

set_option maxHeartbeats 1000000 in
/-- **C84.** In exact arithmetic (of the real numbers, or of any field `K` of real numbers: `φ` is its inclusion; the square root is that of the real numbers,
and is used only when the rates differ), with the tables of the code, after any sequence of calls: with `x0` and `x1` the samples given to two
successive calls of `lc3_encode` that return 0. When the frames can be decoded as they were quantised and have the long-term post filter off (`FrameClean`),
any decoder of the same configuration, whatever it received before, outputs with the second of the two frames the samples given to the encoder, delayed by
`2 LC3_ND - LC3_NS` samples (see C05), up to: `2 F √(2/N)` times the sum of the errors `D` of the coefficients, whose quantisation errors are
bounded by the quantisation steps (`FrameError`); the lines of the spectra above the coded bandwidth, `2 √(2/N)` times the sum of their magnitudes;
`5.7 10^-5` of the sums of the magnitudes of the samples, because of the tables; and `10^-7` of the sample. -/
theorem C84_samples {α β : Type} [Inhabited K] (φ : K →+*o ℝ) (P : EncPlatform K) (hA : P.A = Arith.ofField K) (hcand : CandidatesOk P.A) (hM : Exp2Ok P.M)
    (hr : Bool)
    (dtUs srHz srPcmHz : Int) (ops : List (EncOp K α)) (rets : List (Option (Int × List Nat))) (e : Enc K)
    (h : EncPlayed P hr dtUs srHz srPcmHz ops rets e) (c0 c1 : EncCall K α) (hc0 : c0.Ok (ns e.dt e.srPcm)) (hc1 : c1.Ok (ns e.dt e.srPcm))
    (out0 out1 : List Nat) (e1 e2 : Enc K) (hd0 : lc3Encode P c0 (some e) = some (0, out0, some e1))
    (hd1 : lc3Encode P c1 (some e1) = some (0, out1, some e2))
    (hQ : ns e.dt e.srPcm ≠ ns e.dt e.sr → ∀ q, φ (P.sqrt q) = Real.sqrt (φ q)) (N : ℕ) (hN : N = ns e.dt e.srPcm) (F : ℝ) (hF : F = if N = ns e.dt e.sr then 1 else Real.sqrt (N / ns e.dt e.sr)) (win : List ℝ)
    (hwin : (mdctTables Arith.real).win e.dt e.srPcm = some win) :
    ∃ (x0 x1 : List K) (side0 side1 : SideData) (y0 y1 scf0 scf1 : List K) (G0 G1 : K),
      FrameMade P e c0 x0 e1 side0 y0 scf0 G0 ∧ FrameMade P e1 c1 x1 e2 side1 y1 scf1 G1 ∧
      (FrameClean P e.dt e.sr c0.nbytes.toNat side0 y0 → FrameClean P e.dt e.sr c1.nbytes.toNat side1 y1 →
        frameMag N win (twoFrames φ e.xd x0 x1) 0 ≤ 2 ^ 70 → frameMag N win (twoFrames φ e.xd x0 x1) 1 ≤ 2 ^ 70 →
        ∀ (P' : Platform K) (dtUs' srHz' srPcmHz' : Int) (calls : List (DecCall K β)) (rets' : List Int) (d : Dec K) (mem : Int → β), P'.A = P.A →
          P'.M = P.M → P'.sqrt = P.sqrt → Played P' hr dtUs' srHz' srPcmHz' calls rets' d mem → d.dt = e.dt → d.sr = e.sr → d.srPcm = e.srPcm →
          ∀ c0' c1' : DecCall K β, Gives c0' (out0.take c0.nbytes.toNat) → Gives c1' (out1.take c1.nbytes.toNat) →
            ∃ (d1 d2 : Dec K) (mem1 : Int → β) (xs E0 D0 E1 D1 : List K), lc3Decode P' c0' (some d) mem = some (0, some d1, mem1) ∧
              lc3Decode P' c1' (some d1) mem1 = some (0, some d2, pcmStore c1'.stride c1'.base (xs.map c1'.conv) mem1) ∧
              FrameError P' e.dt e.sr e.srPcm side0 scf0 y0 G0 E0 D0 ∧ FrameError P' e.dt e.sr e.srPcm side1 scf1 y1 G1 E1 D1 ∧
              xs.length = N ∧
              (∑ j ∈ range (ne e.dt e.sr), |φ (D0.getD j 0)| ≤ 2 ^ 70 → ∑ j ∈ range (ne e.dt e.sr), |φ (D1.getD j 0)| ≤ 2 ^ 70 →
                ∀ k, k < N → |φ (xs.getD k 0) - φ ((x0 ++ x1).getD (N + k - (2 * nd e.dt e.srPcm - N)) 0)| ≤
                  1 / 10 ^ 7 * |φ ((x0 ++ x1).getD (N + k - (2 * nd e.dt e.srPcm - N)) 0)| +
                  (2 + 15 / 10 ^ 6) * (F * (Real.sqrt (2 / N) * ∑ j ∈ range (ne e.dt e.sr), (|φ (D0.getD j 0)| + |φ (D1.getD j 0)|))) +
                  2 * (Real.sqrt (2 / N) * ∑ j ∈ Ico (ne e.dt e.sr) N, (|frameMdct N win (twoFrames φ e.xd x0 x1) 0 j| +
                    |frameMdct N win (twoFrames φ e.xd x0 x1) 1 j|)) +
                  57 / 10 ^ 6 * (frameMag N win (twoFrames φ e.xd x0 x1) 0 + frameMag N win (twoFrames φ e.xd x0 x1) 1 + 1 / 2 ^ 77))) := by
  obtain ⟨v0, e1', side0, X0, y0, scf0, G0, a1, a2, a3, a4, a5, a6, a7, a8⟩ := C78_spectrum (β := β) P hA hcand hM hr dtUs srHz srPcmHz ops rets e h c0 hc0 out0
    _ hd0
  obtain ⟨rfl, s1, s2, s3, s4, hi⟩ := encode_state P hcand hr dtUs srHz srPcmHz ops rets e h c0 hc0 out0 e1 hd0 v0 a1 side0 e1' a2
  have h1 := h.encode c0 hc0 0 out0 e1' hd0 s1 s3
  have hc1' : c1.Ok (ns e1'.dt e1'.srPcm) := by rw [s1, s3]; exact hc1
  obtain ⟨v1, e2', side1, X1, y1, scf1, G1, b1, b2, b3, b4, b5, b6, b7, b8⟩ := C78_spectrum (β := β) P hA hcand hM hr dtUs srHz srPcmHz _ _ e1' h1 c1 hc1' out1
    _ hd1
  obtain ⟨rfl, t1, t2, t3, t4, hi1⟩ := encode_state P hcand hr dtUs srHz srPcmHz _ _ e1' h1 c1 hc1' out1 e2 hd1 v1 b1 side1 e2' b2
  subst hN
  have hcfg : ¬ (e.dt = .m7_5 ∧ e.srPcm.hr = true) := hi.cfgPcm
  obtain ⟨m1, m2, m3, m4, -⟩ := dec_dims e.dt e.sr e.srPcm hi.rate
  obtain ⟨h4, hpos, hnd, hn2, hev⟩ := mdct_shape e.dt e.srPcm
  refine ⟨v0.map Prod.snd, v1.map Prod.snd, side0, side1, y0, y1, scf0, scf1, G0, G1, ⟨⟨v0, a1, rfl, a2⟩, by rw [List.length_map, s4], a3, a5, a6, a7⟩,
    ⟨⟨v1, b1, rfl, b2⟩, by rw [List.length_map, t4], b3, b5, b6, b7⟩, ?_⟩
  intro cl0 cl1 hm0 hm1 P' dtUs' srHz' srPcmHz' calls rets' d mem p1 p2 p3 hp q1 q2 q3 c0' c1' g0 g1
  obtain ⟨dd, xs0, Xh0, E0, D0, t, ed, xd, i1, i2, i3, i4, i5, i6, i7, i8, i9, i10, i11, i12, i13, i14, i15⟩ :=
    a8 cl0.fits cl0.nq P' dtUs' srHz' srPcmHz' calls rets' d mem p1 p2 hp q1 q2 c0' g0
  have hp1 := hp.decode c0' g0.ok 0 _ _ i1
  obtain ⟨dd2, xs1, Xh1, E1, D1, t', ed', xd', j1, j2, j3, j4, j5, j6, j7, j8, j9, j10, j11, j12, j13, j14, j15⟩ :=
    b8 (by rw [s1, s2]; exact cl1.fits) cl1.nq P' dtUs' srHz' srPcmHz' _ _ _ _ p1 p2 hp1 (by rw [s1, ← q1]; exact i5.dt) (by rw [s2, ← q2]; exact i5.sr) c1' g1
  have k1 : (complete dd).dt = e.dt := i5.dt.trans q1
  have k2 : (complete dd).sr = e.sr := i5.sr.trans q2
  have k3 : (complete dd).srPcm = e.srPcm := i5.srPcm.trans q3
  simp only [q1, q2, q3] at i2 i3 i4 i8 i9 i10 i11 i12 i13 i14 i15
  simp only [k1, k2, k3] at j2 j3 j6 j7 j8 j9 j10 j11 j12 j13 j14 j15
  have j2' : LC3.win dd.x dd.xdOff (nd e.dt e.srPcm) = some xd' := j2
  rw [i4] at j2'
  obtain rfl := Option.some.inj j2'
  -- the post filter
  have hxs : xs1 = t' := by
    cases hh : e.sr.hr with
    | true => exact j6 hh
    | false => exact (j7 (cl1.ltpf hh)).2 ((i7 (cl0.ltpf hh)).1 (q2 ▸ hh))
  subst hxs
  have hP'A : P'.A = Arith.ofField K := p1.trans hA
  have i3' := i3
  have j3' := j3
  unfold invTransform at i3' j3'
  rw [hP'A, p3] at i3' j3'
  -- the analysis
  have hFr : F = rateScale Real.sqrt (ns e.dt e.sr) (ns e.dt e.srPcm) := by
    rw [hF]; unfold rateScale
    by_cases c : ns e.dt e.srPcm = ns e.dt e.sr
    · rw [if_pos c, if_neg (by omega)]
    · rw [if_neg c, if_pos (by omega)]
  have hs10 : 10 ≤ ns e.dt e.sr := by cases e.dt <;> cases e.sr <;> decide
  have hFc : F * rateScale Real.sqrt (ns e.dt e.srPcm) (ns e.dt e.sr) = 1 := by
    rw [hFr]; exact scale_inverse _ _ hpos (by omega)
  have hc0r : 0 ≤ rateScale Real.sqrt (ns e.dt e.srPcm) (ns e.dt e.sr) := by
    unfold rateScale
    split
    · exact Real.sqrt_nonneg _
    · norm_num
  have hn6 : ns e.dt e.srPcm ≤ 1000 := by cases e.dt <;> cases e.srPcm <;> decide
  have qp : (0 : ℝ) < ((ns e.dt e.srPcm : ℕ) : ℝ) := by exact_mod_cast hpos
  have qq : ((ns e.dt e.srPcm : ℕ) : ℝ) ≤ 1000 := by exact_mod_cast hn6
  have q10 : (10 : ℝ) ≤ ((ns e.dt e.sr : ℕ) : ℝ) := by exact_mod_cast hs10
  have qs : ((ns e.dt e.sr : ℕ) : ℝ) ≤ ((ns e.dt e.srPcm : ℕ) : ℝ) := by exact_mod_cast m1
  have hF1 : 1 ≤ F ∧ F ≤ 10 := by
    rw [hFr]
    unfold rateScale
    split
    · constructor
      · rw [Real.one_le_sqrt, one_le_div (by linarith)]; exact qs
      · rw [Real.sqrt_le_left (by norm_num), div_le_iff₀ (by linarith)]; linarith
    · norm_num
  have hq : 1 / 100 ≤ Real.sqrt (2 / ns e.dt e.srPcm) ∧ Real.sqrt (2 / ns e.dt e.srPcm) ≤ 1 := by
    constructor
    · refine Real.le_sqrt_of_sq_le ?_
      rw [le_div_iff₀ qp]; nlinarith
    · rw [Real.sqrt_le_left (by norm_num), one_pow, div_le_one qp]
      have : 2 ≤ ns e.dt e.srPcm := by omega
      exact_mod_cast this
  obtain ⟨tol, htol, hO⟩ := fftOk_field φ e.dt e.srPcm hcfg
  have lx0 : (v0.map Prod.snd).length = ns e.dt e.srPcm := by rw [List.length_map, s4]
  have lx1 : (v1.map Prod.snd).length = ns e.dt e.srPcm := by rw [List.length_map, t4, s1, s3]
  have lxd : e.xd.length = nd e.dt e.srPcm := hi.xd
  have lbuf : ((List.range maxNs).map fun _ => (0 : K)).length = maxNs := by simp
  have fw0 := a4 fun _ => 0
  have fw1 := b4 fun _ => 0
  rw [hA, mdctForward_with] at fw0 fw1
  rw [s1, s2, s3] at fw1
  obtain ⟨z1, z2⟩ := forward_delay (Arith.ofField K) 0 P.sqrt e.dt e.srPcm e.sr hcfg m1 _ _ _ _ _ _ _ (by rw [lbuf]; exact m3) lx0.ge lxd.ge lx0.ge fw0
  have f0 : FrameOf φ 0 (ns e.dt e.srPcm) (nd e.dt e.srPcm) 0 (twoFrames φ e.xd (v0.map Prod.snd) (v1.map Prod.snd)) e.xd (v0.map Prod.snd) := by
    constructor
    · intro k hk
      unfold twoFrames
      rw [Nat.zero_mul, Nat.zero_add, List.append_assoc, List.getD_append _ _ _ _ (by omega)]
    · intro k hk
      unfold twoFrames
      rw [Nat.zero_mul, Nat.zero_add, List.append_assoc, List.getD_append_right _ _ _ _ (by omega), List.getD_append _ _ _ _ (by omega), lxd,
        Nat.add_sub_cancel_left]
  have f1 : FrameOf φ 0 (ns e.dt e.srPcm) (nd e.dt e.srPcm) 1 (twoFrames φ e.xd (v0.map Prod.snd) (v1.map Prod.snd)) e1'.xd (v1.map Prod.snd) := by
    constructor
    · intro k hk
      unfold twoFrames
      rw [z2 k hk, List.append_assoc, List.getD_append_right _ _ _ _ (by omega), List.getD_append _ _ _ _ (by omega),
        show 1 * ns e.dt e.srPcm + k - e.xd.length = ns e.dt e.srPcm - nd e.dt e.srPcm + k by omega]
    · intro k hk
      unfold twoFrames
      rw [List.append_assoc, List.getD_append_right _ _ _ _ (by omega), List.getD_append_right _ _ _ _ (by omega),
        show 1 * ns e.dt e.srPcm + nd e.dt e.srPcm + k - e.xd.length - (v0.map Prod.snd).length = k by omega]
  generalize hsg : twoFrames φ e.xd (v0.map Prod.snd) (v1.map Prod.snd) = sg at hm0 hm1 f0 f1 ⊢
  have hM0 := frameMag_nonneg (ns e.dt e.srPcm) win sg 0
  have hM1 := frameMag_nonneg (ns e.dt e.srPcm) win sg 1
  obtain ⟨Y0, r0, u1, -, u3⟩ := forward_signal (Arith.ofField K) φ (approx_field φ) 0 P.sqrt e.dt e.srPcm e.sr hcfg m1 _ tol hO htol
    (fun hne => nearScale_field φ _ (hQ hne) _ _) win hwin sg 0 _ _ _ _ (by rw [lbuf]; exact m3) lx0.ge lxd.ge lx0.ge f0 (hm0.trans (by norm_num))
  rw [fw0] at u1
  have u1 := Option.some.inj u1
  rw [Prod.mk.injEq] at u1
  obtain ⟨rfl, rfl⟩ := u1
  obtain ⟨Y1, r1, w1, -, w3⟩ := forward_signal (Arith.ofField K) φ (approx_field φ) 0 P.sqrt e.dt e.srPcm e.sr hcfg m1 _ tol hO htol
    (fun hne => nearScale_field φ _ (hQ hne) _ _) win hwin sg 1 _ _ _ _ (by rw [lbuf]; exact m3) lx1.ge (by omega) lx1.ge f1 (hm1.trans (by norm_num))
  rw [fw1] at w1
  have w1 := Option.some.inj w1
  rw [Prod.mk.injEq] at w1
  obtain ⟨rfl, rfl⟩ := w1
  have hFE0 : FrameError P' e.dt e.sr e.srPcm side0 scf0 y0 G0 E0 D0 := by
    refine ⟨i8, i10, fun j hj => i13 j hj, fun j hj => i14 j hj, ?_⟩
    intro hf k hk
    obtain ⟨b, x1, x2, x3, x4, x5⟩ := i15 hf k hk
    refine ⟨b, x1, x2, x3, x4, ?_⟩
    rw [← x5, i11 k hk]
    ring
  have hFE1 : FrameError P' e.dt e.sr e.srPcm side1 scf1 y1 G1 E1 D1 := by
    refine ⟨j8, j10, fun j hj => j13 j hj, fun j hj => j14 j hj, ?_⟩
    intro hf k hk
    obtain ⟨b, x1, x2, x3, x4, x5⟩ := j15 hf k hk
    refine ⟨b, x1, x2, x3, x4, ?_⟩
    rw [← x5, j11 k hk]
    ring
  have hlt : xs1.length = ns e.dt e.srPcm := by
    obtain ⟨yy, dd', x1, x2, -⟩ := C49_inverse_safe (Arith.ofField K) P.sqrt e.dt e.srPcm e.sr hcfg (List.replicate maxNs ((Arith.ofField K).ofRat 0)) (some Xh1) ed
      (List.replicate (ns e.dt e.srPcm) ((Arith.ofField K).ofRat 0)) (by rw [List.length_replicate]; exact m3) (fun l hl => by injection hl with hl; rw [← hl, j9])
      (by rw [(win_length i4).1]) (by rw [List.length_replicate])
    rw [j3'] at x1
    have x1 := Option.some.inj x1
    rw [Prod.mk.injEq] at x1
    rw [x1.1, x2, List.length_replicate]
  refine ⟨_, _, _, xs1, E0, D0, E1, D1, i1, j1, hFE0, hFE1, hlt, ?_⟩
  intro hD0 hD1 k hk
  obtain ⟨A0, B0⟩ := coded_sums (ns e.dt e.srPcm) (ne e.dt e.sr) hpos (by omega) win sg 0 (fun j => φ (X0.getD j 0)) (fun j => φ (D0.getD j 0)) (fun j => φ (Xh0.getD j 0)) F _
    (65 / 10 ^ 7) (by linarith [hF1.1]) hc0r hFc (by norm_num) (fun j hj => u3 j (by omega))
    (fun j hj => by rw [i11 j hj, map_add]) (fun j hj => by rw [i12 j hj, map_zero])
  obtain ⟨A1, B1⟩ := coded_sums (ns e.dt e.srPcm) (ne e.dt e.sr) hpos (by omega) win sg 1 (fun j => φ (X1.getD j 0)) (fun j => φ (D1.getD j 0)) (fun j => φ (Xh1.getD j 0)) F _
    (65 / 10 ^ 7) (by linarith [hF1.1]) hc0r hFc (by norm_num) (fun j hj => w3 j (by omega))
    (fun j hj => by rw [j11 j hj, map_add]) (fun j hj => by rw [j12 j hj, map_zero])
  have big : ∀ (D S m : ℝ), 0 ≤ S → 0 ≤ D → D ≤ 2 ^ 70 → m ≤ 2 ^ 70 →
      F * (Real.sqrt (2 / ns e.dt e.srPcm) * S) ≤ F * (Real.sqrt (2 / ns e.dt e.srPcm) * D) + 2 * (1 + 65 / 10 ^ 7) * (m + 1 / 2 ^ 80) → S ≤ 2 ^ 90 := by
    intro D S m hS hD0 hD hm hle
    have c1 : 1 / 100 * S ≤ Real.sqrt (2 / ns e.dt e.srPcm) * S := mul_le_mul_of_nonneg_right hq.1 hS
    have c2 : 1 * (1 / 100 * S) ≤ F * (Real.sqrt (2 / ns e.dt e.srPcm) * S) := mul_le_mul hF1.1 c1 (by positivity) (by linarith [hF1.1])
    have c3 : Real.sqrt (2 / ns e.dt e.srPcm) * D ≤ 1 * D := mul_le_mul_of_nonneg_right hq.2 hD0
    have c4 : F * (Real.sqrt (2 / ns e.dt e.srPcm) * D) ≤ 10 * (1 * D) := mul_le_mul hF1.2 c3 (mul_nonneg (Real.sqrt_nonneg _) hD0) (by norm_num)
    have c5 : (1 : ℝ) / 2 ^ 80 ≤ 1 := by norm_num
    have c6 : (2 : ℝ) ^ 90 = 2 ^ 20 * 2 ^ 70 := by norm_num
    have c7 : (1 : ℝ) ≤ 2 ^ 70 := by norm_num
    have c8 : (2000 : ℝ) ≤ 2 ^ 20 := by norm_num
    rw [c6]
    generalize (2 : ℝ) ^ 70 = p at hD hm c7 ⊢
    have c9 : 2000 * p ≤ 2 ^ 20 * p := mul_le_mul_of_nonneg_right c8 (by linarith)
    generalize (1 : ℝ) / 2 ^ 80 = q at hle c5
    linarith
  have hS0 := big _ _ _ (Finset.sum_nonneg fun _ _ => abs_nonneg _) (Finset.sum_nonneg fun _ _ => abs_nonneg _) hD0 hm0 B0
  have hS1 := big _ _ _ (Finset.sum_nonneg fun _ _ => abs_nonneg _) (Finset.sum_nonneg fun _ _ => abs_nonneg _) hD1 hm1 B1
  obtain ⟨o0, ea, o1, eb, x1, x2, -, x4⟩ := overlap_signal (Arith.ofField K) φ (approx_field φ) 0 P.sqrt e.dt e.srPcm e.sr hcfg m1 _ tol hO htol
    (fun hne => nearScale_field φ _ (hQ hne) _ _) win hwin sg (List.replicate maxNs ((Arith.ofField K).ofRat 0)) (List.replicate maxNs ((Arith.ofField K).ofRat 0)) (some Xh0) (some Xh1)
    (List.replicate (nd e.dt e.srPcm) 0) (List.replicate (ns e.dt e.srPcm) ((Arith.ofField K).ofRat 0)) (List.replicate (ns e.dt e.srPcm) ((Arith.ofField K).ofRat 0))
    (by rw [List.length_replicate]; exact m3) (by rw [List.length_replicate]; exact m3) (fun l hl => by injection hl with hl; rw [← hl, i9])
    (fun l hl => by injection hl with hl; rw [← hl, j9]) (by rw [List.length_replicate]) (by rw [List.length_replicate]) (by rw [List.length_replicate])
    hS0 hS1 (by
      intro k hk
      rw [List.getD_eq_getElem _ _ (by rw [List.length_replicate]; exact hk), List.getElem_replicate, map_zero, abs_zero]
      positivity) F _ hFr hFc
  have hea : ed = ea := by
    refine invTransform_delay P' e.dt e.sr e.srPcm hcfg m3 Xh0 xd (List.replicate (nd e.dt e.srPcm) 0) _ ed o0 ea i9 (win_length i2).1 (List.length_replicate ..) i3 ?_
    unfold invTransform
    rw [hP'A, p3, mdctInverse_with]
    exact x1
  subst hea
  rw [mdctInverse_with, x2] at j3'
  have j3' := Option.some.inj j3'
  rw [Prod.mk.injEq] at j3'
  obtain ⟨rfl, rfl⟩ := j3'
  have hsg' : sg (2 * ns e.dt e.srPcm - nd e.dt e.srPcm + k) =
      φ ((v0.map Prod.snd ++ v1.map Prod.snd).getD (ns e.dt e.srPcm + k - (2 * nd e.dt e.srPcm - ns e.dt e.srPcm)) 0) := by
    rw [← hsg]
    unfold twoFrames
    rw [List.append_assoc, List.getD_append_right _ _ _ _ (by omega),
      show 2 * ns e.dt e.srPcm - nd e.dt e.srPcm + k - e.xd.length = ns e.dt e.srPcm + k - (2 * nd e.dt e.srPcm - ns e.dt e.srPcm) by omega]
  have y := x4 k hk
  rw [hsg'] at y
  have hsplit : ∀ (f g : ℕ → ℝ) (S : Finset ℕ), ∑ j ∈ S, (f j + g j) = ∑ j ∈ S, f j + ∑ j ∈ S, g j := fun f g S => Finset.sum_add_distrib
  rw [hsplit, hsplit]
  refine y.trans ?_
  simp only [Option.getD_some]
  have t1 : F * (Real.sqrt (2 / ns e.dt e.srPcm) * (1 / 2 ^ 79)) ≤ 10 * (1 * (1 / 2 ^ 79)) :=
    mul_le_mul hF1.2 (mul_le_mul_of_nonneg_right hq.2 (by positivity)) (mul_nonneg (Real.sqrt_nonneg _) (by positivity)) (by norm_num)
  have n1 : (1 : ℝ) / 2 ^ 79 = 2 * (1 / 2 ^ 80) := by norm_num
  have n2 : (1 : ℝ) / 2 ^ 77 = 8 * (1 / 2 ^ 80) := by norm_num
  have n3 : (0 : ℝ) ≤ 1 / 2 ^ 80 := by positivity
  rw [n1] at t1 ⊢
  rw [n2]
  simp only [mul_add] at *
  linarith

end Field

/-- C84 over the real numbers, with the functions of the codec. -/
theorem C84_real {α β : Type} (P : EncPlatform ℝ) (hA : P.A = Arith.real) (hM : P.M = SnsMath.real) (hQ : P.sqrt = Real.sqrt) (hr : Bool)
    (dtUs srHz srPcmHz : Int) (ops : List (EncOp ℝ α)) (rets : List (Option (Int × List Nat))) (e : Enc ℝ)
    (h : EncPlayed P hr dtUs srHz srPcmHz ops rets e) (c0 c1 : EncCall ℝ α) (hc0 : c0.Ok (ns e.dt e.srPcm)) (hc1 : c1.Ok (ns e.dt e.srPcm))
    (out0 out1 : List Nat) (e1 e2 : Enc ℝ) (hd0 : lc3Encode P c0 (some e) = some (0, out0, some e1))
    (hd1 : lc3Encode P c1 (some e1) = some (0, out1, some e2))
    (N : ℕ) (hN : N = ns e.dt e.srPcm) (F : ℝ) (hF : F = if N = ns e.dt e.sr then 1 else Real.sqrt (N / ns e.dt e.sr)) (win : List ℝ)
    (hwin : (mdctTables Arith.real).win e.dt e.srPcm = some win) :
    ∃ (x0 x1 : List ℝ) (side0 side1 : SideData) (y0 y1 scf0 scf1 : List ℝ) (G0 G1 : ℝ),
      FrameMade P e c0 x0 e1 side0 y0 scf0 G0 ∧ FrameMade P e1 c1 x1 e2 side1 y1 scf1 G1 ∧
      (FrameClean P e.dt e.sr c0.nbytes.toNat side0 y0 → FrameClean P e.dt e.sr c1.nbytes.toNat side1 y1 →
        frameMag N win (fun k => (e.xd ++ x0 ++ x1).getD k 0) 0 ≤ 2 ^ 70 → frameMag N win (fun k => (e.xd ++ x0 ++ x1).getD k 0) 1 ≤ 2 ^ 70 →
        ∀ (P' : Platform ℝ) (dtUs' srHz' srPcmHz' : Int) (calls : List (DecCall ℝ β)) (rets' : List Int) (d : Dec ℝ) (mem : Int → β), P'.A = P.A →
          P'.M = P.M → P'.sqrt = P.sqrt → Played P' hr dtUs' srHz' srPcmHz' calls rets' d mem → d.dt = e.dt → d.sr = e.sr → d.srPcm = e.srPcm →
          ∀ c0' c1' : DecCall ℝ β, Gives c0' (out0.take c0.nbytes.toNat) → Gives c1' (out1.take c1.nbytes.toNat) →
            ∃ (d1 d2 : Dec ℝ) (mem1 : Int → β) (xs E0 D0 E1 D1 : List ℝ), lc3Decode P' c0' (some d) mem = some (0, some d1, mem1) ∧
              lc3Decode P' c1' (some d1) mem1 = some (0, some d2, pcmStore c1'.stride c1'.base (xs.map c1'.conv) mem1) ∧
              FrameError P' e.dt e.sr e.srPcm side0 scf0 y0 G0 E0 D0 ∧ FrameError P' e.dt e.sr e.srPcm side1 scf1 y1 G1 E1 D1 ∧
              xs.length = N ∧
              (∑ j ∈ range (ne e.dt e.sr), |D0.getD j 0| ≤ 2 ^ 70 → ∑ j ∈ range (ne e.dt e.sr), |D1.getD j 0| ≤ 2 ^ 70 →
                ∀ k, k < N → |xs.getD k 0 - (x0 ++ x1).getD (N + k - (2 * nd e.dt e.srPcm - N)) 0| ≤
                  1 / 10 ^ 7 * |(x0 ++ x1).getD (N + k - (2 * nd e.dt e.srPcm - N)) 0| +
                  (2 + 15 / 10 ^ 6) * (F * (Real.sqrt (2 / N) * ∑ j ∈ range (ne e.dt e.sr), (|D0.getD j 0| + |D1.getD j 0|))) +
                  2 * (Real.sqrt (2 / N) * ∑ j ∈ Ico (ne e.dt e.sr) N, (|frameMdct N win (fun k => (e.xd ++ x0 ++ x1).getD k 0) 0 j| +
                    |frameMdct N win (fun k => (e.xd ++ x0 ++ x1).getD k 0) 1 j|)) +
                  57 / 10 ^ 6 * (frameMag N win (fun k => (e.xd ++ x0 ++ x1).getD k 0) 0 +
                    frameMag N win (fun k => (e.xd ++ x0 ++ x1).getD k 0) 1 + 1 / 2 ^ 77))) :=
  C84_samples (OrderRingHom.id ℝ) P (hA.trans ofField_real.symm) (by rw [hA]; exact candidatesOk_real) (by rw [hM]; exact exp2Ok_real) hr dtUs srHz srPcmHz
    ops rets e h c0 c1 hc0 hc1 out0 out1 e1 e2 hd0 hd1 (fun _ q => by rw [hQ]; rfl) N hN F hF win hwin

/-- The delay of C84 is the one that `lc3_delay_samples` returns. -/
theorem delay_link (hr : Bool) (dtUs srHz : Int) (dt : Dt) (sr : Srate) (h1 : resolveDt dtUs hr = some dt) (h2 : resolveSrate srHz hr = some sr) :
    hrDelaySamples hr dtUs srHz = 2 * (nd dt sr : Int) - ns dt sr ∧ ns dt sr ≤ 2 * nd dt sr := by
  obtain ⟨-, -, -, hn2, -⟩ := mdct_shape dt sr
  refine ⟨?_, hn2⟩
  unfold hrDelaySamples
  rw [h1, h2]

/-! ### Concrete cases -/

/-- Non vacuity of `C84_round_trip`: a square signal at 48 kHz, analysed with vector instructions and synthesised without, from zeros. -/
example : ∃ (sqrt : Rat → Rat) (d0 x0 x1 X0 d1 X1 d2 o0 e1 o1 e2 : List Rat) (s : ℕ → Rat), (∀ k, |s k| = 1000) ∧ d0 = (List.range (nd .m10 .k48)).map s ∧
    x0 = (List.range 480).map (fun k => s (nd .m10 .k48 + k)) ∧ x1 = (List.range 480).map (fun k => s (480 + nd .m10 .k48 + k)) ∧
    neonMdctForward (Neon.rounded fl) sqrt (mdctTables (Arith.rounded fl)) .m10 .k48 .k48 (List.replicate 480 0) x0 d0 (List.replicate 480 0) = some (X0, d1) ∧
    neonMdctForward (Neon.rounded fl) sqrt (mdctTables (Arith.rounded fl)) .m10 .k48 .k48 (List.replicate 480 0) x1 d1 (List.replicate 480 0) = some (X1, d2) ∧
    mdctInverse (Arith.rounded fl) sqrt (mdctTables (Arith.rounded fl)) .m10 .k48 .k48 (List.replicate 480 0) (some X0) (List.replicate (nd .m10 .k48) 0)
      (List.replicate 480 0) = some (o0, e1) ∧
    mdctInverse (Arith.rounded fl) sqrt (mdctTables (Arith.rounded fl)) .m10 .k48 .k48 (List.replicate 480 0) (some X1) e1 (List.replicate 480 0) = some (o1, e2) ∧
    ∀ k, k < 480 → |((o1.getD k 0 : Rat) : ℝ) - s (960 - nd .m10 .k48 + k)| ≤ 220 := by
  obtain ⟨sqrt, hs⟩ := sqrt_exists
  obtain ⟨_, _, _, win, _, _, _, _, _, hw, _, _, h2⟩ := tables_near (Arith.rounded fl) (fun q : Rat => (q : ℝ)) approx_fl 0 .m10 .k48 (by decide)
  have hns : ns .m10 .k48 = 480 := rfl
  have hl : ns .m10 .k48 ≤ (List.replicate 480 (0 : Rat)).length := by rw [List.length_replicate, hns]
  let s : ℕ → Rat := fun k => if k % 48 < 24 then 1000 else -1000
  have hs1 : ∀ k, |s k| = 1000 := by
    intro k
    change |if k % 48 < 24 then (1000 : Rat) else -1000| = 1000
    split <;> norm_num
  have hs2 : ∀ k, |((s k : Rat) : ℝ)| = 1000 := by
    intro k
    have := hs1 k
    exact_mod_cast this
  have hmag : ∀ i, frameMag 480 win (fun k => (s k : ℝ)) i ≤ 960 * 2000 := by
    intro i
    unfold frameMag
    refine (Finset.sum_le_card_nsmul _ _ (2 * 1000) fun l _ => ?_).trans ?_
    · rw [abs_mul, hs2]
      exact mul_le_mul_of_nonneg_right (h2 l) (by norm_num)
    · rw [Finset.card_range, nsmul_eq_mul]
      norm_num
  obtain ⟨X0, d1, X1, d2, o0, e1, o1, e2, a1, a2, a3, a4, -, a6⟩ := C84_round_trip _ _ sqrt hs .m10 .k48 .neon .generic (by decide) win hw s _ _ _ rfl rfl rfl
    (List.replicate 480 0) (List.replicate 480 0) (List.replicate 480 0) (List.replicate 480 0) (List.replicate 480 0) (List.replicate 480 0)
    (List.replicate 480 0) (List.replicate 480 0) (List.replicate (nd .m10 .k48) 0) hl hl hl hl hl
    hl hl hl (by simp) (by
      intro k hk
      rw [List.getD_replicate _ hk, Rat.cast_zero, abs_zero]
      positivity) ((hmag 0).trans (by norm_num)) ((hmag 1).trans (by norm_num))
  refine ⟨sqrt, _, _, _, X0, d1, X1, d2, o0, e1, o1, e2, s, hs1, rfl, rfl, rfl, a1, a2, a3, a4, fun k hk => ?_⟩
  have := a6 k hk
  rw [hns, hs2] at this
  refine this.trans ?_
  have := hmag 0
  have := hmag 1
  have : (1 : ℝ) / 2 ^ 78 ≤ 1 := by norm_num
  linarith

/-- The call of the example of C78. -/
def exTdCall : EncCall Rat Int := exEncCall 20 (List.replicate 22 7) ⟨⟨true, 7⟩, fun _ => 3⟩

/-- What is checked of a frame: it can be decoded as it was quantised, and its scales are moderate. -/
def exTdFrame (e : Enc Rat) (r : SideData × Enc Rat) : Bool :=
  decide (Fits exFidPlat.A e.dt e.sr 20 r.1 (r.2.xs.take (ne e.dt e.sr))) && decide (2 ≤ r.1.spec.nq ∧ r.1.pitchPresent = false ∧ r.1.tns.filters = [[]]) &&
    (r.2.xs.take (ne e.dt e.sr)).all (fun y => decide (|y| ≤ 2 ^ 15)) &&
    (unquantizeGain exFidPlat.A ((r.1.spec.gIdx : Int) - gainOffset e.sr 20)).all (fun G => decide (G ≤ 2 ^ 20)) &&
    (snsDecodeScf exFidPlat.A exFidPlat.M r.1.sns).all fun scf => (bandGains exFidPlat.A exFidPlat.M e.dt e.sr scf true).all fun g => decide (g ≤ 2 ^ 20)

set_option maxRecDepth 100000 in
/-- Two frames at 8 kHz. -/
theorem exTd_frames : (((encSetup exFidPlat.A false 2500 8000 0 true).join).bind fun e =>
    (lc3Encode exFidPlat exTdCall (some e)).bind fun r0 => r0.2.2.bind fun e1 => (lc3Encode exFidPlat exTdCall (some e1)).bind fun r1 => r1.2.2.bind fun _ =>
    (exTdCall.samples (ns e.dt e.srPcm)).bind fun v => (encAnalyze exFidPlat exTdCall.junk 20 (encLoad v e)).bind fun a =>
    (encAnalyze exFidPlat exTdCall.junk 20 (encLoad v e1)).map fun b =>
      decide (r0.1 = 0 ∧ r1.1 = 0) && exTdFrame e a && exTdFrame e1 b && (e.xd ++ v.map Prod.snd ++ v.map Prod.snd).all (fun x => decide (|x| ≤ 2 ^ 8))) =
    some true := by
  decide +kernel

theorem frameMag_bound (win : List ℝ) (hw : ∀ k, |win.getD k 0| ≤ 2) (s : ℕ → ℝ) (hs : ∀ k, |s k| ≤ 2 ^ 8) (i : ℕ) : frameMag 20 win s i ≤ 20480 := by
  unfold frameMag
  refine (Finset.sum_le_card_nsmul _ _ (2 * 2 ^ 8) fun l _ => ?_).trans ?_
  · rw [abs_mul]
    exact mul_le_mul (hw l) (hs _) (abs_nonneg _) (by norm_num)
  · rw [Finset.card_range, nsmul_eq_mul]
    norm_num

/-- The error of a frame of the example. -/
theorem exTd_error (P' : Platform Rat) (hPA : P'.A = exFidPlat.A) (hPM : P'.M = exFidPlat.M) (e e1 : Enc Rat) (hne : ne e.dt e.sr = 20) (side : SideData)
    (h : exTdFrame e (side, e1) = true) (v : List (Int × Rat)) (y scf : List Rat) (G : Rat) (hG : unquantizeGain exFidPlat.A ((side.spec.gIdx : Int) - gainOffset e.sr 20) = some G)
    (hG0 : 0 < G) (hscf : snsDecodeScf exFidPlat.A exFidPlat.M side.sns = some scf) (hy : e1.xs.take (ne e.dt e.sr) = y) (E D : List Rat)
    (hE : FrameError P' e.dt e.sr e.srPcm side scf y G E D) : ∑ j ∈ range (ne e.dt e.sr), |((D.getD j 0 : Rat) : ℝ)| ≤ 2 ^ 70 := by
  unfold exTdFrame at h
  rw [hy, hG, hscf] at h
  simp only [Bool.and_eq_true, decide_eq_true_eq, List.all_eq_true, Option.all_some] at h
  obtain ⟨⟨⟨⟨-, -, -, h1⟩, h2⟩, h3⟩, h4⟩ := h
  have key : ∀ j, j < ne e.dt e.sr → |D.getD j 0| ≤ 2 ^ 58 := by
    intro j hj
    obtain ⟨b, -, -, -, b1, b2⟩ := hE.bands (by rw [h1]; simp) j hj
    have hg : (bandGains P'.A P'.M e.dt e.sr scf true).getD b 0 ≤ 2 ^ 20 := by
      rw [hPA, hPM]
      by_cases hb : b < (bandGains exFidPlat.A exFidPlat.M e.dt e.sr scf true).length
      · exact h4 _ (by rw [List.getD_eq_getElem _ _ hb]; exact List.getElem_mem _)
      · rw [List.getD_eq_default _ _ (by omega)]; norm_num
    have hyj : |y.getD j 0| ≤ 2 ^ 15 := by
      by_cases hb : j < y.length
      · exact h2 _ (by rw [List.getD_eq_getElem _ _ hb]; exact List.getElem_mem _)
      · rw [List.getD_eq_default _ _ (by omega)]; norm_num
    have hEj := hE.bound j hj
    have hif : (if j < side.spec.nq then (if side.spec.lsbMode then (17 : Rat)/8 else 9/8) else 1/2 + |y.getD j 0|) + |y.getD j 0| * 2 / 10 ^ 7 ≤ 2 ^ 16 := by
      have := abs_nonneg (y.getD j 0)
      split
      · split <;> linarith
      · linarith
    have hE2 : |E.getD j 0| ≤ 2 ^ 20 * 2 ^ 16 := by
      refine hEj.trans ?_
      refine (mul_le_mul_of_nonneg_left hif hG0.le).trans (mul_le_mul_of_nonneg_right h3 (by norm_num))
    rw [b2, abs_mul, abs_of_pos b1]
    refine (mul_le_mul hg hE2 (abs_nonneg _) (by norm_num)).trans (by norm_num)
  refine (Finset.sum_le_card_nsmul _ _ (2 ^ 58) fun j hj => ?_).trans ?_
  · have := key j (Finset.mem_range.mp hj)
    have h5 : ((|D.getD j 0| : Rat) : ℝ) ≤ ((2 ^ 58 : Rat) : ℝ) := by exact_mod_cast this
    rw [Rat.cast_abs] at h5
    refine h5.trans (le_of_eq (by norm_num))
  · rw [Finset.card_range, nsmul_eq_mul, hne]
    norm_num

/-- Non vacuity: two frames at 8 kHz and 2.5 ms. Any decoder of this configuration, whatever it received before, outputs with the second one the
samples given to the encoder, delayed, within the bound. -/
example (P' : Platform Rat) (hPA : P'.A = exFidPlat.A) (hPM : P'.M = exFidPlat.M) (hPQ : P'.sqrt = exFidPlat.sqrt) (calls : List (DecCall Rat Int))
    (rets : List Int) (d : Dec Rat) (mem : Int → Int) (hp : Played P' false 2500 8000 0 calls rets d mem) :
    ∃ (e e1 e2 : Enc Rat) (out0 out1 : List Nat) (x : List Rat), encSetup exFidPlat.A false 2500 8000 0 true = some (some e) ∧
      lc3Encode exFidPlat exTdCall (some e) = some (0, out0, some e1) ∧ lc3Encode exFidPlat exTdCall (some e1) = some (0, out1, some e2) ∧
      (exTdCall.samples 20).map (fun v => v.map Prod.snd) = some x ∧
      ∀ c0' c1' : DecCall Rat Int, Gives c0' (out0.take 20) → Gives c1' (out1.take 20) →
        ∃ (d1 d2 : Dec Rat) (mem1 : Int → Int) (xs E0 D0 E1 D1 : List Rat) (side0 side1 : SideData) (y0 y1 scf0 scf1 : List Rat) (G0 G1 : Rat),
          lc3Decode P' c0' (some d) mem = some (0, some d1, mem1) ∧
          lc3Decode P' c1' (some d1) mem1 = some (0, some d2, pcmStore c1'.stride c1'.base (xs.map c1'.conv) mem1) ∧
          FrameError P' e.dt e.sr e.srPcm side0 scf0 y0 G0 E0 D0 ∧ FrameError P' e.dt e.sr e.srPcm side1 scf1 y1 G1 E1 D1 ∧
          ∀ k, k < 20 → |((xs.getD k 0 : Rat) : ℝ) - ((x ++ x).getD (20 + k - (2 * nd .m2_5 .k8 - 20)) 0 : Rat)| ≤
            1 / 10 ^ 7 * |(((x ++ x).getD (20 + k - (2 * nd .m2_5 .k8 - 20)) 0 : Rat) : ℝ)| +
              (2 + 15 / 10 ^ 6) * (Real.sqrt (1 / 10) * ∑ j ∈ range 20, (|((D0.getD j 0 : Rat) : ℝ)| + |((D1.getD j 0 : Rat) : ℝ)|)) + 24 / 10 := by
  obtain ⟨e, h0⟩ : ∃ e, encSetup exFidPlat.A false 2500 8000 0 true = some (some e) := ⟨_, rfl⟩
  have hf := exTd_frames
  rw [h0, Option.join_some, Option.bind_some] at hf
  obtain ⟨⟨r0, out0, e1o⟩, g1, hf⟩ := Option.bind_eq_some_iff.1 hf
  obtain ⟨e1, g2, hf⟩ := Option.bind_eq_some_iff.1 hf
  obtain ⟨⟨r1, out1, e2o⟩, g3, hf⟩ := Option.bind_eq_some_iff.1 hf
  obtain ⟨e2, g4, hf⟩ := Option.bind_eq_some_iff.1 hf
  obtain ⟨v, hv, hf⟩ := Option.bind_eq_some_iff.1 hf
  obtain ⟨a, ha, hf⟩ := Option.bind_eq_some_iff.1 hf
  obtain ⟨b, hb, hf⟩ := Option.map_eq_some_iff.1 hf
  dsimp only at g2 g4 hf
  subst g2
  subst g4
  simp only [Bool.and_eq_true, decide_eq_true_eq] at hf
  obtain ⟨⟨⟨⟨rfl, rfl⟩, f1⟩, f2⟩, f3⟩ := hf
  have hpl : EncPlayed exFidPlat false 2500 8000 0 ([] : List (EncOp Rat Int)) [] e := ⟨fun c hc => (by cases hc), e, h0, rfl⟩
  obtain ⟨hinv, rE1, rE2, rE3, -⟩ := hpl.inv (show CandidatesOk exFidPlat.A from exEncCandidates)
  obtain ⟨-, rD1, rD2, rD3, -⟩ := hp.inv
  have hdt := Option.some.inj (rD1.symm.trans rE1)
  have hsr := Option.some.inj (rD2.symm.trans rE2)
  have hsp := Option.some.inj (rD3.symm.trans rE3)
  have edt : e.dt = .m2_5 := (Option.some.inj rE1).symm
  have esr : e.sr = .k8 := (Option.some.inj rE2).symm
  have esp : e.srPcm = .k8 := (Option.some.inj rE3).symm
  have hns : ns e.dt e.srPcm = 20 := by rw [edt, esp]; rfl
  have hns2 : ns e.dt e.sr = 20 := by rw [edt, esr]; rfl
  have hne : ne e.dt e.sr = 20 := by rw [edt, esr]; rfl
  obtain ⟨_, _, _, win, _, _, _, _, _, hw, _, _, hw2⟩ := tables_near (Arith.rounded fl) (fun q : Rat => (q : ℝ)) approx_fl 0 e.dt e.srPcm hinv.cfgPcm
  let φ : Rat →+*o ℝ := ⟨Rat.castHom ℝ, fun a b hab => (Rat.cast_le (K := ℝ)).2 hab⟩
  obtain ⟨x0, x1, side0, side1, y0, y1, scf0, scf1, G0, G1, m0, m1, key⟩ := C84_samples (β := Int) φ exFidPlat ofField_exact.symm exEncCandidates exFid_exp2
    false 2500 8000 0 [] [] e hpl exTdCall exTdCall (exEncCall_ok _ _ _ _ (by decide)) (exEncCall_ok _ _ _ _ (by decide)) out0 out1 e1 e2 g1 g3
    (fun hne => absurd (hns.trans hns2.symm) hne) _ rfl _ rfl win hw
  obtain ⟨v0, k1, k2, k3⟩ := m0.made
  obtain ⟨v1, l1, l2, l3⟩ := m1.made
  obtain ⟨hE1, s1, s2, s3, -⟩ := encode_state exFidPlat exEncCandidates false 2500 8000 0 [] [] e hpl exTdCall (exEncCall_ok _ _ _ _ (by decide)) out0 e1 g1 v0 k1
    side0 e1 k3
  rw [hv] at k1
  obtain rfl := Option.some.inj k1
  rw [s1, s3, hv] at l1
  obtain rfl := Option.some.inj l1
  have k3' : encAnalyze exFidPlat exTdCall.junk 20 (encLoad v e) = some (side0, e1) := k3
  have l3' : encAnalyze exFidPlat exTdCall.junk 20 (encLoad v e1) = some (side1, e2) := l3
  rw [ha] at k3'
  rw [hb] at l3'
  obtain rfl := Option.some.inj k3'
  obtain rfl := Option.some.inj l3'
  subst k2
  subst l2
  have clean : ∀ (e : Enc Rat) (side : SideData) (e1 : Enc Rat) (y : List Rat), exTdFrame e (side, e1) = true → e1.xs.take (ne e.dt e.sr) = y →
      FrameClean exFidPlat e.dt e.sr exTdCall.nbytes.toNat side y := by
    intro e side e1 y h hy
    unfold exTdFrame at h
    rw [hy] at h
    simp only [Bool.and_eq_true, decide_eq_true_eq] at h
    obtain ⟨⟨⟨⟨z1, z2, z3, -⟩, -⟩, -⟩, -⟩ := h
    exact ⟨z1, z2, fun _ hc => by rw [z3] at hc; cases hc⟩
  have hsmall : ∀ k, |twoFrames φ e.xd (v.map Prod.snd) (v.map Prod.snd) k| ≤ 2 ^ 8 := by
    intro k
    unfold twoFrames
    rw [List.all_eq_true] at f3
    have : |(e.xd ++ v.map Prod.snd ++ v.map Prod.snd).getD k 0| ≤ 2 ^ 8 := by
      by_cases hk : k < (e.xd ++ v.map Prod.snd ++ v.map Prod.snd).length
      · have := f3 _ (List.getElem_mem hk)
        rw [List.getD_eq_getElem _ _ hk]
        exact of_decide_eq_true this
      · rw [List.getD_eq_default _ _ (by omega)]; norm_num
    change |(((e.xd ++ v.map Prod.snd ++ v.map Prod.snd).getD k 0 : Rat) : ℝ)| ≤ 2 ^ 8
    exact_mod_cast this
  have c1 := clean _ _ _ _ f2 m1.coeffs
  rw [s1, s2] at c1
  have key := key (clean _ _ _ _ f1 m0.coeffs) c1 (by rw [hns]; exact (frameMag_bound win hw2 _ hsmall 0).trans (by norm_num))
    (by rw [hns]; exact (frameMag_bound win hw2 _ hsmall 1).trans (by norm_num)) P' 2500 8000 0 calls rets d mem hPA hPM hPQ hp hdt hsr hsp
  refine ⟨e, e1, e2, out0, out1, v.map Prod.snd, h0, g1, g3, by rw [← hns, hv]; rfl, ?_⟩
  · intro c0' c1' q0 q1
    obtain ⟨d1, d2, mem1, xs, E0, D0, E1, D1, t1, t2, t3, t4, -, t6⟩ := key c0' c1' q0 q1
    refine ⟨d1, d2, mem1, xs, E0, D0, E1, D1, side0, side1, y0, y1, scf0, scf1, G0, G1, t1, t2, t3, t4, ?_⟩
    have hD0 := exTd_error P' hPA hPM e e1 hne side0 f1 v y0 scf0 G0 m0.gain m0.pos m0.scale m0.coeffs E0 D0 t3
    have hD1 := exTd_error P' hPA hPM e1 e2 (by rw [s1, s2]; exact hne) side1 f2 v y1 scf1 G1 m1.gain m1.pos m1.scale m1.coeffs E1 D1 (by rw [s1, s2, s3]; exact t4)
    rw [s1, s2] at hD1
    have t7 := t6 hD0 hD1
    rw [hns, hns2, hne, if_pos rfl, one_mul, show nd e.dt e.srPcm = nd .m2_5 .k8 by rw [edt, esp]] at t7
    intro k hk
    have := t7 k hk
    rw [show (2 : ℝ) / (20 : ℕ) = 1 / 10 by norm_num, Finset.Ico_self, Finset.sum_empty, mul_zero, mul_zero, add_zero] at this
    refine this.trans ?_
    have b0 := frameMag_bound win hw2 _ hsmall 0
    have b1 := frameMag_bound win hw2 _ hsmall 1
    have b2 : (1 : ℝ) / 2 ^ 77 ≤ 1 := by norm_num
    refine add_le_add (le_refl _) ?_
    linarith

end LC3
