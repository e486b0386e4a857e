import Verif.Lemmas.Recon
import Verif.Lemmas.ImdctErr

/-!
The overlap of two frames: with the exact transforms, the windowed inverse transforms of the spectra of two successive frames sum to the samples; and the
same when the spectra are altered, with an error given by the alterations.
-/

namespace LC3

open Finset

theorem imdct_mdct_low (n nd : ℕ) (win x d : List ℝ) (h4 : n % 4 = 0) (hn0 : 0 < n) (hd : nd ≤ n) (hn : n ≤ 2 * nd) (hw : win.length = n + nd)
    (hx : n ≤ x.length) (l : ℕ) (hl : l < n) :
    imdct n (mdct n (windowed nd win d x)) l = windowed nd win d x l - windowed nd win d x (n - 1 - l) := by
  have e : mdct n (windowed nd win d x) = dct4 n (unfold4 n (winOut 0 Arith.real n nd win x d)) := by
    funext k; rw [dct4_unfold4 n nd win x d h4 hn0 hd hn hw hx k]
  rw [imdct_low n _ h4, e]
  by_cases c : l < n / 2
  · rw [dct4_invol n _ _ (by omega), unfold4_high n nd win x d h4 hd hn _ (by omega) (by omega),
      show l + n / 2 - n / 2 = l by omega, show n + n / 2 - 1 - (l + n / 2) = n - 1 - l by omega]
  · rw [dct4_fold_mid n _ hn0 _ (by omega), dct4_invol n _ _ (by omega), unfold4_high n nd win x d h4 hd hn _ (by omega) (by omega),
      show 2 * n - 1 - (l + n / 2) - n / 2 = n - 1 - l by omega, show n + n / 2 - 1 - (2 * n - 1 - (l + n / 2)) = l by omega]
    ring

theorem imdct_mdct_high (n nd : ℕ) (win x d : List ℝ) (h4 : n % 4 = 0) (hn0 : 0 < n) (hd : nd ≤ n) (hn : n ≤ 2 * nd) (hw : win.length = n + nd)
    (hx : n ≤ x.length) (l : ℕ) (hl : l < n) :
    imdct n (mdct n (windowed nd win d x)) (n + l) = windowed nd win d x (n + l) + windowed nd win d x (2 * n - 1 - l) := by
  have e : mdct n (windowed nd win d x) = dct4 n (unfold4 n (winOut 0 Arith.real n nd win x d)) := by
    funext k; rw [dct4_unfold4 n nd win x d h4 hn0 hd hn hw hx k]
  rw [imdct_low n _ h4, e]
  by_cases c : l < n / 2
  · rw [dct4_fold_mid n _ hn0 _ (by omega), dct4_invol n _ _ (by omega), unfold4_low n nd win x d h4 hd hn hw hx _ (by omega),
      show n + n / 2 - 1 - (2 * n - 1 - (n + l + n / 2)) = n + l by omega, show n + n / 2 + (2 * n - 1 - (n + l + n / 2)) = 2 * n - 1 - l by omega]
    ring
  · rw [show n + l + n / 2 = 2 * n + (l - n / 2) by omega, dct4_fold_high n _ hn0, dct4_invol n _ _ (by omega),
      unfold4_low n nd win x d h4 hd hn hw hx _ (by omega),
      show n + n / 2 - 1 - (l - n / 2) = 2 * n - 1 - l by omega, show n + n / 2 + (l - n / 2) = n + l by omega]
    ring

/-- The samples of a frame, from the spectra of this frame (`d1`, `x1`) and of the previous one (`d0`, `x0`). -/
theorem tdac (n nd : ℕ) (win x0 d0 x1 d1 : List ℝ) (h4 : n % 4 = 0) (hn0 : 0 < n) (hd : nd ≤ n) (hn : n ≤ 2 * nd) (hw : win.length = n + nd)
    (hx0 : n ≤ x0.length) (hx1 : n ≤ x1.length) (h1 : ∀ k, k < nd → d1.getD k 0 = span nd d0 x0 (n + k)) (k : ℕ) (hk : k < n) :
    (if k < nd then win.getD (nd - 1 - k) 0 * imdct n (mdct n (windowed nd win d0 x0)) (2 * n - nd + k) else 0) +
      win.getD (n + nd - 1 - k) 0 * imdct n (mdct n (windowed nd win d1 x1)) (n - nd + k) =
    span nd d1 x1 (n - nd + k) * winGain n win ((n - nd + k) % n) := by
  by_cases c : k < nd
  · rw [if_pos c, imdct_mdct_low n nd win x1 d1 h4 hn0 hd hn hw hx1 _ (by omega), show 2 * n - nd + k = n + (n - nd + k) by omega,
      imdct_mdct_high n nd win x0 d0 h4 hn0 hd hn hw hx0 _ (by omega), Nat.mod_eq_of_lt (by omega)]
    unfold winGain windowed
    have e1 : span nd d0 x0 (n + (n - nd + k)) * win.getD (n + (n - nd + k)) 0 = span nd d1 x1 (n - nd + k) * win.getD (n + (n - nd + k)) 0 := by
      by_cases c2 : n - nd + k < nd
      · rw [← h1 _ c2]
        conv_rhs => unfold span
        rw [if_pos c2]
      · rw [List.getD_eq_default win 0 (by omega), mul_zero, mul_zero]
    have e2 : span nd d0 x0 (2 * n - 1 - (n - nd + k)) = span nd d1 x1 (n - 1 - (n - nd + k)) := by
      rw [show 2 * n - 1 - (n - nd + k) = n + (nd - 1 - k) by omega, ← h1 _ (by omega), show n - 1 - (n - nd + k) = nd - 1 - k by omega]
      unfold span
      rw [if_pos (by omega)]
    rw [e1, e2, show 2 * n - 1 - (n - nd + k) = n + nd - 1 - k by omega, show n - 1 - (n - nd + k) = nd - 1 - k by omega]
    ring
  · rw [if_neg c, show n - nd + k = n + (k - nd) by omega, imdct_mdct_high n nd win x1 d1 h4 hn0 hd hn hw hx1 _ (by omega), Nat.add_mod_left,
      Nat.mod_eq_of_lt (by omega)]
    unfold winGain windowed
    rw [List.getD_eq_default win 0 (n := 2 * n - 1 - (k - nd)) (by omega), show n - 1 - (k - nd) = n + nd - 1 - k by omega]
    ring

theorem imdct_le (n : ℕ) (X : ℕ → ℝ) (h4 : n % 4 = 0) (l : ℕ) : |imdct n X l| ≤ Real.sqrt (2 / n) * ∑ j ∈ range n, |X j| := by
  rw [imdct_low n X h4]; exact dct4_le n X _

theorem imdct_sub (n : ℕ) (X Y : ℕ → ℝ) (l : ℕ) : imdct n X l - imdct n Y l = imdct n (fun j => X j - Y j) l := by
  unfold imdct
  rw [← mul_sub, ← Finset.sum_sub_distrib]
  congr 1
  exact Finset.sum_congr rfl fun k _ => by ring

theorem imdct_smul (n : ℕ) (c : ℝ) (X : ℕ → ℝ) (l : ℕ) : imdct n (fun j => c * X j) l = c * imdct n X l := by
  unfold imdct
  rw [mul_left_comm]
  congr 1
  rw [Finset.mul_sum]
  exact Finset.sum_congr rfl fun k _ => by ring

/-- The overlap of two spectra altered. `F` is the scale of the decoder, and `c` its inverse. -/
theorem tdac_near (n nd : ℕ) (win x0 d0 x1 d1 : List ℝ) (h4 : n % 4 = 0) (hn0 : 0 < n) (hd : nd ≤ n) (hn : n ≤ 2 * nd) (hw : win.length = n + nd)
    (hw2 : ∀ k, |win.getD k 0| ≤ 2) (ε : ℝ) (hR : Reconstructs ε n win)
    (hx0 : n ≤ x0.length) (hx1 : n ≤ x1.length) (h1 : ∀ k, k < nd → d1.getD k 0 = span nd d0 x0 (n + k)) (F c : ℝ) (hF : 0 ≤ F) (hc : F * c = 1)
    (X0 X1 : ℕ → ℝ) (k : ℕ) (hk : k < n) :
    |(if k < nd then win.getD (nd - 1 - k) 0 * (F * imdct n X0 (2 * n - nd + k)) else 0) +
      win.getD (n + nd - 1 - k) 0 * (F * imdct n X1 (n - nd + k)) - span nd d1 x1 (n - nd + k)| ≤
    ε * |span nd d1 x1 (n - nd + k)| + 2 * (F * (Real.sqrt (2 / n) * (∑ j ∈ range n, |X0 j - c * mdct n (windowed nd win d0 x0) j| +
      ∑ j ∈ range n, |X1 j - c * mdct n (windowed nd win d1 x1) j|))) := by
  have ht := tdac n nd win x0 d0 x1 d1 h4 hn0 hd hn hw hx0 hx1 h1 k hk
  have hg := hR _ (Nat.mod_lt (n - nd + k) hn0)
  have key : ∀ (X M : ℕ → ℝ) (w : ℝ) (l : ℕ), |w| ≤ 2 → |w * (F * imdct n X l) - w * imdct n M l| ≤
      2 * (F * (Real.sqrt (2 / n) * ∑ j ∈ range n, |X j - c * M j|)) := by
    intro X M w l hw
    have e : w * (F * imdct n X l) - w * imdct n M l = w * (F * imdct n (fun j => X j - c * M j) l) := by
      rw [← imdct_sub n X (fun j => c * M j), imdct_smul]
      linear_combination (w * imdct n M l) * hc
    rw [e, abs_mul, abs_mul, abs_of_nonneg hF]
    exact mul_le_mul hw (mul_le_mul_of_nonneg_left (imdct_le n _ h4 l) hF) (by positivity) (by norm_num)
  have k1 := key X1 (mdct n (windowed nd win d1 x1)) (win.getD (n + nd - 1 - k) 0) (n - nd + k) (hw2 _)
  have k0 := key X0 (mdct n (windowed nd win d0 x0)) (win.getD (nd - 1 - k) 0) (2 * n - nd + k) (hw2 _)
  have hS : 0 ≤ 2 * (F * (Real.sqrt (2 / n) * ∑ j ∈ range n, |X0 j - c * mdct n (windowed nd win d0 x0) j|)) := by
    have : 0 ≤ ∑ j ∈ range n, |X0 j - c * mdct n (windowed nd win d0 x0) j| := Finset.sum_nonneg fun _ _ => abs_nonneg _
    positivity
  have hgs : |span nd d1 x1 (n - nd + k) * winGain n win ((n - nd + k) % n) - span nd d1 x1 (n - nd + k)| ≤ ε * |span nd d1 x1 (n - nd + k)| := by
    rw [← mul_sub_one, abs_mul, mul_comm]
    exact mul_le_mul_of_nonneg_right hg (abs_nonneg _)
  rw [← ht] at hgs
  rw [mul_add (Real.sqrt _), mul_add F, mul_add 2]
  by_cases cc : k < nd
  · rw [if_pos cc] at hgs ⊢
    have := abs_le.mp k0; have := abs_le.mp k1; have := abs_le.mp hgs
    rw [abs_le]; constructor <;> linarith
  · rw [if_neg cc] at hgs ⊢
    have := abs_le.mp k1; have := abs_le.mp hgs
    rw [abs_le]; constructor <;> linarith

/-- The output of the inverse transforms of two successive spectra, in an approximate arithmetic, when these are near those of the frames (`d0`, `x0`) and
(`d1`, `x1`). -/
theorem overlap_err {R : Type} (A : Arith R) (v : R → ℝ) (hA : Approx A v) (z : R) (sqrt : R → R) (T : MdctTables R) (dt : Dt) (sr srSrc : Srate)
    (hsrc : ns dt srSrc ≤ ns dt sr) (Φ : ℕ → List R → List R → Option (Bool × List R × List R)) (tol : ℝ)
    (hO : FftOk v z (Φ (ns dt sr / 2)) (ns dt sr / 2) tol) (hab : tol ≤ 500 / 10 ^ 8)
    (hrot : NearRot v z (ns dt sr / 2) (T.rot dt sr)) (w : List R) (win : List ℝ) (hwt : T.win dt sr = some w) (hw : NearWin v z w win)
    (hw2 : ∀ k, |win.getD k 0| ≤ 2) (hwl : win.length = ns dt sr + nd dt sr)
    (hs : ns dt sr ≠ ns dt srSrc → NearScale A v sqrt (ns dt srSrc) (ns dt sr)) (ε : ℝ) (hR : Reconstructs ε (ns dt sr) win)
    (x0 d0 x1 d1 : List ℝ) (hx0 : ns dt sr ≤ x0.length) (hx1 : ns dt sr ≤ x1.length)
    (h1 : ∀ k, k < nd dt sr → d1.getD k 0 = span (nd dt sr) d0 x0 (ns dt sr + k))
    (b0 b1 : List R) (a0 a1 : Option (List R)) (e0 y0 y1 : List R) (hb0 : ns dt sr ≤ b0.length) (hb1 : ns dt sr ≤ b1.length)
    (ha0 : ∀ l, a0 = some l → ns dt sr ≤ l.length) (ha1 : ∀ l, a1 = some l → ns dt sr ≤ l.length)
    (he0 : nd dt sr ≤ e0.length) (hy0 : ns dt sr ≤ y0.length) (hy1 : ns dt sr ≤ y1.length)
    (hsum0 : ∑ k ∈ range (ns dt sr), |v ((a0.getD y0).getD k z)| ≤ 2 ^ 90) (hsum1 : ∑ k ∈ range (ns dt sr), |v ((a1.getD y1).getD k z)| ≤ 2 ^ 90)
    (he : ∀ k, k < nd dt sr → |v (e0.getD k z)| ≤ 2 ^ 100) (F c : ℝ)
    (hF : F = rateScale Real.sqrt (ns dt srSrc) (ns dt sr)) (hc : F * c = 1) :
    ∃ o0 e1 o1 e2, inverseWith A Φ sqrt T dt sr srSrc b0 a0 e0 y0 = some (o0, e1) ∧ inverseWith A Φ sqrt T dt sr srSrc b1 a1 e1 y1 = some (o1, e2) ∧
      o1.length = y1.length ∧
      ∀ k, k < ns dt sr → |v (o1.getD k z) - span (nd dt sr) d1 x1 (ns dt sr - nd dt sr + k)| ≤
        ε * |span (nd dt sr) d1 x1 (ns dt sr - nd dt sr + k)| +
        2 * (F * (Real.sqrt (2 / ns dt sr) *
          (∑ j ∈ range (ns dt sr), |v ((a0.getD y0).getD j z) - c * mdct (ns dt sr) (windowed (nd dt sr) win d0 x0) j| +
           ∑ j ∈ range (ns dt sr), |v ((a1.getD y1).getD j z) - c * mdct (ns dt sr) (windowed (nd dt sr) win d1 x1) j|))) +
        15 / 10 ^ 6 * (F * (Real.sqrt (2 / ns dt sr) * (∑ j ∈ range (ns dt sr), |v ((a0.getD y0).getD j z)| +
          ∑ j ∈ range (ns dt sr), |v ((a1.getD y1).getD j z)| + 1 / 2 ^ 79))) := by
  obtain ⟨h4, hpos, hnd, hn2, hev⟩ := mdct_shape dt sr
  have hn6 : ns dt sr ≤ 1000 := by cases dt <;> cases sr <;> decide
  have hs10 : 10 ≤ ns dt srSrc := by cases dt <;> cases srSrc <;> decide
  have q1 : ((ns dt sr : ℕ) : ℝ) ≤ 1000 := by exact_mod_cast hn6
  have q4 : (10 : ℝ) ≤ ((ns dt srSrc : ℕ) : ℝ) := by exact_mod_cast hs10
  have qp : (0 : ℝ) < ((ns dt sr : ℕ) : ℝ) := by exact_mod_cast hpos
  have qs : ((ns dt srSrc : ℕ) : ℝ) ≤ ((ns dt sr : ℕ) : ℝ) := by exact_mod_cast hsrc
  have hF1 : 1 ≤ F ∧ F ≤ 10 := by
    rw [hF]
    unfold rateScale
    split
    · constructor
      · rw [Real.one_le_sqrt, one_le_div (by linarith)]; exact qs
      · rw [Real.sqrt_le_left (by norm_num), div_le_iff₀ (by linarith)]; linarith
    · norm_num
  have hq : Real.sqrt (2 / ns dt sr) ≤ 1 ∧ 1 / 100 ≤ Real.sqrt (2 / ns dt sr) := by
    constructor
    · rw [Real.sqrt_le_left (by norm_num), one_pow, div_le_one qp]
      have : (2 : ℝ) ≤ ns dt sr := by
        have : 2 ≤ ns dt sr := by omega
        exact_mod_cast this
      exact this
    · refine Real.le_sqrt_of_sq_le ?_
      rw [le_div_iff₀ qp]; nlinarith
  obtain ⟨o0, e1, p1, p2, p3, p4, p5⟩ := inverse_err A v hA z sqrt T dt sr srSrc Φ tol hO hab hrot w win hwt hw hw2 hwl hs b0 a0 e0 y0 hb0 ha0 he0 hy0
    (fun k => v ((a0.getD y0).getD k z)) (fun _ _ => rfl) (hsum0.trans (by norm_num)) he F _ hF rfl
  have hS0 : 0 ≤ ∑ k ∈ range (ns dt sr), |v ((a0.getD y0).getD k z)| := Finset.sum_nonneg fun _ _ => abs_nonneg _
  have hS1 : 0 ≤ ∑ k ∈ range (ns dt sr), |v ((a1.getD y1).getD k z)| := Finset.sum_nonneg fun _ _ => abs_nonneg _
  have hq0 : 0 ≤ Real.sqrt (2 / ns dt sr) := Real.sqrt_nonneg _
  have i0 := fun l => imdct_le (ns dt sr) (fun k => v ((a0.getD y0).getD k z)) h4 l
  have htn := tdac_near (ns dt sr) (nd dt sr) win x0 d0 x1 d1 h4 hpos hnd hn2 hwl hw2 ε hR hx0 hx1 h1 F c (by linarith [hF1.1]) hc
    (fun k => v ((a0.getD y0).getD k z)) (fun k => v ((a1.getD y1).getD k z))
  have hB0 : 1 / 2 ^ 90 ≤ F * (Real.sqrt (2 / ns dt sr) * (∑ k ∈ range (ns dt sr), |v ((a0.getD y0).getD k z)| + 1 / 2 ^ 80)) ∧
      F * (Real.sqrt (2 / ns dt sr) * (∑ k ∈ range (ns dt sr), |v ((a0.getD y0).getD k z)| + 1 / 2 ^ 80)) ≤ 2 ^ 95 := by
    constructor
    · have : 1 / 100 * (1 / 2 ^ 80) ≤ Real.sqrt (2 / ns dt sr) * (∑ k ∈ range (ns dt sr), |v ((a0.getD y0).getD k z)| + 1 / 2 ^ 80) :=
        mul_le_mul hq.2 (by linarith) (by positivity) hq0
      have := mul_le_mul hF1.1 this (by positivity) (by linarith [hF1.1])
      refine le_trans ?_ this
      norm_num
    · have : Real.sqrt (2 / ns dt sr) * (∑ k ∈ range (ns dt sr), |v ((a0.getD y0).getD k z)| + 1 / 2 ^ 80) ≤ 1 * (2 ^ 90 + 1 / 2 ^ 80) :=
        mul_le_mul hq.1 (by linarith) (by positivity) (by norm_num)
      have := mul_le_mul hF1.2 this (by positivity) (by norm_num)
      refine this.trans ?_
      norm_num
  have hB1 : 0 ≤ F * (Real.sqrt (2 / ns dt sr) * (∑ k ∈ range (ns dt sr), |v ((a1.getD y1).getD k z)| + 1 / 2 ^ 80)) := by
    have : 0 ≤ F := by linarith [hF1.1]
    positivity
  have hI0 : ∀ l, |F * imdct (ns dt sr) (fun k => v ((a0.getD y0).getD k z)) l| ≤
      F * (Real.sqrt (2 / ns dt sr) * (∑ k ∈ range (ns dt sr), |v ((a0.getD y0).getD k z)| + 1 / 2 ^ 80)) := by
    intro l
    rw [abs_mul, abs_of_nonneg (by linarith [hF1.1])]
    refine mul_le_mul_of_nonneg_left ((i0 l).trans ?_) (by linarith [hF1.1])
    exact mul_le_mul_of_nonneg_left (by linarith [show (0 : ℝ) ≤ 1 / 2 ^ 80 by positivity]) hq0
  have hE : F * (Real.sqrt (2 / ns dt sr) * (∑ j ∈ range (ns dt sr), |v ((a0.getD y0).getD j z)| + ∑ j ∈ range (ns dt sr), |v ((a1.getD y1).getD j z)| +
      1 / 2 ^ 79)) = F * (Real.sqrt (2 / ns dt sr) * (∑ k ∈ range (ns dt sr), |v ((a0.getD y0).getD k z)| + 1 / 2 ^ 80)) +
      F * (Real.sqrt (2 / ns dt sr) * (∑ k ∈ range (ns dt sr), |v ((a1.getD y1).getD k z)| + 1 / 2 ^ 80)) := by ring
  rw [hE]
  generalize hBd0 : F * (Real.sqrt (2 / ns dt sr) * (∑ k ∈ range (ns dt sr), |v ((a0.getD y0).getD k z)| + 1 / 2 ^ 80)) = B0 at p4 p5 hB0 hI0 ⊢
  have hW : ∀ (k m : ℕ) (t : ℝ), |t| ≤ B0 → |win.getD k 0 * t| ≤ 2 * B0 := by
    intro k m t ht
    rw [abs_mul]
    exact mul_le_mul (hw2 k) ht (abs_nonneg _) (by norm_num)
  have hE1 : ∀ k, k < nd dt sr → |v (e1.getD k z) - win.getD (nd dt sr - 1 - k) 0 *
      (F * imdct (ns dt sr) (fun k => v ((a0.getD y0).getD k z)) (2 * ns dt sr - nd dt sr + k))| ≤ 14 / 10 ^ 6 * B0 + 1 / 2 ^ 140 ∧
      |v (e1.getD k z)| ≤ 21 / 10 * B0 := by
    intro k hk
    have g := p5 k hk
    have g1 : |win.getD (nd dt sr - 1 - k) 0| * B0 ≤ 2 * B0 := mul_le_mul_of_nonneg_right (hw2 _) (by linarith [hB0.1, show (0 : ℝ) ≤ 1 / 2 ^ 90 by positivity])
    have g2 := hW (nd dt sr - 1 - k) 0 _ (hI0 (2 * ns dt sr - nd dt sr + k))
    have g3 : |v (e1.getD k z) - win.getD (nd dt sr - 1 - k) 0 *
      (F * imdct (ns dt sr) (fun k => v ((a0.getD y0).getD k z)) (2 * ns dt sr - nd dt sr + k))| ≤ 14 / 10 ^ 6 * B0 + 1 / 2 ^ 140 := by linarith
    refine ⟨g3, ?_⟩
    have g4 := abs_add_le (v (e1.getD k z) - win.getD (nd dt sr - 1 - k) 0 *
      (F * imdct (ns dt sr) (fun k => v ((a0.getD y0).getD k z)) (2 * ns dt sr - nd dt sr + k))) (win.getD (nd dt sr - 1 - k) 0 *
      (F * imdct (ns dt sr) (fun k => v ((a0.getD y0).getD k z)) (2 * ns dt sr - nd dt sr + k)))
    rw [sub_add_cancel] at g4
    have : (1 : ℝ) / 2 ^ 140 ≤ 1 / 2 ^ 90 / 100 := by norm_num
    linarith [hB0.1]
  have hE2 : ∀ k, k < nd dt sr → |v (e1.getD k z)| ≤ 2 ^ 100 := fun k hk => (hE1 k hk).2.trans (by linarith [hB0.2])
  obtain ⟨o1, e2, r1, r2, r3, r4, r5⟩ := inverse_err A v hA z sqrt T dt sr srSrc Φ tol hO hab hrot w win hwt hw hw2 hwl hs b1 a1 e1 y1 hb1 ha1 (by omega) hy1
    (fun k => v ((a1.getD y1).getD k z)) (fun _ _ => rfl) (hsum1.trans (by norm_num)) hE2 F _ hF rfl
  refine ⟨o0, e1, o1, e2, p1, r1, r2, fun k hk => ?_⟩
  have t1 := r4 k hk
  have t2 := htn k hk
  generalize F * (Real.sqrt (2 / ns dt sr) * (∑ k ∈ range (ns dt sr), |v ((a1.getD y1).getD k z)| + 1 / 2 ^ 80)) = B1 at t1 hB1 ⊢
  have t3 : |win.getD (ns dt sr + nd dt sr - 1 - k) 0| * B1 ≤ 2 * B1 := mul_le_mul_of_nonneg_right (hw2 _) hB1
  have c1 : (1 : ℝ) / 2 ^ 140 ≤ 1 / 2 ^ 90 / 10 ^ 9 := by norm_num
  by_cases cc : k < nd dt sr
  · rw [if_pos cc] at t1 t2
    obtain ⟨u1, u2⟩ := hE1 k cc
    have := abs_le.mp t1; have := abs_le.mp t2; have := abs_le.mp u1
    rw [abs_le]
    constructor <;> linarith [hB0.1]
  · rw [if_neg cc] at t1 t2
    rw [abs_zero] at t1
    have := abs_le.mp t1; have := abs_le.mp t2
    rw [abs_le]
    constructor <;> linarith [hB0.1]

end LC3
