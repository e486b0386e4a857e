import Verif.Lemmas.MdctErr

/-! Rounding errors of the synthesis transform of `src/mdct.c`. -/

namespace LC3

open Complex Finset

variable {R : Type}

theorem ipre_round (A : Arith R) (v : R → ℝ) (hA : Approx A v) (z : R) (m : ℕ) (w y : List R) (p : ℕ) (b0 b1 κ : ℝ)
    (h0 : |v (y.getD (2 * p) z)| ≤ b0) (h1 : |v (y.getD (2 * m - 1 - 2 * p) z)| ≤ b1) (hw : ‖vc v (cAt z w p)‖ ≤ κ) (hκ : κ ≤ 2)
    (f0 : 1 / 2 ^ 110 ≤ b0 * κ) (f1 : 1 / 2 ^ 110 ≤ b1 * κ) (g0 : 1 / 2 ^ 110 ≤ b0) (g1 : 1 / 2 ^ 110 ≤ b1) (c0 : b0 ≤ 2 ^ 105) (c1 : b1 ≤ 2 ^ 105)
    (d0 : b0 * κ ≤ 2 ^ 110) (d1 : b1 * κ ≤ 2 ^ 110) :
    ‖vc v (ipreOut z A m w y p) - -((⟨v (y.getD (2 * p) z), v (y.getD (2 * m - 1 - 2 * p) z)⟩ : ℂ) * (starRingEnd ℂ) (vc v (cAt z w p)))‖ ≤
      26 / 10 ^ 8 * (b0 * κ + b1 * κ) := by
  have p0 := Ap.self v (y.getD (2 * p) z) _ h0
  have p1 := Ap.self v (y.getD (2 * m - 1 - 2 * p) z) _ h1
  have n0 := Ap.neg hA p0 (by linarith)
  have n1 := Ap.neg hA p1 (by linarith)
  have wr := (Complex.abs_re_le_norm (vc v (cAt z w p))).trans hw
  have wi := (Complex.abs_im_le_norm (vc v (cAt z w p))).trans hw
  unfold ipreOut
  have m1 := Ap.mul hA n0 _ wr (by linarith)
  have m2 := Ap.mul hA p1 _ wi (by linarith)
  have m3 := Ap.mul hA n1 _ wr (by linarith)
  have m4 := Ap.mul hA p0 _ wi (by linarith)
  refine (norm_of_parts _ (1835 / 10 ^ 10 * (b0 * κ + b1 * κ)) ?_ ?_).trans (by linarith)
  · have r := Ap.sub hA m1 m2 (by linarith)
    refine (le_of_eq ?_).trans (r.1.trans (by linarith))
    congr 1
    simp [vc]; ring
  · have r := Ap.add hA m3 m4 (by linarith)
    refine (le_of_eq ?_).trans (r.1.trans (by linarith))
    congr 1
    simp [vc]; ring

theorem ipost_round (A : Arith R) (v : R → ℝ) (hA : Approx A v) (z : R) (w x : List R) (p : ℕ) (b κ : ℝ)
    (h : ‖vc v (cAt z x p)‖ ≤ b) (hw : ‖vc v (cAt z w p)‖ ≤ κ) (f : 1 / 2 ^ 110 ≤ b * κ) (d : b * κ ≤ 2 ^ 110) :
    |v (ipostOut z A w x p).2 - (vc v (cAt z x p) * (starRingEnd ℂ) (vc v (cAt z w p))).re| ≤ 25 / 10 ^ 8 * (b * κ) ∧
    |v (ipostOut z A w x p).1 + (vc v (cAt z x p) * (starRingEnd ℂ) (vc v (cAt z w p))).im| ≤ 25 / 10 ^ 8 * (b * κ) := by
  have xr := Ap.self v _ _ ((Complex.abs_re_le_norm (vc v (cAt z x p))).trans h)
  have xi := Ap.self v _ _ ((Complex.abs_im_le_norm (vc v (cAt z x p))).trans h)
  have wr := (Complex.abs_re_le_norm (vc v (cAt z w p))).trans hw
  have wi := (Complex.abs_im_le_norm (vc v (cAt z w p))).trans hw
  have m1 := Ap.mul hA xi _ wi (by linarith)
  have m2 := Ap.mul hA xr _ wr (by linarith)
  have m3 := Ap.mul hA xr _ wi (by linarith)
  have m4 := Ap.mul hA xi _ wr (by linarith)
  unfold ipostOut
  constructor
  · have r := Ap.add hA m2 m1 (by linarith)
    refine (le_of_eq ?_).trans (r.1.trans (by linarith))
    congr 1
    simp [vc]
  · have r := Ap.sub hA m3 m4 (by linarith)
    refine (le_of_eq ?_).trans (r.1.trans (by linarith))
    congr 1
    simp [vc]; ring

/-- The type-IV transform of a spectrum. -/
theorem inv_err (A : Arith R) (v : R → ℝ) (hA : Approx A v) (z : R) (F : List R → List R → Option (Bool × List R × List R)) (m : ℕ) (tol : ℝ) (hm0 : 0 < m) (hm6 : m ≤ 600)
    (he : m % 2 = 0) (hO : FftOk v z F m tol) (hab : tol ≤ 1 / 1000) (w : List R) (hwl : 2 * m ≤ w.length)
    (hw : ∀ p, p < m → ‖vc v (cAt z w p) - rotE m p‖ ≤ 15 / 10 ^ 8 * rotN m) (x : Option (List R)) (buf y : List R)
    (hx : ∀ l, x = some l → 2 * m ≤ l.length) (hu : 2 * m ≤ buf.length) (hy : 2 * m ≤ y.length)
    (g : ℕ → ℝ) (hU : ∀ k, k < 2 * m → |v ((x.getD y).getD k z)| ≤ g k) (hg : ∀ k, 1 / 2 ^ 100 ≤ g k)
    (hG : ∑ k ∈ range (2 * m), g k ≤ 2 ^ 100) :
    ∃ t r u, imdctPre A (m, w) x y = some t ∧ F t buf = some r ∧
      imdctPost A (m, w) (if r.1 then some r.2.1 else none) r.2.2 = some u ∧
      u.length = buf.length ∧ r.2.1.length = y.length ∧
      ∀ k, k < 2 * m → |v (u.getD k z) - -dct4 (2 * m) (fun k => v ((x.getD y).getD k z)) (2 * m - 1 - k)| ≤
        (tol + 117 / 10 ^ 8) * (Real.sqrt (2 / (2 * m : ℕ)) * ∑ k ∈ range (2 * m), g k) := by
  have r1 := rotN_ge m hm0 hm6
  have r2 := rotN_le m hm0
  have g0 : ∀ k, 0 ≤ g k := fun k => le_trans (by positivity) (hg k)
  have gc : ∀ k, k < 2 * m → g k ≤ 2 ^ 100 := fun k hk =>
    (Finset.single_le_sum (f := g) (fun k _ => g0 k) (Finset.mem_range.mpr hk)).trans hG
  obtain ⟨t, t1, t2, t3⟩ := imdctPre_spec z A m w x y he hwl hy hx
  have hpre : ∀ p, p < m → ‖-((⟨v ((x.getD y).getD (2 * p) z), v ((x.getD y).getD (2 * m - 1 - 2 * p) z)⟩ : ℂ) * (starRingEnd ℂ) (rotE m p))‖ ≤
        rotN m * (g (2 * p) + g (2 * m - 1 - 2 * p)) ∧
      ‖vc v (cAt z t p) - -((⟨v ((x.getD y).getD (2 * p) z), v ((x.getD y).getD (2 * m - 1 - 2 * p) z)⟩ : ℂ) * (starRingEnd ℂ) (rotE m p))‖ ≤
        72 / 10 ^ 8 * (rotN m * (g (2 * p) + g (2 * m - 1 - 2 * p))) := by
    intro p hp
    have na := hU (2 * p) (by omega)
    have nb := hU (2 * m - 1 - 2 * p) (by omega)
    have ga := gc (2 * p) (by omega)
    have gb := gc (2 * m - 1 - 2 * p) (by omega)
    have fa := hg (2 * p)
    have fb := hg (2 * m - 1 - 2 * p)
    have hwp := hw p hp
    have hK : ‖vc v (cAt z w p)‖ ≤ 1.000001 * rotN m := by
      have := norm_add_le (vc v (cAt z w p) - rotE m p) (rotE m p)
      rw [sub_add_cancel, rotE_norm] at this
      linarith
    have key : ∀ c : ℝ, 1 / 2 ^ 100 ≤ c → c ≤ 2 ^ 100 → 1 / 2 ^ 104 ≤ c * (1.000001 * rotN m) ∧ c * (1.000001 * rotN m) ≤ 2 ^ 102 := by
      intro c hc1 hc2
      have k1 : 1 / 2 ^ 100 * (1 / 5) ≤ c * rotN m := mul_le_mul hc1 r1 (by norm_num) (le_trans (by positivity) hc1)
      have k2 : c * rotN m ≤ 2 ^ 100 * 1 := mul_le_mul hc2 r2 (by linarith) (by positivity)
      have k3 : c * (1.000001 * rotN m) = 1.000001 * (c * rotN m) := by ring
      rw [k3]
      constructor <;> linarith
    obtain ⟨ka1, ka2⟩ := key _ fa ga
    obtain ⟨kb1, kb2⟩ := key _ fb gb
    have pr := ipre_round A v hA z m w (x.getD y) p _ _ _ na nb hK (by linarith) (by linarith) (by linarith) (by linarith) (by linarith) (by linarith)
      (by linarith) (by linarith) (by linarith)
    rw [← t3 p hp] at pr
    have nβ : ‖(⟨v ((x.getD y).getD (2 * p) z), v ((x.getD y).getD (2 * m - 1 - 2 * p) z)⟩ : ℂ)‖ ≤ g (2 * p) + g (2 * m - 1 - 2 * p) :=
      (Complex.norm_le_abs_re_add_abs_im _).trans (add_le_add na nb)
    generalize (⟨v ((x.getD y).getD (2 * p) z), v ((x.getD y).getD (2 * m - 1 - 2 * p) z)⟩ : ℂ) = β at pr nβ
    have hgg : 0 ≤ g (2 * p) + g (2 * m - 1 - 2 * p) := add_nonneg (g0 _) (g0 _)
    constructor
    · rw [norm_neg, norm_mul, RCLike.norm_conj, rotE_norm, mul_comm]
      exact mul_le_mul_of_nonneg_left nβ (by linarith)
    · rw [show vc v (cAt z t p) - -(β * (starRingEnd ℂ) (rotE m p)) = (vc v (cAt z t p) - -(β * (starRingEnd ℂ) (vc v (cAt z w p)))) -
        β * (starRingEnd ℂ) (vc v (cAt z w p) - rotE m p) by rw [map_sub]; ring]
      refine (norm_sub_le _ _).trans ((add_le_add_left pr _).trans ?_)
      rw [norm_mul, RCLike.norm_conj]
      have s2 := mul_le_mul nβ hwp (norm_nonneg _) hgg
      have s3 : 0 ≤ rotN m * (g (2 * p) + g (2 * m - 1 - 2 * p)) := mul_nonneg (by linarith) hgg
      linarith
  have hsf := sum_fold m g
  obtain ⟨in0, z0, z1, f1, f2, f3, f4⟩ := core_err v z F m tol hm0 hm6 hO hab t buf
    (fun p => -((⟨v ((x.getD y).getD (2 * p) z), v ((x.getD y).getD (2 * m - 1 - 2 * p) z)⟩ : ℂ) * (starRingEnd ℂ) (rotE m p)))
    (fun p => g (2 * p) + g (2 * m - 1 - 2 * p)) (fun p => (hg _).trans (le_add_of_nonneg_right (g0 _))) (by rw [hsf]; exact hG)
    (fun p hp => (hpre p hp).1) (fun p hp => (hpre p hp).2) (by omega) hu
  rw [hsf] at f4
  have hpost : ∃ u, imdctPost A (m, w) (if in0 then some z0 else none) z1 = some u ∧
      u.length = buf.length ∧ ∀ p, p < m → u.getD (2 * p) z = (ipostOut z A w (if in0 then z0 else z1) p).1 ∧
        u.getD (2 * m - 1 - 2 * p) z = (ipostOut z A w (if in0 then z0 else z1) p).2 := by
    cases in0 with
    | true =>
      obtain ⟨y', h1, h2, h3⟩ := imdctPost_spec z A m w (some z0) z1 he hwl (by omega) (fun l hl => by
        injection hl with hl; rw [← hl]; omega)
      exact ⟨y', by rw [if_pos rfl]; exact h1, by omega, h3⟩
    | false =>
      obtain ⟨y', h1, h2, h3⟩ := imdctPost_spec z A m w none z1 he hwl (by omega) (fun l hl => by cases hl)
      exact ⟨y', by rw [if_neg (by decide)]; exact h1, by omega, h3⟩
  obtain ⟨u, p1, p2, p3⟩ := hpost
  have hG0 : 1 / 2 ^ 100 ≤ ∑ k ∈ range (2 * m), g k :=
    (hg 0).trans (Finset.single_le_sum (f := g) (fun k _ => g0 k) (Finset.mem_range.mpr (by omega)))
  have hwE : ∀ p, p < m → cplx (complexTable (rotE m) m) p = rotE m p := fun p hp => complexTable_spec _ _ _ hp
  refine ⟨t, _, u, t1, f1, p1, p2, by rw [f2, t2], fun k hk => ?_⟩
  obtain ⟨p, hp, hkp⟩ := getD_eta [] m 0 k hk
  have hZ := dct4_fold m hm0 (complexTable (rotE m) m) (fun p hp => by rw [hwE p hp]; rfl) (fun k => v ((x.getD y).getD k z)) p hp
  rw [hwE p hp, Finset.sum_congr rfl (fun l hl => by rw [hwE l (Finset.mem_range.mp hl)])] at hZ
  have hZ' : (∑ l ∈ range m, -((⟨v ((x.getD y).getD (2 * l) z), v ((x.getD y).getD (2 * m - 1 - 2 * l) z)⟩ : ℂ) * (starRingEnd ℂ) (rotE m l)) *
      W m (p * l)) * (starRingEnd ℂ) (rotE m p) = -⟨dct4 (2 * m) (fun k => v ((x.getD y).getD k z)) (2 * p),
        -dct4 (2 * m) (fun k => v ((x.getD y).getD k z)) (2 * m - 1 - 2 * p)⟩ := by
    rw [← hZ, Finset.sum_congr rfl (fun l _ => neg_mul _ _), Finset.sum_neg_distrib, neg_mul]
  have hre := rot_err_gen v z m hm0 hm6 w (if in0 then z0 else z1) p ((ipostOut z A w (if in0 then z0 else z1) p).2, (ipostOut z A w (if in0 then z0 else z1) p).1)
    (fun _ _ h1 h2 h3 h4 => ipost_round A v hA z w _ p _ _ h1 h2 h3 h4) (hw p hp) _ _ (tol + 73 / 10 ^ 8) hG0 hG (by linarith) (f4 p hp).2 (f4 p hp).1
  rw [hZ'] at hre
  have s0 : 0 ≤ Real.sqrt (2 / (2 * m : ℕ)) * ∑ k ∈ range (2 * m), g k := mul_nonneg (Real.sqrt_nonneg _) (le_trans (by positivity) hG0)
  rw [Complex.neg_re, Complex.neg_im] at hre
  dsimp only at hre
  rcases hkp with rfl | rfl
  · rw [(p3 p hp).1]
    have := hre.2
    rw [neg_neg, ← sub_neg_eq_add] at this
    refine this.trans ?_
    nlinarith
  · rw [(p3 p hp).2, show 2 * m - 1 - (2 * m - 1 - 2 * p) = 2 * p by omega]
    refine hre.1.trans ?_
    nlinarith

/-! ### The exact transform -/

/-- The inverse of the modified discrete cosine transform, before the window: sample `l` of `2 n`. -/
noncomputable def imdct (n : ℕ) (X : ℕ → ℝ) (l : ℕ) : ℝ :=
  Real.sqrt (2 / n) * ∑ k ∈ range n, X k * Real.cos (Real.pi / n * ((l : ℝ) + 1 / 2 + n / 2) * ((k : ℝ) + 1 / 2))

theorem imdct_low (n : ℕ) (X : ℕ → ℝ) (h4 : n % 4 = 0) (l : ℕ) : imdct n X l = dct4 n X (l + n / 2) := by
  unfold imdct dct4
  congr 1
  refine Finset.sum_congr rfl fun k _ => ?_
  have e : ((l + n / 2 : ℕ) : ℝ) = (l : ℝ) + n / 2 := by
    obtain ⟨m, rfl⟩ : ∃ m, n = 2 * m := ⟨n / 2, by omega⟩
    rw [show 2 * m / 2 = m by omega]; push_cast; ring
  rw [e]
  congr 2
  ring

theorem dct4_fold_mid (n : ℕ) (X : ℕ → ℝ) (hn : 0 < n) (j : ℕ) (h2 : j < 2 * n) : dct4 n X j = -dct4 n X (2 * n - 1 - j) := by
  unfold dct4
  rw [← mul_neg, ← Finset.sum_neg_distrib]
  congr 1
  refine Finset.sum_congr rfl fun k _ => ?_
  rw [← mul_neg, ← cos_odd_pi_sub _ k, show 2 * n - 1 - j = 2 * n - (1 + j) by omega, Nat.cast_sub (by omega)]
  have hn' : (n : ℝ) ≠ 0 := by exact_mod_cast hn.ne'
  congr 2
  push_cast; field_simp; ring

theorem dct4_fold_high (n : ℕ) (X : ℕ → ℝ) (hn : 0 < n) (j : ℕ) : dct4 n X (2 * n + j) = -dct4 n X j := by
  unfold dct4
  rw [← mul_neg, ← Finset.sum_neg_distrib]
  congr 1
  refine Finset.sum_congr rfl fun k _ => ?_
  rw [← mul_neg, ← cos_odd_pi_add _ k]
  have hn' : (n : ℝ) ≠ 0 := by exact_mod_cast hn.ne'
  congr 2
  push_cast; field_simp; ring

theorem dct4_le (n : ℕ) (X : ℕ → ℝ) (k : ℕ) : |dct4 n X k| ≤ Real.sqrt (2 / n) * ∑ l ∈ range n, |X l| := by
  unfold dct4
  rw [abs_mul, abs_of_nonneg (Real.sqrt_nonneg _)]
  refine mul_le_mul_of_nonneg_left ?_ (Real.sqrt_nonneg _)
  refine (Finset.abs_sum_le_sum_abs _ _).trans (Finset.sum_le_sum fun l _ => ?_)
  rw [abs_mul]
  calc |X l| * _ ≤ |X l| * 1 := mul_le_mul_of_nonneg_left (Real.abs_cos_le_one _) (abs_nonneg _)
    _ = _ := mul_one _

/-! ### Window -/

theorem iwin_prod (A : Arith R) (v : R → ℝ) (hA : Approx A v) (a c : R) (U w B : ℝ) (ha : |v a - U| ≤ 65 / 10 ^ 7 * B) (hU : |U| ≤ B) (hB : B ≤ 2 ^ 100)
    (hw : |v c - w| ≤ 6 / 10 ^ 8 * |w|) (hw2 : |w| ≤ 2) :
    Ap v (A.mul a c) (w * U) (|w| * B) (67 / 10 ^ 7 * (|w| * B) + 1 / 2 ^ 149) := by
  have hB0 : 0 ≤ B := (abs_nonneg _).trans hU
  have hw0 := abs_nonneg w
  have hwB : 0 ≤ |w| * B := mul_nonneg hw0 hB0
  have hwB2 : |w| * B ≤ 2 * 2 ^ 100 := mul_le_mul hw2 hB hB0 (by norm_num)
  have hv : |v a| ≤ 1.00001 * B := by
    have := abs_add_le (v a - U) U
    rw [sub_add_cancel] at this
    linarith
  have e : |v a * v c - w * U| ≤ 661 / 10 ^ 8 * (|w| * B) := by
    rw [show v a * v c - w * U = v a * (v c - w) + w * (v a - U) by ring]
    refine (abs_add_le _ _).trans ?_
    rw [abs_mul, abs_mul]
    have t1 := mul_le_mul hv hw (abs_nonneg _) (by linarith)
    have t2 := mul_le_mul_of_nonneg_left ha hw0
    have e1 : 1.00001 * B * (6 / 10 ^ 8 * |w|) = 1.00001 * (6 / 10 ^ 8) * (|w| * B) := by ring
    rw [e1] at t1
    linarith
  have hm : |v a * v c| ≤ 1.0001 * (|w| * B) := by
    have := abs_add_le (v a * v c - w * U) (w * U)
    rw [sub_add_cancel, abs_mul w U] at this
    have t2 := mul_le_mul_of_nonneg_left hU hw0
    linarith
  refine ⟨?_, by rw [abs_mul]; exact mul_le_mul_of_nonneg_left hU hw0⟩
  have r := near_round e hm (hA.mul a c (by linarith))
  linarith

theorem iwin_err (A : Arith R) (v : R → ℝ) (hA : Approx A v) (z : R) (n nd : ℕ) (w : List R) (win : List ℝ) (hw : NearWin v z w win)
    (hw2 : ∀ k, |win.getD k 0| ≤ 2) (hwl : win.length = n + nd) (h4 : n % 4 = 0) (hn0 : 0 < n) (hd : nd ≤ n) (hn : n ≤ 2 * nd) (u d : List R) (X : ℕ → ℝ) (F B : ℝ)
    (hu : ∀ k, k < n → |v (u.getD k z) - -(F * dct4 n X (n - 1 - k))| ≤ 65 / 10 ^ 7 * B ∧ |-(F * dct4 n X (n - 1 - k))| ≤ B) (hB : B ≤ 2 ^ 100)
    (hdb : ∀ k, k < nd → |v (d.getD k z)| ≤ 2 ^ 100) :
    (∀ k, k < n → |v (iwinOut z A n nd w u d k) - ((if k < nd then v (d.getD k z) else 0) + win.getD (n + nd - 1 - k) 0 * (F * imdct n X (n - nd + k)))| ≤
      7 / 10 ^ 6 * (|win.getD (n + nd - 1 - k) 0| * B) + 6 / 10 ^ 8 * |if k < nd then v (d.getD k z) else 0| + 1 / 2 ^ 140) ∧
    (∀ k, k < nd → |v (iwinTerm z A n nd w u (n + k)) - win.getD (nd - 1 - k) 0 * (F * imdct n X (2 * n - nd + k))| ≤
      7 / 10 ^ 6 * (|win.getD (nd - 1 - k) 0| * B) + 1 / 2 ^ 140) := by
  have hB0 : 0 ≤ B := (abs_nonneg _).trans (hu 0 hn0).2
  have P : ∀ i j, i < n → j < n + nd → Ap v (A.mul (u.getD i z) (w.getD j z)) (win.getD j 0 * -(F * dct4 n X (n - 1 - i))) (|win.getD j 0| * B)
      (67 / 10 ^ 7 * (|win.getD j 0| * B) + 1 / 2 ^ 149) := fun i j hi hj =>
    iwin_prod A v hA _ _ _ _ _ (hu i hi).1 (hu i hi).2 hB (hw.2 j (by omega)) (hw2 j)
  have wB : ∀ j, 0 ≤ |win.getD j 0| * B ∧ |win.getD j 0| * B ≤ 2 * 2 ^ 100 := fun j =>
    ⟨mul_nonneg (abs_nonneg _) hB0, mul_le_mul (hw2 j) hB hB0 (by norm_num)⟩
  have low : ∀ k, nd - n / 2 ≤ k → k < n → Ap v (iwinTerm z A n nd w u k) (win.getD (n + nd - 1 - k) 0 * (F * imdct n X (n - nd + k)))
      (|win.getD (n + nd - 1 - k) 0| * B) (67 / 10 ^ 7 * (|win.getD (n + nd - 1 - k) 0| * B) + 1 / 2 ^ 149) := by
    intro k k1 k2
    unfold iwinTerm
    rw [if_pos k2]
    have := P (k + n / 2 - nd) (n + nd - 1 - k) (by omega) (by omega)
    rw [show n - 1 - (k + n / 2 - nd) = 2 * n - 1 - (n - nd + k + n / 2) by omega, ← mul_neg, ← dct4_fold_mid n X hn0 _ (by omega), ← imdct_low n X h4] at this
    exact this
  constructor
  · intro k hk
    unfold iwinOut
    obtain ⟨b1, b2⟩ := wB (n + nd - 1 - k)
    by_cases c1 : k < nd - n / 2
    · have hdk := hdb k (by omega)
      rw [if_pos c1, if_pos (show k < nd by omega)]
      have q := P (nd - n / 2 - 1 - k) (n + nd - 1 - k) (by omega) (by omega)
      rw [show n - 1 - (nd - n / 2 - 1 - k) = n - nd + k + n / 2 by omega, ← imdct_low n X h4] at q
      have r := Ap.sub hA (Ap.self v (d.getD k z) _ (le_refl _)) q (by linarith)
      rw [mul_neg, sub_neg_eq_add] at r
      refine r.1.trans ?_
      have := abs_nonneg (v (d.getD k z))
      linarith
    · rw [if_neg c1]
      have q := low k (by omega) hk
      by_cases c2 : k < nd
      · have hdk := hdb k c2
        rw [if_pos c2, if_pos c2]
        have r := Ap.add hA (Ap.self v (d.getD k z) _ (le_refl _)) q (by linarith)
        refine r.1.trans ?_
        have := abs_nonneg (v (d.getD k z))
        linarith
      · rw [if_neg c2, if_neg c2, zero_add, abs_zero]
        refine q.1.trans ?_
        linarith
  · intro k hk
    obtain ⟨b1, b2⟩ := wB (nd - 1 - k)
    have q : Ap v (iwinTerm z A n nd w u (n + k)) (win.getD (nd - 1 - k) 0 * (F * imdct n X (2 * n - nd + k)))
      (|win.getD (nd - 1 - k) 0| * B) (67 / 10 ^ 7 * (|win.getD (nd - 1 - k) 0| * B) + 1 / 2 ^ 149) := by
      unfold iwinTerm
      rw [if_neg (by omega), show n + k - n = k by omega]
      by_cases c : k < nd - n / 2
      · rw [if_pos c]
        have := P (3 * (n / 2) - nd + k) (nd - 1 - k) (by omega) (by omega)
        rw [show n - 1 - (3 * (n / 2) - nd + k) = 2 * n - 1 - (2 * n - nd + k + n / 2) by omega, ← mul_neg, ← dct4_fold_mid n X hn0 _ (by omega),
          ← imdct_low n X h4] at this
        exact this
      · rw [if_neg c]
        have := P (n / 2 + nd - 1 - k) (nd - 1 - k) (by omega) (by omega)
        rw [show n - 1 - (n / 2 + nd - 1 - k) = n / 2 + k - nd by omega, ← mul_neg, ← dct4_fold_high n X hn0,
          show 2 * n + (n / 2 + k - nd) = 2 * n - nd + k + n / 2 by omega, ← imdct_low n X h4] at this
        exact this
    refine q.1.trans ?_
    linarith

/-! ### Inverse transform -/

/-- `lc3_mdct_inverse` with a Fourier transform `F`. -/
def inverseWith (A : Arith R) (F : ℕ → List R → List R → Option (Bool × List R × List R)) (sqrt : R → R) (T : MdctTables R) (dt : Dt) (sr srSrc : Srate)
    (buf : List R) (x : Option (List R)) (d y : List R) : Option (List R × List R) := do
  let rot ← T.rot dt sr
  let win ← T.win dt sr
  let z ← imdctPre A rot x y
  let r ← F (ns dt sr / 2) z buf
  let u ← imdctPost A rot (if r.1 then some r.2.1 else none) r.2.2
  (if ns dt sr ≠ ns dt srSrc then
      rescale A (ns dt sr) (sqrt (A.div (A.ofInt (ns dt sr)) (A.ofInt (ns dt srSrc)))) u
    else some u).bind fun u => imdctWindow A (ns dt sr) (nd dt sr) win u d r.2.1

theorem mdctInverse_with (A : Arith R) (sqrt : R → R) (T : MdctTables R) (dt : Dt) (sr srSrc : Srate) (buf : List R) (x : Option (List R)) (d y : List R) :
    mdctInverse A sqrt T dt sr srSrc buf x d y = inverseWith A (fft A T) sqrt T dt sr srSrc buf x d y := rfl

theorem inverse_err (A : Arith R) (v : R → ℝ) (hA : Approx A v) (z : R) (sqrt : R → R) (T : MdctTables R) (dt : Dt) (sr srSrc : Srate)
    (Φ : ℕ → List R → List R → Option (Bool × List R × List R)) (tol : ℝ) (hO : FftOk v z (Φ (ns dt sr / 2)) (ns dt sr / 2) tol) (hab : tol ≤ 500 / 10 ^ 8)
    (hrot : NearRot v z (ns dt sr / 2) (T.rot dt sr)) (w : List R) (win : List ℝ) (hwt : T.win dt sr = some w) (hw : NearWin v z w win)
    (hw2 : ∀ k, |win.getD k 0| ≤ 2) (hwl : win.length = ns dt sr + nd dt sr)
    (hs : ns dt sr ≠ ns dt srSrc → NearScale A v sqrt (ns dt srSrc) (ns dt sr)) (buf : List R) (x : Option (List R)) (d y : List R)
    (hb : ns dt sr ≤ buf.length) (hx : ∀ l, x = some l → ns dt sr ≤ l.length) (hd : nd dt sr ≤ d.length) (hy : ns dt sr ≤ y.length)
    (X : ℕ → ℝ) (hX : ∀ k, k < ns dt sr → X k = v ((x.getD y).getD k z))
    (hsum : ∑ k ∈ range (ns dt sr), |X k| ≤ 2 ^ 99) (hdb : ∀ k, k < nd dt sr → |v (d.getD k z)| ≤ 2 ^ 100) (F B : ℝ)
    (hF : F = rateScale Real.sqrt (ns dt srSrc) (ns dt sr)) (hB : B = F * (Real.sqrt (2 / ns dt sr) * (∑ k ∈ range (ns dt sr), |X k| + 1 / 2 ^ 80))) :
    ∃ y' d', inverseWith A Φ sqrt T dt sr srSrc buf x d y = some (y', d') ∧ y'.length = y.length ∧ d'.length = d.length ∧
      (∀ k, k < ns dt sr → |v (y'.getD k z) - ((if k < nd dt sr then v (d.getD k z) else 0) +
          win.getD (ns dt sr + nd dt sr - 1 - k) 0 * (F * imdct (ns dt sr) X (ns dt sr - nd dt sr + k)))| ≤
        7 / 10 ^ 6 * (|win.getD (ns dt sr + nd dt sr - 1 - k) 0| * B) + 6 / 10 ^ 8 * |if k < nd dt sr then v (d.getD k z) else 0| + 1 / 2 ^ 140) ∧
      (∀ k, k < nd dt sr → |v (d'.getD k z) - win.getD (nd dt sr - 1 - k) 0 * (F * imdct (ns dt sr) X (2 * ns dt sr - nd dt sr + k))| ≤
        7 / 10 ^ 6 * (|win.getD (nd dt sr - 1 - k) 0| * B) + 1 / 2 ^ 140) := by
  obtain ⟨h4, hpos, hnd, hn2, he⟩ := mdct_shape dt sr
  obtain ⟨rt, hrt, hrl, hr⟩ := hrot
  have hn6 : ns dt sr ≤ 1000 := by cases dt <;> cases sr <;> decide
  have hn10 : 10 ≤ ns dt sr := by cases dt <;> cases sr <;> decide
  have hs6 : ns dt srSrc ≤ 1000 := by cases dt <;> cases srSrc <;> decide
  have hs10 : 10 ≤ ns dt srSrc := by cases dt <;> cases srSrc <;> decide
  have hwlen := hw.1
  have e2 : 2 * (ns dt sr / 2) = ns dt sr := by omega
  have q1 : ((ns dt sr : ℕ) : ℝ) ≤ 1000 := by exact_mod_cast hn6
  have q2 : (10 : ℝ) ≤ ((ns dt sr : ℕ) : ℝ) := by exact_mod_cast hn10
  have q3 : ((ns dt srSrc : ℕ) : ℝ) ≤ 1000 := by exact_mod_cast hs6
  have q4 : (10 : ℝ) ≤ ((ns dt srSrc : ℕ) : ℝ) := by exact_mod_cast hs10
  have hsum0 : 0 ≤ ∑ k ∈ range (ns dt sr), |X k| := Finset.sum_nonneg fun _ _ => abs_nonneg _
  have hgs : ∑ k ∈ range (ns dt sr), (|X k| + 1 / 2 ^ 100) = ∑ k ∈ range (ns dt sr), |X k| + ns dt sr * (1 / 2 ^ 100) := by
    rw [Finset.sum_add_distrib, Finset.sum_const, Finset.card_range, nsmul_eq_mul]
  obtain ⟨t, r, u1, c1, c2, c3, c4, c6, c5⟩ := inv_err A v hA z (Φ (ns dt sr / 2)) (ns dt sr / 2) tol (by omega) (by omega) (by omega) hO (hab.trans (by norm_num)) rt (by omega) hr x buf y
    (by rw [e2]; exact hx) (by omega) (by omega) (fun k => |X k| + 1 / 2 ^ 100) (by
      rw [e2]; intro k hk; rw [← hX k hk]; exact le_add_of_nonneg_right (by positivity)) (fun k => le_add_of_nonneg_left (abs_nonneg _))
    (by rw [e2, hgs]; linarith)
  rw [e2, hgs] at c5
  have hcong : ∀ j, dct4 (ns dt sr) (fun k => v ((x.getD y).getD k z)) j = dct4 (ns dt sr) X j := by
    intro j
    unfold dct4
    congr 1
    refine Finset.sum_congr rfl fun l hl => ?_
    rw [Finset.mem_range] at hl
    rw [hX l hl]
  have hS0 : 0 ≤ Real.sqrt (2 / ns dt sr) := Real.sqrt_nonneg _
  have hS1 : 1 / 50 ≤ Real.sqrt (2 / ns dt sr) := by
    apply Real.le_sqrt_of_sq_le
    rw [le_div_iff₀ (by linarith)]
    linarith
  have hS3 : Real.sqrt (2 / ns dt sr) ≤ 1 := by
    rw [Real.sqrt_le_left (by norm_num), div_le_iff₀ (by linarith)]
    linarith
  generalize hS : ∑ k ∈ range (ns dt sr), |X k| = S at *
  have base : ∀ k, k < ns dt sr → |v (u1.getD k z) - -dct4 (ns dt sr) X (ns dt sr - 1 - k)| ≤ 620 / 10 ^ 8 * (Real.sqrt (2 / ns dt sr) * (S + 1 / 2 ^ 80)) := by
    intro k hk
    have := c5 k hk
    rw [hcong] at this
    refine this.trans ?_
    refine mul_le_mul (by linarith) (mul_le_mul_of_nonneg_left (by linarith) hS0) ?_ (by norm_num)
    exact mul_nonneg hS0 (by positivity)
  have bnd : ∀ k, |-dct4 (ns dt sr) X k| ≤ Real.sqrt (2 / ns dt sr) * (S + 1 / 2 ^ 80) := by
    intro k
    rw [abs_neg]
    refine (dct4_le _ _ _).trans (mul_le_mul_of_nonneg_left ?_ hS0)
    rw [hS]
    exact le_add_of_nonneg_right (by positivity)
  have k1 : 1 / 50 * (1 / 2 ^ 80) ≤ Real.sqrt (2 / ns dt sr) * (S + 1 / 2 ^ 80) := mul_le_mul hS1 (by linarith) (by positivity) hS0
  have k2 : Real.sqrt (2 / ns dt sr) * (S + 1 / 2 ^ 80) ≤ 1 * 2 ^ 100 := mul_le_mul hS3 (by linarith) (by positivity) (by norm_num)
  generalize hM : Real.sqrt (2 / ns dt sr) * (S + 1 / 2 ^ 80) = M at *
  obtain ⟨u, hu1, hu2, hu3, hF10, hF0⟩ : ∃ u, (if ns dt sr ≠ ns dt srSrc then
      rescale A (ns dt sr) (sqrt (A.div (A.ofInt (ns dt sr)) (A.ofInt (ns dt srSrc)))) u1
    else some u1) = some u ∧ u.length = u1.length ∧ (∀ k, k < ns dt sr → |v (u.getD k z) - F * -dct4 (ns dt sr) X (ns dt sr - 1 - k)| ≤ 65 / 10 ^ 7 * (F * M)) ∧
      F * Real.sqrt (2 / ns dt sr) ≤ 1 ∧ 0 ≤ F := by
    rw [hF]
    unfold rateScale
    by_cases hne : ns dt sr ≠ ns dt srSrc
    · obtain ⟨y2, s1, s2, s3⟩ := rescale_gen z A (ns dt sr) (sqrt (A.div (A.ofInt (ns dt sr)) (A.ofInt (ns dt srSrc)))) u1 h4 (by omega)
      have hF0 : 1 / 10 ≤ Real.sqrt ((ns dt sr : ℝ) / ns dt srSrc) := by
        apply Real.le_sqrt_of_sq_le
        rw [le_div_iff₀ (by linarith)]
        linarith
      have hF1 : Real.sqrt ((ns dt sr : ℝ) / ns dt srSrc) ≤ 10 := by
        rw [Real.sqrt_le_left (by norm_num), div_le_iff₀ (by linarith)]
        linarith
      rw [if_pos hne, s1, if_pos (Ne.symm hne)]
      have hF2 : Real.sqrt ((ns dt sr : ℝ) / ns dt srSrc) * Real.sqrt (2 / ns dt sr) ≤ 1 := by
        rw [← Real.sqrt_mul (by positivity), div_mul_div_comm, mul_comm ((ns dt srSrc : ℕ) : ℝ), mul_div_mul_left _ _ (by linarith), Real.sqrt_le_left (by norm_num),
          div_le_iff₀ (by linarith)]
        linarith
      refine ⟨_, rfl, s2, fun k hk => ?_, hF2, by linarith⟩
      rw [s3, if_pos hk]
      have := scale_err A v hA _ _ _ _ _ (620 / 10 ^ 8) hF0 hF1 (hs hne) (base k hk) (bnd _) (by linarith) (by linarith) (by norm_num) (by norm_num)
      refine this.trans (mul_le_mul_of_nonneg_right (by norm_num) ?_)
      exact mul_nonneg (by linarith) (by linarith)
    · rw [if_neg hne, if_neg (fun h => hne (Ne.symm h))]
      refine ⟨_, rfl, rfl, fun k hk => ?_, by rw [one_mul]; exact hS3, by norm_num⟩
      rw [one_mul, one_mul]
      refine (base k hk).trans (mul_le_mul_of_nonneg_right (by norm_num) ?_)
      linarith
  obtain ⟨y', d', w1, w2, w3, w4, _, w5⟩ := imdctWindow_spec z A (ns dt sr) (nd dt sr) w u d r.2.1 h4 hnd hn2 he (by omega) (by omega) hd (by omega)
  have hM0 : 0 ≤ M := by linarith
  obtain ⟨i1, i2⟩ := iwin_err A v hA z (ns dt sr) (nd dt sr) w win hw hw2 hwl h4 hpos hnd hn2 u d X F (F * M) (fun k hk => by
    have := hu3 k hk
    rw [mul_neg] at this
    refine ⟨this, ?_⟩
    rw [abs_neg, abs_mul, abs_of_nonneg hF0]
    refine mul_le_mul_of_nonneg_left ?_ hF0
    have := bnd (ns dt sr - 1 - k)
    rwa [abs_neg] at this) (by
      rw [← hM, ← mul_assoc]
      calc F * Real.sqrt (2 / ns dt sr) * (S + 1 / 2 ^ 80) ≤ 1 * 2 ^ 100 := mul_le_mul hF10 (by linarith) (by positivity) (by norm_num)
        _ = 2 ^ 100 := one_mul _) hdb
  rw [← hB] at i1 i2
  refine ⟨y', d', ?_, by omega, w3, fun k hk => by rw [w4 k hk]; exact i1 k hk, fun k hk => by rw [w5 k hk]; exact i2 k hk⟩
  unfold inverseWith
  rw [hrt, hwt]
  dsimp only [bind, Option.bind]
  rw [c1]
  dsimp only
  rw [c2]
  dsimp only
  rw [c3]
  dsimp only
  rw [hu1]
  dsimp only
  exact w1

end LC3
