import Verif.Lemmas.Neon
import Verif.Lemmas.FftStage

/-! Rounding errors of the FFT with vector instructions, `src/mdct_neon.h`. -/

namespace LC3

open Complex Finset

variable {R : Type}

/-- An arithmetic that rounds, as `Approx`, with fused operations that round once. -/
structure ApproxN (N : Neon R) (v : R → ℝ) : Prop where
  base : Approx N.toArith v
  fneg : ∀ a, v (N.fneg a) = -v a
  fma : ∀ a b c, |v a + v b * v c| ≤ 2 ^ 126 → |v (N.fma a b c) - (v a + v b * v c)| ≤ (|v a + v b * v c| + 1 / 2 ^ 126) / 2 ^ 24
  fms : ∀ a b c, |v a - v b * v c| ≤ 2 ^ 126 → |v (N.fms a b c) - (v a - v b * v c)| ≤ (|v a - v b * v c| + 1 / 2 ^ 126) / 2 ^ 24

theorem Ap.fneg {N : Neon R} {v : R → ℝ} (hN : ApproxN N v) {a : R} {x b e : ℝ} (h : Ap v a x b e) : Ap v (N.fneg a) (-x) b e := by
  refine ⟨?_, by rw [abs_neg]; exact h.2⟩
  rw [hN.fneg, show -v a - -x = -(v a - x) by ring, abs_neg]
  exact h.1

/-- Sum with a product by a constant. -/
theorem Ap.fma {N : Neon R} {v : R → ℝ} (hN : ApproxN N v) {a0 a1 c : R} {x0 b0 e0 x1 b1 e1 : ℝ} (h0 : Ap v a0 x0 b0 e0) (h1 : Ap v a1 x1 b1 e1)
    (κ : ℝ) (hc : |v c| ≤ κ) (hM : b0 + e0 + (b1 + e1) * κ ≤ 2 ^ 126) :
    Ap v (N.fma a0 a1 c) (x0 + x1 * v c) (b0 + b1 * κ) (e0 + e1 * κ + (b0 + e0 + (b1 + e1) * κ + 1 / 2 ^ 126) / 2 ^ 24) := by
  have hp : |v a1 * v c| ≤ (b1 + e1) * κ := by
    rw [abs_mul]; exact mul_le_mul h1.val hc (abs_nonneg _) ((abs_nonneg _).trans h1.val)
  have hb : |v a0 + v a1 * v c| ≤ b0 + e0 + (b1 + e1) * κ := (abs_add_le _ _).trans (add_le_add h0.val hp)
  have hd : |(v a1 - x1) * v c| ≤ e1 * κ := by
    rw [abs_mul]; exact mul_le_mul h1.1 hc (abs_nonneg _) ((abs_nonneg _).trans h1.1)
  have hx : |x1 * v c| ≤ b1 * κ := by
    rw [abs_mul]; exact mul_le_mul h1.2 hc (abs_nonneg _) ((abs_nonneg _).trans h1.2)
  refine ⟨near_round ?_ hb (hN.fma a0 a1 c (hb.trans hM)), (abs_add_le _ _).trans (add_le_add h0.2 hx)⟩
  rw [show v a0 + v a1 * v c - (x0 + x1 * v c) = (v a0 - x0) + (v a1 - x1) * v c by ring]
  exact (abs_add_le _ _).trans (add_le_add h0.1 hd)

theorem Ap.fms {N : Neon R} {v : R → ℝ} (hN : ApproxN N v) {a0 a1 c : R} {x0 b0 e0 x1 b1 e1 : ℝ} (h0 : Ap v a0 x0 b0 e0) (h1 : Ap v a1 x1 b1 e1)
    (κ : ℝ) (hc : |v c| ≤ κ) (hM : b0 + e0 + (b1 + e1) * κ ≤ 2 ^ 126) :
    Ap v (N.fms a0 a1 c) (x0 - x1 * v c) (b0 + b1 * κ) (e0 + e1 * κ + (b0 + e0 + (b1 + e1) * κ + 1 / 2 ^ 126) / 2 ^ 24) := by
  have hp : |v a1 * v c| ≤ (b1 + e1) * κ := by
    rw [abs_mul]; exact mul_le_mul h1.val hc (abs_nonneg _) ((abs_nonneg _).trans h1.val)
  have hb : |v a0 - v a1 * v c| ≤ b0 + e0 + (b1 + e1) * κ := (abs_sub _ _).trans (add_le_add h0.val hp)
  have hd : |(v a1 - x1) * v c| ≤ e1 * κ := by
    rw [abs_mul]; exact mul_le_mul h1.1 hc (abs_nonneg _) ((abs_nonneg _).trans h1.1)
  have hx : |x1 * v c| ≤ b1 * κ := by
    rw [abs_mul]; exact mul_le_mul h1.2 hc (abs_nonneg _) ((abs_nonneg _).trans h1.2)
  refine ⟨near_round ?_ hb (hN.fms a0 a1 c (hb.trans hM)), (abs_sub _ _).trans (add_le_add h0.2 hx)⟩
  rw [show v a0 - v a1 * v c - (x0 - x1 * v c) = (v a0 - x0) - (v a1 - x1) * v c by ring]
  exact (abs_sub _ _).trans (add_le_add h0.1 hd)

/-! ### Butterflies -/

theorem nround2 (N : Neon R) (v : R → ℝ) (hN : ApproxN N v) (x0 x1 a : R × R) (s : ℕ) (hs : s < 2) (σ0 σ1 : ℝ)
    (f0 : 1 / 2 ^ 110 ≤ σ0) (f1 : 1 / 2 ^ 110 ≤ σ1) (c0 : σ0 ≤ 2 ^ 110) (c1 : σ1 ≤ 2 ^ 110)
    (h0 : ‖vc v x0‖ ≤ 1.001 * σ0) (h1 : ‖vc v x1‖ ≤ 1.001 * σ1) (ha : ‖vc v a‖ ≤ 1.0001) :
    ‖vc v (nout2 N x0 x1 a s) - (vc v x0 + vc v x1 * ((-1) ^ s * vc v a))‖ ≤ 44 / 10 ^ 8 * (σ0 + σ1) := by
  have p0 := Ap.self v x0.1 _ ((Complex.abs_re_le_norm (vc v x0)).trans h0)
  have q0 := Ap.self v x0.2 _ ((Complex.abs_im_le_norm (vc v x0)).trans h0)
  have p1 := Ap.self v x1.1 _ ((Complex.abs_re_le_norm (vc v x1)).trans h1)
  have q1 := Ap.self v x1.2 _ ((Complex.abs_im_le_norm (vc v x1)).trans h1)
  have ar := (Complex.abs_re_le_norm (vc v a)).trans ha
  have ai := (Complex.abs_im_le_norm (vc v a)).trans ha
  have n1 := Ap.fneg hN q1
  refine (norm_of_parts _ (310 / 10 ^ 9 * (σ0 + σ1)) ?_ ?_).trans (by linarith)
  · interval_cases s
    · have r := Ap.fma hN (Ap.fma hN p0 p1 _ ar (by linarith)) n1 _ ai (by linarith)
      refine (le_of_eq ?_).trans (r.1.trans (by linarith))
      congr 1
      simp [vc, nout2]; ring
    · have r := Ap.fms hN (Ap.fms hN p0 p1 _ ar (by linarith)) n1 _ ai (by linarith)
      refine (le_of_eq ?_).trans (r.1.trans (by linarith))
      congr 1
      simp [vc, nout2]; ring
  · interval_cases s
    · have r := Ap.fma hN (Ap.fma hN q0 q1 _ ar (by linarith)) p1 _ ai (by linarith)
      refine (le_of_eq ?_).trans (r.1.trans (by linarith))
      congr 1
      simp [vc, nout2]; ring
    · have r := Ap.fms hN (Ap.fms hN q0 q1 _ ar (by linarith)) p1 _ ai (by linarith)
      refine (le_of_eq ?_).trans (r.1.trans (by linarith))
      congr 1
      simp [vc, nout2]; ring

theorem nround3 (N : Neon R) (v : R → ℝ) (hN : ApproxN N v) (x0 x1 x2 a b : R × R) (σ0 σ1 σ2 : ℝ)
    (f0 : 1 / 2 ^ 110 ≤ σ0) (f1 : 1 / 2 ^ 110 ≤ σ1) (f2 : 1 / 2 ^ 110 ≤ σ2) (c0 : σ0 ≤ 2 ^ 110) (c1 : σ1 ≤ 2 ^ 110) (c2 : σ2 ≤ 2 ^ 110)
    (h0 : ‖vc v x0‖ ≤ 1.001 * σ0) (h1 : ‖vc v x1‖ ≤ 1.001 * σ1) (h2 : ‖vc v x2‖ ≤ 1.001 * σ2) (ha : ‖vc v a‖ ≤ 1.0001) (hb : ‖vc v b‖ ≤ 1.0001) :
    ‖vc v (nout3 N x0 x1 x2 a b) - (vc v x0 + vc v x1 * vc v a + vc v x2 * vc v b)‖ ≤ 78 / 10 ^ 8 * (σ0 + σ1 + σ2) := by
  have p0 := Ap.self v x0.1 _ ((Complex.abs_re_le_norm (vc v x0)).trans h0)
  have q0 := Ap.self v x0.2 _ ((Complex.abs_im_le_norm (vc v x0)).trans h0)
  have p1 := Ap.self v x1.1 _ ((Complex.abs_re_le_norm (vc v x1)).trans h1)
  have q1 := Ap.self v x1.2 _ ((Complex.abs_im_le_norm (vc v x1)).trans h1)
  have p2 := Ap.self v x2.1 _ ((Complex.abs_re_le_norm (vc v x2)).trans h2)
  have q2 := Ap.self v x2.2 _ ((Complex.abs_im_le_norm (vc v x2)).trans h2)
  have ar := (Complex.abs_re_le_norm (vc v a)).trans ha
  have ai := (Complex.abs_im_le_norm (vc v a)).trans ha
  have br := (Complex.abs_re_le_norm (vc v b)).trans hb
  have bi := (Complex.abs_im_le_norm (vc v b)).trans hb
  have n1 := Ap.fneg hN q1
  have n2 := Ap.fneg hN q2
  refine (norm_of_parts _ (550 / 10 ^ 9 * (σ0 + σ1 + σ2)) ?_ ?_).trans (by linarith)
  · have r := Ap.fma hN (Ap.fma hN (Ap.fma hN (Ap.fma hN p0 p1 _ ar (by linarith)) n1 _ ai (by linarith)) p2 _ br (by linarith)) n2 _ bi (by linarith)
    refine (le_of_eq ?_).trans (r.1.trans (by linarith))
    congr 1
    simp [vc, nout3]; ring
  · have r := Ap.fma hN (Ap.fma hN (Ap.fma hN (Ap.fma hN q0 q1 _ ar (by linarith)) p1 _ ai (by linarith)) q2 _ br (by linarith)) p2 _ bi (by linarith)
    refine (le_of_eq ?_).trans (r.1.trans (by linarith))
    congr 1
    simp [vc, nout3]; ring

set_option maxHeartbeats 4000000 in
theorem nround5 (N : Neon R) (v : R → ℝ) (hN : ApproxN N v) (T : MdctTables R) (x0 x1 x2 x3 x4 : R × R) (r : ℕ) (hr : r < 5) (σ0 σ1 σ2 σ3 σ4 : ℝ)
    (f0 : 1 / 2 ^ 110 ≤ σ0) (f1 : 1 / 2 ^ 110 ≤ σ1) (f2 : 1 / 2 ^ 110 ≤ σ2) (f3 : 1 / 2 ^ 110 ≤ σ3) (f4 : 1 / 2 ^ 110 ≤ σ4)
    (c0 : σ0 ≤ 2 ^ 110) (c1 : σ1 ≤ 2 ^ 110) (c2 : σ2 ≤ 2 ^ 110) (c3 : σ3 ≤ 2 ^ 110) (c4 : σ4 ≤ 2 ^ 110)
    (h0 : ‖vc v x0‖ ≤ σ0) (h1 : ‖vc v x1‖ ≤ σ1) (h2 : ‖vc v x2‖ ≤ σ2) (h3 : ‖vc v x3‖ ≤ σ3) (h4 : ‖vc v x4‖ ≤ σ4)
    (k1 : |v T.cos1| ≤ 1.0001) (k2 : |v T.cos2| ≤ 1.0001) (k3 : |v T.sin1| ≤ 1.0001) (k4 : |v T.sin2| ≤ 1.0001) :
    ‖vc v (ndft5 N T x0 x1 x2 x3 x4 r) - (vc v x0 * root5 v T (r * 0 % 5) + vc v x1 * root5 v T (r * 1 % 5) + vc v x2 * root5 v T (r * 2 % 5) +
      vc v x3 * root5 v T (r * 3 % 5) + vc v x4 * root5 v T (r * 4 % 5))‖ ≤ 95 / 10 ^ 8 * (σ0 + σ1 + σ2 + σ3 + σ4) := by
  have hA := hN.base
  have k3' : |v (N.fneg T.sin1)| ≤ 1.0001 := by rw [hN.fneg, abs_neg]; exact k3
  have k4' : |v (N.fneg T.sin2)| ≤ 1.0001 := by rw [hN.fneg, abs_neg]; exact k4
  have p0 := Ap.self v x0.1 _ ((Complex.abs_re_le_norm (vc v x0)).trans h0)
  have q0 := Ap.self v x0.2 _ ((Complex.abs_im_le_norm (vc v x0)).trans h0)
  have p1 := Ap.self v x1.1 _ ((Complex.abs_re_le_norm (vc v x1)).trans h1)
  have q1 := Ap.self v x1.2 _ ((Complex.abs_im_le_norm (vc v x1)).trans h1)
  have p2 := Ap.self v x2.1 _ ((Complex.abs_re_le_norm (vc v x2)).trans h2)
  have q2 := Ap.self v x2.2 _ ((Complex.abs_im_le_norm (vc v x2)).trans h2)
  have p3 := Ap.self v x3.1 _ ((Complex.abs_re_le_norm (vc v x3)).trans h3)
  have q3 := Ap.self v x3.2 _ ((Complex.abs_im_le_norm (vc v x3)).trans h3)
  have p4 := Ap.self v x4.1 _ ((Complex.abs_re_le_norm (vc v x4)).trans h4)
  have q4 := Ap.self v x4.2 _ ((Complex.abs_im_le_norm (vc v x4)).trans h4)
  have s14r := Ap.add hA p1 p4 (by linarith)
  have s14i := Ap.add hA q1 q4 (by linarith)
  have d14r := Ap.sub hA p1 p4 (by linarith)
  have d14i := Ap.sub hA q1 q4 (by linarith)
  have s23r := Ap.add hA p2 p3 (by linarith)
  have s23i := Ap.add hA q2 q3 (by linarith)
  have d23r := Ap.sub hA p2 p3 (by linarith)
  have d23i := Ap.sub hA q2 q3 (by linarith)
  have ar := Ap.fma hN (Ap.fma hN p0 s14r _ k1 (by linarith)) s23r _ k2 (by linarith)
  have ai := Ap.fma hN (Ap.fma hN q0 s14i _ k1 (by linarith)) s23i _ k2 (by linarith)
  have br := Ap.fma hN (Ap.fma hN p0 s14r _ k2 (by linarith)) s23r _ k1 (by linarith)
  have bi := Ap.fma hN (Ap.fma hN q0 s14i _ k2 (by linarith)) s23i _ k1 (by linarith)
  refine (norm_of_parts _ (670 / 10 ^ 9 * (σ0 + σ1 + σ2 + σ3 + σ4)) ?_ ?_).trans (by linarith)
  · interval_cases r
    · have r := Ap.add hA p0 (Ap.add hA s14r s23r (by linarith)) (by linarith)
      refine (le_of_eq ?_).trans (r.1.trans (by linarith))
      congr 1
      simp [vc, ndft5, root5]; ring
    · have r := Ap.fma hN (Ap.fma hN ar d14i _ k3' (by linarith)) d23i _ k4' (by linarith)
      refine (le_of_eq ?_).trans (r.1.trans (by linarith))
      congr 1
      simp [vc, ndft5, root5, hN.fneg]; ring
    · have r := Ap.fms hN (Ap.fma hN br d14i _ k4' (by linarith)) d23i _ k3' (by linarith)
      refine (le_of_eq ?_).trans (r.1.trans (by linarith))
      congr 1
      simp [vc, ndft5, root5, hN.fneg]; ring
    · have r := Ap.fma hN (Ap.fms hN br d14i _ k4' (by linarith)) d23i _ k3' (by linarith)
      refine (le_of_eq ?_).trans (r.1.trans (by linarith))
      congr 1
      simp [vc, ndft5, root5, hN.fneg]; ring
    · have r := Ap.fms hN (Ap.fms hN ar d14i _ k3' (by linarith)) d23i _ k4' (by linarith)
      refine (le_of_eq ?_).trans (r.1.trans (by linarith))
      congr 1
      simp [vc, ndft5, root5, hN.fneg]; ring
  · interval_cases r
    · have r := Ap.add hA q0 (Ap.add hA s14i s23i (by linarith)) (by linarith)
      refine (le_of_eq ?_).trans (r.1.trans (by linarith))
      congr 1
      simp [vc, ndft5, root5]; ring
    · have r := Ap.fma hN (Ap.fma hN ai d14r _ k3 (by linarith)) d23r _ k4 (by linarith)
      refine (le_of_eq ?_).trans (r.1.trans (by linarith))
      congr 1
      simp [vc, ndft5, root5]; ring
    · have r := Ap.fms hN (Ap.fma hN bi d14r _ k4 (by linarith)) d23r _ k3 (by linarith)
      refine (le_of_eq ?_).trans (r.1.trans (by linarith))
      congr 1
      simp [vc, ndft5, root5]; ring
    · have r := Ap.fma hN (Ap.fms hN bi d14r _ k4 (by linarith)) d23r _ k3 (by linarith)
      refine (le_of_eq ?_).trans (r.1.trans (by linarith))
      congr 1
      simp [vc, ndft5, root5]; ring
    · have r := Ap.fms hN (Ap.fms hN ai d14r _ k3 (by linarith)) d23r _ k4 (by linarith)
      refine (le_of_eq ?_).trans (r.1.trans (by linarith))
      congr 1
      simp [vc, ndft5, root5]; ring

theorem nerr2 (N : Neon R) (v : R → ℝ) (hN : ApproxN N v) (x0 x1 a : R × R) (s : ℕ) (hs : s < 2) (z0 z1 ω : ℂ) (σ0 σ1 γ : ℝ)
    (f0 : 1 / 2 ^ 110 ≤ σ0) (f1 : 1 / 2 ^ 110 ≤ σ1) (c0 : σ0 ≤ 2 ^ 110) (c1 : σ1 ≤ 2 ^ 110) (hγ0 : 0 ≤ γ) (hγ : γ ≤ 1 / 1000)
    (h0 : ‖z0‖ ≤ σ0) (h1 : ‖z1‖ ≤ σ1) (e0 : ‖vc v x0 - z0‖ ≤ γ * σ0) (e1 : ‖vc v x1 - z1‖ ≤ γ * σ1) (hω : ‖ω‖ = 1)
    (ha : ‖vc v a - ω‖ ≤ 1 / 10 ^ 7) :
    ‖vc v (nout2 N x0 x1 a s) - (z0 + z1 * ((-1) ^ s * ω))‖ ≤ (γ + 56 / 10 ^ 8) * (σ0 + σ1) :=
  err2_gen v x0 x1 a _ s z0 z1 ω σ0 σ1 γ (fun n0 n1 na => nround2 N v hN x0 x1 a s hs σ0 σ1 f0 f1 c0 c1 n0 n1 na) f0 f1 hγ0 hγ h0 h1 e0 e1 hω ha

theorem nerr3 (N : Neon R) (v : R → ℝ) (hN : ApproxN N v) (x0 x1 x2 a b : R × R) (z0 z1 z2 ω ω' : ℂ) (σ0 σ1 σ2 γ : ℝ)
    (f0 : 1 / 2 ^ 110 ≤ σ0) (f1 : 1 / 2 ^ 110 ≤ σ1) (f2 : 1 / 2 ^ 110 ≤ σ2) (c0 : σ0 ≤ 2 ^ 110) (c1 : σ1 ≤ 2 ^ 110) (c2 : σ2 ≤ 2 ^ 110)
    (hγ0 : 0 ≤ γ) (hγ : γ ≤ 1 / 1000)
    (h0 : ‖z0‖ ≤ σ0) (h1 : ‖z1‖ ≤ σ1) (h2 : ‖z2‖ ≤ σ2) (e0 : ‖vc v x0 - z0‖ ≤ γ * σ0) (e1 : ‖vc v x1 - z1‖ ≤ γ * σ1)
    (e2 : ‖vc v x2 - z2‖ ≤ γ * σ2) (hω : ‖ω‖ = 1) (hω' : ‖ω'‖ = 1) (ha : ‖vc v a - ω‖ ≤ 1 / 10 ^ 7) (hb : ‖vc v b - ω'‖ ≤ 1 / 10 ^ 7) :
    ‖vc v (nout3 N x0 x1 x2 a b) - (z0 + z1 * ω + z2 * ω')‖ ≤ (γ + 90 / 10 ^ 8) * (σ0 + σ1 + σ2) :=
  err3_gen v x0 x1 x2 a b _ z0 z1 z2 ω ω' σ0 σ1 σ2 γ (fun n0 n1 n2 na nb => nround3 N v hN x0 x1 x2 a b σ0 σ1 σ2 f0 f1 f2 c0 c1 c2 n0 n1 n2 na nb)
    f0 f1 f2 hγ0 hγ h0 h1 h2 e0 e1 e2 hω hω' ha hb

theorem nerr5 (N : Neon R) (v : R → ℝ) (hN : ApproxN N v) (T : MdctTables R) (hT : Near5 v T) (x0 x1 x2 x3 x4 : R × R) (r : ℕ) (hr : r < 5) (σ0 σ1 σ2 σ3 σ4 : ℝ)
    (f0 : 1 / 2 ^ 110 ≤ σ0) (f1 : 1 / 2 ^ 110 ≤ σ1) (f2 : 1 / 2 ^ 110 ≤ σ2) (f3 : 1 / 2 ^ 110 ≤ σ3) (f4 : 1 / 2 ^ 110 ≤ σ4)
    (c0 : σ0 ≤ 2 ^ 110) (c1 : σ1 ≤ 2 ^ 110) (c2 : σ2 ≤ 2 ^ 110) (c3 : σ3 ≤ 2 ^ 110) (c4 : σ4 ≤ 2 ^ 110)
    (h0 : ‖vc v x0‖ ≤ σ0) (h1 : ‖vc v x1‖ ≤ σ1) (h2 : ‖vc v x2‖ ≤ σ2) (h3 : ‖vc v x3‖ ≤ σ3) (h4 : ‖vc v x4‖ ≤ σ4) :
    ‖vc v (ndft5 N T x0 x1 x2 x3 x4 r) - (vc v x0 * W 5 (r * 0) + vc v x1 * W 5 (r * 1) + vc v x2 * W 5 (r * 2) +
      vc v x3 * W 5 (r * 3) + vc v x4 * W 5 (r * 4))‖ ≤ 110 / 10 ^ 8 * (σ0 + σ1 + σ2 + σ3 + σ4) :=
  err5_gen v T hT x0 x1 x2 x3 x4 _ r σ0 σ1 σ2 σ3 σ4 (fun k1 k2 k3 k4 => nround5 N v hN T x0 x1 x2 x3 x4 r hr σ0 σ1 σ2 σ3 σ4 f0 f1 f2 f3 f4 c0 c1 c2 c3 c4
    h0 h1 h2 h3 h4 k1 k2 k3 k4) f0 f1 f2 f3 f4 h0 h1 h2 h3 h4

/-! ### Stages -/

theorem nstageErr5 (N : Neon R) (v : R → ℝ) (hN : ApproxN N v) (z : R) (T : MdctTables R) (h : Near5 v T) (m : ℕ) (x y : List R) (S : ℕ → ℝ)
    (hS : ∀ l, l < 5 * m → ‖vc v (cAt z x l)‖ ≤ S l) (hF : ∀ l, 1 / 2 ^ 110 ≤ S l) (hC : ∑ k ∈ range (5 * m), S k ≤ 2 ^ 110)
    (he : m % 2 = 0) (hx : 10 * m ≤ x.length) (hy : 10 * m ≤ y.length) :
    ∃ y', neonFft5 N T m x y = some y' ∧ y'.length = y.length ∧
      StageErr (fun k => vc v (cAt z x k)) S 5 m (110 / 10 ^ 8) (fun k => vc v (cAt z y' k)) := by
  obtain ⟨y', h1, h2, h3, -⟩ := neonFft5_full z N T m he x y hx hy
  refine ⟨y', h1, h2, fun i k hi hk => ?_⟩
  have hc : ∀ q, q < 5 → S (i + q * m) ≤ 2 ^ 110 := by
    intro q hq
    have hS0 : ∀ l, 0 ≤ S l := fun l => le_trans (by positivity) (hF l)
    refine (Finset.single_le_sum (f := S) (fun l _ => hS0 l) (Finset.mem_range.mpr ?_)).trans hC
    have : q * m ≤ 4 * m := Nat.mul_le_mul_right m (by omega)
    omega
  have := nerr5 N v hN T h (cAt z x i) (cAt z x (i + m)) (cAt z x (i + 2 * m)) (cAt z x (i + 3 * m)) (cAt z x (i + 4 * m)) k hk
    (S (i + 0 * m)) (S (i + 1 * m)) (S (i + 2 * m)) (S (i + 3 * m)) (S (i + 4 * m)) (hF _) (hF _) (hF _) (hF _) (hF _)
    (hc 0 (by decide)) (hc 1 (by decide)) (hc 2 (by decide)) (hc 3 (by decide)) (hc 4 (by decide))
    (by rw [Nat.zero_mul, Nat.add_zero]; exact hS _ (by omega)) (by rw [Nat.one_mul]; exact hS _ (by omega)) (hS _ (by omega)) (hS _ (by omega))
    (hS _ (by omega))
  dsimp only
  rw [Nat.mul_comm i 5, h3 i k hi hk]
  simp only [Finset.sum_range_succ, Finset.sum_range_zero, zero_add]
  rw [Nat.zero_mul, Nat.add_zero, Nat.one_mul] at this ⊢
  exact this

theorem nstageErr2 (N : Neon R) (v : R → ℝ) (hN : ApproxN N v) (z : R) (x : ℕ → ℂ) (S : ℕ → ℝ) (B m : ℕ) (γ : ℝ) (hγ0 : 0 ≤ γ) (hγ : γ ≤ 1 / 1000)
    (tw : Option (ℕ × List R)) (ht : NearBf2 v z B tw) (hB : 0 < B)
    (hS : ∀ l, l < 2 * m * B → ‖x l‖ ≤ S l) (hF : ∀ l, 1 / 2 ^ 110 ≤ S l) (hC : ∑ k ∈ range (2 * m * B), S k ≤ 2 ^ 110) (src dst : List R)
    (hs : 2 * (B * (2 * m)) ≤ src.length) (hd : 2 * (B * (2 * m)) ≤ dst.length) (h : StageErr x S B (2 * m) γ (fun k => vc v (cAt z src k))) :
    ∃ t y', tw = some t ∧ neonFftBf2 N t m src dst = some y' ∧ y'.length = dst.length ∧
      StageErr x S (2 * B) m (γ + 56 / 10 ^ 8) (fun k => vc v (cAt z y' k)) := by
  obtain ⟨w, rfl, hw, hW⟩ := ht
  have e : 2 * (B * (2 * m)) = 4 * (m * B) := by ring
  rw [e] at hs hd
  obtain ⟨y', h1, h2, h3, -⟩ := neonBf2_full z N B w m src dst hw hs hd
  refine ⟨_, y', rfl, h1, h2, stageErr_step x S _ _ B m 2 γ _ hB (by decide) hS hF hC h fun i j s hi hj hs2 q σ hq => ?_⟩
  obtain ⟨a0, a1, a2, a3⟩ := hq 0 (by decide)
  obtain ⟨b0, b1, b2, b3⟩ := hq 1 (by decide)
  rw [Nat.zero_mul, Nat.add_zero] at a3
  rw [Nat.one_mul] at b3
  have := nerr2 N v hN (cAt z src (i * B + j)) (cAt z src (i * B + j + m * B)) (cAt z w j) s hs2 (q 0) (q 1) (W (2 * B) j) (σ 0) (σ 1) γ
    a1 b1 a2 b2 hγ0 hγ a0 b0 a3 b3 (W_norm _ _) (hW j hj)
  rw [h3 i j s hi hj hs2]
  simp only [Finset.sum_range_succ, Finset.sum_range_zero, zero_add, Nat.mul_zero, Nat.mul_one]
  rw [W_zero, mul_one]
  refine le_trans (le_of_eq ?_) this
  congr 4
  interval_cases s
  · rw [pow_zero, one_mul, Nat.zero_mul, Nat.zero_add]
  · rw [pow_one, Nat.one_mul, W_add, W_half B hB]

theorem nstageErr3 (N : Neon R) (v : R → ℝ) (hN : ApproxN N v) (z : R) (x : ℕ → ℂ) (S : ℕ → ℝ) (B m : ℕ) (γ : ℝ) (hγ0 : 0 ≤ γ) (hγ : γ ≤ 1 / 1000)
    (tw : Option (ℕ × List R)) (ht : NearBf3 v z B tw) (hB : 0 < B)
    (hS : ∀ l, l < 3 * m * B → ‖x l‖ ≤ S l) (hF : ∀ l, 1 / 2 ^ 110 ≤ S l) (hC : ∑ k ∈ range (3 * m * B), S k ≤ 2 ^ 110) (src dst : List R)
    (hs : 2 * (B * (3 * m)) ≤ src.length) (hd : 2 * (B * (3 * m)) ≤ dst.length) (h : StageErr x S B (3 * m) γ (fun k => vc v (cAt z src k))) :
    ∃ t y', tw = some t ∧ neonFftBf3 N t m src dst = some y' ∧ y'.length = dst.length ∧
      StageErr x S (3 * B) m (γ + 90 / 10 ^ 8) (fun k => vc v (cAt z y' k)) := by
  obtain ⟨w, rfl, hw, hW⟩ := ht
  have e : 2 * (B * (3 * m)) = 6 * (m * B) := by ring
  rw [e] at hs hd
  obtain ⟨y', h1, h2, h3, -⟩ := neonBf3_full z N B w m src dst hw hs hd
  refine ⟨_, y', rfl, h1, h2, stageErr_step x S _ _ B m 3 γ _ hB (by decide) hS hF hC h fun i j s hi hj hs2 q σ hq => ?_⟩
  obtain ⟨a0, a1, a2, a3⟩ := hq 0 (by decide)
  obtain ⟨b0, b1, b2, b3⟩ := hq 1 (by decide)
  obtain ⟨c0, c1, c2, c3⟩ := hq 2 (by decide)
  rw [Nat.zero_mul, Nat.add_zero] at a3
  rw [Nat.one_mul] at b3
  have hk : s * B + j < 3 * B := mul_lt_of hs2 hj
  have := nerr3 N v hN (cAt z src (i * B + j)) (cAt z src (i * B + j + m * B)) (cAt z src (i * B + j + 2 * (m * B))) (cAt z w (2 * (s * B + j)))
    (cAt z w (2 * (s * B + j) + 1)) (q 0) (q 1) (q 2) (W (3 * B) (s * B + j)) (W (3 * B) (2 * (s * B + j))) (σ 0) (σ 1) (σ 2) γ
    a1 b1 c1 a2 b2 c2 hγ0 hγ a0 b0 c0 a3 b3 c3 (W_norm _ _) (W_norm _ _) (hW _ hk).1 (hW _ hk).2
  rw [h3 i j s hi hj hs2]
  simp only [Finset.sum_range_succ, Finset.sum_range_zero, zero_add, Nat.mul_zero, Nat.mul_one]
  rw [W_zero, mul_one, Nat.mul_comm (s * B + j) 2]
  exact this

/-! ### The loops -/

theorem nloop3_err (N : Neon R) (v : R → ℝ) (hN : ApproxN N v) (z : R) (T : MdctTables R) (x : ℕ → ℂ) (S : ℕ → ℝ)
    (hF : ∀ l, 1 / 2 ^ 110 ≤ S l) (b : ℕ) : ∀ (a i3 fuel B : ℕ) (γ : ℝ) (swap : Bool) (src dst : List R), a < fuel → 0 < B →
    0 ≤ γ → γ + a * (90 / 10 ^ 8) ≤ 1 / 1000 → (∀ l, l < B * (3 ^ a * 2 ^ b) → ‖x l‖ ≤ S l) →
    (∀ i, i < a → NearBf3 v z (B * 3 ^ i) (T.bf3 (i3 + i))) → ∑ k ∈ range (B * (3 ^ a * 2 ^ b)), S k ≤ 2 ^ 110 →
    2 * (B * (3 ^ a * 2 ^ b)) ≤ src.length →
    2 * (B * (3 ^ a * 2 ^ b)) ≤ dst.length → StageErr x S B (3 ^ a * 2 ^ b) γ (fun k => vc v (cAt z src k)) →
    ∃ swap' src' dst', neonLoop3 N T fuel (3 ^ a * 2 ^ b) i3 swap src dst = some (2 ^ b, i3 + a, swap', src', dst') ∧
      (if swap' = swap then src'.length = src.length ∧ dst'.length = dst.length else src'.length = dst.length ∧ dst'.length = src.length) ∧
      StageErr x S (B * 3 ^ a) (2 ^ b) (γ + a * (90 / 10 ^ 8)) (fun k => vc v (cAt z src' k)) := by
  intro a
  induction a with
  | zero =>
    intro i3 fuel B γ swap src dst hf _ _ _ _ _ _ _ _ hs
    obtain ⟨f, rfl⟩ : ∃ f, fuel = f + 1 := ⟨fuel - 1, by omega⟩
    rw [Nat.pow_zero, Nat.one_mul] at hs ⊢
    refine ⟨swap, src, dst, ?_, by rw [if_pos rfl]; exact ⟨rfl, rfl⟩, by rw [Nat.mul_one, Nat.cast_zero, zero_mul, add_zero]; exact hs⟩
    rw [neonLoop3, if_pos (and_pred_pow2 b)]; rfl
  | succ a ih =>
    intro i3 fuel B γ swap src dst hf hB hγ0 hγ hS hT hC hs hd hSt
    obtain ⟨f, rfl⟩ : ∃ f, fuel = f + 1 := ⟨fuel - 1, by omega⟩
    have e : 3 ^ (a + 1) * 2 ^ b = 3 * (3 ^ a * 2 ^ b) := by ring
    have ht := hT 0 (by omega)
    rw [Nat.pow_zero, Nat.mul_one, Nat.add_zero] at ht
    have ha0 : (0 : ℝ) ≤ a := Nat.cast_nonneg a
    push_cast at hγ
    obtain ⟨t, y', h1, h2, h3, h4⟩ := nstageErr3 N v hN z x S B (3 ^ a * 2 ^ b) γ hγ0 (by linarith) (T.bf3 i3) ht hB (by rw [← e, Nat.mul_comm]; exact hS) hF
      (by rw [← e, Nat.mul_comm]; exact hC) src dst (by rw [← e]; exact hs) (by rw [← e]; exact hd) (by rw [← e]; exact hSt)
    have e2 : B * (3 ^ (a + 1) * 2 ^ b) = 3 * B * (3 ^ a * 2 ^ b) := by ring
    rw [e2] at hs hd hC hS
    obtain ⟨sw, src', dst', g1, g2, g3⟩ := ih (i3 + 1) f (3 * B) (γ + 90 / 10 ^ 8) (!swap) y' src (by omega) (by omega) (by linarith) (by linarith) hS
      (fun i hi => by
        have := hT (i + 1) (by omega)
        rw [show 3 * B * 3 ^ i = B * 3 ^ (i + 1) by ring, show i3 + 1 + i = i3 + (i + 1) by omega]
        exact this) hC (by rw [h3]; exact hd) hs h4
    refine ⟨sw, src', dst', ?_, ?_, by
      rw [show B * 3 ^ (a + 1) = 3 * B * 3 ^ a by ring, show γ + ((a + 1 : ℕ) : ℝ) * (90 / 10 ^ 8) = γ + 90 / 10 ^ 8 + a * (90 / 10 ^ 8) by push_cast; ring]
      exact g3⟩
    · rw [neonLoop3, if_neg (and_pred_ne a b), h1, Option.bind_some, show 3 ^ (a + 1) * 2 ^ b / 3 = 3 ^ a * 2 ^ b by omega, h2,
        Option.bind_some, g1, show i3 + 1 + a = i3 + (a + 1) by omega]
    · rw [h3] at g2
      by_cases hw : sw = swap
      · subst hw; rw [if_neg (by simp)] at g2; rw [if_pos rfl]; exact g2
      · rw [if_pos (by revert hw; cases sw <;> cases swap <;> simp)] at g2; rw [if_neg hw]; exact g2

theorem nloop2_err (N : Neon R) (v : R → ℝ) (hN : ApproxN N v) (z : R) (T : MdctTables R) (x : ℕ → ℂ) (S : ℕ → ℝ)
    (hF : ∀ l, 1 / 2 ^ 110 ≤ S l) (i3 : ℕ) : ∀ (b i2 fuel B : ℕ) (γ : ℝ) (swap : Bool) (src dst : List R), b < fuel → 0 < B →
    0 ≤ γ → γ + b * (56 / 10 ^ 8) ≤ 1 / 1000 → (∀ l, l < B * 2 ^ b → ‖x l‖ ≤ S l) →
    (∀ i, i < b → NearBf2 v z (B * 2 ^ i) (T.bf2 (i2 + i) i3)) → ∑ k ∈ range (B * 2 ^ b), S k ≤ 2 ^ 110 → 2 * (B * 2 ^ b) ≤ src.length →
    2 * (B * 2 ^ b) ≤ dst.length → StageErr x S B (2 ^ b) γ (fun k => vc v (cAt z src k)) →
    ∃ swap' src' dst', neonLoop2 N T i3 fuel (2 ^ b) i2 swap src dst = some (swap', src', dst') ∧
      (if swap' = swap then src'.length = src.length ∧ dst'.length = dst.length else src'.length = dst.length ∧ dst'.length = src.length) ∧
      StageErr x S (B * 2 ^ b) 1 (γ + b * (56 / 10 ^ 8)) (fun k => vc v (cAt z src' k)) := by
  intro b
  induction b with
  | zero =>
    intro i2 fuel B γ swap src dst hf _ _ _ _ _ _ _ _ hs
    obtain ⟨f, rfl⟩ : ∃ f, fuel = f + 1 := ⟨fuel - 1, by omega⟩
    refine ⟨swap, src, dst, ?_, by rw [if_pos rfl]; exact ⟨rfl, rfl⟩, by rw [Nat.pow_zero, Nat.mul_one, Nat.cast_zero, zero_mul, add_zero]; exact hs⟩
    rw [neonLoop2, if_pos (by decide)]
  | succ b ih =>
    intro i2 fuel B γ swap src dst hf hB hγ0 hγ hS hT hC hs hd hSt
    obtain ⟨f, rfl⟩ : ∃ f, fuel = f + 1 := ⟨fuel - 1, by omega⟩
    have e : 2 ^ (b + 1) = 2 * 2 ^ b := by ring
    have ht := hT 0 (by omega)
    rw [Nat.pow_zero, Nat.mul_one, Nat.add_zero] at ht
    have ha0 : (0 : ℝ) ≤ b := Nat.cast_nonneg b
    push_cast at hγ
    obtain ⟨t, y', h1, h2, h3, h4⟩ := nstageErr2 N v hN z x S B (2 ^ b) γ hγ0 (by linarith) (T.bf2 i2 i3) ht hB (by rw [← e, Nat.mul_comm]; exact hS) hF
      (by rw [← e, Nat.mul_comm]; exact hC) src dst (by rw [← e]; exact hs) (by rw [← e]; exact hd) (by rw [← e]; exact hSt)
    have e2 : B * 2 ^ (b + 1) = 2 * B * 2 ^ b := by ring
    rw [e2] at hs hd hC hS
    obtain ⟨sw, src', dst', g1, g2, g3⟩ := ih (i2 + 1) f (2 * B) (γ + 56 / 10 ^ 8) (!swap) y' src (by omega) (by omega) (by linarith) (by linarith) hS
      (fun i hi => by
        have := hT (i + 1) (by omega)
        rw [show 2 * B * 2 ^ i = B * 2 ^ (i + 1) by ring, show i2 + 1 + i = i2 + (i + 1) by omega]
        exact this) hC (by rw [h3]; exact hd) hs h4
    have hpos := Nat.pow_pos (n := b) (show 0 < 2 by decide)
    refine ⟨sw, src', dst', ?_, ?_, by
      rw [e2, show γ + ((b + 1 : ℕ) : ℝ) * (56 / 10 ^ 8) = γ + 56 / 10 ^ 8 + b * (56 / 10 ^ 8) by push_cast; ring]
      exact g3⟩
    · rw [neonLoop2, if_neg (by omega), h1, Option.bind_some, show 2 ^ (b + 1) / 2 = 2 ^ b by omega, h2, Option.bind_some, g1]
    · rw [h3] at g2
      by_cases hw : sw = swap
      · subst hw; rw [if_neg (by simp)] at g2; rw [if_pos rfl]; exact g2
      · rw [if_pos (by revert hw; cases sw <;> cases swap <;> simp)] at g2; rw [if_neg hw]; exact g2

theorem nfft_err (N : Neon R) (v : R → ℝ) (hN : ApproxN N v) (z : R) (T : MdctTables R) (a b : ℕ) (hb0 : 0 < b) (hT : NearFft v z T a b) (hab : fftTol a b ≤ 1 / 1000)
    (y0 y1 : List R) (S : ℕ → ℝ) (hS : ∀ l, l < 5 * 3 ^ a * 2 ^ b → ‖vc v (cAt z y0 l)‖ ≤ S l) (hF : ∀ l, 1 / 2 ^ 110 ≤ S l)
    (hC : ∑ k ∈ range (5 * 3 ^ a * 2 ^ b), S k ≤ 2 ^ 110) (h0 : 2 * (5 * 3 ^ a * 2 ^ b) ≤ y0.length) (h1 : 2 * (5 * 3 ^ a * 2 ^ b) ≤ y1.length) :
    ∃ in0 z0 z1, neonFft N T (5 * 3 ^ a * 2 ^ b) y0 y1 = some (in0, z0, z1) ∧ z0.length = y0.length ∧ z1.length = y1.length ∧
      ∀ k, k < 5 * 3 ^ a * 2 ^ b → ‖vc v (cAt z (if in0 then z0 else z1) k) -
        ∑ l ∈ range (5 * 3 ^ a * 2 ^ b), vc v (cAt z y0 l) * W (5 * 3 ^ a * 2 ^ b) (k * l)‖ ≤ fftTol a b * ∑ l ∈ range (5 * 3 ^ a * 2 ^ b), S l := by
  have e : 5 * 3 ^ a * 2 ^ b = 5 * (3 ^ a * 2 ^ b) := by ring
  have hpa := Nat.pow_pos (n := a) (show 0 < 3 by decide)
  have ha : a < 3 ^ a * 2 ^ b + 1 := by
    have h2 : 3 ^ a ≤ 3 ^ a * 2 ^ b := Nat.le_mul_of_pos_right _ (Nat.pow_pos (by decide))
    have h3 : a < 3 ^ a := Nat.lt_pow_self (by decide)
    omega
  have hb : b < 2 ^ b + 1 := by have : b < 2 ^ b := Nat.lt_pow_self (by decide)
                                omega
  have a0 : (0 : ℝ) ≤ a := Nat.cast_nonneg a
  have b0 : (0 : ℝ) ≤ b := Nat.cast_nonneg b
  unfold fftTol at hab ⊢
  obtain ⟨u1, f1, f2, f3⟩ := nstageErr5 N v hN z T hT.c5 (3 ^ a * 2 ^ b) y0 y1 S (by rw [← e]; exact hS) hF (by rw [← e]; exact hC)
    (by obtain ⟨c, rfl⟩ : ∃ c, b = c + 1 := ⟨b - 1, by omega⟩; rw [pow_succ, ← mul_assoc]; omega) (by omega) (by omega)
  obtain ⟨sw, s2, d2, g1, g2, g3⟩ := nloop3_err N v hN z T _ S hF b a 0 (3 ^ a * 2 ^ b + 1) 5 (110 / 10 ^ 8) false u1 y0 ha (by decide)
    (by positivity) (by linarith) (by rw [← e]; exact hS) (fun i hi => by rw [Nat.zero_add]; exact hT.bf3 i hi) (by rw [← e]; exact hC) (by omega) (by omega) f3
  have hL : 2 * (5 * 3 ^ a * 2 ^ b) ≤ s2.length ∧ 2 * (5 * 3 ^ a * 2 ^ b) ≤ d2.length := by
    by_cases hsw : sw = false
    · rw [if_pos hsw] at g2; omega
    · rw [if_neg hsw] at g2; omega
  obtain ⟨sw', s3, d3, k1, k2, k3⟩ := nloop2_err N v hN z T _ S hF a b 0 (2 ^ b + 1) (5 * 3 ^ a) (110 / 10 ^ 8 + a * (90 / 10 ^ 8)) sw s2 d2 hb (by omega)
    (by positivity) hab hS (fun i hi => by rw [Nat.zero_add]; exact hT.bf2 i hi) hC hL.1 hL.2 g3
  refine ⟨sw', if sw' then s3 else d3, if sw' then d3 else s3, ?_, ?_, ?_, ?_⟩
  · unfold neonFft
    rw [show 5 * 3 ^ a * 2 ^ b / 5 = 3 ^ a * 2 ^ b by omega, f1]
    dsimp only [bind, Option.bind]
    rw [g1]
    dsimp only
    rw [Nat.zero_add, k1]
    cases sw' <;> rfl
  · revert g2 k2; rw [f2]; cases sw <;> cases sw' <;> simp <;> intros <;> omega
  · revert g2 k2; rw [f2]; cases sw <;> cases sw' <;> simp <;> intros <;> omega
  · intro k hk
    have := k3 0 k (by decide) hk
    rw [Nat.zero_mul, Nat.zero_add] at this
    simp only [Nat.zero_add, Nat.mul_one] at this
    rw [show (if sw' = true then (if sw' = true then s3 else d3) else (if sw' = true then d3 else s3)) = s3 by cases sw' <;> rfl]
    exact this

theorem neonFftOk (N : Neon R) (v : R → ℝ) (hN : ApproxN N v) (z : R) (T : MdctTables R) (a b m : ℕ) (hb : 0 < b) (hm : m = 5 * 3 ^ a * 2 ^ b)
    (hT : NearFft v z T a b) (hab : fftTol a b ≤ 1 / 1000) : FftOk v z (neonFft N T m) m (fftTol a b) := by
  subst hm
  exact fun y0 y1 S hS hF hC h0 h1 => nfft_err N v hN z T a b hb hT hab y0 y1 S hS hF hC h0 h1

end LC3
