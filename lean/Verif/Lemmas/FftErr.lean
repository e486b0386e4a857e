import Verif.Lemmas.Dft
import Mathlib.Tactic.Linarith
import Mathlib.Tactic.NormNum

/-! Rounding errors of the FFT of `src/mdct.c`. -/

namespace LC3

open Complex Finset

/-- An arithmetic with operations within half a unit of the 24th significant bit, or of `2^-149`, as long as the outcome does not go
over `2^126`; `v` is the value of a number. -/
structure Approx {R : Type} (A : Arith R) (v : R → ℝ) : Prop where
  add : ∀ a b, |v a + v b| ≤ 2 ^ 126 → |v (A.add a b) - (v a + v b)| ≤ (|v a + v b| + 1 / 2 ^ 126) / 2 ^ 24
  sub : ∀ a b, |v a - v b| ≤ 2 ^ 126 → |v (A.sub a b) - (v a - v b)| ≤ (|v a - v b| + 1 / 2 ^ 126) / 2 ^ 24
  mul : ∀ a b, |v a * v b| ≤ 2 ^ 126 → |v (A.mul a b) - v a * v b| ≤ (|v a * v b| + 1 / 2 ^ 126) / 2 ^ 24
  ofRat : ∀ q : Rat, |(q : ℝ)| ≤ 2 ^ 126 → |v (A.ofRat q) - q| ≤ (|(q : ℝ)| + 1 / 2 ^ 126) / 2 ^ 24
  zero : v (A.ofRat 0) = 0

variable {R : Type}

/-- The value of `a` is `x`, of a magnitude at most `b`, within `e`. -/
def Ap (v : R → ℝ) (a : R) (x b e : ℝ) : Prop := |v a - x| ≤ e ∧ |x| ≤ b

theorem Ap.self (v : R → ℝ) (a : R) (b : ℝ) (h : |v a| ≤ b) : Ap v a (v a) b 0 := ⟨by rw [sub_self, abs_zero], h⟩

theorem Ap.weaken {v : R → ℝ} {a : R} {x b e : ℝ} (h : Ap v a x b e) (b' e' : ℝ) (hb : b ≤ b') (he : e ≤ e') : Ap v a x b' e' :=
  ⟨h.1.trans he, h.2.trans hb⟩

theorem Ap.val {v : R → ℝ} {a : R} {x b e : ℝ} (h : Ap v a x b e) : |v a| ≤ b + e := by
  have := abs_add_le (v a - x) x
  rw [sub_add_cancel] at this
  linarith [h.1, h.2]

theorem near_round {r y x e b : ℝ} (h : |y - x| ≤ e) (hb : |y| ≤ b) (hr : |r - y| ≤ (|y| + 1 / 2 ^ 126) / 2 ^ 24) :
    |r - x| ≤ e + (b + 1 / 2 ^ 126) / 2 ^ 24 := by
  have := abs_add_le (r - y) (y - x)
  rw [sub_add_sub_cancel] at this
  have h2 : (|y| + 1 / 2 ^ 126) / 2 ^ 24 ≤ (b + 1 / 2 ^ 126) / 2 ^ 24 := by
    apply div_le_div_of_nonneg_right _ (by positivity)
    linarith
  linarith

theorem Ap.add {A : Arith R} {v : R → ℝ} (hA : Approx A v) {a1 a2 : R} {x1 b1 e1 x2 b2 e2 : ℝ} (h1 : Ap v a1 x1 b1 e1) (h2 : Ap v a2 x2 b2 e2)
    (hM : b1 + e1 + (b2 + e2) ≤ 2 ^ 126) :
    Ap v (A.add a1 a2) (x1 + x2) (b1 + b2) (e1 + e2 + (b1 + e1 + (b2 + e2) + 1 / 2 ^ 126) / 2 ^ 24) := by
  have hb : |v a1 + v a2| ≤ b1 + e1 + (b2 + e2) := (abs_add_le _ _).trans (add_le_add h1.val h2.val)
  refine ⟨near_round ?_ hb (hA.add a1 a2 (hb.trans hM)), (abs_add_le _ _).trans (add_le_add h1.2 h2.2)⟩
  rw [show v a1 + v a2 - (x1 + x2) = (v a1 - x1) + (v a2 - x2) by ring]
  exact (abs_add_le _ _).trans (add_le_add h1.1 h2.1)

theorem Ap.sub {A : Arith R} {v : R → ℝ} (hA : Approx A v) {a1 a2 : R} {x1 b1 e1 x2 b2 e2 : ℝ} (h1 : Ap v a1 x1 b1 e1) (h2 : Ap v a2 x2 b2 e2)
    (hM : b1 + e1 + (b2 + e2) ≤ 2 ^ 126) :
    Ap v (A.sub a1 a2) (x1 - x2) (b1 + b2) (e1 + e2 + (b1 + e1 + (b2 + e2) + 1 / 2 ^ 126) / 2 ^ 24) := by
  have hb : |v a1 - v a2| ≤ b1 + e1 + (b2 + e2) := (abs_sub _ _).trans (add_le_add h1.val h2.val)
  refine ⟨near_round ?_ hb (hA.sub a1 a2 (hb.trans hM)), (abs_sub _ _).trans (add_le_add h1.2 h2.2)⟩
  rw [show v a1 - v a2 - (x1 - x2) = (v a1 - x1) - (v a2 - x2) by ring]
  exact (abs_sub _ _).trans (add_le_add h1.1 h2.1)

/-- Product by a constant. -/
theorem Ap.mul {A : Arith R} {v : R → ℝ} (hA : Approx A v) {a1 c : R} {x1 b1 e1 : ℝ} (h1 : Ap v a1 x1 b1 e1) (κ : ℝ) (hc : |v c| ≤ κ)
    (hM : (b1 + e1) * κ ≤ 2 ^ 126) :
    Ap v (A.mul a1 c) (x1 * v c) (b1 * κ) (e1 * κ + ((b1 + e1) * κ + 1 / 2 ^ 126) / 2 ^ 24) := by
  have h0 : 0 ≤ b1 + e1 := (abs_nonneg _).trans h1.val
  have hb : |v a1 * v c| ≤ (b1 + e1) * κ := by
    rw [abs_mul]; exact mul_le_mul h1.val hc (abs_nonneg _) h0
  refine ⟨near_round ?_ hb (hA.mul a1 c (hb.trans hM)), ?_⟩
  · rw [← sub_mul, abs_mul]
    exact mul_le_mul h1.1 hc (abs_nonneg _) ((abs_nonneg _).trans h1.1)
  · rw [abs_mul]
    exact mul_le_mul h1.2 hc (abs_nonneg _) ((abs_nonneg _).trans h1.2)

/-- The value of a pair. -/
noncomputable def vc (v : R → ℝ) (p : R × R) : ℂ := ⟨v p.1, v p.2⟩

theorem norm_of_parts (z : ℂ) (c : ℝ) (h1 : |z.re| ≤ c) (h2 : |z.im| ≤ c) : ‖z‖ ≤ 1.4143 * c := by
  have hc : 0 ≤ c := (abs_nonneg _).trans h1
  have e1 : z.re ^ 2 ≤ c ^ 2 := by rw [← sq_abs]; exact pow_le_pow_left₀ (abs_nonneg _) h1 2
  have e2 : z.im ^ 2 ≤ c ^ 2 := by rw [← sq_abs]; exact pow_le_pow_left₀ (abs_nonneg _) h2 2
  have h : ‖z‖ ^ 2 ≤ (1.4143 * c) ^ 2 := by
    rw [Complex.sq_norm, Complex.normSq_apply]
    nlinarith
  exact (le_abs_self _).trans (abs_le_of_sq_le_sq h (by positivity))

/-! ### Butterflies -/

theorem round2 (A : Arith R) (v : R → ℝ) (hA : Approx A v) (x0 x1 a : R × R) (s : ℕ) (hs : s < 2) (σ0 σ1 : ℝ)
    (f0 : 1 / 2 ^ 110 ≤ σ0) (f1 : 1 / 2 ^ 110 ≤ σ1) (c0 : σ0 ≤ 2 ^ 110) (c1 : σ1 ≤ 2 ^ 110)
    (h0 : ‖vc v x0‖ ≤ 1.001 * σ0) (h1 : ‖vc v x1‖ ≤ 1.001 * σ1) (ha : ‖vc v a‖ ≤ 1.0001) :
    ‖vc v (out2 A x0 x1 a s) - (vc v x0 + vc v x1 * ((-1) ^ s * vc v a))‖ ≤ 44 / 10 ^ 8 * (σ0 + σ1) := by
  have p0 := Ap.self v x0.1 _ ((Complex.abs_re_le_norm (vc v x0)).trans h0)
  have q0 := Ap.self v x0.2 _ ((Complex.abs_im_le_norm (vc v x0)).trans h0)
  have p1 := Ap.self v x1.1 _ ((Complex.abs_re_le_norm (vc v x1)).trans h1)
  have q1 := Ap.self v x1.2 _ ((Complex.abs_im_le_norm (vc v x1)).trans h1)
  have ar := (Complex.abs_re_le_norm (vc v a)).trans ha
  have ai := (Complex.abs_im_le_norm (vc v a)).trans ha
  have m1 := Ap.mul hA p1 _ ar (by linarith)
  have m2 := Ap.mul hA q1 _ ai (by linarith)
  have m3 := Ap.mul hA q1 _ ar (by linarith)
  have m4 := Ap.mul hA p1 _ ai (by linarith)
  refine (norm_of_parts _ (310 / 10 ^ 9 * (σ0 + σ1)) ?_ ?_).trans (by linarith)
  · interval_cases s
    · have r := Ap.sub hA (Ap.add hA p0 m1 (by linarith)) m2 (by linarith)
      refine (le_of_eq ?_).trans (r.1.trans (by linarith))
      congr 1
      simp [vc, out2]; ring
    · have r := Ap.add hA (Ap.sub hA p0 m1 (by linarith)) m2 (by linarith)
      refine (le_of_eq ?_).trans (r.1.trans (by linarith))
      congr 1
      simp [vc, out2]; ring
  · interval_cases s
    · have r := Ap.add hA (Ap.add hA q0 m3 (by linarith)) m4 (by linarith)
      refine (le_of_eq ?_).trans (r.1.trans (by linarith))
      congr 1
      simp [vc, out2]; ring
    · have r := Ap.sub hA (Ap.sub hA q0 m3 (by linarith)) m4 (by linarith)
      refine (le_of_eq ?_).trans (r.1.trans (by linarith))
      congr 1
      simp [vc, out2]; ring

theorem round3 (A : Arith R) (v : R → ℝ) (hA : Approx A v) (x0 x1 x2 a b : R × R) (σ0 σ1 σ2 : ℝ)
    (f0 : 1 / 2 ^ 110 ≤ σ0) (f1 : 1 / 2 ^ 110 ≤ σ1) (f2 : 1 / 2 ^ 110 ≤ σ2) (c0 : σ0 ≤ 2 ^ 110) (c1 : σ1 ≤ 2 ^ 110) (c2 : σ2 ≤ 2 ^ 110)
    (h0 : ‖vc v x0‖ ≤ 1.001 * σ0) (h1 : ‖vc v x1‖ ≤ 1.001 * σ1) (h2 : ‖vc v x2‖ ≤ 1.001 * σ2) (ha : ‖vc v a‖ ≤ 1.0001) (hb : ‖vc v b‖ ≤ 1.0001) :
    ‖vc v (out3 A x0 x1 x2 a b) - (vc v x0 + vc v x1 * vc v a + vc v x2 * vc v b)‖ ≤ 78 / 10 ^ 8 * (σ0 + σ1 + σ2) := by
  have p0 := Ap.self v x0.1 _ ((Complex.abs_re_le_norm (vc v x0)).trans h0)
  have q0 := Ap.self v x0.2 _ ((Complex.abs_im_le_norm (vc v x0)).trans h0)
  have p1 := Ap.self v x1.1 _ ((Complex.abs_re_le_norm (vc v x1)).trans h1)
  have q1 := Ap.self v x1.2 _ ((Complex.abs_im_le_norm (vc v x1)).trans h1)
  have p2 := Ap.self v x2.1 _ ((Complex.abs_re_le_norm (vc v x2)).trans h2)
  have q2 := Ap.self v x2.2 _ ((Complex.abs_im_le_norm (vc v x2)).trans h2)
  have ar := (Complex.abs_re_le_norm (vc v a)).trans ha
  have ai := (Complex.abs_im_le_norm (vc v a)).trans ha
  have br := (Complex.abs_re_le_norm (vc v b)).trans hb
  have bi := (Complex.abs_im_le_norm (vc v b)).trans hb
  have m1 := Ap.mul hA p1 _ ar (by linarith)
  have m2 := Ap.mul hA q1 _ ai (by linarith)
  have m3 := Ap.mul hA q1 _ ar (by linarith)
  have m4 := Ap.mul hA p1 _ ai (by linarith)
  have n1 := Ap.mul hA p2 _ br (by linarith)
  have n2 := Ap.mul hA q2 _ bi (by linarith)
  have n3 := Ap.mul hA q2 _ br (by linarith)
  have n4 := Ap.mul hA p2 _ bi (by linarith)
  refine (norm_of_parts _ (550 / 10 ^ 9 * (σ0 + σ1 + σ2)) ?_ ?_).trans (by linarith)
  · have r := Ap.sub hA (Ap.add hA (Ap.sub hA (Ap.add hA p0 m1 (by linarith)) m2 (by linarith)) n1 (by linarith)) n2 (by linarith)
    refine (le_of_eq ?_).trans (r.1.trans (by linarith))
    congr 1
    simp [vc, out3, cmac3Re]; ring
  · have r := Ap.add hA (Ap.add hA (Ap.add hA (Ap.add hA q0 m3 (by linarith)) m4 (by linarith)) n3 (by linarith)) n4 (by linarith)
    refine (le_of_eq ?_).trans (r.1.trans (by linarith))
    congr 1
    simp [vc, out3, cmac3Im]; ring

/-- The roots of the transform of 5 points, from the constants. -/
noncomputable def root5 (v : R → ℝ) (T : MdctTables R) : ℕ → ℂ
  | 0 => 1
  | 1 => ⟨v T.cos1, v T.sin1⟩
  | 2 => ⟨v T.cos2, v T.sin2⟩
  | 3 => ⟨v T.cos2, -v T.sin2⟩
  | _ => ⟨v T.cos1, -v T.sin1⟩

set_option maxHeartbeats 4000000 in
theorem round5 (A : Arith R) (v : R → ℝ) (hA : Approx A v) (T : MdctTables R) (x0 x1 x2 x3 x4 : R × R) (r : ℕ) (hr : r < 5) (σ0 σ1 σ2 σ3 σ4 : ℝ)
    (f0 : 1 / 2 ^ 110 ≤ σ0) (f1 : 1 / 2 ^ 110 ≤ σ1) (f2 : 1 / 2 ^ 110 ≤ σ2) (f3 : 1 / 2 ^ 110 ≤ σ3) (f4 : 1 / 2 ^ 110 ≤ σ4)
    (c0 : σ0 ≤ 2 ^ 110) (c1 : σ1 ≤ 2 ^ 110) (c2 : σ2 ≤ 2 ^ 110) (c3 : σ3 ≤ 2 ^ 110) (c4 : σ4 ≤ 2 ^ 110)
    (h0 : ‖vc v x0‖ ≤ σ0) (h1 : ‖vc v x1‖ ≤ σ1) (h2 : ‖vc v x2‖ ≤ σ2) (h3 : ‖vc v x3‖ ≤ σ3) (h4 : ‖vc v x4‖ ≤ σ4)
    (k1 : |v T.cos1| ≤ 1.0001) (k2 : |v T.cos2| ≤ 1.0001) (k3 : |v T.sin1| ≤ 1.0001) (k4 : |v T.sin2| ≤ 1.0001) :
    ‖vc v (dft5 A T x0 x1 x2 x3 x4 r) - (vc v x0 * root5 v T (r * 0 % 5) + vc v x1 * root5 v T (r * 1 % 5) + vc v x2 * root5 v T (r * 2 % 5) +
      vc v x3 * root5 v T (r * 3 % 5) + vc v x4 * root5 v T (r * 4 % 5))‖ ≤ 95 / 10 ^ 8 * (σ0 + σ1 + σ2 + σ3 + σ4) := by
  have p0 := Ap.self v x0.1 _ ((Complex.abs_re_le_norm (vc v x0)).trans h0)
  have q0 := Ap.self v x0.2 _ ((Complex.abs_im_le_norm (vc v x0)).trans h0)
  have p1 := Ap.self v x1.1 _ ((Complex.abs_re_le_norm (vc v x1)).trans h1)
  have q1 := Ap.self v x1.2 _ ((Complex.abs_im_le_norm (vc v x1)).trans h1)
  have p2 := Ap.self v x2.1 _ ((Complex.abs_re_le_norm (vc v x2)).trans h2)
  have q2 := Ap.self v x2.2 _ ((Complex.abs_im_le_norm (vc v x2)).trans h2)
  have p3 := Ap.self v x3.1 _ ((Complex.abs_re_le_norm (vc v x3)).trans h3)
  have q3 := Ap.self v x3.2 _ ((Complex.abs_im_le_norm (vc v x3)).trans h3)
  have p4 := Ap.self v x4.1 _ ((Complex.abs_re_le_norm (vc v x4)).trans h4)
  have q4 := Ap.self v x4.2 _ ((Complex.abs_im_le_norm (vc v x4)).trans h4)
  have s14r := Ap.add hA p1 p4 (by linarith)
  have s14i := Ap.add hA q1 q4 (by linarith)
  have d14r := Ap.sub hA p1 p4 (by linarith)
  have d14i := Ap.sub hA q1 q4 (by linarith)
  have s23r := Ap.add hA p2 p3 (by linarith)
  have s23i := Ap.add hA q2 q3 (by linarith)
  have d23r := Ap.sub hA p2 p3 (by linarith)
  have d23i := Ap.sub hA q2 q3 (by linarith)
  have s14rc := Ap.mul hA s14r _ k1 (by linarith)
  have s14ic := Ap.mul hA s14i _ k1 (by linarith)
  have s23rc := Ap.mul hA s23r _ k1 (by linarith)
  have s23ic := Ap.mul hA s23i _ k1 (by linarith)
  have s14rd := Ap.mul hA s14r _ k2 (by linarith)
  have s14id := Ap.mul hA s14i _ k2 (by linarith)
  have s23rd := Ap.mul hA s23r _ k2 (by linarith)
  have s23id := Ap.mul hA s23i _ k2 (by linarith)
  have d14rs := Ap.mul hA d14r _ k3 (by linarith)
  have d14is := Ap.mul hA d14i _ k3 (by linarith)
  have d23rs := Ap.mul hA d23r _ k3 (by linarith)
  have d23is := Ap.mul hA d23i _ k3 (by linarith)
  have d14rt := Ap.mul hA d14r _ k4 (by linarith)
  have d14it := Ap.mul hA d14i _ k4 (by linarith)
  have d23rt := Ap.mul hA d23r _ k4 (by linarith)
  have d23it := Ap.mul hA d23i _ k4 (by linarith)
  refine (norm_of_parts _ (670 / 10 ^ 9 * (σ0 + σ1 + σ2 + σ3 + σ4)) ?_ ?_).trans (by linarith)
  · interval_cases r
    · have r := Ap.add hA (Ap.add hA p0 s14r (by linarith)) s23r (by linarith)
      refine (le_of_eq ?_).trans (r.1.trans (by linarith))
      congr 1
      simp [vc, dft5, root5]; ring
    · have r := Ap.sub hA (Ap.add hA (Ap.sub hA (Ap.add hA p0 s14rc (by linarith)) d14is (by linarith)) s23rd (by linarith)) d23it (by linarith)
      refine (le_of_eq ?_).trans (r.1.trans (by linarith))
      congr 1
      simp [vc, dft5, root5]; ring
    · have r := Ap.add hA (Ap.add hA (Ap.sub hA (Ap.add hA p0 s14rd (by linarith)) d14it (by linarith)) s23rc (by linarith)) d23is (by linarith)
      refine (le_of_eq ?_).trans (r.1.trans (by linarith))
      congr 1
      simp [vc, dft5, root5]; ring
    · have r := Ap.sub hA (Ap.add hA (Ap.add hA (Ap.add hA p0 s14rd (by linarith)) d14it (by linarith)) s23rc (by linarith)) d23is (by linarith)
      refine (le_of_eq ?_).trans (r.1.trans (by linarith))
      congr 1
      simp [vc, dft5, root5]; ring
    · have r := Ap.add hA (Ap.add hA (Ap.add hA (Ap.add hA p0 s14rc (by linarith)) d14is (by linarith)) s23rd (by linarith)) d23it (by linarith)
      refine (le_of_eq ?_).trans (r.1.trans (by linarith))
      congr 1
      simp [vc, dft5, root5]; ring
  · interval_cases r
    · have r := Ap.add hA (Ap.add hA q0 s14i (by linarith)) s23i (by linarith)
      refine (le_of_eq ?_).trans (r.1.trans (by linarith))
      congr 1
      simp [vc, dft5, root5]; ring
    · have r := Ap.add hA (Ap.add hA (Ap.add hA (Ap.add hA q0 s14ic (by linarith)) d14rs (by linarith)) s23id (by linarith)) d23rt (by linarith)
      refine (le_of_eq ?_).trans (r.1.trans (by linarith))
      congr 1
      simp [vc, dft5, root5]; ring
    · have r := Ap.sub hA (Ap.add hA (Ap.add hA (Ap.add hA q0 s14id (by linarith)) d14rt (by linarith)) s23ic (by linarith)) d23rs (by linarith)
      refine (le_of_eq ?_).trans (r.1.trans (by linarith))
      congr 1
      simp [vc, dft5, root5]; ring
    · have r := Ap.add hA (Ap.add hA (Ap.sub hA (Ap.add hA q0 s14id (by linarith)) d14rt (by linarith)) s23ic (by linarith)) d23rs (by linarith)
      refine (le_of_eq ?_).trans (r.1.trans (by linarith))
      congr 1
      simp [vc, dft5, root5]; ring
    · have r := Ap.sub hA (Ap.add hA (Ap.sub hA (Ap.add hA q0 s14ic (by linarith)) d14rs (by linarith)) s23id (by linarith)) d23rt (by linarith)
      refine (le_of_eq ?_).trans (r.1.trans (by linarith))
      congr 1
      simp [vc, dft5, root5]; ring

end LC3
