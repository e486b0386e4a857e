import Verif.Lemmas.Dft
import Verif.Model.MdctTables
import Mathlib.Analysis.Real.Pi.Bounds

/-!
Accuracy of the twiddle factors: the roots of unity are followed in fixed point, with 64 fractional bits, and compared with the tables.
-/

namespace LC3
open Complex

/-- A complex number in fixed point. -/
noncomputable def fx (a : Int × Int) : ℂ := ⟨(a.1 : ℝ) / 2 ^ 64, (a.2 : ℝ) / 2 ^ 64⟩

/-- Product, rounded down. -/
def cmulI (a b : Int × Int) : Int × Int := ((a.1 * b.1 - a.2 * b.2) / 2 ^ 64, (a.1 * b.2 + a.2 * b.1) / 2 ^ 64)

theorem ediv_err (x d : Int) (hd : 0 < d) : |((x / d : Int) : ℝ) - (x : ℝ) / d| ≤ 1 := by
  have h1 := Int.emod_add_mul_ediv x d
  have h2 := Int.emod_nonneg x hd.ne'
  have h3 := Int.emod_lt_of_pos x hd
  have hd' : (0 : ℝ) < d := by exact_mod_cast hd
  have e : (x : ℝ) = (x % d : Int) + (d : ℝ) * (x / d : Int) := by exact_mod_cast h1.symm
  have h2' : (0 : ℝ) ≤ (x % d : Int) := by exact_mod_cast h2
  have h3' : ((x % d : Int) : ℝ) < d := by exact_mod_cast h3
  rw [show (x : ℝ) / d = (x % d : Int) / d + (x / d : Int) by rw [e]; field_simp]
  rw [show ((x / d : Int) : ℝ) - ((x % d : Int) / d + (x / d : Int)) = -((x % d : Int) / (d : ℝ)) by ring, abs_neg, abs_of_nonneg (div_nonneg h2' hd'.le),
    div_le_one hd']
  exact h3'.le

theorem cmulI_err (a b : Int × Int) (A B : ℂ) (e f : ℝ) (hA : ‖A‖ ≤ 1) (hB : ‖B‖ ≤ 1) (ha : ‖fx a - A‖ ≤ e) (hb : ‖fx b - B‖ ≤ f) :
    ‖fx (cmulI a b) - A * B‖ ≤ e + f + e * f + 1 / 2 ^ 63 := by
  have h1 : ‖fx (cmulI a b) - fx a * fx b‖ ≤ 1 / 2 ^ 63 := by
    refine (Complex.norm_le_abs_re_add_abs_im _).trans ?_
    have r := ediv_err (a.1 * b.1 - a.2 * b.2) (2 ^ 64) (by norm_num)
    have i := ediv_err (a.1 * b.2 + a.2 * b.1) (2 ^ 64) (by norm_num)
    have e1 : (fx (cmulI a b) - fx a * fx b).re = ((((a.1 * b.1 - a.2 * b.2) / 2 ^ 64 : Int) : ℝ) - ((a.1 * b.1 - a.2 * b.2 : Int) : ℝ) / ((2 ^ 64 : Int) : ℝ)) / 2 ^ 64 := by
      unfold fx cmulI
      rw [Complex.sub_re, Complex.mul_re]
      push_cast
      ring
    have e2 : (fx (cmulI a b) - fx a * fx b).im = ((((a.1 * b.2 + a.2 * b.1) / 2 ^ 64 : Int) : ℝ) - ((a.1 * b.2 + a.2 * b.1 : Int) : ℝ) / ((2 ^ 64 : Int) : ℝ)) / 2 ^ 64 := by
      unfold fx cmulI
      rw [Complex.sub_im, Complex.mul_im]
      push_cast
      ring
    rw [e1, e2, abs_div, abs_div, abs_of_pos (show (0 : ℝ) < 2 ^ 64 by positivity)]
    have : (1 : ℝ) / 2 ^ 63 = 1 / 2 ^ 64 + 1 / 2 ^ 64 := by norm_num
    rw [this]
    exact add_le_add (div_le_div_of_nonneg_right r (by positivity)) (div_le_div_of_nonneg_right i (by positivity))
  have h2 : fx (cmulI a b) - A * B = (fx (cmulI a b) - fx a * fx b) + ((fx a - A) * (fx b - B) + (fx a - A) * B + A * (fx b - B)) := by ring
  have e0 := (norm_nonneg _).trans ha
  have f0 := (norm_nonneg _).trans hb
  have h3 : ‖(fx a - A) * (fx b - B) + (fx a - A) * B + A * (fx b - B)‖ ≤ e * f + e * 1 + 1 * f := by
    refine (norm_add₃_le).trans ?_
    rw [norm_mul, norm_mul, norm_mul]
    exact add_le_add (add_le_add (mul_le_mul ha hb (norm_nonneg _) e0) (mul_le_mul ha hB (norm_nonneg _) e0))
      (mul_le_mul hA hb (norm_nonneg _) (by norm_num))
  rw [h2]
  refine (norm_add_le _ _).trans ?_
  linarith

/-! ### A small angle -/

/-- `2 pi / (4096 n)` in fixed point. -/
def angleI (n : Nat) : Int := (2 * 314159265358979323846 * 2 ^ 64) / (4096 * (n : Int) * 10 ^ 20)

def baseI (n : Nat) : Int × Int :=
  (2 ^ 64 - angleI n * angleI n / 2 ^ 65, angleI n - angleI n * angleI n * angleI n / (6 * 2 ^ 128))

theorem angle_err (n : Nat) (hn : 10 ≤ n) : |((angleI n : Int) : ℝ) / 2 ^ 64 - 2 * Real.pi / (4096 * n)| ≤ 1 / 2 ^ 63 ∧
    |2 * Real.pi / (4096 * n)| ≤ 1 / 6500 := by
  have hn' : (10 : ℝ) ≤ n := by exact_mod_cast hn
  have p1 := Real.pi_gt_d20
  have p2 := Real.pi_lt_d20
  have a := ediv_err (2 * 314159265358979323846 * 2 ^ 64) (4096 * (n : Int) * 10 ^ 20) (by positivity)
  have hpos : (0 : ℝ) < 4096 * n := by linarith
  constructor
  · have e : ((angleI n : Int) : ℝ) / 2 ^ 64 - 2 * Real.pi / (4096 * n) =
        (((angleI n : Int) : ℝ) - ((2 * 314159265358979323846 * 2 ^ 64 : Int) : ℝ) / ((4096 * (n : Int) * 10 ^ 20 : Int) : ℝ)) / 2 ^ 64 +
        2 * (314159265358979323846 / 10 ^ 20 - Real.pi) / (4096 * n) := by
      push_cast
      field_simp
      ring
    rw [e]
    refine (abs_add_le _ _).trans ?_
    rw [abs_div, abs_div, abs_of_pos hpos, abs_of_pos (show (0 : ℝ) < 2 ^ 64 by positivity)]
    have h1 : |((angleI n : Int) : ℝ) - ((2 * 314159265358979323846 * 2 ^ 64 : Int) : ℝ) / ((4096 * (n : Int) * 10 ^ 20 : Int) : ℝ)| / 2 ^ 64 ≤ 1 / 2 ^ 64 :=
      div_le_div_of_nonneg_right a (by positivity)
    have h2 : |2 * ((314159265358979323846 : ℝ) / 10 ^ 20 - Real.pi)| / (4096 * (n : ℝ)) ≤ (1 / 10 ^ 19) / 40960 := by
      refine div_le_div₀ (by norm_num) ?_ (by norm_num) (by linarith)
      rw [abs_le]; constructor <;> norm_num <;> linarith
    refine (add_le_add h1 h2).trans ?_
    norm_num
  · rw [abs_of_pos (by positivity), div_le_div_iff₀ hpos (by norm_num)]
    nlinarith

theorem base_err (n : Nat) (hn : 10 ≤ n) : ‖fx (baseI n) - Complex.exp (((2 * Real.pi / (4096 * n) : ℝ) : ℂ) * I)‖ ≤ 1 / 2 ^ 53 - 1 / 2 ^ 60 := by
  obtain ⟨a1, a2⟩ := angle_err n hn
  generalize ht : 2 * Real.pi / (4096 * n) = t at a1 a2
  have c := Real.cos_bound (x := t) (a2.trans (by norm_num))
  have s := Real.sin_bound (x := t) (a2.trans (by norm_num))
  have t4 : |t| ^ 4 * (5 / 96) ≤ (1 / 6500) ^ 4 * (5 / 96) := mul_le_mul_of_nonneg_right (pow_le_pow_left₀ (abs_nonneg _) a2 4) (by norm_num)
  have t5 : |t| ^ 5 / 100 ≤ (1 / 6500) ^ 4 * (5 / 96) := by
    have : |t| ^ 5 ≤ (1 / 6500) ^ 5 := pow_le_pow_left₀ (abs_nonneg _) a2 5
    refine (div_le_div_of_nonneg_right this (by norm_num)).trans (by norm_num)
  generalize hm : angleI n = m at a1
  have r := ediv_err (m * m) (2 ^ 65) (by norm_num)
  have i := ediv_err (m * m * m) (6 * 2 ^ 128) (by norm_num)
  generalize hx : (m : ℝ) / 2 ^ 64 = x at a1
  have hm' : (m : ℝ) = x * 2 ^ 64 := by rw [← hx]; field_simp
  have hxa : |x| ≤ 1 / 6000 := by
    have : |x| ≤ |x - t| + |t| := by have := abs_add_le (x - t) t; rwa [sub_add_cancel] at this
    refine this.trans ((add_le_add a1 a2).trans (by norm_num))
  have q1 : |x * x / 2 - t ^ 2 / 2| ≤ 1 / 2 ^ 74 := by
    rw [show x * x / 2 - t ^ 2 / 2 = (x - t) * ((x + t) / 2) by ring, abs_mul]
    have : |(x + t) / 2| ≤ 1 / 6000 := by
      rw [abs_div, abs_of_pos (show (0 : ℝ) < 2 by norm_num)]
      have := abs_add_le x t
      linarith
    refine (mul_le_mul a1 this (abs_nonneg _) (by norm_num)).trans (by norm_num)
  have q2 : |x - x * x * x / 6 - (t - t ^ 3 / 6)| ≤ 1 / 2 ^ 62 := by
    rw [show x - x * x * x / 6 - (t - t ^ 3 / 6) = (x - t) * (1 - (x * x + x * t + t * t) / 6) by ring, abs_mul]
    have : |1 - (x * x + x * t + t * t) / 6| ≤ 2 := by
      have b1 := abs_le.mp hxa
      have b2 := abs_le.mp a2
      rw [abs_le]; constructor <;> nlinarith
    refine (mul_le_mul a1 this (abs_nonneg _) (by norm_num)).trans (by norm_num)
  have er : (fx (baseI n)).re = 1 - x * x / 2 - ((((m * m / 2 ^ 65 : Int) : ℝ) - ((m * m : Int) : ℝ) / ((2 ^ 65 : Int) : ℝ)) / 2 ^ 64) := by
    unfold fx baseI
    dsimp only
    rw [hm]
    push_cast
    rw [hm']
    ring
  have ei : (fx (baseI n)).im = x - x * x * x / 6 - ((((m * m * m / (6 * 2 ^ 128) : Int) : ℝ) - ((m * m * m : Int) : ℝ) / ((6 * 2 ^ 128 : Int) : ℝ)) / 2 ^ 64) := by
    unfold fx baseI
    dsimp only
    rw [hm]
    push_cast
    rw [hm']
    ring
  generalize (((m * m / 2 ^ 65 : Int) : ℝ) - ((m * m : Int) : ℝ) / ((2 ^ 65 : Int) : ℝ)) = d1 at r er
  generalize (((m * m * m / (6 * 2 ^ 128) : Int) : ℝ) - ((m * m * m : Int) : ℝ) / ((6 * 2 ^ 128 : Int) : ℝ)) = d2 at i ei
  refine (Complex.norm_le_abs_re_add_abs_im _).trans ?_
  rw [Complex.sub_re, Complex.sub_im, Complex.exp_ofReal_mul_I_re, Complex.exp_ofReal_mul_I_im, er, ei]
  have d1' : |d1 / 2 ^ 64| ≤ 1 / 2 ^ 64 := by rw [abs_div, abs_of_pos (show (0 : ℝ) < 2 ^ 64 by positivity)]; exact div_le_div_of_nonneg_right r (by positivity)
  have d2' : |d2 / 2 ^ 64| ≤ 1 / 2 ^ 64 := by rw [abs_div, abs_of_pos (show (0 : ℝ) < 2 ^ 64 by positivity)]; exact div_le_div_of_nonneg_right i (by positivity)
  have h1 : |1 - x * x / 2 - d1 / 2 ^ 64 - Real.cos t| ≤ 1 / 2 ^ 74 + 1 / 2 ^ 64 + (1 / 6500) ^ 4 * (5 / 96) := by
    rw [show 1 - x * x / 2 - d1 / 2 ^ 64 - Real.cos t = -(x * x / 2 - t ^ 2 / 2) - d1 / 2 ^ 64 - (Real.cos t - (1 - t ^ 2 / 2)) by ring]
    have := abs_le.mp q1; have := abs_le.mp d1'; have := abs_le.mp (c.trans t4)
    rw [abs_le]; constructor <;> linarith
  have h2 : |x - x * x * x / 6 - d2 / 2 ^ 64 - Real.sin t| ≤ 1 / 2 ^ 62 + 1 / 2 ^ 64 + (1 / 6500) ^ 4 * (5 / 96) := by
    rw [show x - x * x * x / 6 - d2 / 2 ^ 64 - Real.sin t = (x - x * x * x / 6 - (t - t ^ 3 / 6)) - d2 / 2 ^ 64 - (Real.sin t - (t - t ^ 3 / 6)) by ring]
    have := abs_le.mp q2; have := abs_le.mp d2'; have := abs_le.mp (s.trans t5)
    rw [abs_le]; constructor <;> linarith
  refine (add_le_add h1 h2).trans (by norm_num)

/-! ### Roots of unity -/

/-- Squares, `j` times. -/
def sqI : Nat → Int × Int → Int × Int
  | 0, a => a
  | j + 1, a => cmulI (sqI j a) (sqI j a)

theorem sq_err (a : Int × Int) (A : ℂ) (hA : ‖A‖ = 1) (ha : ‖fx a - A‖ ≤ 1 / 2 ^ 53 - 1 / 2 ^ 60) :
    ∀ j, j ≤ 12 → ‖fx (sqI j a) - A ^ (2 ^ j)‖ ≤ 2 ^ j / 2 ^ 53 - 1 / 2 ^ 60
  | 0, _ => by simpa [sqI] using ha
  | j + 1, hj => by
    have ih := sq_err a A hA ha j (by omega)
    have n1 : ‖A ^ (2 ^ j)‖ ≤ 1 := by rw [norm_pow, hA, one_pow]
    have h := cmulI_err _ _ _ _ _ _ n1 n1 ih ih
    rw [sqI, show A ^ (2 ^ (j + 1)) = A ^ (2 ^ j) * A ^ (2 ^ j) by rw [← pow_add, pow_succ 2 j, mul_two]]
    refine h.trans ?_
    have hp : (2 : ℝ) ^ j ≤ 2 ^ 12 := pow_le_pow_right₀ (by norm_num) (by omega)
    have hp1 : (1 : ℝ) ≤ 2 ^ j := one_le_pow₀ (by norm_num)
    rw [show (2 : ℝ) ^ (j + 1) = 2 ^ j * 2 from pow_succ _ _]
    generalize (2 : ℝ) ^ j = P at hp hp1
    have he0 : 0 ≤ P / 2 ^ 53 - 1 / 2 ^ 60 := by rw [sub_nonneg, div_le_div_iff₀ (by norm_num) (by norm_num)]; nlinarith
    have he1 : P / 2 ^ 53 - 1 / 2 ^ 60 ≤ 1 / 2 ^ 41 := by
      have : P / 2 ^ 53 ≤ 2 ^ 12 / 2 ^ 53 := div_le_div_of_nonneg_right hp (by norm_num)
      refine (sub_le_self _ (by norm_num)).trans (this.trans (by norm_num))
    have he2 := mul_le_mul he1 he1 he0 (by norm_num)
    have e4 : P * 2 / 2 ^ 53 = P / 2 ^ 53 + P / 2 ^ 53 := by ring
    rw [e4]
    generalize P / 2 ^ 53 = Q at he2
    norm_num at he2 ⊢
    linarith

/-- `exp(2 i pi / n)` in fixed point. -/
def rootI (n : Nat) : Int × Int := sqI 12 (baseI n)

theorem root_err (n : Nat) (hn : 10 ≤ n) : ‖fx (rootI n) - Complex.exp (((2 * Real.pi / n : ℝ) : ℂ) * I)‖ ≤ 1 / 2 ^ 41 := by
  have h := sq_err _ _ (Complex.norm_exp_ofReal_mul_I _) (base_err n hn) 12 (by omega)
  have hn' : (n : ℂ) ≠ 0 := by exact_mod_cast (by omega : n ≠ 0)
  rw [← Complex.exp_nat_mul] at h
  rw [show ((2 * Real.pi / n : ℝ) : ℂ) * I = ((2 ^ 12 : ℕ) : ℂ) * (((2 * Real.pi / (4096 * n) : ℝ) : ℂ) * I) by
    push_cast; field_simp]
  exact h.trans (by norm_num)

/-- The conjugate. -/
def conjI (a : Int × Int) : Int × Int := (a.1, -a.2)

theorem W_eq (n k : ℕ) : W n k = Complex.exp (((-(2 * Real.pi * (k / n)) : ℝ) : ℂ) * I) := by
  unfold W; congr 1; push_cast; ring

theorem conj_err (n : Nat) (hn : 10 ≤ n) : ‖fx (conjI (rootI n)) - W n 1‖ ≤ 1 / 2 ^ 41 := by
  have h := root_err n hn
  have e : fx (conjI (rootI n)) - W n 1 = (starRingEnd ℂ) (fx (rootI n) - Complex.exp (((2 * Real.pi / n : ℝ) : ℂ) * I)) := by
    rw [map_sub, ← Complex.exp_conj, map_mul, Complex.conj_ofReal, Complex.conj_I, W_eq]
    congr 1
    · unfold fx conjI
      apply Complex.ext <;> simp
      ring
    · congr 1; push_cast; ring
  rw [e, Complex.norm_conj]
  exact h

theorem W_pow (n k : ℕ) : W n k = W n 1 ^ k := by
  induction k with
  | zero => rw [W_zero, pow_zero]
  | succ k ih => rw [W_add, ih, pow_succ]

theorem W_norm (n k : ℕ) : ‖W n k‖ = 1 := by rw [W_eq, Complex.norm_exp_ofReal_mul_I]

/-! ### Comparison with a table -/

/-- A decimal number of a table, near a number in fixed point, within `5.1 10^-9`. -/
def nearI (e : Nat) (m c : Int) : Bool := Nat.ble (Int.natAbs (m * 2 ^ 64 - c * 10 ^ e) * 10000000000) (51 * (10 ^ e * 2 ^ 64))

theorem nearI_spec (e : Nat) (m c : Int) (h : nearI e m c = true) : |(m : ℝ) / 10 ^ e - (c : ℝ) / 2 ^ 64| ≤ 51 / 10 ^ 10 := by
  have h1 := Nat.le_of_ble_eq_true h
  have h2 : (|m * 2 ^ 64 - c * 10 ^ e| : ℤ) * 10000000000 ≤ 51 * (10 ^ e * 2 ^ 64) := by
    rw [Int.abs_eq_natAbs]; exact_mod_cast h1
  have h3 : |(m : ℝ) * 2 ^ 64 - c * 10 ^ e| * 10000000000 ≤ 51 * (10 ^ e * 2 ^ 64) := by exact_mod_cast h2
  have hp : (0 : ℝ) < 10 ^ e * 2 ^ 64 := by positivity
  rw [show (m : ℝ) / 10 ^ e - (c : ℝ) / 2 ^ 64 = (m * 2 ^ 64 - c * 10 ^ e) / (10 ^ e * 2 ^ 64) by field_simp, abs_div, abs_of_pos hp,
    div_le_div_iff₀ hp (by positivity)]
  norm_num at h3 ⊢
  linarith

def checkTw (e : Nat) (step : Int × Int) : Int × Int → List Int → Bool
  | cur, re :: im :: t => nearI e re cur.1 && nearI e im cur.2 && checkTw e step (cmulI cur step) t
  | _, _ => true

/-- A decimal complex number of a table. -/
noncomputable def decC (e : Nat) (l : List Int) (k : ℕ) : ℂ := ⟨(l.getD (2 * k) 0 : ℝ) / 10 ^ e, (l.getD (2 * k + 1) 0 : ℝ) / 10 ^ e⟩

theorem near_norm (e : Nat) (l : List Int) (k : ℕ) (c : Int × Int) (C : ℂ) (b : ℝ) (h1 : nearI e (l.getD (2 * k) 0) c.1 = true)
    (h2 : nearI e (l.getD (2 * k + 1) 0) c.2 = true) (hb : ‖fx c - C‖ ≤ b) : ‖decC e l k - C‖ ≤ b + 102 / 10 ^ 10 := by
  have a1 := nearI_spec _ _ _ h1
  have a2 := nearI_spec _ _ _ h2
  rw [show decC e l k - C = (decC e l k - fx c) + (fx c - C) by ring]
  refine (norm_add_le _ _).trans ?_
  have : ‖decC e l k - fx c‖ ≤ 51 / 10 ^ 10 + 51 / 10 ^ 10 :=
    (Complex.norm_le_abs_re_add_abs_im _).trans (add_le_add a1 a2)
  linarith

theorem walk_step (step cur : Int × Int) (S C : ℂ) (hS : ‖S‖ ≤ 1) (hC : ‖C‖ ≤ 1) (hs : ‖fx step - S‖ ≤ 1 / 2 ^ 41) (b : ℝ) (hb1 : b ≤ 1 / 2)
    (hc : ‖fx cur - C‖ ≤ b) : ‖fx (cmulI cur step) - C * S‖ ≤ b + 1 / 2 ^ 40 := by
  refine (cmulI_err _ _ _ _ _ _ hC hS hc hs).trans ?_
  have : b * (1 / 2 ^ 41) ≤ 1 / 2 * (1 / 2 ^ 41) := mul_le_mul_of_nonneg_right hb1 (by norm_num)
  norm_num at this ⊢
  linarith

theorem norm_mul_le1 (S C : ℂ) (hS : ‖S‖ ≤ 1) (hC : ‖C‖ ≤ 1) : ‖C * S‖ ≤ 1 := by
  rw [norm_mul]; exact mul_le_one₀ hC (norm_nonneg _) hS

theorem check_spec (e : Nat) (step : Int × Int) (S : ℂ) (hS : ‖S‖ ≤ 1) (hs : ‖fx step - S‖ ≤ 1 / 2 ^ 41) : ∀ (l : List Int) (cur : Int × Int) (C : ℂ)
    (b : ℝ), ‖C‖ ≤ 1 → ‖fx cur - C‖ ≤ b → b + l.length / 2 ^ 40 ≤ 1 / 2 → checkTw e step cur l = true → ∀ k, 2 * k + 1 < l.length →
    ‖decC e l k - C * S ^ k‖ ≤ b + k / 2 ^ 40 + 102 / 10 ^ 10
  | [], _, _, _, _, _, _, _, _, hk => by simp at hk
  | [_], _, _, _, _, _, _, _, _, hk => by simp at hk
  | re :: im :: t, cur, C, b, hC, hc, hb, h, k, hk => by
    rw [checkTw, Bool.and_eq_true, Bool.and_eq_true] at h
    obtain ⟨⟨h1, h2⟩, h3⟩ := h
    have hl : ((re :: im :: t).length : ℝ) = t.length + 2 := by push_cast [List.length_cons]; ring
    rw [hl] at hb
    have ht : (0 : ℝ) ≤ t.length / 2 ^ 40 := by positivity
    cases k with
    | zero =>
      rw [pow_zero, mul_one, Nat.cast_zero, zero_div, add_zero]
      exact near_norm e _ 0 cur C b h1 h2 hc
    | succ k =>
      have e1 : decC e (re :: im :: t) (k + 1) = decC e t k := by
        unfold decC
        rw [show 2 * (k + 1) = 2 * k + 1 + 1 by omega]
        simp only [List.getD_cons_succ]
      have := check_spec e step S hS hs t (cmulI cur step) (C * S) (b + 1 / 2 ^ 40) (norm_mul_le1 S C hS hC)
        (walk_step step cur S C hS hC hs b (by rw [add_div] at hb; linarith) hc) (by rw [add_div] at hb; linarith) h3 k
        (by simp only [List.length_cons] at hk; omega)
      rw [e1, show C * S ^ (k + 1) = C * S * S ^ k by rw [pow_succ]; ring]
      refine this.trans (le_of_eq ?_)
      push_cast
      ring

/-- Rows of two complex numbers: a root and its square. -/
def checkTw3 (e : Nat) (step : Int × Int) : Int × Int → List Int → Bool
  | cur, re :: im :: re2 :: im2 :: t => nearI e re cur.1 && nearI e im cur.2 && nearI e re2 (cmulI cur cur).1 && nearI e im2 (cmulI cur cur).2 &&
      checkTw3 e step (cmulI cur step) t
  | _, _ => true

theorem check3_spec (e : Nat) (step : Int × Int) (S : ℂ) (hS : ‖S‖ ≤ 1) (hs : ‖fx step - S‖ ≤ 1 / 2 ^ 41) : ∀ (l : List Int) (cur : Int × Int) (C : ℂ)
    (b : ℝ), ‖C‖ ≤ 1 → ‖fx cur - C‖ ≤ b → b + l.length / 2 ^ 40 ≤ 1 / 2 → checkTw3 e step cur l = true → ∀ k, 4 * k + 3 < l.length →
    ‖decC e l (2 * k) - C * S ^ k‖ ≤ b + k / 2 ^ 40 + 102 / 10 ^ 10 ∧
    ‖decC e l (2 * k + 1) - (C * S ^ k) * (C * S ^ k)‖ ≤ 3 * (b + k / 2 ^ 40) + 103 / 10 ^ 10
  | [], _, _, _, _, _, _, _, _, hk => by simp at hk
  | [_], _, _, _, _, _, _, _, _, hk => by simp at hk
  | [_, _], _, _, _, _, _, _, _, _, hk => by simp at hk
  | [_, _, _], _, _, _, _, _, _, _, _, hk => by simp at hk
  | re :: im :: re2 :: im2 :: t, cur, C, b, hC, hc, hb, h, k, hk => by
    rw [checkTw3, Bool.and_eq_true, Bool.and_eq_true, Bool.and_eq_true, Bool.and_eq_true] at h
    obtain ⟨⟨⟨⟨h1, h2⟩, h3⟩, h4⟩, h5⟩ := h
    have hl : ((re :: im :: re2 :: im2 :: t).length : ℝ) = t.length + 4 := by push_cast [List.length_cons]; ring
    rw [hl] at hb
    have ht : (0 : ℝ) ≤ t.length / 2 ^ 40 := by positivity
    rw [add_div] at hb
    cases k with
    | zero =>
      rw [pow_zero, mul_one, Nat.cast_zero, zero_div, add_zero]
      refine ⟨near_norm e _ 0 cur C b h1 h2 hc, ?_⟩
      have := near_norm e (re :: im :: re2 :: im2 :: t) 1 (cmulI cur cur) (C * C) _ h3 h4 (cmulI_err _ _ _ _ _ _ hC hC hc hc)
      refine this.trans ?_
      have b0 := (norm_nonneg _).trans hc
      have : b * b ≤ 1 / 2 * b := mul_le_mul_of_nonneg_right (by linarith) b0
      norm_num at this ⊢
      linarith
    | succ k =>
      have e1 : decC e (re :: im :: re2 :: im2 :: t) (2 * (k + 1)) = decC e t (2 * k) := by
        unfold decC
        rw [show 2 * (2 * (k + 1)) = 2 * (2 * k) + 1 + 1 + 1 + 1 by omega]
        simp only [List.getD_cons_succ]
      have e2 : decC e (re :: im :: re2 :: im2 :: t) (2 * (k + 1) + 1) = decC e t (2 * k + 1) := by
        unfold decC
        rw [show 2 * (2 * (k + 1) + 1) = 2 * (2 * k + 1) + 1 + 1 + 1 + 1 by omega]
        simp only [List.getD_cons_succ]
      have := check3_spec e step S hS hs t (cmulI cur step) (C * S) (b + 1 / 2 ^ 40) (norm_mul_le1 S C hS hC)
        (walk_step step cur S C hS hC hs b (by linarith) hc) (by linarith) h5 k
        (by simp only [List.length_cons] at hk; omega)
      rw [e1, e2, show C * S ^ (k + 1) = C * S * S ^ k by rw [pow_succ]; ring]
      refine ⟨this.1.trans (le_of_eq ?_), this.2.trans (le_of_eq ?_)⟩ <;> push_cast <;> ring

/-! ### The tables -/

def rawTw2 (n : Nat) (t : Nat × Nat × List Int) : Bool := t.1 == n && t.2.2.length == 2 * n && checkTw t.2.1 (conjI (rootI (2 * n))) (2 ^ 64, 0) t.2.2

def rawTw3 (n : Nat) (t : Nat × Nat × List Int) : Bool := t.1 == n && t.2.2.length == 12 * n && checkTw3 t.2.1 (conjI (rootI (3 * n))) (2 ^ 64, 0) t.2.2

theorem one_err : ‖fx (2 ^ 64, 0) - 1‖ ≤ 0 := by
  have : fx (2 ^ 64, 0) = 1 := by unfold fx; apply Complex.ext <;> norm_num
  rw [this, sub_self, norm_zero]

theorem rawTw2_spec (n : Nat) (hn : 5 ≤ n) (hn2 : n ≤ 1000) (t : Nat × Nat × List Int) (h : rawTw2 n t = true) (k : ℕ) (hk : k < n) :
    ‖decC t.2.1 t.2.2 k - W (2 * n) k‖ ≤ 12 / 10 ^ 9 := by
  unfold rawTw2 at h
  rw [Bool.and_eq_true, Bool.and_eq_true] at h
  obtain ⟨⟨_, h1⟩, h2⟩ := h
  have h1 := beq_iff_eq.mp h1
  have hn' : (n : ℝ) ≤ 1000 := by exact_mod_cast hn2
  have hk' : (k : ℝ) ≤ n := by exact_mod_cast hk.le
  have := check_spec t.2.1 _ _ (W_norm (2 * n) 1).le (conj_err (2 * n) (by omega)) t.2.2 (2 ^ 64, 0) 1 0 (by simp) one_err
    (by rw [h1]; push_cast; rw [zero_add, div_le_div_iff₀ (by norm_num) (by norm_num)]; norm_num; linarith) h2 k (by omega)
  rw [one_mul, ← W_pow] at this
  refine this.trans ?_
  have : (k : ℝ) / 2 ^ 40 ≤ 1000 / 2 ^ 40 := div_le_div_of_nonneg_right (by linarith) (by norm_num)
  norm_num at this ⊢
  linarith

theorem rawTw3_spec (n : Nat) (hn : 5 ≤ n) (hn2 : n ≤ 100) (t : Nat × Nat × List Int) (h : rawTw3 n t = true) (k : ℕ) (hk : k < 3 * n) :
    ‖decC t.2.1 t.2.2 (2 * k) - W (3 * n) k‖ ≤ 12 / 10 ^ 9 ∧ ‖decC t.2.1 t.2.2 (2 * k + 1) - W (3 * n) (2 * k)‖ ≤ 12 / 10 ^ 9 := by
  unfold rawTw3 at h
  rw [Bool.and_eq_true, Bool.and_eq_true] at h
  obtain ⟨⟨_, h1⟩, h2⟩ := h
  have h1 := beq_iff_eq.mp h1
  have hn' : (n : ℝ) ≤ 100 := by exact_mod_cast hn2
  have hk' : (k : ℝ) ≤ 3 * n := by exact_mod_cast hk.le
  have := check3_spec t.2.1 _ _ (W_norm (3 * n) 1).le (conj_err (3 * n) (by omega)) t.2.2 (2 ^ 64, 0) 1 0 (by simp) one_err
    (by rw [h1]; push_cast; rw [zero_add, div_le_div_iff₀ (by norm_num) (by norm_num)]; norm_num; linarith) h2 k (by omega)
  rw [one_mul, ← W_pow, ← W_add, ← two_mul] at this
  have hh : (k : ℝ) / 2 ^ 40 ≤ 300 / 2 ^ 40 := div_le_div_of_nonneg_right (by linarith) (by norm_num)
  refine ⟨this.1.trans ?_, this.2.trans ?_⟩ <;> norm_num at hh ⊢ <;> linarith

/-- The rotations: `s` is the fourth root of `2 / n`, in fixed point. -/
def rawRot (n4 : Nat) (s : Nat) (t : Nat × Nat × List Int) : Bool :=
  t.1 == n4 && t.2.2.length == 2 * n4 && Nat.ble (s ^ 4 * (2 * n4)) (2 * 2 ^ 256) && Nat.blt (2 * 2 ^ 256) ((s + 1) ^ 4 * (2 * n4)) &&
    checkTw t.2.1 (rootI (4 * n4)) (cmulI (s, 0) (rootI (32 * n4))) t.2.2

theorem fourth_root (n s : ℕ) (hn : 0 < n) (h1 : s ^ 4 * n ≤ 2 * 2 ^ 256) (h2 : 2 * 2 ^ 256 < (s + 1) ^ 4 * n) :
    |(s : ℝ) / 2 ^ 64 - Real.sqrt (Real.sqrt (2 / n))| ≤ 1 / 2 ^ 64 := by
  have hn' : (0 : ℝ) < n := by exact_mod_cast hn
  have h1' : (s : ℝ) ^ 4 * n ≤ 2 * 2 ^ 256 := by exact_mod_cast h1
  have h2' : (2 : ℝ) * 2 ^ 256 < (s + 1) ^ 4 * n := by exact_mod_cast h2
  have e : ∀ x : ℝ, 0 ≤ x → Real.sqrt (Real.sqrt (x ^ 4)) = x := by
    intro x hx
    rw [show x ^ 4 = (x ^ 2) ^ 2 by ring, Real.sqrt_sq (by positivity), Real.sqrt_sq hx]
  have a1 : (s : ℝ) / 2 ^ 64 ≤ Real.sqrt (Real.sqrt (2 / n)) := by
    rw [← e ((s : ℝ) / 2 ^ 64) (by positivity)]
    apply Real.sqrt_le_sqrt
    apply Real.sqrt_le_sqrt
    rw [div_pow, div_le_div_iff₀ (by positivity) hn']
    refine h1'.trans (le_of_eq (by norm_num))
  have a2 : Real.sqrt (Real.sqrt (2 / n)) ≤ ((s : ℝ) + 1) / 2 ^ 64 := by
    rw [← e (((s : ℝ) + 1) / 2 ^ 64) (by positivity)]
    apply Real.sqrt_le_sqrt
    apply Real.sqrt_le_sqrt
    rw [div_pow, div_le_div_iff₀ hn' (by positivity)]
    refine (le_of_eq (by norm_num)).trans h2'.le
  rw [add_div] at a2
  rw [abs_le]
  constructor <;> linarith

theorem rawRot_spec (n4 s : Nat) (hn : 3 ≤ n4) (hn2 : n4 ≤ 1000) (t : Nat × Nat × List Int) (h : rawRot n4 s t = true) (p : ℕ) (hp : p < n4) :
    ‖decC t.2.1 t.2.2 p - (Real.sqrt (Real.sqrt (2 / (2 * n4 : ℕ))) : ℂ) * Complex.exp (Real.pi * ((p : ℂ) + 1 / 8) / (2 * n4 : ℕ) * I)‖ ≤ 12 / 10 ^ 9 := by
  unfold rawRot at h
  simp only [Bool.and_eq_true] at h
  obtain ⟨⟨⟨⟨_, h1⟩, h2⟩, h3⟩, h4⟩ := h
  have h1 := beq_iff_eq.mp h1
  have hr := fourth_root (2 * n4) s (by omega) (Nat.le_of_ble_eq_true h2) (by simpa [Nat.blt_eq] using h3)
  have hn' : (n4 : ℝ) ≤ 1000 := by exact_mod_cast hn2
  have hn3 : (3 : ℝ) ≤ n4 := by exact_mod_cast hn
  have hp' : (p : ℝ) ≤ n4 := by exact_mod_cast hp.le
  generalize hR : Real.sqrt (Real.sqrt (2 / (2 * n4 : ℕ))) = r at hr ⊢
  have hr0 : 0 ≤ r := by rw [← hR]; exact Real.sqrt_nonneg _
  have hr1 : r ≤ 1 := by
    rw [← hR]
    refine Real.sqrt_le_one.mpr (Real.sqrt_le_one.mpr ?_)
    rw [div_le_one (by positivity)]
    push_cast; linarith
  have hs : ‖fx ((s : Int), 0) - (r : ℂ)‖ ≤ 1 / 2 ^ 64 := by
    refine (Complex.norm_le_abs_re_add_abs_im _).trans ?_
    unfold fx
    rw [Complex.sub_re, Complex.sub_im, Complex.ofReal_re, Complex.ofReal_im]
    simp only [Int.cast_natCast, Int.cast_zero, zero_div, sub_zero, abs_zero, add_zero]
    exact hr
  have nr : ‖(r : ℂ)‖ ≤ 1 := by rw [Complex.norm_real, Real.norm_of_nonneg hr0]; exact hr1
  have c0 := cmulI_err _ _ _ _ _ _ nr (Complex.norm_exp_ofReal_mul_I _).le hs (root_err (32 * n4) (by omega))
  have := check_spec t.2.1 _ _ (Complex.norm_exp_ofReal_mul_I _).le (root_err (4 * n4) (by omega)) t.2.2 _ _ (1 / 2 ^ 40)
    (norm_mul_le1 _ _ (Complex.norm_exp_ofReal_mul_I _).le nr) (c0.trans (by norm_num))
    (by rw [h1]; push_cast; rw [← add_div, div_le_div_iff₀ (by norm_num) (by norm_num)]; norm_num; linarith) h4 p (by omega)
  have e : (r : ℂ) * Complex.exp (((2 * Real.pi / (32 * n4 : ℕ) : ℝ) : ℂ) * I) * Complex.exp (((2 * Real.pi / (4 * n4 : ℕ) : ℝ) : ℂ) * I) ^ p =
      (r : ℂ) * Complex.exp (Real.pi * ((p : ℂ) + 1 / 8) / (2 * n4 : ℕ) * I) := by
    rw [← Complex.exp_nat_mul, mul_assoc, ← Complex.exp_add]
    congr 2
    have : (n4 : ℂ) ≠ 0 := by exact_mod_cast (by omega : n4 ≠ 0)
    push_cast
    field_simp
    ring
  rw [e] at this
  refine this.trans ?_
  have : (p : ℝ) / 2 ^ 40 ≤ 1000 / 2 ^ 40 := div_le_div_of_nonneg_right (by linarith) (by norm_num)
  norm_num at this ⊢
  linarith

end LC3
