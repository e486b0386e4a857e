import Verif.Lemmas.Fft
import Mathlib.Analysis.SpecialFunctions.Trigonometric.Basic
import Mathlib.Analysis.SpecialFunctions.Complex.Circle
import Mathlib.Algebra.BigOperators.Ring.Finset
import Mathlib.Tactic.FieldSimp
import Mathlib.Tactic.LinearCombination

/-! The FFT of `src/mdct.c`, in exact arithmetic with exact twiddles, is the discrete Fourier transform. -/

namespace LC3

open Complex Finset

/-- The arithmetic of the real numbers. -/
noncomputable def Arith.real : Arith ℝ where
  ofRat := fun q => (q : ℝ)
  add := (· + ·)
  sub := (· - ·)
  mul := (· * ·)
  div := (· / ·)
  max := Max.max
  abs := fun a => |a|
  lt := fun a b => @decide (a < b) (Classical.dec _)
  le := fun a b => @decide (a ≤ b) (Classical.dec _)
  floor := Int.floor
  trunc := fun a => @ite _ (a < 0) (Classical.dec _) (-⌊-a⌋) ⌊a⌋

/-- The root of unity `exp(-2 i pi k / n)`. -/
noncomputable def W (n k : ℕ) : ℂ := Complex.exp (-(2 * Real.pi * Complex.I * (k / n)))

/-- A complex number of a buffer. -/
noncomputable def cplx (l : List ℝ) (k : ℕ) : ℂ := ⟨l.getD (2 * k) 0, l.getD (2 * k + 1) 0⟩

theorem W_zero (n : ℕ) : W n 0 = 1 := by simp [W]

theorem W_add (n a b : ℕ) : W n (a + b) = W n a * W n b := by
  unfold W; rw [← Complex.exp_add]; congr 1; push_cast; ring

theorem W_self (n : ℕ) (hn : 0 < n) (k : ℕ) : W n (n * k) = 1 := by
  unfold W
  have hn' : (n : ℂ) ≠ 0 := by exact_mod_cast hn.ne'
  rw [Complex.exp_eq_one_iff]
  refine ⟨-(k : ℤ), ?_⟩
  push_cast
  field_simp

theorem W_scale (m n k : ℕ) (hm : 0 < m) : W (m * n) (m * k) = W n k := by
  unfold W
  have hm' : (m : ℂ) ≠ 0 := by exact_mod_cast hm.ne'
  congr 1
  push_cast
  rw [mul_div_mul_left _ _ hm']

theorem W_add_mul (n a k : ℕ) (hn : 0 < n) : W n (a + n * k) = W n a := by
  rw [W_add, W_self n hn, mul_one]

theorem W_half (n : ℕ) (hn : 0 < n) : W (2 * n) n = -1 := by
  have h := W_scale n 2 1 hn
  rw [mul_one, Nat.mul_comm] at h
  rw [h]
  unfold W
  rw [show -(2 * (Real.pi : ℂ) * Complex.I * ((1 : ℕ) / (2 : ℕ) : ℂ)) = -(Real.pi * Complex.I) by push_cast; ring, Complex.exp_neg,
    Complex.exp_pi_mul_I]
  norm_num

theorem sum_range_mul {M : Type} [AddCommMonoid M] (f : ℕ → M) (r B : ℕ) :
    ∑ k ∈ range (r * B), f k = ∑ l ∈ range B, ∑ q ∈ range r, f (q + r * l) := by
  induction B with
  | zero => simp
  | succ B ih =>
    rw [Nat.mul_succ, Finset.sum_range_add, ih, Finset.sum_range_succ]
    congr 1
    exact Finset.sum_congr rfl (fun q _ => by rw [Nat.add_comm])

/-- The DFT of the decimated inputs, after the stage of blocks of size `B`. -/
def Stage (x : ℕ → ℂ) (B m : ℕ) (Y : ℕ → ℂ) : Prop :=
  ∀ i k, i < m → k < B → Y (i * B + k) = ∑ l ∈ range B, x (i + l * m) * W B (k * l)

/-- A butterfly of `r` points. -/
theorem stage_step (x Y Y' : ℕ → ℂ) (B m r : ℕ) (hB : 0 < B) (hr : 0 < r) (h : Stage x B (r * m) Y)
    (hY : ∀ i j s, i < m → j < B → s < r →
      Y' (B * (r * i + s) + j) = ∑ q ∈ range r, Y (i * B + j + q * (m * B)) * W (r * B) ((s * B + j) * q)) :
    Stage x (r * B) m Y' := by
  intro i k hi hk
  have hs : k / B < r := by rw [Nat.div_lt_iff_lt_mul hB]; exact hk
  have hj : k % B < B := Nat.mod_lt _ hB
  have hkk : k / B * B + k % B = k := by rw [Nat.mul_comm]; exact Nat.div_add_mod k B
  have h1 := hY i (k % B) (k / B) hi hj hs
  rw [hkk] at h1
  rw [show i * (r * B) + k = B * (r * i + k / B) + k % B by
    have : B * (r * i + k / B) = i * (r * B) + k / B * B := by ring
    omega, h1, sum_range_mul, Finset.sum_comm]
  refine Finset.sum_congr rfl fun q hq => ?_
  rw [Finset.mem_range] at hq
  have h2 := h (i + q * m) (k % B) (by
    have : (q + 1) * m ≤ r * m := Nat.mul_le_mul_right m hq
    rw [Nat.add_mul] at this; omega) hj
  rw [show i * B + k % B + q * (m * B) = (i + q * m) * B + k % B by ring, h2, Finset.sum_mul]
  refine Finset.sum_congr rfl fun l _ => ?_
  rw [show i + q * m + l * (r * m) = i + (q + r * l) * m by ring, mul_assoc]
  congr 1
  rw [← W_scale r B (k % B * l) hr, ← W_add_mul (r * B) (r * (k % B * l)) (k / B * l) (Nat.mul_pos hr hB), ← W_add]
  congr 1
  have : k * (r * l) = (k / B * B + k % B) * (r * l) := by rw [hkk]
  rw [show k * (q + r * l) = k * q + k * (r * l) by ring, this]
  ring

/-! ### The stages -/

/-- Exact constants of `fft_5`. -/
structure Exact5 (T : MdctTables ℝ) : Prop where
  cos1 : T.cos1 = Real.cos (2 * Real.pi / 5)
  cos2 : T.cos2 = Real.cos (4 * Real.pi / 5)
  sin1 : T.sin1 = -Real.sin (2 * Real.pi / 5)
  sin2 : T.sin2 = -Real.sin (4 * Real.pi / 5)

/-- Exact twiddles of the 3 points butterfly of a transform of `3 * n3` points. -/
def ExactBf3 (n3 : ℕ) (tw : Option (ℕ × List ℝ)) : Prop :=
  ∃ w, tw = some (n3, w) ∧ 12 * n3 ≤ w.length ∧
    ∀ k, k < 3 * n3 → cplx w (2 * k) = W (3 * n3) k ∧ cplx w (2 * k + 1) = W (3 * n3) (2 * k)

/-- Exact twiddles of the 2 points butterfly of a transform of `2 * n2` points. -/
def ExactBf2 (n2 : ℕ) (tw : Option (ℕ × List ℝ)) : Prop :=
  ∃ w, tw = some (n2, w) ∧ 2 * n2 ≤ w.length ∧ ∀ k, k < n2 → cplx w k = W (2 * n2) k

theorem W_re (n k : ℕ) : (W n k).re = Real.cos (2 * Real.pi * (k / n)) := by
  unfold W
  rw [show -(2 * (Real.pi : ℂ) * I * (k / n)) = ((-(2 * Real.pi * (k / n)) : ℝ) : ℂ) * I by push_cast; ring,
    Complex.exp_ofReal_mul_I_re, Real.cos_neg]

theorem W_im (n k : ℕ) : (W n k).im = -Real.sin (2 * Real.pi * (k / n)) := by
  unfold W
  rw [show -(2 * (Real.pi : ℂ) * I * (k / n)) = ((-(2 * Real.pi * (k / n)) : ℝ) : ℂ) * I by push_cast; ring,
    Complex.exp_ofReal_mul_I_im, Real.sin_neg]

theorem W5_1 (T : MdctTables ℝ) (h : Exact5 T) : W 5 1 = ⟨T.cos1, T.sin1⟩ := by
  apply Complex.ext
  · rw [W_re, h.cos1]; congr 1; push_cast; ring
  · rw [W_im, h.sin1]; congr 2; push_cast; ring

theorem W5_2 (T : MdctTables ℝ) (h : Exact5 T) : W 5 2 = ⟨T.cos2, T.sin2⟩ := by
  apply Complex.ext
  · rw [W_re, h.cos2]; congr 1; push_cast; ring
  · rw [W_im, h.sin2]; congr 2; push_cast; ring

theorem W5_4 (T : MdctTables ℝ) (h : Exact5 T) : W 5 4 = ⟨T.cos1, -T.sin1⟩ := by
  have e : 2 * Real.pi * (((4 : ℕ) : ℝ) / ((5 : ℕ) : ℝ)) = 2 * Real.pi - 2 * Real.pi / 5 := by push_cast; ring
  apply Complex.ext
  · rw [W_re, h.cos1, e, Real.cos_two_pi_sub]
  · rw [W_im, h.sin1, e, Real.sin_two_pi_sub]

theorem W5_3 (T : MdctTables ℝ) (h : Exact5 T) : W 5 3 = ⟨T.cos2, -T.sin2⟩ := by
  have e : 2 * Real.pi * (((3 : ℕ) : ℝ) / ((5 : ℕ) : ℝ)) = 2 * Real.pi - 4 * Real.pi / 5 := by push_cast; ring
  apply Complex.ext
  · rw [W_re, h.cos2, e, Real.cos_two_pi_sub]
  · rw [W_im, h.sin2, e, Real.sin_two_pi_sub]

/-- A pair as a complex number. -/
noncomputable def ofPair (p : ℝ × ℝ) : ℂ := ⟨p.1, p.2⟩

theorem cplx_cAt (l : List ℝ) (k : ℕ) : cplx l k = ofPair (cAt 0 l k) := rfl

theorem dft5_spec (T : MdctTables ℝ) (h : Exact5 T) (x0 x1 x2 x3 x4 : ℝ × ℝ) (r : ℕ) (hr : r < 5) :
    ofPair (dft5 Arith.real T x0 x1 x2 x3 x4 r) =
      ofPair x0 * W 5 (r * 0) + ofPair x1 * W 5 (r * 1) + ofPair x2 * W 5 (r * 2) + ofPair x3 * W 5 (r * 3) + ofPair x4 * W 5 (r * 4) := by
  have e0 := W_zero 5
  have e1 := W5_1 T h
  have e2 := W5_2 T h
  have e3 := W5_3 T h
  have e4 := W5_4 T h
  have e6 : W 5 6 = W 5 1 := W_add_mul 5 1 1 (by decide)
  have e8 : W 5 8 = W 5 3 := W_add_mul 5 3 1 (by decide)
  have e9 : W 5 9 = W 5 4 := W_add_mul 5 4 1 (by decide)
  have e12 : W 5 12 = W 5 2 := W_add_mul 5 2 2 (by decide)
  have e16 : W 5 16 = W 5 1 := W_add_mul 5 1 3 (by decide)
  interval_cases r <;>
  simp only [Nat.zero_mul, Nat.one_mul, Nat.mul_zero, Nat.mul_one, Nat.reduceMul, e6, e8, e9, e12, e16, e0, e1, e2, e3, e4] <;>
  apply Complex.ext <;>
  simp only [ofPair, dft5, Arith.real, Complex.add_re, Complex.add_im, Complex.mul_re, Complex.mul_im, Complex.one_re, Complex.one_im] <;>
  ring

theorem out2_spec (x0 x1 a : ℝ × ℝ) (s : ℕ) (hs : s < 2) :
    ofPair (out2 Arith.real x0 x1 a s) = ofPair x0 + ofPair x1 * ((-1) ^ s * ofPair a) := by
  interval_cases s <;>
  simp only [pow_zero, pow_one, one_mul] <;>
  apply Complex.ext <;>
  simp [ofPair, out2, Arith.real] <;>
  ring

theorem out3_spec (x0 x1 x2 a b : ℝ × ℝ) :
    ofPair (out3 Arith.real x0 x1 x2 a b) = ofPair x0 + ofPair x1 * ofPair a + ofPair x2 * ofPair b := by
  apply Complex.ext <;>
  simp only [ofPair, out3, cmac3Re, cmac3Im, Arith.real, Complex.add_re, Complex.add_im, Complex.mul_re, Complex.mul_im] <;>
  ring

theorem stage5 (T : MdctTables ℝ) (h : Exact5 T) (m : ℕ) (x y : List ℝ) (hx : 10 * m ≤ x.length) (hy : 10 * m ≤ y.length) :
    ∃ y', fft5 Arith.real T m x y = some y' ∧ y'.length = y.length ∧ Stage (cplx x) 5 m (cplx y') := by
  obtain ⟨y', h1, h2, h3⟩ := fft5_spec 0 Arith.real T m x y hx hy
  refine ⟨y', h1, h2, fun i k hi hk => ?_⟩
  rw [cplx_cAt, Nat.mul_comm i 5, h3 i k hi hk, dft5_spec T h _ _ _ _ _ _ hk]
  simp only [Finset.sum_range_succ, Finset.sum_range_zero, Nat.zero_mul, Nat.one_mul, Nat.add_zero, zero_add]
  rfl

theorem stage2 (x : ℕ → ℂ) (B m : ℕ) (tw : Option (ℕ × List ℝ)) (ht : ExactBf2 B tw) (hB : 0 < B) (src dst : List ℝ)
    (hs : 2 * (B * (2 * m)) ≤ src.length) (hd : 2 * (B * (2 * m)) ≤ dst.length) (h : Stage x B (2 * m) (cplx src)) :
    ∃ t y', tw = some t ∧ fftBf2 Arith.real t m src dst = some y' ∧ y'.length = dst.length ∧ Stage x (2 * B) m (cplx y') := by
  obtain ⟨w, rfl, hw, hW⟩ := ht
  have e : 2 * (B * (2 * m)) = 4 * (m * B) := by ring
  rw [e] at hs hd
  obtain ⟨y', h1, h2, h3⟩ := fftBf2_spec 0 Arith.real B w m src dst hw hs hd
  refine ⟨_, y', rfl, h1, h2, stage_step x _ _ B m 2 hB (by decide) h fun i j s hi hj hs2 => ?_⟩
  rw [cplx_cAt, h3 i j s hi hj hs2, out2_spec _ _ _ _ hs2]
  simp only [Finset.sum_range_succ, Finset.sum_range_zero, Nat.zero_mul, Nat.one_mul, Nat.add_zero, zero_add, Nat.mul_zero, Nat.mul_one]
  rw [← cplx_cAt, ← cplx_cAt, ← cplx_cAt, W_zero, mul_one, hW j hj]
  congr 2
  interval_cases s
  · rw [pow_zero, one_mul, Nat.zero_mul, Nat.zero_add]
  · rw [pow_one, Nat.one_mul, W_add, W_half B hB]

theorem stage3 (x : ℕ → ℂ) (B m : ℕ) (tw : Option (ℕ × List ℝ)) (ht : ExactBf3 B tw) (hB : 0 < B) (src dst : List ℝ)
    (hs : 2 * (B * (3 * m)) ≤ src.length) (hd : 2 * (B * (3 * m)) ≤ dst.length) (h : Stage x B (3 * m) (cplx src)) :
    ∃ t y', tw = some t ∧ fftBf3 Arith.real t m src dst = some y' ∧ y'.length = dst.length ∧ Stage x (3 * B) m (cplx y') := by
  obtain ⟨w, rfl, hw, hW⟩ := ht
  have e : 2 * (B * (3 * m)) = 6 * (m * B) := by ring
  rw [e] at hs hd
  obtain ⟨y', h1, h2, h3⟩ := fftBf3_spec 0 Arith.real B w m src dst hw hs hd
  refine ⟨_, y', rfl, h1, h2, stage_step x _ _ B m 3 hB (by decide) h fun i j s hi hj hs2 => ?_⟩
  rw [cplx_cAt, h3 i j s hi hj hs2, out3_spec]
  simp only [Finset.sum_range_succ, Finset.sum_range_zero, Nat.zero_mul, Nat.one_mul, Nat.add_zero, zero_add, Nat.mul_zero, Nat.mul_one]
  have hk : s * B + j < 3 * B := mul_lt_of hs2 hj
  rw [← cplx_cAt, ← cplx_cAt, ← cplx_cAt, ← cplx_cAt, ← cplx_cAt, W_zero, mul_one, (hW _ hk).1, (hW _ hk).2, Nat.mul_comm 2 (s * B + j)]

/-! ### The loops -/

theorem loop3_spec (T : MdctTables ℝ) (x : ℕ → ℂ) (b : ℕ) : ∀ (a i3 fuel B : ℕ) (swap : Bool) (src dst : List ℝ), a < fuel → 0 < B →
    (∀ i, i < a → ExactBf3 (B * 3 ^ i) (T.bf3 (i3 + i))) → 2 * (B * (3 ^ a * 2 ^ b)) ≤ src.length →
    2 * (B * (3 ^ a * 2 ^ b)) ≤ dst.length → Stage x B (3 ^ a * 2 ^ b) (cplx src) →
    ∃ swap' src' dst', fftLoop3 Arith.real T fuel (3 ^ a * 2 ^ b) i3 swap src dst = some (2 ^ b, i3 + a, swap', src', dst') ∧
      (if swap' = swap then src'.length = src.length ∧ dst'.length = dst.length else src'.length = dst.length ∧ dst'.length = src.length) ∧
      Stage x (B * 3 ^ a) (2 ^ b) (cplx src') := by
  intro a
  induction a with
  | zero =>
    intro i3 fuel B swap src dst hf _ _ _ _ hS
    obtain ⟨f, rfl⟩ : ∃ f, fuel = f + 1 := ⟨fuel - 1, by omega⟩
    rw [Nat.pow_zero, Nat.one_mul] at hS ⊢
    refine ⟨swap, src, dst, ?_, by rw [if_pos rfl]; exact ⟨rfl, rfl⟩, by rw [Nat.mul_one]; exact hS⟩
    rw [fftLoop3, if_pos (and_pred_pow2 b)]; rfl
  | succ a ih =>
    intro i3 fuel B swap src dst hf hB hT hs hd hS
    obtain ⟨f, rfl⟩ : ∃ f, fuel = f + 1 := ⟨fuel - 1, by omega⟩
    have e : 3 ^ (a + 1) * 2 ^ b = 3 * (3 ^ a * 2 ^ b) := by ring
    have ht := hT 0 (by omega)
    rw [Nat.pow_zero, Nat.mul_one, Nat.add_zero] at ht
    obtain ⟨t, y', h1, h2, h3, h4⟩ := stage3 x B (3 ^ a * 2 ^ b) (T.bf3 i3) ht hB src dst (by rw [← e]; exact hs) (by rw [← e]; exact hd)
      (by rw [← e]; exact hS)
    have e2 : B * (3 ^ (a + 1) * 2 ^ b) = 3 * B * (3 ^ a * 2 ^ b) := by ring
    rw [e2] at hs hd
    obtain ⟨sw, src', dst', g1, g2, g3⟩ := ih (i3 + 1) f (3 * B) (!swap) y' src (by omega) (by omega) (fun i hi => by
      have := hT (i + 1) (by omega)
      rw [show 3 * B * 3 ^ i = B * 3 ^ (i + 1) by ring, show i3 + 1 + i = i3 + (i + 1) by omega]
      exact this) (by rw [h3]; exact hd) hs h4
    refine ⟨sw, src', dst', ?_, ?_, by rw [show B * 3 ^ (a + 1) = 3 * B * 3 ^ a by ring]; exact g3⟩
    · rw [fftLoop3, if_neg (and_pred_ne a b), h1, Option.bind_some, show 3 ^ (a + 1) * 2 ^ b / 3 = 3 ^ a * 2 ^ b by omega, h2,
        Option.bind_some, g1, show i3 + 1 + a = i3 + (a + 1) by omega]
    · rw [h3] at g2
      by_cases hw : sw = swap
      · subst hw; rw [if_neg (by simp)] at g2; rw [if_pos rfl]; exact g2
      · rw [if_pos (by revert hw; cases sw <;> cases swap <;> simp)] at g2; rw [if_neg hw]; exact g2

theorem loop2_spec (T : MdctTables ℝ) (x : ℕ → ℂ) (i3 : ℕ) : ∀ (b i2 fuel B : ℕ) (swap : Bool) (src dst : List ℝ), b < fuel → 0 < B →
    (∀ i, i < b → ExactBf2 (B * 2 ^ i) (T.bf2 (i2 + i) i3)) → 2 * (B * 2 ^ b) ≤ src.length →
    2 * (B * 2 ^ b) ≤ dst.length → Stage x B (2 ^ b) (cplx src) →
    ∃ swap' src' dst', fftLoop2 Arith.real T i3 fuel (2 ^ b) i2 swap src dst = some (swap', src', dst') ∧
      (if swap' = swap then src'.length = src.length ∧ dst'.length = dst.length else src'.length = dst.length ∧ dst'.length = src.length) ∧
      Stage x (B * 2 ^ b) 1 (cplx src') := by
  intro b
  induction b with
  | zero =>
    intro i2 fuel B swap src dst hf _ _ _ _ hS
    obtain ⟨f, rfl⟩ : ∃ f, fuel = f + 1 := ⟨fuel - 1, by omega⟩
    refine ⟨swap, src, dst, ?_, by rw [if_pos rfl]; exact ⟨rfl, rfl⟩, by rw [Nat.pow_zero, Nat.mul_one]; exact hS⟩
    rw [fftLoop2, if_pos (by decide)]
  | succ b ih =>
    intro i2 fuel B swap src dst hf hB hT hs hd hS
    obtain ⟨f, rfl⟩ : ∃ f, fuel = f + 1 := ⟨fuel - 1, by omega⟩
    have e : 2 ^ (b + 1) = 2 * 2 ^ b := by ring
    have ht := hT 0 (by omega)
    rw [Nat.pow_zero, Nat.mul_one, Nat.add_zero] at ht
    obtain ⟨t, y', h1, h2, h3, h4⟩ := stage2 x B (2 ^ b) (T.bf2 i2 i3) ht hB src dst (by rw [← e]; exact hs) (by rw [← e]; exact hd)
      (by rw [← e]; exact hS)
    have e2 : B * 2 ^ (b + 1) = 2 * B * 2 ^ b := by ring
    rw [e2] at hs hd
    obtain ⟨sw, src', dst', g1, g2, g3⟩ := ih (i2 + 1) f (2 * B) (!swap) y' src (by omega) (by omega) (fun i hi => by
      have := hT (i + 1) (by omega)
      rw [show 2 * B * 2 ^ i = B * 2 ^ (i + 1) by ring, show i2 + 1 + i = i2 + (i + 1) by omega]
      exact this) (by rw [h3]; exact hd) hs h4
    have hpos := Nat.pow_pos (n := b) (show 0 < 2 by decide)
    refine ⟨sw, src', dst', ?_, ?_, by rw [e2]; exact g3⟩
    · rw [fftLoop2, if_neg (by omega), h1, Option.bind_some, show 2 ^ (b + 1) / 2 = 2 ^ b by omega, h2, Option.bind_some, g1]
    · rw [h3] at g2
      by_cases hw : sw = swap
      · subst hw; rw [if_neg (by simp)] at g2; rw [if_pos rfl]; exact g2
      · rw [if_pos (by revert hw; cases sw <;> cases swap <;> simp)] at g2; rw [if_neg hw]; exact g2

/-- Exact tables for the transform of `5 * 3^a * 2^b` points. -/
structure ExactFft (T : MdctTables ℝ) (a b : ℕ) : Prop where
  c5 : Exact5 T
  bf3 : ∀ i, i < a → ExactBf3 (5 * 3 ^ i) (T.bf3 i)
  bf2 : ∀ i, i < b → ExactBf2 (5 * 3 ^ a * 2 ^ i) (T.bf2 i a)

theorem fft_spec (T : MdctTables ℝ) (a b : ℕ) (hT : ExactFft T a b) (y0 y1 : List ℝ) (h0 : 2 * (5 * 3 ^ a * 2 ^ b) ≤ y0.length)
    (h1 : 2 * (5 * 3 ^ a * 2 ^ b) ≤ y1.length) :
    ∃ in0 z0 z1, fft Arith.real T (5 * 3 ^ a * 2 ^ b) y0 y1 = some (in0, z0, z1) ∧ z0.length = y0.length ∧ z1.length = y1.length ∧
      ∀ k, k < 5 * 3 ^ a * 2 ^ b → cplx (if in0 then z0 else z1) k =
        ∑ l ∈ range (5 * 3 ^ a * 2 ^ b), cplx y0 l * W (5 * 3 ^ a * 2 ^ b) (k * l) := by
  have e : 5 * 3 ^ a * 2 ^ b = 5 * (3 ^ a * 2 ^ b) := by ring
  have hpa := Nat.pow_pos (n := a) (show 0 < 3 by decide)
  have ha : a < 3 ^ a * 2 ^ b + 1 := by
    have h2 : 3 ^ a ≤ 3 ^ a * 2 ^ b := Nat.le_mul_of_pos_right _ (Nat.pow_pos (by decide))
    have h3 : a < 3 ^ a := Nat.lt_pow_self (by decide)
    omega
  have hb : b < 2 ^ b + 1 := by have : b < 2 ^ b := Nat.lt_pow_self (by decide)
                                omega
  obtain ⟨u1, f1, f2, f3⟩ := stage5 T hT.c5 (3 ^ a * 2 ^ b) y0 y1 (by omega) (by omega)
  obtain ⟨sw, s2, d2, g1, g2, g3⟩ := loop3_spec T (cplx y0) b a 0 (3 ^ a * 2 ^ b + 1) 5 false u1 y0 ha (by decide)
    (fun i hi => by rw [Nat.zero_add]; exact hT.bf3 i hi) (by omega) (by omega) f3
  have hL : 2 * (5 * 3 ^ a * 2 ^ b) ≤ s2.length ∧ 2 * (5 * 3 ^ a * 2 ^ b) ≤ d2.length := by
    by_cases hsw : sw = false
    · rw [if_pos hsw] at g2; omega
    · rw [if_neg hsw] at g2; omega
  obtain ⟨sw', s3, d3, k1, k2, k3⟩ := loop2_spec T (cplx y0) a b 0 (2 ^ b + 1) (5 * 3 ^ a) sw s2 d2 hb (by omega)
    (fun i hi => by rw [Nat.zero_add]; exact hT.bf2 i hi) hL.1 hL.2 g3
  refine ⟨sw', if sw' then s3 else d3, if sw' then d3 else s3, ?_, ?_, ?_, ?_⟩
  · unfold fft
    rw [show 5 * 3 ^ a * 2 ^ b / 5 = 3 ^ a * 2 ^ b by omega, f1]
    dsimp only [bind, Option.bind]
    rw [g1]
    dsimp only
    rw [Nat.zero_add, k1]
    cases sw' <;> rfl
  · revert g2 k2; rw [f2]; cases sw <;> cases sw' <;> simp <;> intros <;> omega
  · revert g2 k2; rw [f2]; cases sw <;> cases sw' <;> simp <;> intros <;> omega
  · intro k hk
    have := k3 0 k (by decide) hk
    rw [Nat.zero_mul, Nat.zero_add] at this
    rw [show (if sw' = true then (if sw' = true then s3 else d3) else (if sw' = true then d3 else s3)) = s3 by cases sw' <;> rfl, this]
    exact Finset.sum_congr rfl fun l _ => by rw [Nat.zero_add, Nat.mul_one]

end LC3
