import Verif.Lemmas.Neon
import Verif.Lemmas.Dft

/-! In the real numbers, the FFT with vector instructions is the generic one. -/

namespace LC3

variable {R : Type}

/-- The operations of the vectors on the real numbers. -/
noncomputable def Neon.real : Neon ℝ where
  toArith := Arith.real
  fneg := fun a => -a
  fma := fun a b c => a + b * c
  fms := fun a b c => a - b * c

theorem ndft5_real (T : MdctTables ℝ) (x0 x1 x2 x3 x4 : ℝ × ℝ) (r : ℕ) : ndft5 Neon.real T x0 x1 x2 x3 x4 r = dft5 Arith.real T x0 x1 x2 x3 x4 r := by
  match r with
  | 0 => change Prod.mk _ _ = Prod.mk _ _; rw [Prod.mk.injEq]; dsimp only [Neon.real, Arith.real]; constructor <;> ring
  | 1 => change Prod.mk _ _ = Prod.mk _ _; rw [Prod.mk.injEq]; dsimp only [Neon.real, Arith.real]; constructor <;> ring
  | 2 => change Prod.mk _ _ = Prod.mk _ _; rw [Prod.mk.injEq]; dsimp only [Neon.real, Arith.real]; constructor <;> ring
  | 3 => change Prod.mk _ _ = Prod.mk _ _; rw [Prod.mk.injEq]; dsimp only [Neon.real, Arith.real]; constructor <;> ring
  | r + 4 => change Prod.mk _ _ = Prod.mk _ _; rw [Prod.mk.injEq]; dsimp only [Neon.real, Arith.real]; constructor <;> ring

theorem nout2_real (x0 x1 a : ℝ × ℝ) (s : ℕ) : nout2 Neon.real x0 x1 a s = out2 Arith.real x0 x1 a s := by
  unfold nout2 out2
  split <;> (rw [Prod.mk.injEq]; dsimp only [Neon.real, Arith.real]; constructor <;> ring)

theorem nout3_real (x0 x1 x2 a b : ℝ × ℝ) : nout3 Neon.real x0 x1 x2 a b = out3 Arith.real x0 x1 x2 a b := by
  unfold nout3 out3 cmac3Re cmac3Im
  dsimp only [Neon.real, Arith.real]
  apply Prod.ext <;> dsimp only <;> ring

/-- Two buffers with the same complex numbers up to `n` and the same cells after. -/
theorem eq_of_cAt (z : R) (a b : List R) (n : ℕ) (hl : a.length = b.length) (h1 : ∀ k, k < n → cAt z a k = cAt z b k)
    (h2 : ∀ p, 2 * n ≤ p → a.getD p z = b.getD p z) : a = b := by
  apply List.ext_getElem hl
  intro p p1 p2
  have key : a.getD p z = b.getD p z := by
    by_cases hp : 2 * n ≤ p
    · exact h2 p hp
    · have := h1 (p / 2) (by omega)
      unfold cAt at this
      injection this with u v
      by_cases he : p % 2 = 0
      · rwa [show 2 * (p / 2) = p by omega] at u
      · rwa [show 2 * (p / 2) + 1 = p by omega] at v
  rwa [List.getD_eq_getElem _ _ p1, List.getD_eq_getElem _ _ p2] at key

theorem neonFft5_real (T : MdctTables ℝ) (n : ℕ) (he : n % 2 = 0) (x y : List ℝ) (hx : 10 * n ≤ x.length) (hy : 10 * n ≤ y.length) :
    neonFft5 Neon.real T n x y = fft5 Arith.real T n x y := by
  obtain ⟨u, u1, u2, u3, u4⟩ := neonFft5_full 0 Neon.real T n he x y hx hy
  obtain ⟨v, v1, v2, v3, v4⟩ := fft5_full 0 Arith.real T n x y hx hy
  rw [u1, v1, eq_of_cAt 0 u v (5 * n) (by omega) (fun k hk => ?_) (fun p hp => by rw [u4 p (by omega), v4 p (by omega)])]
  have a := u3 (k / 5) (k % 5) (by omega) (by omega)
  have b := v3 (k / 5) (k % 5) (by omega) (by omega)
  rw [ndft5_real] at a
  rw [show 5 * (k / 5) + k % 5 = k by omega] at a b
  rw [a, b]

/-- A position in the rows of a butterfly. -/
theorem row_pos (B S n k : ℕ) (hB : 0 < B) (hS : 0 < S) (hk : k < B * (S * n)) :
    k / B / S < n ∧ k / B % S < S ∧ k % B < B ∧ B * (S * (k / B / S) + k / B % S) + k % B = k := by
  refine ⟨?_, Nat.mod_lt _ hS, Nat.mod_lt _ hB, ?_⟩
  · rw [Nat.div_lt_iff_lt_mul hS, Nat.div_lt_iff_lt_mul hB]
    rwa [Nat.mul_comm n S, Nat.mul_comm (S * n) B]
  · rw [Nat.div_add_mod, Nat.div_add_mod]

theorem neonBf2_real (n2 : ℕ) (w : List ℝ) (n : ℕ) (x y : List ℝ) (h0 : 0 < n2) (hw : 2 * n2 ≤ w.length) (hx : 4 * (n * n2) ≤ x.length)
    (hy : 4 * (n * n2) ≤ y.length) : neonFftBf2 Neon.real (n2, w) n x y = fftBf2 Arith.real (n2, w) n x y := by
  obtain ⟨u, u1, u2, u3, u4⟩ := neonBf2_full 0 Neon.real n2 w n x y hw hx hy
  obtain ⟨v, v1, v2, v3, v4⟩ := fftBf2_full 0 Arith.real n2 w n x y hw hx hy
  rw [u1, v1, eq_of_cAt 0 u v (2 * (n * n2)) (by omega) (fun k hk => ?_) (fun p hp => by rw [u4 p (by omega), v4 p (by omega)])]
  obtain ⟨r1, r2, r3, r4⟩ := row_pos n2 2 n k h0 (by decide) (by rw [show n2 * (2 * n) = 2 * (n * n2) by ring]; exact hk)
  have a := u3 _ _ _ r1 r3 r2
  have b := v3 _ _ _ r1 r3 r2
  rw [nout2_real] at a
  rw [r4] at a b
  rw [a, b]

theorem neonBf3_real (n3 : ℕ) (w : List ℝ) (n : ℕ) (x y : List ℝ) (h0 : 0 < n3) (hw : 12 * n3 ≤ w.length) (hx : 6 * (n * n3) ≤ x.length)
    (hy : 6 * (n * n3) ≤ y.length) : neonFftBf3 Neon.real (n3, w) n x y = fftBf3 Arith.real (n3, w) n x y := by
  obtain ⟨u, u1, u2, u3, u4⟩ := neonBf3_full 0 Neon.real n3 w n x y hw hx hy
  obtain ⟨v, v1, v2, v3, v4⟩ := fftBf3_full 0 Arith.real n3 w n x y hw hx hy
  rw [u1, v1, eq_of_cAt 0 u v (3 * (n * n3)) (by omega) (fun k hk => ?_) (fun p hp => by rw [u4 p (by omega), v4 p (by omega)])]
  obtain ⟨r1, r2, r3, r4⟩ := row_pos n3 3 n k h0 (by decide) (by rw [show n3 * (3 * n) = 3 * (n * n3) by ring]; exact hk)
  have a := u3 _ _ _ r1 r3 r2
  have b := v3 _ _ _ r1 r3 r2
  rw [nout3_real] at a
  rw [r4] at a b
  rw [a, b]

/-! ### The whole transform: any relation of the stages -/

/-- The stages of both transforms have the same outcome, or at least outcomes related by `Q`, that is kept by the stages. -/
theorem neonLoop3_total (z : R) (N : Neon R) (T : MdctTables R) (b : ℕ) : ∀ (a i3 fuel B : ℕ) (swap : Bool) (src dst : List R), a < fuel → 0 < B →
    (∀ i, i < a → HasBf3 (B * 3 ^ i) (T.bf3 (i3 + i))) → 2 * (B * (3 ^ a * 2 ^ b)) ≤ src.length →
    2 * (B * (3 ^ a * 2 ^ b)) ≤ dst.length →
    ∃ swap' src' dst', neonLoop3 N T fuel (3 ^ a * 2 ^ b) i3 swap src dst = some (2 ^ b, i3 + a, swap', src', dst') ∧
      (if swap' = swap then src'.length = src.length ∧ dst'.length = dst.length else src'.length = dst.length ∧ dst'.length = src.length) := by
  intro a
  induction a with
  | zero =>
    intro i3 fuel B swap src dst hf _ _ _ _
    obtain ⟨f, rfl⟩ : ∃ f, fuel = f + 1 := ⟨fuel - 1, by omega⟩
    rw [Nat.pow_zero, Nat.one_mul]
    refine ⟨swap, src, dst, ?_, by rw [if_pos rfl]; exact ⟨rfl, rfl⟩⟩
    rw [neonLoop3, if_pos (and_pred_pow2 b)]; rfl
  | succ a ih =>
    intro i3 fuel B swap src dst hf hB hT hs hd
    obtain ⟨f, rfl⟩ : ∃ f, fuel = f + 1 := ⟨fuel - 1, by omega⟩
    have e : 3 ^ (a + 1) * 2 ^ b = 3 * (3 ^ a * 2 ^ b) := by ring
    have ht := hT 0 (by omega)
    rw [Nat.pow_zero, Nat.mul_one, Nat.add_zero] at ht
    obtain ⟨w, hw1, hw2⟩ := ht
    have e3 : 2 * (B * (3 ^ (a + 1) * 2 ^ b)) = 6 * (3 ^ a * 2 ^ b * B) := by ring
    obtain ⟨y', h2, h3, _⟩ := neonBf3_full z N B w (3 ^ a * 2 ^ b) src dst hw2 (by rw [← e3]; exact hs) (by rw [← e3]; exact hd)
    have e2 : B * (3 ^ (a + 1) * 2 ^ b) = 3 * B * (3 ^ a * 2 ^ b) := by ring
    rw [e2] at hs hd
    obtain ⟨sw, src', dst', g1, g2⟩ := ih (i3 + 1) f (3 * B) (!swap) y' src (by omega) (by omega) (fun i hi => by
      have := hT (i + 1) (by omega)
      rw [show 3 * B * 3 ^ i = B * 3 ^ (i + 1) by ring, show i3 + 1 + i = i3 + (i + 1) by omega]
      exact this) (by rw [h3]; exact hd) hs
    refine ⟨sw, src', dst', ?_, ?_⟩
    · rw [neonLoop3, if_neg (and_pred_ne a b), hw1, Option.bind_some, show 3 ^ (a + 1) * 2 ^ b / 3 = 3 ^ a * 2 ^ b by omega, h2,
        Option.bind_some, g1, show i3 + 1 + a = i3 + (a + 1) by omega]
    · rw [h3] at g2
      by_cases hw : sw = swap
      · subst hw; rw [if_neg (by simp)] at g2; rw [if_pos rfl]; exact g2
      · rw [if_pos (by revert hw; cases sw <;> cases swap <;> simp)] at g2; rw [if_neg hw]; exact g2

theorem neonLoop2_total (z : R) (N : Neon R) (T : MdctTables R) (i3 : ℕ) : ∀ (b i2 fuel B : ℕ) (swap : Bool) (src dst : List R), b < fuel → 0 < B →
    (∀ i, i < b → HasBf2 (B * 2 ^ i) (T.bf2 (i2 + i) i3)) → 2 * (B * 2 ^ b) ≤ src.length →
    2 * (B * 2 ^ b) ≤ dst.length →
    ∃ swap' src' dst', neonLoop2 N T i3 fuel (2 ^ b) i2 swap src dst = some (swap', src', dst') ∧
      (if swap' = swap then src'.length = src.length ∧ dst'.length = dst.length else src'.length = dst.length ∧ dst'.length = src.length) := by
  intro b
  induction b with
  | zero =>
    intro i2 fuel B swap src dst hf _ _ _ _
    obtain ⟨f, rfl⟩ : ∃ f, fuel = f + 1 := ⟨fuel - 1, by omega⟩
    refine ⟨swap, src, dst, ?_, by rw [if_pos rfl]; exact ⟨rfl, rfl⟩⟩
    rw [neonLoop2, if_pos (by decide)]
  | succ b ih =>
    intro i2 fuel B swap src dst hf hB hT hs hd
    obtain ⟨f, rfl⟩ : ∃ f, fuel = f + 1 := ⟨fuel - 1, by omega⟩
    have e : 2 ^ (b + 1) = 2 * 2 ^ b := by ring
    have ht := hT 0 (by omega)
    rw [Nat.pow_zero, Nat.mul_one, Nat.add_zero] at ht
    obtain ⟨w, hw1, hw2⟩ := ht
    have e3 : 2 * (B * 2 ^ (b + 1)) = 4 * (2 ^ b * B) := by ring
    obtain ⟨y', h2, h3, _⟩ := neonBf2_full z N B w (2 ^ b) src dst hw2 (by rw [← e3]; exact hs) (by rw [← e3]; exact hd)
    have e2 : B * 2 ^ (b + 1) = 2 * B * 2 ^ b := by ring
    rw [e2] at hs hd
    obtain ⟨sw, src', dst', g1, g2⟩ := ih (i2 + 1) f (2 * B) (!swap) y' src (by omega) (by omega) (fun i hi => by
      have := hT (i + 1) (by omega)
      rw [show 2 * B * 2 ^ i = B * 2 ^ (i + 1) by ring, show i2 + 1 + i = i2 + (i + 1) by omega]
      exact this) (by rw [h3]; exact hd) hs
    have hpos := Nat.pow_pos (n := b) (show 0 < 2 by decide)
    refine ⟨sw, src', dst', ?_, ?_⟩
    · rw [neonLoop2, if_neg (by omega), hw1, Option.bind_some, show 2 ^ (b + 1) / 2 = 2 ^ b by omega, h2, Option.bind_some, g1]
    · rw [h3] at g2
      by_cases hw : sw = swap
      · subst hw; rw [if_neg (by simp)] at g2; rw [if_pos rfl]; exact g2
      · rw [if_pos (by revert hw; cases sw <;> cases swap <;> simp)] at g2; rw [if_neg hw]; exact g2

/-- The accesses of the transform, with any arithmetic; its count of transforms of 5 points is even. -/
theorem neonFft_total (z : R) (N : Neon R) (T : MdctTables R) (a b : ℕ) (hb0 : 0 < b) (hT : HasFft T a b) (y0 y1 : List R)
    (h0 : 2 * (5 * 3 ^ a * 2 ^ b) ≤ y0.length) (h1 : 2 * (5 * 3 ^ a * 2 ^ b) ≤ y1.length) :
    ∃ in0 z0 z1, neonFft N T (5 * 3 ^ a * 2 ^ b) y0 y1 = some (in0, z0, z1) ∧ z0.length = y0.length ∧ z1.length = y1.length := by
  have e : 5 * 3 ^ a * 2 ^ b = 5 * (3 ^ a * 2 ^ b) := by ring
  have he : 3 ^ a * 2 ^ b % 2 = 0 := by
    obtain ⟨c, rfl⟩ : ∃ c, b = c + 1 := ⟨b - 1, by omega⟩
    rw [show 3 ^ a * 2 ^ (c + 1) = 2 * (3 ^ a * 2 ^ c) by ring]; omega
  have hpa := Nat.pow_pos (n := a) (show 0 < 3 by decide)
  have ha : a < 3 ^ a * 2 ^ b + 1 := by
    have h2 : 3 ^ a ≤ 3 ^ a * 2 ^ b := Nat.le_mul_of_pos_right _ (Nat.pow_pos (by decide))
    have h3 : a < 3 ^ a := Nat.lt_pow_self (by decide)
    omega
  have hb : b < 2 ^ b + 1 := by have : b < 2 ^ b := Nat.lt_pow_self (by decide)
                                omega
  obtain ⟨u1, f1, f2, _⟩ := neonFft5_full z N T (3 ^ a * 2 ^ b) he y0 y1 (by omega) (by omega)
  obtain ⟨sw, s2, d2, g1, g2⟩ := neonLoop3_total z N T b a 0 (3 ^ a * 2 ^ b + 1) 5 false u1 y0 ha (by decide)
    (fun i hi => by rw [Nat.zero_add]; exact hT.1 i hi) (by omega) (by omega)
  have hL : 2 * (5 * 3 ^ a * 2 ^ b) ≤ s2.length ∧ 2 * (5 * 3 ^ a * 2 ^ b) ≤ d2.length := by
    by_cases hsw : sw = false
    · rw [if_pos hsw] at g2; omega
    · rw [if_neg hsw] at g2; omega
  obtain ⟨sw', s3, d3, k1, k2⟩ := neonLoop2_total z N T a b 0 (2 ^ b + 1) (5 * 3 ^ a) sw s2 d2 hb (by omega)
    (fun i hi => by rw [Nat.zero_add]; exact hT.2 i hi) hL.1 hL.2
  refine ⟨sw', if sw' then s3 else d3, if sw' then d3 else s3, ?_, ?_, ?_⟩
  · unfold neonFft
    rw [show 5 * 3 ^ a * 2 ^ b / 5 = 3 ^ a * 2 ^ b by omega, f1]
    dsimp only [bind, Option.bind]
    rw [g1]
    dsimp only
    rw [Nat.zero_add, k1]
    cases sw' <;> rfl
  · revert g2 k2; rw [f2]; cases sw <;> cases sw' <;> simp <;> intros <;> omega
  · revert g2 k2; rw [f2]; cases sw <;> cases sw' <;> simp <;> intros <;> omega

theorem neonLoop3_real (T : MdctTables ℝ) (b : ℕ) : ∀ (a i3 fuel B : ℕ) (swap : Bool) (src dst : List ℝ), 0 < B →
    (∀ i, i < a → HasBf3 (B * 3 ^ i) (T.bf3 (i3 + i))) → 2 * (B * (3 ^ a * 2 ^ b)) ≤ src.length →
    2 * (B * (3 ^ a * 2 ^ b)) ≤ dst.length →
    neonLoop3 Neon.real T fuel (3 ^ a * 2 ^ b) i3 swap src dst = fftLoop3 Arith.real T fuel (3 ^ a * 2 ^ b) i3 swap src dst := by
  intro a
  induction a with
  | zero =>
    intro i3 fuel B swap src dst _ _ _ _
    cases fuel with
    | zero => rfl
    | succ f =>
      rw [Nat.pow_zero, Nat.one_mul, neonLoop3, fftLoop3, if_pos (and_pred_pow2 b), if_pos (and_pred_pow2 b)]
  | succ a ih =>
    intro i3 fuel B swap src dst hB hT hs hd
    cases fuel with
    | zero => rfl
    | succ f =>
      have e : 3 ^ (a + 1) * 2 ^ b = 3 * (3 ^ a * 2 ^ b) := by ring
      have ht := hT 0 (by omega)
      rw [Nat.pow_zero, Nat.mul_one, Nat.add_zero] at ht
      obtain ⟨w, hw1, hw2⟩ := ht
      have e3 : 2 * (B * (3 ^ (a + 1) * 2 ^ b)) = 6 * (3 ^ a * 2 ^ b * B) := by ring
      have q := neonBf3_real B w (3 ^ a * 2 ^ b) src dst hB hw2 (by rw [← e3]; exact hs) (by rw [← e3]; exact hd)
      obtain ⟨y', h2, h3, _⟩ := fftBf3_full 0 Arith.real B w (3 ^ a * 2 ^ b) src dst hw2 (by rw [← e3]; exact hs) (by rw [← e3]; exact hd)
      have e2 : B * (3 ^ (a + 1) * 2 ^ b) = 3 * B * (3 ^ a * 2 ^ b) := by ring
      rw [e2] at hs hd
      rw [neonLoop3, fftLoop3, if_neg (and_pred_ne a b), if_neg (and_pred_ne a b), hw1, Option.bind_some, Option.bind_some,
        show 3 ^ (a + 1) * 2 ^ b / 3 = 3 ^ a * 2 ^ b by omega, q, h2, Option.bind_some, Option.bind_some]
      exact ih (i3 + 1) f (3 * B) (!swap) y' src (by omega) (fun i hi => by
        have := hT (i + 1) (by omega)
        rw [show 3 * B * 3 ^ i = B * 3 ^ (i + 1) by ring, show i3 + 1 + i = i3 + (i + 1) by omega]
        exact this) (by rw [h3]; exact hd) hs

theorem neonLoop2_real (T : MdctTables ℝ) (i3 : ℕ) : ∀ (b i2 fuel B : ℕ) (swap : Bool) (src dst : List ℝ), 0 < B →
    (∀ i, i < b → HasBf2 (B * 2 ^ i) (T.bf2 (i2 + i) i3)) → 2 * (B * 2 ^ b) ≤ src.length →
    2 * (B * 2 ^ b) ≤ dst.length →
    neonLoop2 Neon.real T i3 fuel (2 ^ b) i2 swap src dst = fftLoop2 Arith.real T i3 fuel (2 ^ b) i2 swap src dst := by
  intro b
  induction b with
  | zero =>
    intro i2 fuel B swap src dst _ _ _ _
    cases fuel with
    | zero => rfl
    | succ f => rw [neonLoop2, fftLoop2, if_pos (by decide), if_pos (by decide)]
  | succ b ih =>
    intro i2 fuel B swap src dst hB hT hs hd
    cases fuel with
    | zero => rfl
    | succ f =>
      have e : 2 ^ (b + 1) = 2 * 2 ^ b := by ring
      have ht := hT 0 (by omega)
      rw [Nat.pow_zero, Nat.mul_one, Nat.add_zero] at ht
      obtain ⟨w, hw1, hw2⟩ := ht
      have e3 : 2 * (B * 2 ^ (b + 1)) = 4 * (2 ^ b * B) := by ring
      have q := neonBf2_real B w (2 ^ b) src dst hB hw2 (by rw [← e3]; exact hs) (by rw [← e3]; exact hd)
      obtain ⟨y', h2, h3, _⟩ := fftBf2_full 0 Arith.real B w (2 ^ b) src dst hw2 (by rw [← e3]; exact hs) (by rw [← e3]; exact hd)
      have e2 : B * 2 ^ (b + 1) = 2 * B * 2 ^ b := by ring
      rw [e2] at hs hd
      have hpos := Nat.pow_pos (n := b) (show 0 < 2 by decide)
      rw [neonLoop2, fftLoop2, if_neg (by omega), if_neg (by omega), hw1, Option.bind_some, Option.bind_some,
        show 2 ^ (b + 1) / 2 = 2 ^ b by omega, q, h2, Option.bind_some, Option.bind_some]
      exact ih (i2 + 1) f (2 * B) (!swap) y' src (by omega) (fun i hi => by
        have := hT (i + 1) (by omega)
        rw [show 2 * B * 2 ^ i = B * 2 ^ (i + 1) by ring, show i2 + 1 + i = i2 + (i + 1) by omega]
        exact this) (by rw [h3]; exact hd) hs

theorem neonFft_real (T : MdctTables ℝ) (a b : ℕ) (hb0 : 0 < b) (hT : HasFft T a b) (y0 y1 : List ℝ)
    (h0 : 2 * (5 * 3 ^ a * 2 ^ b) ≤ y0.length) (h1 : 2 * (5 * 3 ^ a * 2 ^ b) ≤ y1.length) :
    neonFft Neon.real T (5 * 3 ^ a * 2 ^ b) y0 y1 = fft Arith.real T (5 * 3 ^ a * 2 ^ b) y0 y1 := by
  have e : 5 * 3 ^ a * 2 ^ b = 5 * (3 ^ a * 2 ^ b) := by ring
  have he : 3 ^ a * 2 ^ b % 2 = 0 := by
    obtain ⟨c, rfl⟩ : ∃ c, b = c + 1 := ⟨b - 1, by omega⟩
    rw [show 3 ^ a * 2 ^ (c + 1) = 2 * (3 ^ a * 2 ^ c) by ring]; omega
  have hpa := Nat.pow_pos (n := a) (show 0 < 3 by decide)
  have ha : a < 3 ^ a * 2 ^ b + 1 := by
    have h2 : 3 ^ a ≤ 3 ^ a * 2 ^ b := Nat.le_mul_of_pos_right _ (Nat.pow_pos (by decide))
    have h3 : a < 3 ^ a := Nat.lt_pow_self (by decide)
    omega
  have hfive := neonFft5_real T (3 ^ a * 2 ^ b) he y0 y1 (by omega) (by omega)
  obtain ⟨u1, f1, f2, _⟩ := fft5_spec 0 Arith.real T (3 ^ a * 2 ^ b) y0 y1 (by omega) (by omega)
  have h3 := neonLoop3_real T b a 0 (3 ^ a * 2 ^ b + 1) 5 false u1 y0 (by decide)
    (fun i hi => by rw [Nat.zero_add]; exact hT.1 i hi) (by omega) (by omega)
  obtain ⟨sw, s2, d2, g1, g2⟩ := loop3_total 0 Arith.real T b a 0 (3 ^ a * 2 ^ b + 1) 5 false u1 y0 ha (by decide)
    (fun i hi => by rw [Nat.zero_add]; exact hT.1 i hi) (by omega) (by omega)
  have hL : 2 * (5 * 3 ^ a * 2 ^ b) ≤ s2.length ∧ 2 * (5 * 3 ^ a * 2 ^ b) ≤ d2.length := by
    by_cases hsw : sw = false
    · rw [if_pos hsw] at g2; omega
    · rw [if_neg hsw] at g2; omega
  have h2 := neonLoop2_real T a b 0 (2 ^ b + 1) (5 * 3 ^ a) sw s2 d2 (by omega)
    (fun i hi => by rw [Nat.zero_add]; exact hT.2 i hi) hL.1 hL.2
  unfold neonFft fft
  rw [show 5 * 3 ^ a * 2 ^ b / 5 = 3 ^ a * 2 ^ b by omega, hfive, f1]
  dsimp only [bind, Option.bind]
  rw [h3, g1]
  dsimp only
  rw [Nat.zero_add, h2]

end LC3
