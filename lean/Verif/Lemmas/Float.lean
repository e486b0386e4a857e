import Mathlib.Algebra.Order.Field.Rat
import Mathlib.Data.Rat.Floor
import Mathlib.Tactic.Linarith
import Mathlib.Tactic.NormNum
import Mathlib.Tactic.Ring
import Mathlib.Tactic.Positivity
import Mathlib.Tactic.FieldSimp
import Verif.Model.Arith

/-!
The rounding to 24 bits of binary32: exact on the numbers with 24 significant bits, monotone, with a relative error of at
most `2^-24`.
-/

namespace LC3

theorem pow2_eq (e : Int) : pow2 e = (2 : Rat) ^ e := by
  unfold pow2
  split
  case isTrue h =>
    obtain ⟨n, rfl⟩ := Int.eq_ofNat_of_zero_le h
    simp
  case isFalse h =>
    obtain ⟨n, hn⟩ := Int.eq_ofNat_of_zero_le (show 0 ≤ -e by omega)
    have : e = -(n : Int) := by omega
    subst this
    simp

theorem pow2_pos (e : Int) : 0 < pow2 e := by rw [pow2_eq]; exact zpow_pos (by norm_num) e

theorem pow2_add (a b : Int) : pow2 (a + b) = pow2 a * pow2 b := by
  simp only [pow2_eq]; exact zpow_add₀ (by norm_num) a b

theorem pow2_zero : pow2 0 = 1 := by rw [pow2_eq]; norm_num

theorem pow2_nat (n : Nat) : pow2 n = (2 : Rat) ^ n := by rw [pow2_eq]; norm_num

theorem pow2_le {a b : Int} (h : a ≤ b) : pow2 a ≤ pow2 b := by
  simp only [pow2_eq]; exact zpow_le_zpow_right₀ (by norm_num) h

theorem pow2_lt {a b : Int} (h : a < b) : pow2 a < pow2 b := by
  simp only [pow2_eq]; exact zpow_lt_zpow_right₀ (by norm_num) h

theorem pow2_lt_iff {a b : Int} (h : pow2 a < pow2 b) : a < b := by
  by_contra hc
  have := pow2_le (show b ≤ a by omega)
  linarith

/-! ### Rounding to an integer -/

theorem rneInt_floor (x : Rat) : ∃ f : Int, (f : Rat) ≤ x ∧ x < f + 1 ∧ f = ⌊x⌋ ∧
    rneInt x = if x - f < 1/2 then f else if 1/2 < x - f then f + 1 else if f % 2 = 0 then f else f + 1 :=
  ⟨Rat.floor x, Int.floor_le x, Int.lt_floor_add_one x, rfl, rfl⟩

theorem rneInt_int (n : Int) : rneInt n = n := by
  obtain ⟨f, h1, h2, h3, h4⟩ := rneInt_floor n
  rw [Int.floor_intCast] at h3
  subst h3
  rw [h4, sub_self, if_pos (by norm_num)]

/-- nearest -/
theorem rneInt_near (x : Rat) : |(rneInt x : Rat) - x| ≤ 1/2 := by
  obtain ⟨f, h1, h2, h3, h4⟩ := rneInt_floor x
  rw [h4, abs_le]
  by_cases a : x - f < 1/2
  · rw [if_pos a]; constructor <;> linarith
  · rw [if_neg a]
    by_cases b : 1/2 < x - f
    · rw [if_pos b]; push_cast; constructor <;> linarith
    · rw [if_neg b]
      split <;> push_cast <;> constructor <;> linarith

theorem rneInt_mono {x y : Rat} (h : x ≤ y) : rneInt x ≤ rneInt y := by
  obtain ⟨f, h1, h2, h3, h4⟩ := rneInt_floor x
  obtain ⟨g, g1, g2, g3, g4⟩ := rneInt_floor y
  have hfg : f ≤ g := by rw [h3, g3]; exact Int.floor_le_floor h
  rw [h4, g4]
  by_cases he : f = g
  · subst he
    by_cases a : x - f < 1/2
    · rw [if_pos a]; split_ifs <;> omega
    · rw [if_neg a, if_neg (show ¬ y - f < 1/2 by intro hc; apply a; linarith)]
      by_cases b : 1/2 < x - f
      · rw [if_pos b, if_pos (show 1/2 < y - f by linarith)]
      · rw [if_neg b]; split_ifs <;> omega
  · split_ifs <;> omega

/-! ### The exponent -/

/-- The exponent computed by `rne24`. -/
def rneExp (a : Rat) : Int :=
  let e0 : Int := (Nat.log2 a.num.toNat : Int) - (Nat.log2 a.den : Int)
  if a < pow2 e0 then e0 - 1 else e0

theorem rneExp_spec (a : Rat) (ha : 0 < a) : pow2 (rneExp a) ≤ a ∧ a < pow2 (rneExp a + 1) := by
  have hn : 0 < a.num := Rat.num_pos.mpr ha
  have hd : 0 < a.den := a.den_pos
  have hnn : a.num.toNat ≠ 0 := by omega
  have e : a = (a.num.toNat : Rat) / (a.den : Rat) := by
    conv_lhs => rw [← Rat.num_div_den a]
    congr 1
    have : ((a.num.toNat : Int) : Rat) = (a.num : Rat) := by rw [Int.toNat_of_nonneg (by omega)]
    exact_mod_cast this.symm
  obtain ⟨n1, n2⟩ := (Nat.log2_eq_iff hnn).mp rfl
  obtain ⟨d1, d2⟩ := (Nat.log2_eq_iff (show a.den ≠ 0 by omega)).mp rfl
  generalize hL : Nat.log2 a.num.toNat = L at n1 n2
  generalize hD : Nat.log2 a.den = D at d1 d2
  have dp : (0 : Rat) < a.den := by exact_mod_cast hd
  -- 2^(L-D-1) < a < 2^(L-D+1)
  have hlo : pow2 ((L : Int) - D - 1) < a := by
    rw [e, lt_div_iff₀ dp]
    have s1 : pow2 ((L : Int) - D - 1) * pow2 ((D + 1 : Nat) : Int) = pow2 (L : Nat) := by
      rw [← pow2_add]; congr 1; push_cast; ring
    rw [pow2_nat, pow2_nat] at s1
    have s2 : (a.den : Rat) < 2 ^ (D + 1) := by exact_mod_cast d2
    have s3 : (2 : Rat) ^ L ≤ a.num.toNat := by exact_mod_cast n1
    have := pow2_pos ((L : Int) - D - 1)
    nlinarith
  have hhi : a < pow2 ((L : Int) - D + 1) := by
    rw [e, div_lt_iff₀ dp]
    have s1 : pow2 ((L : Int) - D + 1) * pow2 (D : Nat) = pow2 ((L + 1 : Nat) : Int) := by
      rw [← pow2_add]; congr 1; push_cast; ring
    rw [pow2_nat, pow2_nat] at s1
    have s2 : (2 : Rat) ^ D ≤ a.den := by exact_mod_cast d1
    have s3 : (a.num.toNat : Rat) < 2 ^ (L + 1) := by exact_mod_cast n2
    have := pow2_pos ((L : Int) - D + 1)
    nlinarith
  unfold rneExp
  dsimp only
  rw [hL, hD]
  split
  case isTrue h =>
    refine ⟨le_of_lt hlo, ?_⟩
    rw [show (L : Int) - D - 1 + 1 = L - D by ring]; exact h
  case isFalse h => exact ⟨not_lt.mp h, hhi⟩

theorem rneExp_unique (a : Rat) (ha : 0 < a) (e : Int) (h1 : pow2 e ≤ a) (h2 : a < pow2 (e + 1)) : rneExp a = e := by
  obtain ⟨g1, g2⟩ := rneExp_spec a ha
  have := pow2_lt_iff (lt_of_le_of_lt h1 g2)
  have := pow2_lt_iff (lt_of_le_of_lt g1 h2)
  omega

/-- The rounding of a positive number. -/
def rnePos (a : Rat) : Rat := (rneInt (a * pow2 (23 - rneExp a)) : Rat) * pow2 (rneExp a - 23)

theorem rne24_zero : rne24 0 = 0 := by decide +kernel

theorem rne24_pos (x : Rat) (h : 0 < x) : rne24 x = rnePos x := by
  unfold rne24
  dsimp only
  rw [if_neg (not_lt.mpr (le_of_lt h)), if_neg (ne_of_gt h), if_neg (not_lt.mpr (le_of_lt h))]
  rfl

theorem rne24_neg (x : Rat) : rne24 (-x) = -rne24 x := by
  rcases lt_trichotomy x 0 with h | h | h
  · have h' : 0 < -x := by linarith
    rw [rne24_pos _ h']
    unfold rne24
    dsimp only
    rw [if_pos h, if_neg (ne_of_gt h'), if_pos h]
    show _ = - -(rnePos (-x))
    rw [neg_neg]
  · subst h; simp [rne24_zero]
  · have h' : -x < 0 := by linarith
    rw [rne24_pos _ h]
    unfold rne24
    dsimp only
    rw [if_pos h', neg_neg, if_neg (ne_of_gt h), if_pos h']
    rfl

/-- The scaled mantissa is in `[2^23, 2^24)`. -/
theorem scaled_range (a : Rat) (ha : 0 < a) :
    (2 : Rat) ^ 23 ≤ a * pow2 (23 - rneExp a) ∧ a * pow2 (23 - rneExp a) < 2 ^ 24 := by
  obtain ⟨h1, h2⟩ := rneExp_spec a ha
  have hp := pow2_pos (23 - rneExp a)
  have e1 : pow2 (rneExp a) * pow2 (23 - rneExp a) = 2 ^ 23 := by
    rw [← pow2_add, show rneExp a + (23 - rneExp a) = ((23 : Nat) : Int) by push_cast; ring, pow2_nat]
  have e2 : pow2 (rneExp a + 1) * pow2 (23 - rneExp a) = 2 ^ 24 := by
    rw [← pow2_add, show rneExp a + 1 + (23 - rneExp a) = ((24 : Nat) : Int) by push_cast; ring, pow2_nat]
  constructor <;> nlinarith

theorem pow2_cancel (e : Int) : pow2 e * pow2 (-e) = 1 := by
  rw [← pow2_add, show e + -e = 0 by ring, pow2_zero]

theorem unscale (a : Rat) (e : Int) : a * pow2 (23 - e) * pow2 (e - 23) = a := by
  rw [mul_assoc, show e - 23 = -(23 - e) by ring, pow2_cancel, mul_one]

/-- The rounding of a positive number stays in its binade, closed. -/
theorem rnePos_range (a : Rat) (ha : 0 < a) : pow2 (rneExp a) ≤ rnePos a ∧ rnePos a ≤ pow2 (rneExp a + 1) := by
  obtain ⟨h1, h2⟩ := scaled_range a ha
  have m1 : (8388608 : Int) ≤ rneInt (a * pow2 (23 - rneExp a)) := by
    have := rneInt_mono (show ((8388608 : Int) : Rat) ≤ a * pow2 (23 - rneExp a) by norm_num at h1 ⊢; exact h1)
    rwa [rneInt_int] at this
  have m2 : rneInt (a * pow2 (23 - rneExp a)) ≤ 16777216 := by
    have := rneInt_mono (show a * pow2 (23 - rneExp a) ≤ ((16777216 : Int) : Rat) by norm_num at h2 ⊢; exact le_of_lt h2)
    rwa [rneInt_int] at this
  have r1 : (8388608 : Rat) ≤ (rneInt (a * pow2 (23 - rneExp a)) : Rat) := by exact_mod_cast m1
  have r2 : (rneInt (a * pow2 (23 - rneExp a)) : Rat) ≤ 16777216 := by exact_mod_cast m2
  have hp := pow2_pos (rneExp a - 23)
  have e1 : pow2 (rneExp a) = 8388608 * pow2 (rneExp a - 23) := by
    rw [show (8388608 : Rat) = pow2 (23 : Nat) by rw [pow2_nat]; norm_num, ← pow2_add]; congr 1; push_cast; ring
  have e2 : pow2 (rneExp a + 1) = 16777216 * pow2 (rneExp a - 23) := by
    rw [show (16777216 : Rat) = pow2 (24 : Nat) by rw [pow2_nat]; norm_num, ← pow2_add]; congr 1; push_cast; ring
  unfold rnePos
  rw [e1, e2]
  constructor <;> nlinarith

theorem rnePos_pos (a : Rat) (ha : 0 < a) : 0 < rnePos a :=
  lt_of_lt_of_le (pow2_pos _) (rnePos_range a ha).1

theorem rnePos_mono (a b : Rat) (ha : 0 < a) (h : a ≤ b) : rnePos a ≤ rnePos b := by
  have hb : 0 < b := lt_of_lt_of_le ha h
  obtain ⟨a1, a2⟩ := rneExp_spec a ha
  obtain ⟨b1, b2⟩ := rneExp_spec b hb
  have hle : rneExp a ≤ rneExp b := by
    have := pow2_lt_iff (lt_of_le_of_lt (le_trans a1 h) b2); omega
  rcases eq_or_lt_of_le hle with he | hl
  · unfold rnePos
    rw [he]
    have hp := pow2_pos (23 - rneExp b)
    have hq := pow2_pos (rneExp b - 23)
    have := rneInt_mono (show a * pow2 (23 - rneExp b) ≤ b * pow2 (23 - rneExp b) by nlinarith)
    have : (rneInt (a * pow2 (23 - rneExp b)) : Rat) ≤ rneInt (b * pow2 (23 - rneExp b)) := by exact_mod_cast this
    nlinarith
  · have := (rnePos_range a ha).2
    have := (rnePos_range b hb).1
    have := pow2_le (show rneExp a + 1 ≤ rneExp b by omega)
    linarith

/-- **Monotonicity** of the rounding. -/
theorem rne24_mono (x y : Rat) (h : x ≤ y) : rne24 x ≤ rne24 y := by
  have pos : ∀ a, 0 < a → 0 < rne24 a := fun a ha => by rw [rne24_pos a ha]; exact rnePos_pos a ha
  rcases lt_trichotomy x 0 with hx | hx | hx
  · rcases lt_trichotomy y 0 with hy | hy | hy
    · have := rnePos_mono (-y) (-x) (by linarith) (by linarith)
      rw [← rne24_pos _ (by linarith), ← rne24_pos _ (by linarith), rne24_neg, rne24_neg] at this
      linarith
    · subst hy; rw [rne24_zero]
      have := pos (-x) (by linarith); rw [rne24_neg] at this; linarith
    · have := pos (-x) (by linarith); rw [rne24_neg] at this
      have := pos y hy
      linarith
  · subst hx
    rcases lt_or_eq_of_le h with hy | hy
    · rw [rne24_zero]; exact le_of_lt (pos y hy)
    · rw [← hy]
  · rw [rne24_pos x hx, rne24_pos y (by linarith)]; exact rnePos_mono x y hx h

/-- **Exactness** on the numbers of 24 significant bits. -/
theorem rne24_exact (k : Int) (j : Int) (hk : k.natAbs ≤ 2 ^ 24) : rne24 (k * pow2 j) = k * pow2 j := by
  -- on a positive number
  have main : ∀ k : Int, 0 < k → k ≤ 2 ^ 24 → rne24 (k * pow2 j) = k * pow2 j := by
    intro k h0 h1
    have hkr : (0 : Rat) < k := by exact_mod_cast h0
    have hj := pow2_pos j
    have ha : 0 < (k : Rat) * pow2 j := by positivity
    rw [rne24_pos _ ha]
    unfold rnePos
    generalize he : rneExp ((k : Rat) * pow2 j) = e
    obtain ⟨s1, s2⟩ := scaled_range _ ha
    obtain ⟨g1, g2⟩ := rneExp_spec _ ha
    rw [he] at g1 g2
    -- the scaled mantissa is an integer
    have hint : ∃ n : Int, (k : Rat) * pow2 j * pow2 (23 - e) = n := by
      by_cases hjj : 0 ≤ j + (23 - e)
      · obtain ⟨m, hm⟩ := Int.eq_ofNat_of_zero_le hjj
        refine ⟨k * 2 ^ m, ?_⟩
        rw [mul_assoc, ← pow2_add, hm]
        push_cast
        rw [pow2_nat]
      · -- then k ≥ 2^24, so k = 2^24
        have hk24 : k = 2 ^ 24 := by
          have h3 : pow2 (e - j) ≤ k := by
            have : pow2 e = pow2 (e - j) * pow2 j := by rw [← pow2_add]; congr 1; ring
            rw [this] at g1
            exact le_of_mul_le_mul_right g1 hj
          have h4 : pow2 ((24 : Nat) : Int) ≤ k := le_trans (pow2_le (by omega)) h3
          rw [pow2_nat] at h4
          have : (2 ^ 24 : Int) ≤ k := by exact_mod_cast h4
          omega
        subst hk24
        have he' : e = j + 24 := by
          rw [← he]
          apply rneExp_unique _ ha
          · rw [pow2_add, show pow2 24 = pow2 ((24 : Nat) : Int) from rfl, pow2_nat]; push_cast; linarith
          · rw [show j + 24 + 1 = j + ((25 : Nat) : Int) by push_cast; ring, pow2_add, pow2_nat]
            push_cast
            nlinarith
        refine ⟨2 ^ 23, ?_⟩
        rw [he', mul_assoc, ← pow2_add, show j + (23 - (j + 24)) = (-1 : Int) by ring]
        rw [pow2_eq]; norm_num
    obtain ⟨n, hn⟩ := hint
    have hr : rneInt ((k : Rat) * pow2 j * pow2 (23 - e)) = n := by rw [hn, rneInt_int]
    rw [hr, ← hn, unscale]
  rcases lt_trichotomy k 0 with h | h | h
  · have := main (-k) (by omega) (by omega)
    have e : (((-k : Int) : Rat)) * pow2 j = -((k : Rat) * pow2 j) := by push_cast; ring
    rw [e, rne24_neg] at this
    linarith
  · subst h; simp [rne24_zero]
  · exact main k h (by omega)

/-- The result of the rounding has 24 significant bits. -/
theorem rne24_repr (x : Rat) : ∃ k j : Int, k.natAbs ≤ 2 ^ 24 ∧ rne24 x = k * pow2 j := by
  have main : ∀ a, 0 < a → ∃ k j : Int, k.natAbs ≤ 2 ^ 24 ∧ rne24 a = k * pow2 j := by
    intro a ha
    obtain ⟨h1, h2⟩ := scaled_range a ha
    refine ⟨rneInt (a * pow2 (23 - rneExp a)), rneExp a - 23, ?_, by rw [rne24_pos a ha]; rfl⟩
    have m1 := rneInt_mono (show ((0 : Int) : Rat) ≤ a * pow2 (23 - rneExp a) by norm_num at h1 ⊢; linarith)
    have m2 := rneInt_mono (show a * pow2 (23 - rneExp a) ≤ ((16777216 : Int) : Rat) by norm_num at h2 ⊢; exact le_of_lt h2)
    rw [rneInt_int] at m1 m2
    omega
  rcases lt_trichotomy x 0 with h | h | h
  · obtain ⟨k, j, h1, h2⟩ := main (-x) (by linarith)
    refine ⟨-k, j, by omega, ?_⟩
    rw [rne24_neg] at h2
    push_cast
    linarith
  · subst h; exact ⟨0, 0, by decide, by rw [rne24_zero]; simp⟩
  · exact main x h

theorem rne24_idem (x : Rat) : rne24 (rne24 x) = rne24 x := by
  obtain ⟨k, j, h1, h2⟩ := rne24_repr x
  rw [h2, rne24_exact k j h1]

/-- **Relative error** of the rounding. -/
theorem rne24_error (x : Rat) : |rne24 x - x| ≤ |x| / 2 ^ 24 := by
  have main : ∀ a, 0 < a → |rne24 a - a| ≤ a / 2 ^ 24 := by
    intro a ha
    rw [rne24_pos a ha]
    obtain ⟨g1, g2⟩ := rneExp_spec a ha
    have hn := rneInt_near (a * pow2 (23 - rneExp a))
    have hp := pow2_pos (rneExp a - 23)
    have e : rnePos a - a = ((rneInt (a * pow2 (23 - rneExp a)) : Rat) - a * pow2 (23 - rneExp a)) * pow2 (rneExp a - 23) := by
      rw [sub_mul, unscale]; rfl
    rw [e, abs_mul, abs_of_pos hp]
    have e2 : pow2 (rneExp a) = 8388608 * pow2 (rneExp a - 23) := by
      rw [show (8388608 : Rat) = pow2 (23 : Nat) by rw [pow2_nat]; norm_num, ← pow2_add]; congr 1; push_cast; ring
    rw [e2] at g1
    have : |(rneInt (a * pow2 (23 - rneExp a)) : Rat) - a * pow2 (23 - rneExp a)| * pow2 (rneExp a - 23) ≤ 1/2 * pow2 (rneExp a - 23) :=
      mul_le_mul_of_nonneg_right hn (le_of_lt hp)
    norm_num
    linarith
  rcases lt_trichotomy x 0 with h | h | h
  · have := main (-x) (by linarith)
    rw [rne24_neg] at this
    rw [abs_of_neg h]
    rw [show rne24 x - x = -(-rne24 x - -x) by ring, abs_neg]
    exact this
  · subst h; simp [rne24_zero]
  · rw [abs_of_pos h]; exact main x h

end LC3
