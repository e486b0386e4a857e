import Mathlib.Tactic.LinearCombination
import Verif.Lemmas.Pcm

/-!
C32: PCM conversions and interleaving. C33: float output.
-/

namespace LC3

/-! ### Rounding -/

/-- The integer `y` is the closest to `v` in the interval from `lo` to `hi`. -/
def NearestIn (lo hi : Int) (v : Rat) (y : Int) : Prop :=
  lo ≤ y ∧ y ≤ hi ∧ ∀ z : Int, lo ≤ z → z ≤ hi → |(y : Rat) - v| ≤ |(z : Rat) - v|

theorem nearest_sat (lo hi : Int) (hlh : lo ≤ hi) (v : Rat) (n : Int) (h : |(n : Rat) - v| ≤ 1/2) :
    NearestIn lo hi v (min (max n lo) hi) := by
  rw [abs_le] at h
  obtain ⟨h1, h2⟩ := h
  refine ⟨by omega, by omega, ?_⟩
  intro z hz1 hz2
  have cz1 : (lo : Rat) ≤ z := by exact_mod_cast hz1
  have cz2 : (z : Rat) ≤ hi := by exact_mod_cast hz2
  rcases lt_or_ge n lo with a | a
  · rw [show min (max n lo) hi = lo by omega]
    have : (n : Rat) + 1 ≤ lo := by exact_mod_cast (show n + 1 ≤ lo by omega)
    rw [abs_of_nonneg (by linarith), abs_of_nonneg (by linarith)]
    linarith
  · rcases lt_or_ge hi n with b | b
    · rw [show min (max n lo) hi = hi by omega]
      have : (hi : Rat) + 1 ≤ n := by exact_mod_cast (show hi + 1 ≤ n by omega)
      rw [abs_of_nonpos (by linarith), abs_of_nonpos (by linarith)]
      linarith
    · rw [show min (max n lo) hi = n by omega]
      rcases lt_trichotomy z n with c | c | c
      · have : (z : Rat) + 1 ≤ n := by exact_mod_cast (show z + 1 ≤ n by omega)
        rw [abs_of_nonpos (show (z : Rat) - v ≤ 0 by linarith), abs_le]
        constructor <;> linarith
      · rw [c]
      · have : (n : Rat) + 1 ≤ z := by exact_mod_cast (show n + 1 ≤ z by omega)
        rw [abs_of_nonneg (show 0 ≤ (z : Rat) - v by linarith), abs_le]
        constructor <;> linarith

/-- Saturation when the rounded value is out of range. -/
theorem nearest_above (lo hi : Int) (hlh : lo ≤ hi) (v : Rat) (n : Int) (h : hi ≤ n) (hv : (hi : Rat) ≤ v) :
    NearestIn lo hi v (min (max n lo) hi) := by
  rw [show min (max n lo) hi = hi by omega]
  refine ⟨hlh, le_refl _, ?_⟩
  intro z hz1 hz2
  have cz2 : (z : Rat) ≤ hi := by exact_mod_cast hz2
  rw [abs_of_nonpos (by linarith), abs_of_nonpos (by linarith)]
  linarith

theorem trunc_nonneg (x : Rat) (h : 0 ≤ x) : (Arith.rounded rne24).trunc x = ⌊x⌋ := by
  show (if x < 0 then _ else Rat.floor x) = _
  rw [if_neg (not_lt.mpr h)]; rfl

theorem trunc_neg' (x : Rat) (h : x ≤ 0) : (Arith.rounded rne24).trunc x = -⌊-x⌋ := by
  show (if x < 0 then -(Rat.floor (-x)) else Rat.floor x) = _
  rcases lt_or_eq_of_le h with h | h
  · rw [if_pos h]; rfl
  · subst h; decide +kernel

/-- The addition of 1/2 in `float` and the truncation give the closest integer, for a number of 24 significant bits below
`2^23`, except the largest one below 1/2. -/
theorem half_up (v : Rat) (k j : Int) (hk : k.natAbs ≤ 2 ^ 24 - 1) (hv : v = k * pow2 j) (h0 : 0 ≤ v) (h1 : v < 2 ^ 23)
    (hex : v ≠ 1/2 - 1/2^25) : |(⌊rne24 (v + 1/2)⌋ : Rat) - v| ≤ 1/2 := by
  have hlo : (⌊v + 1/2⌋ : Rat) ≤ rne24 (v + 1/2) := by
    have hf := Int.floor_le (v + 1/2)
    have hf0 : 0 ≤ ⌊v + 1/2⌋ := Int.floor_nonneg.mpr (by linarith)
    have hf1 : ⌊v + 1/2⌋ ≤ 2 ^ 23 := by
      have : ⌊v + 1/2⌋ < 2 ^ 23 + 1 := Int.floor_lt.mpr (by push_cast; linarith)
      omega
    have := rne24_mono _ _ hf
    have e := rne24_exact ⌊v + 1/2⌋ 0 (by omega)
    rw [pow2_zero, mul_one] at e
    rwa [e] at this
  -- the rounding does not reach the next integer
  have hup : rne24 (v + 1/2) < ⌊v + 1/2⌋ + 1 := by
    have hn0 : 0 ≤ ⌊v + 1/2⌋ := Int.floor_nonneg.mpr (by linarith)
    have hn1 := Int.floor_le (v + 1/2)
    have hn2 := Int.lt_floor_add_one (v + 1/2)
    generalize ⌊v + 1/2⌋ = n at *
    rcases eq_or_lt_of_le hn0 with hz | hz
    · -- below one half
      subst hz
      push_cast at hn2 ⊢
      have hle : v + 1/2 ≤ 1 - 1/2^24 := by
        -- v is a multiple of 2^j with a numerator below 2^24
        by_cases hj : j ≤ -26
        · have hp : pow2 j ≤ pow2 (-26) := pow2_le hj
          have e : pow2 (-26) = 1/2^26 := by rw [pow2_eq]; norm_num
          have hkr : (k : Rat) ≤ 2^24 - 1 := by exact_mod_cast (show k ≤ 2^24 - 1 by omega)
          have hpj := pow2_pos j
          have : v ≤ (2^24 - 1) * (1/2^26) := by
            rw [hv, ← e]
            have h0' : (0 : Rat) ≤ 2^24 - 1 := by norm_num
            nlinarith
          norm_num at this ⊢
          linarith
        · -- then v is a multiple of 2^-25
          obtain ⟨m, hm⟩ := Int.eq_ofNat_of_zero_le (show 0 ≤ j + 25 by omega)
          have e : v = (k * 2 ^ m : Int) * (1/2^25) := by
            rw [hv, show j = (m : Int) + -25 by omega, pow2_add, pow2_nat]
            have : pow2 (-25) = 1/2^25 := by rw [pow2_eq]; norm_num
            rw [this]; push_cast; ring
          generalize k * 2 ^ m = K at e
          have hK : (K : Rat) < 2^24 := by
            have : v < 1/2 := by linarith
            rw [e] at this
            norm_num at this ⊢
            linarith
          have hK' : K < 2^24 := by exact_mod_cast hK
          have hK2 : K ≠ 2^24 - 1 := by
            intro hc
            apply hex
            rw [e, hc]; norm_num
          have hK3 : (K : Rat) ≤ 2^24 - 2 := by exact_mod_cast (show K ≤ 2^24 - 2 by omega)
          rw [e]
          norm_num at hK3 ⊢
          linarith
      have := rne24_mono _ _ hle
      have e := rne24_exact (2^24 - 1) (-24) (by norm_num)
      have e' : (((2^24 - 1 : Int) : Rat)) * pow2 (-24) = 1 - 1/2^24 := by rw [pow2_eq]; norm_num
      rw [e'] at e
      rw [e] at this
      have : (1 : Rat) - 1/2^24 < 1 := by norm_num
      linarith
    · -- v is at least 1/2: the exponent of v
      have hv0 : 0 < v := by
        have : (1 : Rat) ≤ n := by exact_mod_cast hz
        linarith
      obtain ⟨e1, e2⟩ := rneExp_spec v hv0
      have hvr : rne24 v = v := by rw [hv]; exact rne24_exact k j (by omega)
      rw [rne24_pos v hv0] at hvr
      generalize he : rneExp v = e at *
      have hee : e ≤ 22 := by
        have h23 : pow2 ((23 : Nat) : Int) = 2 ^ 23 := pow2_nat 23
        have := pow2_lt_iff (show pow2 e < pow2 ((23 : Nat) : Int) by rw [h23]; linarith)
        omega
      have hel : -1 ≤ e := by
        have hh : (1 : Rat)/2 ≤ v := by
          have : (1 : Rat) ≤ n := by exact_mod_cast hz
          linarith
        have h24 : pow2 (-1) = 1/2 := by rw [pow2_eq]; norm_num
        have := pow2_lt_iff (show pow2 (-1) < pow2 (e + 1) by rw [h24]; linarith)
        omega
      -- v = K * 2^(e-23)
      unfold rnePos at hvr
      rw [he] at hvr
      generalize rneInt (v * pow2 (23 - e)) = K at hvr
      -- everything is a multiple of the quantum 2^(e-23)
      obtain ⟨a, ha⟩ := Int.eq_ofNat_of_zero_le (show 0 ≤ 22 - e by omega)
      have q1 : (1 : Rat)/2 = (2 ^ a : Int) * pow2 (e - 23) := by
        push_cast
        rw [← pow2_nat, ← pow2_add, show (a : Int) + (e - 23) = -1 by omega, pow2_eq]; norm_num
      have q2 : (1 : Rat) = (2 * 2 ^ a : Int) * pow2 (e - 23) := by push_cast at q1 ⊢; linarith
      have q3 : pow2 (e + 1) = (2 ^ 24 : Int) * pow2 (e - 23) := by
        rw [show ((2 ^ 24 : Int) : Rat) = pow2 ((24 : Nat) : Int) by rw [pow2_nat]; norm_num, ← pow2_add]
        congr 1; push_cast; ring
      have hq := pow2_pos (e - 23)
      have hsum : v + 1/2 = (K + 2 ^ a : Int) * pow2 (e - 23) := by
        rw [q1, ← hvr]; push_cast; ring
      have hnn : (n : Rat) + 1 = ((n + 1) * (2 * 2 ^ a) : Int) * pow2 (e - 23) := by
        push_cast at q2 ⊢
        linear_combination ((n : Rat) + 1) * q2
      have hKlt : K < 2 ^ 24 := by
        rw [← hvr, q3] at e2
        have := lt_of_mul_lt_mul_right e2 (le_of_lt hq)
        exact_mod_cast this
      have hlt : K + 2 ^ a < (n + 1) * (2 * 2 ^ a) := by
        rw [hsum, hnn] at hn2
        have := lt_of_mul_lt_mul_right hn2 (le_of_lt hq)
        exact_mod_cast this
      have hge : n * (2 * 2 ^ a) ≤ K + 2 ^ a := by
        have : (n : Rat) = ((n * (2 * 2 ^ a) : Int) : Rat) * pow2 (e - 23) := by
          push_cast at q2 ⊢
          linear_combination (n : Rat) * q2
        rw [hsum, this] at hn1
        have := le_of_mul_le_mul_right hn1 hq
        exact_mod_cast this
      by_cases hs : K + 2 ^ a ≤ 2 ^ 24
      · -- exact
        have hK0 : 0 ≤ K := by
          have : (0 : Rat) < K * pow2 (e - 23) := by rw [hvr]; exact hv0
          have := (mul_pos_iff_of_pos_right hq).mp this
          have : 0 < K := by exact_mod_cast this
          omega
        have ha0 : (0 : Int) < 2 ^ a := by positivity
        have := rne24_exact (K + 2 ^ a) (e - 23) (by omega)
        rw [hsum, this, ← hsum]
        exact hn2
      · -- rounded, just above the power of two
        have ha0 : (0 : Int) < 2 ^ a := by positivity
        have hae : (a : Int) ≤ 23 := by omega
        -- bound by 2^24 + 2^a, even
        have ha1 : 1 ≤ a := by
          rcases Nat.eq_zero_or_pos a with h | h
          · subst h; norm_num at hs; omega
          · exact h
        obtain ⟨b, rfl⟩ : ∃ b, a = b + 1 := ⟨a - 1, by omega⟩
        have hb : (v + 1/2) ≤ ((2 ^ 23 + 2 ^ b : Int) : Rat) * pow2 (e - 22) := by
          have e22 : pow2 (e - 22) = 2 * pow2 (e - 23) := by
            have : pow2 1 = 2 := by rw [pow2_eq]; norm_num
            rw [← this, ← pow2_add]; congr 1; ring
          rw [hsum, e22]
          have : ((K + 2 ^ (b + 1) : Int) : Rat) ≤ ((2 ^ 24 + 2 ^ (b + 1) : Int) : Rat) := by exact_mod_cast (by omega)
          push_cast at this ⊢
          rw [pow_succ] at this ⊢
          nlinarith
        have hb22 : (2 : Int) ^ b ≤ 2 ^ 22 := pow_le_pow_right₀ (by norm_num) (by omega)
        have hb0 : (0 : Int) < 2 ^ b := by positivity
        have h3 := rne24_mono _ _ hb
        rw [rne24_exact (2 ^ 23 + 2 ^ b) (e - 22) (by omega)] at h3
        refine lt_of_le_of_lt h3 ?_
        rw [hnn]
        have e22 : pow2 (e - 22) = 2 * pow2 (e - 23) := by
          have : pow2 1 = 2 := by rw [pow2_eq]; norm_num
          rw [← this, ← pow2_add]; congr 1; ring
        rw [e22]
        -- n * 2^(a+1) ≥ 2^24
        have hd : (2 : Int) ^ 24 ≤ n * (2 * 2 ^ (b + 1)) := by
          -- 2^24 is a multiple of 2^(a+1)
          by_contra hc
          obtain ⟨c, hc2⟩ : ∃ c : Int, (2 : Int) ^ 24 = c * (2 * 2 ^ (b + 1)) := by
            refine ⟨2 ^ (22 - b), ?_⟩
            rw [← pow_succ', ← pow_add]; congr 1; omega
          rw [hc2] at hc hs
          have hpos : (0 : Int) < 2 * 2 ^ (b + 1) := by positivity
          have : n < c := by
            by_contra hcc
            exact hc (mul_le_mul_of_nonneg_right (by omega) (le_of_lt hpos))
          have : (n + 1) * (2 * 2 ^ (b + 1)) ≤ c * (2 * 2 ^ (b + 1)) :=
            mul_le_mul_of_nonneg_right (by omega) (le_of_lt hpos)
          omega
        have hfin : (2 ^ 23 + 2 ^ b) * 2 < (n + 1) * (2 * 2 ^ (b + 1)) := by
          have : (n + 1) * (2 * 2 ^ (b + 1)) = n * (2 * 2 ^ (b + 1)) + 2 * 2 ^ (b + 1) := by ring
          rw [this]
          have : (2 : Int) ^ (b + 1) = 2 * 2 ^ b := by rw [pow_succ]; ring
          generalize (2 : Int) ^ b = B at *
          generalize n * (2 * 2 ^ (b + 1)) = C at *
          omega
        have hfr : (((2 ^ 23 + 2 ^ b) * 2 : Int) : Rat) < (((n + 1) * (2 * 2 ^ (b + 1)) : Int) : Rat) := by exact_mod_cast hfin
        push_cast at hfr ⊢
        nlinarith
  -- so the truncation is the floor of v + 1/2
  have hfl : ⌊rne24 (v + 1/2)⌋ = ⌊v + 1/2⌋ := Int.floor_eq_iff.mpr ⟨hlo, hup⟩
  rw [hfl, abs_le]
  have := Int.floor_le (v + 1/2)
  have := Int.lt_floor_add_one (v + 1/2)
  constructor <;> linarith

theorem nearest_below (lo hi : Int) (hlh : lo ≤ hi) (v : Rat) (n : Int) (h : n ≤ lo) (hv : v ≤ (lo : Rat)) :
    NearestIn lo hi v (min (max n lo) hi) := by
  rw [show min (max n lo) hi = lo by omega]
  refine ⟨le_refl _, hlh, ?_⟩
  intro z hz1 hz2
  have cz2 : (lo : Rat) ≤ z := by exact_mod_cast hz1
  rw [abs_of_nonneg (by linarith), abs_of_nonneg (by linarith)]
  linarith

/-- The bounds of the rounding. -/
theorem half_range (v : Rat) (h0 : 0 ≤ v) (h1 : v ≤ 2 ^ 31 - 129) :
    0 ≤ ⌊rne24 (v + 1/2)⌋ ∧ ⌊rne24 (v + 1/2)⌋ ≤ 2 ^ 31 - 128 ∧ (2 ^ 23 ≤ v → 2 ^ 23 ≤ ⌊rne24 (v + 1/2)⌋) := by
  have l0 : 0 ≤ rne24 (v + 1/2) := by
    have := rne24_mono 0 (v + 1/2) (by linarith)
    rwa [rne24_zero] at this
  refine ⟨Int.floor_nonneg.mpr l0, ?_, ?_⟩
  · have := rne24_mono (v + 1/2) ((16777215 : Int) * pow2 7) (by
      rw [pow2_eq]; norm_num at h1 ⊢; linarith)
    rw [rne24_exact _ _ (by norm_num)] at this
    have h2 : rne24 (v + 1/2) ≤ ((2 ^ 31 - 128 : Int) : Rat) := by
      refine le_trans this ?_
      rw [pow2_eq]; norm_num
    have h3 := Int.floor_le_floor h2
    rwa [Int.floor_intCast] at h3
  · intro h23
    have := rne24_mono ((8388608 : Int) * pow2 0) (v + 1/2) (by
      rw [pow2_zero]; norm_num at h23 ⊢; linarith)
    rw [rne24_exact _ _ (by norm_num), pow2_zero] at this
    rw [Int.le_floor]
    norm_num at this ⊢
    exact this

/-- The rounding of the output functions. -/
theorem roundHalf_spec (v : Rat) (k j : Int) (hk : k.natAbs ≤ 2 ^ 24 - 1) (hv : v = k * pow2 j) (hb : |v| ≤ 2 ^ 31 - 129) :
    ∃ n, roundHalf (Arith.rounded rne24) (decide (0 ≤ v)) v = some n ∧
      ∀ lo hi : Int, -2 ^ 23 ≤ lo → lo ≤ hi → hi ≤ 2 ^ 23 → |v| ≠ 1/2 - 1/2^25 → NearestIn lo hi v (min (max n lo) hi) := by
  rw [abs_le] at hb
  unfold roundHalf
  by_cases hp : 0 ≤ v
  · obtain ⟨r1, r2, r3⟩ := half_range v hp (by linarith)
    have l0 : 0 ≤ rne24 (v + 1/2) := by
      have := rne24_mono 0 (v + 1/2) (by linarith)
      rwa [rne24_zero] at this
    refine ⟨⌊rne24 (v + 1/2)⌋, ?_, ?_⟩
    · rw [if_pos (by simpa using hp), show (Arith.rounded rne24).add v (1/2) = rne24 (v + 1/2) from rfl, trunc_nonneg _ l0]
      unfold i32
      rw [if_pos (by omega)]
    · intro lo hi a b c hex
      rw [abs_of_nonneg hp] at hex
      by_cases h23 : v < 2 ^ 23
      · exact nearest_sat lo hi b v _ (half_up v k j hk hv hp h23 hex)
      · have := r3 (not_lt.mp h23)
        apply nearest_above lo hi b v _ (by omega)
        have hc : (hi : Rat) ≤ 2 ^ 23 := by exact_mod_cast c
        linarith [not_lt.mp h23]
  · have hp' : 0 ≤ -v := by linarith
    obtain ⟨r1, r2, r3⟩ := half_range (-v) hp' (by linarith)
    have l0 : 0 ≤ rne24 (-v + 1/2) := by
      have := rne24_mono 0 (-v + 1/2) (by linarith)
      rwa [rne24_zero] at this
    have e : rne24 (v - 1/2) = -rne24 (-v + 1/2) := by rw [← rne24_neg]; congr 1; ring
    refine ⟨-⌊rne24 (-v + 1/2)⌋, ?_, ?_⟩
    · rw [if_neg (by simpa using hp), show (Arith.rounded rne24).sub v (1/2) = rne24 (v - 1/2) from rfl, e,
        trunc_neg' _ (by linarith), neg_neg]
      unfold i32
      rw [if_pos (by omega)]
    · intro lo hi a b c hex
      rw [abs_of_neg (not_le.mp hp)] at hex
      by_cases h23 : -v < 2 ^ 23
      · have := half_up (-v) (-k) j (by omega) (by rw [hv]; push_cast; ring) hp' h23 hex
        apply nearest_sat lo hi b v
        rw [← abs_neg]
        push_cast
        rw [show -(-(⌊rne24 (-v + 1/2)⌋ : Rat) - v) = (⌊rne24 (-v + 1/2)⌋ : Rat) - -v by ring]
        exact this
      · have := r3 (not_lt.mp h23)
        apply nearest_below lo hi b v _ (by omega)
        have hc : -(2 ^ 23 : Rat) ≤ lo := by exact_mod_cast a
        linarith [not_lt.mp h23]

/-- **C32**, output on 16 bits: the value written for a finite sample is the closest of the 16-bit range, saturation included, except
for the two samples of magnitude `1/2 - 2^-25`; the conversion is defined up to `2^31 - 129`. -/
theorem C32_store_s16_partial (u : Nat) (hu : F32.Finite u) (hb : |F32.value u| ≤ 2 ^ 31 - 129) :
    ∃ y, storeS16 (Arith.rounded rne24) u = some y ∧
      (|F32.value u| ≠ 1/2 - 1/2^25 → NearestIn (-32768) 32767 (F32.value u) y) := by
  obtain ⟨k, j, h1, h2, _⟩ := f32_repr u hu.1
  obtain ⟨n, h3, h4⟩ := roundHalf_spec _ k j h1 h2 hb
  refine ⟨sat16 n, ?_, h4 (-32768) 32767 (by norm_num) (by norm_num) (by norm_num)⟩
  unfold storeS16
  rw [h3]; rfl

/-- **C32**, output on 24 bits: the value written for a finite sample `x` is the closest to `256 x` in the 24-bit range, under the same
conditions on `256 x`. -/
theorem C32_store_s24_partial (u : Nat) (hu : F32.Finite u) (hb : |F32.value u * 256| ≤ 2 ^ 31 - 129) :
    ∃ y, storeS24 (Arith.rounded rne24) u = some y ∧
      (|F32.value u * 256| ≠ 1/2 - 1/2^25 → NearestIn (-8388608) 8388607 (F32.value u * 256) y) := by
  have p8 : pow2 8 = 256 := by rw [pow2_eq]; norm_num
  by_cases h0 : F32.exp u = 0
  · -- a subnormal number, not scaled: null
    have hm := f32_mag_sub u hu.1 h0
    rw [← f32_mag_eq] at hm
    have ht : pow2 (-126) < 1/1024 := by rw [pow2_eq]; norm_num
    have hs : |F32.value u| < 1/1024 := lt_trans hm ht
    obtain ⟨k, j, h1, h2, _⟩ := f32_repr u hu.1
    obtain ⟨n, h3, h4⟩ := roundHalf_spec _ k j h1 h2 (by norm_num at hs ⊢; linarith)
    -- n is the closest to both values
    have h5 := h4 (-8388608) 8388607 (by norm_num) (by norm_num) (by norm_num) (by
      intro hc; rw [hc] at hs; norm_num at hs)
    refine ⟨sat24 n, ?_, ?_⟩
    · unfold storeS24
      rw [ldexp_sub u 8 h0, Option.bind_some, if_neg (by rw [h0]; decide), h3]; rfl
    · intro _
      change NearestIn (-8388608) 8388607 (F32.value u) (sat24 n) at h5
      have hz : sat24 n = 0 := by
        have := h5.2.2 0 (by norm_num) (by norm_num)
        rw [Int.cast_zero, zero_sub, abs_neg] at this
        have h6 : |(sat24 n : Rat)| < 1 := by
          have : |(sat24 n : Rat)| ≤ |(sat24 n : Rat) - F32.value u| + |F32.value u| := by
            have := abs_add_le ((sat24 n : Rat) - F32.value u) (F32.value u)
            rwa [sub_add_cancel] at this
          linarith
        have h7 : |sat24 n| < 1 := by exact_mod_cast h6
        exact Int.abs_lt_one_iff.mp h7
      rw [hz]
      have : (0 : Int) = min (max 0 (-8388608)) 8388607 := by decide
      rw [this]
      apply nearest_sat _ _ (by norm_num)
      rw [Int.cast_zero, zero_sub, abs_neg, abs_mul]
      norm_num at hs ⊢
      linarith
  · have hE : (F32.exp u : Int) + 8 ≤ 254 := by
      by_contra hc
      have := (f32_mag_normal u hu.1 h0).1
      rw [← f32_mag_eq] at this
      have h3 : pow2 (40 : Nat) ≤ pow2 ((F32.exp u : Int) - 127) := pow2_le (by omega)
      rw [pow2_nat] at h3
      rw [abs_mul] at hb
      norm_num at hb h3
      linarith
    obtain ⟨w, w1, w2, w3, w4, w5, w6⟩ := ldexp_normal u hu.1 8 h0 (by omega) hE
    rw [p8] at w6
    obtain ⟨k, j, h1, h2, _⟩ := f32_repr w w2.1
    obtain ⟨n, h3, h4⟩ := roundHalf_spec _ k j h1 h2 (by rw [w6]; exact hb)
    refine ⟨sat24 n, ?_, ?_⟩
    · unfold storeS24
      rw [w1, Option.bind_some, if_neg (by have := w2.2; omega)]
      have : decide (0 ≤ F32.value u) = decide (0 ≤ F32.value w) := by
        rw [w6]
        by_cases h : 0 ≤ F32.value u
        · rw [decide_eq_true h, decide_eq_true (by positivity)]
        · rw [decide_eq_false h, decide_eq_false (by intro hc; apply h; linarith)]
      rw [this, h3]; rfl
    · rw [← w6]
      exact h4 (-8388608) 8388607 (by norm_num) (by norm_num) (by norm_num)

/-- Samples beyond the range of `int` are not converted: behavior undefined by the language. -/
theorem C32_undefined (u : Nat) (h : 2 ^ 31 ≤ F32.value u) : storeS16 (Arith.rounded rne24) u = none := by
  unfold storeS16 roundHalf
  have hp : 0 ≤ F32.value u := by linarith [show (0:Rat) ≤ 2 ^ 31 by norm_num]
  have h1 := rne24_mono ((2 : Int) * pow2 30) (F32.value u + 1/2) (by
    rw [pow2_eq]; norm_num at h ⊢; linarith)
  rw [rne24_exact _ _ (by norm_num)] at h1
  have e : ((2 : Int) : Rat) * pow2 30 = ((2 ^ 31 : Int) : Rat) := by rw [pow2_eq]; norm_num
  rw [e] at h1
  rw [if_pos (by simpa using hp), show (Arith.rounded rne24).add (F32.value u) (1/2) = rne24 (F32.value u + 1/2) from rfl,
    trunc_nonneg _ (by norm_num at h1; linarith)]
  have h2 : 2 ^ 31 ≤ ⌊rne24 (F32.value u + 1/2)⌋ := Int.le_floor.mpr h1
  unfold i32
  rw [if_neg (by omega)]; rfl

/-- The samples of magnitude `1/2 - 2^-25` are not rounded to the closest: the largest `float` below one half gives 1. -/
theorem C32_half_exception : F32.value 0x3effffff = 1/2 - 1/2^25 ∧ storeS16 (Arith.rounded rne24) 0x3effffff = some 1 := by
  decide +kernel

example : F32.Finite 0x40200000 ∧ F32.value 0x40200000 = 5/2 ∧ storeS16 (Arith.rounded rne24) 0x40200000 = some 3 ∧
    storeS16 (Arith.rounded rne24) 0xc0200000 = some (-3) ∧ storeS16 (Arith.rounded rne24) 0x47800000 = some 32767 ∧
    storeS24 (Arith.rounded rne24) 0xc0200000 = some (-640) ∧ storeS16 (Arith.rounded rne24) 0x4f000000 = none := by
  refine ⟨?_, ?_⟩
  · unfold F32.Finite; decide +kernel
  · decide +kernel

/-! ### Input -/

theorem wrap16_id (x : Int) (h1 : -32768 ≤ x) (h2 : x ≤ 32767) : wrap16 x = x := by unfold wrap16; omega

/-- **C32**, input on 16 bits: exact. -/
theorem C32_load_s16 (p : Int) (h1 : -32768 ≤ p) (h2 : p ≤ 32767) :
    (loadS16 p).1 = p ∧ F32.Finite (loadS16 p).2 ∧ F32.value (loadS16 p).2 = p := by
  refine ⟨rfl, ?_⟩
  show F32.Finite (floatOfInt p) ∧ F32.value (floatOfInt p) = p
  by_cases h0 : p = 0
  · subst h0
    refine ⟨?_, by decide +kernel⟩
    unfold F32.Finite; decide +kernel
  · obtain ⟨a, _, c, _⟩ := floatOfInt_spec p h0 0 p (by ring) (by omega) (by omega)
    exact ⟨a, c⟩

theorem pcm_log2_ge (n : Nat) (h : n ≠ 0) (k : Nat) (hk : 2 ^ k ≤ n) : k ≤ Nat.log2 n := (Nat.le_log2 h).mpr hk

/-- **C32**, input on 24 bits: the 16 high bits, and the value divided by 256, exactly. -/
theorem C32_load_s24 (p : Int) (h1 : -8388608 ≤ p) (h2 : p ≤ 8388607) :
    ∃ x, loadS24 p = some (p / 256, x) ∧ F32.Finite x ∧ F32.value x = p / 256 := by
  have hsh : p >>> (8 : Nat) = p / 256 := by rw [Int.shiftRight_eq_div_pow]; norm_num
  have ht : wrap16 (p >>> (8 : Nat)) = p / 256 := by rw [hsh]; exact wrap16_id _ (by omega) (by omega)
  by_cases h0 : p = 0
  · subst h0
    refine ⟨0, by decide +kernel, ?_, by decide +kernel⟩
    unfold F32.Finite; decide +kernel
  · obtain ⟨a, b, c, d⟩ := floatOfInt_spec p h0 0 p (by ring) (by omega) (by omega)
    obtain ⟨w, w1, w2, w3, w4, w5, w6⟩ := ldexp_normal _ a.1 (-8) (by rw [b]; omega) (by rw [b]; push_cast; omega) (by have := a.2; omega)
    refine ⟨w, ?_, w2, ?_⟩
    · unfold loadS24
      rw [w1, Option.map_some, ht]
    · rw [w6, c, pow2_eq]; norm_num; ring

theorem bytes_or (b0 b1 b2 : Nat) (h0 : b0 < 256) (h1 : b1 < 256) :
    (b0 <<< 8) ||| (b1 <<< 16) ||| (b2 <<< 24) = (b0 + 256 * b1 + 65536 * b2) * 256 := by
  have e1 : (b0 <<< 8) ||| (b1 <<< 16) = b0 <<< 8 + b1 <<< 16 := by
    rw [Nat.or_comm, Nat.add_comm]
    rw [← Nat.shiftLeft_add_eq_or_of_lt (i := 16) (by rw [Nat.shiftLeft_eq]; omega) b1]
  rw [e1]
  have e2 : (b0 <<< 8 + b1 <<< 16) ||| (b2 <<< 24) = b2 <<< 24 + (b0 <<< 8 + b1 <<< 16) := by
    rw [Nat.or_comm]
    rw [← Nat.shiftLeft_add_eq_or_of_lt (i := 24) (by rw [Nat.shiftLeft_eq, Nat.shiftLeft_eq]; omega) b2]
  rw [e2]
  simp only [Nat.shiftLeft_eq]
  omega

/-- **C32**, packed samples: what the encoder reads from the 3 bytes written by the decoder is what it reads from the unpacked
value, for any 24-bit value. -/
theorem C32_packed (s : Int) (h1 : -8388608 ≤ s) (h2 : s ≤ 8388607) :
    (bytes24 s).1 < 256 ∧ (bytes24 s).2.1 < 256 ∧ (bytes24 s).2.2 < 256 ∧
    loadS24P (bytes24 s).1 (bytes24 s).2.1 (bytes24 s).2.2 = loadS24 s := by
  have s8 : s >>> (8 : Nat) = s / 256 := by rw [Int.shiftRight_eq_div_pow]; norm_num
  have s16 : s >>> (16 : Nat) = s / 65536 := by rw [Int.shiftRight_eq_div_pow]; norm_num
  have b : bytes24 s = ((s % 256).toNat, (s / 256 % 256).toNat, (s / 65536 % 256).toNat) := by
    unfold bytes24; rw [s8, s16]
  rw [b]
  dsimp only
  refine ⟨by omega, by omega, by omega, ?_⟩
  have hv : packed24 (s % 256).toNat (s / 256 % 256).toNat (s / 65536 % 256).toNat = s * 256 := by
    unfold packed24
    dsimp only
    rw [bytes_or _ _ _ (by omega) (by omega)]
    split <;> omega
  unfold loadS24P
  dsimp only
  rw [hv]
  have ht : (s * 256) >>> (16 : Nat) = s >>> (8 : Nat) := by
    rw [s8, Int.shiftRight_eq_div_pow]; norm_num; omega
  rw [ht]
  unfold loadS24
  congr 1
  by_cases h0 : s = 0
  · subst h0; decide +kernel
  · obtain ⟨a, b, c, d⟩ := floatOfInt_spec s h0 0 s (by ring) (by omega) (by omega)
    obtain ⟨a', b', c', d'⟩ := floatOfInt_spec (s * 256) (by omega) 8 s (by ring) (by omega) (by omega)
    obtain ⟨w, w1, w2, w3, w4, w5, w6⟩ := ldexp_normal _ a.1 (-8) (by rw [b]; omega) (by rw [b]; push_cast; omega) (by have := a.2; omega)
    obtain ⟨z, z1, z2, z3, z4, z5, z6⟩ := ldexp_normal _ a'.1 (-16) (by rw [b']; omega) (by rw [b']; push_cast; omega) (by have := a'.2; omega)
    rw [w1, z1]
    congr 1
    -- same fields
    have hl : Nat.log2 (s * 256).natAbs = Nat.log2 s.natAbs + 8 := by
      obtain ⟨l1, l2⟩ := (Nat.log2_eq_iff (show s.natAbs ≠ 0 by omega)).mp rfl
      apply (Nat.log2_eq_iff (by omega)).mpr
      have q1 : 2 ^ (Nat.log2 s.natAbs + 8) = 2 ^ Nat.log2 s.natAbs * 256 := by rw [pow_add]; norm_num
      have q2 : 2 ^ (Nat.log2 s.natAbs + 8 + 1) = 2 ^ (Nat.log2 s.natAbs + 1) * 256 := by
        rw [show Nat.log2 s.natAbs + 8 + 1 = Nat.log2 s.natAbs + 1 + 8 by omega, pow_add _ _ 8]; norm_num
      rw [Int.natAbs_mul, q1, q2, show (256 : Int).natAbs = 256 from rfl]
      exact ⟨Nat.mul_le_mul_right _ l1, Nat.mul_lt_mul_of_pos_right l2 (by norm_num)⟩
    have hexp : F32.exp z = F32.exp w := by rw [b'] at z3; rw [b] at w3; omega
    have hsgn : F32.sign z = F32.sign w := by
      rw [z4, w4, d, d']
      congr 1
      apply propext
      omega
    have hval : F32.value z = F32.value w := by
      rw [z6, w6, c, c']
      have : pow2 (-8) = 256 * pow2 (-16) := by simp only [pow2_eq]; norm_num
      rw [this]; push_cast; ring
    have hmant : F32.mant z = F32.mant w := by
      rw [f32_value_normal z (by rw [b'] at z3; omega), f32_value_normal w (by rw [b] at w3; omega), hexp, hsgn] at hval
      have := mul_right_cancel₀ (ne_of_gt (pow2_pos _)) hval
      have hne : (if F32.sign w = true then (-1 : Rat) else 1) ≠ 0 := by split <;> norm_num
      have := mul_left_cancel₀ hne this
      have : 2 ^ 23 + F32.mant z = 2 ^ 23 + F32.mant w := by exact_mod_cast this
      omega
    obtain ⟨fz, _, _⟩ := f32_fields z z2.1
    obtain ⟨fw, _, _⟩ := f32_fields w w2.1
    rw [fz, fw, hexp, hsgn, hmant]

/-- **C32**, packed samples written by the decoder hold the value of the unpacked ones. -/
theorem C32_packed_store (u : Nat) (y : Int) (h : storeS24 (Arith.rounded rne24) u = some y) :
    ∃ b0 b1 b2, storeS24P (Arith.rounded rne24) u = some (b0, b1, b2) ∧ b0 < 256 ∧ b1 < 256 ∧ b2 < 256 ∧
      loadS24P b0 b1 b2 = loadS24 y := by
  have hr : -8388608 ≤ y ∧ y ≤ 8388607 := by
    unfold storeS24 at h
    cases hl : ldexpBits u 8 with
    | none => rw [hl] at h; simp at h
    | some w =>
      rw [hl, Option.bind_some] at h
      split at h
      · simp at h
      · rw [Option.map_eq_some_iff] at h
        obtain ⟨n, _, rfl⟩ := h
        unfold sat24; omega
  obtain ⟨c0, c1, c2, c3⟩ := C32_packed y hr.1 hr.2
  refine ⟨_, _, _, ?_, c0, c1, c2, c3⟩
  unfold storeS24P; rw [h]; rfl

example : bytes24 (-2) = (0xfe, 0xff, 0xff) ∧ loadS24P 0xfe 0xff 0xff = loadS24 (-2) ∧
    loadS24 (-2) = some (-1, 0xbc000000) ∧ F32.value 0xbc000000 = -2/256 := by decide +kernel

/-! ### Interleaving -/

/-- The samples written with a stride. -/
theorem pcmStore_spec {α : Type} (stride : Int) (hs : stride ≠ 0) (l : List α) :
    ∀ (p : Int) (m : Int → α),
      (∀ i (h : i < l.length), pcmStore stride p l m (p + i * stride) = l[i]) ∧
      (∀ a, (∀ i : Nat, i < l.length → a ≠ p + i * stride) → pcmStore stride p l m a = m a) := by
  induction l with
  | nil => intro p m; exact ⟨fun i h => absurd h (by simp), fun a _ => rfl⟩
  | cons v l ih =>
    intro p m
    obtain ⟨i1, i2⟩ := ih (p + stride) (fun a => if a = p then v else m a)
    refine ⟨?_, ?_⟩
    · intro i h
      cases i with
      | zero =>
        rw [pcmStore]
        rw [i2]
        · simp
        · intro j _ hc
          have hj : ((j : Int) + 1) * stride = 0 := by push_cast at hc ⊢; linarith
          rcases mul_eq_zero.mp hj with hj | hj
          · omega
          · exact hs hj
      | succ i =>
        rw [pcmStore]
        have := i1 i (by simpa using h)
        rw [show p + stride + (i : Int) * stride = p + ((i + 1 : Nat) : Int) * stride by push_cast; ring] at this
        rw [this]; rfl
    · intro a ha
      rw [pcmStore, i2]
      · have := ha 0 (by simp)
        rw [if_neg (by simpa using this)]
      · intro i hi
        have := ha (i + 1) (by simpa using hi)
        intro hc
        apply this
        rw [hc]; push_cast; ring

theorem pcmLoad_spec {α : Type} (stride : Int) (m : Int → α) : ∀ (n : Nat) (p : Int),
    (pcmLoad stride m p n).length = n ∧ ∀ i (h : i < (pcmLoad stride m p n).length), (pcmLoad stride m p n)[i] = m (p + i * stride) := by
  intro n
  induction n with
  | zero => intro p; exact ⟨rfl, fun i h => absurd h (by simp [pcmLoad])⟩
  | succ n ih =>
    intro p
    obtain ⟨h1, h2⟩ := ih (p + stride)
    refine ⟨by simp [pcmLoad, h1], ?_⟩
    intro i h
    cases i with
    | zero => simp [pcmLoad]
    | succ i =>
      have := h2 i (by simpa [pcmLoad] using h)
      simp only [pcmLoad, List.getElem_cons_succ]
      rw [this]
      congr 1; push_cast; ring

/-- **C32**, interleaving: in a buffer of `nch` interleaved channels, the output of channel `c` writes the sample `i` of this channel
at index `c + i * nch`, changes nothing else (neither other channels nor the rest of the memory), and channels are read back
independently. -/
theorem C32_interleave {α : Type} (nch c : Nat) (hc : c < nch) (l : List α) (m : Int → α) :
    let m' := pcmStore nch c l m
    (∀ i (h : i < l.length), m' (c + i * nch) = l[i]) ∧
    (∀ a, m' a ≠ m a → ∃ i < l.length, a = c + i * nch) ∧
    pcmLoad nch m' c l.length = l ∧
    (∀ c' < nch, c' ≠ c → ∀ n, pcmLoad nch m' c' n = pcmLoad nch m c' n) := by
  intro m'
  obtain ⟨h1, h2⟩ := pcmStore_spec (nch : Int) (by omega) l c m
  refine ⟨h1, ?_, ?_, ?_⟩
  · intro a ha
    by_contra hx
    exact ha (h2 a (fun i hi he => hx ⟨i, hi, he⟩))
  · obtain ⟨g1, g2⟩ := pcmLoad_spec (nch : Int) m' l.length c
    apply List.ext_getElem g1
    intro i hi hi'
    rw [g2 i hi]; exact h1 i hi'
  · intro c' hc' hne n
    obtain ⟨g1, g2⟩ := pcmLoad_spec (nch : Int) m' n c'
    obtain ⟨k1, k2⟩ := pcmLoad_spec (nch : Int) m n c'
    apply List.ext_getElem (g1.trans k1.symm)
    intro i hi hi'
    rw [g2 i hi, k2 i hi']
    apply h2
    intro j _ he
    have : (c' : Int) % nch = (c : Int) % nch := by
      have := congrArg (· % (nch : Int)) he
      simpa [Int.add_mul_emod_self_right] using this
    rw [Int.emod_eq_of_lt (by omega) (by omega), Int.emod_eq_of_lt (by omega) (by omega)] at this
    omega

/-- The bytes of packed samples written with a stride. -/
theorem pcmStore3_eq (stride : Int) (l : List (Nat × Nat × Nat)) : ∀ (p : Int) (m : Int → Nat) (a : Int),
    (∀ i : Nat, i < l.length → ¬ (p + 3 * (i * stride) ≤ a ∧ a ≤ p + 3 * (i * stride) + 2)) → pcmStore3 stride p l m a = m a := by
  induction l with
  | nil => intro p m a _; rfl
  | cons v l ih =>
    intro p m a ha
    obtain ⟨b0, b1, b2⟩ := v
    rw [pcmStore3, ih]
    · have := ha 0 (by simp)
      simp only [Nat.cast_zero, zero_mul, mul_zero, add_zero] at this
      rw [if_neg (by omega), if_neg (by omega), if_neg (by omega)]
    · intro i hi
      have := ha (i + 1) (by simpa using hi)
      rw [show p + 3 * (((i + 1 : Nat) : Int) * stride) = p + 3 * stride + 3 * (i * stride) by push_cast; ring] at this
      exact this

/-- **C32**, interleaving of packed samples: the 3 bytes of sample `i` of channel `c` are written at `3 (c + i * nch)`, nothing else is
changed, and channels are read back independently. -/
theorem C32_interleave_packed (nch c : Nat) (hc : c < nch) (l : List (Nat × Nat × Nat)) (m : Int → Nat) :
    let m' := pcmStore3 nch (3 * c) l m
    (∀ a, m' a ≠ m a → ∃ i < l.length, 3 * ((c : Int) + i * nch) ≤ a ∧ a ≤ 3 * (c + i * nch) + 2) ∧
    pcmLoad3 nch m' (3 * c) l.length = l ∧
    (∀ c' < nch, c' ≠ c → ∀ n, pcmLoad3 nch m' (3 * c') n = pcmLoad3 nch m (3 * c') n) := by
  intro m'
  refine ⟨?_, ?_, ?_⟩
  · intro a ha
    by_contra hx
    apply ha
    apply pcmStore3_eq
    intro i hi he
    apply hx
    exact ⟨i, hi, by constructor <;> linarith [he.1, he.2]⟩
  · -- by induction on the samples
    have key : ∀ (l : List (Nat × Nat × Nat)) (p : Int) (m : Int → Nat),
        pcmLoad3 nch (pcmStore3 nch p l m) p l.length = l := by
      intro l
      induction l with
      | nil => intro p m; rfl
      | cons v l ih =>
        intro p m
        obtain ⟨b0, b1, b2⟩ := v
        rw [pcmStore3, List.length_cons, pcmLoad3, ih]
        have hn : (1 : Int) ≤ nch := by omega
        have hout : ∀ a, a < p + 3 → pcmStore3 nch (p + 3 * nch) l
            (fun a => if a = p + 2 then b2 else if a = p + 1 then b1 else if a = p then b0 else m a) a =
            (fun a => if a = p + 2 then b2 else if a = p + 1 then b1 else if a = p then b0 else m a) a := by
          intro a ha
          apply pcmStore3_eq
          intro i _ he
          have : 0 ≤ (i : Int) * nch := by positivity
          omega
        rw [hout p (by omega), hout (p + 1) (by omega), hout (p + 2) (by omega)]
        simp
    exact key l _ m
  · intro c' hc' hne
    -- the bytes of the other channel are not changed
    have hb : ∀ (j : Nat) (d : Int), 0 ≤ d → d ≤ 2 → m' (3 * c' + 3 * (j * nch) + d) = m (3 * c' + 3 * (j * nch) + d) := by
      intro j d hd0 hd2
      apply pcmStore3_eq
      intro i _ he
      have e1 : (c' : Int) + j * nch = c + i * nch := by omega
      have : (c' : Int) % nch = (c : Int) % nch := by
        have := congrArg (· % (nch : Int)) e1
        simpa [Int.add_mul_emod_self_right] using this
      rw [Int.emod_eq_of_lt (by omega) (by omega), Int.emod_eq_of_lt (by omega) (by omega)] at this
      omega
    have key : ∀ (n j : Nat), pcmLoad3 nch m' (3 * c' + 3 * (j * nch)) n = pcmLoad3 nch m (3 * c' + 3 * (j * nch)) n := by
      intro n
      induction n with
      | zero => intro j; rfl
      | succ n ih =>
        intro j
        rw [pcmLoad3, pcmLoad3]
        have e := ih (j + 1)
        rw [show (3 * (c' : Int) + 3 * (((j + 1 : Nat) : Int) * nch)) = 3 * c' + 3 * (j * nch) + 3 * nch by push_cast; ring] at e
        rw [e]
        have z0 := hb j 0 (by omega) (by omega)
        rw [add_zero] at z0
        rw [z0, hb j 1 (by omega) (by omega), hb j 2 (by omega) (by omega)]
    intro n
    have := key n 0
    simpa using this

example : let m := pcmStore 2 1 [10, 20, 30] (pcmStore 2 0 [1, 2, 3] (fun _ => 0))
    (List.range 7).map (fun i => m i) = [1, 10, 2, 20, 3, 30, 0] := by decide +kernel

/-! ### Float output -/

/-- The wanted float output. -/
def wantedFloat (v : Rat) : Rat := min (max (v / 32768) (-1)) 1

/-- **C33**, refuted: finite samples, smaller than `2^-111`, come out at full scale. -/
theorem C33_refuted : ∃ u, F32.Finite u ∧ 0 < F32.value u ∧ F32.value u < pow2 (-111) ∧
    storeFloat u = some (-1) ∧ wantedFloat (F32.value u) ≠ -1 := by
  refine ⟨0x01000000, ?_, ?_, ?_, ?_, ?_⟩
  · unfold F32.Finite; decide +kernel
  all_goals decide +kernel

/-- **C33**, extent of the failure: any positive sample from `2^-126` to `2^-112` gives -1, and any negative one overflows the integer
arithmetic of `lc3_ldexpf`. -/
theorem C33_wrap (u : Nat) (hu : F32.Finite u) (h1 : pow2 (-126) ≤ |F32.value u|) (h2 : |F32.value u| < pow2 (-112)) :
    storeFloat u = if F32.value u < 0 then none else some (-1) := by
  rw [f32_mag_eq] at h1 h2
  have h0 : F32.exp u ≠ 0 := by
    intro hc
    have := f32_mag_sub u hu.1 hc
    linarith
  obtain ⟨n1, n2⟩ := f32_mag_normal u hu.1 h0
  have hE : F32.exp u ≤ 14 := by
    have := pow2_lt_iff (lt_of_le_of_lt n1 h2)
    omega
  have hmp : 0 < F32.mag u := lt_of_lt_of_le (pow2_pos _) n1
  obtain ⟨f1, f2, f3⟩ := f32_fields u hu.1
  have hsgn : (F32.value u < 0) ↔ F32.sign u = true := by
    unfold F32.value
    constructor
    · intro h
      by_contra hc
      rw [if_neg hc] at h
      linarith
    · intro h
      rw [if_pos h]; linarith
  unfold storeFloat ldexpBits
  rw [if_pos h0]
  by_cases hs : F32.sign u = true
  · rw [if_pos (hsgn.mpr hs)]
    rw [if_pos hs] at f1
    have : F32.signed u + -15 * 2 ^ 23 < -2147483648 := by
      unfold F32.signed
      rw [if_neg (by omega)]
      omega
    unfold i32
    rw [if_neg (by omega)]; rfl
  · rw [if_neg (fun h => hs (hsgn.mp h))]
    rw [if_neg hs] at f1
    generalize hM : F32.mant u = M at *
    generalize hEE : F32.exp u = E at *
    have hsu : F32.signed u = E * 2 ^ 23 + M := by
      unfold F32.signed
      rw [if_pos (by omega)]; omega
    have hw : ((F32.signed u + -15 * 2 ^ 23) % 2 ^ 32).toNat = 2 ^ 31 + (241 + E) * 2 ^ 23 + M := by
      rw [hsu, ← Int.add_emod_right, Int.emod_eq_of_lt (by omega) (by omega)]
      omega
    have hi : i32 (F32.signed u + -15 * 2 ^ 23) = some (F32.signed u + -15 * 2 ^ 23) := by
      unfold i32
      rw [if_pos (by rw [hsu]; omega)]
    rw [hi, Option.map_some, hw, Option.map_some]
    obtain ⟨g0, g1, g2, g3⟩ := f32_of_fields true (241 + E) M (by omega) f3
    simp only [if_true] at g0 g1 g2 g3
    congr 1
    unfold clampUnit
    generalize hwu : 2 ^ 31 + (241 + E) * 2 ^ 23 + M = w at *
    by_cases hx : F32.exp w = 255
    · rw [if_pos hx, if_neg (by rw [g1]; simp)]
    · rw [if_neg hx]
      have : F32.value w ≤ -1 := by
        obtain ⟨q1, _⟩ := f32_mag_normal w g0 (by omega)
        have q2 : pow2 0 ≤ pow2 ((F32.exp w : Int) - 127) := pow2_le (by omega)
        rw [pow2_zero] at q2
        unfold F32.value
        rw [if_pos g1]
        linarith
      rw [max_eq_right this]
      norm_num

/-- **C33**, what holds: the output is exact for a null sample and for any finite sample from `2^-111`, and is within `2^-126` of the
wanted value for the other samples out of the range of `C33_wrap`. -/
theorem C33_float_partial (u : Nat) (hu : F32.Finite u) :
    (F32.value u = 0 ∨ pow2 (-111) ≤ |F32.value u| → storeFloat u = some (wantedFloat (F32.value u))) ∧
    (|F32.value u| < pow2 (-126) ∨ pow2 (-112) ≤ |F32.value u| →
      ∃ y, storeFloat u = some y ∧ |y - wantedFloat (F32.value u)| < pow2 (-126)) := by
  have hw : ∀ v : Rat, |v| ≤ 1 → min (max v (-1)) 1 = v := by
    intro v hv
    rw [abs_le] at hv
    rw [max_eq_left hv.1, min_eq_left hv.2]
  have hwant : ∀ v : Rat, |v| ≤ 1 → wantedFloat v = v / 32768 := by
    intro v hv
    unfold wantedFloat
    apply hw
    rw [abs_div]
    norm_num
    linarith
  have p126 := pow2_pos (-126)
  have h126 : pow2 (-126) ≤ 1 := by rw [← pow2_zero]; exact pow2_le (by omega)
  -- the null sample and the subnormal ones
  have hsub : F32.exp u = 0 → storeFloat u = some (F32.value u) := by
    intro h0
    unfold storeFloat
    rw [ldexp_sub u _ h0, Option.map_some]
    congr 1
    unfold clampUnit
    rw [if_neg (by rw [h0]; decide)]
    apply hw
    rw [f32_mag_eq]
    linarith [f32_mag_sub u hu.1 h0]
  -- normal numbers from 2^-111
  have hnorm : 16 ≤ F32.exp u → storeFloat u = some (wantedFloat (F32.value u)) := by
    intro h16
    obtain ⟨w, w1, w2, w3, w4, w5, w6⟩ := ldexp_normal u hu.1 (-15) (by omega) (by omega) (by have := hu.2; omega)
    unfold storeFloat
    rw [w1, Option.map_some]
    congr 1
    unfold clampUnit wantedFloat
    rw [if_neg (by have := w2.2; omega), w6]
    have : pow2 (-15) = 1/32768 := by rw [pow2_eq]; norm_num
    rw [this]
    congr 2; ring
  have hge : ∀ e : Int, F32.exp u ≠ 0 → pow2 e ≤ |F32.value u| → e + 127 ≤ F32.exp u := by
    intro e h0 h
    rw [f32_mag_eq] at h
    have := (f32_mag_normal u hu.1 h0).2
    have := pow2_lt_iff (lt_of_le_of_lt h this)
    omega
  refine ⟨?_, ?_⟩
  · rintro (h | h)
    · have h0 : F32.exp u = 0 := by
        by_contra hc
        have h3 := (f32_mag_normal u hu.1 hc).1
        rw [← f32_mag_eq, h, abs_zero] at h3
        have := pow2_pos ((F32.exp u : Int) - 127)
        linarith
      rw [hsub h0, h]
      congr 1
      rw [hwant 0 (by norm_num)]; norm_num
    · have h0 : F32.exp u ≠ 0 := by
        intro hc
        have h3 := f32_mag_sub u hu.1 hc
        rw [← f32_mag_eq] at h3
        have : pow2 (-126) ≤ pow2 (-111) := pow2_le (by omega)
        linarith
      exact hnorm (by have := hge _ h0 h; omega)
  · intro h
    by_cases h0 : F32.exp u = 0
    · refine ⟨_, hsub h0, ?_⟩
      have hm := f32_mag_sub u hu.1 h0
      rw [← f32_mag_eq] at hm
      rw [hwant _ (by linarith)]
      rw [show F32.value u - F32.value u / 32768 = F32.value u * (32767/32768) by ring, abs_mul]
      norm_num
      have := abs_nonneg (F32.value u)
      linarith
    · have h15 : 15 ≤ F32.exp u := by
        rcases h with h | h
        · exfalso
          have h3 := (f32_mag_normal u hu.1 h0).1
          rw [← f32_mag_eq] at h3
          have : pow2 (-126) ≤ pow2 ((F32.exp u : Int) - 127) := pow2_le (by omega)
          linarith
        · have := hge _ h0 h; omega
      by_cases h16 : 16 ≤ F32.exp u
      · exact ⟨_, hnorm h16, by rw [sub_self, abs_zero]; exact p126⟩
      · -- exponent null in the result
        have hE : F32.exp u = 15 := by omega
        obtain ⟨f1, f2, f3⟩ := f32_fields u hu.1
        obtain ⟨g0, g1, g2, g3⟩ := f32_of_fields (F32.sign u) 0 (F32.mant u) (by omega) f3
        have hl : ldexpBits u (-15) = some ((if F32.sign u then 2 ^ 31 else 0) + 0 * 2 ^ 23 + F32.mant u) := by
          unfold ldexpBits
          rw [if_pos h0]
          rw [hE] at f1
          generalize F32.mant u = M at *
          by_cases hs : F32.sign u = true
          · rw [if_pos hs] at f1 ⊢
            have hsu : F32.signed u + -15 * 2 ^ 23 = (0 : Nat) * 2 ^ 23 + M - 2 ^ 31 := by
              unfold F32.signed; rw [if_neg (by omega)]; omega
            have hw' := wrap_neg 0 M (by omega) f3
            rw [hsu]
            unfold i32
            rw [if_pos (by omega), Option.map_some, hw']
          · rw [if_neg hs] at f1 ⊢
            have hsu : F32.signed u + -15 * 2 ^ 23 = (0 : Nat) * 2 ^ 23 + M := by
              unfold F32.signed; rw [if_pos (by omega)]; omega
            have hw' := wrap_pos 0 M (by omega) f3
            rw [hsu]
            unfold i32
            rw [if_pos (by omega), Option.map_some, hw']
        obtain ⟨w, hww⟩ : ∃ w, w = (if F32.sign u then 2 ^ 31 else 0) + 0 * 2 ^ 23 + F32.mant u := ⟨_, rfl⟩
        rw [← hww] at g0 g1 g2 g3 hl
        have hm := f32_mag_sub w g0 g2
        rw [← f32_mag_eq] at hm
        refine ⟨F32.value w, ?_, ?_⟩
        · unfold storeFloat
          rw [hl, Option.map_some]
          congr 1
          unfold clampUnit
          rw [if_neg (by rw [g2]; decide)]
          apply hw
          linarith
        · have hvu := f32_value_normal u h0
          have hvw := f32_value_sub w g2
          rw [hE] at hvu
          rw [g1, g3] at hvw
          have hmu := (f32_mag_normal u hu.1 h0).2
          rw [← f32_mag_eq, hE] at hmu
          have h111 : pow2 (((15 : Nat) : Int) - 126) ≤ 1 := by rw [← pow2_zero]; exact pow2_le (by norm_num)
          rw [hwant _ (by linarith)]
          have e1 : pow2 (((15 : Nat) : Int) - 150) = 16384 * pow2 (-149) := by
            rw [show (16384 : Rat) = pow2 (14 : Nat) by rw [pow2_nat]; norm_num, ← pow2_add]; congr 1
          have e2 : pow2 (-126) = 8388608 * pow2 (-149) := by
            rw [show (8388608 : Rat) = pow2 (23 : Nat) by rw [pow2_nat]; norm_num, ← pow2_add]; congr 1
          have p149 := pow2_pos (-149)
          have hMr : (F32.mant u : Rat) < 8388608 := by exact_mod_cast (show F32.mant u < 8388608 by omega)
          have hM0 : (0 : Rat) ≤ F32.mant u := by positivity
          rw [hvu, hvw, e1, e2]
          push_cast
          rw [show ∀ s : Rat, s * (F32.mant u : Rat) * pow2 (-149) - s * (8388608 + (F32.mant u : Rat)) * (16384 * pow2 (-149)) / 32768 =
              s * (((F32.mant u : Rat) - 8388608) / 2) * pow2 (-149) by intro s; ring]
          rw [abs_mul, abs_mul, abs_of_pos p149]
          have hs1 : |(if F32.sign u = true then (-1 : Rat) else 1)| = 1 := by split <;> norm_num
          rw [hs1, one_mul, abs_of_nonpos (by linarith)]
          nlinarith

example : storeFloat 0x46fffe00 = some (32767/32768) ∧ storeFloat 0xc8000000 = some (-1) ∧ storeFloat 0 = some 0 := by
  decide +kernel

/-- Input of float samples: a null or normal sample of magnitude at most 1 is scaled exactly by 32768, a subnormal one is below
`2^-126` after the conversion as before; the 16-bit sample is the truncation, saturated. -/
theorem C33_load (u : Nat) (hu : F32.Finite u) (hb : |F32.value u| ≤ 1) :
    ∃ t x, loadFloat u = some (t, x) ∧ F32.Finite x ∧ t = sat16 (Arith.exact.trunc (F32.value x)) ∧
      (F32.value u = 0 ∨ pow2 (-126) ≤ |F32.value u| → F32.value x = F32.value u * 32768) ∧
      |F32.value x - F32.value u * 32768| < pow2 (-110) := by
  have ht : ∀ v : Rat, |v| ≤ 32768 → ∃ t, i32 (Arith.exact.trunc v) = some t ∧ t = Arith.exact.trunc v := by
    intro v hv
    rw [abs_le] at hv
    refine ⟨_, ?_, rfl⟩
    have : -32768 ≤ Arith.exact.trunc v ∧ Arith.exact.trunc v ≤ 32768 := by
      show -32768 ≤ (if v < 0 then -(Rat.floor (-v)) else Rat.floor v) ∧ (if v < 0 then -(Rat.floor (-v)) else Rat.floor v) ≤ 32768
      split
      case isTrue h =>
        have h1 : ⌊-v⌋ ≤ 32768 := by
          have := Int.floor_le_floor (show -v ≤ ((32768 : Int) : Rat) by push_cast; linarith)
          rwa [Int.floor_intCast] at this
        have h2 : 0 ≤ ⌊-v⌋ := Int.floor_nonneg.mpr (by linarith)
        change -32768 ≤ -⌊-v⌋ ∧ -⌊-v⌋ ≤ 32768
        omega
      case isFalse h =>
        have h1 : ⌊v⌋ ≤ 32768 := by
          have := Int.floor_le_floor (show v ≤ ((32768 : Int) : Rat) by push_cast; linarith)
          rwa [Int.floor_intCast] at this
        have h2 : 0 ≤ ⌊v⌋ := Int.floor_nonneg.mpr (by linarith)
        change -32768 ≤ ⌊v⌋ ∧ ⌊v⌋ ≤ 32768
        omega
    unfold i32
    rw [if_pos (by omega)]
  have p15 : pow2 15 = 32768 := by rw [pow2_eq]; norm_num
  by_cases h0 : F32.exp u = 0
  · obtain ⟨t, t1, t2⟩ := ht (F32.value u) (by linarith)
    have hm := f32_mag_sub u hu.1 h0
    rw [← f32_mag_eq] at hm
    refine ⟨sat16 t, u, ?_, hu, by rw [t2], ?_, ?_⟩
    · unfold loadFloat
      rw [ldexp_sub u _ h0, Option.bind_some, if_neg (by rw [h0]; decide), t1, Option.map_some]
    · rintro (h | h)
      · rw [h]; norm_num
      · linarith
    · rw [show F32.value u - F32.value u * 32768 = F32.value u * (-32767) by ring, abs_mul]
      have e : pow2 (-110) = 65536 * pow2 (-126) := by
        rw [show (65536 : Rat) = pow2 (16 : Nat) by rw [pow2_nat]; norm_num, ← pow2_add]; congr 1
      rw [e]
      norm_num
      linarith [abs_nonneg (F32.value u)]
  · have hE : (F32.exp u : Int) + 15 ≤ 254 := by
      have h1 := (f32_mag_normal u hu.1 h0).1
      rw [← f32_mag_eq] at h1
      have := pow2_lt_iff (lt_of_le_of_lt (le_trans h1 hb) (show (1 : Rat) < pow2 1 by rw [pow2_eq]; norm_num))
      omega
    obtain ⟨w, w1, w2, w3, w4, w5, w6⟩ := ldexp_normal u hu.1 15 h0 (by omega) hE
    rw [p15] at w6
    obtain ⟨t, t1, t2⟩ := ht (F32.value w) (by
      rw [w6, abs_mul]; norm_num; linarith)
    refine ⟨sat16 t, w, ?_, w2, by rw [t2], fun _ => w6, ?_⟩
    · unfold loadFloat
      rw [w1, Option.bind_some, if_neg (by have := w2.2; omega), t1, Option.map_some]
    · rw [w6, sub_self, abs_zero]; exact pow2_pos _

example : loadFloat 0xbf000000 = some (-16384, 0xc6800000) ∧ loadFloat 0x3f800000 = some (32767, 0x47000000) ∧
    loadFloat 0x47800000 = none := by decide +kernel

end LC3
