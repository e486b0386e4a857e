import Verif.Lemmas.ImdctErr
import Verif.Lemmas.F32Round
import Verif.Props.Twiddle

/-!
C68: accuracy of the transforms in binary32, with the tables of the code.
-/

namespace LC3
open Complex Finset

variable {R : Type}

/-! ### The arithmetic -/

theorem pow2_126 : ((pow2 126 : Rat) : ℝ) = 2 ^ 126 := by rw [show pow2 126 = 2 ^ 126 by decide +kernel]; norm_num
theorem pow2_m150 : ((pow2 (-150) : Rat) : ℝ) = 1 / 2 ^ 150 := by rw [show pow2 (-150) = 1 / 2 ^ 150 by decide +kernel]; norm_num

theorem fl_error_real (q : Rat) (h : |(q : ℝ)| ≤ 2 ^ 126) : |((fl q : Rat) : ℝ) - q| ≤ (|(q : ℝ)| + 1 / 2 ^ 126) / 2 ^ 24 := by
  have h1 : |q| ≤ pow2 126 := by
    have : ((|q| : Rat) : ℝ) ≤ ((pow2 126 : Rat) : ℝ) := by rw [pow2_126]; push_cast; exact h
    exact_mod_cast this
  have h2 := fl_error q h1
  have h3 : ((|fl q - q| : Rat) : ℝ) ≤ ((|q| / 2 ^ 24 + pow2 (-150) : Rat) : ℝ) := by exact_mod_cast h2
  push_cast at h3
  rw [pow2_m150] at h3
  refine h3.trans (le_of_eq ?_)
  rw [add_div]
  congr 1
  norm_num

theorem approx_fl : Approx (Arith.rounded fl) (fun q : Rat => (q : ℝ)) where
  add a b h := by have := fl_error_real (a + b) (by push_cast; exact h); push_cast at this; exact this
  sub a b h := by have := fl_error_real (a - b) (by push_cast; exact h); push_cast at this; exact this
  mul a b h := by have := fl_error_real (a * b) (by push_cast; exact h); push_cast at this; exact this
  ofRat q h := fl_error_real q h
  zero := by
    change ((fl 0 : Rat) : ℝ) = 0
    rw [show fl 0 = 0 by decide +kernel]
    norm_num

/-! ### The tables -/

theorem scaled_getD_gen (A : Arith R) (v : R → ℝ) (hA : Approx A v) (z : R) (e : Nat) (l : List Int) (k : ℕ) (hk : k < l.length)
    (hb : |(l.getD k 0 : ℝ) / 10 ^ e| ≤ 2) :
    |v ((scaled A e l).getD k z) - (l.getD k 0 : ℝ) / 10 ^ e| ≤ (|(l.getD k 0 : ℝ) / 10 ^ e| + 1 / 2 ^ 126) / 2 ^ 24 := by
  unfold scaled
  rw [List.getD_eq_getElem _ _ (by rw [List.length_map]; exact hk), List.getElem_map]
  rw [List.getD_eq_getElem _ _ hk] at hb ⊢
  have := hA.ofRat (dec l[k] e) (by rw [dec_real]; exact hb.trans (by norm_num))
  rw [dec_real] at this
  exact this

/-- A complex number of a table, against the exact one. -/
theorem scaled_near (A : Arith R) (v : R → ℝ) (hA : Approx A v) (z : R) (e : Nat) (l : List Int) (k : ℕ) (hk : 2 * k + 1 < l.length) (ω : ℂ) (ρ : ℝ)
    (hω : ‖ω‖ ≤ ρ) (hρ : ρ ≤ 1) (h : ‖decC e l k - ω‖ ≤ 12 / 10 ^ 9) : ‖vc v (cAt z (scaled A e l) k) - ω‖ ≤ 8431 / 10 ^ 11 * ρ + 121 / 10 ^ 10 := by
  have hn : ‖decC e l k‖ ≤ ρ + 12 / 10 ^ 9 := by
    have := norm_add_le (decC e l k - ω) ω
    rw [sub_add_cancel] at this
    linarith
  have r1 := (Complex.abs_re_le_norm _).trans hn
  have r2 := (Complex.abs_im_le_norm _).trans hn
  have a1 := scaled_getD_gen A v hA z e l (2 * k) (by omega) (r1.trans (by linarith))
  have a2 := scaled_getD_gen A v hA z e l (2 * k + 1) hk (r2.trans (by linarith))
  have hd : ‖vc v (cAt z (scaled A e l) k) - decC e l k‖ ≤ 1.4143 * ((ρ + 12 / 10 ^ 9 + 1 / 2 ^ 126) / 2 ^ 24) := by
    apply norm_of_parts
    · rw [Complex.sub_re]
      refine a1.trans (div_le_div_of_nonneg_right ?_ (by norm_num))
      exact add_le_add_left r1 _
    · rw [Complex.sub_im]
      refine a2.trans (div_le_div_of_nonneg_right ?_ (by norm_num))
      exact add_le_add_left r2 _
  have := norm_add_le (vc v (cAt z (scaled A e l) k) - decC e l k) (decC e l k - ω)
  rw [sub_add_sub_cancel] at this
  have hρ0 := (norm_nonneg _).trans hω
  linarith

theorem nearBf2_of (A : Arith R) (v : R → ℝ) (hA : Approx A v) (z : R) (n2 i j : ℕ) (h : rawBf2 n2 i j = true) : NearBf2 v z n2 ((mdctTables A).bf2 i j) := by
  unfold rawBf2 at h
  cases hb : bf2Table i j with
  | none => rw [hb] at h; cases h
  | some t =>
    rw [hb] at h
    simp only [Bool.and_eq_true, beq_iff_eq, decide_eq_true_eq] at h
    obtain ⟨h1, h2⟩ := h
    obtain ⟨a, b, c⟩ := bf2_raw i j t hb
    refine ⟨scaled A t.2.1 t.2.2, ?_, by rw [scaled_length]; exact h2, fun k hk => ?_⟩
    · change (bf2Table i j).map _ = _
      rw [hb, Option.map_some, h1]
    · have := rawTw2_spec t.1 b c t a k (by omega)
      rw [h1] at this
      refine (scaled_near A v hA z _ _ k (by omega) _ 1 (W_norm _ _).le (le_refl _) this).trans (by norm_num)

theorem nearBf3_of (A : Arith R) (v : R → ℝ) (hA : Approx A v) (z : R) (n3 i : ℕ) (h : rawBf3 n3 i = true) : NearBf3 v z n3 ((mdctTables A).bf3 i) := by
  unfold rawBf3 at h
  cases hb : bf3Table i with
  | none => rw [hb] at h; cases h
  | some t =>
    rw [hb] at h
    simp only [Bool.and_eq_true, beq_iff_eq, decide_eq_true_eq] at h
    obtain ⟨h1, h2⟩ := h
    obtain ⟨a, b, c⟩ := bf3_raw i t hb
    refine ⟨scaled A t.2.1 t.2.2, ?_, by rw [scaled_length]; exact h2, fun k hk => ?_⟩
    · change (bf3Table i).map _ = _
      rw [hb, Option.map_some, h1]
    · have := rawTw3_spec t.1 b c t a k (by omega)
      rw [h1] at this
      exact ⟨(scaled_near A v hA z _ _ (2 * k) (by omega) _ 1 (W_norm _ _).le (le_refl _) this.1).trans (by norm_num),
        (scaled_near A v hA z _ _ (2 * k + 1) (by omega) _ 1 (W_norm _ _).le (le_refl _) this.2).trans (by norm_num)⟩

theorem near5_of (A : Arith R) (v : R → ℝ) (hA : Approx A v) : Near5 v (mdctTables A) := by
  have key : ∀ (m : Int) (x : ℝ), |x| ≤ 1 → |((dec m 10 : Rat) : ℝ) - x| ≤ 6 / 10 ^ 9 → |v (A.ofRat (dec m 10)) - x| ≤ 7 / 10 ^ 8 := by
    intro m x hx h
    have h1 : |((dec m 10 : Rat) : ℝ)| ≤ 1 + 6 / 10 ^ 9 := by
      have := abs_add_le (((dec m 10 : Rat) : ℝ) - x) x
      rw [sub_add_cancel] at this
      linarith
    have := near_round h h1 (hA.ofRat (dec m 10) (by linarith))
    refine this.trans (by norm_num)
  obtain ⟨a1, a2, a3, a4⟩ := C37_constants
  refine ⟨key _ _ (Real.abs_cos_le_one _) a1, key _ _ (Real.abs_cos_le_one _) a2, ?_, ?_⟩
  · rw [← sub_neg_eq_add] at a3 ⊢
    exact key _ _ (by rw [abs_neg]; exact Real.abs_sin_le_one _) a3
  · rw [← sub_neg_eq_add] at a4 ⊢
    exact key _ _ (by rw [abs_neg]; exact Real.abs_sin_le_one _) a4

/-- The values of the windows are less than 2. -/
def winRange (dt : Dt) (sr : Srate) : Bool := match winTable dt sr with
  | some t => t.2.all (fun m => Nat.ble (Int.natAbs m) (2 * 10 ^ t.1)) && Nat.ble t.1 16
  | none => true

set_option maxRecDepth 100000 in
theorem winRange_ok (dt : Dt) (sr : Srate) : winRange dt sr = true := by cases dt <;> cases sr <;> decide +kernel

/-- The tables of the code, in an arithmetic that rounds, are those of the exact transforms within a tolerance. -/
theorem tables_near (A : Arith R) (v : R → ℝ) (hA : Approx A v) (z : R) (dt : Dt) (sr : Srate) (h : ¬ (dt = .m7_5 ∧ sr.hr = true)) :
    ∃ a b w win, ns dt sr / 2 = 5 * 3 ^ a * 2 ^ b ∧ fftTol a b ≤ 500 / 10 ^ 8 ∧ NearFft v z (mdctTables A) a b ∧
      NearRot v z (ns dt sr / 2) ((mdctTables A).rot dt sr) ∧ (mdctTables A).win dt sr = some w ∧ (mdctTables Arith.real).win dt sr = some win ∧
      NearWin v z w win ∧ win.length = ns dt sr + nd dt sr ∧ ∀ k, |win.getD k 0| ≤ 2 := by
  have hr := rawAll_ok dt sr h
  unfold rawAll at hr
  simp only [Bool.and_eq_true, List.all_eq_true, List.mem_range] at hr
  obtain ⟨⟨⟨h3, h2⟩, hrot⟩, hwin⟩ := hr
  have htol : fftTol (fftExp dt sr).1 (fftExp dt sr).2 ≤ 500 / 10 ^ 8 := by
    unfold fftTol
    cases dt <;> cases sr <;> norm_num [fftExp]
  cases hb : rotTable dt sr with
  | none => rw [hb] at hrot; cases hrot
  | some t =>
    rw [hb] at hrot
    simp only [Bool.and_eq_true, beq_iff_eq, decide_eq_true_eq] at hrot
    cases hc : winTable dt sr with
    | none => rw [hc] at hwin; cases hwin
    | some w =>
      rw [hc] at hwin
      simp only [beq_iff_eq] at hwin
      have hR := winRange_ok dt sr
      unfold winRange at hR
      rw [hc] at hR
      simp only [Bool.and_eq_true, List.all_eq_true] at hR
      obtain ⟨hR1, hR2⟩ := hR
      have hR2 := Nat.le_of_ble_eq_true hR2
      obtain ⟨ha, hb3, hb4⟩ := rot_raw dt sr t hb
      refine ⟨_, _, scaled A w.1 w.2, scaled Arith.real w.1 w.2, fftExp_spec dt sr, htol,
        ⟨near5_of A v hA, fun i hi => nearBf3_of A v hA z _ _ (h3 i hi), fun i hi => nearBf2_of A v hA z _ _ _ (h2 i hi)⟩, ?_, ?_, ?_, ⟨?_, ?_⟩, ?_, ?_⟩
      · refine ⟨scaled A t.2.1 t.2.2, ?_, by rw [scaled_length]; omega, fun p hp => ?_⟩
        · change (rotTable dt sr).map _ = _
          rw [hb, Option.map_some, hrot.1]
        · have := rawRot_spec t.1 (rotS t.1) hb3 hb4 t ha p (by omega)
          have hm6 : ns dt sr / 2 ≤ 600 := by cases dt <;> cases sr <;> decide
          have r1 := rotN_ge (ns dt sr / 2) (by omega) hm6
          have r2 := rotN_le (ns dt sr / 2) (by omega)
          rw [hrot.1] at this
          refine (scaled_near A v hA z _ _ p (by omega) (rotE (ns dt sr / 2) p) (rotN (ns dt sr / 2)) (rotE_norm _ _).le r2 this).trans ?_
          linarith
      · change (winTable dt sr).map _ = _
        rw [hc, Option.map_some]
      · change (winTable dt sr).map _ = _
        rw [hc, Option.map_some]
      · rw [scaled_length, scaled_length]
      · intro k hk
        rw [scaled_length] at hk
        rw [scaled_getD]
        have hmem : w.2.getD k 0 ∈ w.2 := by rw [List.getD_eq_getElem _ _ hk]; exact List.getElem_mem _
        have m2 := Nat.le_of_ble_eq_true (hR1 _ hmem)
        by_cases m0 : w.2.getD k 0 = 0
        · rw [m0]
          unfold scaled
          rw [List.getD_eq_getElem _ _ (by rw [List.length_map]; exact hk), List.getElem_map]
          rw [List.getD_eq_getElem _ _ hk] at m0
          rw [m0, show dec 0 w.1 = 0 by unfold dec; exact Rat.zero_mkRat _, hA.zero]
          norm_num
        have hb1 : (1 : ℝ) ≤ |(w.2.getD k 0 : ℝ)| := by
          have : 1 ≤ (w.2.getD k 0).natAbs := by omega
          have h2 : ((1 : ℕ) : ℝ) ≤ ((w.2.getD k 0).natAbs : ℝ) := by exact_mod_cast this
          rw [Nat.cast_natAbs, Int.cast_abs] at h2
          exact_mod_cast h2
        have hb2 : |(w.2.getD k 0 : ℝ)| ≤ 2 * 10 ^ w.1 := by
          have h2 : ((w.2.getD k 0).natAbs : ℝ) ≤ ((2 * 10 ^ w.1 : ℕ) : ℝ) := by exact_mod_cast m2
          rw [Nat.cast_natAbs, Int.cast_abs] at h2
          push_cast at h2
          exact h2
        have hp : (0 : ℝ) < 10 ^ w.1 := by positivity
        have hp2 : (10 : ℝ) ^ w.1 ≤ 10 ^ 16 := pow_le_pow_right₀ (by norm_num) hR2
        have habs : |(w.2.getD k 0 : ℝ) / 10 ^ w.1| = |(w.2.getD k 0 : ℝ)| / 10 ^ w.1 := by rw [abs_div, abs_of_pos hp]
        have c1 : |(w.2.getD k 0 : ℝ) / 10 ^ w.1| ≤ 2 := by rw [habs, div_le_iff₀ hp]; exact hb2
        have c2 : 1 / 10 ^ 16 ≤ |(w.2.getD k 0 : ℝ) / 10 ^ w.1| := by
          rw [habs, div_le_div_iff₀ (by norm_num) hp]
          nlinarith
        refine (scaled_getD_gen A v hA z w.1 w.2 k hk c1).trans ?_
        linarith
      · rw [scaled_length]; exact hwin
      · intro k
        rw [scaled_getD]
        by_cases hk : k < w.2.length
        · have hmem : w.2.getD k 0 ∈ w.2 := by rw [List.getD_eq_getElem _ _ hk]; exact List.getElem_mem _
          have m2 := Nat.le_of_ble_eq_true (hR1 _ hmem)
          have hp : (0 : ℝ) < 10 ^ w.1 := by positivity
          have h2 : ((w.2.getD k 0).natAbs : ℝ) ≤ ((2 * 10 ^ w.1 : ℕ) : ℝ) := by exact_mod_cast m2
          rw [Nat.cast_natAbs, Int.cast_abs] at h2
          push_cast at h2
          rw [abs_div, abs_of_pos hp, div_le_iff₀ hp]
          exact h2
        · rw [List.getD_eq_default _ _ (by omega)]
          norm_num

/-! ### The factor of the change of rate -/

theorem nearScale_of (rnd : Rat → Rat) (he : ∀ q : Rat, |(q : ℝ)| ≤ 2 ^ 126 → |((rnd q : Rat) : ℝ) - q| ≤ (|(q : ℝ)| + 1 / 2 ^ 126) / 2 ^ 24) (sqrt : Rat → Rat) (hs : ∀ q : Rat, 0 < q → |((sqrt q : Rat) : ℝ) - Real.sqrt q| ≤ Real.sqrt q / 2 ^ 24) (n n' : ℕ)
    (hn : 10 ≤ n) (hn2 : n ≤ 1000) (hn' : 10 ≤ n') (hn'2 : n' ≤ 1000) : NearScale (Arith.rounded rnd) (fun q : Rat => (q : ℝ)) sqrt n n' := by
  have g1 : (10 : ℝ) ≤ n := by exact_mod_cast hn
  have g2 : (n : ℝ) ≤ 1000 := by exact_mod_cast hn2
  have g3 : (10 : ℝ) ≤ n' := by exact_mod_cast hn'
  have g4 : (n' : ℝ) ≤ 1000 := by exact_mod_cast hn'2
  have key : ∀ m : ℕ, 10 ≤ (m : ℝ) → (m : ℝ) ≤ 1000 → |((rnd ((m : ℤ) : Rat) : Rat) : ℝ) - m| ≤ 6 / 10 ^ 8 * m := by
    intro m m1 m2
    have := he ((m : ℤ) : Rat) (by push_cast; rw [abs_of_nonneg (by linarith)]; linarith)
    push_cast at this
    rw [abs_of_nonneg (show (0 : ℝ) ≤ (m : ℝ) by linarith)] at this
    refine this.trans ?_
    linarith
  have k1 := abs_le.mp (key n g1 g2)
  have k2 := abs_le.mp (key n' g3 g4)
  unfold NearScale
  change |((sqrt (rnd (rnd ((n' : ℤ) : Rat) / rnd ((n : ℤ) : Rat))) : Rat) : ℝ) - _| ≤ _
  generalize rnd ((n : ℤ) : Rat) = p at k1
  generalize rnd ((n' : ℤ) : Rat) = p' at k2
  have p0 : (0 : ℝ) < (p : ℝ) := by linarith
  have r0 : 0 < (n' : ℝ) / n := by positivity
  have q1 : |((p' / p : Rat) : ℝ) - (n' : ℝ) / n| ≤ 13 / 10 ^ 8 * ((n' : ℝ) / n) := by
    push_cast
    rw [div_sub_div _ _ p0.ne' (by linarith), abs_div, abs_of_pos (show (0 : ℝ) < (p : ℝ) * n by positivity), div_le_iff₀ (by positivity)]
    rw [show 13 / 10 ^ 8 * ((n' : ℝ) / n) * ((p : ℝ) * n) = 13 / 10 ^ 8 * (n' * p) by field_simp]
    rw [abs_le]
    constructor <;> nlinarith
  have q2 := abs_le.mp q1
  have r1 : (n' : ℝ) / n ≤ 100 := by rw [div_le_iff₀ (by linarith)]; linarith
  have r2 : 1 / 100 ≤ (n' : ℝ) / n := by rw [le_div_iff₀ (by linarith)]; linarith
  have fe := he (p' / p) (by rw [abs_le]; constructor <;> linarith)
  rw [abs_of_nonneg (show (0 : ℝ) ≤ ((p' / p : Rat) : ℝ) by linarith)] at fe
  generalize p' / p = s at q1 q2 fe
  have fe' := abs_le.mp fe
  have q3 : |((rnd s : Rat) : ℝ) - (n' : ℝ) / n| ≤ 2 / 10 ^ 7 * ((n' : ℝ) / n) := by
    rw [abs_le]; constructor <;> linarith
  generalize rnd s = t at q3
  generalize (n' : ℝ) / n = r at *
  have q3' := abs_le.mp q3
  have ht : (0 : ℝ) < (t : ℝ) := by linarith
  have ht' : 0 < t := by exact_mod_cast ht
  have hq := abs_le.mp (hs t ht')
  have s1 := Real.sqrt_pos.mpr ht
  have s2 := Real.sqrt_pos.mpr r0
  have e1 := Real.mul_self_sqrt ht.le
  have e2 := Real.mul_self_sqrt r0.le
  generalize Real.sqrt (t : ℝ) = a at *
  generalize Real.sqrt r = b at *
  have d1 : |a - b| ≤ 11 / 10 ^ 8 * b := by
    rw [abs_le]
    constructor
    · by_contra hc
      nlinarith
    · by_contra hc
      nlinarith
  have d1' := abs_le.mp d1
  rw [abs_le]
  constructor <;> linarith

theorem nearScale_fl (sqrt : Rat → Rat) (hs : ∀ q : Rat, 0 < q → |((sqrt q : Rat) : ℝ) - Real.sqrt q| ≤ Real.sqrt q / 2 ^ 24) (n n' : ℕ)
    (hn : 10 ≤ n) (hn2 : n ≤ 1000) (hn' : 10 ≤ n') (hn'2 : n' ≤ 1000) : NearScale (Arith.rounded fl) (fun q : Rat => (q : ℝ)) sqrt n n' :=
  nearScale_of fl fl_error_real sqrt hs n n' hn hn2 hn' hn'2

/-! ### The transforms -/

theorem fft_fl (dt : Dt) (sr : Srate) (F : List Rat → List Rat → Option (Bool × List Rat × List Rat)) (tol : ℝ) (htol : tol ≤ 500 / 10 ^ 8)
    (hO : FftOk (fun q : Rat => (q : ℝ)) 0 F (ns dt sr / 2) tol) (n : ℕ) (hn : n = ns dt sr / 2) (y0 y1 : List Rat)
    (h0 : 2 * n ≤ y0.length) (h1 : 2 * n ≤ y1.length)
    (hS : ∑ l ∈ range n, ‖(⟨y0.getD (2 * l) 0, y0.getD (2 * l + 1) 0⟩ : ℂ)‖ ≤ 2 ^ 100) :
    ∃ in0 z0 z1, F y0 y1 = some (in0, z0, z1) ∧
      ∀ k, k < n → ‖(⟨(if in0 then z0 else z1).getD (2 * k) 0, (if in0 then z0 else z1).getD (2 * k + 1) 0⟩ : ℂ) -
        ∑ l ∈ range n, (⟨y0.getD (2 * l) 0, y0.getD (2 * l + 1) 0⟩ : ℂ) * Complex.exp (-(2 * Real.pi * Complex.I * ((k * l : ℕ) / n)))‖ ≤
          5 / 10 ^ 6 * (∑ l ∈ range n, ‖(⟨y0.getD (2 * l) 0, y0.getD (2 * l + 1) 0⟩ : ℂ)‖ + 1 / 2 ^ 90) := by
  rw [← hn] at hO
  have hn6 : n ≤ 600 := by rw [hn]; cases dt <;> cases sr <;> decide
  have hnr : (n : ℝ) ≤ 600 := by exact_mod_cast hn6
  have hs : ∑ l ∈ range n, (‖vc (fun q : Rat => (q : ℝ)) (cAt 0 y0 l)‖ + 1 / 2 ^ 110) =
      ∑ l ∈ range n, ‖(⟨y0.getD (2 * l) 0, y0.getD (2 * l + 1) 0⟩ : ℂ)‖ + n * (1 / 2 ^ 110) := by
    rw [Finset.sum_add_distrib, Finset.sum_const, Finset.card_range, nsmul_eq_mul]
    rfl
  obtain ⟨in0, z0, z1, f1, f2, f3, f4⟩ := hO y0 y1 (fun l => ‖vc (fun q : Rat => (q : ℝ)) (cAt 0 y0 l)‖ + 1 / 2 ^ 110)
    (fun l _ => le_add_of_nonneg_right (by positivity)) (fun l => le_add_of_nonneg_left (norm_nonneg _)) (by rw [hs]; linarith) h0 h1
  refine ⟨in0, z0, z1, f1, fun k hk => (f4 k hk).trans ?_⟩
  rw [hs]
  have h00 : 0 ≤ ∑ l ∈ range n, ‖(⟨y0.getD (2 * l) 0, y0.getD (2 * l + 1) 0⟩ : ℂ)‖ := Finset.sum_nonneg fun _ _ => norm_nonneg _
  refine mul_le_mul (by linarith) (by linarith) (by positivity) (by norm_num)

/-- The Fourier transform of the generic code. -/
theorem fftOk_fl (dt : Dt) (sr : Srate) (h : ¬ (dt = .m7_5 ∧ sr.hr = true)) : ∃ tol : ℝ, tol ≤ 500 / 10 ^ 8 ∧
    FftOk (fun q : Rat => (q : ℝ)) 0 (fft (Arith.rounded fl) (mdctTables (Arith.rounded fl)) (ns dt sr / 2)) (ns dt sr / 2) tol := by
  obtain ⟨a, b, w, win, hm, htol, hT, _⟩ := tables_near (Arith.rounded fl) (fun q : Rat => (q : ℝ)) approx_fl 0 dt sr h
  exact ⟨_, htol, fftOk _ _ approx_fl 0 _ a b _ hm hT (htol.trans (by norm_num))⟩

/-- C68: in binary32, with the tables of the code, for every supported configuration, the Fourier transform of any vector is the exact one within
`5 10^-6` of the sum of the magnitudes. -/
theorem C68_fft (dt : Dt) (sr : Srate) (h : ¬ (dt = .m7_5 ∧ sr.hr = true)) (n : ℕ) (hn : n = ns dt sr / 2) (y0 y1 : List Rat)
    (h0 : 2 * n ≤ y0.length) (h1 : 2 * n ≤ y1.length)
    (hS : ∑ l ∈ range n, ‖(⟨y0.getD (2 * l) 0, y0.getD (2 * l + 1) 0⟩ : ℂ)‖ ≤ 2 ^ 100) :
    ∃ in0 z0 z1, fft (Arith.rounded fl) (mdctTables (Arith.rounded fl)) n y0 y1 = some (in0, z0, z1) ∧
      ∀ k, k < n → ‖(⟨(if in0 then z0 else z1).getD (2 * k) 0, (if in0 then z0 else z1).getD (2 * k + 1) 0⟩ : ℂ) -
        ∑ l ∈ range n, (⟨y0.getD (2 * l) 0, y0.getD (2 * l + 1) 0⟩ : ℂ) * Complex.exp (-(2 * Real.pi * Complex.I * ((k * l : ℕ) / n)))‖ ≤
          5 / 10 ^ 6 * (∑ l ∈ range n, ‖(⟨y0.getD (2 * l) 0, y0.getD (2 * l + 1) 0⟩ : ℂ)‖ + 1 / 2 ^ 90) := by
  obtain ⟨tol, htol, hO⟩ := fftOk_fl dt sr h
  subst hn
  exact fft_fl dt sr _ tol htol hO _ rfl y0 y1 h0 h1 hS

theorem forward_fl (F : ℕ → List Rat → List Rat → Option (Bool × List Rat × List Rat))
    (tol : ℝ) (htol : tol ≤ 500 / 10 ^ 8) (sqrt : Rat → Rat) (hs : ∀ q : Rat, 0 < q → |((sqrt q : Rat) : ℝ) - Real.sqrt q| ≤ Real.sqrt q / 2 ^ 24) (dt : Dt) (sr srDst : Srate)
    (hO : FftOk (fun q : Rat => (q : ℝ)) 0 (F (ns dt sr / 2)) (ns dt sr / 2) tol) (h : ¬ (dt = .m7_5 ∧ sr.hr = true)) (hdst : ns dt srDst ≤ ns dt sr) (win : List ℝ) (hwin : (mdctTables Arith.real).win dt sr = some win)
    (buf x d y : List Rat) (hb : ns dt sr ≤ buf.length) (hx : x.length = ns dt sr) (hd : d.length = nd dt sr) (hy : ns dt sr ≤ y.length)
    (hsum : ∑ l ∈ range (2 * ns dt sr), |win.getD l 0 * ((d ++ x).getD l 0 : Rat)| ≤ 2 ^ 99) :
    ∃ y' d', forwardWith (Arith.rounded fl) F sqrt (mdctTables (Arith.rounded fl)) dt sr srDst buf x d y = some (y', d') ∧
      ∀ k, k < ns dt srDst → |((y'.getD k 0 : Rat) : ℝ) - (if ns dt sr = ns dt srDst then 1 else Real.sqrt (ns dt srDst / ns dt sr)) *
        (Real.sqrt (2 / ns dt sr) * ∑ l ∈ range (2 * ns dt sr), (win.getD l 0 * ((d ++ x).getD l 0 : Rat)) *
          Real.cos (Real.pi / ns dt sr * (l + 1 / 2 + ns dt sr / 2) * (k + 1 / 2)))| ≤
        65 / 10 ^ 7 * ((if ns dt sr = ns dt srDst then 1 else Real.sqrt (ns dt srDst / ns dt sr)) *
          (Real.sqrt (2 / ns dt sr) * (∑ l ∈ range (2 * ns dt sr), |win.getD l 0 * ((d ++ x).getD l 0 : Rat)| + 1 / 2 ^ 80))) := by
  obtain ⟨_, _, w, win', _, _, _, hrot, hwt, hwt', hw, hwl, _⟩ := tables_near (Arith.rounded fl) (fun q : Rat => (q : ℝ)) approx_fl 0 dt sr h
  rw [hwin] at hwt'
  injection hwt' with hwt'
  subst hwt'
  have hwd : ∀ l, l < 2 * ns dt sr → windowed (nd dt sr) win (d.map (fun q : Rat => (q : ℝ))) (x.map (fun q : Rat => (q : ℝ))) l =
      win.getD l 0 * ((d ++ x).getD l 0 : Rat) := by
    intro l hl
    by_cases c0 : l < nd dt sr + ns dt sr
    · have := span_v (fun q : Rat => (q : ℝ)) 0 (nd dt sr) d x (by omega) l (by omega)
      unfold windowed
      change spanR 0 (nd dt sr) (d.map (fun q : Rat => (q : ℝ))) (x.map (fun q : Rat => (q : ℝ))) l * win.getD l 0 = _
      rw [this, mul_comm]
      unfold spanR
      congr 2
      by_cases c : l < nd dt sr
      · rw [if_pos c, List.getD_append _ _ _ _ (by omega)]
      · rw [if_neg c, List.getD_append_right _ _ _ _ (by omega), hd]
    · unfold windowed
      rw [List.getD_eq_default win 0 (by omega), mul_zero, zero_mul]
  have e1 : ∑ l ∈ range (2 * ns dt sr), |windowed (nd dt sr) win (d.map (fun q : Rat => (q : ℝ))) (x.map (fun q : Rat => (q : ℝ))) l| =
      ∑ l ∈ range (2 * ns dt sr), |win.getD l 0 * ((d ++ x).getD l 0 : Rat)| :=
    Finset.sum_congr rfl fun l hl => by rw [hwd l (Finset.mem_range.mp hl)]
  have hn6 : ns dt sr ≤ 1000 := by cases dt <;> cases sr <;> decide
  have hn10 : 10 ≤ ns dt sr := by cases dt <;> cases sr <;> decide
  have hs10 : 10 ≤ ns dt srDst := by cases dt <;> cases srDst <;> decide
  obtain ⟨y', d', f1, _, f3⟩ := forward_err (Arith.rounded fl) (fun q : Rat => (q : ℝ)) approx_fl 0 sqrt (mdctTables (Arith.rounded fl)) dt sr srDst F tol hO htol
    hrot w win hwt hw hwl hdst (fun _ => nearScale_fl sqrt hs _ _ hn10 hn6 hs10 (by omega)) buf x d y hb (by omega) (by omega) hy (by rw [e1]; exact hsum)
  refine ⟨y', d', f1, fun k hk => ?_⟩
  have := f3 k hk
  have er : rateScale Real.sqrt (ns dt sr) (ns dt srDst) = if ns dt sr = ns dt srDst then 1 else Real.sqrt (ns dt srDst / ns dt sr) := by
    unfold rateScale
    by_cases c : ns dt sr = ns dt srDst
    · rw [if_pos c, if_neg (by omega)]
    · rw [if_neg c, if_pos c]
  have em : mdct (ns dt sr) (windowed (nd dt sr) win (d.map (fun q : Rat => (q : ℝ))) (x.map (fun q : Rat => (q : ℝ)))) k =
      Real.sqrt (2 / ns dt sr) * ∑ l ∈ range (2 * ns dt sr), (win.getD l 0 * ((d ++ x).getD l 0 : Rat)) *
          Real.cos (Real.pi / ns dt sr * (l + 1 / 2 + ns dt sr / 2) * (k + 1 / 2)) := by
    unfold mdct
    congr 1
    exact Finset.sum_congr rfl fun l hl => by rw [hwd l (Finset.mem_range.mp hl)]
  rw [er, em, e1] at this
  exact this

/-- C68: in binary32, with the tables of the code, for every supported configuration, the spectrum of a frame is the modified discrete cosine transform of
the windowed samples within `6.5 10^-6` of the sum of their magnitudes; the square root of the scaling is that of IEEE 754. -/
theorem C68_forward (sqrt : Rat → Rat) (hs : ∀ q : Rat, 0 < q → |((sqrt q : Rat) : ℝ) - Real.sqrt q| ≤ Real.sqrt q / 2 ^ 24) (dt : Dt) (sr srDst : Srate)
    (h : ¬ (dt = .m7_5 ∧ sr.hr = true)) (hdst : ns dt srDst ≤ ns dt sr) (win : List ℝ) (hwin : (mdctTables Arith.real).win dt sr = some win)
    (buf x d y : List Rat) (hb : ns dt sr ≤ buf.length) (hx : x.length = ns dt sr) (hd : d.length = nd dt sr) (hy : ns dt sr ≤ y.length)
    (hsum : ∑ l ∈ range (2 * ns dt sr), |win.getD l 0 * ((d ++ x).getD l 0 : Rat)| ≤ 2 ^ 99) :
    ∃ y' d', mdctForward (Arith.rounded fl) sqrt (mdctTables (Arith.rounded fl)) dt sr srDst buf x d y = some (y', d') ∧
      ∀ k, k < ns dt srDst → |((y'.getD k 0 : Rat) : ℝ) - (if ns dt sr = ns dt srDst then 1 else Real.sqrt (ns dt srDst / ns dt sr)) *
        (Real.sqrt (2 / ns dt sr) * ∑ l ∈ range (2 * ns dt sr), (win.getD l 0 * ((d ++ x).getD l 0 : Rat)) *
          Real.cos (Real.pi / ns dt sr * (l + 1 / 2 + ns dt sr / 2) * (k + 1 / 2)))| ≤
        65 / 10 ^ 7 * ((if ns dt sr = ns dt srDst then 1 else Real.sqrt (ns dt srDst / ns dt sr)) *
          (Real.sqrt (2 / ns dt sr) * (∑ l ∈ range (2 * ns dt sr), |win.getD l 0 * ((d ++ x).getD l 0 : Rat)| + 1 / 2 ^ 80))) := by
  obtain ⟨tol, htol, hO⟩ := fftOk_fl dt sr h
  exact forward_fl (fft (Arith.rounded fl) (mdctTables (Arith.rounded fl))) tol htol sqrt hs dt sr srDst hO h hdst win hwin buf x d y hb hx hd hy hsum

theorem inverse_fl (Φ : ℕ → List Rat → List Rat → Option (Bool × List Rat × List Rat))
    (tol : ℝ) (htol : tol ≤ 500 / 10 ^ 8) (sqrt : Rat → Rat) (hs : ∀ q : Rat, 0 < q → |((sqrt q : Rat) : ℝ) - Real.sqrt q| ≤ Real.sqrt q / 2 ^ 24) (dt : Dt) (sr srSrc : Srate)
    (hO : FftOk (fun q : Rat => (q : ℝ)) 0 (Φ (ns dt sr / 2)) (ns dt sr / 2) tol) (h : ¬ (dt = .m7_5 ∧ sr.hr = true)) (win : List ℝ) (hwin : (mdctTables Arith.real).win dt sr = some win)
    (buf : List Rat) (x : Option (List Rat)) (d y : List Rat) (hb : ns dt sr ≤ buf.length) (hx : ∀ l, x = some l → ns dt sr ≤ l.length)
    (hd : nd dt sr ≤ d.length) (hy : ns dt sr ≤ y.length) (X : ℕ → ℝ) (hX : ∀ k, k < ns dt sr → X k = ((x.getD y).getD k 0 : Rat))
    (hsum : ∑ k ∈ range (ns dt sr), |X k| ≤ 2 ^ 90) (hdb : ∀ k, k < nd dt sr → |((d.getD k 0 : Rat) : ℝ)| ≤ 2 ^ 100) (F S : ℝ)
    (hF : F = if ns dt sr = ns dt srSrc then 1 else Real.sqrt (ns dt sr / ns dt srSrc))
    (hS : S = F * (Real.sqrt (2 / ns dt sr) * (∑ k ∈ range (ns dt sr), |X k| + 1 / 2 ^ 80))) :
    ∃ y' d', inverseWith (Arith.rounded fl) Φ sqrt (mdctTables (Arith.rounded fl)) dt sr srSrc buf x d y = some (y', d') ∧
      (∀ k, k < ns dt sr → |((y'.getD k 0 : Rat) : ℝ) - ((if k < nd dt sr then ((d.getD k 0 : Rat) : ℝ) else 0) +
          win.getD (ns dt sr + nd dt sr - 1 - k) 0 * (F * (Real.sqrt (2 / ns dt sr) * ∑ j ∈ range (ns dt sr), X j *
            Real.cos (Real.pi / ns dt sr * ((ns dt sr - nd dt sr + k : ℕ) + 1 / 2 + ns dt sr / 2) * (j + 1 / 2)))))| ≤
        7 / 10 ^ 6 * (|win.getD (ns dt sr + nd dt sr - 1 - k) 0| * S) + 6 / 10 ^ 8 * |if k < nd dt sr then ((d.getD k 0 : Rat) : ℝ) else 0| + 1 / 2 ^ 140) ∧
      (∀ k, k < nd dt sr → |((d'.getD k 0 : Rat) : ℝ) - win.getD (nd dt sr - 1 - k) 0 * (F * (Real.sqrt (2 / ns dt sr) * ∑ j ∈ range (ns dt sr), X j *
            Real.cos (Real.pi / ns dt sr * ((2 * ns dt sr - nd dt sr + k : ℕ) + 1 / 2 + ns dt sr / 2) * (j + 1 / 2))))| ≤
        7 / 10 ^ 6 * (|win.getD (nd dt sr - 1 - k) 0| * S) + 1 / 2 ^ 140) := by
  obtain ⟨_, _, w, win', _, _, _, hrot, hwt, hwt', hw, hwl, hw2⟩ := tables_near (Arith.rounded fl) (fun q : Rat => (q : ℝ)) approx_fl 0 dt sr h
  rw [hwin] at hwt'
  injection hwt' with hwt'
  subst hwt'
  have hn6 : ns dt sr ≤ 1000 := by cases dt <;> cases sr <;> decide
  have hn10 : 10 ≤ ns dt sr := by cases dt <;> cases sr <;> decide
  have hs6 : ns dt srSrc ≤ 1000 := by cases dt <;> cases srSrc <;> decide
  have hs10 : 10 ≤ ns dt srSrc := by cases dt <;> cases srSrc <;> decide
  have er : F = rateScale Real.sqrt (ns dt srSrc) (ns dt sr) := by
    rw [hF]
    unfold rateScale
    by_cases c : ns dt sr = ns dt srSrc
    · rw [if_pos c, if_neg (by omega)]
    · rw [if_neg c, if_pos (by omega)]
  obtain ⟨y', d', f1, _, _, f3, f4⟩ := inverse_err (Arith.rounded fl) (fun q : Rat => (q : ℝ)) approx_fl 0 sqrt (mdctTables (Arith.rounded fl)) dt sr srSrc Φ tol hO
    htol hrot w win hwt hw hw2 hwl (fun _ => nearScale_fl sqrt hs _ _ hs10 hs6 hn10 hn6) buf x d y hb hx hd hy X hX (hsum.trans (by norm_num)) hdb F S er hS
  exact ⟨y', d', f1, f3, f4⟩

/-- C68: likewise for the synthesis, in place or not: each output sample is the sum of the delayed one and of the windowed sample of the exact inverse
transform, within `7 10^-6` of the sum of the magnitudes of the spectrum, and half a unit in the last place of the delayed one; the delayed samples of the
next frame likewise. -/
theorem C68_inverse (sqrt : Rat → Rat) (hs : ∀ q : Rat, 0 < q → |((sqrt q : Rat) : ℝ) - Real.sqrt q| ≤ Real.sqrt q / 2 ^ 24) (dt : Dt) (sr srSrc : Srate)
    (h : ¬ (dt = .m7_5 ∧ sr.hr = true)) (win : List ℝ) (hwin : (mdctTables Arith.real).win dt sr = some win)
    (buf : List Rat) (x : Option (List Rat)) (d y : List Rat) (hb : ns dt sr ≤ buf.length) (hx : ∀ l, x = some l → ns dt sr ≤ l.length)
    (hd : nd dt sr ≤ d.length) (hy : ns dt sr ≤ y.length) (X : ℕ → ℝ) (hX : ∀ k, k < ns dt sr → X k = ((x.getD y).getD k 0 : Rat))
    (hsum : ∑ k ∈ range (ns dt sr), |X k| ≤ 2 ^ 90) (hdb : ∀ k, k < nd dt sr → |((d.getD k 0 : Rat) : ℝ)| ≤ 2 ^ 100) (F S : ℝ)
    (hF : F = if ns dt sr = ns dt srSrc then 1 else Real.sqrt (ns dt sr / ns dt srSrc))
    (hS : S = F * (Real.sqrt (2 / ns dt sr) * (∑ k ∈ range (ns dt sr), |X k| + 1 / 2 ^ 80))) :
    ∃ y' d', mdctInverse (Arith.rounded fl) sqrt (mdctTables (Arith.rounded fl)) dt sr srSrc buf x d y = some (y', d') ∧
      (∀ k, k < ns dt sr → |((y'.getD k 0 : Rat) : ℝ) - ((if k < nd dt sr then ((d.getD k 0 : Rat) : ℝ) else 0) +
          win.getD (ns dt sr + nd dt sr - 1 - k) 0 * (F * (Real.sqrt (2 / ns dt sr) * ∑ j ∈ range (ns dt sr), X j *
            Real.cos (Real.pi / ns dt sr * ((ns dt sr - nd dt sr + k : ℕ) + 1 / 2 + ns dt sr / 2) * (j + 1 / 2)))))| ≤
        7 / 10 ^ 6 * (|win.getD (ns dt sr + nd dt sr - 1 - k) 0| * S) + 6 / 10 ^ 8 * |if k < nd dt sr then ((d.getD k 0 : Rat) : ℝ) else 0| + 1 / 2 ^ 140) ∧
      (∀ k, k < nd dt sr → |((d'.getD k 0 : Rat) : ℝ) - win.getD (nd dt sr - 1 - k) 0 * (F * (Real.sqrt (2 / ns dt sr) * ∑ j ∈ range (ns dt sr), X j *
            Real.cos (Real.pi / ns dt sr * ((2 * ns dt sr - nd dt sr + k : ℕ) + 1 / 2 + ns dt sr / 2) * (j + 1 / 2))))| ≤
        7 / 10 ^ 6 * (|win.getD (nd dt sr - 1 - k) 0| * S) + 1 / 2 ^ 140) := by
  obtain ⟨tol, htol, hO⟩ := fftOk_fl dt sr h
  exact inverse_fl (fft (Arith.rounded fl) (mdctTables (Arith.rounded fl))) tol htol sqrt hs dt sr srSrc hO h win hwin buf x d y hb hx hd hy X hX hsum hdb F S hF hS

/-! ### Concrete cases -/

/-- A square root that meets the hypothesis exists: the reals are approached by the rationals. -/
theorem sqrt_exists : ∃ sqrt : Rat → Rat, ∀ q : Rat, 0 < q → |((sqrt q : Rat) : ℝ) - Real.sqrt q| ≤ Real.sqrt q / 2 ^ 24 := by
  have : ∀ q : Rat, ∃ s : Rat, 0 < q → |((s : Rat) : ℝ) - Real.sqrt q| ≤ Real.sqrt q / 2 ^ 24 := by
    intro q
    by_cases hq : 0 < q
    · have hq' : (0 : ℝ) < q := by exact_mod_cast hq
      have hp := Real.sqrt_pos.mpr hq'
      obtain ⟨s, s1, s2⟩ := exists_rat_btwn (show Real.sqrt q < Real.sqrt q + Real.sqrt q / 2 ^ 24 by linarith [div_pos hp (show (0 : ℝ) < 2 ^ 24 by norm_num)])
      refine ⟨s, fun _ => ?_⟩
      rw [abs_of_pos (by linarith)]
      linarith
    · exact ⟨0, fun h => absurd h hq⟩
  exact ⟨fun q => (this q).choose, fun q => (this q).choose_spec⟩

/-- C68: frames of constant samples, at 48 kHz. -/
example : ∃ win, (mdctTables Arith.real).win .m10 .k48 = some win ∧
    ∑ l ∈ range (2 * ns .m10 .k48), |win.getD l 0 * ((List.replicate (nd .m10 .k48) (1000 : Rat) ++ List.replicate (ns .m10 .k48) 1000).getD l 0 : Rat)| ≤ 2 ^ 99 := by
  obtain ⟨_, _, _, win, _, _, _, _, _, hw, _, _, h2⟩ := tables_near (Arith.rounded fl) (fun q : Rat => (q : ℝ)) approx_fl 0 .m10 .k48 (by decide)
  refine ⟨win, hw, ?_⟩
  refine (Finset.sum_le_sum (g := fun _ => (2000 : ℝ)) fun l _ => ?_).trans ?_
  · rw [← List.replicate_add, abs_mul]
    have : |((List.replicate (nd .m10 .k48 + ns .m10 .k48) (1000 : Rat)).getD l 0 : Rat)| ≤ (1000 : Rat) := by
      by_cases hl : l < nd .m10 .k48 + ns .m10 .k48
      · rw [List.getD_replicate _ hl]; norm_num
      · rw [List.getD_eq_default _ _ (by rw [List.length_replicate]; omega)]; norm_num
    have h3 : |(((List.replicate (nd .m10 .k48 + ns .m10 .k48) (1000 : Rat)).getD l 0 : Rat) : ℝ)| ≤ 1000 := by exact_mod_cast this
    have := mul_le_mul (h2 l) h3 (abs_nonneg _) (by norm_num)
    linarith
  · rw [Finset.sum_const, Finset.card_range, nsmul_eq_mul]
    rw [show ns .m10 .k48 = 480 from rfl]
    norm_num

end LC3
