import Verif.Lemmas.Twiddle
import Verif.Props.Mdct

/-!
Accuracy of the tables of the transforms, `src/tables.c`.
-/

set_option maxRecDepth 100000

namespace LC3
open Complex

/-- The fourth roots of `1 / n4`, in fixed point. -/
def rotS : Nat → Nat
  | 10 => 10373366507857047691
  | 20 => 8722926710569934679
  | 30 => 7882054053012826022
  | 40 => 7335077801439134043
  | 60 => 6627990998014497093
  | 80 => 6168040628837265570
  | 90 => 5989065945713914652
  | 120 => 5573453870564280430
  | 160 => 5186683253928523845
  | 180 => 5036184084468928576
  | 240 => 4686697380339443743
  | 480 => 3941027026506413011
  | _ => 0

def allBf2 : Bool := (List.range 5).all fun i => (List.range 3).all fun j => match bf2Table i j with
  | some t => rawTw2 t.1 t && Nat.ble 5 t.1 && Nat.ble t.1 1000
  | none => true

def allBf3 : Bool := (List.range 2).all fun i => match bf3Table i with
  | some t => rawTw3 t.1 t && Nat.ble 5 t.1 && Nat.ble t.1 100
  | none => true

def allRot (dt : Dt) (sr : Srate) : Bool := match rotTable dt sr with
  | some t => rawRot t.1 (rotS t.1) t && Nat.ble 3 t.1 && Nat.ble t.1 1000
  | none => true

theorem allBf2_ok : allBf2 = true := by decide +kernel
theorem allBf3_ok : allBf3 = true := by decide +kernel
theorem allRot_ok (dt : Dt) (sr : Srate) : allRot dt sr = true := by cases dt <;> cases sr <;> decide +kernel

theorem bf2Table_range (i j : Nat) (t) (h : bf2Table i j = some t) : i < 5 ∧ j < 3 := by
  unfold bf2Table at h
  split at h <;> first | omega | cases h

theorem bf3Table_range (i : Nat) (t) (h : bf3Table i = some t) : i < 2 := by
  unfold bf3Table at h
  split at h <;> first | omega | cases h

theorem bf2_raw (i j : Nat) (t) (h : bf2Table i j = some t) : rawTw2 t.1 t = true ∧ 5 ≤ t.1 ∧ t.1 ≤ 1000 := by
  obtain ⟨hi, hj⟩ := bf2Table_range i j t h
  have := allBf2_ok
  unfold allBf2 at this
  rw [List.all_eq_true] at this
  have := this i (List.mem_range.mpr hi)
  rw [List.all_eq_true] at this
  have := this j (List.mem_range.mpr hj)
  rw [h] at this
  simp only [Bool.and_eq_true] at this
  exact ⟨this.1.1, Nat.le_of_ble_eq_true this.1.2, Nat.le_of_ble_eq_true this.2⟩

theorem bf3_raw (i : Nat) (t) (h : bf3Table i = some t) : rawTw3 t.1 t = true ∧ 5 ≤ t.1 ∧ t.1 ≤ 100 := by
  have hi := bf3Table_range i t h
  have := allBf3_ok
  unfold allBf3 at this
  rw [List.all_eq_true] at this
  have := this i (List.mem_range.mpr hi)
  rw [h] at this
  simp only [Bool.and_eq_true] at this
  exact ⟨this.1.1, Nat.le_of_ble_eq_true this.1.2, Nat.le_of_ble_eq_true this.2⟩

theorem rot_raw (dt : Dt) (sr : Srate) (t) (h : rotTable dt sr = some t) : rawRot t.1 (rotS t.1) t = true ∧ 3 ≤ t.1 ∧ t.1 ≤ 1000 := by
  have := allRot_ok dt sr
  unfold allRot at this
  rw [h] at this
  simp only [Bool.and_eq_true] at this
  exact ⟨this.1.1, Nat.le_of_ble_eq_true this.1.2, Nat.le_of_ble_eq_true this.2⟩

theorem dec_real (m : Int) (e : Nat) : ((dec m e : Rat) : ℝ) = (m : ℝ) / 10 ^ e := by
  unfold dec
  rw [Rat.mkRat_eq_div]
  push_cast
  rfl

theorem scaled_getD (e : Nat) (l : List Int) (k : ℕ) : (scaled Arith.real e l).getD k 0 = (l.getD k 0 : ℝ) / 10 ^ e := by
  unfold scaled
  by_cases hk : k < l.length
  · rw [List.getD_eq_getElem _ _ (by rw [List.length_map]; exact hk), List.getElem_map, List.getD_eq_getElem _ _ hk]
    exact dec_real _ _
  · rw [List.getD_eq_default _ _ (by rw [List.length_map]; omega), List.getD_eq_default _ _ (by omega)]
    simp

theorem cplx_scaled (e : Nat) (l : List Int) (k : ℕ) : cplx (scaled Arith.real e l) k = decC e l k := by
  unfold cplx decC
  rw [scaled_getD, scaled_getD]

/-- C37: each twiddle factor of the 2 points butterflies of the tables is the root of unity within `1.2 10^-8`. -/
theorem C37_twiddles_bf2 (i j n : ℕ) (w : List ℝ) (h : (mdctTables Arith.real).bf2 i j = some (n, w)) (k : ℕ) (hk : k < n) :
    ‖(⟨w.getD (2 * k) 0, w.getD (2 * k + 1) 0⟩ : ℂ) - Complex.exp (-(2 * Real.pi * I * (k / (2 * n : ℕ))))‖ ≤ 12 / 10 ^ 9 := by
  change (bf2Table i j).map _ = _ at h
  cases ht : bf2Table i j with
  | none => rw [ht] at h; cases h
  | some t =>
    rw [ht, Option.map_some] at h
    injection h with h
    injection h with h1 h2
    obtain ⟨a, b, c⟩ := bf2_raw i j t ht
    have := rawTw2_spec t.1 b c t a k (by omega)
    rw [h1, ← cplx_scaled, h2] at this
    exact this

/-- C37: likewise for the two twiddle factors of each 3 points butterfly. -/
theorem C37_twiddles_bf3 (i n : ℕ) (w : List ℝ) (h : (mdctTables Arith.real).bf3 i = some (n, w)) (k : ℕ) (hk : k < 3 * n) :
    ‖(⟨w.getD (4 * k) 0, w.getD (4 * k + 1) 0⟩ : ℂ) - Complex.exp (-(2 * Real.pi * I * (k / (3 * n : ℕ))))‖ ≤ 12 / 10 ^ 9 ∧
    ‖(⟨w.getD (4 * k + 2) 0, w.getD (4 * k + 3) 0⟩ : ℂ) - Complex.exp (-(2 * Real.pi * I * ((2 * k : ℕ) / (3 * n : ℕ))))‖ ≤ 12 / 10 ^ 9 := by
  change (bf3Table i).map _ = _ at h
  cases ht : bf3Table i with
  | none => rw [ht] at h; cases h
  | some t =>
    rw [ht, Option.map_some] at h
    injection h with h
    injection h with h1 h2
    obtain ⟨a, b, c⟩ := bf3_raw i t ht
    have := rawTw3_spec t.1 b c t a k (by omega)
    rw [h1, ← cplx_scaled, ← cplx_scaled, h2] at this
    unfold cplx at this
    rw [show 2 * (2 * k) = 4 * k by omega, show 2 * (2 * k + 1) = 4 * k + 2 by omega] at this
    exact this

/-- C37: likewise for the rotations, of a magnitude less than 1. -/
theorem C37_rotations (dt : Dt) (sr : Srate) (n : ℕ) (w : List ℝ) (h : (mdctTables Arith.real).rot dt sr = some (n, w)) (p : ℕ) (hp : p < n) :
    ‖(⟨w.getD (2 * p) 0, w.getD (2 * p + 1) 0⟩ : ℂ) -
      (Real.sqrt (Real.sqrt (2 / (2 * n : ℕ))) : ℂ) * Complex.exp (Real.pi * ((p : ℂ) + 1 / 8) / (2 * n : ℕ) * I)‖ ≤ 12 / 10 ^ 9 := by
  change (rotTable dt sr).map _ = _ at h
  cases ht : rotTable dt sr with
  | none => rw [ht] at h; cases h
  | some t =>
    rw [ht, Option.map_some] at h
    injection h with h
    injection h with h1 h2
    obtain ⟨a, b, c⟩ := rot_raw dt sr t ht
    have := rawRot_spec t.1 (rotS t.1) b c t a p (by omega)
    rw [h1, ← cplx_scaled, h2] at this
    exact this

/-- The powers of the root of order 10, for the constants of `fft_5`. -/
def fiveTw : Bool :=
  let c := sqI 1 (conjI (rootI 10))
  let d := sqI 2 (conjI (rootI 10))
  nearI 10 3090169944 c.1 && nearI 10 (-9510565163) c.2 && nearI 10 (-8090169944) d.1 && nearI 10 (-5877852523) d.2

theorem fiveTw_ok : fiveTw = true := by decide +kernel

theorem near_five (m c : Int) (x b : ℝ) (h : nearI 10 m c = true) (hb : |(c : ℝ) / 2 ^ 64 - x| ≤ b) : |((dec m 10 : Rat) : ℝ) - x| ≤ 51 / 10 ^ 10 + b := by
  have := nearI_spec _ _ _ h
  rw [dec_real]
  rw [show (m : ℝ) / 10 ^ 10 - x = ((m : ℝ) / 10 ^ 10 - (c : ℝ) / 2 ^ 64) + ((c : ℝ) / 2 ^ 64 - x) by ring]
  exact (abs_add_le _ _).trans (add_le_add this hb)

/-- C37: the constants of the transforms of 5 points. -/
theorem C37_constants : |(mdctTables Arith.real).cos1 - Real.cos (2 * Real.pi / 5)| ≤ 6 / 10 ^ 9 ∧
    |(mdctTables Arith.real).cos2 - Real.cos (4 * Real.pi / 5)| ≤ 6 / 10 ^ 9 ∧
    |(mdctTables Arith.real).sin1 + Real.sin (2 * Real.pi / 5)| ≤ 6 / 10 ^ 9 ∧
    |(mdctTables Arith.real).sin2 + Real.sin (4 * Real.pi / 5)| ≤ 6 / 10 ^ 9 := by
  have h := fiveTw_ok
  unfold fiveTw at h
  simp only [Bool.and_eq_true] at h
  obtain ⟨⟨⟨h1, h2⟩, h3⟩, h4⟩ := h
  have e0 := conj_err 10 (by omega)
  have n1 := (W_norm 10 1).le
  have e1 : ‖fx (sqI 1 (conjI (rootI 10))) - W 5 1‖ ≤ 1 / 2 ^ 39 := by
    have := cmulI_err _ _ _ _ _ _ n1 n1 e0 e0
    rw [← W_add, show W 10 (1 + 1) = W 5 1 from W_scale 2 5 1 (by decide)] at this
    exact this.trans (by norm_num)
  have e2 : ‖fx (sqI 2 (conjI (rootI 10))) - W 5 2‖ ≤ 1 / 2 ^ 37 := by
    have := cmulI_err _ _ _ _ _ _ (W_norm 5 1).le (W_norm 5 1).le e1 e1
    rw [← W_add] at this
    exact this.trans (by norm_num)
  have r : ∀ (a : Int × Int) (z : ℂ) (b : ℝ), ‖fx a - z‖ ≤ b → |(a.1 : ℝ) / 2 ^ 64 - z.re| ≤ b ∧ |(a.2 : ℝ) / 2 ^ 64 - z.im| ≤ b := by
    intro a z b hb
    exact ⟨(Complex.abs_re_le_norm _).trans hb, (Complex.abs_im_le_norm _).trans hb⟩
  obtain ⟨a1, a2⟩ := r _ _ _ e1
  obtain ⟨a3, a4⟩ := r _ _ _ e2
  rw [W_re, show 2 * Real.pi * (((1 : ℕ) : ℝ) / ((5 : ℕ) : ℝ)) = 2 * Real.pi / 5 by push_cast; ring] at a1
  rw [W_im, show 2 * Real.pi * (((1 : ℕ) : ℝ) / ((5 : ℕ) : ℝ)) = 2 * Real.pi / 5 by push_cast; ring] at a2
  rw [W_re, show 2 * Real.pi * (((2 : ℕ) : ℝ) / ((5 : ℕ) : ℝ)) = 4 * Real.pi / 5 by push_cast; ring] at a3
  rw [W_im, show 2 * Real.pi * (((2 : ℕ) : ℝ) / ((5 : ℕ) : ℝ)) = 4 * Real.pi / 5 by push_cast; ring] at a4
  have b1 := near_five _ _ _ _ h1 a1
  have b2 := near_five _ _ _ _ h2 a2
  have b3 := near_five _ _ _ _ h3 a3
  have b4 := near_five _ _ _ _ h4 a4
  rw [sub_neg_eq_add] at b2 b4
  exact ⟨b1.trans (by norm_num), b3.trans (by norm_num), b2.trans (by norm_num), b4.trans (by norm_num)⟩

/-- The tables of the largest transform. -/
example : ∃ w, (mdctTables Arith.real).bf2 4 1 = some (240, w) := ⟨_, rfl⟩
example : ∃ w, (mdctTables Arith.real).rot .m10 .k96hr = some (480, w) := ⟨_, rfl⟩

end LC3
