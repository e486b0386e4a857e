import Verif.Lemmas.RoundF
import Verif.Lemmas.Tdac
import Verif.Props.Accuracy

/-! The output of the inverse transform is bounded. -/

namespace LC3
open Finset

/-- The square root of the mathematical library. -/
def SqrtNear (sqrt : Rat → Rat) : Prop := ∀ q : Rat, 0 < q → |((sqrt q : Rat) : ℝ) - Real.sqrt q| ≤ Real.sqrt q / 2 ^ 24

/-- The output of the inverse transform, from the sum of the magnitudes of the spectrum and the greatest delayed sample. -/
theorem mdctInverse_fine {rnd : Rat → Rat} (h : RoundF rnd) (sqrt : Rat → Rat) (hs : SqrtNear sqrt) (dt : Dt) (sr srSrc : Srate)
    (hc : ¬ (dt = .m7_5 ∧ sr.hr = true)) (buf : List Rat) (x : Option (List Rat)) (d y : List Rat) (hb : ns dt sr ≤ buf.length)
    (hx : ∀ l, x = some l → ns dt sr ≤ l.length) (hd : nd dt sr ≤ d.length) (hy : ns dt sr ≤ y.length)
    (S D : Rat) (hS : S ≤ 2 ^ 98) (hD : D ≤ 2 ^ 100) (hD0 : 0 ≤ D)
    (hsum : ∑ k ∈ range (ns dt sr), |(x.getD y).getD k 0| ≤ S) (hdb : ∀ k, k < nd dt sr → |d.getD k 0| ≤ D) :
    ∃ y' d', mdctInverse (Arith.rounded rnd) sqrt (mdctTables (Arith.rounded rnd)) dt sr srSrc buf x d y = some (y', d') ∧ y'.length = y.length ∧
      d'.length = d.length ∧ (∀ k, k < ns dt sr → |y'.getD k 0| ≤ 1001 / 1000 * D + 2001 / 1000 * S + 1 / 2 ^ 70) ∧
      (∀ k, k < nd dt sr → |d'.getD k 0| ≤ 2001 / 1000 * S + 1 / 2 ^ 70) := by
  obtain ⟨a, b, w, win, hm, htol, hT, hrot, hwt, _, hw, hwl, hw2⟩ := tables_near (Arith.rounded rnd) (fun q : Rat => (q : ℝ)) h.approx 0 dt sr hc
  have hO := fftOk _ _ h.approx 0 _ a b _ hm hT (htol.trans (by norm_num))
  have hn6 : ns dt sr ≤ 1000 := by cases dt <;> cases sr <;> decide
  have hn10 : 10 ≤ ns dt sr := by cases dt <;> cases sr <;> decide
  have hs6 : ns dt srSrc ≤ 1000 := by cases dt <;> cases srSrc <;> decide
  have hs10 : 10 ≤ ns dt srSrc := by cases dt <;> cases srSrc <;> decide
  have q2 : (10 : ℝ) ≤ ((ns dt sr : ℕ) : ℝ) := by exact_mod_cast hn10
  have q4 : (10 : ℝ) ≤ ((ns dt srSrc : ℕ) : ℝ) := by exact_mod_cast hs10
  have hsum' : ∑ k ∈ range (ns dt sr), |(((x.getD y).getD k 0 : Rat) : ℝ)| ≤ (S : ℝ) := by
    have : ((∑ k ∈ range (ns dt sr), |(x.getD y).getD k 0| : Rat) : ℝ) ≤ ((S : Rat) : ℝ) := by exact_mod_cast hsum
    push_cast at this
    exact this
  have hdb' : ∀ k, k < nd dt sr → |((d.getD k 0 : Rat) : ℝ)| ≤ (D : ℝ) := by
    intro k hk
    have : ((|d.getD k 0| : Rat) : ℝ) ≤ ((D : Rat) : ℝ) := by exact_mod_cast hdb k hk
    push_cast at this
    exact this
  have hS' : (S : ℝ) ≤ 2 ^ 98 := by
    have : ((S : Rat) : ℝ) ≤ ((2 ^ 98 : Rat) : ℝ) := by exact_mod_cast hS
    push_cast at this
    exact this
  have hD' : (D : ℝ) ≤ 2 ^ 100 := by
    have : ((D : Rat) : ℝ) ≤ ((2 ^ 100 : Rat) : ℝ) := by exact_mod_cast hD
    push_cast at this
    exact this
  have hD0' : (0 : ℝ) ≤ D := by exact_mod_cast hD0
  obtain ⟨F, hF⟩ : ∃ F, F = rateScale Real.sqrt (ns dt srSrc) (ns dt sr) := ⟨_, rfl⟩
  obtain ⟨y', d', e1, e2, e3, e4, e5⟩ := inverse_err (Arith.rounded rnd) (fun q : Rat => (q : ℝ)) h.approx 0 sqrt (mdctTables (Arith.rounded rnd)) dt sr srSrc
    (fft (Arith.rounded rnd) (mdctTables (Arith.rounded rnd))) _ hO htol hrot w win hwt hw hw2 hwl
    (fun _ => nearScale_of rnd h.real sqrt hs _ _ hs10 hs6 hn10 hn6) buf x d y hb hx hd hy (fun k => (((x.getD y).getD k 0 : Rat) : ℝ)) (fun _ _ => rfl)
    ((hsum'.trans hS').trans (by norm_num)) (fun k hk => (hdb' k hk).trans hD') F _ hF rfl
  obtain ⟨h4, -, hnd, -, -⟩ := mdct_shape dt sr
  have hS0 : 0 ≤ ∑ k ∈ range (ns dt sr), |(((x.getD y).getD k 0 : Rat) : ℝ)| := Finset.sum_nonneg fun _ _ => abs_nonneg _
  have hF0 : 0 ≤ F := by
    rw [hF]; unfold rateScale
    split
    · exact Real.sqrt_nonneg _
    · norm_num
  have hFq : F * Real.sqrt (2 / ns dt sr) ≤ 1 := by
    rw [hF]; unfold rateScale
    split
    · rw [← Real.sqrt_mul (by positivity), div_mul_div_comm, mul_comm ((ns dt srSrc : ℕ) : ℝ), mul_div_mul_left _ _ (by linarith), Real.sqrt_le_left (by norm_num),
        div_le_iff₀ (by linarith)]
      linarith
    · rw [one_mul, Real.sqrt_le_left (by norm_num), div_le_iff₀ (by linarith)]
      linarith
  have hi : ∀ l, |F * imdct (ns dt sr) (fun k => (((x.getD y).getD k 0 : Rat) : ℝ)) l| ≤ (S : ℝ) := by
    intro l
    rw [abs_mul, abs_of_nonneg hF0]
    have h1 := mul_le_mul_of_nonneg_left (imdct_le (ns dt sr) (fun k => (((x.getD y).getD k 0 : Rat) : ℝ)) h4 l) hF0
    rw [← mul_assoc] at h1
    refine h1.trans ?_
    calc _ ≤ 1 * (S : ℝ) := mul_le_mul hFq hsum' hS0 (by norm_num)
      _ = S := one_mul _
  have hS0' : (0 : ℝ) ≤ S := hS0.trans hsum'
  obtain ⟨B, hB⟩ : ∃ B, B = F * (Real.sqrt (2 / ns dt sr) * (∑ k ∈ range (ns dt sr), |(((x.getD y).getD k 0 : Rat) : ℝ)| + 1 / 2 ^ 80)) := ⟨_, rfl⟩
  have hB0 : 0 ≤ B := by rw [hB]; have := Real.sqrt_nonneg (2 / (ns dt sr : ℝ)); positivity
  have hB1 : B ≤ S + 1 / 2 ^ 80 := by
    rw [hB, ← mul_assoc]
    calc _ ≤ 1 * ((S : ℝ) + 1 / 2 ^ 80) := mul_le_mul hFq (by linarith) (by positivity) (by norm_num)
      _ = S + 1 / 2 ^ 80 := one_mul _
  rw [← hB] at e4 e5
  have term : ∀ j l, |win.getD j 0 * (F * imdct (ns dt sr) (fun k => (((x.getD y).getD k 0 : Rat) : ℝ)) l)| ≤ 2 * S := by
    intro j l
    rw [abs_mul]
    exact mul_le_mul (hw2 j) (hi l) (abs_nonneg _) (by norm_num)
  have werr : ∀ j, |win.getD j 0| * B ≤ 2 * (S + 1 / 2 ^ 80) := fun j => mul_le_mul (hw2 j) hB1 hB0 (by norm_num)
  refine ⟨y', d', e1, e2, e3, fun k hk => ?_, fun k hk => ?_⟩
  · have h1 := e4 k hk
    have h2 : |if k < nd dt sr then ((d.getD k 0 : Rat) : ℝ) else 0| ≤ (D : ℝ) := by
      split
      · rename_i hk2; exact hdb' k hk2
      · rw [abs_zero]; exact hD0'
    have h3 := abs_add_le (if k < nd dt sr then ((d.getD k 0 : Rat) : ℝ) else 0) (win.getD (ns dt sr + nd dt sr - 1 - k) 0 * (F * imdct (ns dt sr) (fun k => (((x.getD y).getD k 0 : Rat) : ℝ)) (ns dt sr - nd dt sr + k)))
    have h4 := term (ns dt sr + nd dt sr - 1 - k) (ns dt sr - nd dt sr + k)
    have h5 := werr (ns dt sr + nd dt sr - 1 - k)
    have h6 : |((y'.getD k 0 : Rat) : ℝ)| ≤ 1001 / 1000 * D + 2001 / 1000 * S + 1 / 2 ^ 70 := by
      have h7 := abs_add_le (((y'.getD k 0 : Rat) : ℝ) - ((if k < nd dt sr then ((d.getD k 0 : Rat) : ℝ) else 0) + win.getD (ns dt sr + nd dt sr - 1 - k) 0 * (F * imdct (ns dt sr) (fun k => (((x.getD y).getD k 0 : Rat) : ℝ)) (ns dt sr - nd dt sr + k))))
        ((if k < nd dt sr then ((d.getD k 0 : Rat) : ℝ) else 0) + win.getD (ns dt sr + nd dt sr - 1 - k) 0 * (F * imdct (ns dt sr) (fun k => (((x.getD y).getD k 0 : Rat) : ℝ)) (ns dt sr - nd dt sr + k)))
      rw [sub_add_cancel] at h7
      norm_num at h1 h2 h3 h4 h5 h7 ⊢
      linarith
    have : ((|y'.getD k 0| : Rat) : ℝ) ≤ ((1001 / 1000 * D + 2001 / 1000 * S + 1 / 2 ^ 70 : Rat) : ℝ) := by push_cast; exact h6
    exact_mod_cast this
  · have h1 := e5 k hk
    have h4 := term (nd dt sr - 1 - k) (2 * ns dt sr - nd dt sr + k)
    have h5 := werr (nd dt sr - 1 - k)
    have h6 : |((d'.getD k 0 : Rat) : ℝ)| ≤ 2001 / 1000 * S + 1 / 2 ^ 70 := by
      have h7 := abs_add_le (((d'.getD k 0 : Rat) : ℝ) - win.getD (nd dt sr - 1 - k) 0 * (F * imdct (ns dt sr) (fun k => (((x.getD y).getD k 0 : Rat) : ℝ)) (2 * ns dt sr - nd dt sr + k)))
        (win.getD (nd dt sr - 1 - k) 0 * (F * imdct (ns dt sr) (fun k => (((x.getD y).getD k 0 : Rat) : ℝ)) (2 * ns dt sr - nd dt sr + k)))
      rw [sub_add_cancel] at h7
      norm_num at h1 h4 h5 h7 ⊢
      linarith
    have : ((|d'.getD k 0| : Rat) : ℝ) ≤ ((2001 / 1000 * S + 1 / 2 ^ 70 : Rat) : ℝ) := by push_cast; exact h6
    exact_mod_cast this

theorem mdctInverse_bound {rnd : Rat → Rat} (h : RoundF rnd) (sqrt : Rat → Rat) (hs : SqrtNear sqrt) (dt : Dt) (sr srSrc : Srate)
    (hc : ¬ (dt = .m7_5 ∧ sr.hr = true)) (buf : List Rat) (x : Option (List Rat)) (d y : List Rat) (hb : ns dt sr ≤ buf.length)
    (hx : ∀ l, x = some l → ns dt sr ≤ l.length) (hd : nd dt sr ≤ d.length) (hy : ns dt sr ≤ y.length)
    (hsum : ∑ k ∈ range (ns dt sr), |(x.getD y).getD k 0| ≤ 2 ^ 98) (hdb : ∀ k, k < nd dt sr → |d.getD k 0| ≤ 2 ^ 100) :
    ∃ y' d', mdctInverse (Arith.rounded rnd) sqrt (mdctTables (Arith.rounded rnd)) dt sr srSrc buf x d y = some (y', d') ∧ y'.length = y.length ∧
      d'.length = d.length ∧ (∀ k, k < ns dt sr → |y'.getD k 0| ≤ 2 ^ 101) ∧ (∀ k, k < nd dt sr → |d'.getD k 0| ≤ 2 ^ 100) := by
  obtain ⟨y', d', e1, e2, e3, e4, e5⟩ := mdctInverse_fine h sqrt hs dt sr srSrc hc buf x d y hb hx hd hy (2 ^ 98) (2 ^ 100) (le_refl _) (le_refl _)
    (by norm_num) hsum hdb
  exact ⟨y', d', e1, e2, e3, fun k hk => (e4 k hk).trans (by norm_num), fun k hk => (e5 k hk).trans (by norm_num)⟩

end LC3
