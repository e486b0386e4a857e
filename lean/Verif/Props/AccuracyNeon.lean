import Verif.Props.Accuracy
import Verif.Props.MdctNeon
import Verif.Lemmas.NeonErr

/-!
C73: accuracy of the transforms in binary32 on the processors with NEON instructions, with fused operations, and agreement with the generic code.
-/

namespace LC3
open Complex Finset

/-- The operations of binary32 of the processor. -/
theorem approxN_fl : ApproxN (Neon.rounded fl) (fun q : Rat => (q : ℝ)) where
  base := approx_fl
  fneg a := by change (((-a : Rat)) : ℝ) = _; push_cast; rfl
  fma a b c h := by have := fl_error_real (a + b * c) (by push_cast; exact h); push_cast at this; exact this
  fms a b c h := by have := fl_error_real (a - b * c) (by push_cast; exact h); push_cast at this; exact this

theorem neonFftOk_fl (dt : Dt) (sr : Srate) (h : ¬ (dt = .m7_5 ∧ sr.hr = true)) : ∃ tol : ℝ, tol ≤ 500 / 10 ^ 8 ∧
    FftOk (fun q : Rat => (q : ℝ)) 0 (neonFft (Neon.rounded fl) (mdctTables (Arith.rounded fl)) (ns dt sr / 2)) (ns dt sr / 2) tol := by
  obtain ⟨a, b, w, win, hm, htol, hT, _⟩ := tables_near (Arith.rounded fl) (fun q : Rat => (q : ℝ)) approx_fl 0 dt sr h
  exact ⟨_, htol, neonFftOk _ _ approxN_fl 0 _ a b _ (two_divides dt sr a b hm) hm hT (htol.trans (by norm_num))⟩

theorem neonForward_with (sqrt : Rat → Rat) (T : MdctTables Rat) (dt : Dt) (sr srDst : Srate) (buf x d y : List Rat) :
    neonMdctForward (Neon.rounded fl) sqrt T dt sr srDst buf x d y =
      forwardWith (Arith.rounded fl) (neonFft (Neon.rounded fl) T) sqrt T dt sr srDst buf x d y := rfl

theorem neonInverse_with (sqrt : Rat → Rat) (T : MdctTables Rat) (dt : Dt) (sr srSrc : Srate) (buf : List Rat) (x : Option (List Rat)) (d y : List Rat) :
    neonMdctInverse (Neon.rounded fl) sqrt T dt sr srSrc buf x d y =
      inverseWith (Arith.rounded fl) (neonFft (Neon.rounded fl) T) sqrt T dt sr srSrc buf x d y := rfl

/-- C73: in binary32 with fused operations, with the tables of the code, for every supported configuration, the Fourier transform of any vector is the
exact one within `5 10^-6` of the sum of the magnitudes. -/
theorem C73_fft (dt : Dt) (sr : Srate) (h : ¬ (dt = .m7_5 ∧ sr.hr = true)) (n : ℕ) (hn : n = ns dt sr / 2) (y0 y1 : List Rat)
    (h0 : 2 * n ≤ y0.length) (h1 : 2 * n ≤ y1.length)
    (hS : ∑ l ∈ range n, ‖(⟨y0.getD (2 * l) 0, y0.getD (2 * l + 1) 0⟩ : ℂ)‖ ≤ 2 ^ 100) :
    ∃ in0 z0 z1, neonFft (Neon.rounded fl) (mdctTables (Arith.rounded fl)) n y0 y1 = some (in0, z0, z1) ∧
      ∀ k, k < n → ‖(⟨(if in0 then z0 else z1).getD (2 * k) 0, (if in0 then z0 else z1).getD (2 * k + 1) 0⟩ : ℂ) -
        ∑ l ∈ range n, (⟨y0.getD (2 * l) 0, y0.getD (2 * l + 1) 0⟩ : ℂ) * Complex.exp (-(2 * Real.pi * Complex.I * ((k * l : ℕ) / n)))‖ ≤
          5 / 10 ^ 6 * (∑ l ∈ range n, ‖(⟨y0.getD (2 * l) 0, y0.getD (2 * l + 1) 0⟩ : ℂ)‖ + 1 / 2 ^ 90) := by
  obtain ⟨tol, htol, hO⟩ := neonFftOk_fl dt sr h
  subst hn
  exact fft_fl dt sr _ tol htol hO _ rfl y0 y1 h0 h1 hS

/-- C73: in binary32 with fused operations, with the tables of the code, for every supported configuration, the spectrum of a frame is the modified
discrete cosine transform of the windowed samples within `6.5 10^-6` of the sum of their magnitudes. -/
theorem C73_forward (sqrt : Rat → Rat) (hs : ∀ q : Rat, 0 < q → |((sqrt q : Rat) : ℝ) - Real.sqrt q| ≤ Real.sqrt q / 2 ^ 24) (dt : Dt) (sr srDst : Srate)
    (h : ¬ (dt = .m7_5 ∧ sr.hr = true)) (hdst : ns dt srDst ≤ ns dt sr) (win : List ℝ) (hwin : (mdctTables Arith.real).win dt sr = some win)
    (buf x d y : List Rat) (hb : ns dt sr ≤ buf.length) (hx : x.length = ns dt sr) (hd : d.length = nd dt sr) (hy : ns dt sr ≤ y.length)
    (hsum : ∑ l ∈ range (2 * ns dt sr), |win.getD l 0 * ((d ++ x).getD l 0 : Rat)| ≤ 2 ^ 99) :
    ∃ y' d', neonMdctForward (Neon.rounded fl) sqrt (mdctTables (Arith.rounded fl)) dt sr srDst buf x d y = some (y', d') ∧
      ∀ k, k < ns dt srDst → |((y'.getD k 0 : Rat) : ℝ) - (if ns dt sr = ns dt srDst then 1 else Real.sqrt (ns dt srDst / ns dt sr)) *
        (Real.sqrt (2 / ns dt sr) * ∑ l ∈ range (2 * ns dt sr), (win.getD l 0 * ((d ++ x).getD l 0 : Rat)) *
          Real.cos (Real.pi / ns dt sr * (l + 1 / 2 + ns dt sr / 2) * (k + 1 / 2)))| ≤
        65 / 10 ^ 7 * ((if ns dt sr = ns dt srDst then 1 else Real.sqrt (ns dt srDst / ns dt sr)) *
          (Real.sqrt (2 / ns dt sr) * (∑ l ∈ range (2 * ns dt sr), |win.getD l 0 * ((d ++ x).getD l 0 : Rat)| + 1 / 2 ^ 80))) := by
  obtain ⟨tol, htol, hO⟩ := neonFftOk_fl dt sr h
  exact forward_fl (neonFft (Neon.rounded fl) (mdctTables (Arith.rounded fl))) tol htol sqrt hs dt sr srDst hO h hdst win hwin buf x d y hb hx hd hy hsum

/-- C73: likewise for the synthesis, in place or not. -/
theorem C73_inverse (sqrt : Rat → Rat) (hs : ∀ q : Rat, 0 < q → |((sqrt q : Rat) : ℝ) - Real.sqrt q| ≤ Real.sqrt q / 2 ^ 24) (dt : Dt) (sr srSrc : Srate)
    (h : ¬ (dt = .m7_5 ∧ sr.hr = true)) (win : List ℝ) (hwin : (mdctTables Arith.real).win dt sr = some win)
    (buf : List Rat) (x : Option (List Rat)) (d y : List Rat) (hb : ns dt sr ≤ buf.length) (hx : ∀ l, x = some l → ns dt sr ≤ l.length)
    (hd : nd dt sr ≤ d.length) (hy : ns dt sr ≤ y.length) (X : ℕ → ℝ) (hX : ∀ k, k < ns dt sr → X k = ((x.getD y).getD k 0 : Rat))
    (hsum : ∑ k ∈ range (ns dt sr), |X k| ≤ 2 ^ 90) (hdb : ∀ k, k < nd dt sr → |((d.getD k 0 : Rat) : ℝ)| ≤ 2 ^ 100) (F S : ℝ)
    (hF : F = if ns dt sr = ns dt srSrc then 1 else Real.sqrt (ns dt sr / ns dt srSrc))
    (hS : S = F * (Real.sqrt (2 / ns dt sr) * (∑ k ∈ range (ns dt sr), |X k| + 1 / 2 ^ 80))) :
    ∃ y' d', neonMdctInverse (Neon.rounded fl) sqrt (mdctTables (Arith.rounded fl)) dt sr srSrc buf x d y = some (y', d') ∧
      (∀ k, k < ns dt sr → |((y'.getD k 0 : Rat) : ℝ) - ((if k < nd dt sr then ((d.getD k 0 : Rat) : ℝ) else 0) +
          win.getD (ns dt sr + nd dt sr - 1 - k) 0 * (F * (Real.sqrt (2 / ns dt sr) * ∑ j ∈ range (ns dt sr), X j *
            Real.cos (Real.pi / ns dt sr * ((ns dt sr - nd dt sr + k : ℕ) + 1 / 2 + ns dt sr / 2) * (j + 1 / 2)))))| ≤
        7 / 10 ^ 6 * (|win.getD (ns dt sr + nd dt sr - 1 - k) 0| * S) + 6 / 10 ^ 8 * |if k < nd dt sr then ((d.getD k 0 : Rat) : ℝ) else 0| + 1 / 2 ^ 140) ∧
      (∀ k, k < nd dt sr → |((d'.getD k 0 : Rat) : ℝ) - win.getD (nd dt sr - 1 - k) 0 * (F * (Real.sqrt (2 / ns dt sr) * ∑ j ∈ range (ns dt sr), X j *
            Real.cos (Real.pi / ns dt sr * ((2 * ns dt sr - nd dt sr + k : ℕ) + 1 / 2 + ns dt sr / 2) * (j + 1 / 2))))| ≤
        7 / 10 ^ 6 * (|win.getD (nd dt sr - 1 - k) 0| * S) + 1 / 2 ^ 140) := by
  obtain ⟨tol, htol, hO⟩ := neonFftOk_fl dt sr h
  exact inverse_fl (neonFft (Neon.rounded fl) (mdctTables (Arith.rounded fl))) tol htol sqrt hs dt sr srSrc hO h win hwin buf x d y hb hx hd hy X hX hsum
    hdb F S hF hS

/-! ### Agreement of the processors -/

theorem close_of {a b x e : ℝ} (h1 : |a - x| ≤ e) (h2 : |b - x| ≤ e) : |a - b| ≤ 2 * e := by
  rw [show a - b = (a - x) - (b - x) by ring]
  exact (abs_sub _ _).trans (by linarith)

/-- C73: two encoders, one on a processor with vector instructions, the other without, given the same samples, obtain spectra that agree within
`1.3 10^-5` of the sum of the magnitudes of the windowed samples, and the same delayed samples. -/
theorem C73_forward_agree (sqrt : Rat → Rat) (hs : ∀ q : Rat, 0 < q → |((sqrt q : Rat) : ℝ) - Real.sqrt q| ≤ Real.sqrt q / 2 ^ 24) (dt : Dt) (sr srDst : Srate)
    (h : ¬ (dt = .m7_5 ∧ sr.hr = true)) (hdst : ns dt srDst ≤ ns dt sr) (win : List ℝ) (hwin : (mdctTables Arith.real).win dt sr = some win)
    (buf x d y : List Rat) (hb : ns dt sr ≤ buf.length) (hx : x.length = ns dt sr) (hd : d.length = nd dt sr) (hy : ns dt sr ≤ y.length)
    (hsum : ∑ l ∈ range (2 * ns dt sr), |win.getD l 0 * ((d ++ x).getD l 0 : Rat)| ≤ 2 ^ 99) :
    ∃ y' y'' d', neonMdctForward (Neon.rounded fl) sqrt (mdctTables (Arith.rounded fl)) dt sr srDst buf x d y = some (y', d') ∧
      mdctForward (Arith.rounded fl) sqrt (mdctTables (Arith.rounded fl)) dt sr srDst buf x d y = some (y'', d') ∧
      ∀ k, k < ns dt srDst → |((y'.getD k 0 : Rat) : ℝ) - (y''.getD k 0 : Rat)| ≤
        13 / 10 ^ 6 * ((if ns dt sr = ns dt srDst then 1 else Real.sqrt (ns dt srDst / ns dt sr)) *
          (Real.sqrt (2 / ns dt sr) * (∑ l ∈ range (2 * ns dt sr), |win.getD l 0 * ((d ++ x).getD l 0 : Rat)| + 1 / 2 ^ 80))) := by
  obtain ⟨y', d', f1, f2⟩ := C73_forward sqrt hs dt sr srDst h hdst win hwin buf x d y hb hx hd hy hsum
  obtain ⟨y'', d'', g1, g2⟩ := C68_forward sqrt hs dt sr srDst h hdst win hwin buf x d y hb hx hd hy hsum
  have e : d' = d'' := by
    rw [neonForward_with] at f1
    rw [mdctForward_with] at g1
    unfold forwardWith at f1 g1
    simp only [Option.bind_eq_bind, Option.bind_eq_some_iff, Option.some.injEq, Prod.mk.injEq] at f1 g1
    obtain ⟨r, r1, w, w1, u, u1, _, _, _, _, _, _, _, _, _, e1⟩ := f1
    obtain ⟨r', r1', w', w1', u', u1', _, _, _, _, _, _, _, _, _, e1'⟩ := g1
    rw [r1] at r1'; rw [w1] at w1'
    cases r1'; cases w1'
    rw [u1] at u1'; cases u1'
    rw [← e1, ← e1']
  subst e
  refine ⟨y', y'', d', f1, g1, fun k hk => (close_of (f2 k hk) (g2 k hk)).trans (le_of_eq (by ring))⟩

/-- C73: two decoders, one on a processor with vector instructions, the other without, given the same spectrum and the same delayed samples, output
samples that agree within `1.4 10^-5` of the sum of the magnitudes of the spectrum, and one unit in the last place of the delayed sample. -/
theorem C73_inverse_agree (sqrt : Rat → Rat) (hs : ∀ q : Rat, 0 < q → |((sqrt q : Rat) : ℝ) - Real.sqrt q| ≤ Real.sqrt q / 2 ^ 24) (dt : Dt) (sr srSrc : Srate)
    (h : ¬ (dt = .m7_5 ∧ sr.hr = true)) (win : List ℝ) (hwin : (mdctTables Arith.real).win dt sr = some win)
    (buf : List Rat) (x : Option (List Rat)) (d y : List Rat) (hb : ns dt sr ≤ buf.length) (hx : ∀ l, x = some l → ns dt sr ≤ l.length)
    (hd : nd dt sr ≤ d.length) (hy : ns dt sr ≤ y.length) (X : ℕ → ℝ) (hX : ∀ k, k < ns dt sr → X k = ((x.getD y).getD k 0 : Rat))
    (hsum : ∑ k ∈ range (ns dt sr), |X k| ≤ 2 ^ 90) (hdb : ∀ k, k < nd dt sr → |((d.getD k 0 : Rat) : ℝ)| ≤ 2 ^ 100) (F S : ℝ)
    (hF : F = if ns dt sr = ns dt srSrc then 1 else Real.sqrt (ns dt sr / ns dt srSrc))
    (hS : S = F * (Real.sqrt (2 / ns dt sr) * (∑ k ∈ range (ns dt sr), |X k| + 1 / 2 ^ 80))) :
    ∃ y' y'' d' d'', neonMdctInverse (Neon.rounded fl) sqrt (mdctTables (Arith.rounded fl)) dt sr srSrc buf x d y = some (y', d') ∧
      mdctInverse (Arith.rounded fl) sqrt (mdctTables (Arith.rounded fl)) dt sr srSrc buf x d y = some (y'', d'') ∧
      (∀ k, k < ns dt sr → |((y'.getD k 0 : Rat) : ℝ) - (y''.getD k 0 : Rat)| ≤
        14 / 10 ^ 6 * (|win.getD (ns dt sr + nd dt sr - 1 - k) 0| * S) + 12 / 10 ^ 8 * |if k < nd dt sr then ((d.getD k 0 : Rat) : ℝ) else 0| + 1 / 2 ^ 139) ∧
      (∀ k, k < nd dt sr → |((d'.getD k 0 : Rat) : ℝ) - (d''.getD k 0 : Rat)| ≤ 14 / 10 ^ 6 * (|win.getD (nd dt sr - 1 - k) 0| * S) + 1 / 2 ^ 139) := by
  obtain ⟨y', d', f1, f2, f3⟩ := C73_inverse sqrt hs dt sr srSrc h win hwin buf x d y hb hx hd hy X hX hsum hdb F S hF hS
  obtain ⟨y'', d'', g1, g2, g3⟩ := C68_inverse sqrt hs dt sr srSrc h win hwin buf x d y hb hx hd hy X hX hsum hdb F S hF hS
  refine ⟨y', y'', d', d'', f1, g1, fun k hk => (close_of (f2 k hk) (g2 k hk)).trans (le_of_eq ?_), fun k hk => (close_of (f3 k hk) (g3 k hk)).trans (le_of_eq ?_)⟩
  · norm_num; ring
  · norm_num; ring

/-- C73: the hypotheses on the operations are those of C68, shown there to be met; the fused operations of binary32 round once. -/
example : (Neon.rounded fl).fma 1 (1 + 1 / 2 ^ 12) (1 + 1 / 2 ^ 12) ≠
    (Arith.rounded fl).add 1 ((Arith.rounded fl).mul (1 + 1 / 2 ^ 12) (1 + 1 / 2 ^ 12)) ∨
    (Neon.rounded fl).fma (-1) (1 + 1 / 2 ^ 12) (1 + 1 / 2 ^ 12) ≠
    (Arith.rounded fl).add (-1) ((Arith.rounded fl).mul (1 + 1 / 2 ^ 12) (1 + 1 / 2 ^ 12)) := by decide +kernel

end LC3
