import Verif.Lemmas.NeonReal
import Verif.Props.Mdct

/-!
Properties of the transforms on the processors with NEON instructions, `src/mdct_neon.h`.
-/

set_option maxRecDepth 10000

namespace LC3
open Finset

variable {R : Type}

theorem ns_mod20 (dt : Dt) (sr : Srate) : ns dt sr % 20 = 0 := by cases dt <;> cases sr <;> decide

/-- The count of transforms of 5 points is even. -/
theorem two_divides (dt : Dt) (sr : Srate) (a b : ℕ) (h : ns dt sr / 2 = 5 * 3 ^ a * 2 ^ b) : 0 < b := by
  rcases Nat.eq_zero_or_pos b with rfl | hb
  · have h1 := ns_mod20 dt sr
    have h2 : 3 ^ a % 2 = 1 := by rw [Nat.pow_mod]; norm_num
    rw [Nat.pow_zero, Nat.mul_one] at h
    omega
  · exact hb

theorem exactFft_has (T : MdctTables ℝ) (a b : ℕ) (h : ExactFft T a b) : HasFft T a b :=
  ⟨fun i hi => let ⟨w, h1, h2, _⟩ := h.bf3 i hi; ⟨w, h1, h2⟩, fun i hi => let ⟨w, h1, h2, _⟩ := h.bf2 i hi; ⟨w, h1, h2⟩⟩

/-- C67: in exact arithmetic, with exact twiddle factors, the transform with vector instructions is the discrete Fourier transform of any
vector, of any length `5 * 3^a * 2^b` that is even. -/
theorem C67_fft_is_dft (T : MdctTables ℝ) (a b : ℕ) (hb : 0 < b) (hT : ExactFft T a b) (y0 y1 : List ℝ) (n : ℕ)
    (hn : n = 5 * 3 ^ a * 2 ^ b) (h0 : 2 * n ≤ y0.length) (h1 : 2 * n ≤ y1.length) :
    ∃ in0 z0 z1, neonFft Neon.real T n y0 y1 = some (in0, z0, z1) ∧
      ∀ k, k < n → (⟨(if in0 then z0 else z1).getD (2 * k) 0, (if in0 then z0 else z1).getD (2 * k + 1) 0⟩ : ℂ) =
        ∑ l ∈ range n, (⟨y0.getD (2 * l) 0, y0.getD (2 * l + 1) 0⟩ : ℂ) * Complex.exp (-(2 * Real.pi * Complex.I * ((k * l : ℕ) / n))) := by
  rw [show neonFft Neon.real T n y0 y1 = fft Arith.real T n y0 y1 by subst hn; exact neonFft_real T a b hb (exactFft_has T a b hT) y0 y1 h0 h1]
  exact C37_fft_is_dft T a b hT y0 y1 n hn h0 h1

theorem exactTables_has (a b : ℕ) : HasFft exactTables a b := exactFft_has _ a b (exactTables_fft a b)

/-- C67: the transform of a vector that is not null, of the length of the frames of 10 ms at 48 kHz. -/
example : ∃ in0 z0 z1, neonFft Neon.real exactTables 240 (List.replicate 480 1) (List.replicate 480 0) = some (in0, z0, z1) :=
  let ⟨a, b, c, h, _⟩ := C67_fft_is_dft exactTables 1 4 (by decide) (exactTables_fft 1 4) (List.replicate 480 1)
    (List.replicate 480 0) 240 rfl (by rw [List.length_replicate]) (by rw [List.length_replicate])
  ⟨a, b, c, h⟩

/-- With tables of the sizes of those of the code. -/
theorem neonForward_same (sqrt : ℝ → ℝ) (T : MdctTables ℝ) (dt : Dt) (sr srDst : Srate) (a b : ℕ) (rot win : List ℝ)
    (hab : ns dt sr / 2 = 5 * 3 ^ a * 2 ^ b) (hF : HasFft T a b) (hrot : T.rot dt sr = some (ns dt sr / 2, rot)) (hrl : ns dt sr ≤ rot.length)
    (hwin : T.win dt sr = some win) (hwl : win.length = ns dt sr + nd dt sr)
    (buf x d y : List ℝ) (hb : ns dt sr ≤ buf.length) (hx : ns dt sr ≤ x.length) (hd : nd dt sr ≤ d.length)
    (hy : ns dt sr ≤ y.length) :
    neonMdctForward Neon.real sqrt T dt sr srDst buf x d y = mdctForward Arith.real sqrt T dt sr srDst buf x d y := by
  obtain ⟨h4, hpos, hnd, hn2, he⟩ := mdct_shape dt sr
  have e2 : 2 * (ns dt sr / 2) = ns dt sr := by omega
  obtain ⟨u, d', w1, w2, w3, _, _⟩ := mdctWindow_spec 0 Arith.real (ns dt sr) (nd dt sr) win x d buf h4 hnd hn2 he (by omega) hx hd hb
  obtain ⟨v, p1, p2, _⟩ := mdctPre_spec 0 Arith.real (ns dt sr / 2) rot u (by omega) (by omega) (by omega)
  have f := neonFft_real T a b (two_divides dt sr a b hab) hF v y (by omega) (by omega)
  rw [← hab] at f
  unfold neonMdctForward mdctForward
  rw [show Neon.real.toArith = Arith.real from rfl]
  simp only [Option.bind_eq_bind]
  rw [hrot, Option.bind_some, Option.bind_some, hwin, Option.bind_some, Option.bind_some, w1, Option.bind_some, Option.bind_some, p1,
    Option.bind_some, Option.bind_some, f]

theorem neonInverse_same (sqrt : ℝ → ℝ) (T : MdctTables ℝ) (dt : Dt) (sr srSrc : Srate) (a b : ℕ) (rot win : List ℝ)
    (hab : ns dt sr / 2 = 5 * 3 ^ a * 2 ^ b) (hF : HasFft T a b) (hrot : T.rot dt sr = some (ns dt sr / 2, rot)) (hrl : ns dt sr ≤ rot.length)
    (hwin : T.win dt sr = some win)
    (buf : List ℝ) (x : Option (List ℝ)) (d y : List ℝ) (hb : ns dt sr ≤ buf.length) (hx : ∀ l, x = some l → ns dt sr ≤ l.length)
    (hy : ns dt sr ≤ y.length) :
    neonMdctInverse Neon.real sqrt T dt sr srSrc buf x d y = mdctInverse Arith.real sqrt T dt sr srSrc buf x d y := by
  obtain ⟨h4, hpos, hnd, hn2, he⟩ := mdct_shape dt sr
  have e2 : 2 * (ns dt sr / 2) = ns dt sr := by omega
  obtain ⟨v, p1, p2, _⟩ := imdctPre_spec 0 Arith.real (ns dt sr / 2) rot x y (by omega) (by omega) (by omega) (by rw [e2]; exact hx)
  have f := neonFft_real T a b (two_divides dt sr a b hab) hF v buf (by omega) (by omega)
  rw [← hab] at f
  unfold neonMdctInverse mdctInverse
  rw [show Neon.real.toArith = Arith.real from rfl]
  simp only [Option.bind_eq_bind]
  rw [hrot, Option.bind_some, Option.bind_some, hwin, Option.bind_some, Option.bind_some, p1,
    Option.bind_some, Option.bind_some, f]

/-- C67: for every supported configuration, with the tables of the code, whatever the samples and the contents of the buffers, the analysis
transform with vector instructions is, in exact arithmetic, the one without. -/
theorem C67_forward_same (sqrt : ℝ → ℝ) (dt : Dt) (sr srDst : Srate) (h : ¬ (dt = .m7_5 ∧ sr.hr = true))
    (buf x d y : List ℝ) (hb : ns dt sr ≤ buf.length) (hx : ns dt sr ≤ x.length) (hd : nd dt sr ≤ d.length)
    (hy : ns dt sr ≤ y.length) :
    neonMdctForward Neon.real sqrt (mdctTables Arith.real) dt sr srDst buf x d y =
      mdctForward Arith.real sqrt (mdctTables Arith.real) dt sr srDst buf x d y := by
  obtain ⟨a, b, rot, win, hab, hF, hrot, hrl, hwin, hwl⟩ := C37_tables Arith.real dt sr h
  exact neonForward_same sqrt _ dt sr srDst a b rot win hab hF hrot hrl hwin hwl buf x d y hb hx hd hy

/-- C67: likewise for the synthesis transform, in place (`x` is `none`) or not. -/
theorem C67_inverse_same (sqrt : ℝ → ℝ) (dt : Dt) (sr srSrc : Srate) (h : ¬ (dt = .m7_5 ∧ sr.hr = true))
    (buf : List ℝ) (x : Option (List ℝ)) (d y : List ℝ) (hb : ns dt sr ≤ buf.length) (hx : ∀ l, x = some l → ns dt sr ≤ l.length)
    (hy : ns dt sr ≤ y.length) :
    neonMdctInverse Neon.real sqrt (mdctTables Arith.real) dt sr srSrc buf x d y =
      mdctInverse Arith.real sqrt (mdctTables Arith.real) dt sr srSrc buf x d y := by
  obtain ⟨a, b, rot, win, hab, hF, hrot, hrl, hwin, hwl⟩ := C37_tables Arith.real dt sr h
  exact neonInverse_same sqrt _ dt sr srSrc a b rot win hab hF hrot hrl hwin buf x d y hb hx hy

/-- C67: with exact twiddle factors, the spectrum of a frame is the modified discrete cosine transform of the windowed samples. -/
theorem C67_spectrum (sqrt : ℝ → ℝ) (dt : Dt) (sr srDst : Srate) (h : ¬ (dt = .m7_5 ∧ sr.hr = true))
    (hdst : ns dt srDst ≤ ns dt sr) (buf x d y : List ℝ)
    (hb : ns dt sr ≤ buf.length) (hx : x.length = ns dt sr) (hd : d.length = nd dt sr) (hy : ns dt sr ≤ y.length) :
    ∃ win y' d', exactTables.win dt sr = some win ∧
      neonMdctForward Neon.real sqrt exactTables dt sr srDst buf x d y = some (y', d') ∧ d' = x.drop (ns dt sr - nd dt sr) ∧
      ∀ k, k < ns dt srDst → y'.getD k 0 = (if ns dt sr = ns dt srDst then 1 else sqrt (ns dt srDst / ns dt sr)) *
        (Real.sqrt (2 / ns dt sr) * ∑ l ∈ range (2 * ns dt sr), (win.getD l 0 * (d ++ x).getD l 0) *
          Real.cos (Real.pi / ns dt sr * (l + 1 / 2 + ns dt sr / 2) * (k + 1 / 2))) := by
  obtain ⟨a, b, rot, win, _, _, _, _, hwin, hwl⟩ := C37_tables Arith.real dt sr h
  obtain ⟨y', d', f1, f2, f3⟩ := C49_spectrum sqrt exactTables dt sr srDst (exactTables_mdct dt sr) win hwin hwl hdst buf x d y hb hx hd hy
  refine ⟨win, y', d', hwin, ?_, f2, f3⟩
  rw [← f1]
  have h4 := ns_mod20 dt sr
  exact neonForward_same sqrt exactTables dt sr srDst _ _ _ win (fftExp_spec dt sr) (exactTables_has _ _) rfl
    (by rw [complexTable_length]; omega) hwin hwl buf x d y hb (by omega) (by omega) hy

/-- The transform of a frame of samples, followed by the inverse transform, with vector instructions, as `transformFrame`. -/
noncomputable def neonTransformFrame (sqrt : ℝ → ℝ) (T : MdctTables ℝ) (dt : Dt) (sr : Srate) (j : Scratch) (d e x : List ℝ) :
    Option (List ℝ × List ℝ × List ℝ) :=
  (neonMdctForward Neon.real sqrt T dt sr sr j.fbuf x d j.fout).bind fun f =>
  (neonMdctInverse Neon.real sqrt T dt sr sr j.ibuf (some f.1) e j.iout).bind fun o => some (o.1, f.2, o.2)

/-- C67: in exact arithmetic, with the tables of the code, a frame of samples goes through the analysis and the synthesis transforms with
the same outcome, and the same delayed samples, with and without vector instructions. -/
theorem C67_frame_same (sqrt : ℝ → ℝ) (dt : Dt) (sr : Srate) (h : ¬ (dt = .m7_5 ∧ sr.hr = true)) (j : Scratch) (hj : j.Fits (ns dt sr))
    (d e x : List ℝ) (hx : ns dt sr ≤ x.length) (hd : nd dt sr ≤ d.length) :
    neonTransformFrame sqrt (mdctTables Arith.real) dt sr j d e x = transformFrame sqrt (mdctTables Arith.real) dt sr j d e x := by
  unfold neonTransformFrame transformFrame
  rw [C67_forward_same sqrt dt sr sr h j.fbuf x d j.fout hj.fbuf hx hd hj.fout]
  obtain ⟨y', d', f1, f2, _⟩ := C49_forward_safe Arith.real sqrt dt sr sr h (Nat.le_refl _) j.fbuf x d j.fout hj.fbuf hx hd hj.fout
  rw [f1, Option.bind_some, Option.bind_some]
  rw [C67_inverse_same sqrt dt sr sr h j.ibuf (some y') e j.iout hj.ibuf (fun l hl => by
    injection hl with hl; rw [← hl, f2]; exact hj.fout) (by rw [hj.iout])]

/-! ### Safety -/

/-- C67: for every supported configuration, whatever the arithmetic of the processor, with or without fused operations, and the samples, the
analysis transform with vector instructions accesses its buffers and its tables within their limits, that are those of the generic code. -/
theorem C67_forward_safe (N : Neon R) (sqrt : R → R) (dt : Dt) (sr srDst : Srate) (h : ¬ (dt = .m7_5 ∧ sr.hr = true))
    (hdst : ns dt srDst ≤ ns dt sr) (buf x d y : List R) (hb : ns dt sr ≤ buf.length) (hx : ns dt sr ≤ x.length) (hd : nd dt sr ≤ d.length)
    (hy : ns dt sr ≤ y.length) :
    ∃ y' d', neonMdctForward N sqrt (mdctTables N.toArith) dt sr srDst buf x d y = some (y', d') ∧ y'.length = y.length ∧ d'.length = d.length := by
  obtain ⟨h4, hpos, hnd, hn2, he⟩ := mdct_shape dt sr
  obtain ⟨a, b, rot, win, hab, hF, hrot, hrl, hwin, hwl⟩ := C37_tables N.toArith dt sr h
  have e2 : 2 * (ns dt sr / 2) = ns dt sr := by omega
  obtain ⟨u, d', w1, w2, w3, _, _⟩ := mdctWindow_spec (N.ofRat 0) N.toArith (ns dt sr) (nd dt sr) win x d buf h4 hnd hn2 he (by omega) hx hd hb
  obtain ⟨v, p1, p2, _⟩ := mdctPre_spec (N.ofRat 0) N.toArith (ns dt sr / 2) rot u (by omega) (by omega) (by omega)
  obtain ⟨in0, z0, z1, f1, f2, f3⟩ := neonFft_total (N.ofRat 0) N (mdctTables N.toArith) a b (two_divides dt sr a b hab) hF v y (by omega) (by omega)
  rw [← hab] at f1
  obtain ⟨y1, q1, q2, _⟩ := mdctPost_spec (N.ofRat 0) N.toArith (ns dt sr / 2) rot (if in0 then some z0 else none) z1 (by omega) (by omega)
    (by omega) (fun l hl => by
      cases in0 with
      | false => cases hl
      | true => injection hl with hl; rw [← hl]; omega)
  obtain ⟨s, hs1, hs2⟩ : ∃ s, (if ns dt sr ≠ ns dt srDst then
      rescale N.toArith (ns dt srDst) (sqrt (N.div (N.ofInt (ns dt srDst)) (N.ofInt (ns dt sr)))) y1 else some y1) = some s ∧ s.length = y1.length := by
    by_cases hs : ns dt sr = ns dt srDst
    · rw [if_neg (by omega)]; exact ⟨_, rfl, rfl⟩
    · rw [if_pos hs]; exact rescale_total N.toArith _ _ y1 (by omega)
  refine ⟨s, d', ?_, by omega, by omega⟩
  unfold neonMdctForward
  simp only [Option.bind_eq_bind]
  rw [hrot, Option.bind_some, hwin, Option.bind_some, w1, Option.bind_some, p1, Option.bind_some, f1, Option.bind_some]
  dsimp only
  rw [q1, Option.bind_some, hs1, Option.bind_some]

/-- C67: likewise for the synthesis transform, in place (`x` is `none`) or not. -/
theorem C67_inverse_safe (N : Neon R) (sqrt : R → R) (dt : Dt) (sr srSrc : Srate) (h : ¬ (dt = .m7_5 ∧ sr.hr = true))
    (buf : List R) (x : Option (List R)) (d y : List R) (hb : ns dt sr ≤ buf.length) (hx : ∀ l, x = some l → ns dt sr ≤ l.length)
    (hd : nd dt sr ≤ d.length) (hy : ns dt sr ≤ y.length) :
    ∃ y' d', neonMdctInverse N sqrt (mdctTables N.toArith) dt sr srSrc buf x d y = some (y', d') ∧ y'.length = y.length ∧ d'.length = d.length := by
  obtain ⟨h4, hpos, hnd, hn2, he⟩ := mdct_shape dt sr
  obtain ⟨a, b, rot, win, hab, hF, hrot, hrl, hwin, hwl⟩ := C37_tables N.toArith dt sr h
  have e2 : 2 * (ns dt sr / 2) = ns dt sr := by omega
  obtain ⟨v, p1, p2, _⟩ := imdctPre_spec (N.ofRat 0) N.toArith (ns dt sr / 2) rot x y (by omega) (by omega) (by omega) (by rw [e2]; exact hx)
  obtain ⟨in0, z0, z1, f1, f2, f3⟩ := neonFft_total (N.ofRat 0) N (mdctTables N.toArith) a b (two_divides dt sr a b hab) hF v buf (by omega) (by omega)
  rw [← hab] at f1
  obtain ⟨u, q1, q2, _⟩ := imdctPost_spec (N.ofRat 0) N.toArith (ns dt sr / 2) rot (if in0 then some z0 else none) z1 (by omega) (by omega)
    (by omega) (fun l hl => by
      cases in0 with
      | false => cases hl
      | true => injection hl with hl; rw [← hl]; omega)
  obtain ⟨s, hs1, hs2⟩ : ∃ s, (if ns dt sr ≠ ns dt srSrc then
      rescale N.toArith (ns dt sr) (sqrt (N.div (N.ofInt (ns dt sr)) (N.ofInt (ns dt srSrc)))) u else some u) = some s ∧ s.length = u.length := by
    by_cases hs : ns dt sr = ns dt srSrc
    · rw [if_neg (by omega)]; exact ⟨_, rfl, rfl⟩
    · rw [if_pos hs]; exact rescale_total N.toArith _ _ u (by omega)
  obtain ⟨y', d', w1, w2, w3, _, _⟩ := imdctWindow_spec (N.ofRat 0) N.toArith (ns dt sr) (nd dt sr) win s d z0 h4 hnd hn2 he (by omega) (by omega) hd (by omega)
  refine ⟨y', d', ?_, by omega, w3⟩
  unfold neonMdctInverse
  simp only [Option.bind_eq_bind]
  rw [hrot, Option.bind_some, hwin, Option.bind_some, p1, Option.bind_some, f1, Option.bind_some]
  dsimp only
  rw [q1, Option.bind_some, hs1, Option.bind_some, w1]

/-- Exact rational numbers, for the examples. -/
def Neon.plain : Neon Rat where
  toArith := Arith.exact
  fneg := fun a => -a
  fma := fun a b c => a + b * c
  fms := fun a b c => a - b * c

theorem iter_none {S : Type} (body : Nat → S → Option S) : ∀ (n i : Nat), (∀ s, body (i + n) s = none) → ∀ s, iter body i (n + 1) s = none
  | 0, i, h, s => by rw [iter, show body i s = none from h s]; rfl
  | n + 1, i, h, s => by
    rw [iter]
    cases body i s with
    | none => rfl
    | some t => exact iter_none body n (i + 1) (fun s => by rw [show i + 1 + n = i + (n + 1) by omega]; exact h s) t

/-- C67: the loop of the transforms of 5 points takes them two by two: with an odd count, it reads beyond buffers of the length of the
transforms; the property rests on the even lengths of all the configurations. -/
theorem C67_odd_length (N : Neon R) (T : MdctTables R) (n : ℕ) (hn : n % 2 = 1) (x y : List R) (hx : x.length = 10 * n) :
    neonFft5 N T n x y = none := by
  unfold neonFft5
  rw [show (n + 1) / 2 = n / 2 + 1 by omega]
  refine iter_none _ _ _ (fun y => ?_) y
  have h4 : ldq x (2 * ((0 + n / 2 : ℕ) : Int) + 4 * (n : Int)) = none := by
    generalize hi : 2 * ((0 + n / 2 : ℕ) : Int) + 4 * (n : Int) = i
    have hr : rd x (2 * i + 2) = none := by
      unfold rd
      rw [if_pos (by omega), List.getElem?_eq_none (by omega)]
    unfold ldq
    simp only [Option.bind_eq_bind]
    rw [hr]
    cases rd x (2 * i) <;> cases rd x (2 * i + 1) <;> rfl
  unfold neonFft5Body
  simp only [Option.bind_eq_bind]
  rw [h4]
  cases ldq x (2 * ((0 + n / 2 : ℕ) : Int) + 0 * (n : Int)) <;> cases ldq x (2 * ((0 + n / 2 : ℕ) : Int) + 1 * (n : Int)) <;>
    cases ldq x (2 * ((0 + n / 2 : ℕ) : Int) + 2 * (n : Int)) <;> cases ldq x (2 * ((0 + n / 2 : ℕ) : Int) + 3 * (n : Int)) <;> rfl

/-- C67: a transform of two times 5 points, computed; the first of the coefficients is the sum of the samples. -/
example : (neonFft5 Neon.plain (mdctTables Arith.exact) 2 ((List.range 20).map fun k => (k : Rat)) (List.replicate 20 0)).map
    (fun y => (y.getD 0 0, y.getD 1 0, y.getD 10 0, y.getD 11 0)) = some (40, 45, 50, 55) := by decide +kernel

end LC3
