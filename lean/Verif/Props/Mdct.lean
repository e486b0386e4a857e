import Verif.Model.MdctTables
import Verif.Lemmas.Recon
import Mathlib.Tactic.IntervalCases

/-!
Properties of the transforms, `src/mdct.c`.
-/

set_option maxRecDepth 10000

namespace LC3
open Finset

variable {R : Type}

/-! ### Tables -/

/-- The exponents of the length of the FFT of a configuration, `ns / 2 = 5 * 3^a * 2^b`. -/
def fftExp : Dt → Srate → Nat × Nat
  | .m2_5, .k8 => (0, 1) | .m2_5, .k16 => (0, 2) | .m2_5, .k24 => (1, 1) | .m2_5, .k32 => (0, 3)
  | .m2_5, .k48 => (1, 2) | .m2_5, .k48hr => (1, 2) | .m2_5, .k96hr => (1, 3)
  | .m5, .k8 => (0, 2) | .m5, .k16 => (0, 3) | .m5, .k24 => (1, 2) | .m5, .k32 => (0, 4)
  | .m5, .k48 => (1, 3) | .m5, .k48hr => (1, 3) | .m5, .k96hr => (1, 4)
  | .m7_5, .k8 => (1, 1) | .m7_5, .k16 => (1, 2) | .m7_5, .k24 => (2, 1) | .m7_5, .k32 => (1, 3)
  | .m7_5, .k48 => (2, 2) | .m7_5, .k48hr => (2, 2) | .m7_5, .k96hr => (2, 3)
  | .m10, .k8 => (0, 3) | .m10, .k16 => (0, 4) | .m10, .k24 => (1, 3) | .m10, .k32 => (0, 5)
  | .m10, .k48 => (1, 4) | .m10, .k48hr => (1, 4) | .m10, .k96hr => (1, 5)

theorem fftExp_spec (dt : Dt) (sr : Srate) : ns dt sr / 2 = 5 * 3 ^ (fftExp dt sr).1 * 2 ^ (fftExp dt sr).2 := by
  cases dt <;> cases sr <;> decide

theorem scaled_length (A : Arith R) (e : Nat) (l : List Int) : (scaled A e l).length = l.length := by
  unfold scaled; rw [List.length_map]

/-- Presence and size of the raw tables. -/
def rawBf3 (n3 i : Nat) : Bool := match bf3Table i with
  | some t => t.1 == n3 && 12 * n3 ≤ t.2.2.length
  | none => false

def rawBf2 (n2 i j : Nat) : Bool := match bf2Table i j with
  | some t => t.1 == n2 && 2 * n2 ≤ t.2.2.length
  | none => false

theorem hasBf3_of (A : Arith R) (n3 i : Nat) (h : rawBf3 n3 i = true) : HasBf3 n3 ((mdctTables A).bf3 i) := by
  unfold rawBf3 at h
  unfold mdctTables HasBf3
  dsimp only
  cases hb : bf3Table i with
  | none => rw [hb] at h; cases h
  | some t =>
    rw [hb] at h
    simp only [Bool.and_eq_true, beq_iff_eq, decide_eq_true_eq] at h
    exact ⟨_, by rw [Option.map_some, h.1], by rw [scaled_length]; exact h.2⟩

theorem hasBf2_of (A : Arith R) (n2 i j : Nat) (h : rawBf2 n2 i j = true) : HasBf2 n2 ((mdctTables A).bf2 i j) := by
  unfold rawBf2 at h
  unfold mdctTables HasBf2
  dsimp only
  cases hb : bf2Table i j with
  | none => rw [hb] at h; cases h
  | some t =>
    rw [hb] at h
    simp only [Bool.and_eq_true, beq_iff_eq, decide_eq_true_eq] at h
    exact ⟨_, by rw [Option.map_some, h.1], by rw [scaled_length]; exact h.2⟩

/-- All the tables needed by a configuration. -/
def rawAll (dt : Dt) (sr : Srate) : Bool :=
  (List.range (fftExp dt sr).1).all (fun i => rawBf3 (5 * 3 ^ i) i) &&
  (List.range (fftExp dt sr).2).all (fun i => rawBf2 (5 * 3 ^ (fftExp dt sr).1 * 2 ^ i) i (fftExp dt sr).1) &&
  (match rotTable dt sr with
    | some t => t.1 == ns dt sr / 2 && ns dt sr ≤ t.2.2.length
    | none => false) &&
  (match winTable dt sr with
    | some t => t.2.length == ns dt sr + nd dt sr
    | none => false)

theorem rawAll_ok (dt : Dt) (sr : Srate) (h : ¬ (dt = .m7_5 ∧ sr.hr = true)) : rawAll dt sr = true := by
  revert h
  cases dt <;> cases sr <;> decide +kernel

/-- C37: for every supported configuration, the length of the FFT is `5 * 3^a * 2^b`, the twiddles of all its butterflies, the
rotations and the window are in the tables, with the sizes used by the code. -/
theorem C37_tables (A : Arith R) (dt : Dt) (sr : Srate) (h : ¬ (dt = .m7_5 ∧ sr.hr = true)) :
    ∃ a b rot win, ns dt sr / 2 = 5 * 3 ^ a * 2 ^ b ∧ HasFft (mdctTables A) a b ∧
      (mdctTables A).rot dt sr = some (ns dt sr / 2, rot) ∧ ns dt sr ≤ rot.length ∧
      (mdctTables A).win dt sr = some win ∧ win.length = ns dt sr + nd dt sr := by
  have hr := rawAll_ok dt sr h
  unfold rawAll at hr
  simp only [Bool.and_eq_true, List.all_eq_true, List.mem_range] at hr
  obtain ⟨⟨⟨h3, h2⟩, hrot⟩, hwin⟩ := hr
  cases hb : rotTable dt sr with
  | none => rw [hb] at hrot; cases hrot
  | some t =>
    rw [hb] at hrot
    simp only [Bool.and_eq_true, beq_iff_eq, decide_eq_true_eq] at hrot
    cases hc : winTable dt sr with
    | none => rw [hc] at hwin; cases hwin
    | some w =>
      rw [hc] at hwin
      simp only [beq_iff_eq] at hwin
      refine ⟨_, _, scaled A t.2.1 t.2.2, scaled A w.1 w.2, fftExp_spec dt sr,
        ⟨fun i hi => hasBf3_of A _ _ (h3 i hi), fun i hi => hasBf2_of A _ _ _ (h2 i hi)⟩, ?_, by rw [scaled_length]; exact hrot.2, ?_,
        by rw [scaled_length]; exact hwin⟩
      · show (rotTable dt sr).map _ = _
        rw [hb, Option.map_some, hrot.1]
      · show (winTable dt sr).map _ = _
        rw [hc, Option.map_some]

/-- The other combinations have no tables: the code would read a null pointer. The interface refuses them. -/
theorem C37_tables_missing (A : Arith R) (sr : Srate) (h : sr.hr = true) : (mdctTables A).win .m7_5 sr = none ∧ (mdctTables A).rot .m7_5 sr = none := by
  cases sr <;> first | exact ⟨rfl, rfl⟩ | cases h

/-! ### Discrete Fourier transform -/

/-- C37: in exact arithmetic, with exact twiddle factors, `fft` computes the discrete Fourier transform of any vector, of any length
`5 * 3^a * 2^b`; the outcome is in one or the other of its buffers, as told. -/
theorem C37_fft_is_dft (T : MdctTables ℝ) (a b : ℕ) (hT : ExactFft T a b) (y0 y1 : List ℝ) (n : ℕ) (hn : n = 5 * 3 ^ a * 2 ^ b)
    (h0 : 2 * n ≤ y0.length) (h1 : 2 * n ≤ y1.length) :
    ∃ in0 z0 z1, fft Arith.real T n y0 y1 = some (in0, z0, z1) ∧
      ∀ k, k < n → (⟨(if in0 then z0 else z1).getD (2 * k) 0, (if in0 then z0 else z1).getD (2 * k + 1) 0⟩ : ℂ) =
        ∑ l ∈ range n, (⟨y0.getD (2 * l) 0, y0.getD (2 * l + 1) 0⟩ : ℂ) * Complex.exp (-(2 * Real.pi * Complex.I * ((k * l : ℕ) / n))) := by
  subst hn
  obtain ⟨in0, z0, z1, f1, f2, f3, f4⟩ := fft_spec T a b hT y0 y1 h0 h1
  exact ⟨in0, z0, z1, f1, fun k hk => f4 k hk⟩

/-! ### Safety -/

theorem rescale_total (A : Arith R) (n : Nat) (f : R) (x : List R) (hx : n ≤ x.length) :
    ∃ y, rescale A n f x = some y ∧ y.length = x.length := by
  unfold rescale
  rw [if_neg (by omega)]
  exact ⟨_, rfl, by rw [List.length_append, List.length_map, List.length_take, List.length_drop]; omega⟩

/-- C49: for every supported configuration, whatever the arithmetic and the samples, the analysis transform accesses its buffers and its
tables within their limits; the sizes of the buffers are those of the instance, and `LC3_MAX_NS` for the local one. -/
theorem C49_forward_safe (A : Arith R) (sqrt : R → R) (dt : Dt) (sr srDst : Srate) (h : ¬ (dt = .m7_5 ∧ sr.hr = true))
    (hdst : ns dt srDst ≤ ns dt sr) (buf x d y : List R) (hb : ns dt sr ≤ buf.length) (hx : ns dt sr ≤ x.length) (hd : nd dt sr ≤ d.length)
    (hy : ns dt sr ≤ y.length) :
    ∃ y' d', mdctForward A sqrt (mdctTables A) dt sr srDst buf x d y = some (y', d') ∧ y'.length = y.length ∧ d'.length = d.length ∧
      d'.take (nd dt sr) = (x.drop (ns dt sr - nd dt sr)).take (nd dt sr) := by
  obtain ⟨h4, hpos, hnd, hn2, he⟩ := mdct_shape dt sr
  obtain ⟨a, b, rot, win, hab, hF, hrot, hrl, hwin, hwl⟩ := C37_tables A dt sr h
  have e2 : 2 * (ns dt sr / 2) = ns dt sr := by omega
  obtain ⟨u, d', w1, w2, w3, _, _⟩ := mdctWindow_spec (A.ofRat 0) A (ns dt sr) (nd dt sr) win x d buf h4 hnd hn2 he (by omega) hx hd hb
  have w5 : ∀ z : R, ∀ k, k < nd dt sr → d'.getD k z = x.getD (ns dt sr - nd dt sr + k) z := by
    intro z
    obtain ⟨u2, d2, v1, _, _, _, v5⟩ := mdctWindow_spec z A (ns dt sr) (nd dt sr) win x d buf h4 hnd hn2 he (by omega) hx hd hb
    rw [v1] at w1
    injection w1 with w1; injection w1 with w1 w1'
    rw [← w1']; exact v5
  obtain ⟨v, p1, p2, _⟩ := mdctPre_spec (A.ofRat 0) A (ns dt sr / 2) rot u (by omega) (by omega) (by omega)
  obtain ⟨in0, z0, z1, f1, f2, f3⟩ := fft_total (A.ofRat 0) A (mdctTables A) a b hF v y (by omega) (by omega)
  rw [← hab] at f1
  obtain ⟨y1, q1, q2, _⟩ := mdctPost_spec (A.ofRat 0) A (ns dt sr / 2) rot (if in0 then some z0 else none) z1 (by omega) (by omega)
    (by omega) (fun l hl => by
      cases in0 with
      | false => cases hl
      | true => injection hl with hl; rw [← hl]; omega)
  have hd' : d'.take (nd dt sr) = (x.drop (ns dt sr - nd dt sr)).take (nd dt sr) := by
    apply List.ext_getElem
    · rw [List.length_take, List.length_take, List.length_drop]; omega
    · intro k k1 k2
      have := w5 (A.ofRat 0) k (by rw [List.length_take] at k1; omega)
      rw [List.length_take] at k1
      rw [List.getD_eq_getElem _ _ (by omega), List.getD_eq_getElem _ _ (by omega)] at this
      rw [List.getElem_take, List.getElem_take, List.getElem_drop]
      exact this
  unfold mdctForward
  simp only [Option.bind_eq_bind]
  by_cases hs : ns dt sr = ns dt srDst
  · refine ⟨y1, d', ?_, by omega, by omega, hd'⟩
    rw [hrot, Option.bind_some, hwin, Option.bind_some, w1, Option.bind_some, p1,
      Option.bind_some, f1, Option.bind_some]
    dsimp only
    rw [q1, Option.bind_some, if_neg (by omega : ¬ ns dt sr ≠ ns dt srDst),
      Option.bind_some]
  · obtain ⟨y2, r1, r2⟩ := rescale_total A (ns dt srDst) (sqrt (A.div (A.ofInt (ns dt srDst)) (A.ofInt (ns dt sr)))) y1 (by omega)
    refine ⟨y2, d', ?_, by omega, by omega, hd'⟩
    rw [hrot, Option.bind_some, hwin, Option.bind_some, w1, Option.bind_some, p1,
      Option.bind_some, f1, Option.bind_some]
    dsimp only
    rw [q1, Option.bind_some, if_pos hs, r1,
      Option.bind_some]

/-- C49: likewise for the synthesis transform, in place (`x` is `none`) or not. -/
theorem C49_inverse_safe (A : Arith R) (sqrt : R → R) (dt : Dt) (sr srSrc : Srate) (h : ¬ (dt = .m7_5 ∧ sr.hr = true))
    (buf : List R) (x : Option (List R)) (d y : List R) (hb : ns dt sr ≤ buf.length) (hx : ∀ l, x = some l → ns dt sr ≤ l.length)
    (hd : nd dt sr ≤ d.length) (hy : ns dt sr ≤ y.length) :
    ∃ y' d', mdctInverse A sqrt (mdctTables A) dt sr srSrc buf x d y = some (y', d') ∧ y'.length = y.length ∧ d'.length = d.length := by
  obtain ⟨h4, hpos, hnd, hn2, he⟩ := mdct_shape dt sr
  obtain ⟨a, b, rot, win, hab, hF, hrot, hrl, hwin, hwl⟩ := C37_tables A dt sr h
  have e2 : 2 * (ns dt sr / 2) = ns dt sr := by omega
  obtain ⟨v, p1, p2, _⟩ := imdctPre_spec (A.ofRat 0) A (ns dt sr / 2) rot x y (by omega) (by omega) (by omega) (by rw [e2]; exact hx)
  obtain ⟨in0, z0, z1, f1, f2, f3⟩ := fft_total (A.ofRat 0) A (mdctTables A) a b hF v buf (by omega) (by omega)
  rw [← hab] at f1
  obtain ⟨u, q1, q2, _⟩ := imdctPost_spec (A.ofRat 0) A (ns dt sr / 2) rot (if in0 then some z0 else none) z1 (by omega) (by omega)
    (by omega) (fun l hl => by
      cases in0 with
      | false => cases hl
      | true => injection hl with hl; rw [← hl]; omega)
  obtain ⟨s, hs1, hs2⟩ : ∃ s, (if ns dt sr ≠ ns dt srSrc then
      rescale A (ns dt sr) (sqrt (A.div (A.ofInt (ns dt sr)) (A.ofInt (ns dt srSrc)))) u else some u) = some s ∧ s.length = u.length := by
    by_cases hs : ns dt sr = ns dt srSrc
    · rw [if_neg (by omega)]; exact ⟨_, rfl, rfl⟩
    · rw [if_pos hs]; exact rescale_total A _ _ u (by omega)
  obtain ⟨y', d', w1, w2, w3, _, _⟩ := imdctWindow_spec (A.ofRat 0) A (ns dt sr) (nd dt sr) win s d z0 h4 hnd hn2 he (by omega) (by omega) hd (by omega)
  refine ⟨y', d', ?_, by omega, w3⟩
  unfold mdctInverse
  simp only [Option.bind_eq_bind]
  rw [hrot, Option.bind_some, hwin, Option.bind_some, p1,
    Option.bind_some, f1, Option.bind_some]
  dsimp only
  rw [q1, Option.bind_some, hs1, Option.bind_some, w1]

example : ns .m10 .k48hr = 480 ∧ nd .m10 .k48hr = 300 := by decide

/-! ### Modified discrete cosine transform -/

/-- C49: in exact arithmetic, with exact twiddle factors, the spectrum of a frame is the modified discrete cosine transform of the
windowed samples: the `nd` last of the previous frame, kept as delay, followed by those of the frame; scaled when the coded rate is
not the one of the samples. The last `nd` samples are kept. -/
theorem C49_spectrum (sqrt : ℝ → ℝ) (T : MdctTables ℝ) (dt : Dt) (sr srDst : Srate) (hE : ExactMdct T dt sr) (win : List ℝ)
    (hwin : T.win dt sr = some win) (hwl : win.length = ns dt sr + nd dt sr) (hdst : ns dt srDst ≤ ns dt sr) (buf x d y : List ℝ)
    (hb : ns dt sr ≤ buf.length) (hx : x.length = ns dt sr) (hd : d.length = nd dt sr) (hy : ns dt sr ≤ y.length) :
    ∃ y' d', mdctForward Arith.real sqrt T dt sr srDst buf x d y = some (y', d') ∧ d' = x.drop (ns dt sr - nd dt sr) ∧
      ∀ k, k < ns dt srDst → y'.getD k 0 = (if ns dt sr = ns dt srDst then 1 else sqrt (ns dt srDst / ns dt sr)) *
        (Real.sqrt (2 / ns dt sr) * ∑ l ∈ range (2 * ns dt sr), (win.getD l 0 * (d ++ x).getD l 0) *
          Real.cos (Real.pi / ns dt sr * (l + 1 / 2 + ns dt sr / 2) * (k + 1 / 2))) := by
  obtain ⟨h4, hpos, hnd, hn2, he⟩ := mdct_shape dt sr
  obtain ⟨y', d', f1, f2, f3, f4, f5⟩ := mdctForward_spec sqrt T dt sr srDst hE win hwin (by omega) hdst buf x d y hb (by omega) (by omega) hy
  refine ⟨y', d', f1, ?_, fun k hk => ?_⟩
  · apply List.ext_getElem
    · rw [f3, hd, List.length_drop]; omega
    · intro k h1 h2
      have h3 := f5 k (by rw [← hd, ← f3]; exact h1)
      rw [List.getD_eq_getElem _ _ h1, List.getD_eq_getElem _ _ (by rw [List.length_drop] at h2; omega)] at h3
      rw [h3, List.getElem_drop]
  · rw [f4 k hk, dct4_unfold4 (ns dt sr) (nd dt sr) win x d h4 hpos hnd hn2 hwl (by omega) k]
    unfold rateScale mdct
    congr 1
    · by_cases c : ns dt sr = ns dt srDst
      · rw [if_pos c, if_neg (by omega)]
      · rw [if_neg c, if_pos c]
    · congr 1
      refine Finset.sum_congr rfl fun l hl => ?_
      congr 1
      unfold windowed span
      rw [mul_comm]
      congr 1
      by_cases c : l < nd dt sr
      · rw [if_pos c, List.getD_append _ _ _ _ (by omega)]
      · rw [if_neg c, List.getD_append_right _ _ _ _ (by omega), hd]

/-! ### Reconstruction -/

theorem forall₂_near_zero : ∀ (l m : List ℝ), List.Forall₂ (Near 0) l m → l = m
  | _, _, .nil => rfl
  | _, _, .cons h t => by
    unfold Near at h
    rw [zero_mul] at h
    have := abs_eq_zero.mp (le_antisymm h (abs_nonneg _))
    rw [forall₂_near_zero _ _ t, sub_eq_zero.mp this]

/-- C50: in exact arithmetic, with exact twiddle factors, the analysis and synthesis transforms of any number of frames give back the
samples, delayed by `2 nd - ns` samples (the delay reported by `lc3_delay_samples`), within the relative error of the window;
whatever the contents of the buffers not initialised. -/
theorem C50_reconstruction (sqrt : ℝ → ℝ) (T : MdctTables ℝ) (dt : Dt) (sr : Srate) (hE : ExactMdct T dt sr) (win : List ℝ)
    (hwin : T.win dt sr = some win) (hwl : win.length = ns dt sr + nd dt sr) (ε : ℝ) (hR : Reconstructs ε (ns dt sr) win)
    (xs : List (List ℝ)) (hx : ∀ x ∈ xs, x.length = ns dt sr) (js : List Scratch) (hlen : xs.length ≤ js.length) (hj : ∀ j ∈ js, j.Fits (ns dt sr)) :
    ∃ os, transformFrames sqrt T dt sr js (List.replicate (nd dt sr) 0) (List.replicate (nd dt sr) 0) xs = some os ∧
      List.Forall₂ (fun o s => |o - s| ≤ ε * |s|) os.flatten
        ((List.replicate (2 * nd dt sr - ns dt sr) 0 ++ xs.flatten).take (ns dt sr * xs.length)) := by
  obtain ⟨h4, hpos, hnd, hn2, he⟩ := mdct_shape dt sr
  obtain ⟨os, f1, _, _, f4⟩ := frames_spec sqrt T dt sr hE win hwin hwl ε hR xs js (fun _ => 0) _ _ hlen hj
    (linked_zero (ns dt sr) (nd dt sr) win) hx
  rw [List.drop_replicate, show nd dt sr - (ns dt sr - nd dt sr) = 2 * nd dt sr - ns dt sr by omega] at f4
  exact ⟨os, f1, f4⟩

/-- C50: the samples are given back exactly when the window meets the condition of Princen and Bradley. -/
theorem C50_exact (sqrt : ℝ → ℝ) (T : MdctTables ℝ) (dt : Dt) (sr : Srate) (hE : ExactMdct T dt sr) (win : List ℝ)
    (hwin : T.win dt sr = some win) (hwl : win.length = ns dt sr + nd dt sr) (hR : Reconstructs 0 (ns dt sr) win)
    (xs : List (List ℝ)) (hx : ∀ x ∈ xs, x.length = ns dt sr) (js : List Scratch) (hlen : xs.length ≤ js.length) (hj : ∀ j ∈ js, j.Fits (ns dt sr)) :
    ∃ os, transformFrames sqrt T dt sr js (List.replicate (nd dt sr) 0) (List.replicate (nd dt sr) 0) xs = some os ∧
      os.flatten = (List.replicate (2 * nd dt sr - ns dt sr) 0 ++ xs.flatten).take (ns dt sr * xs.length) := by
  obtain ⟨os, f1, f2⟩ := C50_reconstruction sqrt T dt sr hE win hwin hwl 0 hR xs hx js hlen hj
  exact ⟨os, f1, forall₂_near_zero _ _ f2⟩

/-! The windows of the code -/

/-- The condition on integers, of a scale, within `10^-7`. -/
def near1 (p : Nat) (a b c d : Int) : Bool := Nat.ble (Int.natAbs (a * b + c * d - Int.ofNat p) * 10000000) p

def near4 (p : Nat) : List Int → List Int → List Int → List Int → Bool
  | a :: as, b :: bs, c :: cs, d :: ds => near1 p a b c d && near4 p as bs cs ds
  | _, _, _, _ => true

theorem near4_spec (p : Nat) : ∀ (as bs cs ds : List Int), near4 p as bs cs ds = true → ∀ k, k < as.length → k < bs.length → k < cs.length →
    k < ds.length → near1 p (as.getD k 0) (bs.getD k 0) (cs.getD k 0) (ds.getD k 0) = true
  | a :: as, b :: bs, c :: cs, d :: ds, h, 0, _, _, _, _ => by
    rw [near4, Bool.and_eq_true] at h
    exact h.1
  | a :: as, b :: bs, c :: cs, d :: ds, h, k + 1, h1, h2, h3, h4 => by
    rw [near4, Bool.and_eq_true] at h
    simp only [List.length_cons] at h1 h2 h3 h4
    exact near4_spec p as bs cs ds h.2 k (by omega) (by omega) (by omega) (by omega)

/-- The windows of the code, on their integers. -/
def rawNear (n p : Nat) (w : List Int) : Bool :=
  near4 p (w.take n) ((w.drop n ++ List.replicate (2 * n - w.length) 0).reverse) (w.drop n ++ List.replicate (2 * n - w.length) 0) (w.take n).reverse

def rawNearAll (dt : Dt) (sr : Srate) : Bool := match winTable dt sr with
  | some t => Nat.ble (ns dt sr) t.2.length && Nat.ble t.2.length (2 * ns dt sr) && rawNear (ns dt sr) (10 ^ (2 * t.1)) t.2
  | none => true

theorem rawNear_ok (dt : Dt) (sr : Srate) : rawNearAll dt sr = true := by
  cases dt <;> cases sr <;> decide +kernel

theorem rawNear_spec (n p : Nat) (w : List Int) (h1 : n ≤ w.length) (h2 : w.length ≤ 2 * n) (h : rawNear n p w = true) (k : Nat) (hk : k < n) :
    near1 p (w.getD k 0) (w.getD (2 * n - 1 - k) 0) (w.getD (n + k) 0) (w.getD (n - 1 - k) 0) = true := by
  have hl : (w.drop n ++ List.replicate (2 * n - w.length) 0).length = n := by
    rw [List.length_append, List.length_drop, List.length_replicate]; omega
  have ht : (w.take n).length = n := by rw [List.length_take]; omega
  have hp : ∀ k, k < n → (w.drop n ++ List.replicate (2 * n - w.length) 0).getD k 0 = w.getD (n + k) 0 := by
    intro k hk
    by_cases c : n + k < w.length
    · rw [List.getD_append _ _ _ _ (by rw [List.length_drop]; omega), List.getD_eq_getElem?_getD, List.getElem?_drop, ← List.getD_eq_getElem?_getD]
    · rw [List.getD_append_right _ _ _ _ (by rw [List.length_drop]; omega), List.getD_replicate _ (by rw [List.length_drop]; omega),
        List.getD_eq_default _ _ (by omega)]
  have hq : ∀ k, k < n → (w.take n).getD k 0 = w.getD k 0 := by
    intro k hk
    rw [List.getD_eq_getElem?_getD, List.getElem?_take, if_pos hk, ← List.getD_eq_getElem?_getD]
  have hr : ∀ l : List Int, l.length = n → l.reverse.getD k 0 = l.getD (n - 1 - k) 0 := by
    intro l hl
    rw [List.getD_eq_getElem?_getD, List.getElem?_reverse (by omega), hl, ← List.getD_eq_getElem?_getD]
  have := near4_spec p _ _ _ _ h k (by omega) (by rw [List.length_reverse]; omega) (by omega) (by rw [List.length_reverse]; omega)
  rw [hr _ hl, hr _ ht, hp k hk, hp _ (by omega), hq k hk, hq _ (by omega), show n + (n - 1 - k) = 2 * n - 1 - k by omega] at this
  exact this

theorem getD_scaled (e : Nat) (l : List Int) (k : Nat) : (scaled Arith.real e l).getD k 0 = (l.getD k 0 : ℝ) / 10 ^ e := by
  unfold scaled
  by_cases hk : k < l.length
  · rw [List.getD_eq_getElem _ _ (by rw [List.length_map]; exact hk), List.getElem_map, List.getD_eq_getElem _ _ hk]
    show ((dec _ e : Rat) : ℝ) = _
    unfold dec
    rw [Rat.mkRat_eq_div]
    push_cast
    rfl
  · rw [List.getD_eq_default _ _ (by rw [List.length_map]; omega), List.getD_eq_default _ _ (by omega)]
    simp

/-- C50: the windows of the code meet the condition within a relative error of `10^-7`. -/
theorem C50_windows (dt : Dt) (sr : Srate) (win : List ℝ) (h : (mdctTables Arith.real).win dt sr = some win) :
    Reconstructs (1 / 10 ^ 7) (ns dt sr) win := by
  have hr := rawNear_ok dt sr
  unfold rawNearAll at hr
  change (winTable dt sr).map _ = _ at h
  cases hc : winTable dt sr with
  | none => rw [hc] at h; cases h
  | some t =>
    rw [hc] at h hr
    rw [Option.map_some] at h
    injection h with h
    subst h
    dsimp only at hr
    rw [Bool.and_eq_true, Bool.and_eq_true] at hr
    intro k hk
    have := Nat.le_of_ble_eq_true (rawNear_spec _ _ _ (Nat.le_of_ble_eq_true hr.1.1) (Nat.le_of_ble_eq_true hr.1.2) hr.2 k hk)
    unfold winGain
    rw [getD_scaled, getD_scaled, getD_scaled, getD_scaled]
    generalize t.2.getD k 0 = a at *
    generalize t.2.getD (2 * ns dt sr - 1 - k) 0 = b at *
    generalize t.2.getD (ns dt sr + k) 0 = c at *
    generalize t.2.getD (ns dt sr - 1 - k) 0 = d at *
    have hp : (0 : ℝ) < 10 ^ t.1 := by positivity
    have e : (a : ℝ) / 10 ^ t.1 * (b / 10 ^ t.1) + c / 10 ^ t.1 * (d / 10 ^ t.1) - 1 =
        ((a * b + c * d - 10 ^ (2 * t.1) : ℤ) : ℝ) / 10 ^ (2 * t.1) := by
      push_cast
      rw [show (10 : ℝ) ^ (2 * t.1) = 10 ^ t.1 * 10 ^ t.1 by rw [two_mul, pow_add]]
      field_simp
    rw [e, abs_div, abs_of_pos (show (0 : ℝ) < 10 ^ (2 * t.1) by positivity), div_le_div_iff₀ (by positivity) (by positivity), one_mul]
    rw [← Int.cast_abs]
    have h2 : (|a * b + c * d - 10 ^ (2 * t.1)| : ℤ) * 10 ^ 7 ≤ 10 ^ (2 * t.1) := by
      rw [Int.abs_eq_natAbs]
      have h3 : Int.ofNat (10 ^ (2 * t.1)) = 10 ^ (2 * t.1) := by rfl
      rw [h3] at this
      exact_mod_cast this
    exact_mod_cast h2

/-! ### Exact twiddles -/

/-- A table of complex numbers. -/
noncomputable def complexTable (f : ℕ → ℂ) (n : ℕ) : List ℝ := (List.range (2 * n)).map fun k => if k % 2 = 0 then (f (k / 2)).re else (f (k / 2)).im

theorem complexTable_spec (f : ℕ → ℂ) (n k : ℕ) (hk : k < n) : cplx (complexTable f n) k = f k := by
  have h : ∀ j, j < 2 * n → (complexTable f n).getD j 0 = if j % 2 = 0 then (f (j / 2)).re else (f (j / 2)).im := by
    intro j hj
    unfold complexTable
    rw [List.getD_eq_getElem _ _ (by rw [List.length_map, List.length_range]; exact hj), List.getElem_map, List.getElem_range]
  unfold cplx
  rw [h (2 * k) (by omega), h (2 * k + 1) (by omega), if_pos (by omega), if_neg (by omega), show 2 * k / 2 = k by omega,
    show (2 * k + 1) / 2 = k by omega]

/-- The tables of the code, the twiddle factors and rotations being exact; the windows are those of the code. -/
noncomputable def exactTables : MdctTables ℝ where
  cos1 := Real.cos (2 * Real.pi / 5)
  cos2 := Real.cos (4 * Real.pi / 5)
  sin1 := -Real.sin (2 * Real.pi / 5)
  sin2 := -Real.sin (4 * Real.pi / 5)
  bf3 i := some (5 * 3 ^ i, complexTable (fun k => if k % 2 = 0 then W (3 * (5 * 3 ^ i)) (k / 2) else W (3 * (5 * 3 ^ i)) (2 * (k / 2))) (6 * (5 * 3 ^ i)))
  bf2 i j := some (5 * 3 ^ j * 2 ^ i, complexTable (W (2 * (5 * 3 ^ j * 2 ^ i))) (5 * 3 ^ j * 2 ^ i))
  rot dt sr := some (ns dt sr / 2, complexTable (fun p => (Real.sqrt (Real.sqrt (2 / (2 * (ns dt sr / 2) : ℕ))) : ℂ) *
    Complex.exp (Real.pi * ((p : ℂ) + 1 / 8) / (2 * (ns dt sr / 2) : ℕ) * Complex.I)) (ns dt sr / 2))
  win dt sr := (mdctTables Arith.real).win dt sr

theorem complexTable_length (f : ℕ → ℂ) (n : ℕ) : (complexTable f n).length = 2 * n := by
  unfold complexTable; rw [List.length_map, List.length_range]

/-- The hypotheses on the tables are met. -/
theorem exactTables_fft (a b : ℕ) : ExactFft exactTables a b := by
  refine ⟨⟨rfl, rfl, rfl, rfl⟩, fun i _ => ⟨_, rfl, by rw [complexTable_length]; omega, fun k hk => ⟨?_, ?_⟩⟩,
    fun i _ => ⟨_, rfl, by rw [complexTable_length], fun k hk => complexTable_spec _ _ k hk⟩⟩
  · rw [complexTable_spec _ _ _ (by omega), if_pos (by omega), show 2 * k / 2 = k by omega]
  · rw [complexTable_spec _ _ _ (by omega), if_neg (by omega), show (2 * k + 1) / 2 = k by omega]

theorem exactTables_mdct (dt : Dt) (sr : Srate) : ExactMdct exactTables dt sr :=
  ⟨⟨_, _, fftExp_spec dt sr, exactTables_fft _ _⟩, ⟨_, rfl, by rw [complexTable_length], fun p hp => complexTable_spec _ _ p hp⟩⟩

/-- C37: the transform of a vector that is not null. -/
example : ∃ in0 z0 z1, fft Arith.real exactTables 30 (List.replicate 60 1) (List.replicate 60 0) = some (in0, z0, z1) :=
  let ⟨a, b, c, h, _⟩ := C37_fft_is_dft exactTables 1 1 (exactTables_fft 1 1) (List.replicate 60 1) (List.replicate 60 0) 30 rfl
    (by rw [List.length_replicate]) (by rw [List.length_replicate])
  ⟨a, b, c, h⟩

/-- C50: in exact arithmetic, with exact twiddle factors and the windows of the code, the analysis and synthesis transforms of any number of
frames give back the samples, delayed by the delay of the interface, within `10^-7` of each. -/
theorem C50_code_windows (sqrt : ℝ → ℝ) (dt : Dt) (sr : Srate) (h : ¬ (dt = .m7_5 ∧ sr.hr = true))
    (xs : List (List ℝ)) (hx : ∀ x ∈ xs, x.length = ns dt sr) (js : List Scratch) (hlen : xs.length ≤ js.length) (hj : ∀ j ∈ js, j.Fits (ns dt sr)) :
    ∃ os, transformFrames sqrt exactTables dt sr js (List.replicate (nd dt sr) 0) (List.replicate (nd dt sr) 0) xs = some os ∧
      List.Forall₂ (fun o s => |o - s| ≤ 1 / 10 ^ 7 * |s|) os.flatten
        ((List.replicate (2 * nd dt sr - ns dt sr) 0 ++ xs.flatten).take (ns dt sr * xs.length)) := by
  obtain ⟨a, b, rot, win, _, _, _, _, hwin, hwl⟩ := C37_tables Arith.real dt sr h
  exact C50_reconstruction sqrt exactTables dt sr (exactTables_mdct dt sr) win hwin hwl (1 / 10 ^ 7) (C50_windows dt sr win hwin) xs hx js hlen hj

/-- The delay is the one of the interface: 2.5 ms, or 4 ms for the frames of 7.5 ms. -/
theorem C50_delay (dt : Dt) (sr : Srate) : 2 * nd dt sr - ns dt sr = (if dt = .m7_5 then ns4m sr else ns2m5 sr) := by
  cases dt <;> cases sr <;> decide

/-- A rectangular window meets the condition exactly. -/
theorem C50_exact_window (n nd : ℕ) (h2 : n % 2 = 0) (hn : n ≤ 2 * nd) : Reconstructs 0 n ((List.range (n + nd)).map fun k => if n / 2 ≤ k ∧ k < 3 * (n / 2) then (1 : ℝ) else 0) := by
  have h : ∀ k, ((List.range (n + nd)).map fun k => if n / 2 ≤ k ∧ k < 3 * (n / 2) then (1 : ℝ) else 0).getD k 0 =
      if n / 2 ≤ k ∧ k < 3 * (n / 2) then (1 : ℝ) else 0 := by
    intro k
    by_cases hk : k < n + nd
    · rw [List.getD_eq_getElem _ _ (by rw [List.length_map, List.length_range]; exact hk), List.getElem_map, List.getElem_range]
    · rw [List.getD_eq_default _ _ (by rw [List.length_map, List.length_range]; omega), if_neg (by omega)]
  intro k hk
  unfold winGain
  rw [h, h, h, h]
  by_cases c : n / 2 ≤ k
  · rw [if_pos (show n / 2 ≤ k ∧ k < 3 * (n / 2) by omega), if_pos (show n / 2 ≤ 2 * n - 1 - k ∧ 2 * n - 1 - k < 3 * (n / 2) by omega),
      if_neg (show ¬ (n / 2 ≤ n + k ∧ n + k < 3 * (n / 2)) by omega)]
    simp
  · rw [if_neg (show ¬ (n / 2 ≤ k ∧ k < 3 * (n / 2)) by omega), if_pos (show n / 2 ≤ n + k ∧ n + k < 3 * (n / 2) by omega),
      if_pos (show n / 2 ≤ n - 1 - k ∧ n - 1 - k < 3 * (n / 2) by omega)]
    simp

example : (⟨List.replicate 960 0, List.replicate 960 0, List.replicate 960 0, List.replicate 480 0⟩ : Scratch).Fits (ns .m10 .k48) := by
  refine ⟨?_, ?_, ?_, ?_⟩ <;> (dsimp only; rw [List.length_replicate]; decide)

end LC3
