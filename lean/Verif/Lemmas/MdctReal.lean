import Verif.Lemmas.Mdct
import Verif.Lemmas.Dct

/-! The transforms of `src/mdct.c` in exact arithmetic, with exact twiddles. -/

namespace LC3

open Finset

/-- Exact tables for the transforms of a configuration. -/
structure ExactMdct (T : MdctTables ℝ) (dt : Dt) (sr : Srate) : Prop where
  fft : ∃ a b, ns dt sr / 2 = 5 * 3 ^ a * 2 ^ b ∧ ExactFft T a b
  rot : ExactRot (ns dt sr / 2) (T.rot dt sr)

theorem mdct_shape (dt : Dt) (sr : Srate) :
    ns dt sr % 4 = 0 ∧ 0 < ns dt sr ∧ nd dt sr ≤ ns dt sr ∧ ns dt sr ≤ 2 * nd dt sr ∧ (ns dt sr - nd dt sr) % 2 = 0 := by
  revert dt sr; intro dt sr; cases dt <;> cases sr <;> decide

/-- The samples before the type-IV transform, from the windowed and folded ones. -/
def unfold4 (n : ℕ) (y : ℕ → ℝ) (k : ℕ) : ℝ := if k < n / 2 then -y (n - 1 - k) else y (n - 1 - k)

theorem real_neg (x : ℝ) : Arith.real.neg x = -x := by
  unfold Arith.neg Arith.real; simp

theorem getD_eta (l : List ℝ) (m q : ℕ) : ∀ k, k < 2 * m → ∃ p, p < m ∧ (k = 2 * p ∨ k = 2 * m - 1 - 2 * p) := by
  intro k hk
  rcases Nat.even_or_odd' k with ⟨c, h | h⟩
  · exact ⟨c, by omega, Or.inl h⟩
  · exact ⟨m - 1 - c, by omega, Or.inr (by omega)⟩

theorem fwd_core (T : MdctTables ℝ) (m a b : ℕ) (hm : m = 5 * 3 ^ a * 2 ^ b) (he : m % 2 = 0) (hF : ExactFft T a b) (w : List ℝ)
    (hwl : 2 * m ≤ w.length)
    (hw : ∀ p, p < m → cplx w p = (Real.sqrt (Real.sqrt (2 / (2 * m : ℕ))) : ℂ) *
      Complex.exp (Real.pi * ((p : ℂ) + 1 / 8) / (2 * m : ℕ) * Complex.I))
    (u y : List ℝ) (hu : 2 * m ≤ u.length) (hy : 2 * m ≤ y.length) :
    ∃ v r y', mdctPre Arith.real (m, w) u = some v ∧ fft Arith.real T m v y = some r ∧
      mdctPost Arith.real (m, w) (if r.1 then some r.2.1 else none) r.2.2 = some y' ∧
      y'.length = y.length ∧ ∀ k, k < 2 * m → y'.getD k 0 = dct4 (2 * m) (unfold4 (2 * m) (u.getD · 0)) k := by
  have hm0 : 0 < m := by
    rw [hm]; exact Nat.mul_pos (Nat.mul_pos (by decide) (Nat.pow_pos (by decide))) (Nat.pow_pos (by decide))
  obtain ⟨v, v1, v2, v3⟩ := mdctPre_spec 0 Arith.real m w u he hwl hu
  obtain ⟨in0, z0, z1, r1, r2, r3, r4⟩ := fft_spec T a b hF v y (by rw [← hm]; omega) (by rw [← hm]; omega)
  rw [← hm] at r1 r4
  have hpre : ∀ p, p < m → cplx v p = (⟨unfold4 (2 * m) (u.getD · 0) (2 * p), unfold4 (2 * m) (u.getD · 0) (2 * m - 1 - 2 * p)⟩ : ℂ) *
      (starRingEnd ℂ) (cplx w p) := by
    intro p hp
    rw [cplx_cAt, v3 p hp]
    unfold preOut unfold4
    rw [show 2 * m / 2 = m by omega]
    by_cases c : p < m / 2
    · dsimp only
      rw [if_pos c, if_pos (show 2 * p < m by omega), if_neg (show ¬ 2 * m - 1 - 2 * p < m by omega), real_neg, show 2 * m - 1 - (2 * m - 1 - 2 * p) = 2 * p by omega]
      apply Complex.ext
      · simp only [ofPair, Complex.mul_re, Complex.conj_re, Complex.conj_im, cplx, cAt, Arith.real]; ring
      · simp only [ofPair, Complex.mul_im, Complex.conj_re, Complex.conj_im, cplx, cAt, Arith.real]; ring
    · dsimp only
      rw [if_neg c, if_neg (show ¬ 2 * p < m by omega), if_pos (show 2 * m - 1 - 2 * p < m by omega), real_neg, real_neg, show 2 * m - 1 - (2 * m - 1 - 2 * p) = 2 * p by omega]
      apply Complex.ext
      · simp only [ofPair, Complex.mul_re, Complex.conj_re, Complex.conj_im, cplx, cAt, Arith.real]; ring
      · simp only [ofPair, Complex.mul_im, Complex.conj_re, Complex.conj_im, cplx, cAt, Arith.real]; ring
  have hZ : ∀ q, q < m → cplx (if in0 then z0 else z1) q * (starRingEnd ℂ) (cplx w q) =
      ⟨dct4 (2 * m) (unfold4 (2 * m) (u.getD · 0)) (2 * q), -dct4 (2 * m) (unfold4 (2 * m) (u.getD · 0)) (2 * m - 1 - 2 * q)⟩ := by
    intro q hq
    rw [r4 q hq, Finset.sum_congr rfl (fun l hl => by rw [hpre l (Finset.mem_range.mp hl)])]
    exact dct4_fold m hm0 w hw _ q hq
  have hpost : ∃ y', mdctPost Arith.real (m, w) (if in0 then some z0 else none) z1 = some y' ∧
      y'.length = y.length ∧ ∀ p, p < m → y'.getD (2 * p) 0 = (postOut 0 Arith.real w (if in0 then z0 else z1) p).1 ∧
        y'.getD (2 * m - 1 - 2 * p) 0 = (postOut 0 Arith.real w (if in0 then z0 else z1) p).2 := by
    cases in0 with
    | true =>
      obtain ⟨y', h1, h2, _, h3⟩ := mdctPost_spec 0 Arith.real m w (some z0) z1 he hwl (by omega) (fun l hl => by
        injection hl with hl; rw [← hl]; omega)
      exact ⟨y', by rw [if_pos rfl]; exact h1, by omega, h3⟩
    | false =>
      obtain ⟨y', h1, h2, _, h3⟩ := mdctPost_spec 0 Arith.real m w none z1 he hwl (by omega) (fun l hl => by cases hl)
      exact ⟨y', by rw [if_neg (by decide)]; exact h1, by omega, h3⟩
  obtain ⟨y', p1, p2, p3⟩ := hpost
  refine ⟨v, _, y', v1, r1, p1, p2, fun k hk => ?_⟩
  obtain ⟨p, hp, hkp⟩ := getD_eta [] m 0 k hk
  have h := hZ p hp
  rw [Complex.ext_iff] at h
  obtain ⟨hre, him⟩ := h
  simp only [Complex.mul_re, Complex.mul_im, Complex.conj_re, Complex.conj_im] at hre him
  rcases hkp with rfl | rfl
  · rw [(p3 p hp).1, ← hre]
    unfold postOut
    simp only [cplx, cAt, Arith.real]; ring
  · rw [(p3 p hp).2]
    have : dct4 (2 * m) (unfold4 (2 * m) (u.getD · 0)) (2 * m - 1 - 2 * p) = -(-dct4 (2 * m) (unfold4 (2 * m) (u.getD · 0)) (2 * m - 1 - 2 * p)) := by ring
    rw [this, ← him]
    unfold postOut
    simp only [cplx, cAt, Arith.real]; ring

theorem inv_core (T : MdctTables ℝ) (m a b : ℕ) (hm : m = 5 * 3 ^ a * 2 ^ b) (he : m % 2 = 0) (hF : ExactFft T a b) (w : List ℝ)
    (hwl : 2 * m ≤ w.length)
    (hw : ∀ p, p < m → cplx w p = (Real.sqrt (Real.sqrt (2 / (2 * m : ℕ))) : ℂ) *
      Complex.exp (Real.pi * ((p : ℂ) + 1 / 8) / (2 * m : ℕ) * Complex.I))
    (x : Option (List ℝ)) (buf y : List ℝ) (hx : ∀ l, x = some l → 2 * m ≤ l.length) (hu : 2 * m ≤ buf.length) (hy : 2 * m ≤ y.length) :
    ∃ v r u, imdctPre Arith.real (m, w) x y = some v ∧ fft Arith.real T m v buf = some r ∧
      imdctPost Arith.real (m, w) (if r.1 then some r.2.1 else none) r.2.2 = some u ∧
      u.length = buf.length ∧ r.2.1.length = y.length ∧
      ∀ k, k < 2 * m → u.getD k 0 = -dct4 (2 * m) ((x.getD y).getD · 0) (2 * m - 1 - k) := by
  have hm0 : 0 < m := by
    rw [hm]; exact Nat.mul_pos (Nat.mul_pos (by decide) (Nat.pow_pos (by decide))) (Nat.pow_pos (by decide))
  obtain ⟨v, v1, v2, v3⟩ := imdctPre_spec 0 Arith.real m w x y he hwl hy hx
  obtain ⟨in0, z0, z1, r1, r2, r3, r4⟩ := fft_spec T a b hF v buf (by rw [← hm]; omega) (by rw [← hm]; omega)
  rw [← hm] at r1 r4
  have hpre : ∀ p, p < m → cplx v p = -((⟨(x.getD y).getD (2 * p) 0, (x.getD y).getD (2 * m - 1 - 2 * p) 0⟩ : ℂ) *
      (starRingEnd ℂ) (cplx w p)) := by
    intro p hp
    rw [cplx_cAt, v3 p hp]
    unfold ipreOut
    dsimp only
    rw [real_neg, real_neg]
    apply Complex.ext
    · simp only [ofPair, Complex.neg_re, Complex.mul_re, Complex.conj_re, Complex.conj_im, cplx, cAt, Arith.real]; ring
    · simp only [ofPair, Complex.neg_im, Complex.mul_im, Complex.conj_re, Complex.conj_im, cplx, cAt, Arith.real]; ring
  have hZ : ∀ q, q < m → cplx (if in0 then z0 else z1) q * (starRingEnd ℂ) (cplx w q) =
      -⟨dct4 (2 * m) ((x.getD y).getD · 0) (2 * q), -dct4 (2 * m) ((x.getD y).getD · 0) (2 * m - 1 - 2 * q)⟩ := by
    intro q hq
    rw [r4 q hq, Finset.sum_congr rfl (fun l hl => by rw [hpre l (Finset.mem_range.mp hl), neg_mul]), Finset.sum_neg_distrib, neg_mul,
      dct4_fold m hm0 w hw ((x.getD y).getD · 0) q hq]
  have hpost : ∃ u, imdctPost Arith.real (m, w) (if in0 then some z0 else none) z1 = some u ∧
      u.length = buf.length ∧ ∀ p, p < m → u.getD (2 * p) 0 = (ipostOut 0 Arith.real w (if in0 then z0 else z1) p).1 ∧
        u.getD (2 * m - 1 - 2 * p) 0 = (ipostOut 0 Arith.real w (if in0 then z0 else z1) p).2 := by
    cases in0 with
    | true =>
      obtain ⟨y', h1, h2, h3⟩ := imdctPost_spec 0 Arith.real m w (some z0) z1 he hwl (by omega) (fun l hl => by
        injection hl with hl; rw [← hl]; omega)
      exact ⟨y', by rw [if_pos rfl]; exact h1, by omega, h3⟩
    | false =>
      obtain ⟨y', h1, h2, h3⟩ := imdctPost_spec 0 Arith.real m w none z1 he hwl (by omega) (fun l hl => by cases hl)
      exact ⟨y', by rw [if_neg (by decide)]; exact h1, by omega, h3⟩
  obtain ⟨u, p1, p2, p3⟩ := hpost
  refine ⟨v, _, u, v1, r1, p1, p2, by rw [r2, v2], fun k hk => ?_⟩
  obtain ⟨p, hp, hkp⟩ := getD_eta [] m 0 k hk
  have h := hZ p hp
  rw [Complex.ext_iff] at h
  obtain ⟨hre, him⟩ := h
  simp only [Complex.mul_re, Complex.mul_im, Complex.conj_re, Complex.conj_im, Complex.neg_re, Complex.neg_im, neg_neg] at hre him
  rcases hkp with rfl | rfl
  · rw [(p3 p hp).1, ← him]
    unfold ipostOut
    simp only [cplx, cAt, Arith.real]; ring
  · rw [(p3 p hp).2, show 2 * m - 1 - (2 * m - 1 - 2 * p) = 2 * p by omega, ← hre]
    unfold ipostOut
    simp only [cplx, cAt, Arith.real]; ring

/-! ### The transforms -/

theorem rescale_real (n : ℕ) (f : ℝ) (x : List ℝ) (h4 : n % 4 = 0) (hx : n ≤ x.length) :
    ∃ y, rescale Arith.real n f x = some y ∧ y.length = x.length ∧ ∀ k, y.getD k 0 = if k < n then x.getD k 0 * f else x.getD k 0 := by
  unfold rescale
  rw [show n / 4 * 4 = n by omega, if_neg (by omega)]
  refine ⟨_, rfl, by rw [List.length_append, List.length_map, List.length_take, List.length_drop]; omega, fun k => ?_⟩
  have hl : ((x.take n).map (fun v => Arith.real.mul v f)).length = n := by rw [List.length_map, List.length_take]; omega
  by_cases hk : k < n
  · rw [if_pos hk, List.getD_append _ _ _ _ (by omega), List.getD_eq_getElem _ _ (by omega), List.getElem_map, List.getElem_take,
      List.getD_eq_getElem _ _ (by omega)]
    rfl
  · rw [if_neg hk, List.getD_append_right _ _ _ _ (by omega), hl, List.getD_eq_getElem?_getD, List.getElem?_drop,
      show n + (k - n) = k by omega, List.getD_eq_getElem?_getD]

/-- The factor applied when the rates differ. -/
noncomputable def rateScale (sqrt : ℝ → ℝ) (n n' : ℕ) : ℝ := if n ≠ n' then sqrt ((n' : ℝ) / n) else 1

theorem mdctForward_spec (sqrt : ℝ → ℝ) (T : MdctTables ℝ) (dt : Dt) (sr srDst : Srate) (hE : ExactMdct T dt sr) (win : List ℝ)
    (hwin : T.win dt sr = some win) (hwl : ns dt sr + nd dt sr ≤ win.length) (hdst : ns dt srDst ≤ ns dt sr) (buf x d y : List ℝ)
    (hb : ns dt sr ≤ buf.length) (hx : ns dt sr ≤ x.length) (hd : nd dt sr ≤ d.length) (hy : ns dt sr ≤ y.length) :
    ∃ y' d', mdctForward Arith.real sqrt T dt sr srDst buf x d y = some (y', d') ∧ y'.length = y.length ∧ d'.length = d.length ∧
      (∀ k, k < ns dt srDst → y'.getD k 0 = rateScale sqrt (ns dt sr) (ns dt srDst) *
        dct4 (ns dt sr) (unfold4 (ns dt sr) (winOut 0 Arith.real (ns dt sr) (nd dt sr) win x d)) k) ∧
      (∀ k, k < nd dt sr → d'.getD k 0 = x.getD (ns dt sr - nd dt sr + k) 0) := by
  obtain ⟨h4, hpos, hnd, hn2, he⟩ := mdct_shape dt sr
  obtain ⟨a, b, hab, hF⟩ := hE.fft
  obtain ⟨w, hrot, hrl, hw⟩ := hE.rot
  obtain ⟨u, d', w1, w2, w3, w4, w5⟩ := mdctWindow_spec 0 Arith.real (ns dt sr) (nd dt sr) win x d buf h4 hnd hn2 he hwl hx hd hb
  have e2 : 2 * (ns dt sr / 2) = ns dt sr := by omega
  obtain ⟨v, r, y1, c1, c2, c3, c4, c5⟩ := fwd_core T (ns dt sr / 2) a b hab (by omega) hF w hrl hw u y (by omega) (by omega)
  rw [e2] at c5
  have hcong : ∀ k, dct4 (ns dt sr) (unfold4 (ns dt sr) (u.getD · 0)) k =
      dct4 (ns dt sr) (unfold4 (ns dt sr) (winOut 0 Arith.real (ns dt sr) (nd dt sr) win x d)) k := by
    intro k
    unfold dct4
    congr 1
    refine Finset.sum_congr rfl fun l hl => ?_
    rw [Finset.mem_range] at hl
    unfold unfold4
    dsimp only
    rw [w4 (ns dt sr - 1 - l) (by omega)]
  unfold mdctForward
  rw [hrot, hwin]
  dsimp only [bind, Option.bind]
  rw [w1]
  dsimp only
  rw [c1]
  dsimp only
  rw [c2]
  dsimp only
  rw [c3]
  dsimp only
  unfold rateScale
  by_cases hne : ns dt sr ≠ ns dt srDst
  · obtain ⟨y2, s1, s2, s3⟩ := rescale_real (ns dt srDst) (sqrt (Arith.real.div (Arith.real.ofInt (ns dt srDst)) (Arith.real.ofInt (ns dt sr)))) y1
      (mdct_shape dt srDst).1 (by omega)
    rw [if_pos hne, s1]
    refine ⟨_, _, rfl, by omega, w3, fun k hk => ?_, w5⟩
    rw [s3, if_pos hk, c5 k (by omega), hcong, if_pos hne, mul_comm]
    congr 2
  · rw [if_neg hne]
    refine ⟨_, _, rfl, c4, w3, fun k hk => ?_, w5⟩
    rw [c5 k (by omega), hcong, if_neg hne, one_mul]

theorem mdctInverse_spec (sqrt : ℝ → ℝ) (T : MdctTables ℝ) (dt : Dt) (sr srSrc : Srate) (hE : ExactMdct T dt sr) (win : List ℝ)
    (hwin : T.win dt sr = some win) (hwl : ns dt sr + nd dt sr ≤ win.length) (buf : List ℝ) (x : Option (List ℝ)) (d y : List ℝ)
    (hb : ns dt sr ≤ buf.length) (hx : ∀ l, x = some l → ns dt sr ≤ l.length) (hd : nd dt sr ≤ d.length) (hy : ns dt sr ≤ y.length) :
    ∃ u y' d', mdctInverse Arith.real sqrt T dt sr srSrc buf x d y = some (y', d') ∧ y'.length = y.length ∧ d'.length = d.length ∧
      (∀ k, k < ns dt sr → u.getD k 0 = -(rateScale sqrt (ns dt srSrc) (ns dt sr) * dct4 (ns dt sr) ((x.getD y).getD · 0) (ns dt sr - 1 - k))) ∧
      (∀ k, k < ns dt sr → y'.getD k 0 = iwinOut 0 Arith.real (ns dt sr) (nd dt sr) win u d k) ∧
      (∀ k, k < nd dt sr → d'.getD k 0 = iwinTerm 0 Arith.real (ns dt sr) (nd dt sr) win u (ns dt sr + k)) := by
  obtain ⟨h4, hpos, hnd, hn2, he⟩ := mdct_shape dt sr
  obtain ⟨a, b, hab, hF⟩ := hE.fft
  obtain ⟨w, hrot, hrl, hw⟩ := hE.rot
  have e2 : 2 * (ns dt sr / 2) = ns dt sr := by omega
  obtain ⟨v, r, u1, c1, c2, c3, c4, c6, c5⟩ := inv_core T (ns dt sr / 2) a b hab (by omega) hF w hrl hw x buf y (by rw [e2]; exact hx) (by omega) (by omega)
  rw [e2] at c5
  obtain ⟨u, hu1, hu2, hu3⟩ : ∃ u, (if ns dt sr ≠ ns dt srSrc then
      rescale Arith.real (ns dt sr) (sqrt (Arith.real.div (Arith.real.ofInt (ns dt sr)) (Arith.real.ofInt (ns dt srSrc)))) u1
    else some u1) = some u ∧ u.length = u1.length ∧ ∀ k, k < ns dt sr → u.getD k 0 = rateScale sqrt (ns dt srSrc) (ns dt sr) * u1.getD k 0 := by
    unfold rateScale
    by_cases hne : ns dt sr ≠ ns dt srSrc
    · obtain ⟨y2, s1, s2, s3⟩ := rescale_real (ns dt sr) (sqrt (Arith.real.div (Arith.real.ofInt (ns dt sr)) (Arith.real.ofInt (ns dt srSrc)))) u1 h4
        (by omega)
      rw [if_pos hne, s1, if_pos (Ne.symm hne)]
      refine ⟨_, rfl, s2, fun k hk => ?_⟩
      rw [s3, if_pos hk, mul_comm]
      congr 2
    · rw [if_neg hne, if_neg (fun h => hne (Ne.symm h))]
      exact ⟨_, rfl, rfl, fun k _ => by rw [one_mul]⟩
  obtain ⟨y', d', w1, w2, w3, w4, _, w5⟩ := imdctWindow_spec 0 Arith.real (ns dt sr) (nd dt sr) win u d r.2.1 h4 hnd hn2 he hwl (by omega) hd (by omega)
  refine ⟨u, y', d', ?_, by omega, w3, fun k hk => by rw [hu3 k hk, c5 k hk]; ring, w4, w5⟩
  unfold mdctInverse
  rw [hrot, hwin]
  dsimp only [bind, Option.bind]
  rw [c1]
  dsimp only
  rw [c2]
  dsimp only
  rw [c3]
  dsimp only
  rw [hu1]
  dsimp only
  exact w1

/-! ### The transform of the windowed samples -/

/-- Samples of a transform: the delayed ones followed by those of the frame. -/
noncomputable def span (nd : ℕ) (d x : List ℝ) (k : ℕ) : ℝ := if k < nd then d.getD k 0 else x.getD (k - nd) 0

/-- The windowed samples, null out of the window. -/
noncomputable def windowed (nd : ℕ) (win d x : List ℝ) (k : ℕ) : ℝ := span nd d x k * win.getD k 0

theorem unfold4_low (n nd : ℕ) (win x d : List ℝ) (h4 : n % 4 = 0) (hd : nd ≤ n) (hn : n ≤ 2 * nd) (hw : win.length = n + nd) (hx : n ≤ x.length)
    (k : ℕ) (hk : k < n / 2) :
    unfold4 n (winOut 0 Arith.real n nd win x d) k =
      -windowed nd win d x (n + n / 2 - 1 - k) - windowed nd win d x (n + n / 2 + k) := by
  unfold unfold4 winOut windowed span
  rw [if_pos hk, if_neg (show ¬ n - 1 - k < n / 2 by omega)]
  dsimp only
  rw [if_neg (show ¬ n + n / 2 - 1 - k < nd by omega), if_neg (show ¬ n + n / 2 + k < nd by omega)]
  rw [show n + n / 2 - 1 - k - nd = n - nd + (n - 1 - k - n / 2) by omega, show n + n / 2 - 1 - k = n + (n - 1 - k - n / 2) by omega]
  by_cases c : n - 1 - k - n / 2 < n - nd
  · rw [if_pos c, List.getD_eq_default win 0 (show win.length ≤ n + n / 2 + k by omega)]
    unfold Arith.real; ring
  · rw [if_neg c, show 2 * n - nd - (n - 1 - k - n / 2) - 1 = n + n / 2 + k - nd by omega, show 2 * n - 1 - (n - 1 - k - n / 2) = n + n / 2 + k by omega]
    unfold Arith.real; ring

theorem unfold4_high (n nd : ℕ) (win x d : List ℝ) (h4 : n % 4 = 0) (hd : nd ≤ n) (hn : n ≤ 2 * nd) (k : ℕ) (hk : n / 2 ≤ k) (hk2 : k < n) :
    unfold4 n (winOut 0 Arith.real n nd win x d) k =
      windowed nd win d x (k - n / 2) - windowed nd win d x (n + n / 2 - 1 - k) := by
  unfold unfold4 winOut windowed span
  rw [if_neg (by omega), if_pos (show n - 1 - k < n / 2 by omega)]
  dsimp only
  rw [if_pos (show k - n / 2 < nd by omega), show n / 2 - 1 - (n - 1 - k) = k - n / 2 by omega, show n - 1 - (k - n / 2) = n + n / 2 - 1 - k by omega]
  by_cases c : k - n / 2 < n - nd
  · rw [if_pos c, if_neg (show ¬ n + n / 2 - 1 - k < nd by omega), show n - nd - (k - n / 2) - 1 = n + n / 2 - 1 - k - nd by omega]
    rfl
  · rw [if_neg c, if_pos (show n + n / 2 - 1 - k < nd by omega)]
    rfl

theorem cos_odd_pi_sub (x : ℝ) (k : ℕ) : Real.cos (Real.pi * (2 * (k : ℝ) + 1) - x) = -Real.cos x := by
  rw [← Real.cos_neg x, ← cos_neg_shift _ (k : ℤ)]
  congr 1
  push_cast; ring

theorem cos_odd_pi_add (x : ℝ) (k : ℕ) : Real.cos (Real.pi * (2 * (k : ℝ) + 1) + x) = -Real.cos x := by
  rw [← cos_neg_shift _ (k : ℤ)]
  congr 1
  push_cast; ring

/-- The modified discrete cosine transform of `2 n` samples. -/
noncomputable def mdct (n : ℕ) (v : ℕ → ℝ) (k : ℕ) : ℝ :=
  Real.sqrt (2 / n) * ∑ l ∈ range (2 * n), v l * Real.cos (Real.pi / n * ((l : ℝ) + 1 / 2 + n / 2) * ((k : ℝ) + 1 / 2))

theorem dct4_unfold4 (n nd : ℕ) (win x d : List ℝ) (h4 : n % 4 = 0) (hn0 : 0 < n) (hd : nd ≤ n) (hn : n ≤ 2 * nd) (hw : win.length = n + nd)
    (hx : n ≤ x.length) (k : ℕ) :
    dct4 n (unfold4 n (winOut 0 Arith.real n nd win x d)) k = mdct n (windowed nd win d x) k := by
  unfold dct4 mdct
  congr 1
  obtain ⟨m, rfl⟩ : ∃ m, n = 2 * m := ⟨n / 2, by omega⟩
  have hm0 : (m : ℝ) ≠ 0 := by exact_mod_cast (by omega : m ≠ 0)
  have em : 2 * m / 2 = m := by omega
  have s1 : ∀ f : ℕ → ℝ, ∑ l ∈ range (2 * m), f l = ∑ l ∈ range m, f l + ∑ l ∈ range m, f (m + l) := by
    intro f; rw [two_mul, Finset.sum_range_add]
  have s2 : ∀ f : ℕ → ℝ, ∑ l ∈ range (2 * (2 * m)), f l = ∑ l ∈ range m, f l + ∑ l ∈ range m, f (2 * m - 1 - l) + ∑ l ∈ range m, f (3 * m - 1 - l) +
      ∑ l ∈ range m, f (3 * m + l) := by
    intro f
    rw [show 2 * (2 * m) = m + m + m + m by ring, Finset.sum_range_add, Finset.sum_range_add, Finset.sum_range_add]
    congr 1
    · congr 1
      · congr 1
        rw [← Finset.sum_range_reflect (fun l => f (m + l))]
        exact Finset.sum_congr rfl fun l hl => by rw [Finset.mem_range] at hl; congr 1; omega
      · rw [← Finset.sum_range_reflect (fun l => f (m + m + l))]
        exact Finset.sum_congr rfl fun l hl => by rw [Finset.mem_range] at hl; congr 1; omega
    · exact Finset.sum_congr rfl fun l hl => by congr 1; omega
  rw [s1, s2]
  have k0 : ∀ l : ℕ, Real.cos (Real.pi / (2 * m : ℕ) * ((l : ℝ) + 1 / 2 + (2 * m : ℕ) / 2) * ((k : ℝ) + 1 / 2)) =
      Real.cos (Real.pi / (2 * m : ℕ) * (((m + l : ℕ) : ℝ) + 1 / 2) * ((k : ℝ) + 1 / 2)) := by
    intro l; congr 1; push_cast; ring
  have k1 : ∀ l, l < m → Real.cos (Real.pi / (2 * m : ℕ) * (((2 * m - 1 - l : ℕ) : ℝ) + 1 / 2 + (2 * m : ℕ) / 2) * ((k : ℝ) + 1 / 2)) =
      -Real.cos (Real.pi / (2 * m : ℕ) * (((m + l : ℕ) : ℝ) + 1 / 2) * ((k : ℝ) + 1 / 2)) := by
    intro l hl
    rw [← cos_odd_pi_sub _ k, show 2 * m - 1 - l = 2 * m - (1 + l) by omega, Nat.cast_sub (by omega)]
    congr 1
    push_cast; field_simp; ring
  have k2 : ∀ l, l < m → Real.cos (Real.pi / (2 * m : ℕ) * (((3 * m - 1 - l : ℕ) : ℝ) + 1 / 2 + (2 * m : ℕ) / 2) * ((k : ℝ) + 1 / 2)) =
      -Real.cos (Real.pi / (2 * m : ℕ) * ((l : ℝ) + 1 / 2) * ((k : ℝ) + 1 / 2)) := by
    intro l hl
    rw [← cos_odd_pi_sub _ k, show 3 * m - 1 - l = 3 * m - (1 + l) by omega, Nat.cast_sub (by omega)]
    congr 1
    push_cast; field_simp; ring
  have k3 : ∀ l : ℕ, Real.cos (Real.pi / (2 * m : ℕ) * (((3 * m + l : ℕ) : ℝ) + 1 / 2 + (2 * m : ℕ) / 2) * ((k : ℝ) + 1 / 2)) =
      -Real.cos (Real.pi / (2 * m : ℕ) * ((l : ℝ) + 1 / 2) * ((k : ℝ) + 1 / 2)) := by
    intro l
    rw [← cos_odd_pi_add _ k]
    congr 1
    push_cast; field_simp; ring
  rw [show ∀ a b c e : ℝ, a + b + c + e = (c + e) + (a + b) by intros; ring]
  congr 1
  · rw [← Finset.sum_add_distrib]
    refine Finset.sum_congr rfl fun l hl => ?_
    rw [Finset.mem_range] at hl
    rw [unfold4_low (2 * m) nd win x d h4 hd hn hw hx l (by omega), k2 l hl, k3, em, show 2 * m + m - 1 - l = 3 * m - 1 - l by omega,
      show 2 * m + m + l = 3 * m + l by omega]
    ring
  · rw [← Finset.sum_add_distrib]
    refine Finset.sum_congr rfl fun l hl => ?_
    rw [Finset.mem_range] at hl
    rw [unfold4_high (2 * m) nd win x d h4 hd hn (m + l) (by omega) (by omega), k0, k1 l hl, em, show m + l - m = l by omega,
      show 2 * m + m - 1 - (m + l) = 2 * m - 1 - l by omega]
    ring

end LC3
