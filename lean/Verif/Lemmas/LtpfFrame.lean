import Verif.Lemmas.LtpfFilter

/-
Synthesis of a frame by the long term postfilter: the transition and the remainder are one run of the filter.
-/

namespace LC3

section
variable {R : Type} (A : Arith R)

theorem part_shift (c : List R) (w : Nat) (Y Y' X X' : Nat → R) (t t' cnt : Nat)
    (h : ∀ k < cnt, Y (t + k) = Y' (t' + k) ∧ X (t + k) = X' (t' + k)) :
    part A c w Y X t cnt = part A c w Y' X' t' cnt := by
  induction cnt with
  | zero => rfl
  | succ cnt ih =>
    simp only [part, tap]
    rw [ih (fun k hk => h k (by omega)), (h cnt (by omega)).1, (h cnt (by omega)).2]

theorem at0_slice {l m : List R} {base back n : Nat} (h : slice? l base back n = some m) (i : Nat) (hi : i < n) :
    at0 A m i = at0 A l (base - back + i) := by
  unfold slice? at h
  by_cases c : back ≤ base ∧ base - back + n ≤ l.length
  · rw [if_pos c] at h
    rw [← Option.some.inj h]
    unfold at0
    rw [List.getD_eq_getElem?_getD, List.getD_eq_getElem?_getD, List.getElem?_take_of_lt hi, List.getElem?_drop]
  · rw [if_neg c] at h; cases h

/-- Gain of the sample `t`: `nt` samples of transition when the filter was not active. -/
def frameGain (was : Bool) (nt n t : Nat) : R :=
  if t < nt then
    if was then gains A (A.ofInt 1) (A.div (A.ofInt 0) (A.ofInt nt)) t
    else gains A (A.ofInt 0) (A.div (A.ofInt 1) (A.ofInt nt)) t
  else gains A (A.ofInt 1) (A.div (A.ofInt 0) (A.ofInt (n - nt : Nat))) (t - nt)

theorem ltpfFilter_active (dt : Dt) (sr : Srate) (h : sr.hr = false) (s : LtpfS R) (ring : List R)
    (x p : Nat) (hp : p < 512) (hr : ring.length = ns dt sr + nh dt sr) (hx : FramePos dt sr x)
    (c x00 x01 : List R) (hc : c.length = 2 * ltpfWidth sr) (h00 : x00.length = ltpfWidth sr - 1)
    (h01 : slice? ring (x + ns dt sr / (1 + dt.idx)) (ltpfWidth sr - 1) (ltpfWidth sr - 1) = some x01)
    (hpt : s.active = true → s.pitch = outPitch sr p) :
    ∃ ring', ltpfFilter A s ring (ns dt sr + nh dt sr) x (ns dt sr) (ns dt sr / (1 + dt.idx)) (ltpfWidth sr)
        (outPitch sr p) true c x00 x01 = some ring' ∧ ring'.length = ns dt sr + nh dt sr ∧
      FilterEq A ring' (outPitch sr p / 4 + ltpfWidth sr / 2) (inputs A x00 (ltpfWidth sr) ring x) x (ns dt sr) c
        (ltpfWidth sr) (frameGain A s.active (ns dt sr / (1 + dt.idx)) (ns dt sr)) := by
  obtain ⟨h1, h2, h3, h4, h5, h6, h7, -⟩ := dims dt sr h
  obtain ⟨l1, l2⟩ := lag_range dt sr h p hp
  have hf := hx.fits
  generalize hN : ns dt sr + nh dt sr = N at *
  generalize hnt : ns dt sr / (1 + dt.idx) = nt at *
  generalize ltpfWidth sr = w at *
  generalize outPitch sr p = pt at *
  generalize ns dt sr = n at *
  generalize nh dt sr = nhh at *
  have l01 : x01.length = w - 1 := by
    obtain ⟨a, b⟩ := slice?_eq ring (x + nt) (w - 1) (w - 1) (by omega) (by omega)
    rw [← Option.some.inj (a.symm.trans h01)]
    exact b
  have hfirst : ∃ ring1, ltpfTransition A s ring N x nt w pt true c x00 = some ring1 ∧ ring1.length = N ∧
      (∀ i, i < x ∨ x + nt ≤ i → at0 A ring1 i = at0 A ring i) ∧
      FilterEq A ring1 (pt / 4 + w / 2) (inputs A x00 w ring x) x nt c w (frameGain A s.active nt n) := by
    unfold ltpfTransition
    cases hs : s.active with
    | false =>
      obtain ⟨r, e1, e2, e3, e4⟩ := synthTemplate_eq A ring N (pt / 4) x00 x nt c w 1 hr (by omega) (by omega) h3 h4
        h00 (by omega) l1 (by omega)
      refine ⟨r, e1, e2, e3, ?_⟩
      intro t ht
      rw [e4 t ht]
      unfold frameGain
      rw [if_pos ht]
      rfl
    | true =>
      obtain ⟨r, e1, e2, e3, e4⟩ := synthTemplate_eq A ring N (pt / 4) x00 x nt c w 0 hr (by omega) (by omega) h3 h4
        h00 (by omega) l1 (by omega)
      refine ⟨r, ?_, e2, e3, ?_⟩
      · rw [hpt hs]
        simpa using e1
      · intro t ht
        rw [e4 t ht]
        unfold frameGain
        rw [if_pos ht]
        rfl
  obtain ⟨ring1, e1, e2, e3, e4⟩ := hfirst
  unfold ltpfFilter
  rw [e1, Option.bind_some]
  by_cases c5 : true = true ∧ n > nt
  · rw [if_pos c5]
    obtain ⟨r, f1, f2, f3, f4⟩ := synthTemplate_eq A ring1 N (pt / 4) x01 (x + nt) (n - nt) c w 0 e2 (by omega)
      (by omega) (by omega) h6 l01 (by omega) l1 (by omega)
    refine ⟨r, f1, f2, ?_⟩
    generalize pt / 4 + w / 2 = L at *
    intro t ht
    by_cases ct : t < nt
    · rw [f3 (x + t) (by omega), e4 t ct, e2, f2]
      congr 2
      apply part_shift
      intro k hk
      refine ⟨?_, rfl⟩
      refine (f3 _ ?_).symm
      by_cases cc : x + (t + k) < L
      · rw [Nat.mod_eq_of_lt (show x + N - L + (t + k) < N by omega)]; omega
      · rw [show x + N - L + (t + k) = (x + (t + k) - L) + N by omega, Nat.add_mod_right,
          Nat.mod_eq_of_lt (by omega)]; omega
    · obtain ⟨j, rfl⟩ : ∃ j, t = nt + j := ⟨t - nt, by omega⟩
      have hX : ∀ i, inputs A x01 w ring1 (x + nt) i = inputs A x00 w ring x (nt + i) := by
        intro i
        unfold inputs
        rw [if_neg (show ¬ nt + i < w - 1 by omega)]
        by_cases ci : i < w - 1
        · rw [if_pos ci, at0_slice A h01 i ci]
          congr 1; omega
        · rw [if_neg ci, e3 _ (by omega)]
          congr 1; omega
      have := f4 j (by omega)
      rw [show x + nt + j = x + (nt + j) by omega] at this
      rw [this, f2, hX (w - 1 + j), show nt + (w - 1 + j) = w - 1 + (nt + j) by omega]
      have hg : frameGain A s.active nt n (nt + j) =
          gains A (A.ofInt 1) (A.div (A.ofInt 0) (A.ofInt (n - nt : Nat))) j := by
        unfold frameGain
        rw [if_neg (by omega), show nt + j - nt = j by omega]
      rw [hg]
      show A.sub _ (A.mul (gains A (A.ofInt 1) (A.div (A.ofInt 0) (A.ofInt (n - nt : Nat))) j) _) = _
      congr 2
      apply part_shift
      intro k hk
      refine ⟨?_, ?_⟩
      · congr 2; omega
      · rw [hX, Nat.add_assoc]
  · rw [if_neg c5]
    have hnn : n = nt := by simp only [true_and] at c5; omega
    refine ⟨ring1, rfl, e2, ?_⟩
    subst hnn
    exact e4

end

end LC3
