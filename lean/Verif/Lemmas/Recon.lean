import Verif.Lemmas.MdctReal

/-! The inverse transform of the transform of successive frames: reconstruction of the samples. -/

namespace LC3

open Finset

/-- The gain of the analysis and synthesis windows at a position of the frame: the condition of Princen and Bradley. -/
def winGain (n : ℕ) (win : List ℝ) (k : ℕ) : ℝ :=
  win.getD k 0 * win.getD (2 * n - 1 - k) 0 + win.getD (n + k) 0 * win.getD (n - 1 - k) 0

/-- The windows reconstruct the samples, within a relative error. -/
def Reconstructs (ε : ℝ) (n : ℕ) (win : List ℝ) : Prop := ∀ k, k < n → |winGain n win k - 1| ≤ ε

/-- A value reconstructed within a relative error. -/
def Near (ε a b : ℝ) : Prop := |a - b| ≤ ε * |b|

theorem iwinOut_real (n nd : ℕ) (win x d u e : List ℝ) (h4 : n % 4 = 0) (hd : nd ≤ n) (hn : n ≤ 2 * nd) (hw : win.length = n + nd)
    (hx : n ≤ x.length)
    (hu : ∀ k, k < n → u.getD k 0 = -unfold4 n (winOut 0 Arith.real n nd win x d) (n - 1 - k)) (k : ℕ) (hk : k < n) :
    iwinOut 0 Arith.real n nd win u e k = (if k < nd then e.getD k 0 else 0) +
      (windowed nd win d x (n - nd + k) - (if k < nd then windowed nd win d x (nd - 1 - k) else 0)) * win.getD (n + nd - 1 - k) 0 := by
  unfold iwinOut
  by_cases c1 : k < nd - n / 2
  · rw [if_pos c1, if_pos (show k < nd by omega), if_pos (show k < nd by omega), hu (nd - n / 2 - 1 - k) (by omega),
      unfold4_high n nd win x d h4 hd hn (n - 1 - (nd - n / 2 - 1 - k)) (by omega) (by omega),
      show n - 1 - (nd - n / 2 - 1 - k) - n / 2 = n - nd + k by omega,
      show n + n / 2 - 1 - (n - 1 - (nd - n / 2 - 1 - k)) = nd - 1 - k by omega]
    unfold Arith.real; ring
  · rw [if_neg c1]
    unfold iwinTerm
    rw [if_pos hk, hu (k + n / 2 - nd) (by omega)]
    by_cases c2 : k < nd
    · rw [if_pos c2, if_pos c2, if_pos c2, unfold4_high n nd win x d h4 hd hn (n - 1 - (k + n / 2 - nd)) (by omega) (by omega),
        show n - 1 - (k + n / 2 - nd) - n / 2 = nd - 1 - k by omega,
        show n + n / 2 - 1 - (n - 1 - (k + n / 2 - nd)) = n - nd + k by omega]
      unfold Arith.real; ring
    · rw [if_neg c2, if_neg c2, if_neg c2, unfold4_low n nd win x d h4 hd hn hw hx (n - 1 - (k + n / 2 - nd)) (by omega),
        show n + n / 2 - 1 - (n - 1 - (k + n / 2 - nd)) = n - nd + k by omega]
      have : windowed nd win d x (n + n / 2 + (n - 1 - (k + n / 2 - nd))) = 0 := by
        unfold windowed
        rw [List.getD_eq_default win 0 (by omega), mul_zero]
      rw [this]
      unfold Arith.real; ring

theorem iwinTerm_real (n nd : ℕ) (win x d u : List ℝ) (h4 : n % 4 = 0) (hd : nd ≤ n) (hn : n ≤ 2 * nd) (hw : win.length = n + nd)
    (hx : n ≤ x.length)
    (hu : ∀ k, k < n → u.getD k 0 = -unfold4 n (winOut 0 Arith.real n nd win x d) (n - 1 - k)) (k : ℕ) (hk : k < nd) :
    iwinTerm 0 Arith.real n nd win u (n + k) =
      (windowed nd win d x (n + (n - nd + k)) + windowed nd win d x (n + nd - 1 - k)) * win.getD (nd - 1 - k) 0 := by
  unfold iwinTerm
  rw [if_neg (by omega), show n + k - n = k by omega]
  by_cases c : k < nd - n / 2
  · rw [if_pos c, hu (3 * (n / 2) - nd + k) (by omega),
      unfold4_low n nd win x d h4 hd hn hw hx (n - 1 - (3 * (n / 2) - nd + k)) (by omega),
      show n + n / 2 - 1 - (n - 1 - (3 * (n / 2) - nd + k)) = n + (n - nd + k) by omega,
      show n + n / 2 + (n - 1 - (3 * (n / 2) - nd + k)) = n + nd - 1 - k by omega]
    unfold Arith.real; ring
  · rw [if_neg c, hu (n / 2 + nd - 1 - k) (by omega),
      unfold4_low n nd win x d h4 hd hn hw hx (n - 1 - (n / 2 + nd - 1 - k)) (by omega),
      show n + n / 2 - 1 - (n - 1 - (n / 2 + nd - 1 - k)) = n + nd - 1 - k by omega,
      show n + n / 2 + (n - 1 - (n / 2 + nd - 1 - k)) = n + (n - nd + k) by omega]
    unfold Arith.real; ring

/-- The states of both sides after a frame of samples `s`. -/
structure Linked (n nd : ℕ) (win : List ℝ) (s : ℕ → ℝ) (d e : List ℝ) : Prop where
  ld : d.length = nd
  le : e.length = nd
  hd : ∀ k, k < nd → d.getD k 0 = s (n + k)
  he : ∀ k, k < nd → e.getD k 0 = (s (n + (n - nd + k)) * win.getD (n + (n - nd + k)) 0 +
    s (n + nd - 1 - k) * win.getD (n + nd - 1 - k) 0) * win.getD (nd - 1 - k) 0

theorem recon_step (n nd : ℕ) (win x d u e : List ℝ) (h4 : n % 4 = 0) (hd : nd ≤ n) (hn : n ≤ 2 * nd) (hw : win.length = n + nd)
    (hx : n ≤ x.length) (s : ℕ → ℝ) (hL : Linked n nd win s d e)
    (hu : ∀ k, k < n → u.getD k 0 = -unfold4 n (winOut 0 Arith.real n nd win x d) (n - 1 - k)) (k : ℕ) (hk : k < n) :
    iwinOut 0 Arith.real n nd win u e k = span nd d x (n - nd + k) * winGain n win ((n - nd + k) % n) := by
  rw [iwinOut_real n nd win x d u e h4 hd hn hw hx hu k hk]
  unfold windowed
  by_cases c : k < nd
  · rw [if_pos c, if_pos c, hL.he k c]
    have h1 : s (n + (n - nd + k)) * win.getD (n + (n - nd + k)) 0 = span nd d x (n - nd + k) * win.getD (n + (n - nd + k)) 0 := by
      by_cases c2 : n - nd + k < nd
      · unfold span; rw [if_pos c2, hL.hd _ c2]
      · rw [List.getD_eq_default win 0 (by omega), mul_zero, mul_zero]
    have h2 : s (n + nd - 1 - k) = span nd d x (nd - 1 - k) := by
      unfold span; rw [if_pos (by omega), hL.hd _ (by omega)]
      congr 1; omega
    rw [h1, h2]
    rw [Nat.mod_eq_of_lt (by omega)]
    unfold winGain
    rw [show 2 * n - 1 - (n - nd + k) = n + nd - 1 - k by omega, show n - 1 - (n - nd + k) = nd - 1 - k by omega]
    ring
  · rw [if_neg c, if_neg c]
    rw [show (n - nd + k) % n = k - nd by rw [show n - nd + k = (k - nd) + n by omega, Nat.add_mod_right, Nat.mod_eq_of_lt (by omega)]]
    unfold winGain
    rw [List.getD_eq_default win 0 (n := 2 * n - 1 - (k - nd)) (by omega), show n + (k - nd) = n - nd + k by omega,
      show n - 1 - (k - nd) = n + nd - 1 - k by omega]
    ring

/-! ### A frame -/

/-- Contents of the buffers not initialised, used for a frame. -/
structure Scratch where
  fbuf : List ℝ
  fout : List ℝ
  ibuf : List ℝ
  iout : List ℝ

/-- The transform of a frame of samples, followed by the inverse transform: states are the delayed samples of both sides. -/
noncomputable def transformFrame (sqrt : ℝ → ℝ) (T : MdctTables ℝ) (dt : Dt) (sr : Srate) (j : Scratch) (d e x : List ℝ) :
    Option (List ℝ × List ℝ × List ℝ) :=
  (mdctForward Arith.real sqrt T dt sr sr j.fbuf x d j.fout).bind fun f =>
  (mdctInverse Arith.real sqrt T dt sr sr j.ibuf (some f.1) e j.iout).bind fun o => some (o.1, f.2, o.2)

/-- Sizes of the buffers. -/
structure Scratch.Fits (j : Scratch) (n : ℕ) : Prop where
  fbuf : n ≤ j.fbuf.length
  fout : n ≤ j.fout.length
  ibuf : n ≤ j.ibuf.length
  iout : j.iout.length = n

theorem frame_spec (sqrt : ℝ → ℝ) (T : MdctTables ℝ) (dt : Dt) (sr : Srate) (hE : ExactMdct T dt sr) (win : List ℝ)
    (hwin : T.win dt sr = some win) (hwl : win.length = ns dt sr + nd dt sr) (ε : ℝ) (hR : Reconstructs ε (ns dt sr) win) (j : Scratch)
    (hj : j.Fits (ns dt sr)) (s : ℕ → ℝ) (d e x : List ℝ) (hL : Linked (ns dt sr) (nd dt sr) win s d e) (hx : x.length = ns dt sr) :
    ∃ o d' e', transformFrame sqrt T dt sr j d e x = some (o, d', e') ∧ o.length = ns dt sr ∧
      (∀ k, k < ns dt sr → Near ε (o.getD k 0) (span (nd dt sr) d x (ns dt sr - nd dt sr + k))) ∧ d' = x.drop (ns dt sr - nd dt sr) ∧
      Linked (ns dt sr) (nd dt sr) win (span (nd dt sr) d x) d' e' := by
  obtain ⟨h4, hpos, hnd, hn2, he⟩ := mdct_shape dt sr
  obtain ⟨X, d', f1, f2, f3, f4, f5⟩ := mdctForward_spec sqrt T dt sr sr hE win hwin (by omega) (Nat.le_refl _) j.fbuf x d j.fout hj.fbuf (by omega)
    (by rw [hL.ld]) hj.fout
  obtain ⟨u, o, e', g1, g2, g3, g4, g5, g6⟩ := mdctInverse_spec sqrt T dt sr sr hE win hwin (by omega) j.ibuf (some X) e j.iout hj.ibuf
    (fun l hl => by injection hl with hl; rw [← hl, f2]; exact hj.fout) (by rw [hL.le]) (by rw [hj.iout])
  have hone : rateScale sqrt (ns dt sr) (ns dt sr) = 1 := by unfold rateScale; rw [if_neg (by simp)]
  have hu : ∀ k, k < ns dt sr → u.getD k 0 = -unfold4 (ns dt sr) (winOut 0 Arith.real (ns dt sr) (nd dt sr) win x d) (ns dt sr - 1 - k) := by
    intro k hk
    rw [g4 k hk, hone, one_mul, ← dct4_invol (ns dt sr) (unfold4 (ns dt sr) (winOut 0 Arith.real (ns dt sr) (nd dt sr) win x d)) (ns dt sr - 1 - k)
      (by omega)]
    congr 1
    unfold dct4
    congr 1
    refine Finset.sum_congr rfl fun l hl => ?_
    have := f4 l (Finset.mem_range.mp hl)
    rw [hone, one_mul] at this
    dsimp only [Option.getD_some]
    rw [this]
    rfl
  have hd' : d' = x.drop (ns dt sr - nd dt sr) := by
    apply List.ext_getElem
    · rw [f3, hL.ld, List.length_drop]; omega
    · intro k h1 h2
      have h3 := f5 k (by rw [← hL.ld, ← f3]; exact h1)
      rw [List.getD_eq_getElem _ _ h1, List.getD_eq_getElem _ _ (by rw [List.length_drop] at h2; omega)] at h3
      rw [h3, List.getElem_drop]
  refine ⟨o, d', e', ?_, by rw [g2, hj.iout], fun k hk => ?_, hd', ?_⟩
  · unfold transformFrame
    rw [f1, Option.bind_some, g1, Option.bind_some]
  · rw [g5 k hk, recon_step (ns dt sr) (nd dt sr) win x d u e h4 hnd hn2 hwl (by omega) s hL hu k hk]
    have := hR _ (Nat.mod_lt (ns dt sr - nd dt sr + k) hpos)
    unfold Near
    rw [← mul_sub_one, abs_mul, mul_comm]
    exact mul_le_mul_of_nonneg_right this (abs_nonneg _)
  · refine ⟨by rw [f3, hL.ld], by rw [g3, hL.le], fun k hk => ?_, fun k hk => ?_⟩
    · rw [f5 k hk]; unfold span; rw [if_neg (by omega)]; congr 1; omega
    · rw [g6 k hk, iwinTerm_real (ns dt sr) (nd dt sr) win x d u h4 hnd hn2 hwl (by omega) hu k hk]
      rfl

/-- The transforms of successive frames. -/
noncomputable def transformFrames (sqrt : ℝ → ℝ) (T : MdctTables ℝ) (dt : Dt) (sr : Srate) : List Scratch → List ℝ → List ℝ → List (List ℝ) →
    Option (List (List ℝ))
  | _, _, _, [] => some []
  | [], _, _, _ :: _ => none
  | j :: js, d, e, x :: xs =>
    (transformFrame sqrt T dt sr j d e x).bind fun r => (transformFrames sqrt T dt sr js r.2.1 r.2.2 xs).bind fun os => some (r.1 :: os)

theorem frames_spec (sqrt : ℝ → ℝ) (T : MdctTables ℝ) (dt : Dt) (sr : Srate) (hE : ExactMdct T dt sr) (win : List ℝ)
    (hwin : T.win dt sr = some win) (hwl : win.length = ns dt sr + nd dt sr) (ε : ℝ) (hR : Reconstructs ε (ns dt sr) win) :
    ∀ (xs : List (List ℝ)) (js : List Scratch) (s : ℕ → ℝ) (d e : List ℝ), xs.length ≤ js.length → (∀ j ∈ js, j.Fits (ns dt sr)) →
      Linked (ns dt sr) (nd dt sr) win s d e → (∀ x ∈ xs, x.length = ns dt sr) →
      ∃ os, transformFrames sqrt T dt sr js d e xs = some os ∧ os.length = xs.length ∧ (∀ o ∈ os, o.length = ns dt sr) ∧
        List.Forall₂ (Near ε) os.flatten ((d.drop (ns dt sr - nd dt sr) ++ xs.flatten).take (ns dt sr * xs.length)) := by
  obtain ⟨h4, hpos, hnd, hn2, he⟩ := mdct_shape dt sr
  intro xs
  induction xs with
  | nil => intro js s d e _ _ _ _; exact ⟨[], by cases js <;> rfl, rfl, fun o ho => absurd ho (by simp), by simp⟩
  | cons x xs ih =>
    intro js s d e hlen hj hL hx
    cases js with
    | nil => simp at hlen
    | cons j js =>
      have hxl := hx x (by simp)
      obtain ⟨o, d', e', f1, f2, f3, f4, f5⟩ := frame_spec sqrt T dt sr hE win hwin hwl ε hR j (hj j (by simp)) s d e x hL hxl
      obtain ⟨os, g1, g2, g3, g4⟩ := ih js (span (nd dt sr) d x) d' e' (by simpa using hlen) (fun j' h => hj j' (by simp [h])) f5
        (fun x' h => hx x' (by simp [h]))
      refine ⟨o :: os, ?_, by simp [g2], ?_, ?_⟩
      · rw [transformFrames, f1, Option.bind_some, g1, Option.bind_some]
      · intro o' ho'
        rcases List.mem_cons.mp ho' with h | h
        · rw [h]; exact f2
        · exact g3 o' h
      · have hdl := hL.ld
        have ho : List.Forall₂ (Near ε) o ((d.drop (ns dt sr - nd dt sr) ++ x).take (ns dt sr)) := by
          rw [List.forall₂_iff_get]
          refine ⟨by rw [f2, List.length_take, List.length_append, List.length_drop]; omega, fun k h1 h2 => ?_⟩
          have h3 := f3 k (by omega)
          rw [List.getD_eq_getElem _ _ h1] at h3
          rw [List.get_eq_getElem, List.get_eq_getElem, List.getElem_take]
          have e : span (nd dt sr) d x (ns dt sr - nd dt sr + k) =
              (d.drop (ns dt sr - nd dt sr) ++ x)[k]'(by rw [List.length_append, List.length_drop]; omega) := by
            unfold span
            by_cases c : ns dt sr - nd dt sr + k < nd dt sr
            · rw [if_pos c, List.getElem_append_left (by rw [List.length_drop]; omega), List.getElem_drop, List.getD_eq_getElem _ _ (by omega)]
            · rw [if_neg c, List.getElem_append_right (by rw [List.length_drop]; omega), List.getD_eq_getElem _ _ (by omega)]
              congr 1; rw [List.length_drop]; omega
          rw [← e]; exact h3
        have ht : (d.drop (ns dt sr - nd dt sr) ++ x ++ xs.flatten).take (ns dt sr) =
            (d.drop (ns dt sr - nd dt sr) ++ x).take (ns dt sr) := by
          rw [List.take_append_of_le_length (by rw [List.length_append, List.length_drop]; omega)]
        have hr : (d.drop (ns dt sr - nd dt sr) ++ x ++ xs.flatten).drop (ns dt sr) = d'.drop (ns dt sr - nd dt sr) ++ xs.flatten := by
          rw [List.drop_append_of_le_length (by rw [List.length_append, List.length_drop]; omega), List.drop_append, List.drop_drop,
            List.length_drop, List.drop_eq_nil_of_le (by omega), List.nil_append, f4, List.drop_drop]
          congr 2
          omega
        rw [List.flatten_cons, List.flatten_cons, ← List.append_assoc, List.length_cons, Nat.mul_add, Nat.mul_one, Nat.add_comm (ns dt sr * xs.length),
          List.take_add, ht, hr]
        exact List.rel_append ho g4

theorem linked_zero (n nd : ℕ) (win : List ℝ) : Linked n nd win (fun _ => 0) (List.replicate nd 0) (List.replicate nd 0) := by
  refine ⟨List.length_replicate, List.length_replicate, fun k hk => ?_, fun k hk => ?_⟩
  · rw [List.getD_replicate _ hk]
  · rw [List.getD_replicate _ hk]; ring

end LC3
