import Verif.Lemmas.MdctCongr

/-! The analysis transform does not depend on the content of its local buffer. -/

namespace LC3

variable {R : Type}

set_option maxHeartbeats 1000000 in
theorem mdctForward_congr (A : Arith R) (sqrt : R → R) (dt : Dt) (sr srDst : Srate) (h : ¬ (dt = .m7_5 ∧ sr.hr = true))
    (buf buf' x d y : List R) (hb : ns dt sr ≤ buf.length) (hb' : ns dt sr ≤ buf'.length) (hx : ns dt sr ≤ x.length)
    (hd : d.length = nd dt sr) (hy : y.length = ns dt sr) :
    mdctForward A sqrt (mdctTables A) dt sr srDst buf x d y = mdctForward A sqrt (mdctTables A) dt sr srDst buf' x d y := by
  obtain ⟨h4, hpos, hnd, hn2, he⟩ := mdct_shape dt sr
  obtain ⟨a, b, rot, win, hab, hF, hrot, hrl, hwin, hwl⟩ := C37_tables A dt sr h
  have e2 : 2 * (ns dt sr / 2) = ns dt sr := by omega
  obtain ⟨u, e, w1, w2, w3, w4, w5⟩ := mdctWindow_spec (A.ofRat 0) A (ns dt sr) (nd dt sr) win x d buf h4 hnd hn2 he (by omega) hx (by omega) hb
  obtain ⟨u', e', w1', w2', w3', w4', w5'⟩ := mdctWindow_spec (A.ofRat 0) A (ns dt sr) (nd dt sr) win x d buf' h4 hnd hn2 he (by omega) hx (by omega) hb'
  have hee : e = e' := by
    apply List.ext_getElem (by omega)
    intro k k1 k2
    have a1 := w5 k (by omega)
    have a2 := w5' k (by omega)
    rw [List.getD_eq_getElem _ _ k1] at a1
    rw [List.getD_eq_getElem _ _ k2] at a2
    rw [a1, a2]
  obtain ⟨v, p1, p2, p3⟩ := mdctPre_spec (A.ofRat 0) A (ns dt sr / 2) rot u (by omega) (by omega) (by omega)
  obtain ⟨v', p1', p2', p3'⟩ := mdctPre_spec (A.ofRat 0) A (ns dt sr / 2) rot u' (by omega) (by omega) (by omega)
  have hv : SameC (A.ofRat 0) (ns dt sr / 2) v v' := by
    intro p hp
    rw [p3 p hp, p3' p hp]
    unfold preOut
    rw [w4 _ (by omega), w4 _ (by omega), w4' _ (by omega), w4' _ (by omega)]
  obtain ⟨in0, z0, z1, z0', z1', f1, f1', f4⟩ := fft_congr (A.ofRat 0) A (mdctTables A) a b (ns dt sr / 2) hab hF v y v' y
    (by omega) (by omega) (by omega) (by omega) hv
  obtain ⟨f2, f3⟩ : z0.length = v.length ∧ z1.length = y.length := by
    obtain ⟨i, w0, w1, g1, g2, g3⟩ := fft_total (A.ofRat 0) A (mdctTables A) a b hF v y (by omega) (by omega)
    rw [← hab, f1] at g1
    injection g1 with g1; injection g1 with g0 g1; injection g1 with g1 g4
    rw [g1, g4]; exact ⟨g2, g3⟩
  obtain ⟨f2', f3'⟩ : z0'.length = v'.length ∧ z1'.length = y.length := by
    obtain ⟨i, w0, w1, g1, g2, g3⟩ := fft_total (A.ofRat 0) A (mdctTables A) a b hF v' y (by omega) (by omega)
    rw [← hab, f1'] at g1
    injection g1 with g1; injection g1 with g0 g1; injection g1 with g1 g4
    rw [g1, g4]; exact ⟨g2, g3⟩
  obtain ⟨t, q1, q2, -, q3⟩ := mdctPost_spec (A.ofRat 0) A (ns dt sr / 2) rot (if in0 then some z0 else none) z1 (by omega) (by omega)
    (by omega) (fun l hl => by
      cases in0 with
      | false => cases hl
      | true => injection hl with hl; rw [← hl]; omega)
  obtain ⟨t', q1', q2', -, q3'⟩ := mdctPost_spec (A.ofRat 0) A (ns dt sr / 2) rot (if in0 then some z0' else none) z1' (by omega) (by omega)
    (by omega) (fun l hl => by
      cases in0 with
      | false => cases hl
      | true => injection hl with hl; rw [← hl]; omega)
  have hsel : SameC (A.ofRat 0) (ns dt sr / 2) ((if in0 then some z0 else none).getD z1) ((if in0 then some z0' else none).getD z1') := by
    cases in0 with
    | false => exact f4
    | true => exact f4
  have ht : t = t' := by
    apply List.ext_getElem (by omega)
    intro k k1 k2
    rw [← List.getD_eq_getElem _ (A.ofRat 0) k1, ← List.getD_eq_getElem _ (A.ofRat 0) k2]
    by_cases hp : k % 2 = 0
    · have a1 := (q3 (k / 2) (by omega)).1
      have a2 := (q3' (k / 2) (by omega)).1
      rw [show 2 * (k / 2) = k by omega] at a1 a2
      rw [a1, a2]; unfold postOut; rw [hsel _ (by omega)]
    · have a1 := (q3 ((ns dt sr - 1 - k) / 2) (by omega)).2
      have a2 := (q3' ((ns dt sr - 1 - k) / 2) (by omega)).2
      rw [show 2 * (ns dt sr / 2) - 1 - 2 * ((ns dt sr - 1 - k) / 2) = k by omega] at a1 a2
      rw [a1, a2]; unfold postOut; rw [hsel _ (by omega)]
  subst ht hee
  have run : ∀ (buf u e v : List R) (in0 : Bool) (z0 z1 t : List R), mdctWindow A (ns dt sr) (nd dt sr) win x d buf = some (u, e) →
      mdctPre A (ns dt sr / 2, rot) u = some v → fft A (mdctTables A) (ns dt sr / 2) v y = some (in0, z0, z1) →
      mdctPost A (ns dt sr / 2, rot) (if in0 then some z0 else none) z1 = some t →
      mdctForward A sqrt (mdctTables A) dt sr srDst buf x d y =
        (if ns dt sr ≠ ns dt srDst then
          rescale A (ns dt srDst) (sqrt (A.div (A.ofInt (ns dt srDst)) (A.ofInt (ns dt sr)))) t else some t).bind fun t => some (t, e) := by
    intro buf u e v in0 z0 z1 t r1 r2 r3 r4
    unfold mdctForward
    simp only [Option.bind_eq_bind]
    rw [hrot, Option.bind_some, hwin, Option.bind_some, r1, Option.bind_some]
    dsimp only
    rw [r2, Option.bind_some, r3, Option.bind_some]
    dsimp only
    rw [r4, Option.bind_some]
  rw [run buf u e v in0 z0 z1 t w1 p1 f1 q1, run buf' u' e v' in0 z0' z1' t w1' p1' f1' q1']

end LC3
