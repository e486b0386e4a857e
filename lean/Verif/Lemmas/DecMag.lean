import Verif.Lemmas.RoundF
import Verif.Lemmas.TnsBound
import Verif.Lemmas.InvBound
import Verif.Lemmas.SpecBound
import Verif.Lemmas.SnsBound
import Verif.Lemmas.LtpfBoundF
import Verif.Props.Decoder

/-! The magnitudes kept by a decoder between two calls. -/

namespace LC3
open Finset

variable {rnd : Rat → Rat}

/-! ### Concealment -/

/-- Bound of the attenuation, from the number of losses. -/
def plcMax (count : Int) : Rat := 1 + min (count : Rat) 4 / 10 ^ 6

theorem plc_step (h : RoundF rnd) (a : Rat) (c : Int) (hc : 1 ≤ c) (ha : |a| ≤ plcMax c) : |rnd (a * rnd (plcFactor c))| ≤ plcMax (c + 1) := by
  have hc1 : (1 : Rat) ≤ c := by exact_mod_cast hc
  unfold plcMax at *
  have e1 : plcFactor c = 1 ∧ c ≤ 3 ∨ plcFactor c ≤ 9 / 10 ∧ 0 ≤ plcFactor c ∧ 4 ≤ c := by
    unfold plcFactor
    split_ifs
    · left; exact ⟨rfl, by omega⟩
    · right; exact ⟨le_refl _, by norm_num, by omega⟩
    · right; exact ⟨by norm_num, by norm_num, by omega⟩
  have a0 := abs_nonneg a
  rcases e1 with ⟨e, hc3⟩ | ⟨e, e0, hc4⟩
  · have hc3' : (c : Rat) ≤ 3 := by exact_mod_cast hc3
    rw [min_eq_left (by linarith)] at ha
    rw [e]
    push_cast
    rw [min_eq_left (by linarith)]
    have h1 := h.mag (x := 1) (b := 1) (by norm_num) (by norm_num)
    have h2 : |a * rnd 1| ≤ (1 + c / 10 ^ 6) * (1 + (1 + 1 / 2 ^ 126) / 2 ^ 24) := by
      rw [abs_mul]; exact mul_le_mul ha h1 (abs_nonneg _) (by positivity)
    refine (h.mag h2 (by norm_num; linarith)).trans ?_
    norm_num; linarith
  · have hc4' : (4 : Rat) ≤ c := by exact_mod_cast hc4
    rw [min_eq_right hc4'] at ha
    push_cast
    rw [min_eq_right (by linarith)]
    have h1 := h.mag (x := plcFactor c) (b := 9 / 10) (by rw [abs_of_nonneg e0]; exact e) (by norm_num)
    have h2 : |a * rnd (plcFactor c)| ≤ (1 + 4 / 10 ^ 6) * (9 / 10 + (9 / 10 + 1 / 2 ^ 126) / 2 ^ 24) := by
      rw [abs_mul]; exact mul_le_mul ha h1 (abs_nonneg _) (by positivity)
    exact (h.mag h2 (by norm_num)).trans (by norm_num)

theorem plcMax_le (c : Int) : plcMax c ≤ 1 + 4 / 10 ^ 6 := by
  unfold plcMax
  have := min_le_right (c : Rat) 4
  norm_num; linarith

theorem plcLoop_mag (h : RoundF rnd) (a : Rat) (ha : |a| ≤ 1 + 4 / 10 ^ 6) : ∀ (l : List Rat) (seed k : Nat), (∀ v ∈ l, |v| ≤ 10 ^ 30) →
    |(plcLoop (Arith.rounded rnd) a seed l).2.getD k 0| ≤ 10001 / 10000 * |l.getD k 0| + 1 / 2 ^ 100
  | [], seed, k, _ => by simp [plcLoop]
  | x :: l, seed, 0, hl => by
    have hx := hl x (List.mem_cons_self ..)
    have x0 := abs_nonneg x
    simp only [plcLoop, List.getD_cons_zero]
    show |rnd (a * _)| ≤ _
    have hs : |if plcLcg seed &&& 0x8000 ≠ 0 then (Arith.rounded rnd).sub ((Arith.rounded rnd).ofRat 0) x else x| ≤
        |x| + (|x| + 1 / 2 ^ 126) / 2 ^ 24 := by
      split
      · show |rnd (rnd 0 - x)| ≤ _
        rw [h.zero, zero_sub]
        exact h.mag (by rw [abs_neg]) (by norm_num at hx ⊢; linarith)
      · norm_num; linarith
    generalize (if plcLcg seed &&& 0x8000 ≠ 0 then (Arith.rounded rnd).sub ((Arith.rounded rnd).ofRat 0) x else x) = s at hs ⊢
    have h2 : |a * s| ≤ (1 + 4 / 10 ^ 6) * (|x| + (|x| + 1 / 2 ^ 126) / 2 ^ 24) := by
      rw [abs_mul]; exact mul_le_mul ha hs (abs_nonneg _) (by norm_num)
    refine (h.mag h2 ?_).trans ?_
    · norm_num at hx ⊢; linarith
    · norm_num; linarith
  | x :: l, seed, k + 1, hl => by
    simp only [plcLoop, List.getD_cons_succ]
    exact plcLoop_mag h a ha l _ k (fun v hv => hl v (List.mem_cons_of_mem _ hv))

/-- The spectrum of a frame concealed. -/
theorem plcSynthesize_mag (h : RoundF rnd) (n : Nat) (p : Plc Rat) (hc : 1 ≤ p.count) (ha : |p.alpha| ≤ plcMax p.count) (x : List Rat)
    (hx : ∀ v ∈ x, |v| ≤ 10 ^ 30) (w : Plc Rat × List Rat) (e : plcSynthesize (Arith.rounded rnd) n p x = some w) :
    |w.1.alpha| ≤ plcMax w.1.count ∧ w.2.length = n ∧ ∀ k, |w.2.getD k 0| ≤ 10001 / 10000 * |x.getD k 0| + 1 / 2 ^ 100 := by
  unfold plcSynthesize at e
  split at e
  · cases e
  · rename_i hn
    dsimp only at e
    obtain ⟨c, e1, e2⟩ := Option.map_eq_some_iff.1 e
    subst e2
    have hcc : c = p.count + 1 := by
      unfold i32 at e1
      split at e1
      · exact (Option.some.inj e1).symm
      · cases e1
    have hal := plc_step h p.alpha p.count hc ha
    have hal' : |(Arith.rounded rnd).mul p.alpha ((Arith.rounded rnd).ofRat (plcFactor p.count))| ≤ plcMax (p.count + 1) := hal
    refine ⟨by rw [hcc]; exact hal', ?_, fun k => ?_⟩
    · have hl : ∀ (l : List Rat) (al : Rat) (s : Nat), (plcLoop (Arith.rounded rnd) al s l).2.length = l.length := by
        intro l
        induction l with
        | nil => intros; rfl
        | cons a l ih => intro al s; simp only [plcLoop, List.length_cons, ih]
      dsimp only
      rw [hl, List.length_take]; omega
    · dsimp only
      refine (plcLoop_mag h _ (hal'.trans (plcMax_le _)) (x.take n) p.seed k (fun v hv => hx v (List.mem_of_mem_take hv))).trans ?_
      have : |(x.take n).getD k 0| ≤ |x.getD k 0| := by
        rw [List.getD_eq_getElem?_getD, List.getD_eq_getElem?_getD, List.getElem?_take]
        split
        · exact le_refl _
        · simp
      linarith

/-! ### The spectrum of a frame received -/

/-- Bound of the sum of the magnitudes of the spectrum given to the inverse transform. -/
def specSum : Rat := 3 * 10 ^ 29

theorem decodeFrame_mag (h : RoundF rnd) (F : List Nat) (hF : Bytes F) (hn : 20 ≤ F.length) (dt : Dt) (sr : Srate) (sh32 : Nat → Nat) (junk : LtpfData)
    (side : SideData) (s : SpecData Rat) (e : (decodeFrame (Arith.rounded rnd) dt sr sh32 junk F).1 = .ok (side, s)) : ∀ v ∈ s.x, |v| ≤ 383 * 10 ^ 9 := by
  have hr := rinv_setup sh32 F hF
  unfold decodeFrame at e
  obtain ⟨a1, a2⟩ := getSideData_safe F hF dt sr F.length junk _ hr
  generalize getSideData (setupRead sh32 F) dt sr F.length junk = g at *
  obtain ⟨o, r1⟩ := g
  dsimp only at *
  cases o with
  | none => cases e
  | some side' =>
    dsimp only at e
    obtain ⟨v1, v2⟩ := a2 side' rfl
    have hm := specDecode_mag h F hF dt sr side'.bw F.length hn side'.spec v1.spec r1 (a1.rinv hF hr)
    generalize specDecode (Arith.rounded rnd) dt sr side'.bw F.length side'.spec r1 = g at *
    obtain ⟨o, r2⟩ := g
    cases o with
    | ub => cases e
    | refused => cases e
    | ok s' =>
      dsimp only at e
      split at e
      · injection e with e
        obtain ⟨rfl, rfl⟩ := Prod.mk.inj e
        exact hm _ rfl
      · cases e

theorem getD_abs {l : List Rat} {B : Rat} (h0 : 0 ≤ B) (h : ∀ v ∈ l, |v| ≤ B) (k : Nat) : |l.getD k 0| ≤ B := by
  by_cases hk : k < l.length
  · rw [List.getD_eq_getElem _ _ hk]; exact h _ (List.getElem_mem _)
  · rw [List.getD_eq_default _ _ (by omega), abs_zero]; exact h0

theorem goodSpectrum_mag (h : RoundF rnd) (P : Platform Rat) (hA : P.A = Arith.rounded rnd) (hs : SqrtNear P.M.sqrt) (he : ExpNear rnd P.M.exp2)
    (dt : Dt) (sr srPcm : Srate) (hc : Config dt sr) (hri : sr.idx ≤ srPcm.idx) (side : SideData) (nbytes : Nat) (hv : side.Valid dt sr nbytes)
    (xf : List Rat) (hxl : xf.length = ns dt sr) (hx : ∀ v ∈ xf, |v| ≤ 383 * 10 ^ 9) (g : List Rat)
    (e : goodSpectrum P dt sr srPcm side xf = some g) : ∑ k ∈ range (ns dt srPcm), |g.getD k 0| ≤ specSum := by
  obtain ⟨n1, n2, n3, n4, n5⟩ := dec_dims dt sr srPcm hri
  have hb := bw_stop dt sr side.bw hv.bw
  have hb4 : bwStop dt side.bw ≤ 400 := by
    unfold bwStop
    have hbw : side.bw ≤ 6 := by
      have := hv.bw
      unfold BwValid at this
      have : sr.idx ≤ 6 := by cases sr <;> decide
      split at * <;> omega
    generalize side.bw = b at *
    have hb' : b = 0 ∨ b = 1 ∨ b = 2 ∨ b = 3 ∨ b = 4 ∨ b = 5 ∨ b = 6 := by omega
    rcases hb' with rfl | rfl | rfl | rfl | rfl | rfl | rfl <;> cases dt <;> decide
  unfold goodSpectrum at e
  rw [hA] at e
  obtain ⟨y, e1, e2⟩ := Option.bind_eq_some_iff.1 e
  obtain ⟨y', t1, t2, t3, t4⟩ := tnsSynthesize_bound h dt side.bw nbytes side.tns hv.tns xf (by omega) (383 * 10 ^ 9) (by norm_num) (by norm_num)
    (fun k _ v hk => hx v (List.mem_of_getElem? hk))
  rw [t1] at e1
  obtain rfl := Option.some.inj e1
  obtain ⟨g', s1, s2, s3, s4⟩ := snsSynthesize_mag h P.M hs he dt sr hc side.sns (snsValid_of hv.sns) y' (List.replicate (ns dt srPcm) ((Arith.rounded rnd).ofRat 0))
    (by omega) (by rw [List.length_replicate]; omega)
  rw [e2] at s1
  obtain rfl := Option.some.inj s1
  have hz : (Arith.rounded rnd).ofRat 0 = 0 := h.zero
  rw [hz] at s3
  have key : ∀ k ∈ range (ns dt srPcm), |g.getD k 0| ≤ (if k < bwStop dt side.bw then 625 * 10 ^ 24 else 0) + 10 ^ 18 := by
    intro k hk
    rw [mem_range] at hk
    by_cases hkn : k < ne dt sr
    · obtain ⟨q, q1, q2⟩ := s4 k hkn
      rw [q2]
      by_cases hks : k < bwStop dt side.bw
      · rw [if_pos hks]
        have hy : |y'.getD k 0| ≤ 41 * 11 ^ 8 * (383 * 10 ^ 9) := by
          rw [List.getD_eq_getElem _ _ (by omega)]
          exact t4 k hks _ (List.getElem?_eq_getElem (by omega))
        have : |y'.getD k 0 * q| ≤ 41 * 11 ^ 8 * (383 * 10 ^ 9) * 185400 := by
          rw [abs_mul]; exact mul_le_mul hy q1 (abs_nonneg _) (by norm_num)
        exact (h.mag this (by norm_num)).trans (by norm_num)
      · rw [if_neg hks]
        have hy : |y'.getD k 0| ≤ 383 * 10 ^ 9 := by
          rw [List.getD_eq_getElem?_getD, t3 k (by omega), ← List.getD_eq_getElem?_getD]
          exact getD_abs (by norm_num) hx k
        have : |y'.getD k 0 * q| ≤ 383 * 10 ^ 9 * 185400 := by
          rw [abs_mul]; exact mul_le_mul hy q1 (abs_nonneg _) (by norm_num)
        exact (h.mag this (by norm_num)).trans (by norm_num)
    · rw [List.getD_eq_getElem?_getD, s3 k (by omega), List.getElem?_replicate]
      split <;> (split <;> norm_num)
  refine (sum_le_sum key).trans ?_
  rw [sum_add_distrib, sum_const, card_range, nsmul_eq_mul, sum_ite, sum_const, sum_const_zero, add_zero, nsmul_eq_mul]
  have c1 : (((range (ns dt srPcm)).filter fun k => k < bwStop dt side.bw).card : Rat) ≤ 400 := by
    have h1 : ((range (ns dt srPcm)).filter fun k => k < bwStop dt side.bw) ⊆ range (bwStop dt side.bw) := by
      intro k hk; rw [mem_filter] at hk; exact mem_range.2 hk.2
    have h2 := card_le_card h1
    rw [card_range] at h2
    exact_mod_cast h2.trans hb4
  have c2 : (ns dt srPcm : Rat) ≤ 960 := by exact_mod_cast n3
  generalize (((range (ns dt srPcm)).filter fun k => k < bwStop dt side.bw).card : Rat) = c at *
  unfold specSum
  norm_num; linarith

/-! ### The inverse transform -/

theorem invTransform_mag (h : RoundF rnd) (P : Platform Rat) (hA : P.A = Arith.rounded rnd) (hs : SqrtNear P.sqrt) (dt : Dt) (sr srPcm : Srate)
    (hc : Config dt srPcm) (g xd t e : List Rat) (hg : g.length = ns dt srPcm) (hd : xd.length = nd dt srPcm)
    (hsum : ∑ k ∈ range (ns dt srPcm), |g.getD k 0| ≤ 2 ^ 98) (hdb : ∀ k, k < nd dt srPcm → |xd.getD k 0| ≤ 2 ^ 100)
    (he : invTransform P dt sr srPcm g xd = some (t, e)) :
    (∀ k, k < ns dt srPcm → |t.getD k 0| ≤ 2 ^ 101) ∧ ∀ k, k < nd dt srPcm → |e.getD k 0| ≤ 2 ^ 100 := by
  have n3 : ns dt srPcm ≤ maxNs := by cases dt <;> cases srPcm <;> decide
  unfold invTransform at he
  rw [hA] at he
  obtain ⟨y', d', a1, -, -, a4, a5⟩ := mdctInverse_bound h P.sqrt hs dt srPcm sr hc (List.replicate maxNs ((Arith.rounded rnd).ofRat 0)) (some g) xd
    (List.replicate (ns dt srPcm) ((Arith.rounded rnd).ofRat 0)) (by rw [List.length_replicate]; exact n3) (fun l hl => by cases hl; omega) (by omega)
    (by rw [List.length_replicate]) hsum hdb
  rw [he] at a1
  obtain ⟨rfl, rfl⟩ := Prod.mk.inj (Option.some.inj a1)
  exact ⟨a4, a5⟩

/-! ### The instance -/

/-- Limit of the samples before the postfilter. -/
def inMax : Rat := 2 ^ 102

/-- What is bounded between two calls. -/
structure DecMag (d : Dec Rat) : Prop where
  ring : ∀ k, k < d.xdOff → |d.x.getD k 0| ≤ ltpfMax * inMax
  delayed : ∀ k, k < nd d.dt d.srPcm → |d.x.getD (d.xdOff + k) 0| ≤ 2 ^ 100
  kept : ∑ k ∈ range (ns d.dt d.srPcm), |d.x.getD (d.xgOff + k) 0| ≤ specSum
  ltpf : d.sr.hr = false → LtpfBoundedF d.srPcm inMax d.ltpf
  alpha : |d.plc.alpha| ≤ plcMax d.plc.count

/-- After the decoding of a frame: the window of the output is not known. -/
structure DecMagIn (d : Dec Rat) : Prop where
  ring : ∀ k, k < d.xdOff → k < d.xsOff ∨ d.xsOff + ns d.dt d.srPcm ≤ k → |d.x.getD k 0| ≤ ltpfMax * inMax
  delayed : ∀ k, k < nd d.dt d.srPcm → |d.x.getD (d.xdOff + k) 0| ≤ 2 ^ 100
  kept : ∑ k ∈ range (ns d.dt d.srPcm), |d.x.getD (d.xgOff + k) 0| ≤ specSum
  ltpf : d.sr.hr = false → LtpfBoundedF d.srPcm inMax d.ltpf
  alpha : |d.plc.alpha| ≤ plcMax d.plc.count

/-- After the inverse transform. -/
structure DecMagOut (d : Dec Rat) : Prop where
  inp : DecMagIn d
  out : ∀ k, k < ns d.dt d.srPcm → |d.x.getD (d.xsOff + k) 0| ≤ 2 ^ 101

theorem win_getD {x w : List Rat} {off n : Nat} (h : win x off n = some w) (k : Nat) (hk : k < n) : w.getD k 0 = x.getD (off + k) 0 := by
  rw [List.getD_eq_getElem?_getD, List.getD_eq_getElem?_getD, win_at h, if_pos hk]

theorem getD_of_opt {x y : List Rat} {k : Nat} (h : x[k]? = y[k]?) : x.getD k 0 = y.getD k 0 := by
  rw [List.getD_eq_getElem?_getD, List.getD_eq_getElem?_getD, h]

theorem synthOut_mag {d d' : Dec Rat} {t e g : List Rat} (hd : DecMagIn d) (h : SynthOut d d' t e g) (hl : d'.ltpf = d.ltpf)
    (ht : ∀ k, k < ns d.dt d.srPcm → |t.getD k 0| ≤ 2 ^ 101) (he : ∀ k, k < nd d.dt d.srPcm → |e.getD k 0| ≤ 2 ^ 100)
    (hg : ∑ k ∈ range (ns d.dt d.srPcm), |g.getD k 0| ≤ specSum) (ha : |d'.plc.alpha| ≤ plcMax d'.plc.count) : DecMagOut d' := by
  obtain ⟨s1, s2, s3, s4, s5, s6, s7⟩ := h.same
  refine ⟨⟨?_, ?_, ?_, ?_, ha⟩, ?_⟩
  · rw [s1, s3, s5, s6]
    intro k h1 h2
    rw [getD_of_opt (h.out k h1 h2)]
    exact hd.ring k h1 h2
  · rw [s1, s3, s6]
    intro k hk
    rw [← win_getD h.e k hk]; exact he k hk
  · rw [s1, s3, s7]
    rw [sum_congr rfl fun k hk => by rw [← win_getD h.g k (mem_range.1 hk)]]
    exact hg
  · rw [s2, s3, hl]; exact hd.ltpf
  · rw [s1, s3, s5]
    intro k hk
    rw [← win_getD h.t k hk]; exact ht k hk

theorem synthLost_mag (h : RoundF rnd) (P : Platform Rat) (hA : P.A = Arith.rounded rnd) (hs : SqrtNear P.sqrt) (u : Junk Rat) (d : Dec Rat)
    (hd : DecInv P.A d) (hm : DecMagIn d) (hc : d.plc.count + 1 < 2 ^ 31) :
    ∃ d', synthLost P u d = some d' ∧ DecInv P.A d' ∧ SameConfig d d' ∧ DecMagOut d' := by
  obtain ⟨n1, n2, n3, n4, n5⟩ := dec_dims d.dt d.sr d.srPcm hd.rate
  obtain ⟨d', xd, g, p, t, e, b1, b2, b3, b4, b5, b6, b7, b8, b9, b10⟩ := synthLost_spec P u d hd hc
  have hi : DecInv P.A d' := b8.inv hd b9 (by rw [b10, b4]; have := hd.count; omega) (win_high P.A d hd g b2)
  refine ⟨d', b7, hi, b8.same, ?_⟩
  have hg : ∑ k ∈ range (ns d.dt d.srPcm), |g.getD k 0| ≤ specSum := by
    rw [sum_congr rfl fun k hk => by rw [win_getD b2 k (mem_range.1 hk)]]
    exact hm.kept
  obtain ⟨lg, -⟩ := win_length b2
  have hgv : ∀ v ∈ g, |v| ≤ 10 ^ 30 := by
    intro v hv
    obtain ⟨k, hk, rfl⟩ := List.getElem_of_mem hv
    have := single_le_sum (f := fun k => |g.getD k 0|) (fun _ _ => abs_nonneg _) (mem_range.2 (show k < ns d.dt d.srPcm by omega))
    rw [List.getD_eq_getElem _ _ hk] at this
    exact (this.trans hg).trans (by norm_num [specSum])
  rw [hA] at b3
  obtain ⟨a1, -, a3⟩ := plcSynthesize_mag h _ d.plc hd.count hm.alpha g hgv p b3
  have hsum : ∑ k ∈ range (ns d.dt d.srPcm), |(p.2 ++ List.replicate (ns d.dt d.srPcm - ne d.dt d.sr) (P.A.ofRat 0)).getD k 0| ≤ 2 ^ 98 := by
    have hz : P.A.ofRat 0 = 0 := by rw [hA]; exact h.zero
    rw [hz]
    have key : ∀ k ∈ range (ns d.dt d.srPcm), |(p.2 ++ List.replicate (ns d.dt d.srPcm - ne d.dt d.sr) (0 : Rat)).getD k 0| ≤
        10001 / 10000 * |g.getD k 0| + 1 / 2 ^ 100 := by
      intro k hk
      by_cases hk2 : k < p.2.length
      · rw [List.getD_append _ _ _ _ hk2]; exact a3 k
      · rw [List.getD_append_right _ _ _ _ (by omega), List.getD_eq_getElem?_getD, List.getElem?_replicate]
        have := abs_nonneg (g.getD k 0)
        split <;> (rw [Option.getD, abs_zero]; positivity)
    refine (sum_le_sum key).trans ?_
    rw [sum_add_distrib, ← mul_sum, sum_const, card_range, nsmul_eq_mul]
    have c2 : (ns d.dt d.srPcm : Rat) ≤ 960 := by exact_mod_cast n3
    unfold specSum at hg
    generalize (ns d.dt d.srPcm : Rat) = c at c2 ⊢
    generalize ∑ k ∈ range (ns d.dt d.srPcm), |g.getD k 0| = S at hg ⊢
    norm_num at hg ⊢; linarith
  obtain ⟨lx, -⟩ := win_length b1
  obtain ⟨m1, m2⟩ := invTransform_mag h P hA hs d.dt d.sr d.srPcm hd.cfgPcm _ xd t e (by rw [List.length_append, List.length_replicate, b5]; omega) lx hsum
    (fun k hk => by rw [win_getD b1 k hk]; exact hm.delayed k hk) b6
  exact synthOut_mag hm b8 b9 m1 m2 hg (by rw [b10]; exact a1)

theorem synthGood_mag (h : RoundF rnd) (P : Platform Rat) (hA : P.A = Arith.rounded rnd) (hs : SqrtNear P.sqrt) (hsM : SqrtNear P.M.sqrt)
    (he : ExpNear rnd P.M.exp2) (u : Junk Rat) (d : Dec Rat) (hd : DecInv P.A d) (hm : DecMagIn d) (side : SideData) (nbytes : Nat)
    (hv : side.Valid d.dt d.sr nbytes) (xf : List Rat) (hxf : win d.x d.xsOff (ns d.dt d.sr) = some xf) (hx : ∀ v ∈ xf, |v| ≤ 383 * 10 ^ 9) :
    ∃ d', synthGood P u d side = some d' ∧ DecInv P.A d' ∧ SameConfig d d' ∧ DecMagOut d' := by
  obtain ⟨n1, n2, n3, n4, n5⟩ := dec_dims d.dt d.sr d.srPcm hd.rate
  obtain ⟨d', xd, g, t, e, b1, b2, b3, b4, b5, b6, b7, b8⟩ := synthGood_spec P u d hd side nbytes hv xf hxf
  have hi : DecInv P.A d' := b5.inv hd b6 (by rw [b7]; exact Int.le_refl 1) b8
  refine ⟨d', b4, hi, b5.same, ?_⟩
  have hg := goodSpectrum_mag h P hA hsM he d.dt d.sr d.srPcm hd.cfg hd.rate side nbytes hv xf (win_length hxf).1 hx g b2
  obtain ⟨lg, -⟩ := win_length b5.g
  obtain ⟨lx, -⟩ := win_length b1
  obtain ⟨m1, m2⟩ := invTransform_mag h P hA hs d.dt d.sr d.srPcm hd.cfgPcm g xd t e lg lx (hg.trans (by norm_num [specSum]))
    (fun k hk => by rw [win_getD b1 k hk]; exact hm.delayed k hk) b3
  refine synthOut_mag hm b5 b6 m1 m2 hg ?_
  rw [b7]
  unfold plcSuspend plcMax
  rw [hA]
  exact (h.mag (x := 1) (b := 1) (by norm_num) (by norm_num)).trans (by norm_num)

theorem synthLtpf_mag (h : RoundF rnd) (P : Platform Rat) (hA : P.A = Arith.rounded rnd) (d : Dec Rat) (hd : DecInv P.A d) (hm : DecMagOut d)
    (side : Option SideData) (nbytes : Int) (hp : ∀ l, pitchData side = some l → l.pitchIndex < 512)
    (hn : d.sr.hr = false → 0 ≤ nbytes ∧ nbytes ≤ sizeLimit) :
    ∃ d', synthLtpf P d side nbytes = some d' ∧ DecInv P.A d' ∧ SameConfig d d' ∧ DecMag d' := by
  obtain ⟨d', c1, c2, c3, c4, c5, c6⟩ := synthLtpf_spec P d hd side nbytes hp hn
  refine ⟨d', c1, c2, c3, ?_⟩
  have hring : ∀ k, k < d.xdOff → |d.x.getD k 0| ≤ ltpfMax * inMax := by
    intro k hk
    by_cases c : k < d.xsOff ∨ d.xsOff + ns d.dt d.srPcm ≤ k
    · exact hm.inp.ring k hk c
    · have := hm.out (k - d.xsOff) (by omega)
      rw [show d.xsOff + (k - d.xsOff) = k by omega] at this
      exact this.trans (by norm_num [ltpfMax, inMax])
  cases hr : d.sr.hr with
  | true =>
    rw [c6 hr]
    exact ⟨hring, hm.inp.delayed, hm.inp.kept, hm.inp.ltpf, hm.inp.alpha⟩
  | false =>
    obtain ⟨n1, n2, n3, n4, n5⟩ := dec_dims d.dt d.sr d.srPcm hd.rate
    have hxs := hd.xsLe
    have hxd := hd.xd
    have hxg := hd.xg
    have hlen := hd.len
    have hxh := hd.xh
    unfold synthLtpf at c1
    rw [hr, if_neg (by decide)] at c1
    obtain ⟨ring, w1, c1⟩ := Option.bind_eq_some_iff.1 c1
    obtain ⟨w2, -⟩ := win_length w1
    rw [hA] at c1
    obtain ⟨r, l0, c1⟩ := Option.bind_eq_some_iff.1 c1
    obtain ⟨x', p1, c1⟩ := Option.bind_eq_some_iff.1 c1
    obtain rfl := Option.some.inj c1
    have hri : ∀ k, k < ns d.dt d.srPcm + nh d.dt d.srPcm → ring.getD k 0 = d.x.getD k 0 := by
      intro k hk
      rw [win_getD w1 k hk, hxh, Nat.zero_add]
    obtain ⟨s', ring', l1, l2, l3, l4⟩ := ltpf_frame_boundF h d.dt d.srPcm (by rw [← hd.hr]; exact hr) inMax (by norm_num [inMax]) (by norm_num [inMax])
      d.ltpf (hm.inp.ltpf hr) nbytes (pitchData side) ring (d.xsOff - d.xhOff) ⟨by omega, by
        obtain ⟨k, hk⟩ := hd.xs
        rw [hxh, Nat.sub_zero, hk]; exact Nat.mul_mod_left _ _⟩ (hn hr).1 (hn hr).2 hp w2
      (fun i => by
        by_cases hi : i < ns d.dt d.srPcm + nh d.dt d.srPcm
        · rw [hri i hi]; exact hring i (by omega)
        · rw [List.getD_eq_default _ _ (by omega), abs_zero]; norm_num [ltpfMax, inMax])
      (fun t ht => by
        rw [hri _ (by omega), hxh, Nat.sub_zero]
        have := hm.out t ht
        unfold inMax
        norm_num at this ⊢; linarith)
    unfold pitchData at l1
    rw [l1] at l0
    obtain rfl := Option.some.inj l0
    dsimp only at p1
    have hput := winPut_at p1
    rw [hxh, l3] at hput
    refine ⟨?_, ?_, ?_, fun _ => l2, hm.inp.alpha⟩
    · intro k hk
      dsimp only at hk ⊢
      rw [List.getD_eq_getElem?_getD, hput, if_pos (by omega), ← List.getD_eq_getElem?_getD]
      exact l4 _
    · intro k hk
      dsimp only at hk ⊢
      rw [getD_of_opt (c5 (d.xdOff + k) (by omega))]
      exact hm.inp.delayed k hk
    · dsimp only
      rw [sum_congr rfl fun k _ => by rw [getD_of_opt (c5 (d.xgOff + k) (by omega))]]
      exact hm.inp.kept

/-! ### A call -/

/-- A platform with the arithmetic of single precision: `rnd` is the rounding, the square root and `lc3_exp2f` have their accuracy. -/
structure Single (rnd : Rat → Rat) (P : Platform Rat) : Prop where
  round : RoundF rnd
  arith : P.A = Arith.rounded rnd
  sqrt : SqrtNear P.sqrt
  sqrtSns : SqrtNear P.M.sqrt
  exp2 : ExpNear rnd P.M.exp2

theorem decProcess_mag {α : Type} (P : Platform Rat) (hP : Single rnd P) (c : DecCall Rat α) (d : Dec Rat) (mem : Int → α) (hd : DecInv P.A d)
    (hm : DecMag d) (hc : CallOk c) (hcnt : (∀ F, c.frame = some F → Refused P d F) → d.plc.count + 1 < 2 ^ 31)
    (hmax : c.inp.isSome → 20 ≤ c.nbytes ∧ c.nbytes ≤ 625) :
    ∃ (ret : Int) (d2 : Dec Rat) (xs : List Rat),
      decProcess P c d mem = some (ret, complete d2, pcmStore c.stride c.base (xs.map c.conv) mem) ∧
      DecInv P.A d2 ∧ DecMag d2 ∧ xs.length = ns d.dt d.srPcm ∧ (∀ v ∈ xs, |v| ≤ ltpfMax * inMax) ∧ ret ≠ -1 := by
  obtain ⟨o, d1, a1, a2, a3, a4, a5, a6, a7, a8⟩ := decInput_spec P c d hd hc
  have hsz : d1.sr.hr = false → 0 ≤ c.nbytes ∧ c.nbytes ≤ sizeLimit := by
    intro _
    cases hi : c.inp with
    | none => exact hc.lost hi
    | some r =>
      have := hmax (by rw [hi]; rfl)
      unfold sizeLimit
      omega
  have hxd := hd.xd
  have hxg := hd.xg
  have hxs := hd.xsLe
  have hin : DecMagIn d1 := by
    refine ⟨?_, ?_, ?_, ?_, ?_⟩
    · rw [a3.xd, a3.xs, a3.dt, a3.srPcm]
      intro k h1 h2
      rw [getD_of_opt (a6 k h2)]; exact hm.ring k h1
    · rw [a3.xd, a3.dt, a3.srPcm]
      intro k hk
      rw [getD_of_opt (a6 _ (by omega))]; exact hm.delayed k hk
    · rw [a3.xg, a3.dt, a3.srPcm, sum_congr rfl fun k _ => by rw [getD_of_opt (a6 (d.xgOff + k) (by omega))]]
      exact hm.kept
    · rw [a3.sr, a3.srPcm, a4]; exact hm.ltpf
    · rw [a5]; exact hm.alpha
  have hs : ∃ d2, synthesize P c.junk d1 o c.nbytes = some d2 ∧ DecInv P.A d2 ∧ SameConfig d1 d2 ∧ DecMag d2 := by
    unfold synthesize
    cases o with
    | none =>
      obtain ⟨d', b1, b2, b3, b4⟩ := synthLost_mag hP.round P hP.arith hP.sqrt c.junk d1 a2 hin (by rw [a5]; exact hcnt (a7.1 rfl))
      obtain ⟨d2, c1, c2, c3, c4⟩ := synthLtpf_mag hP.round P hP.arith d' b2 b4 none c.nbytes (fun l h => by cases h) (by rw [b3.sr]; exact hsz)
      dsimp only
      rw [b1, Option.bind_some, c1]
      exact ⟨d2, rfl, c2, b3.trans c3, c4⟩
    | some side =>
      obtain ⟨F, s, f1, f2, f3, f4⟩ := a8 side rfl
      obtain ⟨r, hr, hF⟩ : ∃ r, c.inp = some r ∧ F = r.take c.nbytes.toNat := by
        unfold DecCall.frame at f1
        obtain ⟨r, e1, e2⟩ := Option.map_eq_some_iff.1 f1
        exact ⟨r, e1, e2.symm⟩
      obtain ⟨hB, hlen⟩ := hc.region r hr
      have hBF : Bytes F := by
        rw [hF]; intro b hb; exact hB b (List.mem_of_mem_take hb)
      have h20 : 20 ≤ F.length := by
        have := hmax (by rw [hr]; rfl)
        rw [hF, List.length_take]; omega
      rw [hP.arith] at f2
      have hmag := decodeFrame_mag hP.round F hBF h20 d.dt d.sr P.sh32 c.junk.ltpf side s f2
      rw [← a3.dt, ← a3.sr] at f4
      have hx : ∀ v ∈ padSpectrum P.A d1.dt d1.sr s.x, |v| ≤ 383 * 10 ^ 9 := by
        intro v hv
        unfold padSpectrum at hv
        rcases List.mem_append.1 hv with h1 | h1
        · exact hmag v (List.mem_of_mem_take h1)
        · rw [(List.mem_replicate.1 h1).2, hP.arith]
          show |rnd 0| ≤ _
          rw [hP.round.zero]; norm_num
      rw [← a3.dt, ← a3.sr] at f3
      obtain ⟨d', b1, b2, b3, b4⟩ := synthGood_mag hP.round P hP.arith hP.sqrt hP.sqrtSns hP.exp2 c.junk d1 a2 hin side F.length f4 _ f3 hx
      obtain ⟨d2, c1, c2, c3, c4⟩ := synthLtpf_mag hP.round P hP.arith d' b2 b4 (some side) c.nbytes (fun l h => by
          unfold pitchData at h
          rw [Option.bind_some] at h
          split at h
          · rename_i hp
            injection h with h
            rw [← h]; exact f4.ltpf hp
          · cases h) (by rw [b3.sr]; exact hsz)
      dsimp only
      rw [b1, Option.bind_some, c1]
      exact ⟨d2, rfl, c2, b3.trans c3, c4⟩
  obtain ⟨d2, s1, s2, s3, s4⟩ := hs
  have hlen := s2.len
  have hxs2 := s2.xsLe
  have hxd2 := s2.xd
  obtain ⟨xs, w1, w2⟩ := win_some d2.x d2.xsOff (ns d2.dt d2.srPcm) (by omega)
  refine ⟨if o = none then 1 else 0, d2, xs, ?_, s2, s4, ?_, ?_, ?_⟩
  · unfold decProcess
    rw [a1, Option.bind_some]
    dsimp only
    rw [s1, Option.bind_some, w1, Option.bind_some]
  · rw [w2, s3.dt, s3.srPcm, a3.dt, a3.srPcm]
  · intro v hv
    obtain ⟨k, hk, rfl⟩ := List.getElem_of_mem hv
    have := win_getD w1 k (by omega)
    rw [List.getD_eq_getElem _ _ hk] at this
    rw [this]
    exact s4.ring _ (by omega)
  · split <;> decide

end LC3
