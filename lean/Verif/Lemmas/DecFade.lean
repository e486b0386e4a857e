import Verif.Lemmas.DecMag
import Verif.Props.Ltpf

/-! The concealment fades: the magnitudes of the decoder during a burst of losses. -/

namespace LC3
open Finset

variable {rnd : Rat → Rat}

/-- Bound of the attenuation after `n` losses. -/
def fadeMax (n : Nat) : Rat := (1 + 4 / 10 ^ 6) * (8501 / 10000) ^ (n - 7) + 1 / 2 ^ 140

theorem fadeMax_nonneg (n : Nat) : 0 ≤ fadeMax n := by unfold fadeMax; positivity

theorem fadeMax_le (n : Nat) : fadeMax n ≤ 1 + 5 / 10 ^ 6 := by
  unfold fadeMax
  have : ((8501 : Rat) / 10000) ^ (n - 7) ≤ 1 := pow_le_one₀ (by norm_num) (by norm_num)
  norm_num at this ⊢; linarith

theorem fadeMax_succ (n : Nat) : fadeMax (n + 1) ≤ fadeMax n := by
  unfold fadeMax
  have : ((8501 : Rat) / 10000) ^ (n + 1 - 7) ≤ (8501 / 10000) ^ (n - 7) := pow_le_pow_of_le_one (by norm_num) (by norm_num) (by omega)
  norm_num at this ⊢; linarith

theorem fade_step (h : RoundF rnd) (a : Rat) (n : Nat) (ha : |a| ≤ fadeMax n) (ha2 : |rnd (a * rnd (plcFactor (n + 1 : Int)))| ≤ 1 + 4 / 10 ^ 6) :
    |rnd (a * rnd (plcFactor (n + 1 : Int)))| ≤ fadeMax (n + 1) := by
  by_cases hn : n < 7
  · refine ha2.trans ?_
    unfold fadeMax
    rw [show n + 1 - 7 = 0 by omega, pow_zero]
    norm_num
  · have e : plcFactor (n + 1 : Int) = 85 / 100 := by
      unfold plcFactor
      rw [if_neg (by omega), if_neg (by omega)]
    rw [e]
    have h1 := h.mag (x := 85 / 100) (b := 85 / 100) (by norm_num) (by norm_num)
    have h2 : |a * rnd (85 / 100)| ≤ fadeMax n * (85 / 100 + (85 / 100 + 1 / 2 ^ 126) / 2 ^ 24) := by
      rw [abs_mul]; exact mul_le_mul ha h1 (abs_nonneg _) (fadeMax_nonneg n)
    have h3 := fadeMax_le n
    have h0 := fadeMax_nonneg n
    refine (h.mag h2 ?_).trans ?_
    · norm_num at h3 ⊢; linarith
    · unfold fadeMax at *
      rw [show n + 1 - 7 = n - 7 + 1 by omega, pow_succ ((8501 : Rat) / 10000)]
      have hq : 0 ≤ ((8501 : Rat) / 10000) ^ (n - 7) := by positivity
      generalize ((8501 : Rat) / 10000) ^ (n - 7) = q at *
      norm_num
      linarith

theorem plcLoop_fade (h : RoundF rnd) (a : Rat) (ha : |a| ≤ 1 + 4 / 10 ^ 6) : ∀ (l : List Rat) (seed k : Nat), (∀ v ∈ l, |v| ≤ 10 ^ 30) →
    |(plcLoop (Arith.rounded rnd) a seed l).2.getD k 0| ≤ 10001 / 10000 * (|a| * |l.getD k 0|) + 1 / 2 ^ 100
  | [], seed, k, _ => by simp [plcLoop]
  | x :: l, seed, 0, hl => by
    have hx := hl x (List.mem_cons_self ..)
    have x0 := abs_nonneg x
    simp only [plcLoop, List.getD_cons_zero]
    show |rnd (a * _)| ≤ _
    have hs : |if plcLcg seed &&& 0x8000 ≠ 0 then (Arith.rounded rnd).sub ((Arith.rounded rnd).ofRat 0) x else x| ≤
        |x| + (|x| + 1 / 2 ^ 126) / 2 ^ 24 := by
      split
      · show |rnd (rnd 0 - x)| ≤ _
        rw [h.zero, zero_sub]
        exact h.mag (by rw [abs_neg]) (by norm_num at hx ⊢; linarith)
      · norm_num; linarith
    generalize (if plcLcg seed &&& 0x8000 ≠ 0 then (Arith.rounded rnd).sub ((Arith.rounded rnd).ofRat 0) x else x) = s at hs ⊢
    have a0 := abs_nonneg a
    have h2 : |a * s| ≤ |a| * |x| * (1 + 1 / 2 ^ 24) + 1 / 2 ^ 140 := by
      rw [abs_mul]
      refine (mul_le_mul_of_nonneg_left hs a0).trans ?_
      have : |a| * (|x| + (|x| + 1 / 2 ^ 126) / 2 ^ 24) = |a| * |x| * (1 + 1 / 2 ^ 24) + |a| * (1 / 2 ^ 126 / 2 ^ 24) := by ring
      rw [this]
      norm_num at ha ⊢; linarith
    have hp : 0 ≤ |a| * |x| := mul_nonneg a0 x0
    have hm : |a| * |x| ≤ 2 * 10 ^ 30 := mul_le_mul (ha.trans (by norm_num)) hx x0 (by norm_num)
    refine (h.mag h2 ?_).trans ?_
    · norm_num at hm ⊢; linarith
    · norm_num; linarith
  | x :: l, seed, k + 1, hl => by
    simp only [plcLoop, List.getD_cons_succ]
    exact plcLoop_fade h a ha l _ k (fun v hv => hl v (List.mem_cons_of_mem _ hv))

/-- The spectrum of a frame concealed, after `n` losses. -/
theorem plcSynthesize_fade (h : RoundF rnd) (m : Nat) (p : Plc Rat) (n : Nat) (hn : p.count = n + 1) (ha : |p.alpha| ≤ plcMax p.count) (hf : |p.alpha| ≤ fadeMax n)
    (x : List Rat) (hx : ∀ v ∈ x, |v| ≤ 10 ^ 30) (w : Plc Rat × List Rat) (e : plcSynthesize (Arith.rounded rnd) m p x = some w) :
    |w.1.alpha| ≤ fadeMax (n + 1) ∧ ∀ k, |w.2.getD k 0| ≤ 10001 / 10000 * (fadeMax (n + 1) * |x.getD k 0|) + 1 / 2 ^ 100 := by
  unfold plcSynthesize at e
  split at e
  · cases e
  · dsimp only at e
    obtain ⟨c, e1, e2⟩ := Option.map_eq_some_iff.1 e
    subst e2
    have hal := (plc_step h p.alpha p.count (by omega) ha).trans (plcMax_le _)
    rw [hn] at hal
    have hfa := fade_step h p.alpha n hf hal
    have eal : (Arith.rounded rnd).mul p.alpha ((Arith.rounded rnd).ofRat (plcFactor p.count)) = rnd (p.alpha * rnd (plcFactor (n + 1 : Int))) := by
      rw [hn]; rfl
    rw [eal]
    refine ⟨hfa, fun k => ?_⟩
    dsimp only
    refine (plcLoop_fade h _ hal (x.take m) p.seed k (fun v hv => hx v (List.mem_of_mem_take hv))).trans ?_
    have h1 : |(x.take m).getD k 0| ≤ |x.getD k 0| := by
      rw [List.getD_eq_getElem?_getD, List.getD_eq_getElem?_getD, List.getElem?_take]
      split
      · exact le_refl _
      · simp
    have h2 := mul_le_mul hfa h1 (abs_nonneg _) (fadeMax_nonneg (n + 1))
    linarith

/-- The inverse transform, from the sum of the spectrum and the greatest delayed sample. -/
theorem invTransform_fine (h : RoundF rnd) (P : Platform Rat) (hA : P.A = Arith.rounded rnd) (hs : SqrtNear P.sqrt) (dt : Dt) (sr srPcm : Srate)
    (hc : Config dt srPcm) (g xd t e : List Rat) (hg : g.length = ns dt srPcm) (hd : xd.length = nd dt srPcm) (S D : Rat) (hS : S ≤ 2 ^ 98)
    (hD : D ≤ 2 ^ 100) (hD0 : 0 ≤ D) (hsum : ∑ k ∈ range (ns dt srPcm), |g.getD k 0| ≤ S) (hdb : ∀ k, k < nd dt srPcm → |xd.getD k 0| ≤ D)
    (he : invTransform P dt sr srPcm g xd = some (t, e)) :
    (∀ k, k < ns dt srPcm → |t.getD k 0| ≤ 1001 / 1000 * D + 2001 / 1000 * S + 1 / 2 ^ 70) ∧
      ∀ k, k < nd dt srPcm → |e.getD k 0| ≤ 2001 / 1000 * S + 1 / 2 ^ 70 := by
  have n3 : ns dt srPcm ≤ maxNs := by cases dt <;> cases srPcm <;> decide
  unfold invTransform at he
  rw [hA] at he
  obtain ⟨y', d', a1, -, -, a4, a5⟩ := mdctInverse_fine h P.sqrt hs dt srPcm sr hc (List.replicate maxNs ((Arith.rounded rnd).ofRat 0)) (some g) xd
    (List.replicate (ns dt srPcm) ((Arith.rounded rnd).ofRat 0)) (by rw [List.length_replicate]; exact n3) (fun l hl => by cases hl; omega) (by omega)
    (by rw [List.length_replicate]) S D hS hD hD0 hsum hdb
  rw [he] at a1
  obtain ⟨rfl, rfl⟩ := Prod.mk.inj (Option.some.inj a1)
  exact ⟨a4, a5⟩

/-- The sum of the magnitudes of the spectrum kept from the last frame received. -/
def keptSum (d : Dec Rat) : Rat := ∑ k ∈ range (ns d.dt d.srPcm), |d.x.getD (d.xgOff + k) 0|

/-- Bound of the samples delayed by the loss `n`, when the spectrum kept sums to `S`. -/
def fadeTail (n : Nat) (S : Rat) : Rat := 2002 / 1000 * (fadeMax n * S) + 1 / 2 ^ 69

/-- Between two calls, after `n` losses. -/
structure DecFade (d : Dec Rat) (n : Nat) : Prop where
  count : d.plc.count = n + 1
  alpha : |d.plc.alpha| ≤ fadeMax n
  ltpf : 1 ≤ n → d.sr.hr = false → d.ltpf.active = false
  tail : 1 ≤ n → ∀ k, k < nd d.dt d.srPcm → |d.x.getD (d.xdOff + k) 0| ≤ fadeTail n (keptSum d)

theorem keptSum_nonneg (d : Dec Rat) : 0 ≤ keptSum d := sum_nonneg fun _ _ => abs_nonneg _

/-- A frame concealed, before the post-filter. -/
theorem synthLost_fade (h : RoundF rnd) (P : Platform Rat) (hA : P.A = Arith.rounded rnd) (hs : SqrtNear P.sqrt) (u : Junk Rat) (d : Dec Rat)
    (hd : DecInv P.A d) (hm : DecMagIn d) (n : Nat) (hf : DecFade d n) (hc : d.plc.count + 1 < 2 ^ 31) (d' : Dec Rat) (hd' : synthLost P u d = some d') :
    d'.ltpf = d.ltpf ∧ SameConfig d d' ∧ d'.plc.count = n + 2 ∧ |d'.plc.alpha| ≤ fadeMax (n + 1) ∧ keptSum d' = keptSum d ∧
      (∀ k, k < nd d.dt d.srPcm → |d'.x.getD (d.xdOff + k) 0| ≤ fadeTail (n + 1) (keptSum d)) ∧
      (1 ≤ n → ∀ k, k < ns d.dt d.srPcm → |d'.x.getD (d.xsOff + k) 0| ≤ 1001 / 1000 * fadeTail n (keptSum d) + fadeTail (n + 1) (keptSum d)) := by
  obtain ⟨n1, n2, n3, n4, n5⟩ := dec_dims d.dt d.sr d.srPcm hd.rate
  obtain ⟨d2, xd, g, p, t, e, b1, b2, b3, b4, b5, b6, b7, b8, b9, b10⟩ := synthLost_spec P u d hd hc
  rw [hd'] at b7
  obtain rfl := Option.some.inj b7
  have hgs : ∑ k ∈ range (ns d.dt d.srPcm), |g.getD k 0| = keptSum d := by
    unfold keptSum
    exact sum_congr rfl fun k hk => by rw [win_getD b2 k (mem_range.1 hk)]
  have hK := keptSum_nonneg d
  have hK2 : keptSum d ≤ 3 * 10 ^ 29 := hm.kept
  obtain ⟨lg, -⟩ := win_length b2
  have hgv : ∀ v ∈ g, |v| ≤ 10 ^ 30 := by
    intro v hv
    obtain ⟨k, hk, rfl⟩ := List.getElem_of_mem hv
    have := single_le_sum (f := fun k => |g.getD k 0|) (fun _ _ => abs_nonneg _) (mem_range.2 (show k < ns d.dt d.srPcm by omega))
    rw [List.getD_eq_getElem _ _ hk, hgs] at this
    exact (this.trans hK2).trans (by norm_num)
  rw [hA] at b3
  obtain ⟨a1, a3⟩ := plcSynthesize_fade h _ d.plc n hf.count hm.alpha hf.alpha g hgv p b3
  obtain ⟨s1, s2, s3, s4, s5, s6, s7⟩ := b8.same
  have hq := fadeMax_le (n + 1)
  have hq0 := fadeMax_nonneg (n + 1)
  obtain ⟨E, hE⟩ : ∃ E, E = fadeMax (n + 1) * keptSum d := ⟨_, rfl⟩
  have hE0 : 0 ≤ E := by rw [hE]; exact mul_nonneg hq0 hK
  have hE1 : E ≤ (1 + 5 / 10 ^ 6) * (3 * 10 ^ 29) := by rw [hE]; exact mul_le_mul hq hK2 hK (by norm_num)
  have hsum : ∑ k ∈ range (ns d.dt d.srPcm), |(p.2 ++ List.replicate (ns d.dt d.srPcm - ne d.dt d.sr) (P.A.ofRat 0)).getD k 0| ≤
      10001 / 10000 * E + 960 / 2 ^ 100 := by
    have hz : P.A.ofRat 0 = 0 := by rw [hA]; exact h.zero
    rw [hz]
    have key : ∀ k ∈ range (ns d.dt d.srPcm), |(p.2 ++ List.replicate (ns d.dt d.srPcm - ne d.dt d.sr) (0 : Rat)).getD k 0| ≤
        10001 / 10000 * (fadeMax (n + 1) * |g.getD k 0|) + 1 / 2 ^ 100 := by
      intro k hk
      by_cases hk2 : k < p.2.length
      · rw [List.getD_append _ _ _ _ hk2]; exact a3 k
      · rw [List.getD_append_right _ _ _ _ (by omega), List.getD_eq_getElem?_getD, List.getElem?_replicate]
        have := abs_nonneg (g.getD k 0)
        split <;> (rw [Option.getD, abs_zero]; positivity)
    refine (sum_le_sum key).trans ?_
    rw [sum_add_distrib, ← mul_sum, ← mul_sum, sum_const, card_range, nsmul_eq_mul, hgs, ← hE]
    have c2 : (ns d.dt d.srPcm : Rat) ≤ 960 := by exact_mod_cast n3
    norm_num; linarith
  obtain ⟨lx, -⟩ := win_length b1
  have hS : 10001 / 10000 * E + 960 / 2 ^ 100 ≤ 2 ^ 98 := by norm_num at hE1 ⊢; linarith
  have fine := fun (D : Rat) (hD : D ≤ 2 ^ 100) (hD0 : 0 ≤ D) (hdb : ∀ k, k < nd d.dt d.srPcm → |xd.getD k 0| ≤ D) =>
    invTransform_fine h P hA hs d.dt d.sr d.srPcm hd.cfgPcm _ xd t e (by rw [List.length_append, List.length_replicate, b5]; omega) lx
      (10001 / 10000 * E + 960 / 2 ^ 100) D hS hD hD0 hsum hdb b6
  have hcnt := hf.count
  refine ⟨b9, b8.same, by rw [b10, b4]; omega, by rw [b10]; exact a1, ?_, fun k hk => ?_, fun hn k hk => ?_⟩
  · unfold keptSum
    rw [s1, s3, s7]
    exact sum_congr rfl fun k hk => by rw [← win_getD b8.g k (mem_range.1 hk), win_getD b2 k (mem_range.1 hk)]
  · have := (fine (2 ^ 100) (le_refl _) (by norm_num) (fun k hk => by rw [win_getD b1 k hk]; exact hm.delayed k hk)).2 k hk
    rw [← win_getD b8.e k hk]
    refine this.trans ?_
    unfold fadeTail
    rw [← hE]
    norm_num; linarith
  · obtain ⟨T, hT⟩ : ∃ T, T = fadeTail n (keptSum d) := ⟨_, rfl⟩
    have hT0 : 0 ≤ T := by
      rw [hT]; unfold fadeTail
      have := mul_nonneg (fadeMax_nonneg n) hK
      positivity
    have hT1 : T ≤ 2 ^ 100 := by
      rw [hT]; unfold fadeTail
      have := mul_le_mul (fadeMax_le n) hK2 hK (by norm_num)
      norm_num at this ⊢; linarith
    have := (fine T hT1 hT0 (fun k hk => by rw [win_getD b1 k hk, hT]; exact hf.tail hn k hk)).1 k hk
    rw [← win_getD b8.t k hk, ← hT]
    refine this.trans ?_
    unfold fadeTail
    rw [← hE]
    norm_num; linarith

/-- The post-filter of a frame lost: not active afterwards, and transparent when it was not active. -/
theorem synthLtpf_fade (P : Platform Rat) (d : Dec Rat) (hd : DecInv P.A d) (nbytes : Int) (hn : d.sr.hr = false → 0 ≤ nbytes ∧ nbytes ≤ sizeLimit)
    (d' : Dec Rat) (hd' : synthLtpf P d none nbytes = some d') :
    SameConfig d d' ∧ d'.plc = d.plc ∧ (∀ k, d.xdOff ≤ k → d'.x.getD k 0 = d.x.getD k 0) ∧ (d.sr.hr = false → d'.ltpf.active = false) ∧
      ((d.sr.hr = false → d.ltpf.active = false) → d'.x = d.x) := by
  obtain ⟨d2, c1, c2, c3, c4, c5, c6⟩ := synthLtpf_spec P d hd none nbytes (fun l h => by cases h) hn
  rw [hd'] at c1
  obtain rfl := Option.some.inj c1
  refine ⟨c3, c4, fun k hk => getD_of_opt (c5 k hk), ?_⟩
  cases hr : d.sr.hr with
  | true =>
    refine ⟨fun hh => ?_, fun _ => by rw [c6 hr]⟩
    cases hh
  | false =>
    unfold synthLtpf at hd'
    rw [hr, if_neg (by decide)] at hd'
    obtain ⟨ring, w1, hd'⟩ := Option.bind_eq_some_iff.1 hd'
    obtain ⟨r, l0, hd'⟩ := Option.bind_eq_some_iff.1 hd'
    obtain ⟨x', p1, hd'⟩ := Option.bind_eq_some_iff.1 hd'
    obtain rfl := Option.some.inj hd'
    obtain ⟨r1, r2⟩ := r
    have hact : r1.active = false := by
      have l1 := l0
      unfold ltpfSynthesize at l1
      dsimp only at l1
      obtain ⟨g, -, l1⟩ := Option.bind_eq_some_iff.mp l1
      obtain ⟨c, -, l1⟩ := Option.bind_eq_some_iff.mp l1
      obtain ⟨x00, -, l1⟩ := Option.bind_eq_some_iff.mp l1
      obtain ⟨xe, -, l1⟩ := Option.bind_eq_some_iff.mp l1
      obtain ⟨x01, -, l1⟩ := Option.bind_eq_some_iff.mp l1
      obtain ⟨r, -, l1⟩ := Option.bind_eq_some_iff.mp l1
      obtain ⟨e2, -⟩ := Prod.mk.inj (Option.some.inj l1)
      rw [← e2]
      rfl
    refine ⟨fun _ => hact, fun ha => ?_⟩
    have := C42_inactive P.A d.dt d.srPcm d.ltpf nbytes ring (d.xsOff - d.xhOff) (ha rfl) none r1 r2 l0 hact
    dsimp only at p1 ⊢
    rw [this] at p1
    have hput := winPut_at p1
    obtain ⟨w2, -⟩ := win_length w1
    apply List.ext_getElem?
    intro k
    rw [hput]
    split
    · rename_i hk
      rw [win_at w1, if_pos (by omega)]
      congr 1; omega
    · rfl

end LC3
