import Verif.Lemmas.LtpfBound
import Verif.Props.Ltpf
import Verif.Props.Level

/-!
# C74: the long-term postfilter is stable

Whatever the frames received or lost, with operations rounded to 24 bits: the samples of the history never exceed 4.2 times the greatest sample at
the input of the filter.
-/

namespace LC3

section
variable {rnd : Rat → Rat} (h : Round24 rnd)
include h

/-- A run of `synthesize_template`: bound of each sample. -/
theorem synth_bound (ring : List Rat) (N lag : Nat) (x0 : List Rat) (x n : Nat) (c : List Rat) (w : Nat) (fade : Int)
    (hf : fade = -1 ∨ fade = 0 ∨ fade = 1) (hN : ring.length = N) (hw : 0 < w) (hw12 : w ≤ 12) (hc : 2 * w ≤ c.length) (hn : 0 < n) (hn2 : n ≤ 480)
    (hd : n % w = 0) (h0 : x0.length = w - 1) (hx : x + n ≤ N) (hl1 : w ≤ lag + w / 2) (hl2 : lag + w / 2 + n ≤ N)
    (hD : ∑ k ∈ Finset.range w, |c.getD k 0| ≤ denMax) (hNu : ∑ k ∈ Finset.range w, |c.getD (w + k) 0| ≤ numMax)
    (B V : Rat) (hB : 0 ≤ B) (hV : 0 ≤ V) (ξ : Nat → Rat) (hout : ∀ i, i < x ∨ x + n ≤ i → |ring.getD i 0| ≤ B)
    (hx0 : ∀ i < w - 1, |x0.getD i 0| ≤ V) (hin : ∀ t < n, |ring.getD (x + t) 0| ≤ ξ t) (hξ : ∀ t < n, ξ t ≤ V)
    (hb : ∀ t < n, qf * (ξ t + qf * ((fadeGain fade n t + 1 / 10000) * (qf ^ 25 * (denMax * B + numMax * V)))) ≤ B) :
    ∃ ring', synthTemplate (Arith.rounded rnd) ring N lag x0 x n c w fade = some ring' ∧ ring'.length = N ∧
      (∀ i, i < x ∨ x + n ≤ i → ring'.getD i 0 = ring.getD i 0) ∧
      ∀ t < n, |ring'.getD (x + t) 0| ≤ qf * (ξ t + qf * ((fadeGain fade n t + 1 / 10000) * (qf ^ 25 * (denMax * B + numMax * V)))) := by
  obtain ⟨r, e1, e2, e3, e4⟩ := synthTemplate_eq (Arith.rounded rnd) ring N lag x0 x n c w fade hN hw hc hn hd h0 hx hl1 hl2
  have e3' : ∀ i, i < x ∨ x + n ≤ i → r.getD i 0 = ring.getD i 0 := fun i hi => by
    rw [← at0_getD h, ← at0_getD h]; exact e3 i hi
  refine ⟨r, e1, e2, e3', ?_⟩
  refine pass_bound h r (lag + w / 2) _ x n c w _ hw hw12 hl1 (by omega) (by omega) e4 B V denMax numMax hB hV (by norm_num [denMax])
    (by norm_num [numMax]) hD hNu (fun i hi => by rw [e3' i hi]; exact hout i hi) ?_ ξ _ ?_ (fade_bound h fade hf n hn hn2) hb
  · intro i hi
    unfold inputs
    by_cases ci : i < w - 1
    · rw [if_pos ci, at0_getD h]; exact hx0 i ci
    · rw [if_neg ci, at0_getD h]; exact le_trans (hin _ (by omega)) (hξ _ (by omega))
  · intro t ht
    unfold inputs
    rw [if_neg (by omega), at0_getD h, show w - 1 + t - (w - 1) = t by omega]
    exact hin t ht

end

/-- Bound of the samples of the history, for samples at the input bounded by 1. -/
def ltpfMax : Rat := 21 / 5

theorem fadeGain_range (f : Int) (n t : Nat) (ht : t < n) : 0 ≤ fadeGain f n t ∧ fadeGain f n t ≤ 1 := by
  have hnq : (0 : Rat) < n := by exact_mod_cast (show 0 < n by omega)
  have h1 : (t : Rat) / n ≤ 1 := by rw [div_le_one hnq]; exact_mod_cast (le_of_lt ht)
  have h0 : 0 ≤ (t : Rat) / n := by positivity
  unfold fadeGain
  split
  · exact ⟨h0, h1⟩
  · split
    · constructor <;> linarith
    · exact ⟨zero_le_one, le_refl _⟩

/-- A single pass on the samples of the frame. -/
theorem pass_one (M γ : Rat) (hM : 0 ≤ M) (h0 : 0 ≤ γ) (h1 : γ ≤ 1) :
    qf * (M + qf * ((γ + 1 / 10000) * (qf ^ 25 * (denMax * (ltpfMax * M) + numMax * M)))) ≤ (1 + γ * (2041 / 1000)) * M + M / 1000 := by
  have e : qf * (M + qf * ((γ + 1 / 10000) * (qf ^ 25 * (denMax * (ltpfMax * M) + numMax * M)))) =
      qf * M + (qf * qf * qf ^ 25 * (denMax * ltpfMax + numMax)) * (γ * M) + (qf * qf * qf ^ 25 * (denMax * ltpfMax + numMax) / 10000) * M := by ring
  rw [e]
  have a1 : qf * M ≤ (1 + 1 / 10000) * M := mul_le_mul_of_nonneg_right (by norm_num [qf]) hM
  have a2 : (qf * qf * qf ^ 25 * (denMax * ltpfMax + numMax)) * (γ * M) ≤ (2041 / 1000) * (γ * M) :=
    mul_le_mul_of_nonneg_right (by norm_num [qf, denMax, numMax, ltpfMax]) (mul_nonneg h0 hM)
  have a3 : (qf * qf * qf ^ 25 * (denMax * ltpfMax + numMax) / 10000) * M ≤ (3 / 10000) * M :=
    mul_le_mul_of_nonneg_right (by norm_num [qf, denMax, numMax, ltpfMax]) hM
  linarith

theorem pass_one_max (M γ : Rat) (hM : 0 ≤ M) (h0 : 0 ≤ γ) (h1 : γ ≤ 1) :
    qf * (M + qf * ((γ + 1 / 10000) * (qf ^ 25 * (denMax * (ltpfMax * M) + numMax * M)))) ≤ ltpfMax * M := by
  refine le_trans (pass_one M γ hM h0 h1) ?_
  have : γ * M ≤ 1 * M := mul_le_mul_of_nonneg_right h1 hM
  unfold ltpfMax
  linarith

/-- The pass of the filter of the frame on the result of the filter of the previous frame: the gains are complementary. -/
theorem pass_two (M τ : Rat) (hM : 0 ≤ M) (h0 : 0 ≤ τ) (h1 : τ ≤ 1) :
    qf * (((1 + (1 - τ) * (2041 / 1000)) * M + M / 1000) + qf * ((τ + 1 / 10000) * (qf ^ 25 * (denMax * (ltpfMax * M) + numMax * (ltpfMax * M))))) ≤
      ltpfMax * M := by
  have e : qf * (((1 + (1 - τ) * (2041 / 1000)) * M + M / 1000) + qf * ((τ + 1 / 10000) * (qf ^ 25 * (denMax * (ltpfMax * M) + numMax * (ltpfMax * M))))) =
      qf * ((1 + (1 - τ) * (2041 / 1000)) * M + M / 1000) + (qf * qf * qf ^ 25 * ((denMax + numMax) * ltpfMax)) * (τ * M) +
      (qf * qf * qf ^ 25 * ((denMax + numMax) * ltpfMax) / 10000) * M := by ring
  rw [e]
  have hτ : 0 ≤ (1 - τ) * M := mul_nonneg (by linarith) hM
  have b0 : 0 ≤ (1 + (1 - τ) * (2041 / 1000)) * M + M / 1000 := by nlinarith
  have a1 : qf * ((1 + (1 - τ) * (2041 / 1000)) * M + M / 1000) ≤ (1 + 1 / 10000) * ((1 + (1 - τ) * (2041 / 1000)) * M + M / 1000) :=
    mul_le_mul_of_nonneg_right (by norm_num [qf]) b0
  have a2 : (qf * qf * qf ^ 25 * ((denMax + numMax) * ltpfMax)) * (τ * M) ≤ (3173 / 1000) * (τ * M) :=
    mul_le_mul_of_nonneg_right (by norm_num [qf, denMax, numMax, ltpfMax]) (mul_nonneg h0 hM)
  have a3 : (qf * qf * qf ^ 25 * ((denMax + numMax) * ltpfMax) / 10000) * M ≤ (4 / 10000) * M :=
    mul_le_mul_of_nonneg_right (by norm_num [qf, denMax, numMax, ltpfMax]) hM
  have hτM : τ * M ≤ 1 * M := mul_le_mul_of_nonneg_right h1 hM
  refine le_trans (add_le_add (add_le_add a1 a2) a3) ?_
  unfold ltpfMax
  nlinarith

/-- What is bounded between two frames: the last samples before the filter, and the coefficients of an active filter. -/
structure LtpfBounded (sr : Srate) (M : Rat) (s : LtpfS Rat) : Prop where
  ok : s.Ok sr
  x : ∀ i, |s.x.getD i 0| ≤ M
  den : s.active = true → ∑ k ∈ Finset.range (ltpfWidth sr), |s.c.getD k 0| ≤ denMax
  num : s.active = true → ∑ k ∈ Finset.range (ltpfWidth sr), |s.c.getD (ltpfWidth sr + k) 0| ≤ numMax

theorem getD_slice (l : List Rat) (d n i : Nat) (hi : i < n) : ((l.drop d).take n).getD i 0 = l.getD (d + i) 0 := by
  rw [List.getD_eq_getElem?_getD, List.getElem?_take_of_lt hi, List.getElem?_drop, ← List.getD_eq_getElem?_getD]

theorem ns2m5_le (dt : Dt) (sr : Srate) (h : sr.hr = false) : ns dt sr ≤ 480 ∧ ns dt sr / (1 + dt.idx) ≤ 480 := by
  cases sr <;> first | (exfalso; revert h; decide) | (cases dt <;> decide)

section
variable {rnd : Rat → Rat} (h : Round24 rnd)
include h

/-- A frame. -/
theorem ltpf_frame_bound (dt : Dt) (sr : Srate) (hsr : sr.hr = false) (M : Rat) (hM : 0 ≤ M) (s : LtpfS Rat) (hs : LtpfBounded sr M s)
    (nbytes : Int) (data : Option LtpfData) (ring : List Rat) (x : Nat) (hx : FramePos dt sr x)
    (h0 : 0 ≤ nbytes) (h1 : nbytes ≤ sizeLimit) (hd : ∀ d, data = some d → d.pitchIndex < 512)
    (hr : ring.length = ns dt sr + nh dt sr) (hout : ∀ i, |ring.getD i 0| ≤ ltpfMax * M)
    (hin : ∀ t < ns dt sr, |ring.getD (x + t) 0| ≤ M) :
    ∃ s' ring', ltpfSynthesize (Arith.rounded rnd) dt sr nbytes s data ring x = some (s', ring') ∧ LtpfBounded sr M s' ∧
      ring'.length = ns dt sr + nh dt sr ∧ ∀ i, |ring'.getD i 0| ≤ ltpfMax * M := by
  obtain ⟨s', ring', e, hok, hlen, -⟩ := ltpfSynthesize_some (Arith.rounded rnd) dt sr hsr nbytes s hs.ok data ring x h0 h1 hd hr hx
  refine ⟨s', ring', e, ?_⟩
  obtain ⟨d1, d2, d3, d4, d5, d6, d7, -⟩ := dims dt sr hsr
  obtain ⟨m1, m2⟩ := ns2m5_le dt sr hsr
  have hp : dataIndex data < 512 := by
    cases data with
    | none => exact Nat.zero_lt_succ _
    | some d => exact hd d rfl
  obtain ⟨l1, l2⟩ := lag_range dt sr hsr (dataIndex data) hp
  have l34 : s.active = true → ltpfWidth sr ≤ s.pitch / 4 + ltpfWidth sr / 2 ∧ s.pitch / 4 + ltpfWidth sr / 2 ≤ nh dt sr := by
    intro ha
    obtain ⟨p', hp', ep⟩ := hs.ok.pitch ha
    rw [ep]
    exact lag_range dt sr hsr p' hp'
  have hf := hx.fits
  have hb := hx.back
  obtain ⟨g, eg, hg0⟩ := gainIndex_some dt sr nbytes h0 h1
  have hKM : 0 ≤ ltpfMax * M := mul_nonneg (by norm_num [ltpfMax]) hM
  have hMK : M ≤ ltpfMax * M := by unfold ltpfMax; linarith
  unfold ltpfSynthesize at e
  dsimp only at e
  rw [eg, Option.bind_some] at e
  obtain ⟨c, ec, e⟩ := Option.bind_eq_some_iff.mp e
  obtain ⟨x00, ex, e⟩ := Option.bind_eq_some_iff.mp e
  obtain ⟨xe, ee, e⟩ := Option.bind_eq_some_iff.mp e
  obtain ⟨x01, ex1, e⟩ := Option.bind_eq_some_iff.mp e
  obtain ⟨r, er, e⟩ := Option.bind_eq_some_iff.mp e
  obtain ⟨e2, e3⟩ := Prod.mk.inj (Option.some.inj e)
  subst e3
  have hact4 : dataActive g data = true → g < 4 := by
    intro ha
    cases data with
    | none => cases ha
    | some d =>
      unfold dataActive at ha
      simp only [Bool.and_eq_true, decide_eq_true_eq] at ha
      exact ha.2
  generalize dataActive g data = active at *
  obtain ⟨cd, cn⟩ := coeffs_mag h sr hsr _ active g hg0 hact4 c ec
  obtain ⟨c', ec', hc⟩ := ltpfCoeffs_some (Arith.rounded rnd) sr hsr (outPitch sr (dataIndex data)) active g hg0
  rw [ec] at ec'
  obtain rfl := Option.some.inj ec'
  generalize outPitch sr (dataIndex data) = pt at *
  obtain ⟨a1, a2⟩ := slice?_eq s.x 0 0 (ltpfWidth sr - 1) (by omega) (by rw [hs.ok.x]; omega)
  rw [ex] at a1
  obtain rfl := Option.some.inj a1
  obtain ⟨b1, b2⟩ := slice?_eq ring (x + ns dt sr) (ltpfWidth sr - 1) (ltpfWidth sr - 1) (by omega) (by rw [hr]; omega)
  rw [ee] at b1
  obtain rfl := Option.some.inj b1
  have hx00 : ∀ i < ltpfWidth sr - 1, |((s.x.drop (0 - 0)).take (ltpfWidth sr - 1)).getD i 0| ≤ M := by
    intro i hi
    rw [getD_slice _ _ _ _ hi]
    exact hs.x _
  refine ⟨⟨hok, ?_, ?_, ?_⟩, hlen, ?_⟩
  · rw [← e2]
    intro i
    dsimp only
    by_cases hi : i < ltpfWidth sr - 1
    · rw [List.getD_eq_getElem?_getD, List.getElem?_append_left (by omega), ← List.getD_eq_getElem?_getD, getD_slice _ _ _ _ hi,
        show x + ns dt sr - (ltpfWidth sr - 1) + i = x + (ns dt sr - (ltpfWidth sr - 1) + i) by omega]
      exact hin _ (by omega)
    · rw [List.getD_eq_getElem?_getD, List.getElem?_append_right (by omega), b2, List.getElem?_drop, ← List.getD_eq_getElem?_getD]
      exact hs.x _
  · intro _
    rw [← e2]
    dsimp only
    refine le_trans (le_of_eq (Finset.sum_congr rfl fun k hk => ?_)) cd
    rw [Finset.mem_range] at hk
    rw [List.getD_eq_getElem?_getD, List.getElem?_append_left (by omega), ← List.getD_eq_getElem?_getD]
  · intro _
    rw [← e2]
    dsimp only
    refine le_trans (le_of_eq (Finset.sum_congr rfl fun k hk => ?_)) cn
    rw [Finset.mem_range] at hk
    rw [List.getD_eq_getElem?_getD, List.getElem?_append_left (by omega), ← List.getD_eq_getElem?_getD]
  clear e2 ec ee hok
  have hsx := hs.ok.x
  have hsc := hs.ok.c
  have hden := hs.den
  have hnum := hs.num
  generalize hN : ns dt sr + nh dt sr = N at *
  generalize hnt : ns dt sr / (1 + dt.idx) = nt at *
  generalize ltpfWidth sr = w at *
  generalize hn : ns dt sr = n at *
  generalize nh dt sr = nhh at *
  -- the first stage
  have one : ∀ (fade : Int) (lag : Nat) (cc : List Rat), (fade = -1 ∨ fade = 0 ∨ fade = 1) → 2 * w ≤ cc.length →
      ∑ k ∈ Finset.range w, |cc.getD k 0| ≤ denMax → ∑ k ∈ Finset.range w, |cc.getD (w + k) 0| ≤ numMax →
      w ≤ lag + w / 2 → lag + w / 2 ≤ nhh →
      ∃ r1, synthTemplate (Arith.rounded rnd) ring N lag ((s.x.drop (0 - 0)).take (w - 1)) x nt cc w fade = some r1 ∧ r1.length = N ∧
        (∀ i, i < x ∨ x + nt ≤ i → r1.getD i 0 = ring.getD i 0) ∧
        ∀ t < nt, |r1.getD (x + t) 0| ≤ (1 + fadeGain fade nt t * (2041 / 1000)) * M + M / 1000 := by
    intro fade lag cc hfade hcl hcd hcn hl1 hl2
    obtain ⟨r1, q1, q2, q3, q4⟩ := synth_bound h ring N lag _ x nt cc w fade hfade hr (by omega) d2 hcl d3 m2 d4 a2 (by omega) hl1 (by omega)
      hcd hcn (ltpfMax * M) M hKM hM (fun _ => M) (fun i _ => hout i) hx00 (fun t ht => hin t (by omega)) (fun _ _ => le_refl _)
      (fun t ht => pass_one_max M _ hM (fadeGain_range fade nt t ht).1 (fadeGain_range fade nt t ht).2)
    exact ⟨r1, q1, q2, q3, fun t ht => le_trans (q4 t ht) (pass_one M _ hM (fadeGain_range fade nt t ht).1 (fadeGain_range fade nt t ht).2)⟩
  have max1 : ∀ (fade : Int) (t : Nat), t < nt → (1 + fadeGain fade nt t * (2041 / 1000)) * M + M / 1000 ≤ ltpfMax * M := by
    intro fade t ht
    have := mul_le_mul_of_nonneg_right (fadeGain_range fade nt t ht).2 hM
    unfold ltpfMax
    linarith
  have first : ∀ r1, ltpfTransition (Arith.rounded rnd) s ring N x nt w pt active c ((s.x.drop (0 - 0)).take (w - 1)) = some r1 →
      r1.length = N ∧ (∀ i, i < x ∨ x + nt ≤ i → r1.getD i 0 = ring.getD i 0) ∧ ∀ t < nt, |r1.getD (x + t) 0| ≤ ltpfMax * M := by
    intro r1 et
    unfold ltpfTransition at et
    by_cases c1 : (!s.active && active) = true
    · rw [if_pos c1] at et
      obtain ⟨q, q1, q2, q3, q4⟩ := one 1 (pt / 4) c (by simp) (by omega) cd cn l1 l2
      rw [et] at q1
      obtain rfl := Option.some.inj q1
      exact ⟨q2, q3, fun t ht => le_trans (q4 t ht) (max1 1 t ht)⟩
    rw [if_neg c1] at et
    by_cases c2 : (s.active && !active) = true
    · rw [if_pos c2] at et
      have hsa : s.active = true := by simp only [Bool.and_eq_true] at c2; exact c2.1
      obtain ⟨l3, l4⟩ := l34 hsa
      obtain ⟨q, q1, q2, q3, q4⟩ := one (-1) (s.pitch / 4) s.c (by simp) (by omega) (hden hsa) (hnum hsa) l3 l4
      rw [et] at q1
      obtain rfl := Option.some.inj q1
      exact ⟨q2, q3, fun t ht => le_trans (q4 t ht) (max1 (-1) t ht)⟩
    rw [if_neg c2] at et
    by_cases c3 : (s.active && active && decide (s.pitch = pt)) = true
    · rw [if_pos c3] at et
      obtain ⟨q, q1, q2, q3, q4⟩ := one 0 (pt / 4) c (by simp) (by omega) cd cn l1 l2
      rw [et] at q1
      obtain rfl := Option.some.inj q1
      exact ⟨q2, q3, fun t ht => le_trans (q4 t ht) (max1 0 t ht)⟩
    rw [if_neg c3] at et
    by_cases c4 : (s.active && active) = true
    · rw [if_pos c4] at et
      have hsa : s.active = true := by simp only [Bool.and_eq_true] at c4; exact c4.1
      obtain ⟨l3, l4⟩ := l34 hsa
      obtain ⟨mid, q1, q2, q3, q4⟩ := one (-1) (s.pitch / 4) s.c (by simp) (by omega) (hden hsa) (hnum hsa) l3 l4
      rw [q1, Option.bind_some] at et
      obtain ⟨s1, s2⟩ := slice?_eq mid (if x ≤ 0 then x + N else x) (w - 1) (w - 1)
        (by split <;> omega) (by rw [q2]; split <;> omega)
      rw [s1, Option.bind_some] at et
      have hmid : ∀ i, |mid.getD i 0| ≤ ltpfMax * M := by
        intro i
        by_cases hi : i < x ∨ x + nt ≤ i
        · rw [q3 i hi]; exact hout i
        · have := q4 (i - x) (by omega)
          rw [show x + (i - x) = i by omega] at this
          exact le_trans this (max1 (-1) _ (by omega))
      have hfg : ∀ t, fadeGain (-1) nt t = 1 - fadeGain 1 nt t := by intro t; unfold fadeGain; simp
      have h2 : ∀ t < nt, qf * ((1 + fadeGain (-1) nt t * (2041 / 1000)) * M + M / 1000 + qf * ((fadeGain 1 nt t + 1 / 10000) *
          (qf ^ 25 * (denMax * (ltpfMax * M) + numMax * (ltpfMax * M))))) ≤ ltpfMax * M := by
        intro t ht
        rw [hfg]
        exact pass_two M _ hM (fadeGain_range 1 nt t ht).1 (fadeGain_range 1 nt t ht).2
      obtain ⟨q, p1, p2, p3, p4⟩ := synth_bound h mid N (pt / 4) _ x nt c w 1 (by simp) q2 (by omega) d2 (by omega) d3 m2 d4 s2 (by omega) l1
        (by omega) cd cn (ltpfMax * M) (ltpfMax * M) hKM hKM (fun t => (1 + fadeGain (-1) nt t * (2041 / 1000)) * M + M / 1000)
        (fun i _ => hmid i) (fun i hi => by rw [getD_slice _ _ _ _ hi]; exact hmid _) q4 (fun t ht => max1 (-1) t ht) h2
      rw [et] at p1
      obtain rfl := Option.some.inj p1
      exact ⟨p2, fun i hi => by rw [p3 i hi, q3 i hi], fun t ht => le_trans (p4 t ht) (h2 t ht)⟩
    · rw [if_neg c4] at et
      obtain rfl := Option.some.inj et
      exact ⟨hr, fun _ _ => rfl, fun t ht => hout _⟩
  unfold ltpfFilter at er
  obtain ⟨r1, et, er⟩ := Option.bind_eq_some_iff.mp er
  obtain ⟨f1, f2, f3⟩ := first r1 et
  have hr1 : ∀ i, |r1.getD i 0| ≤ ltpfMax * M := by
    intro i
    by_cases hi : i < x ∨ x + nt ≤ i
    · rw [f2 i hi]; exact hout i
    · have := f3 (i - x) (by omega)
      rw [show x + (i - x) = i by omega] at this
      exact this
  by_cases c5 : active = true ∧ n > nt
  · rw [if_pos c5] at er
    obtain ⟨c1, c2⟩ := slice?_eq ring (x + nt) (w - 1) (w - 1) (by omega) (by rw [hr]; omega)
    rw [if_pos c5.1, c1] at ex1
    obtain rfl := Option.some.inj ex1
    have h2 : ∀ t < n - nt, qf * (M + qf * ((fadeGain 0 (n - nt) t + 1 / 10000) * (qf ^ 25 * (denMax * (ltpfMax * M) + numMax * M)))) ≤ ltpfMax * M :=
      fun t ht => pass_one_max M _ hM (fadeGain_range 0 _ t ht).1 (fadeGain_range 0 _ t ht).2
    obtain ⟨q, p1, p2, p3, p4⟩ := synth_bound h r1 N (pt / 4) _ (x + nt) (n - nt) c w 0 (by simp) f1 (by omega) d2 (by omega) (by omega) (by omega) d6 c2
      (by omega) l1 (by omega) cd cn (ltpfMax * M) M hKM hM (fun _ => M) (fun i _ => hr1 i)
      (fun i hi => by
        rw [getD_slice _ _ _ _ hi, show x + nt - (w - 1) + i = x + (nt - (w - 1) + i) by omega]
        exact hin _ (by omega))
      (fun t ht => by
        rw [f2 _ (by omega), Nat.add_assoc]
        exact hin _ (by omega)) (fun _ _ => le_refl _) h2
    rw [er] at p1
    obtain rfl := Option.some.inj p1
    intro i
    by_cases hi : i < x + nt ∨ x + nt + (n - nt) ≤ i
    · rw [p3 i hi]; exact hr1 i
    · have := p4 (i - (x + nt)) (by omega)
      rw [show x + nt + (i - (x + nt)) = i by omega] at this
      exact le_trans this (h2 _ (by omega))
  · rw [if_neg c5] at er
    obtain rfl := Option.some.inj er
    exact hr1

end

/-- The states of the postfilter and of the history along a sequence of frames, received or lost, of samples that do not exceed `M` before the
filter: the samples of the frame replace the oldest ones in the history, at one of the positions of the frames, then are filtered in place. -/
inductive LtpfPlayed (rnd : Rat → Rat) (dt : Dt) (sr : Srate) (M : Rat) : LtpfS Rat → List Rat → Prop
  | init : LtpfPlayed rnd dt sr M (LtpfS.init (Arith.rounded rnd)) (List.replicate (ns dt sr + nh dt sr) 0)
  | frame (s s' : LtpfS Rat) (ring ring' samples : List Rat) (nbytes : Int) (data : Option LtpfData) (k : Nat) :
    LtpfPlayed rnd dt sr M s ring → samples.length = ns dt sr → (∀ v ∈ samples, |v| ≤ M) → 0 ≤ nbytes → nbytes ≤ 400 →
    (∀ d, data = some d → d.pitchIndex < 512) → (k + 1) * ns dt sr ≤ ns dt sr + nh dt sr →
    ltpfSynthesize (Arith.rounded rnd) dt sr nbytes s data (ring.take (k * ns dt sr) ++ samples ++ ring.drop ((k + 1) * ns dt sr)) (k * ns dt sr) =
      some (s', ring') → LtpfPlayed rnd dt sr M s' ring'

/-- The history before the filter of a frame. -/
theorem ring_frame (ring samples : List Rat) (n k N : Nat) (hr : ring.length = N) (hl : samples.length = n) (hk : (k + 1) * n ≤ N) :
    (ring.take (k * n) ++ samples ++ ring.drop ((k + 1) * n)).length = N ∧
    (∀ t < n, (ring.take (k * n) ++ samples ++ ring.drop ((k + 1) * n)).getD (k * n + t) 0 = samples.getD t 0) ∧
    ∀ i, (ring.take (k * n) ++ samples ++ ring.drop ((k + 1) * n)).getD i 0 = ring.getD i 0 ∨
      ∃ t < n, (ring.take (k * n) ++ samples ++ ring.drop ((k + 1) * n)).getD i 0 = samples.getD t 0 := by
  rw [Nat.succ_mul] at *
  have h1 : (ring.take (k * n)).length = k * n := by rw [List.length_take]; omega
  have h2 : ∀ t < n, (ring.take (k * n) ++ samples ++ ring.drop (k * n + n)).getD (k * n + t) 0 = samples.getD t 0 := by
    intro t ht
    rw [List.getD_eq_getElem?_getD, List.append_assoc, List.getElem?_append_right (by omega), h1, Nat.add_sub_cancel_left,
      List.getElem?_append_left (by omega), ← List.getD_eq_getElem?_getD]
  refine ⟨?_, h2, ?_⟩
  · simp only [List.length_append, h1, hl, List.length_drop, hr]; omega
  · intro i
    by_cases c1 : i < k * n
    · left
      rw [List.getD_eq_getElem?_getD, List.append_assoc, List.getElem?_append_left (by omega), List.getElem?_take_of_lt c1, ← List.getD_eq_getElem?_getD]
    · by_cases c2 : i < k * n + n
      · right
        refine ⟨i - k * n, by omega, ?_⟩
        have := h2 (i - k * n) (by omega)
        rw [show k * n + (i - k * n) = i by omega] at this
        exact this
      · left
        rw [List.getD_eq_getElem?_getD, List.getElem?_append_right (by simp only [List.length_append]; omega), List.getElem?_drop,
          ← List.getD_eq_getElem?_getD]
        congr 1
        simp only [List.length_append, h1, hl]; omega

theorem getD_mem_abs (l : List Rat) (M : Rat) (hM : 0 ≤ M) (h : ∀ v ∈ l, |v| ≤ M) (i : Nat) : |l.getD i 0| ≤ M := by
  by_cases hi : i < l.length
  · rw [List.getD_eq_getElem?_getD, List.getElem?_eq_getElem hi]; exact h _ (List.getElem_mem hi)
  · rw [List.getD_eq_getElem?_getD, List.getElem?_eq_none (by omega)]; simpa using hM

theorem LtpfPlayed.bounded {rnd : Rat → Rat} (h : Round24 rnd) (dt : Dt) (sr : Srate) (hsr : sr.hr = false) (M : Rat) (hM : 0 ≤ M)
    {s : LtpfS Rat} {ring : List Rat} (hp : LtpfPlayed rnd dt sr M s ring) :
    LtpfBounded sr M s ∧ ring.length = ns dt sr + nh dt sr ∧ ∀ i, |ring.getD i 0| ≤ ltpfMax * M := by
  have hKM : 0 ≤ ltpfMax * M := mul_nonneg (by norm_num [ltpfMax]) hM
  have hMK : M ≤ ltpfMax * M := by unfold ltpfMax; linarith
  induction hp with
  | init =>
    refine ⟨⟨⟨by simp [LtpfS.init], by simp [LtpfS.init], by simp [LtpfS.init]⟩, fun i => ?_, (fun ha => by cases ha), (fun ha => by cases ha)⟩,
      List.length_replicate, fun i => ?_⟩
    · refine getD_mem_abs _ M hM (fun v hv => ?_) i
      rw [List.eq_of_mem_replicate hv]
      show |rnd ((0 : Int) : Rat)| ≤ M
      rw [Int.cast_zero, rnd_zero h, abs_zero]; exact hM
    · refine getD_mem_abs _ _ hKM (fun v hv => ?_) i
      rw [List.eq_of_mem_replicate hv, abs_zero]; exact hKM
  | frame s s' ring ring' samples nbytes data k _ hl hv h0 h1 hd hk e ih =>
    obtain ⟨b, hr, hb⟩ := ih
    obtain ⟨r1, r2, r3⟩ := ring_frame ring samples (ns dt sr) k _ hr hl hk
    obtain ⟨s1, q, e1, b1, l1, o1⟩ := ltpf_frame_bound h dt sr hsr M hM s b nbytes data _ (k * ns dt sr) (framePos_mul dt sr k hk) h0
      (by unfold sizeLimit; omega) hd r1
      (fun i => by
        rcases r3 i with hh | ⟨t, -, hh⟩
        · rw [hh]; exact hb i
        · rw [hh]; exact le_trans (getD_mem_abs _ M hM hv t) hMK)
      (fun t ht => by rw [r2 t ht]; exact getD_mem_abs _ M hM hv t)
    rw [e] at e1
    obtain ⟨rfl, rfl⟩ := Prod.mk.inj (Option.some.inj e1)
    exact ⟨b1, l1, o1⟩

/-- **C74.** The postfilter is stable: along any sequence of frames, received with any pitch and size, or lost, whose samples before the filter do
not exceed `M`, the next frame is defined, and the samples after the filter, in the whole history, do not exceed `4.2 M`. Any rounding to 24 bits,
including none. -/
theorem C74_stable (rnd : Rat → Rat) (h : Round24 rnd) (dt : Dt) (sr : Srate) (hsr : sr.hr = false) (M : Rat) (hM : 0 ≤ M) (s : LtpfS Rat)
    (ring : List Rat) (hp : LtpfPlayed rnd dt sr M s ring) :
    (∀ v ∈ ring, |v| ≤ 21 / 5 * M) ∧
    ∀ (samples : List Rat) (nbytes : Int) (data : Option LtpfData) (k : Nat), samples.length = ns dt sr → (∀ v ∈ samples, |v| ≤ M) →
      0 ≤ nbytes → nbytes ≤ 400 → (∀ d, data = some d → d.pitchIndex < 512) → (k + 1) * ns dt sr ≤ ns dt sr + nh dt sr →
      ∃ s' ring', ltpfSynthesize (Arith.rounded rnd) dt sr nbytes s data
          (ring.take (k * ns dt sr) ++ samples ++ ring.drop ((k + 1) * ns dt sr)) (k * ns dt sr) = some (s', ring') ∧
        LtpfPlayed rnd dt sr M s' ring' := by
  obtain ⟨b, hr, hb⟩ := hp.bounded h dt sr hsr M hM
  refine ⟨fun v hv => ?_, ?_⟩
  · obtain ⟨i, hi, rfl⟩ := List.getElem_of_mem hv
    have := hb i
    rw [List.getD_eq_getElem?_getD, List.getElem?_eq_getElem hi] at this
    exact this
  · intro samples nbytes data k hl hv h0 h1 hd hk
    obtain ⟨r1, r2, r3⟩ := ring_frame ring samples (ns dt sr) k _ hr hl hk
    obtain ⟨s1, q, e1, -⟩ := ltpfSynthesize_some (Arith.rounded rnd) dt sr hsr nbytes s b.ok data _ (k * ns dt sr) h0
      (by unfold sizeLimit; omega) hd r1 (framePos_mul dt sr k hk)
    exact ⟨s1, q, e1, .frame s s1 ring q samples nbytes data k hp hl hv h0 h1 hd hk e1⟩

/-- Two frames of 40 bytes of 10 ms at 16 kHz, active with different pitches: the hypotheses are met, in single precision. -/
example : ∃ s ring, LtpfPlayed rne24 .m10 .k16 1000 s ring ∧ ring.length = 480 ∧ ∀ v ∈ ring, |v| ≤ 4200 := by
  have hv : ∀ v ∈ List.replicate 160 (1000 : Rat), |v| ≤ 1000 := by
    intro v hv; rw [List.eq_of_mem_replicate hv]; norm_num
  obtain ⟨s1, r1, -, p1⟩ := (C74_stable rne24 rne24_round24 .m10 .k16 rfl 1000 (by norm_num) _ _ .init).2 (List.replicate 160 1000) 40 (some ⟨true, 256⟩) 0
    (by simp; decide) hv (by decide) (by decide) (by intro d hd; cases hd; decide) (by decide)
  obtain ⟨s2, r2, -, p2⟩ := (C74_stable rne24 rne24_round24 .m10 .k16 rfl 1000 (by norm_num) _ _ p1).2 (List.replicate 160 1000) 40 (some ⟨true, 300⟩) 1
    (by simp; decide) hv (by decide) (by decide) (by intro d hd; cases hd; decide) (by decide)
  refine ⟨s2, r2, p2, (p2.bounded rne24_round24 _ _ rfl _ (by norm_num)).2.1, fun v hv => ?_⟩
  have := (C74_stable rne24 rne24_round24 .m10 .k16 rfl 1000 (by norm_num) _ _ p2).1 v hv
  norm_num at this ⊢
  exact this

end LC3
