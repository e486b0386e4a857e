import Verif.Props.Dry

/-!
C101: in high-resolution mode, the decoder has no post-filter, and the pitch transmitted has no effect.
-/

namespace LC3

variable {R α : Type}

theorem decSetup_hr (P : Platform R) (dtUs srHz srPcmHz : Int) (m : Bool) (d : Dec R) (hs : decSetup P.A true dtUs srHz srPcmHz m = some (some d)) :
    d.sr.hr = true := by
  obtain ⟨-, -, -, -, h, -⟩ := decSetup_inv P true dtUs srHz srPcmHz m d hs
  generalize d.sr = sr at h ⊢
  unfold resolveSrate at h
  repeat' split at h
  all_goals first
    | (cases h; rfl)
    | (cases h; simp_all)
    | cases h

theorem hr_step (P : Platform R) (c : DecCall R α) (d : Dec R) (mem : Int → α) (h0 : d.sr.hr = true)
    (r : Int) (d' : Option (Dec R)) (mem' : Int → α) (h : lc3Decode P c (some d) mem = some (r, d', mem')) :
    ∃ d1, d' = some d1 ∧ d1.sr = d.sr ∧ dryDecode P c d mem = some (r, d1, mem') := by
  unfold lc3Decode at h
  dsimp only at h
  split at h
  · rename_i hn
    cases h
    refine ⟨d, rfl, rfl, ?_⟩
    unfold dryDecode
    rw [if_pos hn]
  · rename_i hn
    obtain ⟨p, hp, hw⟩ := Option.map_eq_some_iff.1 h
    cases hw
    unfold decProcess at hp
    obtain ⟨w, h1, hp⟩ := Option.bind_eq_some_iff.1 hp
    obtain ⟨d3, h2, hp⟩ := Option.bind_eq_some_iff.1 hp
    obtain ⟨xs, h4, hp⟩ := Option.bind_eq_some_iff.1 hp
    cases hp
    unfold synthesize at h2
    obtain ⟨d2, h2, h3⟩ := Option.bind_eq_some_iff.1 h2
    have h2 : drySynth P c.junk w.2 w.1 = some d2 := by
      rw [← h2]; unfold drySynth; cases w.1 <;> rfl
    obtain ⟨-, -, a3, -, -⟩ := decInput_kept P c d w h1
    obtain ⟨-, -, b3, -⟩ := drySynth_kept P c.junk w.2 w.1 d2 h2
    have hsr : d2.sr = d.sr := b3.trans a3
    unfold synthLtpf at h3
    rw [if_pos (by rw [hsr]; exact h0)] at h3
    cases h3
    refine ⟨complete d3, rfl, hsr, ?_⟩
    unfold dryDecode
    rw [if_neg hn, h1, Option.bind_some, h2, Option.bind_some, h4, Option.bind_some]

/-- **C101**: a decoder set up in high-resolution mode gives, for any calls, the values and the samples of the synthesis without post-filter. -/
theorem C101_dry (P : Platform R) (dtUs srHz srPcmHz : Int) (d : Dec R) (hs : decSetup P.A true dtUs srHz srPcmHz true = some (some d))
    (calls : List (DecCall R α)) (mem : Int → α) (rets : List Int) (d' : Option (Dec R)) (mem' : Int → α)
    (h : decRun P calls (some d) mem = some (rets, d', mem')) : dryRun P calls d mem = some (rets, mem') := by
  have h0 := decSetup_hr P dtUs srHz srPcmHz true d hs
  clear hs
  induction calls generalizing d mem rets with
  | nil => cases h; rfl
  | cons c l ih =>
    unfold decRun at h
    obtain ⟨⟨r, d1, mem1⟩, h1, h⟩ := Option.bind_eq_some_iff.1 h
    obtain ⟨⟨rets', d2, mem2⟩, h2, h⟩ := Option.map_eq_some_iff.1 h
    cases h
    obtain ⟨d1, rfl, k1, k2⟩ := hr_step P c d mem h0 r _ _ h1
    unfold dryRun
    rw [k2, Option.bind_some]
    dsimp only
    rw [ih d1 mem1 rets' h2 (by rw [k1]; exact h0)]
    rfl

/-- Two calls with frames of the same size, accepted with the same content but for the pitch: presence, activation of the filter, index, and the parameters
that only serve to read the spectrum. -/
def DecCall.SameButPitch (P : Platform R) (dt : Dt) (sr : Srate) (c c' : DecCall R α) : Prop :=
  c' = { c with inp := c'.inp } ∧ ∃ region region' side side' s s', c.inp = some region ∧ c'.inp = some region' ∧
    c.nbytes ≤ region.length ∧ c.nbytes ≤ region'.length ∧
    (decodeFrame P.A dt sr P.sh32 c.junk.ltpf (region.take c.nbytes.toNat)).1 = .ok (side, s) ∧
    (decodeFrame P.A dt sr P.sh32 c.junk.ltpf (region'.take c.nbytes.toNat)).1 = .ok (side', s') ∧
    side'.bw = side.bw ∧ side'.tns = side.tns ∧ side'.sns = side.sns ∧ s'.x = s.x

theorem hr_same (P : Platform R) (c c' : DecCall R α) (d : Dec R) (mem : Int → α) (h0 : d.sr.hr = true) (hc : c.SameButPitch P d.dt d.sr c') :
    lc3Decode P c' (some d) mem = lc3Decode P c (some d) mem := by
  obtain ⟨he, region, region', side, side', s, s', i1, i2, l1, l2, f1, f2, q1, q2, q3, q4⟩ := hc
  have e1 : c'.nbytes = c.nbytes := by rw [he]
  have e2 : c'.junk = c.junk := by rw [he]
  have e3 : c'.conv = c.conv := by rw [he]
  have e4 : c'.stride = c.stride := by rw [he]
  have e5 : c'.base = c.base := by rw [he]
  unfold lc3Decode
  dsimp only
  rw [i1, i2, e1]
  congr 1
  unfold decProcess decInput decDecode
  rw [i1, i2, e1, e2, e3, e4, e5]
  dsimp only
  rw [if_neg (by omega), if_neg (by omega), f1, f2]
  dsimp only
  rw [q4]
  cases hx : winPut d.x d.xsOff (padSpectrum P.A d.dt d.sr s.x) with
  | none => rfl
  | some x =>
    simp only [Option.map_some, Option.bind_some]
    have hg : synthGood P c.junk { d with x := x } side' = synthGood P c.junk { d with x := x } side := by
      unfold synthGood
      rw [q1, q2, q3]
    have : synthesize P c.junk { d with x := x } (some side') c.nbytes = synthesize P c.junk { d with x := x } (some side) c.nbytes := by
      unfold synthesize
      dsimp only
      rw [hg]
      cases hy : synthGood P c.junk { d with x := x } side with
      | none => rfl
      | some d2 =>
        obtain ⟨-, -, b3, -⟩ := drySynth_kept P c.junk { d with x := x } (some side) d2 hy
        have hh : d2.sr.hr = true := by rw [b3]; exact h0
        simp only [Option.bind_some]
        unfold synthLtpf
        rw [if_pos hh, if_pos hh]
    rw [this]
    simp

/-- **C101**: in high-resolution mode, the pitch has no effect. Calls replaced by others where the frames differ only by it give the same values, the same
samples and the same decoder. -/
theorem C101_pitch (P : Platform R) (dtUs srHz srPcmHz : Int) (d : Dec R) (hs : decSetup P.A true dtUs srHz srPcmHz true = some (some d))
    (calls calls' : List (DecCall R α)) (hc : List.Forall₂ (fun c c' => c' = c ∨ c.SameButPitch P d.dt d.sr c') calls calls') (mem : Int → α) :
    decRun P calls' (some d) mem = decRun P calls (some d) mem := by
  have h0 := decSetup_hr P dtUs srHz srPcmHz true d hs
  have h1 : d.sr.hr = true → d.ltpf.active = false := fun _ => by
    unfold decSetup at hs
    obtain ⟨o, -, hs⟩ := Option.map_eq_some_iff.1 hs
    obtain ⟨l, -, hs⟩ := Option.map_eq_some_iff.1 hs
    subst hs
    rfl
  obtain ⟨dt, hdt⟩ : ∃ dt, dt = d.dt := ⟨_, rfl⟩
  obtain ⟨sr, hsr⟩ : ∃ sr, sr = d.sr := ⟨_, rfl⟩
  rw [← hdt, ← hsr] at hc
  clear hs
  induction hc generalizing d mem with
  | nil => rfl
  | @cons c c' l l' hcc _ ih =>
    unfold decRun
    have : lc3Decode P c' (some d) mem = lc3Decode P c (some d) mem := by
      rcases hcc with rfl | hcc
      · rfl
      · exact hr_same P c c' d mem h0 (by rw [← hdt, ← hsr]; exact hcc)
    rw [this]
    cases hw : lc3Decode P c (some d) mem with
    | none => rfl
    | some w =>
      obtain ⟨r, d', mem'⟩ := w
      obtain ⟨d1, rfl, ⟨k1, k2, -⟩, k4, -⟩ := flag_step P c d mem h1 r _ _ hw
      simp only [Option.bind_some]
      rw [ih d1 mem' (by rw [k2]; exact h0) k4 (by rw [k1]; exact hdt) (by rw [k2]; exact hsr)]

/-! ### A case -/

/-- A frame of 60 bytes, 2.5 ms at 48 kHz in high-resolution mode, without pitch. -/
def exHr : List Nat := List.replicate 60 0

/-- The same with a pitch, and the post-filter active. -/
def exHrPitch : List Nat := (exHr.set 57 1).set 53 128

set_option maxRecDepth 100000 in
theorem exHr_same : (match (decodeFrame exPlat.A .m2_5 .k48hr exPlat.sh32 ⟨true, 7⟩ exHr).1,
      (decodeFrame exPlat.A .m2_5 .k48hr exPlat.sh32 ⟨true, 7⟩ exHrPitch).1 with
    | .ok (a, s), .ok (a', s') => !a.pitchPresent && a'.pitchPresent && a'.ltpf.active &&
        decide (a'.bw = a.bw ∧ a'.tns = a.tns ∧ a'.sns = a.sns ∧ s'.x = s.x)
    | _, _ => false) = true := by decide +kernel

/-! The hypotheses are met: a stream of any length without pitch, and with the post-filter active in all the frames. -/
example (k : Nat) (hk : k < 1000000) (mem : Int → Rat) :
    ∃ (d0 : Dec Rat) (rets : List Int) (d1 : Option (Dec Rat)) (mem1 : Int → Rat), decSetup exPlat.A true 2500 48000 0 true = some (some d0) ∧
    List.Forall₂ (fun c c' => c' = c ∨ c.SameButPitch exPlat d0.dt d0.sr c') (List.replicate k (exCall (some exHr) 60)) (List.replicate k (exCall (some exHrPitch) 60)) ∧
    decRun exPlat (List.replicate k (exCall (some exHrPitch) 60)) (some d0) mem = some (rets, d1, mem1) := by
  obtain ⟨L, size, h, -⟩ := (C06_setup_decoder 0 true 2500 48000 0 true).2 (by
    unfold Spec.setupOk Spec.supported Spec.pcmRate; decide)
  obtain ⟨d0, h0⟩ : ∃ d0, decSetup exPlat.A true 2500 48000 0 true = some (some d0) := by
    unfold decSetup
    rw [h]; exact ⟨_, rfl⟩
  obtain ⟨-, -, -, r1, r2, -⟩ := decSetup_inv exPlat true 2500 48000 0 true d0 h0
  have e1 : d0.dt = .m2_5 := by injection r1 with r1; exact r1.symm
  have e2 : d0.sr = .k48hr := by injection r2 with r2; exact r2.symm
  have g : CallOk (exCall (some exHrPitch) 60) :=
    exCall_ok _ _ (fun l hl => by injection hl with hl; subst hl; exact ⟨by unfold Bytes; decide, by decide⟩) (fun h => by cases h)
  obtain ⟨rets, d, m, hrun⟩ := C56_no_ub exPlat true 2500 48000 0 true d0 h0 (List.replicate k (exCall (some exHrPitch) 60))
    (fun c hc => by rw [List.eq_of_mem_replicate hc]; exact g) mem (by rw [List.length_replicate]; omega)
  refine ⟨d0, rets, d, m, h0, ?_, hrun⟩
  have hs : (exCall (some exHr) 60).SameButPitch exPlat d0.dt d0.sr (exCall (some exHrPitch) 60) := by
    have hg := exHr_same
    split at hg
    · rename_i a s a' s' f1 f2
      rw [Bool.and_eq_true, decide_eq_true_eq] at hg
      refine ⟨rfl, exHr ++ List.replicate 10 0xff, exHrPitch ++ List.replicate 10 0xff, a, a', s, s', rfl, rfl, by decide, by decide, ?_, ?_, hg.2⟩
      · rw [e1, e2]; exact f1
      · rw [e1, e2]; exact f2
    · cases hg
  clear hrun hk
  induction k with
  | zero => exact .nil
  | succ k ih => exact .cons (.inr hs) ih

end LC3
