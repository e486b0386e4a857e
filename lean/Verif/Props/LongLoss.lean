import Verif.Props.Fade
import Verif.Props.Conceal

/-!
**C89.** The float output during a long burst of losses. The property is refuted: a frame of ordinary level, followed by 555 losses, ends in a frame at
full scale.
-/

namespace LC3
open Finset

/-- A frame of 20 bytes, for 2.5 ms at 8 kHz: the samples decoded are under 18400, for a full scale of 32768. -/
def longFrame : List Nat := [255, 244, 7, 186, 164, 0, 0, 0, 0, 111, 255, 255, 255, 255, 232, 245, 124, 0, 79, 224]

/-- The spectrum of the frame. -/
def longSpectrum : Option (List Rat) :=
  match (decodeFrame (Arith.rounded fl) .m2_5 .k8 id ⟨false, 0⟩ longFrame).1 with
  | .ok (side, s) => goodSpectrum (flPlatform sqrt24 id) .m2_5 .k8 .k8 side (padSpectrum (Arith.rounded fl) .m2_5 .k8 s.x)
  | _ => none

/-- Two losses, from the state `p` of the concealment: the float output of the second one. -/
def longRun (p : Plc Rat) : Option (List (Option Rat)) :=
  longSpectrum.bind fun g =>
  (plcSynthesize (Arith.rounded fl) 20 p g).bind fun a =>
  (invTransform (flPlatform sqrt24 id) .m2_5 .k8 .k8 a.2 (List.replicate (nd .m2_5 .k8) ((Arith.rounded fl).ofRat 0))).bind fun r =>
  (plcSynthesize (Arith.rounded fl) 20 a.1 g).bind fun b =>
  (invTransform (flPlatform sqrt24 id) .m2_5 .k8 .k8 b.2 r.2).map fun q => q.1.map outFloat

set_option maxRecDepth 100000 in
theorem long_seed : plcLcg^[20 * 554] 24607 = 61127 := by decide +kernel

set_option maxRecDepth 100000 in
theorem long_alpha : burstAlpha (Arith.rounded fl) 554 = 288761 / 178405961588244985132285746181186892047843328 := by decide +kernel

theorem long_run : longRun ⟨61127, 555, 288761 / 178405961588244985132285746181186892047843328⟩ = some (List.replicate 20 (some (-1))) := by
  decide +kernel

/-- The call that decodes the frame. -/
def longCall {α : Type} (conv : Rat → α) : DecCall Rat α := ⟨some longFrame, 20, conv, 0, 1, ⟨⟨false, 0⟩, fun _ => 0, fun _ => 0⟩⟩

/-- The frame is of an ordinary level: on a decoder just setup, it is accepted and no sample exceeds 18400. -/
theorem long_level : ((decSetup (Arith.rounded fl) false 2500 8000 0 true).bind fun d =>
    (lc3Decode (flPlatform sqrt24 id) (longCall id) d (fun _ => 0)).map fun r => (r.1, (List.range 20).all fun i => decide (|r.2.2 i| ≤ 18400))) =
      some (0, true) := by
  decide +kernel

theorem long_gives {α : Type} (conv : Rat → α) : Gives (longCall conv) longFrame :=
  ⟨⟨fun r hr => by
    obtain rfl : longFrame = r := Option.some.inj hr
    exact ⟨(by unfold Bytes; decide), (by decide : (20 : Int) ≤ ((longFrame.length : Nat) : Int))⟩, fun h => by cases h⟩,
    longFrame, rfl, by decide, (by decide : (20 : Int) = ((longFrame.length : Nat) : Int))⟩

/-- A decoder just setup receives the frame, loses 555 frames (1.4 seconds), and one more: all its samples are -1 in float, full scale. -/
theorem long_loss : ∃ (d d' : Dec Rat) (m : Int → Option Rat),
    Played (flPlatform sqrt24 id) false 2500 8000 0 (longCall outFloat :: List.replicate 555 (lostCall outFloat)) (0 :: List.replicate 555 1) d m ∧
      lc3Decode (flPlatform sqrt24 id) (lostCall outFloat) (some d) m = some (1, some d', pcmStore 1 0 (List.replicate 20 (some (-1))) m) := by
  obtain ⟨P, eP⟩ : ∃ P, P = flPlatform sqrt24 id := ⟨_, rfl⟩
  have eA : P.A = Arith.rounded fl := by rw [eP]; rfl
  have e32 : P.sh32 = id := by rw [eP]; rfl
  obtain ⟨d0, h0⟩ : ∃ d0, decSetup P.A false 2500 8000 0 true = some (some d0) := by
    unfold decSetup
    have : ((setupDecoder false 2500 8000 0 true).bind id).isSome = true := by decide
    obtain ⟨l, hl⟩ := Option.isSome_iff_exists.1 this
    obtain ⟨o, e1, e2⟩ := Option.bind_eq_some_iff.1 hl
    rw [e1, show o = some l from e2]
    exact ⟨_, rfl⟩
  have hseed : d0.plc.seed = 24607 := by
    unfold decSetup at h0
    obtain ⟨o, e1, h0⟩ := Option.map_eq_some_iff.1 h0
    obtain ⟨l, e2, h0⟩ := Option.map_eq_some_iff.1 h0
    rw [← h0]; rfl
  have hpl : Played P false 2500 8000 0 ([] : List (DecCall Rat (Option Rat))) [] d0 (fun _ => some 0) :=
    ⟨fun c hc => (by cases hc), d0, _, h0, rfl⟩
  obtain ⟨-, i2, i3, i4, -⟩ := hpl.inv
  have hdt : d0.dt = .m2_5 := by
    have : resolveDt 2500 false = some .m2_5 := by decide
    rw [this] at i2; exact (Option.some.inj i2).symm
  have hsr : d0.sr = .k8 := by
    have : resolveSrate 8000 false = some .k8 := by decide
    rw [this] at i3; exact (Option.some.inj i3).symm
  have hpcm : d0.srPcm = .k8 := by
    have : resolveSrate (Spec.pcmRate 8000 0) false = some .k8 := by decide
    rw [this] at i4; exact (Option.some.inj i4).symm
  have hrun := long_run
  unfold longRun at hrun
  obtain ⟨g0, r1, hrun⟩ := Option.bind_eq_some_iff.1 hrun
  obtain ⟨a, r2, hrun⟩ := Option.bind_eq_some_iff.1 hrun
  obtain ⟨r, r3, hrun⟩ := Option.bind_eq_some_iff.1 hrun
  obtain ⟨b, r4, hrun⟩ := Option.bind_eq_some_iff.1 hrun
  obtain ⟨q, r5, hrun⟩ := Option.map_eq_some_iff.1 hrun
  unfold longSpectrum at r1
  rw [← eP] at r1 r3 r5 ⊢
  rw [← eA, ← e32] at r1
  split at r1
  case h_2 => cases r1
  rename_i side0 s0 hdec
  have hgood : FrameGood P d0.dt d0.sr longFrame := by
    rw [hdt, hsr]
    exact ⟨by decide, by decide, _, _, _, hdec⟩
  obtain ⟨side, s, g, t, e, xs, e', d', d'', m', f1, f2, f3, f4, f5, f6⟩ := C88_replay P false 2500 8000 0 [] [] d0 _ hpl longFrame hgood (longCall outFloat)
    (long_gives _) (List.replicate 555 (lostCall outFloat)) (fun c hc => by rw [(List.mem_replicate.1 hc).2]; exact ⟨lost_ok _, rfl⟩)
    (by rw [List.length_replicate]; omega) (by rw [List.length_replicate]; omega) (lostCall outFloat) ⟨lost_ok _, rfl⟩
  rw [hdt, hsr] at f1
  rw [hdt, hsr, hpcm] at f2
  have hg := goodSpectrum_frame P .m2_5 .k8 .k8 _ _ longFrame side side0 s s0 f1 hdec
  rw [f2, r1] at hg
  obtain rfl := Option.some.inj hg
  rw [hdt, hsr, hpcm, hseed, List.length_replicate] at f4 f5
  have lg : ne .m2_5 .k8 ≤ g.length := by
    unfold plcSynthesize at r2
    split at r2
    · cases r2
    · rename_i hl; exact not_lt.1 hl
  obtain ⟨p1, p2, p3, p4⟩ := plcSynthesize_replayed (Arith.rounded fl) .m2_5 .k8 .k8 _ 554 24607 g lg rfl long_alpha.symm long_seed.symm a r2
  obtain ⟨-, -, -, p8⟩ := plcSynthesize_replayed (Arith.rounded fl) .m2_5 .k8 .k8 _ 555 24607 g lg p1 p2 p3 b r4
  rw [eA] at f4 f5
  rw [show ns .m2_5 .k8 - ne .m2_5 .k8 = 0 by decide, List.replicate_zero, List.append_nil] at p4 p8
  rw [p4] at r3
  rw [p8] at r5
  rw [r3] at f4
  obtain ⟨rfl⟩ := Option.some.inj f4
  rw [r5] at f5
  obtain ⟨rfl⟩ := Option.some.inj f5
  refine ⟨d', d'', m', ?_, ?_⟩
  · rw [List.length_replicate] at f3; exact f3
  · rw [f6]
    show some (1, some d'', pcmStore 1 0 (List.map outFloat _) m') = _
    rw [hrun]

/-- **C89**, refuted: after 500 losses or more, the samples written in float may be at full scale. -/
theorem C89_refuted :
    ¬ ∀ (P : Platform Rat) (hr : Bool) (dtUs srHz srPcmHz : Int) (calls : List (DecCall Rat (Option Rat))) (rets : List Int) (d : Dec Rat)
      (mem : Int → Option Rat) (c : DecCall Rat (Option Rat)) (o : Option (Dec Rat)) (mem' : Int → Option Rat), Single fl P →
      Played P hr dtUs srHz srPcmHz calls rets d mem → 500 ≤ burst rets → CallOk c → c.conv = outFloat → c.stride = 1 →
      lc3Decode P c (some d) mem = some (1, o, mem') → ∀ k : Nat, k < ns d.dt d.srPcm → ∃ y, mem' (c.base + k) = some y ∧ |y| ≤ 1 / 1000 := by
  intro h
  obtain ⟨d, d', m, h1, h2⟩ := long_loss
  have hb : burst (0 :: List.replicate 555 1) = 555 := by
    have := burst_lost 555 [0]
    rw [List.singleton_append] at this
    rw [this]; rfl
  obtain ⟨y, y1, y2⟩ := h _ _ _ _ _ _ _ _ _ _ _ _ (C85_platform sqrt24 sqrt24_near id) h1 (by rw [hb]; omega) (lost_ok outFloat) rfl rfl h2 0 (by
    obtain ⟨-, i2, -, i4, -⟩ := h1.inv
    have hdt : d.dt = .m2_5 := by
      have : resolveDt 2500 false = some .m2_5 := by decide
      rw [this] at i2; exact (Option.some.inj i2).symm
    have hpcm : d.srPcm = .k8 := by
      have : resolveSrate (Spec.pcmRate 8000 0) false = some .k8 := by decide
      rw [this] at i4; exact (Option.some.inj i4).symm
    rw [hdt, hpcm]; decide)
  have hv : pcmStore 1 0 (List.replicate 20 (some (-1))) m 0 = some (-1 : Rat) := by
    simp [List.replicate, pcmStore]
  have y1 : pcmStore 1 0 (List.replicate 20 (some (-1))) m 0 = some y := y1
  rw [hv] at y1
  obtain rfl := Option.some.inj y1
  norm_num at y2

/-- **C89**, what holds: after 500 losses, whatever was received before, a sample out of the interval from `2^-126` to `2^-112` is written in float
under `10^-7`. Missing: the samples in this interval, written -1 or undefined (`C33_wrap`, `C89_refuted`). -/
theorem C89_float_partial {α : Type} (P : Platform Rat) (hP : Single fl P) (hr : Bool) (dtUs srHz srPcmHz : Int) (calls : List (DecCall Rat α))
    (rets : List Int) (d : Dec Rat) (mem : Int → α) (h : Played P hr dtUs srHz srPcmHz calls rets d mem) (hb : 500 ≤ burst rets) (c : DecCall Rat α)
    (hc : CallOk c) (o : Option (Dec Rat)) (mem' : Int → α) (hs : lc3Decode P c (some d) mem = some (1, o, mem')) :
    ∃ xs : List Rat, xs.length = ns d.dt d.srPcm ∧ mem' = pcmStore c.stride c.base (xs.map c.conv) mem ∧ ∀ v ∈ xs,
      |fl v| < pow2 (-126) ∨ pow2 (-112) ≤ |fl v| → ∃ y, outFloat v = some y ∧ |y| ≤ 1 / 10 ^ 7 := by
  obtain ⟨xs, h1, h2, h3⟩ := C87_level P hP hr dtUs srHz srPcmHz calls rets d mem h hb c hc o mem' hs
  refine ⟨xs, h1, h2, fun v hv hw => ?_⟩
  have hv1 := h3 v hv
  have hfin := (fl_cases v (hv1.trans (by rw [pow2_126']; norm_num))).1
  have hfl : |fl v| ≤ 1 / 4000 := (fl_roundF.mag hv1 (by norm_num)).trans (by norm_num)
  obtain ⟨y, y1, y2⟩ := (C33_float_partial _ hfin).2 hw
  refine ⟨y, y1, ?_⟩
  have hw' : |wantedFloat (fl v)| ≤ 1 / (4000 * 32768) := by
    have : |fl v / 32768| ≤ 1 / (4000 * 32768) := by
      rw [abs_div, abs_of_pos (by norm_num : (0 : Rat) < 32768), div_le_iff₀ (by norm_num)]
      norm_num at hfl ⊢; linarith
    unfold wantedFloat
    rw [abs_le] at this ⊢
    rw [max_eq_left (by linarith [this.1, show (1 : Rat) / (4000 * 32768) ≤ 1 by norm_num]),
      min_eq_left (by linarith [this.2, show (1 : Rat) / (4000 * 32768) ≤ 1 by norm_num])]
    exact this
  have := abs_add_le (y - wantedFloat (fl v)) (wantedFloat (fl v))
  rw [sub_add_cancel] at this
  have h126 : pow2 (-126) ≤ 1 / 10 ^ 9 := by rw [show pow2 (-126) = 1 / 2 ^ 126 by decide +kernel]; norm_num
  have y2' : |y - wantedFloat (fl v)| < pow2 (-126) := y2
  norm_num at h126 hw' ⊢
  linarith

/-- Non vacuity: the history of `long_loss`. -/
example : ∃ (d d' : Dec Rat) (m : Int → Option Rat) (rets : List Int) (mem' : Int → Option Rat), Single fl (flPlatform sqrt24 id) ∧
    Played (flPlatform sqrt24 id) false 2500 8000 0 (longCall outFloat :: List.replicate 555 (lostCall outFloat)) rets d m ∧ 500 ≤ burst rets ∧
      lc3Decode (flPlatform sqrt24 id) (lostCall outFloat) (some d) m = some (1, some d', mem') := by
  obtain ⟨d, d', m, h1, h2⟩ := long_loss
  refine ⟨d, d', m, _, _, C85_platform sqrt24 sqrt24_near id, h1, ?_, h2⟩
  have := burst_lost 555 [0]
  rw [List.singleton_append] at this
  rw [this]; decide

end LC3
