import Verif.Props.Dry
import Verif.Props.EndToEnd

/-!
C102: `lc3_encoder_disable_ltpf` turns the post-filter off from end to end.
-/

namespace LC3

variable {R α β : Type} [Inhabited R]

/-- A frame written by `lc3_encode`, at any point of a stream where `lc3_encoder_disable_ltpf` has been called, and whose bits fit. -/
def FromDisabled (P : EncPlatform R) (hr : Bool) (dtUs srHz srPcmHz : Int) (α : Type) (F : List Nat) : Prop :=
  ∃ (ops : List (EncOp R α)) (rets : List (Option (Int × List Nat))) (e : Enc R) (c : EncCall R α) (out : List Nat) (e' : Option (Enc R)),
    EncPlayed P hr dtUs srHz srPcmHz ops rets e ∧ EncOp.disableLtpf ∈ ops ∧ c.Ok (ns e.dt e.srPcm) ∧
    lc3Encode P c (some e) = some (0, out, e') ∧ F = out.take c.nbytes.toNat ∧
    ∀ v side e1, c.samples (ns e.dt e.srPcm) = some v → encAnalyze P c.junk c.nbytes.toNat (encLoad v e) = some (side, e1) →
      Fits P.A e.dt e.sr c.nbytes.toNat side (e1.xs.take (ne e.dt e.sr))

theorem disabled_inactive (P : EncPlatform R) (hA : CandidatesOk P.A) (hz : P.A.isZero (P.A.ofInt 0) = true) (hr : Bool) (dtUs srHz srPcmHz : Int)
    (F : List Nat) (hF : FromDisabled P hr dtUs srHz srPcmHz α F) (P' : Platform R) (hPA : P'.A = P.A) (srPcmHz' : Int) (d : Dec R)
    (hs : decSetup P'.A hr dtUs srHz srPcmHz' true = some (some d)) (c' : DecCall R β) (hc' : Gives c' F) (mem : Int → β) :
    c'.Inactive P' d.dt d.sr d.srPcm := by
  obtain ⟨ops, rets, e, c, out, e', h1, h2, h3, h4, rfl, h5⟩ := hF
  obtain ⟨-, -, -, v, e1, side, st', x, y, w1, w2, w3, -, -, -, -, hp, -⟩ := C62_frame P hA hr dtUs srHz srPcmHz ops rets e h1 c h3 out e' h4
  obtain ⟨v', e1', side', y', q1, q2, q3, q4⟩ := C62_accepted_partial P hA hz hr dtUs srHz srPcmHz ops rets e h1 c h3 out e' h4 (β := β)
  rw [w1] at q1
  obtain rfl := Option.some.inj q1
  rw [w2] at q2
  obtain ⟨rfl, rfl⟩ := Prod.mk.inj (Option.some.inj q2)
  have hfit := h5 v side e1 w1 w2
  rw [q3] at hfit
  have hpl : Played P' hr dtUs srHz srPcmHz' ([] : List (DecCall R β)) [] d mem := ⟨fun c hc => (by cases hc), d, mem, hs, rfl⟩
  obtain ⟨-, rE1, rE2, -⟩ := h1.inv hA
  obtain ⟨-, rD1, rD2, -⟩ := hpl.inv
  obtain ⟨-, -, sd, s, -, z2, z3, -⟩ := q4 hfit P' dtUs srHz srPcmHz' [] [] d mem hPA hpl (Option.some.inj (rD1.symm.trans rE1))
    (Option.some.inj (rD2.symm.trans rE2)) c' hc'
  intro region side2 s2 hr hd
  obtain ⟨j1, -⟩ := hc'.frame_eq
  unfold DecCall.frame at j1
  rw [hr, Option.map_some] at j1
  rw [Option.some.inj j1, z2] at hd
  injection hd with hd
  obtain ⟨rfl, rfl⟩ := Prod.mk.inj hd
  left
  rw [z3]
  exact hp h2

/-- **C102**: a decoder just set up receives frames written after `lc3_encoder_disable_ltpf`, from one encoder or several, in any order, some lost. The values
returned and the samples are those of the synthesis without post-filter. Missing: the frames whose bits do not fit, see `C62_accepted_partial`. -/
theorem C102_off_partial (P : EncPlatform R) (hA : CandidatesOk P.A) (hz : P.A.isZero (P.A.ofInt 0) = true) (hr : Bool) (dtUs srHz srPcmHz : Int)
    (P' : Platform R) (hPA : P'.A = P.A) (srPcmHz' : Int) (d : Dec R) (hs : decSetup P'.A hr dtUs srHz srPcmHz' true = some (some d))
    (calls : List (DecCall R β)) (hc : ∀ c ∈ calls, c.inp = none ∨ ∃ F, FromDisabled P hr dtUs srHz srPcmHz α F ∧ Gives c F)
    (mem : Int → β) (rets : List Int) (d' : Option (Dec R)) (mem' : Int → β)
    (h : decRun P' calls (some d) mem = some (rets, d', mem')) : dryRun P' calls d mem = some (rets, mem') := by
  refine C100_dry P' hr dtUs srHz srPcmHz' d hs calls (fun c hcc => ?_) mem rets d' mem' h
  rcases hc c hcc with hn | ⟨F, hF, hg⟩
  · intro region side s hr
    rw [hn] at hr; cases hr
  · exact disabled_inactive P hA hz hr dtUs srHz srPcmHz F hF P' hPA srPcmHz' d hs c hg mem

/-! ### A case -/

set_option maxRecDepth 100000 in
theorem exOff_fits : (((encSetup exEncPlat.A false 2500 8000 0 true).join).bind fun e =>
    ((exEncCall 20 (List.replicate 22 7) ⟨⟨true, 7⟩, fun _ => 3⟩).samples (ns e.dt e.srPcm)).bind fun v =>
    (encAnalyze exEncPlat ⟨⟨true, 7⟩, fun _ => 3⟩ 20 (encLoad v { e with bypass := true })).map fun r =>
      decide (Fits exEncPlat.A e.dt e.sr 20 r.1 (r.2.xs.take (ne e.dt e.sr))) && decide (r.1.spec.nq ≠ 0)) = some true := by
  decide +kernel

set_option maxRecDepth 100000 in
theorem exOff_ret : (((encSetup exEncPlat.A false 2500 8000 0 true).join).bind fun e =>
    lc3Encode exEncPlat (exEncCall 20 (List.replicate 22 7) ⟨⟨true, 7⟩, fun _ => 3⟩) (some { e with bypass := true })).map (fun r => r.1) = some 0 := by
  decide +kernel

/-- The first frame of an encoder after `lc3_encoder_disable_ltpf`, with coded coefficients. -/
example : ∃ F, F.length = 20 ∧ FromDisabled exEncPlat false 2500 8000 0 Int F := by
  obtain ⟨e0, h0⟩ : ∃ e0, encSetup exEncPlat.A false 2500 8000 0 true = some (some e0) := ⟨_, rfl⟩
  have hf := exOff_fits
  have h1 := exOff_ret
  rw [h0, Option.join_some, Option.bind_some] at hf h1
  obtain ⟨v, hv, hf⟩ := Option.bind_eq_some_iff.1 hf
  obtain ⟨⟨side, e1⟩, hs, hf⟩ := Option.map_eq_some_iff.1 hf
  rw [Bool.and_eq_true, decide_eq_true_eq] at hf
  obtain ⟨⟨r, out, e'⟩, h1, h2⟩ := Option.map_eq_some_iff.1 h1
  dsimp only at h2
  subst h2
  have hpl : EncPlayed exEncPlat false 2500 8000 0 ([.disableLtpf] : List (EncOp Rat Int)) [none] { e0 with bypass := true } :=
    ⟨fun c hc => (by rcases List.mem_cons.1 hc with hc | hc <;> cases hc), e0, h0, rfl⟩
  obtain ⟨-, -, hlen, -⟩ := C62_frame exEncPlat exEncCandidates false 2500 8000 0 _ _ _ hpl _ (exEncCall_ok _ _ _ _ (by decide)) out e' h1
  refine ⟨out.take 20, hlen, _, _, _, _, out, e', hpl, List.mem_cons_self .., exEncCall_ok _ _ _ _ (by decide), h1, rfl, fun v' side' e1' q1 q2 => ?_⟩
  have q1 : (exEncCall 20 (List.replicate 22 7) ⟨⟨true, 7⟩, fun _ => 3⟩).samples (ns e0.dt e0.srPcm) = some v' := q1
  rw [hv] at q1
  obtain rfl := Option.some.inj q1
  have q2 : encAnalyze exEncPlat ⟨⟨true, 7⟩, fun _ => 3⟩ 20 (encLoad v { e0 with bypass := true }) = some (side', e1') := q2
  rw [hs] at q2
  obtain ⟨rfl, rfl⟩ := Prod.mk.inj (Option.some.inj q2)
  exact hf.1

end LC3
