import Verif.Props.LeadingDecoder

/-!
C100: without active pitch in the frames, the samples are those of the transforms alone.
-/

namespace LC3

variable {R α : Type}

/-- Reference for C100: the synthesis of a frame (src/lc3.c:618-657) without the call to `lc3_ltpf_synthesize`. -/
def drySynth (P : Platform R) (u : Junk R) (d : Dec R) : Option SideData → Option (Dec R)
  | some s => synthGood P u d s
  | none => synthLost P u d

/-- Reference for C100: `lc3_decode` (src/lc3.c:740-772) with the synthesis `drySynth`. -/
def dryDecode (P : Platform R) (c : DecCall R α) (d : Dec R) (mem : Int → α) : Option (Int × Dec R × (Int → α)) :=
  if c.inp.isSome ∧ (c.nbytes < 20 ∨ c.nbytes > maxFrameBytes d.dt d.sr) then some (-1, d, mem) else
  (decInput P c d).bind fun w =>
  (drySynth P c.junk w.2 w.1).bind fun d =>
  (win d.x d.xsOff (ns d.dt d.srPcm)).bind fun xs =>
  some (if w.1 = none then 1 else 0, complete d, pcmStore c.stride c.base (xs.map c.conv) mem)

/-- A sequence of calls without the post-filter: the values returned and the samples in memory. -/
def dryRun (P : Platform R) : List (DecCall R α) → Dec R → (Int → α) → Option (List Int × (Int → α))
  | [], _, mem => some ([], mem)
  | c :: l, d, mem =>
    (dryDecode P c d mem).bind fun r =>
    (dryRun P l r.2.1 r.2.2).map fun w => (r.1 :: w.1, w.2)

/-- The frame of the call, if there is one that is accepted, has no pitch, or the post-filter is not active in it, or its size disables it. -/
def DecCall.Inactive (P : Platform R) (dt : Dt) (sr srPcm : Srate) (c : DecCall R α) : Prop :=
  ∀ region side s, c.inp = some region → (decodeFrame P.A dt sr P.sh32 c.junk.ltpf (region.take c.nbytes.toNat)).1 = .ok (side, s) →
    side.pitchPresent = false ∨ side.ltpf.active = false ∨ ∀ g, gainIndex dt srPcm c.nbytes = some g → 4 ≤ g

theorem decInput_ltpf (P : Platform R) (c : DecCall R α) (d : Dec R) (t : LtpfS R) :
    decInput P c { d with ltpf := t } = (decInput P c d).map fun w => (w.1, { w.2 with ltpf := t }) := by
  unfold decInput
  cases c.inp with
  | none => rfl
  | some region =>
    dsimp only
    split
    · rfl
    · unfold decDecode
      dsimp only
      split
      · rfl
      · rw [Option.map_map]; rfl
      · rw [Option.map_map]; rfl

theorem drySynth_ltpf (P : Platform R) (u : Junk R) (d : Dec R) (side : Option SideData) (t : LtpfS R) :
    drySynth P u { d with ltpf := t } side = (drySynth P u d side).map fun d => { d with ltpf := t } := by
  cases side with
  | none =>
    unfold drySynth synthLost
    simp only [Option.map_bind, Function.comp_def, Option.map_some]
  | some s =>
    unfold drySynth synthGood
    simp only [Option.map_bind, Function.comp_def, Option.map_some]

/-- What the synthesis keeps. -/
theorem drySynth_kept (P : Platform R) (u : Junk R) (d : Dec R) (side : Option SideData) (d1 : Dec R) (h : drySynth P u d side = some d1) :
    d1.ltpf = d.ltpf ∧ d1.dt = d.dt ∧ d1.sr = d.sr ∧ d1.srPcm = d.srPcm := by
  cases side with
  | none =>
    unfold drySynth synthLost at h
    simp only [Option.bind_eq_some_iff] at h
    obtain ⟨_, -, _, -, _, -, _, -, _, -, _, -, _, -, _, -, h⟩ := h
    cases h; exact ⟨rfl, rfl, rfl, rfl⟩
  | some s =>
    unfold drySynth synthGood at h
    simp only [Option.bind_eq_some_iff] at h
    obtain ⟨_, -, _, -, _, -, _, -, _, -, _, -, _, -, _, -, _, -, _, -, _, -, h⟩ := h
    cases h; exact ⟨rfl, rfl, rfl, rfl⟩

theorem decInput_kept (P : Platform R) (c : DecCall R α) (d : Dec R) (w : Option SideData × Dec R) (h : decInput P c d = some w) :
    w.2.ltpf = d.ltpf ∧ w.2.dt = d.dt ∧ w.2.sr = d.sr ∧ w.2.srPcm = d.srPcm ∧
      ∀ side, w.1 = some side → ∃ region s, c.inp = some region ∧
        (decodeFrame P.A d.dt d.sr P.sh32 c.junk.ltpf (region.take c.nbytes.toNat)).1 = .ok (side, s) := by
  unfold decInput at h
  split at h
  · cases h; exact ⟨rfl, rfl, rfl, rfl, fun _ h => by cases h⟩
  · rename_i region hr
    split at h
    · cases h
    · unfold decDecode at h
      split at h
      · cases h
      · obtain ⟨x, -, rfl⟩ := Option.map_eq_some_iff.1 h; exact ⟨rfl, rfl, rfl, rfl, fun _ h => by cases h⟩
      · rename_i side s hd
        obtain ⟨x, -, rfl⟩ := Option.map_eq_some_iff.1 h
        refine ⟨rfl, rfl, rfl, rfl, fun sd hs => ?_⟩
        obtain rfl := Option.some.inj hs
        exact ⟨region, s, hr, hd⟩

theorem winPut_same {R : Type} (x : List R) (off n : Nat) (l y : List R) (h : win x off n = some l) (h' : winPut x off l = some y) : y = x := by
  unfold win at h
  split at h
  · rename_i hn
    cases h
    unfold winPut at h'
    split at h'
    · cases h'
      have hl : ((x.drop off).take n).length = n := by rw [List.length_take, List.length_drop]; omega
      rw [hl, ← List.drop_drop, List.take_append_drop, List.take_append_drop]
    · cases h'
  · cases h

/-- The post-filter, inactive before and in the frame, has no effect on the samples. -/
theorem synthLtpf_inactive (P : Platform R) (d : Dec R) (side : Option SideData) (nbytes : Int) (d1 : Dec R) (h : synthLtpf P d side nbytes = some d1)
    (h0 : d.ltpf.active = false) (hs : ∀ s, side = some s → s.pitchPresent = false ∨ s.ltpf.active = false ∨ ∀ g, gainIndex d.dt d.srPcm nbytes = some g → 4 ≤ g) :
    d1.ltpf.active = false ∧ d1 = { d with ltpf := d1.ltpf } := by
  unfold synthLtpf at h
  split at h
  · cases h; exact ⟨h0, rfl⟩
  · obtain ⟨ring, hw, h⟩ := Option.bind_eq_some_iff.1 h
    obtain ⟨⟨s', ring'⟩, hf, h⟩ := Option.bind_eq_some_iff.1 h
    obtain ⟨x, hp, h⟩ := Option.bind_eq_some_iff.1 h
    cases h
    have ha : s'.active = false := by
      unfold ltpfSynthesize at hf
      dsimp only at hf
      obtain ⟨g, hg, hf⟩ := Option.bind_eq_some_iff.1 hf
      obtain ⟨_, -, hf⟩ := Option.bind_eq_some_iff.1 hf
      obtain ⟨_, -, hf⟩ := Option.bind_eq_some_iff.1 hf
      obtain ⟨_, -, hf⟩ := Option.bind_eq_some_iff.1 hf
      obtain ⟨_, -, hf⟩ := Option.bind_eq_some_iff.1 hf
      obtain ⟨_, -, hf⟩ := Option.bind_eq_some_iff.1 hf
      cases hf
      dsimp only
      cases side with
      | none => rfl
      | some s =>
        rw [Option.bind_some]
        rcases hs s rfl with hs | hs | hs
        · rw [hs]; rfl
        · unfold dataActive
          split <;> simp_all
        · have := hs g hg
          unfold dataActive
          split
          · simp; omega
          · rfl
    have hr := C42_inactive P.A d.dt d.srPcm d.ltpf nbytes ring _ h0 _ s' ring' hf ha
    subst hr
    obtain rfl := winPut_same _ _ _ _ _ hw hp
    exact ⟨ha, rfl⟩

theorem dry_step (P : Platform R) (c : DecCall R α) (d : Dec R) (mem : Int → α) (h0 : d.ltpf.active = false) (hc : c.Inactive P d.dt d.sr d.srPcm)
    (r : Int) (d' : Option (Dec R)) (mem' : Int → α) (h : lc3Decode P c (some d) mem = some (r, d', mem')) :
    ∃ d1, d' = some d1 ∧ d1.ltpf.active = false ∧ (d1.dt = d.dt ∧ d1.sr = d.sr ∧ d1.srPcm = d.srPcm) ∧
      ∀ t, dryDecode P c { d with ltpf := t } mem = some (r, { d1 with ltpf := t }, mem') := by
  unfold lc3Decode at h
  dsimp only at h
  split at h
  · rename_i hn
    cases h
    refine ⟨d, rfl, h0, ⟨rfl, rfl, rfl⟩, fun t => ?_⟩
    unfold dryDecode
    rw [if_pos hn]
  · rename_i hn
    obtain ⟨p, hp, hw⟩ := Option.map_eq_some_iff.1 h
    cases hw
    unfold decProcess at hp
    obtain ⟨w, h1, hp⟩ := Option.bind_eq_some_iff.1 hp
    obtain ⟨d3, h2, hp⟩ := Option.bind_eq_some_iff.1 hp
    obtain ⟨xs, h4, hp⟩ := Option.bind_eq_some_iff.1 hp
    cases hp
    unfold synthesize at h2
    obtain ⟨d2, h2, h3⟩ := Option.bind_eq_some_iff.1 h2
    have h2 : drySynth P c.junk w.2 w.1 = some d2 := by
      rw [← h2]; unfold drySynth; cases w.1 <;> rfl
    obtain ⟨a1, a2, a3, a4, a5⟩ := decInput_kept P c d w h1
    obtain ⟨b1, b2, b3, b4⟩ := drySynth_kept P c.junk w.2 w.1 d2 h2
    obtain ⟨k1, k2⟩ := synthLtpf_inactive P d2 w.1 c.nbytes d3 h3 (by rw [b1, a1]; exact h0) (fun s hs => by
      obtain ⟨region, sp, e1, e2⟩ := a5 s hs
      rw [b2, b4, a2, a4]
      exact hc region s sp e1 e2)
    have e1 : d3.dt = d2.dt ∧ d3.sr = d2.sr ∧ d3.srPcm = d2.srPcm ∧ d3.x = d2.x ∧ d3.xsOff = d2.xsOff := by rw [k2]; exact ⟨rfl, rfl, rfl, rfl, rfl⟩
    obtain ⟨e1, e2, e3, e4, e5⟩ := e1
    refine ⟨complete d3, rfl, k1, ⟨e1.trans (b2.trans a2), e2.trans (b3.trans a3), e3.trans (b4.trans a4)⟩, fun t => ?_⟩
    unfold dryDecode
    rw [if_neg hn, decInput_ltpf, h1, Option.map_some, Option.bind_some]
    dsimp only
    rw [drySynth_ltpf, h2, Option.map_some, Option.bind_some, show ({ d2 with ltpf := t } : Dec R) = { d3 with ltpf := t } by rw [k2]]
    dsimp only
    rw [h4, Option.bind_some]
    rfl

theorem dry_run (P : Platform R) (t : LtpfS R) : ∀ (calls : List (DecCall R α)) (d : Dec R) (mem : Int → α), d.ltpf.active = false →
    (∀ c ∈ calls, c.Inactive P d.dt d.sr d.srPcm) → ∀ rets d' mem', decRun P calls (some d) mem = some (rets, d', mem') →
    dryRun P calls { d with ltpf := t } mem = some (rets, mem') := by
  intro calls
  induction calls with
  | nil => intro d mem _ _ rets d' mem' h; cases h; rfl
  | cons c l ih =>
    intro d mem h0 hc rets d' mem' h
    unfold decRun at h
    obtain ⟨⟨r, d1, mem1⟩, h1, h⟩ := Option.bind_eq_some_iff.1 h
    obtain ⟨⟨rets', d2, mem2⟩, h2, h⟩ := Option.map_eq_some_iff.1 h
    cases h
    obtain ⟨d1, rfl, k1, ⟨k2, k3, k4⟩, k5⟩ := dry_step P c d mem h0 (hc c (List.mem_cons_self ..)) r _ _ h1
    unfold dryRun
    rw [k5 t, Option.bind_some]
    dsimp only
    rw [ih d1 mem1 k1 (fun c' h' => by rw [k2, k3, k4]; exact hc c' (List.mem_cons_of_mem _ h')) _ _ _ h2]
    rfl

/-- **C100**: a decoder just set up receives any calls where no frame accepted activates the post-filter, with frames lost or refused among them. The values
returned and the samples are those of the synthesis without post-filter, to the last bit. -/
theorem C100_dry (P : Platform R) (hr : Bool) (dtUs srHz srPcmHz : Int) (d : Dec R) (hs : decSetup P.A hr dtUs srHz srPcmHz true = some (some d))
    (calls : List (DecCall R α)) (hc : ∀ c ∈ calls, c.Inactive P d.dt d.sr d.srPcm) (mem : Int → α) (rets : List Int) (d' : Option (Dec R)) (mem' : Int → α)
    (h : decRun P calls (some d) mem = some (rets, d', mem')) : dryRun P calls d mem = some (rets, mem') := by
  have h0 : d.ltpf.active = false := by
    unfold decSetup at hs
    obtain ⟨o, -, hs⟩ := Option.map_eq_some_iff.1 hs
    obtain ⟨l, -, hs⟩ := Option.map_eq_some_iff.1 hs
    subst hs
    rfl
  exact dry_run P d.ltpf calls d mem h0 hc rets d' mem' h

/-! ### After any stream -/

/-- What the post-filter keeps, and its state after a frame that does not activate it. -/
theorem synthLtpf_flag (P : Platform R) (d : Dec R) (side : Option SideData) (nbytes : Int) (d1 : Dec R) (h : synthLtpf P d side nbytes = some d1) :
    (d1.dt = d.dt ∧ d1.sr = d.sr ∧ d1.srPcm = d.srPcm) ∧ (d.sr.hr = true → d1.ltpf = d.ltpf) ∧
    (d.sr.hr = false → (∀ s, side = some s → s.pitchPresent = false ∨ s.ltpf.active = false ∨ ∀ g, gainIndex d.dt d.srPcm nbytes = some g → 4 ≤ g) →
      d1.ltpf.active = false) := by
  unfold synthLtpf at h
  split at h
  · rename_i hh
    cases h; exact ⟨⟨rfl, rfl, rfl⟩, fun _ => rfl, fun h' => by rw [hh] at h'; cases h'⟩
  · rename_i hh
    obtain ⟨ring, hw, h⟩ := Option.bind_eq_some_iff.1 h
    obtain ⟨⟨s', ring'⟩, hf, h⟩ := Option.bind_eq_some_iff.1 h
    obtain ⟨x, hp, h⟩ := Option.bind_eq_some_iff.1 h
    cases h
    refine ⟨⟨rfl, rfl, rfl⟩, fun h' => absurd h' hh, fun _ hs => ?_⟩
    unfold ltpfSynthesize at hf
    dsimp only at hf
    obtain ⟨g, hg, hf⟩ := Option.bind_eq_some_iff.1 hf
    obtain ⟨_, -, hf⟩ := Option.bind_eq_some_iff.1 hf
    obtain ⟨_, -, hf⟩ := Option.bind_eq_some_iff.1 hf
    obtain ⟨_, -, hf⟩ := Option.bind_eq_some_iff.1 hf
    obtain ⟨_, -, hf⟩ := Option.bind_eq_some_iff.1 hf
    obtain ⟨_, -, hf⟩ := Option.bind_eq_some_iff.1 hf
    cases hf
    dsimp only
    cases side with
    | none => rfl
    | some s =>
      rw [Option.bind_some]
      rcases hs s rfl with hs | hs | hs
      · rw [hs]; rfl
      · unfold dataActive
        split <;> simp_all
      · have := hs g hg
        unfold dataActive
        split
        · simp; omega
        · rfl

theorem flag_step (P : Platform R) (c : DecCall R α) (d : Dec R) (mem : Int → α) (h0 : d.sr.hr = true → d.ltpf.active = false)
    (r : Int) (d' : Option (Dec R)) (mem' : Int → α) (h : lc3Decode P c (some d) mem = some (r, d', mem')) :
    ∃ d1, d' = some d1 ∧ (d1.dt = d.dt ∧ d1.sr = d.sr ∧ d1.srPcm = d.srPcm) ∧ (d1.sr.hr = true → d1.ltpf.active = false) ∧
      (c.Inactive P d.dt d.sr d.srPcm → r ≠ -1 → d1.ltpf.active = false) := by
  unfold lc3Decode at h
  dsimp only at h
  split at h
  · cases h
    exact ⟨d, rfl, ⟨rfl, rfl, rfl⟩, h0, fun _ h => absurd rfl h⟩
  · obtain ⟨p, hp, hw⟩ := Option.map_eq_some_iff.1 h
    cases hw
    unfold decProcess at hp
    obtain ⟨w, h1, hp⟩ := Option.bind_eq_some_iff.1 hp
    obtain ⟨d3, h2, hp⟩ := Option.bind_eq_some_iff.1 hp
    obtain ⟨xs, h4, hp⟩ := Option.bind_eq_some_iff.1 hp
    cases hp
    unfold synthesize at h2
    obtain ⟨d2, h2, h3⟩ := Option.bind_eq_some_iff.1 h2
    have h2 : drySynth P c.junk w.2 w.1 = some d2 := by
      rw [← h2]; unfold drySynth; cases w.1 <;> rfl
    obtain ⟨a1, a2, a3, a4, a5⟩ := decInput_kept P c d w h1
    obtain ⟨b1, b2, b3, b4⟩ := drySynth_kept P c.junk w.2 w.1 d2 h2
    obtain ⟨⟨e1, e2, e3⟩, k1, k2⟩ := synthLtpf_flag P d2 w.1 c.nbytes d3 h3
    have hsr : d3.sr = d.sr := e2.trans (b3.trans a3)
    have kh : d3.sr.hr = true → d3.ltpf.active = false := fun hh => by
      rw [k1 (by rw [← e2]; exact hh), b1, a1]
      exact h0 (by rw [← hsr]; exact hh)
    refine ⟨complete d3, rfl, ⟨e1.trans (b2.trans a2), hsr, e3.trans (b4.trans a4)⟩, kh, fun hc _ => ?_⟩
    cases hh : d2.sr.hr with
    | true => exact kh (by rw [e2]; exact hh)
    | false =>
      exact k2 hh (fun s hs => by
        obtain ⟨region, sp, e1, e2⟩ := a5 s hs
        rw [b2, b4, a2, a4]
        exact hc region s sp e1 e2)

theorem flag_run (P : Platform R) : ∀ (calls : List (DecCall R α)) (d : Dec R) (mem : Int → α), (d.sr.hr = true → d.ltpf.active = false) →
    ∀ rets d' mem', decRun P calls (some d) mem = some (rets, d', mem') →
    ∃ d1, d' = some d1 ∧ (d1.dt = d.dt ∧ d1.sr = d.sr ∧ d1.srPcm = d.srPcm) ∧ (d1.sr.hr = true → d1.ltpf.active = false) := by
  intro calls
  induction calls with
  | nil => intro d mem h0 rets d' mem' h; cases h; exact ⟨d, rfl, ⟨rfl, rfl, rfl⟩, h0⟩
  | cons c l ih =>
    intro d mem h0 rets d' mem' h
    unfold decRun at h
    obtain ⟨⟨r, d1, mem1⟩, h1, h⟩ := Option.bind_eq_some_iff.1 h
    obtain ⟨⟨rets', d2, mem2⟩, h2, h⟩ := Option.map_eq_some_iff.1 h
    cases h
    obtain ⟨d1, rfl, ⟨k1, k2, k3⟩, k4, -⟩ := flag_step P c d mem h0 r _ _ h1
    obtain ⟨d3, e, ⟨l1, l2, l3⟩, l4⟩ := ih d1 mem1 k4 _ _ _ h2
    exact ⟨d3, e, ⟨l1.trans k1, l2.trans k2, l3.trans k3⟩, l4⟩

/-- **C100**, in the middle of a stream: after any calls, with the post-filter active or not, one call accepted that does not activate it is enough. It fades
out the filter; from the next one, as long as no frame activates it, the values returned and the samples are those of the synthesis without post-filter. -/
theorem C100_after (P : Platform R) (hr : Bool) (dtUs srHz srPcmHz : Int) (d : Dec R) (hs : decSetup P.A hr dtUs srHz srPcmHz true = some (some d))
    (before : List (DecCall R α)) (c : DecCall R α) (calls : List (DecCall R α)) (hc : ∀ c' ∈ c :: calls, c'.Inactive P d.dt d.sr d.srPcm)
    (mem : Int → α) (rets1 rets2 : List Int) (r : Int) (d1 d2 d3 : Option (Dec R)) (mem1 mem2 mem3 : Int → α)
    (h1 : decRun P before (some d) mem = some (rets1, d1, mem1)) (h2 : lc3Decode P c d1 mem1 = some (r, d2, mem2)) (hr1 : r ≠ -1)
    (h3 : decRun P calls d2 mem2 = some (rets2, d3, mem3)) :
    ∃ e, d2 = some e ∧ ∀ t, dryRun P calls { e with ltpf := t } mem2 = some (rets2, mem3) := by
  have h0 : d.ltpf.active = false := by
    unfold decSetup at hs
    obtain ⟨o, -, hs⟩ := Option.map_eq_some_iff.1 hs
    obtain ⟨l, -, hs⟩ := Option.map_eq_some_iff.1 hs
    subst hs
    rfl
  obtain ⟨d1, rfl, ⟨k1, k2, k3⟩, k4⟩ := flag_run P before d mem (fun _ => h0) _ _ _ h1
  obtain ⟨e, rfl, ⟨l1, l2, l3⟩, -, l5⟩ := flag_step P c d1 mem1 k4 r _ _ h2
  refine ⟨e, rfl, fun t => dry_run P t calls e mem2 (l5 ?_ hr1) (fun c' h' => ?_) rets2 d3 mem3 h3⟩
  · rw [k1, k2, k3]; exact hc c (List.mem_cons_self ..)
  · rw [l1, l2, l3, k1, k2, k3]; exact hc c' (List.mem_cons_of_mem _ h')

set_option maxRecDepth 100000 in
theorem exGood_inactive : (match (decodeFrame exPlat.A .m10 .k8 exPlat.sh32 ⟨true, 7⟩ exGood).1 with
    | .ok a => !a.1.pitchPresent
    | _ => false) = true := by decide +kernel

/-! The hypotheses are met: any number of frames with no pitch, a loss, and other frames. The data of the post-filter are then indeterminate, here with an active
filter. -/
example (k : Nat) (hk : k < 1000000) (mem : Int → Rat) : ∃ (d0 : Dec Rat) (rets : List Int) (m : Int → Rat),
    decSetup exPlat.A false 10000 8000 24000 true = some (some d0) ∧
    dryRun exPlat (List.replicate k (exCall (some exGood) 40) ++ exCall none 0 :: List.replicate k (exCall (some exGood) 40)) d0 mem = some (rets, m) := by
  obtain ⟨L, size, h, -⟩ := (C06_setup_decoder 0 false 10000 8000 24000 true).2 (by
    unfold Spec.setupOk Spec.supported Spec.pcmRate; decide)
  obtain ⟨d0, h0⟩ : ∃ d0, decSetup exPlat.A false 10000 8000 24000 true = some (some d0) := by
    unfold decSetup
    rw [h]; exact ⟨_, rfl⟩
  obtain ⟨-, -, -, r1, r2, -⟩ := decSetup_inv exPlat false 10000 8000 24000 true d0 h0
  have e1 : d0.dt = .m10 := by injection r1 with r1; exact r1.symm
  have e2 : d0.sr = .k8 := by injection r2 with r2; exact r2.symm
  have g : CallOk (exCall (some exGood) 40) :=
    exCall_ok _ _ (fun l hl => by injection hl with hl; subst hl; exact ⟨exGood_bytes, by decide⟩) (fun h => by cases h)
  have g2 : CallOk (exCall none 0) := exCall_ok _ _ (fun l hl => by cases hl) (fun _ => by decide)
  have mem_cases : ∀ c ∈ List.replicate k (exCall (some exGood) 40) ++ exCall none 0 :: List.replicate k (exCall (some exGood) 40),
      c = exCall (some exGood) 40 ∨ c = exCall none 0 := by
    intro c hc
    rcases List.mem_append.1 hc with hc | hc
    · exact .inl (List.eq_of_mem_replicate hc)
    · rcases List.mem_cons.1 hc with hc | hc
      · exact .inr hc
      · exact .inl (List.eq_of_mem_replicate hc)
  obtain ⟨rets, d, m, hrun⟩ := C56_no_ub exPlat false 10000 8000 24000 true d0 h0 _ (fun c hc => by
    rcases mem_cases c hc with rfl | rfl
    exacts [g, g2]) mem (by rw [List.length_append, List.length_cons, List.length_replicate]; omega)
  refine ⟨d0, rets, m, h0, C100_dry exPlat false 10000 8000 24000 d0 h0 _ (fun c hc => ?_) mem rets _ m hrun⟩
  rcases mem_cases c hc with rfl | rfl
  · intro region side s hr hd
    have hr : exGood ++ List.replicate 10 0xff = region := Option.some.inj hr
    have hd : (decodeFrame exPlat.A d0.dt d0.sr exPlat.sh32 ⟨true, 7⟩ (region.take 40)).1 = .ok (side, s) := hd
    rw [← hr, e1, e2, show List.take 40 (exGood ++ List.replicate 10 (0xff : Nat)) = exGood from by decide] at hd
    have hg := exGood_inactive
    rw [hd] at hg
    left
    simpa using hg
  · intro region side s hr
    cases hr

/-- The frame `exGood` with two bits changed: there is a pitch, and the post-filter is active. -/
def exPitch : List Nat := (exGood.set 33 255).set 37 255

theorem exPitch_bytes : Bytes exPitch := by unfold Bytes; decide

set_option maxRecDepth 100000 in
theorem exPitch_active : (match (decodeFrame exPlat.A .m10 .k8 exPlat.sh32 ⟨true, 7⟩ exPitch).1 with
    | .ok a => a.1.pitchPresent && a.1.ltpf.active && dataActive ((gainIndex .m10 .k24 40).getD 4) (some a.1.ltpf)
    | _ => false) = true := by decide +kernel

/-! The hypotheses of `C100_after` are met: frames with the post-filter active, a loss, and frames without pitch. -/
example (k : Nat) (hk : k < 1000000) (mem : Int → Rat) :
    ∃ (d0 : Dec Rat) (rets1 rets2 : List Int) (r : Int) (d1 d2 d3 : Option (Dec Rat)) (mem1 mem2 mem3 : Int → Rat),
    decSetup exPlat.A false 10000 8000 24000 true = some (some d0) ∧
    (∀ c ∈ exCall none 0 :: List.replicate k (exCall (some exGood) 40), c.Inactive exPlat d0.dt d0.sr d0.srPcm) ∧
    decRun exPlat (List.replicate (k + 1) (exCall (some exPitch) 40)) (some d0) mem = some (rets1, d1, mem1) ∧
    lc3Decode exPlat (exCall none 0) d1 mem1 = some (r, d2, mem2) ∧ r ≠ -1 ∧
    decRun exPlat (List.replicate k (exCall (some exGood) 40)) d2 mem2 = some (rets2, d3, mem3) := by
  obtain ⟨L, size, h, -⟩ := (C06_setup_decoder 0 false 10000 8000 24000 true).2 (by
    unfold Spec.setupOk Spec.supported Spec.pcmRate; decide)
  obtain ⟨d0, h0⟩ : ∃ d0, decSetup exPlat.A false 10000 8000 24000 true = some (some d0) := by
    unfold decSetup
    rw [h]; exact ⟨_, rfl⟩
  obtain ⟨-, -, -, r1, r2, -⟩ := decSetup_inv exPlat false 10000 8000 24000 true d0 h0
  have e1 : d0.dt = .m10 := by injection r1 with r1; exact r1.symm
  have e2 : d0.sr = .k8 := by injection r2 with r2; exact r2.symm
  have hact : d0.sr.hr = true → d0.ltpf.active = false := fun hh => by rw [e2] at hh; cases hh
  have g : CallOk (exCall (some exGood) 40) :=
    exCall_ok _ _ (fun l hl => by injection hl with hl; subst hl; exact ⟨exGood_bytes, by decide⟩) (fun h => by cases h)
  have g1 : CallOk (exCall (some exPitch) 40) :=
    exCall_ok _ _ (fun l hl => by injection hl with hl; subst hl; exact ⟨exPitch_bytes, by decide⟩) (fun h => by cases h)
  have g2 : CallOk (exCall none 0) := exCall_ok _ _ (fun l hl => by cases hl) (fun _ => by decide)
  obtain ⟨rets, d, m, hrun⟩ := C56_no_ub exPlat false 10000 8000 24000 true d0 h0
    (List.replicate (k + 1) (exCall (some exPitch) 40) ++ exCall none 0 :: List.replicate k (exCall (some exGood) 40)) (fun c hc => by
      rcases List.mem_append.1 hc with hc | hc
      · rw [List.eq_of_mem_replicate hc]; exact g1
      · rcases List.mem_cons.1 hc with hc | hc
        · rw [hc]; exact g2
        · rw [List.eq_of_mem_replicate hc]; exact g)
    mem (by rw [List.length_append, List.length_cons, List.length_replicate, List.length_replicate]; omega)
  rw [decRun_append] at hrun
  obtain ⟨⟨rets1, d1, mem1⟩, h1, hrun⟩ := Option.bind_eq_some_iff.1 hrun
  obtain ⟨w, h2, -⟩ := Option.map_eq_some_iff.1 hrun
  unfold decRun at h2
  obtain ⟨⟨r, d2, mem2⟩, h3, h2⟩ := Option.bind_eq_some_iff.1 h2
  obtain ⟨⟨rets2, d3, mem3⟩, h4, -⟩ := Option.map_eq_some_iff.1 h2
  refine ⟨d0, rets1, rets2, r, d1, d2, d3, mem1, mem2, mem3, h0, fun c hc => ?_, h1, h3, ?_, h4⟩
  · rcases List.mem_cons.1 hc with rfl | hc
    · intro region side s hr
      cases hr
    · rw [List.eq_of_mem_replicate hc]
      intro region side s hr hd
      have hr : exGood ++ List.replicate 10 0xff = region := Option.some.inj hr
      have hd : (decodeFrame exPlat.A d0.dt d0.sr exPlat.sh32 ⟨true, 7⟩ (region.take 40)).1 = .ok (side, s) := hd
      rw [← hr, e1, e2, show List.take 40 (exGood ++ List.replicate 10 (0xff : Nat)) = exGood from by decide] at hd
      have hg := exGood_inactive
      rw [hd] at hg
      left
      simpa using hg
  · obtain ⟨d1, rfl, -⟩ := flag_run exPlat _ d0 mem hact _ _ _ h1
    unfold lc3Decode at h3
    dsimp only at h3
    rw [if_neg (fun hh => by cases hh.1)] at h3
    obtain ⟨p, hp, hw⟩ := Option.map_eq_some_iff.1 h3
    cases hw
    unfold decProcess at hp
    obtain ⟨w, -, hp⟩ := Option.bind_eq_some_iff.1 hp
    obtain ⟨_, -, hp⟩ := Option.bind_eq_some_iff.1 hp
    obtain ⟨_, -, hp⟩ := Option.bind_eq_some_iff.1 hp
    cases hp
    dsimp only
    split <;> decide

end LC3
