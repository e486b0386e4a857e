import Verif.Props.SilentStream

/-!
C98: the calls rejected leave no trace.
-/

namespace LC3

variable {R α : Type}

/-! ### The encoder -/

/-- The size of the call is accepted; `lc3_encoder_disable_ltpf` is always accepted. -/
def EncOp.accepted (dt : Dt) (sr : Srate) : EncOp R α → Bool
  | .encode c => !(decide (c.nbytes < minFrameBytes dt sr ∨ c.nbytes > maxFrameBytes dt sr))
  | .disableLtpf => true

/-- The call has returned -1. -/
def failed (r : Option (Int × List Nat)) : Bool := decide (r.map Prod.fst = some (-1))

theorem encode_cfg [Inhabited R] (P : EncPlatform R) (c : EncCall R α) (e : Enc R) (w : Int × List Nat × Option (Enc R))
    (h : lc3Encode P c (some e) = some w) (hn : ¬ (c.nbytes < minFrameBytes e.dt e.sr ∨ c.nbytes > maxFrameBytes e.dt e.sr)) :
    w.1 = 0 ∧ ∃ e1, w.2.2 = some e1 ∧ e1.dt = e.dt ∧ e1.sr = e.sr := by
  unfold lc3Encode at h
  dsimp only at h
  rw [if_neg hn] at h
  obtain ⟨p, h', rfl⟩ := Option.map_eq_some_iff.1 h
  clear h
  unfold encProcess at h'
  obtain ⟨v, -, h⟩ := Option.bind_eq_some_iff.1 h'
  obtain ⟨a, ha, h⟩ := Option.bind_eq_some_iff.1 h
  split at h
  · cases h
  obtain ⟨f, -, h⟩ := Option.bind_eq_some_iff.1 h
  cases h
  refine ⟨rfl, a.2, rfl, ?_⟩
  unfold encAnalyze at ha
  obtain ⟨_, -, ha⟩ := Option.bind_eq_some_iff.1 ha
  obtain ⟨_, -, ha⟩ := Option.bind_eq_some_iff.1 ha
  obtain ⟨_, -, ha⟩ := Option.bind_eq_some_iff.1 ha
  obtain ⟨_, -, ha⟩ := Option.bind_eq_some_iff.1 ha
  obtain ⟨_, -, ha⟩ := Option.bind_eq_some_iff.1 ha
  obtain ⟨_, -, ha⟩ := Option.bind_eq_some_iff.1 ha
  obtain ⟨_, -, ha⟩ := Option.bind_eq_some_iff.1 ha
  obtain ⟨_, -, ha⟩ := Option.bind_eq_some_iff.1 ha
  cases ha
  exact ⟨rfl, rfl⟩

theorem filter_cons_map {β γ : Type} (p : β → Bool) (r : β) (x : Option (List β × γ)) :
    (x.map fun w => (r :: w.1, w.2)).map (fun w => (w.1.filter p, w.2)) =
      if p r then (x.map fun w => (w.1.filter p, w.2)).map (fun w => (r :: w.1, w.2)) else x.map fun w => (w.1.filter p, w.2) := by
  cases x with
  | none => split <;> rfl
  | some w =>
    dsimp only [Option.map_some]
    split
    · rename_i h
      rw [List.filter_cons_of_pos h]
    · rename_i h
      rw [List.filter_cons_of_neg h]

/-- **C98**, the encoder: whatever its state, a sequence of calls where those of a size not accepted are removed returns the same values and the same frames
for the others, and leaves the encoder in the same state; and both are undefined in the same cases. The calls removed are exactly those that returned -1. -/
theorem C98_encoder [Inhabited R] (P : EncPlatform R) : ∀ (ops : List (EncOp R α)) (e : Enc R),
    encRun P (ops.filter (EncOp.accepted e.dt e.sr)) (some e) = (encRun P ops (some e)).map fun w => (w.1.filter fun r => !failed r, w.2) := by
  intro ops
  induction ops with
  | nil => intro e; rfl
  | cons o l ih =>
    intro e
    cases o with
    | disableLtpf =>
      have := ih { e with bypass := true }
      rw [List.filter_cons_of_pos (by rfl)]
      unfold encRun encStep
      dsimp only [Option.map_some, Option.bind_some] at this ⊢
      rw [filter_cons_map, if_pos (by decide), ← this]
    | encode c =>
      by_cases hn : c.nbytes < minFrameBytes e.dt e.sr ∨ c.nbytes > maxFrameBytes e.dt e.sr
      · rw [List.filter_cons_of_neg (by unfold EncOp.accepted; dsimp only; rw [decide_eq_true hn]; decide), ih]
        conv => rhs; unfold encRun encStep
        dsimp only
        rw [show lc3Encode P c (some e) = some (-1, c.out, some e) by unfold lc3Encode; dsimp only; rw [if_pos hn]]
        dsimp only [Option.map_some, Option.bind_some]
        rw [filter_cons_map, if_neg (by simp [failed])]
      · rw [List.filter_cons_of_pos (by unfold EncOp.accepted; dsimp only; rw [decide_eq_false hn]; decide)]
        unfold encRun encStep
        dsimp only
        cases hd : lc3Encode P c (some e) with
        | none => rfl
        | some w =>
          obtain ⟨h0, e1, h1, h2, h3⟩ := encode_cfg P c e w hd hn
          have := ih e1
          rw [h2, h3] at this
          dsimp only [Option.map_some, Option.bind_some]
          rw [h1, filter_cons_map, if_pos (by simp [failed, h0]), this]

/-! ### The decoder -/

/-- The call gives no frame, or a frame of a size accepted. -/
def DecCall.accepted (dt : Dt) (sr : Srate) (c : DecCall R α) : Bool :=
  !(decide (c.inp.isSome ∧ (c.nbytes < 20 ∨ c.nbytes > maxFrameBytes dt sr)))

theorem decode_cfg (P : Platform R) (c : DecCall R α) (d : Dec R) (mem : Int → α) (w : Int × Option (Dec R) × (Int → α))
    (h : lc3Decode P c (some d) mem = some w) (hn : ¬ (c.inp.isSome ∧ (c.nbytes < 20 ∨ c.nbytes > maxFrameBytes d.dt d.sr))) :
    w.1 ≠ -1 ∧ ∃ d1, w.2.1 = some d1 ∧ d1.dt = d.dt ∧ d1.sr = d.sr := by
  unfold lc3Decode at h
  dsimp only at h
  rw [if_neg hn] at h
  obtain ⟨p, h', rfl⟩ := Option.map_eq_some_iff.1 h
  clear h
  unfold decProcess at h'
  obtain ⟨a, ha, h⟩ := Option.bind_eq_some_iff.1 h'
  obtain ⟨b, hb, h⟩ := Option.bind_eq_some_iff.1 h
  obtain ⟨xs, -, h⟩ := Option.bind_eq_some_iff.1 h
  cases h
  have h1 : a.2.dt = d.dt ∧ a.2.sr = d.sr := by
    unfold decInput at ha
    split at ha
    · cases ha; exact ⟨rfl, rfl⟩
    · split at ha
      · cases ha
      · unfold decDecode at ha
        split at ha
        · cases ha
        · obtain ⟨x, -, rfl⟩ := Option.map_eq_some_iff.1 ha; exact ⟨rfl, rfl⟩
        · obtain ⟨x, -, rfl⟩ := Option.map_eq_some_iff.1 ha; exact ⟨rfl, rfl⟩
  have h2 : b.dt = a.2.dt ∧ b.sr = a.2.sr := by
    unfold synthesize at hb
    obtain ⟨s, hs, hb⟩ := Option.bind_eq_some_iff.1 hb
    have e1 : s.dt = a.2.dt ∧ s.sr = a.2.sr := by
      split at hs
      · unfold synthGood at hs
        simp only [Option.bind_eq_some_iff] at hs
        obtain ⟨_, -, _, -, _, -, _, -, _, -, _, -, _, -, _, -, _, -, _, -, _, -, hs⟩ := hs
        cases hs; exact ⟨rfl, rfl⟩
      · unfold synthLost at hs
        simp only [Option.bind_eq_some_iff] at hs
        obtain ⟨_, -, _, -, _, -, _, -, _, -, _, -, _, -, _, -, hs⟩ := hs
        cases hs; exact ⟨rfl, rfl⟩
    unfold synthLtpf at hb
    split at hb
    · cases hb; exact e1
    · simp only [Option.bind_eq_some_iff] at hb
      obtain ⟨_, -, _, -, _, -, hb⟩ := hb
      cases hb; exact e1
  refine ⟨?_, complete b, rfl, h2.1.trans h1.1, h2.2.trans h1.2⟩
  dsimp only
  split <;> decide

/-- **C98**, the decoder: whatever its state and the memory of the samples, a sequence of calls where those with a frame of a size not accepted are removed
returns the same values for the others, and leaves the same samples in memory and the decoder in the same state; both are undefined in the same cases. The calls
removed are exactly those that returned -1. -/
theorem C98_decoder (P : Platform R) : ∀ (calls : List (DecCall R α)) (d : Dec R) (mem : Int → α),
    decRun P (calls.filter (DecCall.accepted d.dt d.sr)) (some d) mem = (decRun P calls (some d) mem).map fun w => (w.1.filter fun r => !decide (r = -1), w.2) := by
  intro calls
  induction calls with
  | nil => intro d mem; rfl
  | cons c l ih =>
    intro d mem
    by_cases hn : c.inp.isSome ∧ (c.nbytes < 20 ∨ c.nbytes > maxFrameBytes d.dt d.sr)
    · rw [List.filter_cons_of_neg (by unfold DecCall.accepted; rw [decide_eq_true hn]; decide), ih]
      conv => rhs; unfold decRun
      rw [show lc3Decode P c (some d) mem = some (-1, some d, mem) by unfold lc3Decode; dsimp only; rw [if_pos hn]]
      dsimp only [Option.bind_some]
      rw [filter_cons_map, if_neg (by decide)]
    · rw [List.filter_cons_of_pos (by unfold DecCall.accepted; rw [decide_eq_false hn]; decide)]
      unfold decRun
      cases hd : lc3Decode P c (some d) mem with
      | none => rfl
      | some w =>
        obtain ⟨h0, d1, h1, h2, h3⟩ := decode_cfg P c d mem w hd hn
        have := ih d1 w.2.2
        rw [h2, h3] at this
        dsimp only [Option.bind_some]
        rw [h1, filter_cons_map, if_pos (by simp [h0]), this]

/-! Calls of 19 and 401 bytes between calls accepted, at 8 kHz in frames of 10 ms and 2.5 ms: they are those removed. -/
example (F G : List Nat) : [exCall (some F) 40, exCall (some G) 19, exCall none 0, exCall (some F) 401, exCall none 401].filter (DecCall.accepted .m10 .k8) =
    [exCall (some F) 40, exCall none 0, exCall none 401] := rfl

example : [.encode { exZeroCall with nbytes := 19 }, .encode exZeroCall, .disableLtpf, .encode { exZeroCall with nbytes := 401 }].filter
    (EncOp.accepted .m2_5 .k8) = [.encode exZeroCall, .disableLtpf] := rfl

end LC3
