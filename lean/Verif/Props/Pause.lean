import Verif.Props.Formats
import Verif.Props.Forget

/-!
C97: with the pitch analysis, no pause of digital silence makes the encoder forget.
-/

namespace LC3

deriving instance DecidableEq for Attdet, LtpfA, SpecSt, Enc

/-! ### The filter of the pitch analysis does not forget -/

/-- Half a frame of 2.5 ms at 8 kHz at the lowest level, a null frame, and a square wave at 400 Hz. -/
def pauseCall (x : Int → Int) : EncCall Rat Int := ⟨x, fun p => some (p, (p : Rat)), 0, 1, 20, List.replicate 20 0, ⟨⟨true, 7⟩, fun _ => 3⟩⟩
def pauseHalf : EncCall Rat Int := pauseCall fun i => if i < 10 then -1 else 0
def pauseNull : EncCall Rat Int := pauseCall fun _ => 0
def pauseSquare : EncCall Rat Int := pauseCall fun i => if i < 10 then 14 else 0

/-- The state of the encoder, when the high-pass filter of the pitch analysis holds `h`. -/
def pauseEnc (h : Hp50) : Enc Rat :=
  { bypass := false, dt := .m2_5, sr := .k8, srPcm := .k8, attdet := ⟨0, 0, 0⟩, ltpf := { LtpfA.init Arith.exact with hp50 := h }, spec := ⟨0, 0⟩
    xt := List.replicate (nt .k8 + 20) 0, xs := List.replicate 20 0, xd := List.replicate (nd .m2_5 .k8) 0 }

set_option maxRecDepth 100000 in
/-- After half a frame at the lowest level and 4 null frames, the filter holds a negative offset; null frames do not change it anymore. -/
theorem pause_settles : pauseEnc ⟨0, 0⟩ = ((encSetup squarePlatform.A false 2500 8000 0 true).join).getD (pauseEnc ⟨1, 1⟩) ∧
    ((encRun squarePlatform (encodes [pauseHalf, pauseNull, pauseNull, pauseNull, pauseNull]) (some (pauseEnc ⟨0, 0⟩))).bind fun r => r.2) =
      some (pauseEnc ⟨-1793160249654, 1733013512007⟩) ∧
    ((encRun squarePlatform (encodes [pauseNull]) (some (pauseEnc ⟨-1793160249654, 1733013512007⟩))).bind fun r => r.2) =
      some (pauseEnc ⟨-1793160249654, 1733013512007⟩) := by
  refine ⟨?_, ?_, ?_⟩ <;> decide +kernel

set_option maxRecDepth 100000 in
/-- The frames of the square wave: for a new encoder, the third one has a pitch; with the offset, it has none. -/
theorem pause_frames :
    (encRun squarePlatform (encodes [pauseSquare, pauseSquare, pauseSquare]) (some (pauseEnc ⟨0, 0⟩))).map (fun r => r.1) = some
      [some (0, [1, 250, 51, 233, 185, 109, 123, 49, 185, 153, 25, 131, 149, 253, 254, 232, 174, 8, 176, 105]),
       some (0, [19, 26, 44, 215, 19, 50, 110, 55, 204, 132, 201, 114, 180, 253, 254, 232, 174, 24, 176, 233]),
       some (0, [19, 26, 44, 198, 113, 180, 20, 115, 10, 169, 73, 135, 128, 29, 254, 232, 174, 24, 241, 105])] ∧
    (encRun squarePlatform (encodes [pauseSquare, pauseSquare, pauseSquare]) (some (pauseEnc ⟨-1793160249654, 1733013512007⟩))).map (fun r => r.1) = some
      [some (0, [1, 250, 51, 233, 185, 109, 123, 49, 185, 153, 25, 131, 149, 253, 254, 232, 174, 8, 176, 105]),
       some (0, [19, 26, 44, 215, 19, 50, 110, 55, 204, 132, 201, 114, 180, 253, 254, 232, 174, 24, 176, 233]),
       some (0, [19, 26, 44, 215, 19, 50, 110, 55, 204, 132, 201, 114, 180, 253, 254, 232, 174, 24, 176, 233])] := by
  constructor <;> decide +kernel

set_option maxRecDepth 100000 in
/-- The same calls with the pitch analysis disabled are defined: the case of the example below. -/
theorem pause_defined : (encRun squarePlatform ([.disableLtpf] ++ encodes ([pauseHalf] ++ List.replicate 7 pauseNull ++ [pauseSquare, pauseSquare]))
    (some (pauseEnc ⟨0, 0⟩))).isSome = true := by decide +kernel

/-- **C97**, refuted: no pause is long enough. The high-pass filter of the pitch analysis rounds down, and keeps an offset for ever after half a frame at the
lowest level; a square wave, after any number of frames of digital silence, has then a frame without the pitch that a new encoder finds. -/
theorem C97_refuted : ¬ ∀ (P : EncPlatform Rat) (_ : CandidatesOk P.A) (hr : Bool) (dtUs srHz srPcmHz : Int) (e0 : Enc Rat)
    (_ : encSetup P.A hr dtUs srHz srPcmHz true = some (some e0)), ∃ N, Forgets (α := Int) P e0 [] (fun _ => True) N := by
  intro h
  obtain ⟨e0, h0⟩ : ∃ e0, encSetup squarePlatform.A false 2500 8000 0 true = some (some e0) := ⟨_, rfl⟩
  obtain ⟨a1, a2, a3⟩ := pause_settles
  rw [h0, Option.join_some, Option.getD_some] at a1
  obtain ⟨N, hN⟩ := h squarePlatform exEncCandidates false 2500 8000 0 e0 h0
  subst a1
  obtain ⟨s, hs⟩ : ∃ s : Hp50, s = ⟨-1793160249654, 1733013512007⟩ := ⟨_, rfl⟩
  obtain ⟨f1, f2⟩ := pause_frames
  rw [← hs] at a2 a3 f2
  have hnull : ∀ n, ∃ r, r.length = n ∧ encRun squarePlatform (encodes (List.replicate n pauseNull)) (some (pauseEnc s)) = some (r, some (pauseEnc s)) := by
    intro n
    induction n with
    | zero => exact ⟨[], rfl, rfl⟩
    | succ n ih =>
      obtain ⟨r, hr, ih⟩ := ih
      obtain ⟨⟨r1, e1⟩, b1, b2⟩ := Option.bind_eq_some_iff.1 a3
      dsimp only at b2
      subst b2
      rw [List.replicate_succ, show encodes (pauseNull :: List.replicate n pauseNull) = encodes [pauseNull] ++ encodes (List.replicate n pauseNull) from rfl,
        encRun_append, b1, Option.bind_some]
      dsimp only
      rw [ih]
      refine ⟨_, ?_, rfl⟩
      have := encRun_len squarePlatform _ _ _ _ b1
      rw [List.length_append, this, hr]
      show 1 + n = n + 1
      omega
  obtain ⟨⟨r0, e1⟩, b1, b2⟩ := Option.bind_eq_some_iff.1 a2
  dsimp only at b2
  subst b2
  obtain ⟨r1, c0, c1⟩ := hnull N
  obtain ⟨⟨r2, e2⟩, d1, d2⟩ := Option.map_eq_some_iff.1 f2
  obtain ⟨⟨r3, e3⟩, g1, g2⟩ := Option.map_eq_some_iff.1 f1
  dsimp only at d2 g2
  have hok : ∀ x : Int → Int, (∀ i, -32768 ≤ x i ∧ x i ≤ 32767) → (pauseCall x).Ok 20 := by
    intro x hx
    exact ⟨fun i _ => ⟨_, _, rfl, hx _⟩, by show (20 : Int) ≤ (((List.replicate 20 0).length : Nat) : Int); decide⟩
  have hrun : encRun squarePlatform ([] ++ encodes ([pauseHalf] ++ List.replicate (4 + N) pauseNull ++ [pauseSquare, pauseSquare, pauseSquare]))
      (some (pauseEnc ⟨0, 0⟩)) = some (r0 ++ (r1 ++ r2), e2) := by
    rw [List.nil_append, show encodes ([pauseHalf] ++ List.replicate (4 + N) pauseNull ++ [pauseSquare, pauseSquare, pauseSquare]) =
      encodes [pauseHalf, pauseNull, pauseNull, pauseNull, pauseNull] ++ (encodes (List.replicate N pauseNull) ++
        encodes [pauseSquare, pauseSquare, pauseSquare]) by
      unfold encodes
      rw [Nat.add_comm 4 N, List.replicate_succ, List.replicate_succ, List.replicate_succ, List.replicate_succ]
      simp]
    rw [encRun_append, b1, Option.bind_some]
    dsimp only
    rw [encRun_append, c1, Option.bind_some]
    dsimp only
    rw [d1]
    rfl
  obtain ⟨r', e', k1, k2⟩ := hN [pauseHalf] (List.replicate (4 + N) pauseNull) [pauseSquare, pauseSquare, pauseSquare] (by
      intro c hc
      show c.Ok 20
      rcases List.mem_append.1 hc with hc | hc
      · rcases List.mem_append.1 hc with hc | hc
        · rw [List.mem_singleton.1 hc]
          exact hok _ fun i => by split <;> decide
        · rw [List.eq_of_mem_replicate hc]
          exact hok _ fun i => by decide
      · have hc : c = pauseSquare := by simpa using hc
        rw [hc]
        exact hok _ fun i => by split <;> decide) (by
      intro c hc
      rw [List.eq_of_mem_replicate hc]
      exact ⟨fun i _ => rfl, trivial, by decide⟩) (by rw [List.length_replicate]; omega) _ _ hrun
  rw [List.nil_append, g1, Option.some.injEq, Prod.mk.injEq] at k1
  obtain ⟨rfl, -⟩ := k1
  have l0 := encRun_len squarePlatform _ _ _ _ b1
  rw [List.length_replicate, ← List.append_assoc, List.drop_left' (by rw [List.length_append, c0, l0]; show 5 + N = 0 + 1 + (4 + N); omega)] at k2
  rw [d2, g2] at k2
  revert k2
  decide

/-! The hypotheses of `C97_pause_partial` are met: half a frame at the lowest level, 7 frames of digital silence, and 2 of the square wave. Its condition on
the sizes is met by 2.5 ms at 8 kHz, where the detector of attacks does not run, and by 10 ms at 48 kHz in frames of 100 bytes. -/
example : ∃ rets e rets' e', encRun squarePlatform ([.disableLtpf] ++ encodes ([pauseHalf] ++ List.replicate 7 pauseNull ++ [pauseSquare, pauseSquare]))
      (some (pauseEnc ⟨0, 0⟩)) = some (rets, e) ∧
    encRun squarePlatform ([.disableLtpf] ++ encodes [pauseSquare, pauseSquare]) (some (pauseEnc ⟨0, 0⟩)) = some (rets', e') ∧ rets.drop 9 = rets'.drop 1 := by
  obtain ⟨⟨rets, e⟩, h⟩ := Option.isSome_iff_exists.1 pause_defined
  obtain ⟨e0, h0⟩ : ∃ e0, encSetup squarePlatform.A false 2500 8000 0 true = some (some e0) := ⟨_, rfl⟩
  obtain ⟨a1, -⟩ := pause_settles
  rw [h0, Option.join_some, Option.getD_some] at a1
  subst a1
  have hok : ∀ x : Int → Int, (∀ i, -32768 ≤ x i ∧ x i ≤ 32767) → (pauseCall x).Ok 20 := by
    intro x hx
    exact ⟨fun i _ => ⟨_, _, rfl, hx _⟩, by show (20 : Int) ≤ (((List.replicate 20 0).length : Nat) : Int); decide⟩
  obtain ⟨rets', e', k1, k2⟩ := C97_pause_partial roundF_id squarePlatform rfl exEncCandidates rfl false 2500 8000 0 _ h0 [pauseHalf]
    (List.replicate 7 pauseNull) [pauseSquare, pauseSquare] (by
      intro c hc
      show c.Ok 20
      rcases List.mem_append.1 hc with hc | hc
      · rcases List.mem_append.1 hc with hc | hc
        · rw [List.mem_singleton.1 hc]
          exact hok _ fun i => by split <;> decide
        · rw [List.eq_of_mem_replicate hc]
          exact hok _ fun i => by decide
      · have hc : c = pauseSquare := by simpa using hc
        rw [hc]
        exact hok _ fun i => by split <;> decide) (by
      intro c hc
      rw [List.eq_of_mem_replicate hc]
      exact ⟨fun i _ => rfl, .inl (by rintro m (⟨a, -⟩ | ⟨a, -⟩ | ⟨a, -⟩ | ⟨a, -⟩) <;> cases a), by decide⟩) (by decide) rets e h
  exact ⟨rets, e, rets', e', h, k1, k2⟩

example : AttdetRuns .m10 .k48 100 := .inr (.inr (.inr ⟨rfl, rfl, by decide⟩))

end LC3
