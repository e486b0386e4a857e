import Verif.Lemmas.FrameSafe
import Verif.Props.Frame

/-!
C27: any received frame is parsed safely.
-/

namespace LC3

variable {R : Type}

/-- Every read made in the frame by the decoder: its final state is the one obtained by some reads, each of 1 to 31 bits or of a symbol whose
model is an entry of the tables. -/
theorem decode_reads (A : Arith R) (dt : Dt) (sr : Srate) (sh32 : Nat → Nat) (junk : LtpfData) (F : List Nat) (hF : Bytes F) :
    Reads (setupRead sh32 F) (decodeFrame A dt sr sh32 junk F).2 ∧
    (decodeFrame A dt sr sh32 junk F).1 ≠ .ub ∧
    ∀ side s, (decodeFrame A dt sr sh32 junk F).1 = .ok (side, s) →
      checkBits (decodeFrame A dt sr sh32 junk F).2 = true ∧
      side.Valid dt sr F.length ∧ 2 ≤ side.spec.nq ∧ SpecOk dt sr side.spec s := by
  have hr := rinv_setup sh32 F hF
  unfold decodeFrame
  obtain ⟨a1, a2⟩ := getSideData_safe F hF dt sr F.length junk _ hr
  generalize getSideData (setupRead sh32 F) dt sr F.length junk = g at *
  obtain ⟨o, r1⟩ := g
  dsimp only at *
  cases o with
  | none => exact ⟨a1, (by intro h; cases h), fun _ _ h => by cases h⟩
  | some side =>
    dsimp only
    obtain ⟨v1, v2⟩ := a2 side rfl
    obtain ⟨b1, b2, b3⟩ := specDecode_safe A F hF dt sr side.bw F.length side.spec v1.bw v1.spec r1 (a1.rinv hF hr)
    generalize specDecode A dt sr side.bw F.length side.spec r1 = g at *
    obtain ⟨o, r2⟩ := g
    dsimp only at *
    cases o with
    | ub => exact absurd rfl b2
    | refused => exact ⟨a1.trans b1, (by intro h; cases h), fun _ _ h => by cases h⟩
    | ok s =>
      dsimp only
      refine ⟨a1.trans b1, ?_, ?_⟩
      · split <;> (intro h; cases h)
      · intro side' s' h
        cases hc : checkBits r2 with
        | false => rw [hc] at h; cases h
        | true =>
          rw [hc, if_pos rfl] at h
          injection h with h
          obtain ⟨rfl, rfl⟩ := Prod.mk.inj h
          exact ⟨rfl, v1, v2, b3 _ rfl⟩

/-- **C27.** Whatever the configuration, the arithmetic, and the content and length of the frame: the parsing reaches no access out of the
spectrum (outcome `ub`), none out of the frame, and ends all the renormalisations; every model used is an entry of the tables.
When the frame is accepted, the side information and the spectrum are in their ranges. -/
theorem C27_any_frame (A : Arith R) (dt : Dt) (sr : Srate) (sh32 : Nat → Nat) (junk : LtpfData) (F : List Nat) (hF : Bytes F) :
    let w := decodeFrame A dt sr sh32 junk F
    w.1 ≠ .ub ∧ w.2.buf.ub = false ∧ w.2.ac.ub = false ∧ w.2.buf.data = F ∧
    (∃ l : List Shape, w.2 = (readAll (setupRead sh32 F) l).2 ∧ ∀ s ∈ l, match s with
      | .bits n => 1 ≤ n ∧ n ≤ 31
      | .sym m => m ∈ spectrumModels ++ tnsOrderModels ++ tnsCoeffsModels) ∧
    ∀ side s, w.1 = .ok (side, s) →
      -- side information
      side.bw ≤ min sr.idx 6 ∧ side.spec.gIdx ≤ 255 ∧ 2 ≤ side.spec.nq ∧ side.spec.nq ≤ ne dt sr ∧ side.spec.nq % 2 = 0 ∧
      side.tns.filters.length = (if 1 ≤ dt.idx ∧ 3 ≤ side.bw then 2 else 1) ∧
      (∀ rc ∈ side.tns.filters, rc.length ≤ (if dt.idx ≤ 1 then 4 else 8) ∧ ∀ c ∈ rc, -8 ≤ c ∧ c ≤ 8) ∧
      side.sns.lfcb < 32 ∧ side.sns.hfcb < 32 ∧ side.sns.shape < 4 ∧ side.sns.gain < snsGains side.sns.shape ∧
      side.sns.idxA < snsSizeA side.sns.shape ∧ side.sns.idxB < 6 ∧
      (side.pitchPresent = true → side.ltpf.pitchIndex < 512) ∧
      -- spectrum
      s.nf ≤ 7 ∧ s.seed < 65536 ∧ s.quant.length = side.spec.nq ∧
      (∀ v ∈ s.quant, v.natAbs ≤ if sr.hr then 2 ^ 24 else 2 ^ 16) ∧ s.x.length = ne dt sr := by
  intro w
  obtain ⟨h1, h2, h3⟩ := decode_reads A dt sr sh32 junk F hF
  have hr := h1.rinv hF (rinv_setup sh32 F hF)
  refine ⟨h2, hr.bub, hr.aub, hr.data, ?_, ?_⟩
  · obtain ⟨l, hl, e⟩ := h1
    refine ⟨l, e, fun s hs => ?_⟩
    have := hl s hs
    cases s with
    | bits n => exact this
    | sym m => exact this.1
  · intro side s hw
    obtain ⟨-, v1, v2, v3⟩ := h3 side s hw
    have hbw : side.bw ≤ sr.idx := by
      have := v1.bw
      unfold BwValid at this
      split at this <;> omega
    have h6 : sr.idx ≤ 6 := by cases sr <;> decide
    refine ⟨by omega, v1.spec.gIdx, v2, v1.spec.nq, v1.spec.even, ?_, fun rc h => ⟨(v1.tns.filters rc h).order, (v1.tns.filters rc h).coeff⟩,
      v1.sns.lfcb, v1.sns.hfcb, v1.sns.shape, v1.sns.gain, v1.sns.idxA, ?_, v1.ltpf, v3.nf, v3.seed, v3.quant, v3.range, v3.x⟩
    · rw [v1.tns.count]
      unfold tnsNfilters bwSwb
      by_cases h1 : 1 ≤ dt.idx <;> by_cases h2 : 3 ≤ side.bw <;> simp [h1, h2, b2n]
    · have := v1.sns.idxB
      split at this
      · exact this
      · omega

/-- **C27**, complement: an accepted frame has been read without any undefined behaviour (see C14 for refused frames). -/
theorem C27_accepted_defined (A : Arith R) (dt : Dt) (sr : Srate) (sh32 : Nat → Nat) (junk : LtpfData) (F : List Nat) (hF : Bytes F)
    (h3 : 3 ≤ F.length) (d : SideData × SpecData R) (h : (decodeFrame A dt sr sh32 junk F).1 = .ok d) :
    (decodeFrame A dt sr sh32 junk F).2.Defined := by
  obtain ⟨h1, h2, h4⟩ := decode_reads A dt sr sh32 junk F hF
  have hr := h1.rinv hF (rinv_setup sh32 F hF)
  have hd := h1.doom hF (rinv_setup sh32 F hF) (doom_setup sh32 F hF h3)
  obtain ⟨c, -⟩ := h4 d.1 d.2 h
  exact ⟨hr.aub, hd.refused c, hr.bub⟩

/-- A frame of 20 bytes. -/
def exHostile : List Nat :=
  [41, 148, 2, 219, 109, 125, 134, 175, 113, 126, 27, 74, 48, 219, 207, 52, 33, 191, 180, 212]

/-- **C14**, negation, with the codec: the decoding of this frame of 20 bytes, in 10 ms at 48 kHz, makes a shift by 32 (src/bits.c:330).
The frame is then refused. -/
theorem C14_hostile_frame :
    Bytes exHostile ∧ (decodeFrame Arith.exact .m10 .k48 id ⟨false, 0⟩ exHostile).2.accu.ub = true ∧
    (match (decodeFrame Arith.exact .m10 .k48 id ⟨false, 0⟩ exHostile).1 with | .refused => true | _ => false) = true :=
  ⟨by unfold Bytes exHostile; decide, by decide +kernel, by decide +kernel⟩

/-- Non-vacuity of C27: a frame with all the parts is accepted. -/
example :
    (match encodeFrame Arith.exact .m10 .k8 (List.replicate 40 0x5a) (exSide false) exSpec with
      | some F => match (decodeFrame Arith.exact .m10 .k8 id ⟨false, 0⟩ F).1 with | .ok _ => true | _ => false
      | none => false) = true := by decide +kernel

end LC3
