import Verif.Model.Api

/-!
Properties C01-C07 (and C41): configuration arithmetic.

The specification `Spec` below is written from the documentation of `include/lc3.h`, without
reference to the enumerations or tables of the model.
-/

namespace LC3

/-- Documented supported configurations (include/lc3.h:46-90): durations 2.5, 5, 7.5 and 10 ms
and rates 8 to 48 kHz; in high-resolution mode 2.5, 5 and 10 ms at 48 or 96 kHz. -/
def Spec.supported (hr : Bool) (dtUs srHz : Int) : Prop :=
  if hr then (dtUs = 2500 ∨ dtUs = 5000 ∨ dtUs = 10000) ∧ (srHz = 48000 ∨ srHz = 96000)
  else (dtUs = 2500 ∨ dtUs = 5000 ∨ dtUs = 7500 ∨ dtUs = 10000) ∧
    (srHz = 8000 ∨ srHz = 16000 ∨ srHz = 24000 ∨ srHz = 32000 ∨ srHz = 48000)

/-- Smallest legal frame: 20 bytes, or half of the documented high-resolution minimum. -/
def Spec.minBytes (hr : Bool) (dtUs srHz : Int) : Int :=
  if hr then
    (if dtUs = 2500 then if srHz = 48000 then 54 else 62
     else if dtUs = 5000 then if srHz = 48000 then 93 else 109
     else if srHz = 48000 then 156 else 187) / 2
  else 20

/-- Largest legal frame: 400 bytes, or the documented high-resolution maximum. -/
def Spec.maxBytes (hr : Bool) (dtUs : Int) : Int :=
  if hr then (if dtUs = 2500 then 210 else if dtUs = 5000 then 375 else 625) else 400

/-! #### Case analysis helpers -/

theorem supported_cases {hr : Bool} {dtUs srHz : Int} (h : Spec.supported hr dtUs srHz) :
    ∃ dt sr, resolveDt dtUs hr = some dt ∧ resolveSrate srHz hr = some sr ∧
      dtUs = 2500 * (1 + (dt.idx : Int)) ∧ sr.hr = hr ∧ srHz * 2500 = 1000000 * (ns2m5 sr : Int) ∧
      (hr = true → dt ≠ .m7_5) := by
  unfold Spec.supported at h
  cases hr
  · simp only [Bool.false_eq_true, if_false] at h
    obtain ⟨h1 | h1 | h1 | h1, h2 | h2 | h2 | h2 | h2⟩ := h <;> subst h1 <;> subst h2 <;>
      exact ⟨_, _, rfl, rfl, by decide, rfl, by decide, by decide⟩
  · simp only [if_true] at h
    obtain ⟨h1 | h1 | h1, h2 | h2⟩ := h <;> subst h1 <;> subst h2 <;>
      exact ⟨_, _, rfl, rfl, by decide, rfl, by decide, by decide⟩

theorem resolve_supported {hr : Bool} {dtUs srHz : Int} {dt : Dt} {sr : Srate}
    (h1 : resolveDt dtUs hr = some dt) (h2 : resolveSrate srHz hr = some sr) :
    Spec.supported hr dtUs srHz := by
  unfold resolveDt at h1
  unfold resolveSrate at h2
  unfold Spec.supported
  cases hr <;> simp only [true_and, false_and, if_false, if_true, reduceCtorEq, Bool.false_eq_true] at h1 h2 ⊢ <;>
    (repeat' split at h1) <;> (repeat' split at h2) <;> simp_all

theorem supported_iff {hr : Bool} {dtUs srHz : Int} :
    Spec.supported hr dtUs srHz ↔
      ∃ dt sr, resolveDt dtUs hr = some dt ∧ resolveSrate srHz hr = some sr :=
  ⟨fun h => let ⟨dt, sr, h1, h2, _⟩ := supported_cases h; ⟨dt, sr, h1, h2⟩,
   fun ⟨_, _, h1, h2⟩ => resolve_supported h1 h2⟩

theorem not_supported {hr : Bool} {dtUs srHz : Int} (h : ¬ Spec.supported hr dtUs srHz) :
    resolveDt dtUs hr = none ∨ resolveSrate srHz hr = none := by
  rw [supported_iff] at h
  cases h1 : resolveDt dtUs hr with
  | none => exact .inl rfl
  | some dt =>
    cases h2 : resolveSrate srHz hr with
    | none => exact .inr rfl
    | some sr => exact absurd ⟨dt, sr, h1, h2⟩ h

/-- Enumerate the 26 supported configurations. -/
theorem supported_elim {hr : Bool} {dtUs srHz : Int} {P : Bool → Int → Int → Prop}
    (h : Spec.supported hr dtUs srHz)
    (h0 : ∀ d ∈ [(2500:Int), 5000, 7500, 10000], ∀ s ∈ [(8000:Int), 16000, 24000, 32000, 48000],
      P false d s)
    (h1 : ∀ d ∈ [(2500:Int), 5000, 10000], ∀ s ∈ [(48000:Int), 96000], P true d s) :
    P hr dtUs srHz := by
  unfold Spec.supported at h
  cases hr <;> simp at h
  · exact h0 _ (by simp; omega) _ (by simp; omega)
  · exact h1 _ (by simp; omega) _ (by simp; omega)

/-! #### C01 -/

/-- C01: on a supported configuration the frame length is exactly duration times rate. -/
theorem C01_frame_samples_exact (hr : Bool) (dtUs srHz : Int) (h : Spec.supported hr dtUs srHz) :
    hrFrameSamples hr dtUs srHz * 1000000 = dtUs * srHz := by
  refine supported_elim (P := fun hr d s => hrFrameSamples hr d s * 1000000 = d * s) h ?_ ?_ <;>
    decide

/-- C01: `-1` exactly outside of the supported configurations. -/
theorem C01_frame_samples_error (hr : Bool) (dtUs srHz : Int) :
    hrFrameSamples hr dtUs srHz = -1 ↔ ¬ Spec.supported hr dtUs srHz := by
  constructor
  · intro h hs
    obtain ⟨dt, sr, h1, h2, _⟩ := supported_cases hs
    simp only [hrFrameSamples, h1, h2] at h
    omega
  · intro h
    rcases not_supported h with h1 | h1
    · simp [hrFrameSamples, h1]
    · unfold hrFrameSamples
      rw [h1]
      cases resolveDt dtUs hr <;> rfl

/-- C01 for the API without high-resolution mode. -/
theorem C01_frame_samples_standard (dtUs srHz : Int) :
    (Spec.supported false dtUs srHz → frameSamples dtUs srHz * 1000000 = dtUs * srHz) ∧
    (¬ Spec.supported false dtUs srHz → frameSamples dtUs srHz = -1) :=
  ⟨C01_frame_samples_exact false dtUs srHz, (C01_frame_samples_error false dtUs srHz).2⟩

example : Spec.supported true 5000 96000 ∧ hrFrameSamples true 5000 96000 = 480 := by
  refine ⟨by unfold Spec.supported; decide, by decide⟩
example : ¬ Spec.supported true 7500 48000 := by unfold Spec.supported; decide

/-! #### C02 -/

theorem minFrameBytes_spec {hr : Bool} {dtUs srHz : Int} {dt : Dt} {sr : Srate}
    (h1 : resolveDt dtUs hr = some dt) (h2 : resolveSrate srHz hr = some sr) :
    (minFrameBytes dt sr : Int) = Spec.minBytes hr dtUs srHz ∧
    (maxFrameBytes dt sr : Int) = Spec.maxBytes hr dtUs ∧
    0 < Spec.minBytes hr dtUs srHz ∧ Spec.minBytes hr dtUs srHz ≤ Spec.maxBytes hr dtUs ∧
    Spec.maxBytes hr dtUs ≤ 625 ∧ (dtUs = 2500 * (1 + (dt.idx : Int))) := by
  have hs := resolve_supported h1 h2
  have key : ∀ dt sr, resolveDt dtUs hr = some dt → resolveSrate srHz hr = some sr →
    (minFrameBytes dt sr : Int) = Spec.minBytes hr dtUs srHz ∧
    (maxFrameBytes dt sr : Int) = Spec.maxBytes hr dtUs ∧
    0 < Spec.minBytes hr dtUs srHz ∧ Spec.minBytes hr dtUs srHz ≤ Spec.maxBytes hr dtUs ∧
    Spec.maxBytes hr dtUs ≤ 625 ∧ (dtUs = 2500 * (1 + (dt.idx : Int))) := by
    refine supported_elim (P := fun hr dtUs srHz => ∀ dt sr, resolveDt dtUs hr = some dt →
      resolveSrate srHz hr = some sr →
      (minFrameBytes dt sr : Int) = Spec.minBytes hr dtUs srHz ∧
      (maxFrameBytes dt sr : Int) = Spec.maxBytes hr dtUs ∧
      0 < Spec.minBytes hr dtUs srHz ∧ Spec.minBytes hr dtUs srHz ≤ Spec.maxBytes hr dtUs ∧
      Spec.maxBytes hr dtUs ≤ 625 ∧ (dtUs = 2500 * (1 + (dt.idx : Int)))) hs ?_ ?_ <;>
    · intro d hd s hs dt sr h1 h2
      simp only [List.mem_cons, List.not_mem_nil, or_false] at hd hs
      rcases hd with rfl | rfl | rfl | rfl <;> rcases hs with rfl | rfl | rfl | rfl | rfl <;>
        (cases h1; cases h2; decide)
  exact key dt sr h1 h2

/-- Value of `lc3_hr_frame_block_bytes` on valid parameters, in closed form. -/
theorem hrFrameBlockBytes_eq {hr : Bool} {dtUs srHz nch bitrate : Int}
    (hs : Spec.supported hr dtUs srHz) (hn : 1 ≤ nch ∧ nch ≤ 8) (hb : 0 ≤ bitrate) :
    hrFrameBlockBytes hr dtUs srHz nch bitrate =
      some (max (nch * Spec.minBytes hr dtUs srHz) (min (nch * Spec.maxBytes hr dtUs)
        (min bitrate 5376000 * dtUs / 8000000))) := by
  obtain ⟨dt, sr, h1, h2, hdt, _, _, _⟩ := supported_cases hs
  obtain ⟨hmin, hmax, hp, hle, h625, _⟩ := minFrameBytes_spec h1 h2
  unfold hrFrameBlockBytes
  simp only [h1, h2]
  rw [if_neg (by omega), hmin, hmax]
  have hd : dt.idx ≤ 3 := by cases dt <;> decide
  have hclip : clip bitrate 0 (8 * hrMaxBitrate) = min bitrate 5376000 := by
    unfold clip hrMaxBitrate; simp only; split <;> split <;> omega
  rw [hclip]
  have hb2 : 0 ≤ min bitrate 5376000 ∧ min bitrate 5376000 ≤ 5376000 := by omega
  generalize min bitrate 5376000 = b at hb2 ⊢
  have hprod : b * ((1 + dt.idx : Nat) : Int) = b * dtUs / 2500 ∧
      0 ≤ b * ((1 + dt.idx : Nat) : Int) ∧ b * ((1 + dt.idx : Nat) : Int) ≤ 5376000 * 4 := by
    have : dtUs = 2500 * ((1 + dt.idx : Nat) : Int) := by rw [hdt]; omega
    rw [this]
    have h4 : ((1 + dt.idx : Nat) : Int) = 1 ∨ ((1 + dt.idx : Nat) : Int) = 2 ∨
      ((1 + dt.idx : Nat) : Int) = 3 ∨ ((1 + dt.idx : Nat) : Int) = 4 := by omega
    rcases h4 with h4 | h4 | h4 | h4 <;> rw [h4] <;> omega
  obtain ⟨hq, hq0, hq1⟩ := hprod
  generalize hP : b * ((1 + dt.idx : Nat) : Int) = p at hq hq0 hq1 ⊢
  have hmm : 0 ≤ nch * Spec.minBytes hr dtUs srHz ∧
      nch * Spec.minBytes hr dtUs srHz ≤ nch * Spec.maxBytes hr dtUs ∧
      nch * Spec.maxBytes hr dtUs ≤ 8 * 625 := by
    have hcases : nch = 1 ∨ nch = 2 ∨ nch = 3 ∨ nch = 4 ∨ nch = 5 ∨ nch = 6 ∨ nch = 7 ∨ nch = 8 := by
      omega
    rcases hcases with h | h | h | h | h | h | h | h <;> subst h <;> omega
  obtain ⟨hm0, hm1, hm2⟩ := hmm
  have e1 : i32 p = some p := by unfold i32; rw [if_pos (by omega)]
  have e2 : i32 (nch * Spec.minBytes hr dtUs srHz) = some (nch * Spec.minBytes hr dtUs srHz) := by
    unfold i32; rw [if_pos (by omega)]
  have e3 : i32 (nch * Spec.maxBytes hr dtUs) = some (nch * Spec.maxBytes hr dtUs) := by
    unfold i32; rw [if_pos (by omega)]
  rw [e1, e2, e3]
  simp only [Option.bind_eq_bind, Option.bind_some, Option.pure_def, Option.some.injEq]
  have hdiv : p.tdiv 3200 = b * dtUs / 8000000 := by
    rw [Int.tdiv_eq_ediv_of_nonneg hq0]
    omega
  rw [hdiv]
  unfold clip
  simp only
  split <;> split <;> omega

/-- C02: no overflow, whatever the parameters. -/
theorem C02_no_overflow (hr : Bool) (dtUs srHz nch bitrate : Int) :
    hrFrameBlockBytes hr dtUs srHz nch bitrate ≠ none := by
  by_cases hs : Spec.supported hr dtUs srHz
  · by_cases hv : (1 ≤ nch ∧ nch ≤ 8) ∧ 0 ≤ bitrate
    · rw [hrFrameBlockBytes_eq hs hv.1 hv.2]; simp
    · obtain ⟨dt, sr, h1, h2, _⟩ := supported_cases hs
      unfold hrFrameBlockBytes
      simp only [h1, h2]
      rw [if_pos (by omega)]; simp
  · rcases not_supported hs with h | h
    · simp [hrFrameBlockBytes, h]
    · unfold hrFrameBlockBytes
      rw [h]
      cases resolveDt dtUs hr <;> simp

/-- C02: `-1` exactly on invalid parameters. -/
theorem C02_error_iff (hr : Bool) (dtUs srHz nch bitrate : Int) :
    hrFrameBlockBytes hr dtUs srHz nch bitrate = some (-1) ↔
      ¬ (Spec.supported hr dtUs srHz ∧ 1 ≤ nch ∧ nch ≤ 8 ∧ 0 ≤ bitrate) := by
  constructor
  · intro h hv
    obtain ⟨hs, h1, h2, h3⟩ := hv
    rw [hrFrameBlockBytes_eq hs ⟨h1, h2⟩ h3] at h
    obtain ⟨dt, sr, e1, e2, _⟩ := supported_cases hs
    have := (minFrameBytes_spec e1 e2).2.2.1
    have hp : 0 ≤ nch * Spec.minBytes hr dtUs srHz :=
      Int.mul_nonneg (by omega) (by omega)
    simp only [Option.some.injEq] at h
    omega
  · intro h
    by_cases hs : Spec.supported hr dtUs srHz
    · obtain ⟨dt, sr, h1, h2, _⟩ := supported_cases hs
      unfold hrFrameBlockBytes
      simp only [h1, h2]
      rw [if_pos (by by_cases a : nch < 1 <;> by_cases b : nch > 8 <;> by_cases c : bitrate < 0 <;>
        simp [a, b, c]; exact h ⟨hs, by omega, by omega, by omega⟩)]
    · rcases not_supported hs with h | h
      · simp [hrFrameBlockBytes, h]
      · unfold hrFrameBlockBytes
        rw [h]
        cases resolveDt dtUs hr <;> simp

/-- C02: the answer to a valid request lies within the limits, and is the floor of
`bitrate * duration / 8` (in bytes, the duration is in µs) whenever that lies within the limits
and the bitrate is at most `8 * 672000`. -/
theorem C02_valid (hr : Bool) (dtUs srHz nch bitrate : Int)
    (hs : Spec.supported hr dtUs srHz) (hn : 1 ≤ nch ∧ nch ≤ 8) (hb : 0 ≤ bitrate) :
    ∃ n, hrFrameBlockBytes hr dtUs srHz nch bitrate = some n ∧
      nch * Spec.minBytes hr dtUs srHz ≤ n ∧ n ≤ nch * Spec.maxBytes hr dtUs ∧
      (bitrate ≤ 8 * 672000 →
        nch * Spec.minBytes hr dtUs srHz ≤ bitrate * dtUs / 8000000 →
        bitrate * dtUs / 8000000 ≤ nch * Spec.maxBytes hr dtUs →
        n = bitrate * dtUs / 8000000) := by
  refine ⟨_, hrFrameBlockBytes_eq hs hn hb, ?_, ?_, ?_⟩
  · omega
  · obtain ⟨dt, sr, e1, e2, _⟩ := supported_cases hs
    have := (minFrameBytes_spec e1 e2).2.2.2.1
    have hm : nch * Spec.minBytes hr dtUs srHz ≤ nch * Spec.maxBytes hr dtUs :=
      Int.mul_le_mul_of_nonneg_left (by omega) (by omega)
    omega
  · intro h1 h2 h3
    have : min bitrate 5376000 = bitrate := by omega
    rw [this]; omega

/-- C02: monotone in the bitrate. -/
theorem C02_monotone (hr : Bool) (dtUs srHz nch b1 b2 n1 n2 : Int)
    (hb : 0 ≤ b1) (hle : b1 ≤ b2)
    (h1 : hrFrameBlockBytes hr dtUs srHz nch b1 = some n1)
    (h2 : hrFrameBlockBytes hr dtUs srHz nch b2 = some n2) : n1 ≤ n2 := by
  by_cases hv : Spec.supported hr dtUs srHz ∧ 1 ≤ nch ∧ nch ≤ 8
  · obtain ⟨hs, hn⟩ := hv
    rw [hrFrameBlockBytes_eq hs hn hb] at h1
    rw [hrFrameBlockBytes_eq hs hn (by omega)] at h2
    obtain ⟨dt, sr, e1, e2, hd, _⟩ := supported_cases hs
    have hd : 0 ≤ dtUs := by omega
    have : min b1 5376000 * dtUs ≤ min b2 5376000 * dtUs :=
      Int.mul_le_mul_of_nonneg_right (by omega) hd
    have := Int.ediv_le_ediv (c := 8000000) (by omega) this
    simp only [Option.some.injEq] at h1 h2
    omega
  · have e1 := (C02_error_iff hr dtUs srHz nch b1).2 (by rintro ⟨a, b, c, _⟩; exact hv ⟨a, b, c⟩)
    have e2 := (C02_error_iff hr dtUs srHz nch b2).2 (by rintro ⟨a, b, c, _⟩; exact hv ⟨a, b, c⟩)
    rw [h1] at e1; rw [h2] at e2
    cases e1; cases e2; omega

example : hrFrameBlockBytes true 2500 96000 8 300000 = some 248 := by decide
example : Spec.supported false 7500 32000 ∧ hrFrameBytes false 7500 32000 64000 = some 60 := by
  refine ⟨by unfold Spec.supported; decide, by decide⟩

/-! #### C41: documented meaning of the extreme bitrates

include/lc3.h:274-275: "0 or `INT_MAX` returns respectively the minimum and maximum allowed
size". -/

/-- C41, lower half: bitrate `0` gives the minimum. -/
theorem C41_zero_gives_min (hr : Bool) (dtUs srHz nch : Int)
    (hs : Spec.supported hr dtUs srHz) (hn : 1 ≤ nch ∧ nch ≤ 8) :
    hrFrameBlockBytes hr dtUs srHz nch 0 = some (nch * Spec.minBytes hr dtUs srHz) := by
  rw [hrFrameBlockBytes_eq hs hn (by omega)]
  obtain ⟨dt, sr, e1, e2, _⟩ := supported_cases hs
  obtain ⟨_, _, hp, hle, _⟩ := minFrameBytes_spec e1 e2
  have hm : nch * Spec.minBytes hr dtUs srHz ≤ nch * Spec.maxBytes hr dtUs :=
    Int.mul_le_mul_of_nonneg_left (by omega) (by omega)
  have hp : 0 ≤ nch * Spec.minBytes hr dtUs srHz := Int.mul_nonneg (by omega) (by omega)
  simp only [Option.some.injEq]
  have : min (0:Int) 5376000 = 0 := by omega
  rw [this]; omega

/-- C41, upper half, as far as it holds: `INT_MAX` gives the maximum except for 2.5 ms frames
outside high-resolution mode with more than 4 channels. Missing: those configurations, for which
the statement is false (`C41_int_max_not_max`). -/
theorem C41_int_max_gives_max_partial (hr : Bool) (dtUs srHz nch : Int)
    (hs : Spec.supported hr dtUs srHz) (hn : 1 ≤ nch ∧ nch ≤ 8)
    (hx : hr = true ∨ dtUs ≠ 2500 ∨ nch ≤ 4) :
    hrFrameBlockBytes hr dtUs srHz nch 2147483647 = some (nch * Spec.maxBytes hr dtUs) := by
  rw [hrFrameBlockBytes_eq hs hn (by omega)]
  obtain ⟨dt, sr, e1, e2, _⟩ := supported_cases hs
  obtain ⟨_, _, hp, hle, _⟩ := minFrameBytes_spec e1 e2
  have hm : nch * Spec.minBytes hr dtUs srHz ≤ nch * Spec.maxBytes hr dtUs :=
    Int.mul_le_mul_of_nonneg_left (by omega) (by omega)
  simp only [Option.some.injEq]
  have : min (2147483647:Int) 5376000 = 5376000 := by omega
  rw [this]
  have hmax : nch * Spec.maxBytes hr dtUs ≤ 5376000 * dtUs / 8000000 := by
    have hcases : nch = 1 ∨ nch = 2 ∨ nch = 3 ∨ nch = 4 ∨ nch = 5 ∨ nch = 6 ∨ nch = 7 ∨ nch = 8 := by
      omega
    unfold Spec.supported at hs
    unfold Spec.maxBytes
    cases hr
    · simp only [Bool.false_eq_true, if_false, false_or] at hs hx ⊢
      rcases hs.1 with h | h | h | h <;> subst h <;> omega
    · simp only [if_true] at hs ⊢
      rcases hs.1 with h | h | h <;> subst h <;> simp only [Int.reduceEq, if_true, if_false] <;> omega
  omega

/-- C41 fails: at 2.5 ms with 5 to 8 channels, `INT_MAX` yields 1680 bytes, less than the maximum `400` for each channel, because the bitrate is
first limited to 8 times the *high-resolution* maximum of one channel, which is less than the standard-mode maximum at 2.5 ms. -/
theorem C41_int_max_not_max (srHz nch : Int) (hs : Spec.supported false 2500 srHz) (hn : 5 ≤ nch ∧ nch ≤ 8) :
    hrFrameBlockBytes false 2500 srHz nch 2147483647 = some 1680 ∧ 1680 < nch * Spec.maxBytes false 2500 := by
  rw [hrFrameBlockBytes_eq hs (by omega) (by omega)]
  simp [Spec.maxBytes, Spec.minBytes]
  omega

example : Spec.supported false 2500 48000 := by unfold Spec.supported; simp

/-- C02, C03: the sizes and the bitrates outside of high-resolution mode do not depend on the sampling rate. -/
theorem standard_rate (dtUs srHz nch bitrate nbytes : Int) (hs : srHz = 8000 ∨ srHz = 16000 ∨ srHz = 24000 ∨ srHz = 32000 ∨ srHz = 48000) :
    hrFrameBlockBytes false dtUs 8000 nch bitrate = hrFrameBlockBytes false dtUs srHz nch bitrate ∧
    hrResolveBitrate false dtUs 8000 nbytes = hrResolveBitrate false dtUs srHz nbytes := by
  refine ⟨?_, ?_⟩ <;> first | unfold hrFrameBlockBytes | unfold hrResolveBitrate
  all_goals
    cases hd : resolveDt dtUs false <;> rcases hs with rfl | rfl | rfl | rfl | rfl <;> rfl

/-- C02: `lc3_frame_block_bytes` and `lc3_frame_bytes`, that do not take the sampling rate, give at every standard rate the size of a block and of a
frame: `-1` exactly on invalid parameters, otherwise the bytes of the bitrate over the duration, of 20 to 400 bytes for each channel. -/
theorem C02_standard (dtUs srHz nch bitrate : Int) (hs : srHz = 8000 ∨ srHz = 16000 ∨ srHz = 24000 ∨ srHz = 32000 ∨ srHz = 48000) :
    frameBlockBytes dtUs nch bitrate = hrFrameBlockBytes false dtUs srHz nch bitrate ∧
    frameBytes dtUs bitrate = hrFrameBytes false dtUs srHz bitrate ∧
    frameBlockBytes dtUs nch bitrate = some (if (dtUs = 2500 ∨ dtUs = 5000 ∨ dtUs = 7500 ∨ dtUs = 10000) ∧ 1 ≤ nch ∧ nch ≤ 8 ∧ 0 ≤ bitrate then
      max (nch * 20) (min (nch * 400) (min bitrate 5376000 * dtUs / 8000000)) else -1) := by
  refine ⟨(standard_rate dtUs srHz nch bitrate 0 hs).1, (standard_rate dtUs srHz 1 bitrate 0 hs).1, ?_⟩
  by_cases h : (dtUs = 2500 ∨ dtUs = 5000 ∨ dtUs = 7500 ∨ dtUs = 10000) ∧ 1 ≤ nch ∧ nch ≤ 8 ∧ 0 ≤ bitrate
  · rw [if_pos h]
    exact hrFrameBlockBytes_eq (hr := false) (srHz := 8000) (by unfold Spec.supported; simp; exact h.1) ⟨h.2.1, h.2.2.1⟩ h.2.2.2
  · rw [if_neg h]
    refine (C02_error_iff false dtUs 8000 nch bitrate).2 fun hv => h ⟨?_, hv.2⟩
    have := hv.1
    unfold Spec.supported at this
    simp at this
    exact this

example : frameBlockBytes 7500 3 100000 = some 93 ∧ frameBytes 10000 1000000 = some 400 ∧ frameBytes 1000 64000 = some (-1) := by decide

/-! #### C03 -/

/-- Closed form of `lc3_hr_resolve_bitrate`: the ceiling of `8 * nbytes / duration`, limited to
`INT_MAX`. -/
theorem hrResolveBitrate_eq {hr : Bool} {dtUs srHz nbytes : Int}
    (hs : Spec.supported hr dtUs srHz) (hn : 0 ≤ nbytes) (hi : nbytes ≤ 2147483647) :
    hrResolveBitrate hr dtUs srHz nbytes =
      some (min ((nbytes * 8000000 + (dtUs - 1)) / dtUs) 2147483647) := by
  obtain ⟨dt, sr, h1, h2, hdt, _, _, _⟩ := supported_cases hs
  unfold hrResolveBitrate
  simp only [h1, h2]
  rw [if_neg (by omega)]
  have hd : dt.idx ≤ 3 := by cases dt <;> decide
  have e1 : i64 (nbytes * 3200 + dt.idx) = some (nbytes * 3200 + dt.idx) := by
    unfold i64; rw [if_pos (by omega)]
  rw [e1]
  simp only [Option.bind_eq_bind, Option.bind_some]
  have hq : (nbytes * 3200 + (dt.idx : Int)).tdiv ((1 + dt.idx : Nat) : Int) =
      (nbytes * 8000000 + (dtUs - 1)) / dtUs := by
    rw [Int.tdiv_eq_ediv_of_nonneg (by omega), hdt]
    have h4 : dt.idx = 0 ∨ dt.idx = 1 ∨ dt.idx = 2 ∨ dt.idx = 3 := by omega
    rcases h4 with h4 | h4 | h4 | h4 <;> rw [h4] <;> omega
  rw [hq]
  have hq0 : 0 ≤ (nbytes * 8000000 + (dtUs - 1)) / dtUs := Int.ediv_nonneg (by omega) (by omega)
  generalize (nbytes * 8000000 + (dtUs - 1)) / dtUs = q at hq0 ⊢
  unfold i32
  split
  · rw [if_pos (by omega)]; congr 1; omega
  · rw [if_pos (by omega)]; congr 1; omega

/-- C03: on a valid request, `lc3_hr_resolve_bitrate` is the least bitrate whose payload
`bitrate * duration / 8` reaches `nbytes` (or `INT_MAX` when that does not fit), and is
monotone; it never overflows. -/
theorem C03_resolve_bitrate_least (hr : Bool) (dtUs srHz nbytes : Int)
    (hs : Spec.supported hr dtUs srHz) (hn : 0 ≤ nbytes) (hi : nbytes ≤ 2147483647) :
    ∃ b, hrResolveBitrate hr dtUs srHz nbytes = some b ∧ 0 ≤ b ∧ b ≤ 2147483647 ∧
      (∀ b', b' * dtUs ≥ nbytes * 8000000 → b ≤ b') ∧
      (b < 2147483647 → b * dtUs ≥ nbytes * 8000000) := by
  obtain ⟨dt, sr, h1, h2, hdt, _, _, _⟩ := supported_cases hs
  have hd : 0 < dtUs := by omega
  refine ⟨_, hrResolveBitrate_eq hs hn hi, ?_, by omega, ?_, ?_⟩
  · have : 0 ≤ (nbytes * 8000000 + (dtUs - 1)) / dtUs := Int.ediv_nonneg (by omega) (by omega)
    omega
  · intro b' hb'
    have : (nbytes * 8000000 + (dtUs - 1)) / dtUs < b' + 1 := by
      apply Int.ediv_lt_of_lt_mul hd
      rw [Int.add_mul]; omega
    omega
  · intro hb
    have h3 := Int.lt_mul_ediv_self_add (x := nbytes * 8000000 + (dtUs - 1)) hd
    have : min ((nbytes * 8000000 + (dtUs - 1)) / dtUs) 2147483647 =
      (nbytes * 8000000 + (dtUs - 1)) / dtUs := by omega
    rw [this, Int.mul_comm]
    omega

/-- C03: `-1` exactly on invalid parameters (for an `int` argument). -/
theorem C03_error_iff (hr : Bool) (dtUs srHz nbytes : Int) (hi : nbytes ≤ 2147483647) :
    hrResolveBitrate hr dtUs srHz nbytes = some (-1) ↔
      ¬ (Spec.supported hr dtUs srHz ∧ 0 ≤ nbytes) := by
  constructor
  · rintro h ⟨hs, hn⟩
    obtain ⟨b, hb, hb0, _⟩ := C03_resolve_bitrate_least hr dtUs srHz nbytes hs hn hi
    rw [hb] at h; cases h; omega
  · intro h
    by_cases hs : Spec.supported hr dtUs srHz
    · obtain ⟨dt, sr, h1, h2, _⟩ := supported_cases hs
      unfold hrResolveBitrate
      simp only [h1, h2]
      rw [if_pos (by by_cases c : nbytes < 0; exact c; exact absurd ⟨hs, by omega⟩ h)]
    · rcases not_supported hs with h | h
      · simp [hrResolveBitrate, h]
      · unfold hrResolveBitrate
        rw [h]
        cases resolveDt dtUs hr <;> simp

/-- C03: the frame size of the bitrate resolved from a legal frame size is that size. -/
theorem C03_round_trip (hr : Bool) (dtUs srHz nbytes : Int)
    (hs : Spec.supported hr dtUs srHz)
    (hlo : Spec.minBytes hr dtUs srHz ≤ nbytes) (hhi : nbytes ≤ Spec.maxBytes hr dtUs) :
    ∃ b, hrResolveBitrate hr dtUs srHz nbytes = some b ∧
      hrFrameBytes hr dtUs srHz b = some nbytes := by
  obtain ⟨dt, sr, h1, h2, hdt, _, _, _⟩ := supported_cases hs
  obtain ⟨_, _, hp, hle, h625, _⟩ := minFrameBytes_spec h1 h2
  refine ⟨_, hrResolveBitrate_eq hs (by omega) (by omega), ?_⟩
  have hd : dt.idx ≤ 3 := by cases dt <;> decide
  have hb0 : 0 ≤ (nbytes * 8000000 + (dtUs - 1)) / dtUs := Int.ediv_nonneg (by omega) (by omega)
  have hmaxdt : Spec.maxBytes hr dtUs * 8000000 ≤ 5376000 * dtUs := by
    unfold Spec.supported at hs
    unfold Spec.maxBytes
    cases hr
    · simp only [Bool.false_eq_true, if_false] at hs ⊢
      omega
    · simp only [if_true] at hs ⊢
      rcases hs.1 with h | h | h <;> subst h <;> omega
  have hle2 : (nbytes * 8000000 + (dtUs - 1)) / dtUs ≤ 5376000 := by
    have : (nbytes * 8000000 + (dtUs - 1)) / dtUs < 5376000 + 1 := by
      apply Int.ediv_lt_of_lt_mul (by omega)
      rw [Int.add_mul]; omega
    omega
  have hm : min ((nbytes * 8000000 + (dtUs - 1)) / dtUs) 2147483647 =
      (nbytes * 8000000 + (dtUs - 1)) / dtUs := by omega
  rw [hm]
  unfold hrFrameBytes
  rw [hrFrameBlockBytes_eq hs (by omega) hb0]
  have hm2 : min ((nbytes * 8000000 + (dtUs - 1)) / dtUs) 5376000 =
      (nbytes * 8000000 + (dtUs - 1)) / dtUs := by omega
  rw [hm2]
  have hdiv : (nbytes * 8000000 + (dtUs - 1)) / dtUs * dtUs / 8000000 = nbytes := by
    have h3 := Int.lt_mul_ediv_self_add (x := nbytes * 8000000 + (dtUs - 1)) (show 0 < dtUs by omega)
    have h4 := Int.mul_ediv_self_le (x := nbytes * 8000000 + (dtUs - 1)) (show dtUs ≠ 0 by omega)
    rw [Int.mul_comm ((nbytes * 8000000 + (dtUs - 1)) / dtUs) dtUs]
    generalize dtUs * ((nbytes * 8000000 + (dtUs - 1)) / dtUs) = z at h3 h4 ⊢
    omega
  rw [hdiv]
  simp only [Option.some.injEq]
  omega

/-- C03: `lc3_resolve_bitrate`, that does not take the sampling rate, gives at every standard rate the least bitrate of a size, and
`lc3_frame_bytes` gives back the size. -/
theorem C03_standard (dtUs srHz nbytes : Int) (hd : dtUs = 2500 ∨ dtUs = 5000 ∨ dtUs = 7500 ∨ dtUs = 10000)
    (hs : srHz = 8000 ∨ srHz = 16000 ∨ srHz = 24000 ∨ srHz = 32000 ∨ srHz = 48000) :
    resolveBitrate dtUs nbytes = hrResolveBitrate false dtUs srHz nbytes ∧
    (20 ≤ nbytes → nbytes ≤ 400 → ∃ b, resolveBitrate dtUs nbytes = some b ∧ frameBytes dtUs b = some nbytes ∧ b * dtUs ≥ nbytes * 8000000 ∧
      ∀ b', b' * dtUs ≥ nbytes * 8000000 → b ≤ b') := by
  refine ⟨(standard_rate dtUs srHz 1 0 nbytes hs).2, fun h1 h2 => ?_⟩
  have hsup : Spec.supported false dtUs 8000 := by unfold Spec.supported; simp; exact hd
  obtain ⟨b, b1, b2⟩ := C03_round_trip false dtUs 8000 nbytes hsup (by unfold Spec.minBytes; simp; exact h1) (by unfold Spec.maxBytes; simp; exact h2)
  obtain ⟨b', c1, c2, c3, c4, c5⟩ := C03_resolve_bitrate_least false dtUs 8000 nbytes hsup (by omega) (by omega)
  rw [b1] at c1
  cases c1
  refine ⟨b, b1, b2, c5 ?_, c4⟩
  have := c4 1280000 (by rcases hd with rfl | rfl | rfl | rfl <;> omega)
  omega

example : resolveBitrate 7500 60 = some 64000 ∧ frameBytes 7500 64000 = some 60 ∧ frameBytes 7500 63999 = some 59 := by decide

/-- C03: monotone in the size. -/
theorem C03_monotone (hr : Bool) (dtUs srHz n1 n2 b1 b2 : Int) (h0 : 0 ≤ n1) (hle : n1 ≤ n2)
    (hi : n2 ≤ 2147483647) (hs : Spec.supported hr dtUs srHz)
    (h1 : hrResolveBitrate hr dtUs srHz n1 = some b1)
    (h2 : hrResolveBitrate hr dtUs srHz n2 = some b2) : b1 ≤ b2 := by
  rw [hrResolveBitrate_eq hs h0 (by omega)] at h1
  rw [hrResolveBitrate_eq hs (by omega) hi] at h2
  obtain ⟨dt, sr, _, _, hdt, _⟩ := supported_cases hs
  have := Int.ediv_le_ediv (c := dtUs) (by omega)
    (show n1 * 8000000 + (dtUs - 1) ≤ n2 * 8000000 + (dtUs - 1) by omega)
  simp only [Option.some.injEq] at h1 h2
  omega

example : hrResolveBitrate false 7500 24000 77 = some 82134 ∧
    hrFrameBytes false 7500 24000 82134 = some 77 ∧
    hrFrameBytes false 7500 24000 82133 = some 76 := by decide

/-! #### C04 -/

/-- C04: the shares of the channels of a block sum to the block. -/
theorem channelBytes_sum (n nch : Nat) (h : 0 < nch) :
    ((List.range nch).map (channelBytes n nch)).sum = n := by
  have key : ∀ k, ((List.range k).map (channelBytes n nch)).sum =
      k * (n / nch) + min k (n % nch) := by
    intro k
    induction k with
    | zero => simp
    | succ k ih =>
      rw [List.range_succ, List.map_append, List.sum_append, ih]
      simp only [List.map_cons, List.map_nil, List.sum_cons, List.sum_nil, channelBytes,
        Nat.add_zero]
      rw [Nat.add_mul, Nat.one_mul]
      split <;> omega
  rw [key]
  have h1 := Nat.mod_lt n h
  have h2 := Nat.div_add_mod n nch
  omega

/-- C04: every channel of a frame block of the size answered to a valid request receives a
legal frame size, and the shares sum to the block size. -/
theorem C04_block_split (hr : Bool) (dtUs srHz : Int) (nch : Nat) (bitrate : Int)
    (hs : Spec.supported hr dtUs srHz) (hn : 1 ≤ nch ∧ nch ≤ 8) (hb : 0 ≤ bitrate) :
    ∃ n : Nat, hrFrameBlockBytes hr dtUs srHz nch bitrate = some (n : Int) ∧
      ((List.range nch).map (channelBytes n nch)).sum = n ∧
      ∀ ich, ich < nch →
        Spec.minBytes hr dtUs srHz ≤ channelBytes n nch ich ∧
        (channelBytes n nch ich : Int) ≤ Spec.maxBytes hr dtUs := by
  obtain ⟨n, he, hlo, hhi, _⟩ := C02_valid hr dtUs srHz nch bitrate hs (by omega) hb
  obtain ⟨dt, sr, h1, h2, _⟩ := supported_cases hs
  obtain ⟨e1, e2, hp, hle, _⟩ := minFrameBytes_spec h1 h2
  rw [← e1] at hlo hp hle ⊢
  rw [← e2] at hhi hle ⊢
  generalize minFrameBytes dt sr = lo at *
  generalize maxFrameBytes dt sr = hi at *
  have hpos : 0 ≤ n := by
    have : (0:Int) ≤ nch * lo := Int.mul_nonneg (by omega) (by omega)
    omega
  obtain ⟨m, rfl⟩ := Int.eq_ofNat_of_zero_le hpos
  have hlo' : nch * lo ≤ m := by exact_mod_cast hlo
  have hhi' : m ≤ nch * hi := by exact_mod_cast hhi
  refine ⟨m, he, channelBytes_sum m nch (by omega), ?_⟩
  intro ich hich
  have a1 : lo ≤ m / nch := (Nat.le_div_iff_mul_le (by omega)).2 (by rw [Nat.mul_comm]; exact hlo')
  have a2 : m / nch ≤ hi := Nat.div_le_of_le_mul hhi'
  have a3 : m / nch < hi ∨ m % nch = 0 := by
    have := Nat.div_add_mod m nch
    rcases Nat.lt_or_ge (m / nch) hi with h | h
    · exact .inl h
    · have heq : m / nch = hi := by omega
      rw [heq] at this
      exact .inr (by omega)
  unfold channelBytes
  split <;> omega

/-- Start of the part of channel `ich`: the write pointer advanced by the preceding shares. -/
def channelStart (n nch ich : Nat) : Nat := ((List.range ich).map (channelBytes n nch)).sum

/-- C04: the parts tile the block: each starts where the previous one ends, the first at 0 and
the last ends at the block size. -/
theorem C04_tiling (n nch : Nat) (h : 0 < nch) :
    channelStart n nch 0 = 0 ∧ channelStart n nch nch = n ∧
    ∀ ich, channelStart n nch (ich + 1) = channelStart n nch ich + channelBytes n nch ich := by
  refine ⟨rfl, channelBytes_sum n nch h, fun ich => ?_⟩
  simp [channelStart, List.range_succ]

example : hrFrameBlockBytes false 10000 48000 3 200000 = some 250 ∧
    (List.range 3).map (channelBytes 250 3) = [84, 83, 83] := by decide

/-! #### C05 -/

/-- C05: the delay is 2.5 ms worth of samples, or 4 ms for 7.5 ms frames; `-1` on error. -/
theorem C05_delay (hr : Bool) (dtUs srHz : Int) :
    (Spec.supported hr dtUs srHz →
      hrDelaySamples hr dtUs srHz * 1000000 = (if dtUs = 7500 then 4000 else 2500) * srHz) ∧
    (¬ Spec.supported hr dtUs srHz → hrDelaySamples hr dtUs srHz = -1) := by
  constructor
  · intro h
    refine supported_elim (P := fun hr d s => hrDelaySamples hr d s * 1000000 =
      (if d = 7500 then 4000 else 2500) * s) h ?_ ?_ <;> decide
  · intro h
    rcases not_supported h with h | h
    · simp [hrDelaySamples, h]
    · unfold hrDelaySamples
      rw [h]
      cases resolveDt dtUs hr <;> simp

/-- C05 for the API without high-resolution mode. -/
theorem C05_delay_standard (dtUs srHz : Int) :
    (Spec.supported false dtUs srHz → delaySamples dtUs srHz * 1000000 = (if dtUs = 7500 then 4000 else 2500) * srHz) ∧
    (¬ Spec.supported false dtUs srHz → delaySamples dtUs srHz = -1) := C05_delay false dtUs srHz

example : delaySamples 7500 48000 = 192 ∧ delaySamples 10000 96000 = -1 := by decide

/-- C05: the macros sizing static memory agree with the run-time characteristics, without
overflow. -/
theorem C05_macros_agree (hr : Bool) (dtUs srHz : Int) (dt : Dt) (sr : Srate)
    (h1 : resolveDt dtUs hr = some dt) (h2 : resolveSrate srHz hr = some sr) :
    macroNS dtUs srHz = some (ns dt sr : Int) ∧ macroND dtUs srHz = some (nd dt sr : Int) ∧
    macroNH dtUs srHz = some (nh dt sr : Int) ∧ macroNT srHz = some (nt sr : Int) := by
  have hs := resolve_supported h1 h2
  refine supported_elim (P := fun hr dtUs srHz => ∀ dt sr, resolveDt dtUs hr = some dt →
      resolveSrate srHz hr = some sr → macroNS dtUs srHz = some (ns dt sr : Int) ∧
      macroND dtUs srHz = some (nd dt sr : Int) ∧
      macroNH dtUs srHz = some (nh dt sr : Int) ∧ macroNT srHz = some (nt sr : Int))
      hs ?_ ?_ dt sr h1 h2 <;>
  · intro d hd s hs dt sr h1 h2
    simp only [List.mem_cons, List.not_mem_nil, or_false] at hd hs
    rcases hd with rfl | rfl | rfl | rfl <;> rcases hs with rfl | rfl | rfl | rfl | rfl <;>
      (cases h1; cases h2; decide)

example : hrDelaySamples false 7500 16000 = 64 ∧ hrDelaySamples true 10000 96000 = 240 := by decide

/-! #### C06 -/

/-- Effective PCM rate: a non-positive argument means "same as the coded rate". -/
def Spec.pcmRate (srHz srPcmHz : Int) : Int := if srPcmHz ≤ 0 then srHz else srPcmHz

/-- Documented acceptance condition of the setup functions. -/
def Spec.setupOk (hr : Bool) (dtUs srHz srPcmHz : Int) (memOk : Bool) : Prop :=
  memOk = true ∧ Spec.supported hr dtUs srHz ∧
  Spec.supported hr dtUs (Spec.pcmRate srHz srPcmHz) ∧ srHz ≤ Spec.pcmRate srHz srPcmHz

theorem idx_le_iff {hr : Bool} {h1 h2 : Int} {s1 s2 : Srate}
    (e1 : resolveSrate h1 hr = some s1) (e2 : resolveSrate h2 hr = some s2) :
    s1.idx ≤ s2.idx ↔ h1 ≤ h2 := by
  unfold resolveSrate at e1 e2
  cases hr <;> simp only [true_and, false_and, if_false, if_true, reduceCtorEq, Bool.false_eq_true] at e1 e2 <;>
    (repeat' split at e1) <;> (repeat' split at e2) <;> simp_all <;> subst_vars <;> decide

/-- Size in floats of the sample buffer of a configuration, as counted by the size query:
the structure holds one float and `size` announces `sizeof + 4 * (count - 1)` bytes. -/
def Spec.floatsAnnounced (sz : Nat) (announced : Int) : Int := (announced - sz) / 4 + 1

/-- C06 for encoders: accepted exactly on the documented parameters, never undefined; when
accepted, with a memory of the announced size for the PCM rate: the time history and samples
(16-bit, packed two per float), the input/spectrum buffer and the MDCT delay buffer are
consecutive, disjoint, and exactly fill the announced size; the whole area is cleared. -/
theorem C06_setup_encoder (sz : Nat) (hr : Bool) (dtUs srHz srPcmHz : Int) (memOk : Bool) :
    (¬ Spec.setupOk hr dtUs srHz srPcmHz memOk →
      setupEncoder hr dtUs srHz srPcmHz memOk = some none) ∧
    (Spec.setupOk hr dtUs srHz srPcmHz memOk →
      ∃ L size, setupEncoder hr dtUs srHz srPcmHz memOk = some (some L) ∧
        hrEncoderSize sz hr dtUs (Spec.pcmRate srHz srPcmHz) = some size ∧
        resolveDt dtUs hr = some L.dt ∧ resolveSrate srHz hr = some L.sr ∧
        resolveSrate (Spec.pcmRate srHz srPcmHz) hr = some L.srPcm ∧
        L.xtOff = nt L.srPcm ∧
        -- samples: [xtOff - nt, xtOff + ns) in 16-bit units, i.e. [0, xsOff) in floats
        L.xtOff + ns L.dt L.srPcm = 2 * L.xsOff ∧
        L.xdOff = L.xsOff + ns L.dt L.srPcm ∧
        ((L.xdOff + nd L.dt L.srPcm : Nat) : Int) = Spec.floatsAnnounced sz size ∧
        L.zeroed = Spec.floatsAnnounced sz size ∧
        ns L.dt L.sr ≤ ns L.dt L.srPcm ∧ ne L.dt L.sr ≤ ns L.dt L.sr) := by
  constructor
  · intro h
    unfold setupEncoder
    simp only
    split
    · rename_i dt sr srPcm e1 e2 e3
      rw [if_pos]
      by_cases hm : memOk = true
      · left
        by_cases hle : sr.idx ≤ srPcm.idx
        · refine absurd ⟨hm, resolve_supported e1 e2, resolve_supported e1 e3, ?_⟩ h
          exact (idx_le_iff e2 e3).1 hle
        · omega
      · right; simpa using hm
    · rfl
  · rintro ⟨hm, hs, hsp, hle⟩
    obtain ⟨dt, sr, e1, e2, hdt, _⟩ := supported_cases hs
    obtain ⟨dt', srP, e1', e3, _⟩ := supported_cases hsp
    rw [e1] at e1'; cases e1'
    have hi := (idx_le_iff e2 e3).2 hle
    obtain ⟨m1, m2, m3, m4⟩ := C05_macros_agree hr dtUs _ dt srP e1 e3
    have hc : macroEncoderCount dtUs (Spec.pcmRate srHz srPcmHz) =
        some (((nt srP + ns dt srP) / 2 + ns dt srP + nd dt srP : Nat) : Int) := by
      unfold macroEncoderCount
      rw [m1, m2, m4]
      cases dt <;> cases srP <;> decide
    refine ⟨EncLayout.mk dt sr srP (nt srP) ((nt srP + ns dt srP) / 2)
        ((nt srP + ns dt srP) / 2 + ns dt srP)
        (((nt srP + ns dt srP) / 2 + ns dt srP + nd dt srP : Nat) : Int),
      sz + ((((nt srP + ns dt srP) / 2 + ns dt srP + nd dt srP : Nat) : Int) - 1) * 4,
      ?_, ?_, e1, e2, e3, rfl, ?_, rfl, ?_, ?_, ?_, ?_⟩
    · unfold setupEncoder
      change (match resolveDt dtUs hr, resolveSrate srHz hr,
        resolveSrate (Spec.pcmRate srHz srPcmHz) hr with
        | some dt, some sr, some srPcm => _
        | _, _, _ => _) = _
      rw [e1, e2, e3]
      simp only
      rw [if_neg (by rw [hm]; simp; omega)]
      change (macroEncoderCount dtUs (Spec.pcmRate srHz srPcmHz) >>= _) = _
      rw [hc]; rfl
    · unfold hrEncoderSize
      simp only [e1, e3]
      rw [hc]; rfl
    · simp only
      clear hi e1 e2 e3 m1 m2 m3 m4 hc hdt
      cases dt <;> cases srP <;> decide
    · unfold Spec.floatsAnnounced
      simp only
      omega
    · unfold Spec.floatsAnnounced
      simp only
      omega
    · simp only
      clear e1 e2 e3 m1 m2 m3 m4 hc hdt
      revert hi
      cases dt <;> cases sr <;> cases srP <;> decide
    · simp only
      clear hi e1 e2 e3 m1 m2 m3 m4 hc hdt
      cases dt <;> cases sr <;> decide

/-- C06 for decoders: history ring + current frame `[0, xd)`, MDCT delay `[xd, xg)` and saved
spectrum `[xg, end)` are consecutive, disjoint, and exactly fill the announced size. -/
theorem C06_setup_decoder (sz : Nat) (hr : Bool) (dtUs srHz srPcmHz : Int) (memOk : Bool) :
    (¬ Spec.setupOk hr dtUs srHz srPcmHz memOk →
      setupDecoder hr dtUs srHz srPcmHz memOk = some none) ∧
    (Spec.setupOk hr dtUs srHz srPcmHz memOk →
      ∃ L size, setupDecoder hr dtUs srHz srPcmHz memOk = some (some L) ∧
        hrDecoderSize sz hr dtUs (Spec.pcmRate srHz srPcmHz) = some size ∧
        resolveDt dtUs hr = some L.dt ∧ resolveSrate srHz hr = some L.sr ∧
        resolveSrate (Spec.pcmRate srHz srPcmHz) hr = some L.srPcm ∧
        L.xhOff = 0 ∧ L.xsOff = nh L.dt L.srPcm ∧
        L.xdOff = L.xsOff + ns L.dt L.srPcm ∧
        L.xgOff = L.xdOff + nd L.dt L.srPcm ∧
        ((L.xgOff + ns L.dt L.srPcm : Nat) : Int) = Spec.floatsAnnounced sz size ∧
        L.zeroed = Spec.floatsAnnounced sz size ∧
        ns L.dt L.sr ≤ ns L.dt L.srPcm ∧ ne L.dt L.sr ≤ ns L.dt L.sr) := by
  constructor
  · intro h
    unfold setupDecoder
    simp only
    split
    · rename_i dt sr srPcm e1 e2 e3
      rw [if_pos]
      by_cases hm : memOk = true
      · left
        by_cases hle : sr.idx ≤ srPcm.idx
        · refine absurd ⟨hm, resolve_supported e1 e2, resolve_supported e1 e3, ?_⟩ h
          exact (idx_le_iff e2 e3).1 hle
        · omega
      · right; simpa using hm
    · rfl
  · rintro ⟨hm, hs, hsp, hle⟩
    obtain ⟨dt, sr, e1, e2, hdt, _⟩ := supported_cases hs
    obtain ⟨dt', srP, e1', e3, _⟩ := supported_cases hsp
    rw [e1] at e1'; cases e1'
    have hi := (idx_le_iff e2 e3).2 hle
    obtain ⟨m1, m2, m3, m4⟩ := C05_macros_agree hr dtUs _ dt srP e1 e3
    have hc : macroDecoderCount dtUs (Spec.pcmRate srHz srPcmHz) =
        some ((nh dt srP + ns dt srP + nd dt srP + ns dt srP : Nat) : Int) := by
      unfold macroDecoderCount
      rw [m1, m2, m3]
      cases dt <;> cases srP <;> decide
    refine ⟨DecLayout.mk dt sr srP 0 (nh dt srP) (nh dt srP + ns dt srP)
        (nh dt srP + ns dt srP + nd dt srP)
        ((nh dt srP + ns dt srP + nd dt srP + ns dt srP : Nat) : Int),
      sz + (((nh dt srP + ns dt srP + nd dt srP + ns dt srP : Nat) : Int) - 1) * 4,
      ?_, ?_, e1, e2, e3, rfl, rfl, rfl, rfl, ?_, ?_, ?_, ?_⟩
    · unfold setupDecoder
      change (match resolveDt dtUs hr, resolveSrate srHz hr,
        resolveSrate (Spec.pcmRate srHz srPcmHz) hr with
        | some dt, some sr, some srPcm => _
        | _, _, _ => _) = _
      rw [e1, e2, e3]
      simp only
      rw [if_neg (by rw [hm]; simp; omega)]
      change (macroDecoderCount dtUs (Spec.pcmRate srHz srPcmHz) >>= _) = _
      rw [hc]; rfl
    · unfold hrDecoderSize
      simp only [e1, e3]
      rw [hc]; rfl
    · unfold Spec.floatsAnnounced
      simp only
      omega
    · unfold Spec.floatsAnnounced
      simp only
      omega
    · simp only
      clear e1 e2 e3 m1 m2 m3 m4 hc hdt
      revert hi
      cases dt <;> cases sr <;> cases srP <;> decide
    · simp only
      clear hi e1 e2 e3 m1 m2 m3 m4 hc hdt
      cases dt <;> cases sr <;> decide

example : Spec.setupOk false 7500 16000 48000 true := by
  unfold Spec.setupOk Spec.supported Spec.pcmRate; decide
example : ¬ Spec.setupOk false 10000 48000 16000 true := by
  unfold Spec.setupOk Spec.supported Spec.pcmRate; decide

/-! #### C07 -/

/-- C07: the statically sized types of include/lc3.h:251-255
(`LC3_ENCODER_MEM_T(10000, 16000)` etc.: the structure followed by `COUNT - 1` floats) are at
least as large as announced by the size queries, for any duration and any rate up to 16 kHz,
respectively 48 kHz (standard or high-resolution). -/
theorem C07_static_memory (sz : Nat) (hr : Bool) (dtUs srHz limit : Int)
    (hlim : limit = 16000 ∨ limit = 48000)
    (hs : Spec.supported hr dtUs srHz) (hle : srHz ≤ limit) :
    (∃ size cnt, hrEncoderSize sz hr dtUs srHz = some size ∧
      macroEncoderCount 10000 limit = some cnt ∧ size ≤ sz + 4 * (cnt - 1)) ∧
    (∃ size cnt, hrDecoderSize sz hr dtUs srHz = some size ∧
      macroDecoderCount 10000 limit = some cnt ∧ size ≤ sz + 4 * (cnt - 1)) := by
  have h1 : ∃ c cnt, macroEncoderCount dtUs srHz = some c ∧
      macroEncoderCount 10000 limit = some cnt ∧ c ≤ cnt := by
    rcases hlim with rfl | rfl
    · refine supported_elim (P := fun hr d s => s ≤ 16000 → ∃ c cnt, macroEncoderCount d s = some c ∧
        macroEncoderCount 10000 16000 = some cnt ∧ c ≤ cnt) hs ?_ ?_ hle <;>
      · intro d hd s hs hle
        simp only [List.mem_cons, List.not_mem_nil, or_false] at hd hs
        rcases hd with rfl | rfl | rfl | rfl <;> rcases hs with rfl | rfl | rfl | rfl | rfl <;>
          first
          | (exfalso; omega)
          | exact ⟨_, _, rfl, rfl, by decide⟩
    · refine supported_elim (P := fun hr d s => s ≤ 48000 → ∃ c cnt, macroEncoderCount d s = some c ∧
        macroEncoderCount 10000 48000 = some cnt ∧ c ≤ cnt) hs ?_ ?_ hle <;>
      · intro d hd s hs hle
        simp only [List.mem_cons, List.not_mem_nil, or_false] at hd hs
        rcases hd with rfl | rfl | rfl | rfl <;> rcases hs with rfl | rfl | rfl | rfl | rfl <;>
          first
          | (exfalso; omega)
          | exact ⟨_, _, rfl, rfl, by decide⟩
  have h2 : ∃ c cnt, macroDecoderCount dtUs srHz = some c ∧
      macroDecoderCount 10000 limit = some cnt ∧ c ≤ cnt := by
    rcases hlim with rfl | rfl
    · refine supported_elim (P := fun hr d s => s ≤ 16000 → ∃ c cnt, macroDecoderCount d s = some c ∧
        macroDecoderCount 10000 16000 = some cnt ∧ c ≤ cnt) hs ?_ ?_ hle <;>
      · intro d hd s hs hle
        simp only [List.mem_cons, List.not_mem_nil, or_false] at hd hs
        rcases hd with rfl | rfl | rfl | rfl <;> rcases hs with rfl | rfl | rfl | rfl | rfl <;>
          first
          | (exfalso; omega)
          | exact ⟨_, _, rfl, rfl, by decide⟩
    · refine supported_elim (P := fun hr d s => s ≤ 48000 → ∃ c cnt, macroDecoderCount d s = some c ∧
        macroDecoderCount 10000 48000 = some cnt ∧ c ≤ cnt) hs ?_ ?_ hle <;>
      · intro d hd s hs hle
        simp only [List.mem_cons, List.not_mem_nil, or_false] at hd hs
        rcases hd with rfl | rfl | rfl | rfl <;> rcases hs with rfl | rfl | rfl | rfl | rfl <;>
          first
          | (exfalso; omega)
          | exact ⟨_, _, rfl, rfl, by decide⟩
  obtain ⟨dt, sr, e1, e2, _⟩ := supported_cases hs
  obtain ⟨c, cnt, a1, a2, a3⟩ := h1
  obtain ⟨c', cnt', b1, b2, b3⟩ := h2
  refine ⟨⟨sz + (c - 1) * 4, cnt, ?_, a2, by omega⟩, ⟨sz + (c' - 1) * 4, cnt', ?_, b2, by omega⟩⟩
  · unfold hrEncoderSize; simp only [e1, e2]; rw [a1]; rfl
  · unfold hrDecoderSize; simp only [e1, e2]; rw [b1]; rfl

/-- Remark on C07: the macro types are *not* monotone in the rate beyond 48 kHz (no history is
kept at 96 kHz): memory declared for a 2.5 ms decoder at 96 kHz is too small for one at
48 kHz. -/
theorem C07_not_monotone_above_48k :
    ∃ c48 c96, macroDecoderCount 2500 48000 = some c48 ∧ macroDecoderCount 2500 96000 = some c96 ∧
      c96 < c48 :=
  ⟨1320, 720, by decide, by decide, by decide⟩

end LC3
