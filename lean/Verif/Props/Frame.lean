import Mathlib.Data.List.GetD
import Verif.Lemmas.FrameSpec

/-!
Properties of complete frames: C25 (round trip), C26 (silent frames), C27 (safety of the parsing).
-/

namespace LC3

/-! ### C25: complete round trip -/

/-- Side information that the encoder may decide for a frame of `nbytes` bytes: bandwidth up to the one of the
sample rate, 8 bits gain index, even number of coefficients, TNS filters consistent with the duration and bandwidth, SNS
indices in their ranges, 9 bits pitch index. -/
def Encodable (dt : Dt) (sr : Srate) (nbytes : Nat) (d : SideData) : Prop := d.Valid dt sr nbytes

theorem tail_nil {R : Type} (A : Arith R) (sr : Srate) (side : SpecSide) (x : List R) :
    opsSpecTail A sr side x 0 = [] := by
  have := (opsSpecTail_bits A sr side x 0).2
  exact List.eq_nil_of_length_eq_zero (by omega)

/-- The frame in operations, and the frame decoded in sync. -/
theorem frame_ready {R : Type} (A : Arith R) (dt : Dt) (sr : Srate) (data : List Nat) (hd : Bytes data)
    (h4 : 4 ≤ data.length) (sh32 : Nat → Nat) (junk : LtpfData) (side : SideData) (hv : side.Valid dt sr data.length)
    (hnq : 2 ≤ side.spec.nq) (x : List R) (hx : x.length = ne dt sr)
    (hc : CoefOk sr.hr (codedCoefs A sr side.spec x)) (bE : Bits)
    (he : encodeBits A dt sr data side x = some bE) (hl : 0 ≤ bitsLeftRaw bE) :
    ∃ (nf : Nat) (l : List Int) (xq xf : List R) (b1 r1 r2 : Bits),
      nf ≤ 7 ∧ estimateNoise A dt side.bw sr.hr x side.spec.nq = some nf ∧
      0 ≤ bitsLeftRaw b1 ∧
      (flushBits bE).buf.data.length = data.length ∧
      decodeFrame A dt sr sh32 junk (flushBits bE).buf.data =
        (.ok ({ side with ltpf := if side.pitchPresent then side.ltpf else junk }, ⟨nf, l, noiseSeed l, xq, xf⟩), r2) ∧
      specFinish A dt sr side.bw data.length side.spec nf (noiseSeed l) xq = some xf ∧
      Ready (flushBits bE).buf.data b1 r1 (opsSpecTail A sr side.spec x (getBitsLeft b1)) ∧
      (side.spec.lsbMode = true → l = restored (getBitsLeft b1) (codedCoefs A sr side.spec x) ∧ xq = l.map A.ofInt) ∧
      (side.spec.lsbMode = false → l = (codedCoefs A sr side.spec x).map Coef.val ∧
        xq = (getResidual A sr.hr (getBitsLeft b1).toNat (l.map A.ofInt) r1).1) := by
  have hi := winv_setup data hd
  have hvS := opsSideData_valid dt sr data.length side hv
  unfold encodeBits at he
  rw [putSideData_ops] at he
  generalize hb0 : putOps (setupWrite data) (opsSideData dt sr side) = b0 at he
  obtain ⟨nf, hnf, hest, e⟩ := specEncode_ops A dt sr side.bw data.length side.spec x hv.bw hx b0
  rw [he] at e
  have e := Option.some.inj e
  have hw0 := winv_ops _ _ hi hvS
  rw [hb0] at hw0
  have hvH := opsSpecHead_valid A dt sr data.length side.spec nf x hnf hc
  have hw1 := winv_ops _ _ hw0.1 hvH
  generalize hb1 : putOps b0 (opsSpecHead dt sr data.length side.spec nf (codedCoefs A sr side.spec x)) = b1 at e hw1
  have hl1 : 0 ≤ bitsLeftRaw b1 := by
    by_contra hneg
    have : getBitsLeft b1 = 0 := by unfold getBitsLeft; rw [if_neg (by omega)]
    rw [this, tail_nil] at e
    rw [e] at hl
    exact hneg hl
  have hvT := opsSpecTail_valid A sr side.spec x (getBitsLeft b1)
  have eAll : bE = putOps (setupWrite data) (opsSideData dt sr side ++
      (opsSpecHead dt sr data.length side.spec nf (codedCoefs A sr side.spec x) ++
        opsSpecTail A sr side.spec x (getBitsLeft b1))) := by
    rw [putOps_append, putOps_append, hb0, hb1]; exact e
  have hvA : ∀ o ∈ opsSideData dt sr side ++
      (opsSpecHead dt sr data.length side.spec nf (codedCoefs A sr side.spec x) ++
        opsSpecTail A sr side.spec x (getBitsLeft b1)), o.Valid := by
    intro o ho
    rw [List.mem_append, List.mem_append] at ho
    rcases ho with ho | ho | ho
    · exact hvS o ho
    · exact hvH o ho
    · exact hvT o ho
  have hR := ready_of_encode data _ sh32 hd h4 hvA (by rw [← eAll]; exact hl)
  have eF : encodeOps data (opsSideData dt sr side ++
      (opsSpecHead dt sr data.length side.spec nf (codedCoefs A sr side.spec x) ++
        opsSpecTail A sr side.spec x (getBitsLeft b1))) = (flushBits bE).buf.data := by
    unfold encodeOps; rw [← eAll]
  rw [eF] at hR
  generalize hF : (flushBits bE).buf.data = F at *
  have hlen : F.length = data.length := by
    have h1 := hR.covers.len
    have h2 := (winv_ops _ _ hi hR.valid).2
    rw [h2] at h1
    exact h1
  obtain ⟨ra, ea, ha⟩ := getSideData_ready dt sr data.length side junk _ _ hv hR
  rw [putSideData_ops, hb0] at ha
  have hp : 15 ≤ plainP b0.accu b0.buf := by
    have hf : Fit (putOps (setupWrite data) (opsSideData dt sr side)) := by rw [hb0]; exact ha.back.1
    have := plainP_ops _ _ hi hvS hf
    rw [hb0] at this
    have h38 := opsSideData_plain dt sr side
    omega
  have hS : side.spec.received = side.spec := by
    unfold SpecSide.received
    rw [max_eq_left hnq]
  rw [← hb1] at ha
  obtain ⟨l, xq, xf, r1, r2, d1, d2, d3, d4, d5, d6⟩ := specDecode_ready A dt sr side.bw data.length side.spec x nf hv.bw hx hv.spec
    hc b0 ra hp (by rw [hb1]; exact hl1) ha
  rw [hb1] at d4 d5 d6
  refine ⟨nf, l, xq, xf, b1, r1, r2, hnf, hest, hl1, hlen, ?_, d3, d4, d5, d6⟩
  unfold decodeFrame
  rw [hlen, ea]
  unfold SideData.received
  rw [hS]
  dsimp only
  rw [d1]
  dsimp only
  rw [d2, if_pos rfl]

/-- **C25.** Whatever the arithmetic, configuration, size and previous content of the buffer, side information and
spectrum `x` (in quantisation steps, magnitudes below `2^16`, or `2^24` in high-resolution): if the frame does
not overflow, then it is accepted by the decoder, which obtains the same bandwidth, gain, number of coefficients, TNS, SNS and
LTPF parameters, the noise factor estimated by the encoder, and the integer spectrum: exactly in normal mode, possibly without
the lowest bits in LSB mode. The noise seed is the one of the integer spectrum obtained.

The LTPF parameters have no value when the pitch is absent. At least one pair is coded; otherwise, see C26. -/
theorem C25_round_trip {R : Type} (A : Arith R) (dt : Dt) (sr : Srate) (data : List Nat) (hd : Bytes data)
    (h4 : 4 ≤ data.length) (sh32 : Nat → Nat) (junk : LtpfData) (side : SideData) (hv : Encodable dt sr data.length side)
    (hnq : 2 ≤ side.spec.nq) (x : List R) (hx : x.length = ne dt sr)
    (hmag : ∀ v ∈ x.take side.spec.nq, (quantCoef A sr.hr v).1 < if sr.hr then 2 ^ 24 else 2 ^ 16)
    (bE : Bits) (he : encodeBits A dt sr data side x = some bE) (hl : 0 ≤ bitsLeftRaw bE) :
    let F := (flushBits bE).buf.data
    encodeFrame A dt sr data side x = some F ∧ F.length = data.length ∧
    ∃ (s : SpecData R) (r : Bits),
      decodeFrame A dt sr sh32 junk F =
        (.ok ({ side with ltpf := if side.pitchPresent then side.ltpf else junk }, s), r) ∧
      estimateNoise A dt side.bw sr.hr x side.spec.nq = some s.nf ∧ s.seed = noiseSeed s.quant ∧
      (side.spec.lsbMode = false → s.quant = (x.take side.spec.nq).map fun v => (quantCoef A sr.hr v).val) ∧
      (side.spec.lsbMode = true →
        List.Forall₂ OrWithoutLsb ((x.take side.spec.nq).map (quantCoef A sr.hr)) s.quant ∧ s.xq = s.quant.map A.ofInt) ∧
      s.xq.length = side.spec.nq := by
  intro F
  have hc : CoefOk sr.hr (codedCoefs A sr side.spec x) := by
    intro p hp
    unfold codedCoefs at hp
    obtain ⟨v, hv, rfl⟩ := List.mem_map.mp hp
    have := hmag v hv
    generalize sr.hr = h at *
    cases h <;> exact this
  obtain ⟨nf, l, xq, xf, b1, r1, r2, h1, h2, h3, h5, h6, h7, h8, h9, h10⟩ :=
    frame_ready A dt sr data hd h4 sh32 junk side hv hnq x hx hc bE he hl
  have hclen : (codedCoefs A sr side.spec x).length = side.spec.nq := by
    unfold codedCoefs
    rw [List.length_map, List.length_take]
    have := hv.spec.nq
    omega
  have heven : (codedCoefs A sr side.spec x).length % 2 = 0 := by rw [hclen]; exact hv.spec.even
  refine ⟨by unfold encodeFrame; rw [he]; rfl, h5, _, r2, h6, h2, rfl, ?_, ?_, ?_⟩
  · intro hm
    rw [(h10 hm).1]
    unfold codedCoefs
    rw [List.map_map]; rfl
  · intro hm
    rw [(h9 hm).1]
    refine ⟨forall₂_mono (fun _ _ h => h) (restored_lsbOf _ _ heven), ?_⟩
    rw [← (h9 hm).1]; exact (h9 hm).2
  · cases hm : side.spec.lsbMode with
    | true =>
      rw [(h9 hm).2, (h9 hm).1]
      rw [List.length_map, ← (restored_lsbOf _ (getBitsLeft b1) heven).length_eq, hclen]
    | false =>
      rw [(h10 hm).2, getResidual_length, (h10 hm).1, List.length_map, List.length_map, hclen]

theorem quant_error (hr : Bool) (x : Rat) : |x - ((quantCoef Arith.exact hr x).val : Rat)| ≤ 5/8 := by
  obtain ⟨h1, h2⟩ := quantCoef_exact hr x
  obtain ⟨c1, c2, -⟩ := quant_cases hr x _ h1
  have hx := xqLim_range hr
  unfold Coef.val
  rw [h2]
  by_cases h : x < 0
  · rw [decide_eq_true h, if_pos rfl]
    rw [abs_of_neg h] at c1 c2
    push_cast
    rw [abs_le]
    constructor <;> linarith
  · rw [decide_eq_false h, if_neg (by decide)]
    rw [abs_of_nonneg (not_lt.mp h)] at c1 c2
    push_cast
    rw [abs_le]
    constructor <;> linarith

theorem refined_error (hr : Bool) (j : Nat) (x z : Rat) (h : Refined hr j x z) : |x - z| ≤ 5/8 := by
  obtain ⟨h1, h2, h3⟩ := h
  by_cases hj : j = 0
  · rw [h2 hj]; exact quant_error hr x
  · by_cases hx : xqLim hr ≤ |x|
    · have := h3 hx
      cases hr with
      | true =>
        rw [if_pos rfl] at this
        have hp : ((1:Rat)/2) ^ (j + 1) ≤ 1/2 := by
          calc ((1:Rat)/2) ^ (j + 1) ≤ (1/2) ^ 1 := pow_le_pow_of_le_one (by norm_num) (by norm_num) (by omega)
            _ = 1/2 := by norm_num
        linarith [this.1]
      | false =>
        rw [if_neg (by decide)] at this
        linarith [(this (by omega)).1]
    · rw [h1 (not_le.mp hx), sub_zero]
      have := (xqLim_range hr).2
      linarith [not_le.mp hx]

theorem withoutLsb_error (p : Coef) (y : Int) (h : OrWithoutLsb p y) : |(p.val : Rat) - (y : Rat)| ≤ 1 := by
  rcases h with rfl | rfl
  · rw [sub_self, abs_zero]; norm_num
  · unfold Coef.val
    have h1 : p.1 = 2 * (p.1 / 2) + p.1 % 2 := by omega
    have h2 : p.1 % 2 ≤ 1 := by omega
    generalize p.1 / 2 = a at *
    generalize p.1 % 2 = b at *
    rw [h1]
    have h2 : (b : Rat) ≤ 1 := by exact_mod_cast h2
    have h3 : (0 : Rat) ≤ b := Nat.cast_nonneg _
    split
    · push_cast
      rw [abs_le]
      constructor <;> linarith
    · push_cast
      rw [abs_le]
      constructor <;> linarith

/-- **C25**, in exact arithmetic: end to end, each coded coefficient is recovered within `5/8` of a quantisation step in normal mode,
`13/8` in LSB mode. -/
theorem C25_error (dt : Dt) (sr : Srate) (data : List Nat) (hd : Bytes data)
    (h4 : 4 ≤ data.length) (sh32 : Nat → Nat) (junk : LtpfData) (side : SideData) (hv : Encodable dt sr data.length side)
    (hnq : 2 ≤ side.spec.nq) (x : List Rat) (hx : x.length = ne dt sr)
    (hmag : ∀ v ∈ x.take side.spec.nq, (quantCoef Arith.exact sr.hr v).1 < if sr.hr then 2 ^ 24 else 2 ^ 16)
    (F : List Nat) (hF : encodeFrame Arith.exact dt sr data side x = some F)
    (hl : ∀ b, encodeBits Arith.exact dt sr data side x = some b → 0 ≤ bitsLeftRaw b) :
    ∃ (sd : SideData) (s : SpecData Rat) (r : Bits), decodeFrame Arith.exact dt sr sh32 junk F = (.ok (sd, s), r) ∧
      s.xq.length = side.spec.nq ∧
      ∀ i, i < side.spec.nq →
        |x.getD i 0 - s.xq.getD i 0| ≤ if side.spec.lsbMode then 13/8 else 5/8 := by
  unfold encodeFrame at hF
  obtain ⟨bE, he, hF⟩ := Option.map_eq_some_iff.mp hF
  have hl := hl bE he
  subst hF
  have hc : CoefOk sr.hr (codedCoefs Arith.exact sr side.spec x) := by
    intro p hp
    unfold codedCoefs at hp
    obtain ⟨v, hv, rfl⟩ := List.mem_map.mp hp
    have := hmag v hv
    generalize sr.hr = h at *
    cases h <;> exact this
  obtain ⟨nf, l, xq, xf, b1, r1, r2, h1, h2, h3, h5, h6, h7, h8, h9, h10⟩ :=
    frame_ready Arith.exact dt sr data hd h4 sh32 junk side hv hnq x hx hc bE he hl
  have hn := hv.spec.nq
  have hclen : (codedCoefs Arith.exact sr side.spec x).length = side.spec.nq := by
    unfold codedCoefs
    rw [List.length_map, List.length_take]
    omega
  have heven : (codedCoefs Arith.exact sr side.spec x).length % 2 = 0 := by rw [hclen]; exact hv.spec.even
  cases hm : side.spec.lsbMode with
  | true =>
    obtain ⟨e1, e2⟩ := h9 hm
    have hf := restored_lsbOf _ (getBitsLeft b1) heven
    rw [← e1] at hf
    have hll : l.length = side.spec.nq := by rw [← hf.length_eq, hclen]
    refine ⟨_, _, r2, h6, ?_, ?_⟩
    · dsimp only; rw [e2, List.length_map, hll]
    · intro i hi
      dsimp only
      rw [if_pos rfl]
      have hcl : i < (codedCoefs Arith.exact sr side.spec x).length := by omega
      have hil : i < l.length := by omega
      have hix : i < x.length := by omega
      have ho : OrWithoutLsb (codedCoefs Arith.exact sr side.spec x)[i] l[i] := (List.forall₂_iff_get.mp hf).2 i hcl hil
      have hq : (codedCoefs Arith.exact sr side.spec x)[i] = quantCoef Arith.exact sr.hr x[i] := by
        simp [codedCoefs]
      rw [hq] at ho
      have e3 : xq.getD i 0 = (l[i] : Rat) := by
        rw [e2, List.getD_eq_getElem _ _ (by rw [List.length_map]; exact hil), List.getElem_map]; rfl
      rw [e3, List.getD_eq_getElem _ _ hix]
      have b1 := withoutLsb_error _ _ ho
      have b2 := quant_error sr.hr x[i]
      have b3 := abs_add_le (x[i] - ((quantCoef Arith.exact sr.hr x[i]).val : Rat))
        (((quantCoef Arith.exact sr.hr x[i]).val : Rat) - (l[i] : Rat))
      rw [sub_add_sub_cancel] at b3
      linarith
  | false =>
    obtain ⟨e1, e2⟩ := h10 hm
    have ht : opsSpecTail Arith.exact sr side.spec x (getBitsLeft b1) =
        opsResidual Arith.exact sr.hr (getBitsLeft b1).toNat (x.take side.spec.nq) ++ [] := by
      unfold opsSpecTail
      rw [hm, List.append_nil]; rfl
    rw [ht] at h8
    obtain ⟨r', zs, z1, z2, -, z4⟩ := getResidual_ready sr.hr _ _ _ _ h8
    have e3 : xq = zs := by
      rw [e2, e1]
      unfold codedCoefs
      rw [List.map_map, List.map_map]
      exact congrArg Prod.fst z1
    have hll : zs.length = side.spec.nq := by rw [z2, List.length_take]; omega
    refine ⟨_, _, r2, h6, by dsimp only; rw [e3, hll], ?_⟩
    intro i hi
    dsimp only
    rw [if_neg (by decide), e3, List.getD_eq_getElem _ _ (by omega), List.getD_eq_getElem _ _ (by omega)]
    obtain ⟨j, hj, -⟩ := z4 i (by rw [List.length_take]; omega) (by omega)
    rw [List.getElem_take] at hj
    exact refined_error _ _ _ _ hj

/-- A side information with all the parts. -/
def exSide (lsb : Bool) : SideData where
  bw := 0
  spec := ⟨137, 12, lsb⟩
  tns := ⟨resolveLpcWeighting .m10 40, [[3, -2, 0, 1]]⟩
  pitchPresent := true
  sns := exSns
  ltpf := ⟨true, 301⟩

/-- A spectrum, with zeros, values of the two signs, and escapes. -/
def exSpec : List Rat :=
  [3/10, 21/10, -(7/10), 0, 113/10, -(96/10), 1/2, 0, 0, 15/10, -(12/10), 19/10] ++ List.replicate 68 (1/10)

theorem exSide_valid (lsb : Bool) : Encodable .m10 .k8 40 (exSide lsb) := by
  refine ⟨by show 0 ≤ _; decide, ⟨?_, ?_, ?_⟩, ⟨rfl, ?_, ?_⟩, ⟨?_, ?_, ?_, ?_, ?_, ?_⟩, ?_⟩
  case refine_5 =>
    intro rc hrc
    have : rc = [3, -2, 0, 1] := List.mem_singleton.mp hrc
    subst this
    exact ⟨by decide, by decide⟩
  all_goals cases lsb <;> decide +kernel

/-- Non-vacuity of C25: a frame of 40 bytes, with all the parts, in the two modes. -/
example (lsb : Bool) :
    Encodable .m10 .k8 (List.replicate 40 0x5a).length (exSide lsb) ∧ 2 ≤ (exSide lsb).spec.nq ∧
    exSpec.length = ne .m10 .k8 ∧
    (∀ v ∈ exSpec.take (exSide lsb).spec.nq, (quantCoef Arith.exact Srate.k8.hr v).1 < 2 ^ 16) ∧
    (encodeBits Arith.exact .m10 .k8 (List.replicate 40 0x5a) (exSide lsb) exSpec).any
      (fun b => decide (0 ≤ bitsLeftRaw b)) = true :=
  ⟨by rw [List.length_replicate]; exact exSide_valid lsb, by cases lsb <;> decide, by decide +kernel,
    by cases lsb <;> decide +kernel, by cases lsb <;> decide +kernel⟩

end LC3
