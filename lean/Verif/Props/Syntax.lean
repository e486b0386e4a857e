import Verif.Lemmas.Frame

/-!
Properties of the side information: C16, C17, C18, C20.

Each field is placed at an arbitrary point of a frame: whatever is written before (`pre`) and
after (`post`), provided that the complete frame does not overflow, what the reader gets at this point is
what was written, and the remaining of the frame is read back as well.
-/

namespace LC3

/-- The bytes of a frame written by `f`. -/
def frameOf (data : List Nat) (f : Bits → Bits) : List Nat := (flushBits (f (setupWrite data))).buf.data

/-- The reader of the frame `F`, positioned after the items `l`. -/
def readerAt (sh32 : Nat → Nat) (F : List Nat) (l : List Shape) : Bits :=
  (readAll (setupRead sh32 F) l).2

/-! ### C16: bandwidth -/

/-- **C16.** For each rate, each bandwidth up to the rate is read back (high-resolution rates have
one bandwidth only, which is not transmitted). -/
theorem C16_round_trip (data : List Nat) (hd : Bytes data) (h4 : 4 ≤ data.length) (sh32 : Nat → Nat)
    (pre post : List Op) (hpre : ∀ o ∈ pre, o.Valid) (hpost : ∀ o ∈ post, o.Valid)
    (sr : Srate) (bw : Nat) (hbw : if sr.hr then bw = sr.idx else bw ≤ sr.idx) :
    let write := fun b => putOps (putBw (putOps b pre) sr bw) post
    0 ≤ bitsLeftRaw (write (setupWrite data)) →
    let r := readerAt sh32 (frameOf data write) (pre.map Op.shape)
    ∃ r', getBw r sr = (0, bw, r') ∧ (readAll r' (post.map Op.shape)).1 = post.map Op.val := by
  intro write hl r
  simp only [write, putBw_ops] at hl
  have hR := ready_in_frame data pre (opsBw sr bw) post sh32 hd h4 hpre (opsBw_valid sr bw hbw) hpost hl
  simp only [← putBw_ops] at hR
  obtain ⟨r', e, h⟩ := getBw_ready sr bw hbw hR
  exact ⟨r', e, h.post⟩

/-- **C16.** In any received frame, at any point: the field is refused exactly when it exceeds the
rate, and the resulting bandwidth never exceeds the rate. -/
theorem C16_any_frame (sh32 : Nat → Nat) (F : List Nat) (hF : Bytes F) (l : List Shape)
    (hl : ∀ s ∈ l, s.Legal) (sr : Srate) :
    let r := readerAt sh32 F l
    let q := getBw r sr
    (q.1 = 0 ∨ q.1 = -1) ∧ q.2.1 ≤ sr.idx ∧
    (q.1 = -1 ↔ sr.hr = false ∧ sr.idx < (getBits r (bwNbits sr)).1) ∧
    (q.1 = 0 → sr.hr = true → q.2.1 = sr.idx) ∧
    q.2.2.buf.ub = false ∧ q.2.2.ac.ub = false := by
  intro r q
  have hr := (readAll_safe F hF l hl _ (rinv_setup sh32 F hF)).1
  obtain ⟨s1, s2, s3, s4⟩ := getBw_safe F sr r hr
  refine ⟨s2, s3, ?_, ?_, s1.bub, s1.aub⟩
  · have hg := (getBits_safe F (bwNbits sr) r hr (by cases sr <;> decide)).1
    change (getBw r sr).1 = -1 ↔ _
    unfold getBw
    by_cases h0 : bwNbits sr ≤ 0
    · simp only [if_pos h0, if_neg (show ¬ sr.idx > sr.idx by omega)]
      have : bwNbits sr = 0 := by omega
      rw [this] at hg ⊢
      constructor
      · intro e; exact absurd e (by decide)
      · rintro ⟨e1, e2⟩
        have : (getBits r 0).1 = 0 := by omega
        rw [this] at e2
        omega
    · simp only [if_neg h0]
      have hh : sr.hr = false := by
        revert h0; cases sr <;> decide
      by_cases h1 : (getBits r (bwNbits sr)).1 > sr.idx
      · simp only [if_pos h1]
        exact ⟨fun _ => ⟨hh, h1⟩, fun _ => trivial⟩
      · simp only [if_neg h1]
        exact ⟨fun e => absurd e (by decide), fun e => absurd e.2 h1⟩
  · intro e1 e2
    have := s4 e1
    unfold BwValid at this
    rw [if_pos e2] at this
    exact this

/-- Non-vacuity: bandwidth 2 at 48 kHz between symbols and plain bits; and a refused field. -/
example : (∀ o ∈ exOps, o.Valid) ∧
    0 ≤ bitsLeftRaw (putOps (putBw (putOps (setupWrite (List.replicate 40 0x5a)) exOps) .k48 2) exOps) ∧
    (getBw (readerAt id (List.replicate 20 0xff) []) .k48).1 = -1 ∧
    (getBw (readerAt id (List.replicate 20 0xff) []) .k24).1 = -1 :=
  ⟨exOps_valid, by decide +kernel, by decide +kernel, by decide +kernel⟩

/-! ### C17: side information of the spectrum -/

/-- **C17.** Whatever the duration and rate: gain index, LSB mode and even number of coefficients, up to the
number of coefficients of the configuration, are read back. A null number is read back as 2. -/
theorem C17_round_trip (data : List Nat) (hd : Bytes data) (h4 : 4 ≤ data.length) (sh32 : Nat → Nat)
    (pre post : List Op) (hpre : ∀ o ∈ pre, o.Valid) (hpost : ∀ o ∈ post, o.Valid)
    (dt : Dt) (sr : Srate) (g nq : Nat) (lsb : Bool) (hg : g ≤ 255) (heven : nq % 2 = 0)
    (hnq : nq ≤ ne dt sr) :
    let write := fun b => putOps (putSide (putOps b pre) dt sr ⟨g, nq, lsb⟩) post
    0 ≤ bitsLeftRaw (write (setupWrite data)) →
    let r := readerAt sh32 (frameOf data write) (pre.map Op.shape)
    ∃ r', getSide r dt sr = (0, ⟨g, if nq = 0 then 2 else nq, lsb⟩, r') ∧
      (readAll r' (post.map Op.shape)).1 = post.map Op.val := by
  intro write hl r
  have hv : SpecSide.Valid dt sr ⟨g, nq, lsb⟩ := ⟨hg, heven, hnq⟩
  have hm : (if nq = 0 then 2 else nq) = max nq 2 := by split <;> omega
  rw [hm]
  simp only [write, putSide_ops] at hl
  have hR := ready_in_frame data pre (opsSide dt sr ⟨g, nq, lsb⟩) post sh32 hd h4 hpre
    (opsSide_valid dt sr _ hv) hpost hl
  simp only [← putSide_ops] at hR
  obtain ⟨r', e, h⟩ := getSide_ready dt sr _ hv hR
  exact ⟨r', e, h.post⟩

/-- **C17.** In any received frame, at any point: the announced number of coefficients is refused exactly when it
exceeds the number of coefficients of the configuration; the values obtained are in range. -/
theorem C17_any_frame (sh32 : Nat → Nat) (F : List Nat) (hF : Bytes F) (l : List Shape)
    (hl : ∀ s ∈ l, s.Legal) (dt : Dt) (sr : Srate) :
    let r := readerAt sh32 F l
    let q := getSide r dt sr
    (q.1 = 0 ∨ q.1 = -1) ∧ (q.1 = -1 ↔ ne dt sr < 2 * (1 + (getBits r (nbitsNq dt sr)).1)) ∧
    2 ≤ q.2.1.nq ∧ q.2.1.nq ≤ ne dt sr ∧ q.2.1.nq % 2 = 0 ∧ q.2.1.gIdx ≤ 255 ∧
    q.2.2.buf.ub = false ∧ q.2.2.ac.ub = false := by
  intro r q
  have hr := (readAll_safe F hF l hl _ (rinv_setup sh32 F hF)).1
  obtain ⟨s1, s2, s3, s4⟩ := getSide_safe F dt sr r hr
  refine ⟨s2, ?_, s4, s3.nq, s3.even, s3.gIdx, s1.bub, s1.aub⟩
  change (getSide r dt sr).1 = -1 ↔ _
  unfold getSide
  dsimp only
  rw [Nat.shiftLeft_eq]
  split
  · refine ⟨fun _ => by omega, fun _ => rfl⟩
  · exact ⟨fun e => absurd (show (0 : Int) = -1 from e) (by decide), fun e => by omega⟩

/-- Non-vacuity: the largest number of coefficients, between other items; and a refused field. -/
example :
    0 ≤ bitsLeftRaw (putOps (putSide (putOps (setupWrite (List.replicate 40 0x5a)) exOps) .m10 .k96hr
      ⟨255, 960, true⟩) exOps) ∧ 960 ≤ ne .m10 .k96hr ∧
    (getSide (readerAt id (List.replicate 20 0xff) []) .m10 .k48).1 = -1 :=
  ⟨by decide +kernel, by decide, by decide +kernel⟩

/-! ### C18: TNS -/

/-- **C18.** Whatever the duration, bandwidth and size: 1 or 2 filters of up to 8 quantised coefficients (4
for 2.5 and 5 ms), are read back. -/
theorem C18_round_trip (data : List Nat) (hd : Bytes data) (h4 : 4 ≤ data.length) (sh32 : Nat → Nat)
    (pre post : List Op) (hpre : ∀ o ∈ pre, o.Valid) (hpost : ∀ o ∈ post, o.Valid)
    (dt : Dt) (bw nbytes : Nat) (filters : List (List Int))
    (hcount : filters.length = if 1 ≤ dt.idx ∧ 3 ≤ bw then 2 else 1)
    (horder : ∀ rc ∈ filters, rc.length ≤ if dt.idx ≤ 1 then 4 else 8)
    (hcoeff : ∀ rc ∈ filters, ∀ c ∈ rc, -8 ≤ c ∧ c ≤ 8) :
    let lw := resolveLpcWeighting dt nbytes
    let write := fun b => putOps (putTns (putOps b pre) ⟨lw, filters⟩) post
    0 ≤ bitsLeftRaw (write (setupWrite data)) →
    let r := readerAt sh32 (frameOf data write) (pre.map Op.shape)
    ∃ r', getTns r dt bw nbytes = (0, ⟨lw, filters⟩, r') ∧
      (readAll r' (post.map Op.shape)).1 = post.map Op.val := by
  intro lw write hl r
  have hv : TnsData.Valid dt bw nbytes ⟨lw, filters⟩ := by
    refine ⟨rfl, ?_, fun rc h => ⟨horder rc h, hcoeff rc h⟩⟩
    rw [hcount]
    unfold tnsNfilters bwSwb b2n
    by_cases a1 : 1 ≤ dt.idx <;> by_cases a2 : 3 ≤ bw <;> simp [a1, a2]
  simp only [write, putTns_ops] at hl
  have hR := ready_in_frame data pre (opsTns ⟨lw, filters⟩) post sh32 hd h4 hpre
    (opsTns_valid dt bw nbytes _ hv) hpost hl
  simp only [← putTns_ops] at hR
  obtain ⟨r', e, h⟩ := getTns_ready dt bw nbytes _ _ _ hv hR
  exact ⟨r', e, h.post⟩

/-- **C18.** From any received frame, at any point: at most 2 filters of order at most 8 (4 for 2.5
and 5 ms), with coefficients in -8..8; accepted data has exactly the number of filters of the bandwidth. -/
theorem C18_any_frame (sh32 : Nat → Nat) (F : List Nat) (hF : Bytes F) (l : List Shape)
    (hl : ∀ s ∈ l, s.Legal) (dt : Dt) (bw nbytes : Nat) :
    let q := getTns (readerAt sh32 F l) dt bw nbytes
    (q.1 = 0 ∨ q.1 = -1) ∧ q.2.1.filters.length ≤ 2 ∧
    (q.1 = 0 → q.2.1.filters.length = if 1 ≤ dt.idx ∧ 3 ≤ bw then 2 else 1) ∧
    (∀ rc ∈ q.2.1.filters, rc.length ≤ (if dt.idx ≤ 1 then 4 else 8) ∧ ∀ c ∈ rc, -8 ≤ c ∧ c ≤ 8) ∧
    q.2.2.buf.ub = false ∧ q.2.2.ac.ub = false := by
  intro q
  have hr := (readAll_safe F hF l hl _ (rinv_setup sh32 F hF)).1
  obtain ⟨s1, s2, s3, s4, s5⟩ := getTns_safe F hF dt bw nbytes _ hr
  refine ⟨s2, s3, ?_, fun rc h => ⟨(s4 rc h).order, (s4 rc h).coeff⟩, s1.bub, s1.aub⟩
  intro e
  have := (s5 e).count
  change q.2.1.filters.length = _ at this
  rw [this]
  unfold tnsNfilters bwSwb b2n
  by_cases a1 : 1 ≤ dt.idx <;> by_cases a2 : 3 ≤ bw <;> simp [a1, a2]

/-- **C18.** The weighting indicator, which selects the probabilities of the filters, is not transmitted: it is set if
and only if the bitrate is under 48 kbit/s. -/
theorem C18_weighting (r : Bits) (dt : Dt) (bw nbytes : Nat) :
    (getTns r dt bw nbytes).2.1.lpcWeighting = true ↔
      nbytes * 8 * 10000 < 48000 * (match dt with | .m2_5 => 25 | .m5 => 50 | .m7_5 => 75 | .m10 => 100) := by
  have : (getTns r dt bw nbytes).2.1.lpcWeighting = resolveLpcWeighting dt nbytes := rfl
  rw [this, resolveLpcWeighting, decide_eq_true_iff]
  cases dt <;> simp only [Dt.idx] <;> omega

/-- Non-vacuity: 60 bytes each 10 ms is 48 kbit/s. -/
example (r : Bits) : (getTns r .m10 3 60).2.1.lpcWeighting = false ∧ (getTns r .m10 3 59).2.1.lpcWeighting = true := by
  refine ⟨Bool.eq_false_iff.mpr fun h => ?_, (C18_weighting r .m10 3 59).mpr (by decide)⟩
  exact absurd ((C18_weighting r .m10 3 60).mp h) (by decide)

def exTns : List (List Int) := [[-8, 8, 3, 0, -1, 5, 7, 8], [1]]

/-- Non-vacuity: two filters, with extreme order and coefficients; and a refused order. -/
example :
    exTns.length = (if 1 ≤ Dt.m10.idx ∧ 3 ≤ 4 then 2 else 1) ∧
    (∀ rc ∈ exTns, rc.length ≤ if Dt.m10.idx ≤ 1 then 4 else 8) ∧
    (∀ rc ∈ exTns, ∀ c ∈ rc, -8 ≤ c ∧ c ≤ 8) ∧
    0 ≤ bitsLeftRaw (putOps (putTns (putOps (setupWrite (List.replicate 60 0x5a)) exOps)
      ⟨resolveLpcWeighting .m10 60, exTns⟩) exOps) ∧
    (getTns (readerAt id (0xfe :: List.replicate 19 1) []) .m5 1 20).1 = -1 :=
  ⟨by decide, by decide, by decide, by decide +kernel, by decide +kernel⟩

/-! ### C20: SNS -/

/-- **C20.** All SNS data in range is read back. -/
theorem C20_round_trip (data : List Nat) (hd : Bytes data) (h4 : 4 ≤ data.length) (sh32 : Nat → Nat)
    (pre post : List Op) (hpre : ∀ o ∈ pre, o.Valid) (hpost : ∀ o ∈ post, o.Valid)
    (d : SnsData) (h1 : d.lfcb < 32) (h2 : d.hfcb < 32) (h3 : d.shape < 4)
    (hg : d.gain < snsGains d.shape) (hA : d.idxA < snsSizeA d.shape)
    (hB : if d.shape = 0 then d.idxB < 6 else d.idxB = 0 ∧ d.lsB = false) :
    let write := fun b => putOps (putSns (putOps b pre) d) post
    0 ≤ bitsLeftRaw (write (setupWrite data)) →
    let r := readerAt sh32 (frameOf data write) (pre.map Op.shape)
    ∃ r', getSns r = (0, d, r') ∧ (readAll r' (post.map Op.shape)).1 = post.map Op.val := by
  intro write hl r
  have hv : d.Valid := ⟨h1, h2, h3, hg, hA, hB⟩
  simp only [write, putSns_ops] at hl
  have hR := ready_in_frame data pre (opsSns d) post sh32 hd h4 hpre (opsSns_valid d hv) hpost hl
  simp only [← putSns_ops] at hR
  obtain ⟨r', e, h⟩ := getSns_ready d _ _ hv hR
  exact ⟨r', e, h.post⟩

theorem sns_conclusion (F : List Nat) (r : Bits) (q : Int × SnsData × Bits)
    (h : RInv F q.2.2 ∧ (q.1 = 0 ∨ q.1 = -1) ∧ (q.1 = 0 → q.2.1.Valid ∧
      readAll r ((opsSns q.2.1).map Op.shape) = ((opsSns q.2.1).map Op.val, q.2.2))) :
    (q.1 = 0 ∨ q.1 = -1) ∧ q.2.2.buf.ub = false ∧ q.2.2.ac.ub = false ∧
    (q.1 = 0 → q.2.1.lfcb < 32 ∧ q.2.1.hfcb < 32 ∧ q.2.1.shape < 4 ∧
      q.2.1.gain < snsGains q.2.1.shape ∧ q.2.1.idxA < snsSizeA q.2.1.shape ∧
      (if q.2.1.shape = 0 then q.2.1.idxB < 6 else q.2.1.idxB = 0 ∧ q.2.1.lsB = false) ∧
      ∃ ops : List Op, (∀ b, putSns b q.2.1 = putOps b ops) ∧
        readAll r (ops.map Op.shape) = (ops.map Op.val, q.2.2)) := by
  obtain ⟨s1, s2, s3⟩ := h
  refine ⟨s2, s1.bub, s1.aub, fun e => ?_⟩
  obtain ⟨hv, ho⟩ := s3 e
  exact ⟨hv.lfcb, hv.hfcb, hv.shape, hv.gain, hv.idxA, hv.idxB, opsSns q.2.1,
    fun b => putSns_ops b _, ho⟩

/-- **C20.** From any received frame, at any point: the data is refused, or all values exist:
codebook indices, gain of the shape, indices of the vectors. Besides no two contents of the fields are decoded to the same
data: what is accepted is exactly the content that the encoder would write for the decoded data. -/
theorem C20_any_frame (sh32 : Nat → Nat) (F : List Nat) (hF : Bytes F) (l : List Shape)
    (hl : ∀ s ∈ l, s.Legal) :
    let r := readerAt sh32 F l
    let q := getSns r
    (q.1 = 0 ∨ q.1 = -1) ∧ q.2.2.buf.ub = false ∧ q.2.2.ac.ub = false ∧
    (q.1 = 0 → q.2.1.lfcb < 32 ∧ q.2.1.hfcb < 32 ∧ q.2.1.shape < 4 ∧
      q.2.1.gain < snsGains q.2.1.shape ∧ q.2.1.idxA < snsSizeA q.2.1.shape ∧
      (if q.2.1.shape = 0 then q.2.1.idxB < 6 else q.2.1.idxB = 0 ∧ q.2.1.lsB = false) ∧
      ∃ ops : List Op, (∀ b, putSns b q.2.1 = putOps b ops) ∧
        readAll r (ops.map Op.shape) = (ops.map Op.val, q.2.2)) := by
  exact sns_conclusion F _ (getSns (readerAt sh32 F l))
    (getSns_safe F _ (readAll_safe F hF l hl _ (rinv_setup sh32 F hF)).1)

def exSns : SnsData := ⟨31, 7, 0, 1, 2390003, true, 5, true⟩

/-- Non-vacuity: largest values of the first shape; and a refused multiplexed value. -/
example :
    exSns.gain < snsGains exSns.shape ∧ exSns.idxA < snsSizeA exSns.shape ∧
    0 ≤ bitsLeftRaw (putOps (putSns (putOps (setupWrite (List.replicate 60 0x5a)) exOps) exSns) exOps) ∧
    (getSns (readerAt id (List.replicate 20 0xff) [])).1 = -1 ∧
    (getSns (readerAt id (List.replicate 20 0x00) [])).1 = 0 :=
  ⟨by decide, by decide, by decide +kernel, by decide +kernel, by decide +kernel⟩

end LC3
