import Verif.Lemmas.Silent
import Verif.Props.Frame

/-!
C26: frames with no coded coefficient.
-/

namespace LC3

theorem putOps_plain (ops : List Op) (hp : ∀ o ∈ ops, ∃ v n, o = .bits v n) (hv : ∀ o ∈ ops, o.Valid) (b : Bits) (hb : WInv b)
    (hl : ((ops.map Op.plain).sum : Int) ≤ bitsLeftRaw b) :
    bitsLeftRaw (putOps b ops) = bitsLeftRaw b - (ops.map Op.plain).sum := by
  induction ops generalizing b with
  | nil => simp [putOps]
  | cons o ops ih =>
    obtain ⟨v, n, rfl⟩ := hp o (by simp)
    have ho := hv _ (List.mem_cons_self ..)
    have hr := fun o' (ho' : o' ∈ ops) => hv o' (by simp [ho'])
    rw [List.map_cons, List.sum_cons] at hl
    simp only [Op.plain] at hl
    push_cast at hl
    have e := (putBits_bitsLeft b hb v n ⟨ho.1, by have := ho.2.1; omega⟩ ho.2.2 (by omega)).1
    have hi := (winv_put b hb (.bits v n) ho).1
    have := ih (fun o ho => hp o (by simp [ho])) hr _ hi (by
      show _ ≤ bitsLeftRaw (putBits b v n)
      omega)
    rw [putOps_cons, this]
    show bitsLeftRaw (putBits b v n) - _ = _
    rw [List.map_cons, List.sum_cons]
    simp only [Op.plain]
    push_cast
    omega

/-- Without TNS filter, the side information is made of plain bits, at most 72. -/
theorem opsSideData_noTns (dt : Dt) (sr : Srate) (nbytes : Nat) (d : SideData) (hv : d.Valid dt sr nbytes)
    (ht : ∀ f ∈ d.tns.filters, f = []) :
    (∀ o ∈ opsSideData dt sr d, ∃ v n, o = .bits v n) ∧ ((opsSideData dt sr d).map Op.plain).sum ≤ 72 := by
  have htns : ∀ l : List (List Int), (∀ f ∈ l, f = []) →
      l.flatMap (opsTnsFilter d.tns.lpcWeighting) = List.replicate l.length (.bits 0 1) := by
    intro l hl
    induction l with
    | nil => rfl
    | cons f l ih =>
      have : f = [] := hl f (by simp)
      subst this
      rw [List.flatMap_cons, ih (fun f hf => hl f (by simp [hf]))]
      rfl
  have hcount : d.tns.filters.length ≤ 2 := by
    rw [hv.tns.count]
    unfold tnsNfilters b2n
    split <;> omega
  constructor
  · intro o ho
    unfold opsSideData at ho
    simp only [List.mem_append, List.mem_singleton] at ho
    rcases ho with ho | ho | ho | rfl | ho | ho
    · unfold opsBw at ho
      split at ho
      · exact ⟨_, _, List.mem_singleton.mp ho⟩
      · cases ho
    · unfold opsSide at ho
      simp only [List.mem_cons, List.not_mem_nil, or_false] at ho
      rcases ho with rfl | rfl | rfl <;> exact ⟨_, _, rfl⟩
    · unfold opsTns at ho
      rw [htns _ ht] at ho
      exact ⟨_, _, List.eq_of_mem_replicate ho⟩
    · exact ⟨_, _, rfl⟩
    · unfold opsSns at ho
      rw [List.mem_append] at ho
      rcases ho with ho | ho
      · simp only [List.mem_cons, List.not_mem_nil, or_false] at ho
        rcases ho with rfl | rfl | rfl <;> exact ⟨_, _, rfl⟩
      · split at ho <;> simp only [List.mem_cons, List.not_mem_nil, or_false] at ho <;>
          casesm* _ ∨ _ <;> subst_vars <;> exact ⟨_, _, rfl⟩
    · split at ho
      · unfold opsLtpf at ho
        simp only [List.mem_cons, List.not_mem_nil, or_false] at ho
        rcases ho with rfl | rfl <;> exact ⟨_, _, rfl⟩
      · cases ho
  · unfold opsSideData
    simp only [plain_append]
    have h1 := opsSns_plain d.sns
    have h2 : ((opsTns d.tns).map Op.plain).sum ≤ 2 := by
      unfold opsTns
      rw [htns _ ht, List.map_replicate, List.sum_replicate]
      simpa [Op.plain] using hcount
    have h3 : ((opsBw sr d.bw).map Op.plain).sum ≤ 3 := by
      unfold opsBw; cases sr <;> simp [bwNbits, Srate.idx, Srate.hr, b2n, Op.plain]
    have h4 : ((opsSide dt sr d.spec).map Op.plain).sum ≤ 18 := by
      have := (nbitsNq_spec dt sr).2.1
      simp [opsSide, Op.plain]; omega
    have h5 : ((if d.pitchPresent then opsLtpf d.ltpf else []).map Op.plain).sum ≤ 10 := by
      split <;> simp [opsLtpf, Op.plain]
    have h6 : (([.bits (b2n d.pitchPresent) 1] : List Op).map Op.plain).sum = 1 := by simp [Op.plain]
    omega

theorem opsQuantized_zero (hrate lsb : Bool) (n : Nat) :
    opsQuantized hrate lsb n 0 0 [(0, false), (0, false)] = [.sym (specModel (lutOf hrate n 0 0) 0) 0] := rfl

/-- **C26**, positive part: a frame with no coded coefficient and no TNS filter, of at least 20 bytes, is always accepted, and its
integer spectrum is zero: the missing pair is read back as zero. The noise seed is 0. -/
theorem C26_silent_partial {R : Type} (A : Arith R) (hA : A.isZero (A.ofInt 0) = true) (dt : Dt) (sr : Srate)
    (data : List Nat) (hd : Bytes data) (h20 : 20 ≤ data.length) (sh32 : Nat → Nat) (junk : LtpfData) (side : SideData)
    (hv : Encodable dt sr data.length side) (hnq : side.spec.nq = 0) (htns : ∀ f ∈ side.tns.filters, f = [])
    (x : List R) (hx : x.length = ne dt sr) :
    ∃ (F : List Nat) (s : SpecData R) (r : Bits), encodeFrame A dt sr data side x = some F ∧
      decodeFrame A dt sr sh32 junk F =
        (.ok ({ side with spec := { side.spec with nq := 2 }
                          ltpf := if side.pitchPresent then side.ltpf else junk }, s), r) ∧
      estimateNoise A dt side.bw sr.hr x 0 = some s.nf ∧
      s.quant = [0, 0] ∧ s.seed = 0 ∧ s.xq = [A.ofInt 0, A.ofInt 0] ∧
      specFinish A dt sr side.bw data.length { side.spec with nq := 2 } s.nf 0 s.xq = some s.x := by
  have hi := winv_setup data hd
  have hvS := opsSideData_valid dt sr data.length side hv
  obtain ⟨hpS, hsum⟩ := opsSideData_noTns dt sr data.length side hv htns
  obtain ⟨nf, hnf, hest, e⟩ := specEncode_ops A dt sr side.bw data.length side.spec x hv.bw hx
    (putOps (setupWrite data) (opsSideData dt sr side))
  have hc0 : codedCoefs A sr side.spec x = [] := by unfold codedCoefs; rw [hnq]; rfl
  have hH : opsSpecHead dt sr data.length side.spec nf (codedCoefs A sr side.spec x) = [.bits nf 3] := by
    rw [hc0]; rfl
  have hT : ∀ n, opsSpecTail A sr side.spec x n = [] := by
    intro n
    unfold opsSpecTail
    rw [hnq]
    have hb : ∀ n : Nat, (opsResidual A sr.hr n ([] : List R)) = [] := by
      intro n
      have : ∀ f off n, encIter A (A.ofRat (if sr.hr then 1/2 else 10/16)) f off n ([] : List R) = [] := by
        intro f
        induction f with
        | zero => intros; rfl
        | succ f ih =>
          intro off n
          unfold encIter
          have hp : encPass A (A.ofRat (if sr.hr then 1/2 else 10/16)) off n ([] : List R) = (n, [], []) := by
            cases n <;> rfl
          rw [hp]
          split
          · rfl
          · exact ih _ _
      exact this _ _ _
    split
    · rfl
    · exact hb _
  simp only [hH, hT] at e
  have eb : putOps (putOps (setupWrite data) (opsSideData dt sr side)) [.bits nf 3] =
      putOps (setupWrite data) (opsSideData dt sr side ++ [.bits nf 3]) := by rw [putOps_append]
  rw [eb] at e
  generalize hops : opsSideData dt sr side ++ [.bits nf 3] = ops at *
  have hv3 : (Op.bits nf 3).Valid := ⟨by omega, by omega, by omega⟩
  have hvA : ∀ o ∈ ops, o.Valid := by
    intro o ho
    rw [← hops] at ho
    rcases List.mem_append.mp ho with ho | ho
    · exact hvS o ho
    · rw [List.mem_singleton.mp ho]; exact hv3
  have hpA : ∀ o ∈ ops, ∃ v n, o = .bits v n := by
    intro o ho
    rw [← hops] at ho
    rcases List.mem_append.mp ho with ho | ho
    · exact hpS o ho
    · exact ⟨_, _, List.mem_singleton.mp ho⟩
  have hsA : (ops.map Op.plain).sum ≤ 75 := by
    rw [← hops, plain_append]
    simp only [List.map_cons, List.map_nil, List.sum_cons, List.sum_nil, Op.plain]
    omega
  have hraw0 : bitsLeftRaw (setupWrite data) = 8 * data.length - 2 := by
    have : pendingBits (setupWrite data).ac = 2 := by
      show pendingBits acFresh = 2
      decide +kernel
    unfold bitsLeftRaw
    rw [this]
    simp [setupWrite]
  have hraw : 0 ≤ bitsLeftRaw (putOps (setupWrite data) ops) := by
    rw [putOps_plain ops hpA hvA _ hi (by rw [hraw0]; omega), hraw0]
    omega
  -- the missing pair
  have hvq := opsQuantized_valid (highRate sr data.length) side.spec.lsbMode sr.hr (ne dt sr) 0 0 [(0, false), (0, false)] (by decide) (by
    intro p hp
    simp only [List.mem_cons, List.not_mem_nil, or_false, or_self] at hp
    subst hp
    exact Nat.pow_pos (by decide))
  rw [opsQuantized_zero] at hvq
  have hsv := hvq _ (List.mem_singleton.mpr rfl)
  have hR := ready_fresh data ops sh32 hd (by omega) hvA hpA (by omega) hraw _ hsv.1 hsv.2.2
  have hF : encodeFrame A dt sr data side x = some (encodeOps data ops) := by
    unfold encodeFrame encodeBits
    rw [putSideData_ops, e]; rfl
  generalize hFe : encodeOps data ops = F at *
  have hlen : F.length = data.length := by
    have h1 := hR.covers.len
    have h2 := (winv_ops _ _ hi hR.valid).2
    rw [h2] at h1
    exact h1
  rw [← hops, List.append_assoc] at hR
  obtain ⟨ra, ea, ha⟩ := getSideData_ready dt sr data.length side junk _ _ hv hR
  obtain ⟨rb, eb', hb⟩ := Ready.bits (rest := [Op.sym (specModel (lutOf (highRate sr data.length) (ne dt sr) 0 0) 0) 0]) ha
  rw [← opsQuantized_zero (highRate sr data.length) side.spec.lsbMode, ← List.append_nil (opsQuantized _ _ _ _ _ _)] at hb
  obtain ⟨rc, ec, hcR⟩ := getQuantized_ready (highRate sr data.length) side.spec.lsbMode sr.hr (ne dt sr) 1 0 0 0
    [(0, false), (0, false)] rfl (by
    intro p hp
    simp only [List.mem_cons, List.not_mem_nil, or_false, or_self] at hp
    subst hp
    exact Nat.pow_pos (by decide)) _ _ hb
  have hrec : received side.spec.lsbMode [(0, false), (0, false)] = [0, 0] := by cases side.spec.lsbMode <;> rfl
  have hseed : seedAll 0 0 [0, 0] = 0 := by decide +kernel
  rw [hrec, hseed] at ec
  -- the end of the decoding
  have hres : ∀ n, getResidual A sr.hr n [A.ofInt 0, A.ofInt 0] rc = ([A.ofInt 0, A.ofInt 0], rc) := by
    intro n
    have hp : ∀ o1 o2 n, getResidualPass A o1 o2 n [A.ofInt 0, A.ofInt 0] rc = (n, [A.ofInt 0, A.ofInt 0], rc) := by
      intro o1 o2 n
      cases n with
      | zero => rfl
      | succ n => simp [getResidualPass, hA]
    have hI : ∀ f o1 o2 n, getResidualIter A f o1 o2 n [A.ofInt 0, A.ofInt 0] rc = ([A.ofInt 0, A.ofInt 0], rc) := by
      intro f
      induction f with
      | zero => intros; rfl
      | succ f ih =>
        intro o1 o2 n
        rw [getResidualIter]
        split
        · rfl
        · rw [hp]; exact ih _ _ _
    exact hI _ _ _ _
  have hlsb : ∀ n, getLsb 0 n [0, 0] 0 rc = ([0, 0], 0, rc) := by
    intro n
    unfold getLsb
    split
    · rfl
    · rw [if_pos (by decide)]
      unfold getLsb
      rfl
  obtain ⟨xf, hxf⟩ := specFinish_some A dt sr side.bw data.length { side.spec with nq := 2 } nf 0
    [A.ofInt 0, A.ofInt 0] hv.bw (ne_ge dt sr)
  have hdec : specDecode A dt sr side.bw data.length { side.spec with nq := 2 } ra =
      (.ok ⟨nf, [0, 0], 0, [A.ofInt 0, A.ofInt 0], xf⟩, rc) := by
    unfold specDecode
    rw [eb']
    dsimp only
    rw [show (2 / 2 : Nat) = 1 from rfl, ec]
    dsimp only
    by_cases hm : side.spec.lsbMode = true
    · rw [if_pos hm, hlsb]
      dsimp only [List.map]
      rw [hxf]
    · rw [if_neg hm]
      dsimp only [List.map]
      rw [hres]
      dsimp only
      rw [hxf]
  have hchk : checkBits rc = true := by
    rw [opsQuantized_zero] at hcR
    have ew : putOps (putOps (setupWrite data) (opsSideData dt sr side)) [.bits nf 3] = putOps (setupWrite data) ops := by
      rw [← hops, putOps_append]
    have hcR' : Ready F (putSymbol (putOps (setupWrite data) ops) (specModel (lutOf (highRate sr data.length) (ne dt sr) 0 0) 0) 0) rc [] := by
      rw [← ew, ← putSideData_ops]; exact hcR
    have hw := (winv_ops ops _ hi hvA)
    have hfo : Fit (putOps (setupWrite data) ops) := fit_of_bitsLeft _ hw.1 hraw
    obtain ⟨e1, e2⟩ := fresh_ops ops hpA _ hi hvA hfo
    obtain ⟨k1, k2⟩ := putSymbol_fresh _ e1 e2 _ hsv.1 hsv.2.2
    obtain ⟨q1, q2, q3⟩ := winv_sym _ hw.1 _ 0 hsv.1 hsv.2
    have hP := plainP_ops ops _ hi hvA hfo
    have hP0 : plainP (setupWrite data).accu (setupWrite data).buf = 0 := by simp [plainP, setupWrite]
    have hle := (bitsLeftRaw_read F _ _ hcR'.inv hcR'.covers.len hcR'.sync).1
    rw [bitsLeftRaw_write _ q1] at hle
    obtain ⟨t1, t2, t3, t4⟩ := rangeBits_spec _ q1.range q1.ac.range_lt
    have hacc : (putSymbol (putOps (setupWrite data) ops) (specModel (lutOf (highRate sr data.length) (ne dt sr) 0 0) 0) 0).accu =
        (putOps (setupWrite data) ops).accu :=
      (putSymbol_spec _ _ 0 hsv.1 hsv.2 hw.1.ac hw.1.fw hw.1.range hw.1.accu.bw_le).2.1
    rw [k1, hacc] at hle
    unfold plainP at hP hP0
    have hdl : (putOps (setupWrite data) ops).buf.data.length = data.length := hw.2
    rw [hdl] at hP
    have hbl := hw.1.accu.bw_le
    rw [hdl] at hbl
    unfold checkBits
    rw [hcR'.sync.error, decide_eq_false (by omega)]
    rfl
  refine ⟨F, ⟨nf, [0, 0], 0, [A.ofInt 0, A.ofInt 0], xf⟩, rc, hF, ?_, by rw [← hnq]; exact hest, rfl, rfl, rfl, hxf⟩
  have hS : side.spec.received = { side.spec with nq := 2 } := by
    unfold SpecSide.received
    rw [hnq]; rfl
  unfold decodeFrame
  rw [hlen, ea]
  unfold SideData.received
  rw [hS]
  dsimp only
  rw [hdec]
  dsimp only
  rw [hchk, if_pos rfl]

theorem noiseAll_zero (x : List Rat) (hz : ∀ v ∈ x, v = 0) (L : List Nat) (k : Nat) :
    (noiseAll Arith.exact x L ((0 : Rat), k)).1 = 0 := by
  induction L generalizing k with
  | nil => rfl
  | cons j L ih =>
    have hv : (x[j]?).getD (Arith.exact.ofRat 0) = 0 := by
      cases hj : x[j]? with
      | none => rfl
      | some v => exact hz v (List.mem_of_getElem? hj)
    have e : noiseAll Arith.exact x (j :: L) ((0 : Rat), k) = noiseAll Arith.exact x L ((0 : Rat), k + 1) := by
      unfold noiseAll
      rw [List.foldl_cons, hv]
      have e1 : Arith.exact.add (0 : Rat) (Arith.exact.abs 0) = 0 := by decide +kernel
      dsimp only
      rw [e1]
    rw [e]
    exact ih _

/-- The noise factor of a spectrum of zeros. -/
theorem estimateNoise_zero (dt : Dt) (bw : Nat) (hr : Bool) (x : List Rat) (n : Nat) (hz : ∀ v ∈ x, v = 0)
    (hx : bwStop dt bw ≤ x.length) : estimateNoise Arith.exact dt bw hr x n = some 7 := by
  rw [estimateNoise_eq _ _ _ _ _ _ hx]
  have h0 := noiseAll_zero x hz (noiseLines dt bw (zeroEst Arith.exact hr (min n (bwStop dt bw)) x)) 0
  have hz0 : Arith.exact.ofRat 0 = (0 : Rat) := rfl
  rw [hz0]
  generalize noiseAll Arith.exact x _ _ = q at *
  obtain ⟨a, k⟩ := q
  dsimp only at h0
  subst h0
  unfold noiseFactor
  dsimp only
  have ht : Arith.exact.trunc (Arith.exact.add (Arith.exact.div (Arith.exact.mul (Arith.exact.ofRat 16) 0) (Arith.exact.ofInt k)) (Arith.exact.ofRat (1/2))) = 0 := by
    show Arith.exact.trunc ((16 * 0 : Rat) / (k : Rat) + 1/2) = 0
    rw [mul_zero, zero_div, zero_add]
    decide +kernel
  rw [ht]
  have h8 : (if k ≠ 0 then 8 - 0 else 8 : Int) = 8 := by split <;> rfl
  rw [h8]
  rfl

/-- **C26**, digital silence: in exact arithmetic, a spectrum of zeros coded without coefficient, with the gain index 0 and no TNS filter,
is decoded as a spectrum of zeros: the noise filling is not triggered. -/
theorem C26_digital_silence_partial (dt : Dt) (sr : Srate) (data : List Nat) (hd : Bytes data) (h20 : 20 ≤ data.length)
    (sh32 : Nat → Nat) (junk : LtpfData) (side : SideData) (hv : Encodable dt sr data.length side)
    (hnq : side.spec.nq = 0) (hg : side.spec.gIdx = 0) (htns : ∀ f ∈ side.tns.filters, f = []) :
    ∃ (F : List Nat) (sd : SideData) (s : SpecData Rat) (r : Bits),
      encodeFrame Arith.exact dt sr data side (List.replicate (ne dt sr) 0) = some F ∧
      decodeFrame Arith.exact dt sr sh32 junk F = (.ok (sd, s), r) ∧
      s.x = List.replicate (ne dt sr) 0 := by
  obtain ⟨F, s, r, h1, h2, h3, h4, h5, h6, h7⟩ := C26_silent_partial Arith.exact (by decide +kernel) dt sr data hd h20 sh32 junk side hv
    hnq htns (List.replicate (ne dt sr) 0) (by simp)
  refine ⟨F, _, s, r, h1, h2, ?_⟩
  rw [estimateNoise_zero dt side.bw sr.hr _ 0 (fun v hv => List.eq_of_mem_replicate hv) (by
    rw [List.length_replicate]; exact bwStop_le dt sr side.bw hv.bw)] at h3
  have h3 : s.nf = 7 := (Option.some.inj h3).symm
  rw [h3, h6] at h7
  unfold specFinish at h7
  obtain ⟨g, hgg⟩ := unquantizeGain_some Arith.exact ((({ side.spec with nq := 2 } : SpecSide).gIdx : Int) - gainOffset sr data.length)
  rw [hgg, Option.bind_some] at h7
  have hu : unquantize Arith.exact (ne dt sr) g [Arith.exact.ofInt 0, Arith.exact.ofInt 0] = List.replicate (ne dt sr) 0 := by
    unfold unquantize
    have e0 : (fun v => Arith.exact.mul v g) = fun v : Rat => v * g := rfl
    have e1 : Arith.exact.ofInt 0 = (0 : Rat) := by decide +kernel
    have e2 : Arith.exact.ofRat 0 = (0 : Rat) := rfl
    rw [e0, e1, e2, List.map_cons, List.map_cons, List.map_nil, zero_mul]
    have := ne_ge dt sr
    generalize ne dt sr = n at *
    obtain ⟨m, rfl⟩ : ∃ m, n = m + 2 := ⟨n - 2, by omega⟩
    rfl
  rw [hu] at h7
  dsimp only at h7
  have hn := ne_ge dt sr
  rw [List.getElem?_replicate, List.getElem?_replicate, if_pos (by omega), if_pos (by omega), Option.bind_some, Option.bind_some,
    if_neg] at h7
  · exact (Option.some.inj h7).symm
  · have hz : Arith.exact.isZero (0 : Rat) = true := by decide +kernel
    rw [hz, hg]
    decide

/-- A frame without coefficient, but with a TNS filter. -/
def exSilent (rc : List Int) (g : Nat) : SideData where
  bw := 0
  spec := ⟨g, 0, false⟩
  tns := ⟨resolveLpcWeighting .m10 40, [rc]⟩
  pitchPresent := false
  sns := exSns
  ltpf := ⟨false, 0⟩

theorem exSilent_valid (g : Nat) (hg : g < 256) (rc : List Int) (hrc : rc = [] ∨ rc = [-7]) : Encodable .m10 .k8 40 (exSilent rc g) := by
  refine ⟨by show 0 ≤ _; decide, ⟨by show g ≤ 255; omega, by show 0 % 2 = 0; decide, Nat.zero_le _⟩, ⟨rfl, by show 1 = tnsNfilters .m10 0; decide, ?_⟩,
    (exSide_valid false).sns, fun h => by cases h⟩
  intro r hr
  have : r = rc := List.mem_singleton.mp hr
  subst this
  rcases hrc with rfl | rfl
  · exact ⟨by decide, by decide⟩
  · exact ⟨by decide, by decide⟩

/-- The decoded integer spectrum is not zero. -/
def wakes (dt : Dt) (sr : Srate) (data : List Nat) (side : SideData) (x : List Rat) : Bool :=
  match encodeFrame Arith.exact dt sr data side x with
  | some F =>
    match (decodeFrame Arith.exact dt sr id ⟨false, 0⟩ F).1 with
    | .ok (_, s) => s.quant.any (· ≠ 0)
    | _ => false
  | none => false

/-- **C26** is false in general: a frame of 40 bytes, of which no coefficient is coded, with a valid side information holding a TNS filter,
and whose decoding gives a spectrum that is not zero. -/
theorem C26_not_silent : ¬ ∀ (dt : Dt) (sr : Srate) (data : List Nat) (side : SideData) (x : List Rat) (F : List Nat) (sd : SideData)
    (s : SpecData Rat) (r : Bits), Bytes data → 20 ≤ data.length → Encodable dt sr data.length side → side.spec.nq = 0 →
    x.length = ne dt sr → (∀ v ∈ x, v = 0) → encodeFrame Arith.exact dt sr data side x = some F →
    decodeFrame Arith.exact dt sr id ⟨false, 0⟩ F = (.ok (sd, s), r) → ∀ q ∈ s.quant, q = 0 := by
  intro h
  have hw : wakes .m10 .k8 (List.replicate 40 0) (exSilent [-7] 137) (List.replicate 80 0) = true := by decide +kernel
  unfold wakes at hw
  cases hF : encodeFrame Arith.exact .m10 .k8 (List.replicate 40 0) (exSilent [-7] 137) (List.replicate 80 0) with
  | none => rw [hF] at hw; cases hw
  | some F =>
    rw [hF] at hw
    dsimp only at hw
    generalize hD : decodeFrame Arith.exact .m10 .k8 id ⟨false, 0⟩ F = D at hw
    obtain ⟨o, r⟩ := D
    cases o with
    | ub => cases hw
    | refused => cases hw
    | ok a =>
      obtain ⟨sd, s⟩ := a
      dsimp only at hw
      obtain ⟨q, hq, hne⟩ := List.any_eq_true.mp hw
      have := h .m10 .k8 (List.replicate 40 0) (exSilent [-7] 137) (List.replicate 80 0) F sd s r
        (by intro b hb; rw [List.eq_of_mem_replicate hb]; decide) (by decide) (by
          rw [List.length_replicate]; exact exSilent_valid 137 (by decide) _ (Or.inr rfl)) rfl
        (by decide +kernel) (fun v hv => List.eq_of_mem_replicate hv) hF hD q hq
      rw [this] at hne
      exact absurd hne (by decide)

/-- Non-vacuity of C26: a frame without TNS filter. -/
example (g : Nat) (hg : g < 256) : Bytes (List.replicate 40 0x5a) ∧ 20 ≤ (List.replicate 40 0x5a).length ∧
    Encodable .m10 .k8 (List.replicate 40 0x5a).length (exSilent [] g) ∧ (exSilent [] g).spec.nq = 0 ∧
    (∀ f ∈ (exSilent [] g).tns.filters, f = []) :=
  ⟨by intro b hb; rw [List.eq_of_mem_replicate hb]; decide, by decide,
    by rw [List.length_replicate]; exact exSilent_valid g hg _ (Or.inl rfl), rfl,
    fun f hf => List.mem_singleton.mp hf⟩

end LC3
