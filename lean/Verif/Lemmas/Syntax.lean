import Verif.Lemmas.BitsSwap
import Verif.Model.Syntax

/-!
The side information, as sequences of operations: what the writing functions write, and that the
reading functions read it back.
-/

namespace LC3

theorem Ready.bits {F : List Nat} {b r : Bits} {v n : Nat} {rest : List Op}
    (h : Ready F b r (.bits v n :: rest)) :
    ∃ r', getBits r n = (v, r') ∧ Ready F (putBits b v n) r' rest := by
  obtain ⟨h1, h2⟩ := h.step
  exact ⟨(getBits r n).2, Prod.ext h1 rfl, h2⟩

theorem Ready.bit {F : List Nat} {b r : Bits} {v : Nat} {rest : List Op}
    (h : Ready F b r (.bits v 1 :: rest)) :
    ∃ r', getBit r = (v, r') ∧ Ready F (putBit b v) r' rest := h.bits

theorem Ready.sym {F : List Nat} {b r : Bits} {m : AcModel} {s : Nat} {rest : List Op}
    (h : Ready F b r (.sym m s :: rest)) :
    ∃ r', getSymbol r m = (s, r') ∧ Ready F (putSymbol b m s) r' rest := by
  obtain ⟨h1, h2⟩ := h.step
  exact ⟨(getSymbol r m).2, Prod.ext h1 rfl, h2⟩

theorem b2n_lt (b : Bool) : b2n b < 2 := by cases b <;> decide

theorem b2n_ne (b : Bool) : decide (b2n b ≠ 0) = b := by cases b <;> rfl

/-! ### Bandwidth -/

def opsBw (sr : Srate) (bw : Nat) : List Op :=
  if bwNbits sr > 0 then [.bits bw (bwNbits sr)] else []

theorem putBw_ops (b : Bits) (sr : Srate) (bw : Nat) : putBw b sr bw = putOps b (opsBw sr bw) := by
  unfold putBw opsBw; split <;> rfl

/-- A bandwidth that can be coded at a samplerate. -/
def BwValid (sr : Srate) (bw : Nat) : Prop := if sr.hr then bw = sr.idx else bw ≤ sr.idx

theorem opsBw_valid (sr : Srate) (bw : Nat) (h : BwValid sr bw) : ∀ o ∈ opsBw sr bw, o.Valid := by
  intro o ho
  unfold opsBw at ho
  split at ho
  · rw [List.mem_singleton] at ho
    subst ho
    unfold BwValid at h
    cases sr <;> simp_all [Op.Valid, bwNbits, b2n, Srate.hr, Srate.idx] <;> omega
  · simp at ho

theorem getBw_ready {F : List Nat} {b r : Bits} {rest : List Op} (sr : Srate) (bw : Nat)
    (hv : BwValid sr bw) (h : Ready F b r (opsBw sr bw ++ rest)) :
    ∃ r', getBw r sr = (0, bw, r') ∧ Ready F (putBw b sr bw) r' rest := by
  unfold opsBw at h
  unfold getBw putBw
  have hle : ¬ bw > sr.idx := by
    unfold BwValid at hv; split at hv <;> omega
  by_cases hn : bwNbits sr > 0
  · rw [if_pos hn] at h
    obtain ⟨r', h1, h2⟩ := h.bits
    simp only [if_neg (show ¬ bwNbits sr ≤ 0 by omega), h1, if_pos hn, if_neg hle]
    exact ⟨r', rfl, h2⟩
  · rw [if_neg hn] at h
    have hbw : bw = sr.idx := by
      unfold BwValid at hv
      cases sr <;> simp_all [bwNbits, b2n, Srate.hr, Srate.idx]
    have hgt : ¬ sr.idx > sr.idx := by omega
    simp only [if_pos (show bwNbits sr ≤ 0 by omega), if_neg hn, if_neg hgt]
    exact ⟨r, by rw [hbw], h⟩

/-! ### Spectrum side data -/

def opsSide (dt : Dt) (sr : Srate) (d : SpecSide) : List Op :=
  [.bits (max (d.nq >>> 1) 1 - 1) (nbitsNq dt sr), .bits (b2n d.lsbMode) 1, .bits d.gIdx 8]

theorem putSide_ops (b : Bits) (dt : Dt) (sr : Srate) (d : SpecSide) :
    putSide b dt sr d = putOps b (opsSide dt sr d) := rfl

/-- Side data produced by the encoder. -/
structure SpecSide.Valid (dt : Dt) (sr : Srate) (d : SpecSide) : Prop where
  gIdx : d.gIdx ≤ 255
  even : d.nq % 2 = 0
  nq : d.nq ≤ ne dt sr

theorem nbitsNq_spec (dt : Dt) (sr : Srate) :
    4 ≤ nbitsNq dt sr ∧ nbitsNq dt sr ≤ 9 ∧ ne dt sr ≤ 2 * 2 ^ nbitsNq dt sr ∧ ne dt sr % 2 = 0 ∧
    20 ≤ ne dt sr ∧ ne dt sr ≤ 960 := by
  cases dt <;> cases sr <;> decide

theorem opsSide_valid (dt : Dt) (sr : Srate) (d : SpecSide) (h : d.Valid dt sr) :
    ∀ o ∈ opsSide dt sr d, o.Valid := by
  obtain ⟨h1, h2, h3, h4, h5, h6⟩ := nbitsNq_spec dt sr
  have := h.nq
  have := h.gIdx
  have hb := b2n_lt d.lsbMode
  have e : d.nq >>> 1 = d.nq / 2 := Nat.shiftRight_eq_div_pow _ _
  intro o ho
  simp only [opsSide, List.mem_cons, List.not_mem_nil, or_false] at ho
  rcases ho with rfl | rfl | rfl
  · refine ⟨by omega, by omega, ?_⟩
    rw [e]
    generalize 2 ^ nbitsNq dt sr = X at *
    omega
  · exact ⟨by omega, by omega, by omega⟩
  · exact ⟨by omega, by omega, by omega⟩

/-- What the decoder gets: a null count is transmitted as one pair. -/
def SpecSide.received (d : SpecSide) : SpecSide := { d with nq := max d.nq 2 }

theorem getSide_ready {F : List Nat} {b r : Bits} {rest : List Op} (dt : Dt) (sr : Srate)
    (d : SpecSide) (hv : d.Valid dt sr) (h : Ready F b r (opsSide dt sr d ++ rest)) :
    ∃ r', getSide r dt sr = (0, d.received, r') ∧ Ready F (putSide b dt sr d) r' rest := by
  obtain ⟨r1, e1, h⟩ := h.bits
  obtain ⟨r2, e2, h⟩ := h.bits
  obtain ⟨r3, e3, h⟩ := h.bits
  obtain ⟨n1, n2, n3, n4, n5, n6⟩ := nbitsNq_spec dt sr
  have := hv.nq
  have := hv.even
  refine ⟨r3, ?_, h⟩
  have e : d.nq >>> 1 = d.nq / 2 := Nat.shiftRight_eq_div_pow _ _
  have hq : (max (d.nq >>> 1) 1 - 1 + 1) <<< 1 = max d.nq 2 := by
    rw [e, Nat.shiftLeft_eq]; omega
  unfold getSide
  simp only [getBit, e1, e2, e3, hq, if_neg (show ¬ max d.nq 2 > ne dt sr by omega), b2n_ne]
  rfl

/-! ### TNS -/

def opsTnsCoeffs : Nat → List Int → List Op
  | _, [] => []
  | i, c :: l => .sym (tnsCoeffsModel i) (8 + c).toNat :: opsTnsCoeffs (i + 1) l

def opsTnsFilter (lw : Bool) (rc : List Int) : List Op :=
  if rc.length = 0 then [.bits 0 1]
  else .bits 1 1 :: .sym (tnsOrderModel lw) (rc.length - 1) :: opsTnsCoeffs 0 rc

def opsTns (d : TnsData) : List Op := d.filters.flatMap (opsTnsFilter d.lpcWeighting)

theorem putTnsCoeffs_ops (rc : List Int) (i : Nat) (b : Bits) :
    putTnsCoeffs b i rc = putOps b (opsTnsCoeffs i rc) := by
  induction rc generalizing i b with
  | nil => rfl
  | cons c l ih => simp only [putTnsCoeffs, opsTnsCoeffs, putOps_cons, ih]; rfl

theorem putTnsFilter_ops (b : Bits) (lw : Bool) (rc : List Int) :
    putTnsFilter b lw rc = putOps b (opsTnsFilter lw rc) := by
  unfold putTnsFilter opsTnsFilter
  by_cases h : rc.length = 0
  · simp only [if_pos h]
    rw [h]; rfl
  · simp only [if_neg h, putTnsCoeffs_ops, putOps_cons]
    rw [show b2n (decide (rc.length > 0)) = 1 by rw [decide_eq_true (by omega)]; rfl]
    rfl

theorem putTns_ops (b : Bits) (d : TnsData) : putTns b d = putOps b (opsTns d) := by
  obtain ⟨lw, fs⟩ := d
  unfold putTns opsTns
  dsimp only
  induction fs generalizing b with
  | nil => rfl
  | cons rc l ih =>
    rw [List.foldl_cons, List.flatMap_cons, putOps_append, ih, putTnsFilter_ops]

/-- A quantised filter: up to 8 coefficients (4 for the short durations), from -8 to 8. -/
structure TnsFilterValid (dt : Dt) (rc : List Int) : Prop where
  order : rc.length ≤ if dt.idx ≤ 1 then 4 else 8
  coeff : ∀ c ∈ rc, -8 ≤ c ∧ c ≤ 8

/-- TNS data produced by the encoder. -/
structure TnsData.Valid (dt : Dt) (bw nbytes : Nat) (d : TnsData) : Prop where
  weighting : d.lpcWeighting = resolveLpcWeighting dt nbytes
  count : d.filters.length = tnsNfilters dt bw
  filters : ∀ rc ∈ d.filters, TnsFilterValid dt rc

/-- Boolean test of well-formedness. -/
def AcModel.wfB (m : AcModel) : Bool :=
  (m.sym 0).low == 0 && (m.sym 16).low + (m.sym 16).range == 1024 &&
  (List.range 16).all fun s => (m.sym s).low + (m.sym s).range == (m.sym (s + 1)).low

theorem AcModel.wf_of (m : AcModel) (h : m.wfB = true) : m.WF := by
  simp only [AcModel.wfB, Bool.and_eq_true, beq_iff_eq, List.all_eq_true, List.mem_range] at h
  exact ⟨h.1.1, h.2, h.1.2⟩

/-- All the symbols are codable. -/
def AcModel.fullB (m : AcModel) : Bool := (List.range 17).all fun s => decide (0 < (m.sym s).range)

theorem AcModel.codable_of (m : AcModel) (h : m.fullB = true) (s : Nat) (hs : s ≤ 16) :
    m.Codable s := by
  simp only [AcModel.fullB, List.all_eq_true, List.mem_range, decide_eq_true_eq] at h
  exact ⟨hs, h s (by omega)⟩

theorem tnsOrder_wf (lw : Bool) : (tnsOrderModel lw).WF := by
  apply AcModel.wf_of
  cases lw <;> decide +kernel

theorem tnsOrder_codable (lw : Bool) (s : Nat) : (tnsOrderModel lw).Codable s ↔ s ≤ 7 := by
  unfold AcModel.Codable
  constructor
  · rintro ⟨h1, h2⟩
    have : ∀ s < 17, 0 < ((tnsOrderModel lw).sym s).range → s ≤ 7 := by cases lw <;> decide +kernel
    exact this s (by omega) h2
  · intro h
    have : ∀ s < 8, 0 < ((tnsOrderModel lw).sym s).range := by cases lw <;> decide +kernel
    exact ⟨by omega, this s (by omega)⟩

theorem tnsCoeffs_all : (List.range 8).all
    (fun i => (tnsCoeffsModel i).wfB && (tnsCoeffsModel i).fullB) = true := by decide +kernel

theorem tnsCoeffs_wf (i : Nat) (h : i < 8) : (tnsCoeffsModel i).WF := by
  have := List.all_eq_true.mp tnsCoeffs_all i (List.mem_range.mpr h)
  rw [Bool.and_eq_true] at this
  exact AcModel.wf_of _ this.1

theorem tnsCoeffs_codable (i s : Nat) (h : i < 8) (hs : s ≤ 16) : (tnsCoeffsModel i).Codable s := by
  have := List.all_eq_true.mp tnsCoeffs_all i (List.mem_range.mpr h)
  rw [Bool.and_eq_true] at this
  exact AcModel.codable_of _ this.2 s hs

theorem opsTnsCoeffs_valid (rc : List Int) (i : Nat) (hi : i + rc.length ≤ 8)
    (hc : ∀ c ∈ rc, -8 ≤ c ∧ c ≤ 8) : ∀ o ∈ opsTnsCoeffs i rc, o.Valid := by
  induction rc generalizing i with
  | nil => simp [opsTnsCoeffs]
  | cons c l ih =>
    rw [List.length_cons] at hi
    intro o ho
    simp only [opsTnsCoeffs, List.mem_cons] at ho
    rcases ho with rfl | ho
    · have := hc c (by simp)
      exact ⟨tnsCoeffs_wf i (by omega), tnsCoeffs_codable i _ (by omega) (by omega)⟩
    · exact ih (i + 1) (by omega) (fun c' h' => hc c' (by simp [h'])) o ho

theorem TnsFilterValid.order8 {dt : Dt} {rc : List Int} (h : TnsFilterValid dt rc) :
    rc.length ≤ 8 := by
  have := h.order; split at this <;> omega

theorem opsTnsFilter_valid (dt : Dt) (lw : Bool) (rc : List Int) (h : TnsFilterValid dt rc) :
    ∀ o ∈ opsTnsFilter lw rc, o.Valid := by
  intro o ho
  have h8 := h.order8
  unfold opsTnsFilter at ho
  split at ho
  · rw [List.mem_singleton] at ho; subst ho; exact ⟨by omega, by omega, by omega⟩
  · simp only [List.mem_cons] at ho
    rcases ho with rfl | rfl | ho
    · exact ⟨by omega, by omega, by omega⟩
    · exact ⟨tnsOrder_wf lw, (tnsOrder_codable lw _).mpr (by omega)⟩
    · exact opsTnsCoeffs_valid rc 0 (by omega) h.coeff o ho

theorem opsTns_valid (dt : Dt) (bw nbytes : Nat) (d : TnsData) (h : d.Valid dt bw nbytes) :
    ∀ o ∈ opsTns d, o.Valid := by
  intro o ho
  unfold opsTns at ho
  rw [List.mem_flatMap] at ho
  obtain ⟨rc, h1, h2⟩ := ho
  exact opsTnsFilter_valid dt _ rc (h.filters rc h1) o h2

theorem getTnsCoeffs_ready {F : List Nat} {rest : List Op} (rc : List Int) (i : Nat) (b r : Bits)
    (hc : ∀ c ∈ rc, -8 ≤ c ∧ c ≤ 8) (h : Ready F b r (opsTnsCoeffs i rc ++ rest)) :
    ∃ r', getTnsCoeffs rc.length i r = (rc, r') ∧ Ready F (putTnsCoeffs b i rc) r' rest := by
  induction rc generalizing i b r with
  | nil => exact ⟨r, rfl, h⟩
  | cons c l ih =>
    obtain ⟨r1, e1, h⟩ := h.sym
    obtain ⟨r2, e2, h⟩ := ih (i + 1) _ r1 (fun c' h' => hc c' (by simp [h'])) h
    have := hc c (by simp)
    refine ⟨r2, ?_, h⟩
    simp only [List.length_cons, getTnsCoeffs, e1, e2]
    rw [show (((8 + c).toNat : Int) - 8) = c by omega]

theorem getTnsFilter_ready {F : List Nat} {rest : List Op} (dt : Dt) (lw : Bool) (rc : List Int)
    (b r : Bits) (hv : TnsFilterValid dt rc) (h : Ready F b r (opsTnsFilter lw rc ++ rest)) :
    ∃ r', getTnsFilter r dt lw = (0, rc, r') ∧ Ready F (putTnsFilter b lw rc) r' rest := by
  unfold opsTnsFilter at h
  unfold getTnsFilter putTnsFilter
  by_cases hl : rc.length = 0
  · rw [if_pos hl] at h
    obtain ⟨r1, e1, h⟩ := h.bit
    have : rc = [] := List.eq_nil_of_length_eq_zero hl
    subst this
    simp only [e1]
    exact ⟨r1, rfl, h⟩
  · rw [if_neg hl] at h
    obtain ⟨r1, e1, h⟩ := h.bit
    obtain ⟨r2, e2, h⟩ := h.sym
    obtain ⟨r3, e3, h⟩ := getTnsCoeffs_ready rc 0 _ r2 hv.coeff h
    have ho := hv.order
    have e4 : ¬ (dt.idx ≤ 1 ∧ 1 + (rc.length - 1) > 4) := by
      rintro ⟨q1, q2⟩
      rw [if_pos q1] at ho
      omega
    have e5 : 1 + (rc.length - 1) = rc.length := by omega
    rw [show b2n (decide (rc.length > 0)) = 1 by rw [decide_eq_true (by omega)]; rfl]
    rw [e5] at e4
    simp only [e1, e2, if_neg hl, e5, e3, if_neg e4, if_neg (show ¬ (1 = 0) by decide)]
    exact ⟨r3, rfl, h⟩

theorem getTnsFilters_ready {F : List Nat} {rest : List Op} (dt : Dt) (lw : Bool)
    (fs : List (List Int)) (b r : Bits) (hv : ∀ rc ∈ fs, TnsFilterValid dt rc)
    (h : Ready F b r (fs.flatMap (opsTnsFilter lw) ++ rest)) :
    ∃ r', getTnsFilters fs.length r dt lw = (0, fs, r') ∧
      Ready F (fs.foldl (fun b rc => putTnsFilter b lw rc) b) r' rest := by
  induction fs generalizing b r with
  | nil => exact ⟨r, rfl, h⟩
  | cons rc l ih =>
    rw [List.flatMap_cons, List.append_assoc] at h
    obtain ⟨r1, e1, h⟩ := getTnsFilter_ready dt lw rc b r (hv rc (by simp)) h
    obtain ⟨r2, e2, h⟩ := ih _ r1 (fun rc' h' => hv rc' (by simp [h'])) h
    refine ⟨r2, ?_, h⟩
    simp only [List.length_cons, getTnsFilters, e1, e2]
    rfl

theorem getTns_ready {F : List Nat} {rest : List Op} (dt : Dt) (bw nbytes : Nat) (d : TnsData)
    (b r : Bits) (hv : d.Valid dt bw nbytes) (h : Ready F b r (opsTns d ++ rest)) :
    ∃ r', getTns r dt bw nbytes = (0, d, r') ∧ Ready F (putTns b d) r' rest := by
  obtain ⟨r1, e1, h⟩ := getTnsFilters_ready dt d.lpcWeighting d.filters b r hv.filters h
  refine ⟨r1, ?_, h⟩
  unfold getTns
  rw [← hv.weighting, ← hv.count]
  simp only [e1]

/-! ### SNS -/

/-- Number of gains of a shape, src/tables.c:4607-4621 (`lc3_sns_vq_gains`). -/
def snsGains : Nat → Nat
  | 0 => 2
  | 1 => 4
  | 2 => 4
  | _ => 8

/-- Number of pulse configurations of the first vector, for each shape: see `C19`. -/
def snsSizeA : Nat → Nat
  | 0 => 2390004
  | 1 => 2390004
  | 2 => 15158272
  | _ => 774912

/-- SNS data produced by the encoder: codebook indexes, gain index of the shape, indexes of the
pulse configurations within their number, unused fields at zero. -/
structure SnsData.Valid (d : SnsData) : Prop where
  lfcb : d.lfcb < 32
  hfcb : d.hfcb < 32
  shape : d.shape < 4
  gain : d.gain < snsGains d.shape
  idxA : d.idxA < snsSizeA d.shape
  idxB : if d.shape = 0 then d.idxB < 6 else d.idxB = 0 ∧ d.lsB = false

def opsSns (d : SnsData) : List Op :=
  [.bits d.lfcb 5, .bits d.hfcb 5, .bits (d.shape >>> 1) 1] ++
  if d.shape >>> 1 = 0 then
    [.bits (d.gain >>> (d.shape &&& 1)) 1, .bits (b2n d.lsA) 1,
     .bits ((if d.shape &&& 1 = 0 then 2 * (d.idxB + 1) + b2n d.lsB else d.gain &&& 1) * 2390004 +
       d.idxA) 25]
  else
    [.bits (d.gain >>> (d.shape &&& 1)) 2, .bits (b2n d.lsA) 1,
     .bits (if d.shape &&& 1 = 0 then d.idxA else 15158272 + 2 * d.idxA + (d.gain &&& 1)) 24]

theorem putSns_ops (b : Bits) (d : SnsData) : putSns b d = putOps b (opsSns d) := by
  unfold putSns opsSns
  by_cases h : d.shape >>> 1 = 0
  · simp only [if_pos h, List.cons_append, List.nil_append, putOps_cons, Op.put, putBit]
    simp only [putOps, List.foldl_nil]
  · simp only [if_neg h, List.cons_append, List.nil_append, putOps_cons, Op.put, putBit]
    simp only [putOps, List.foldl_nil]

theorem opsSns_valid (d : SnsData) (h : d.Valid) : ∀ o ∈ opsSns d, o.Valid := by
  obtain ⟨h1, h2, h3, h4, h5, h6⟩ := h
  obtain ⟨lfcb, hfcb, shape, gain, idxA, lsA, idxB, lsB⟩ := d
  have hA := b2n_lt lsA
  have hB := b2n_lt lsB
  dsimp only at *
  have hg1 : gain &&& 1 = gain % 2 := Nat.and_one_is_mod _
  have hs : shape = 0 ∨ shape = 1 ∨ shape = 2 ∨ shape = 3 := by omega
  intro o ho
  rcases hs with rfl | rfl | rfl | rfl <;>
  · simp [opsSns] at ho
    simp at h6
    simp [snsGains] at h4
    simp [snsSizeA] at h5
    rcases ho with rfl | rfl | rfl | rfl | rfl | rfl <;>
      refine ⟨by omega, by omega, ?_⟩ <;>
      (try simp only [Nat.shiftRight_eq_div_pow] at *) <;> omega

theorem getSns_ready {F : List Nat} {rest : List Op} (d : SnsData) (b r : Bits) (hv : d.Valid)
    (h : Ready F b r (opsSns d ++ rest)) :
    ∃ r', getSns r = (0, d, r') ∧ Ready F (putSns b d) r' rest := by
  obtain ⟨h1, h2, h3, h4, h5, h6⟩ := hv
  obtain ⟨lfcb, hfcb, shape, gain, idxA, lsA, idxB, lsB⟩ := d
  have hB := b2n_lt lsB
  have hB' := b2n_ne lsB
  dsimp only at *
  have hs : shape = 0 ∨ shape = 1 ∨ shape = 2 ∨ shape = 3 := by omega
  have hg1 : gain &&& 1 = gain % 2 := Nat.and_one_is_mod _
  have c0 : ∀ x : Nat, x >>> 0 = x := fun _ => rfl
  have c1 : gain >>> 1 = gain / 2 := Nat.shiftRight_eq_div_pow _ _
  rcases hs with rfl | rfl | rfl | rfl
  · replace h4 : gain < 2 := h4
    replace h5 : idxA < 2390004 := h5
    simp only [if_true] at h6
    simp only [opsSns, show (0 : Nat) >>> 1 = 0 from rfl, show 0 &&& 1 = 0 from rfl, if_true, c0,
      List.cons_append, List.nil_append] at h
    simp only [putSns, show (0 : Nat) >>> 1 = 0 from rfl, show 0 &&& 1 = 0 from rfl, if_true, c0]
    generalize hm : (2 * (idxB + 1) + b2n lsB) * 2390004 + idxA = mux at *
    obtain ⟨r1, e1, h⟩ := h.bits
    obtain ⟨r2, e2, h⟩ := h.bits
    obtain ⟨r3, e3, h⟩ := h.bits
    obtain ⟨r4, e4, h⟩ := h.bits
    obtain ⟨r5, e5, h⟩ := h.bits
    obtain ⟨r6, e6, h⟩ := h.bits
    refine ⟨r6, ?_, h⟩
    have m1 : mux % 2390004 = idxA := by omega
    have m2 : mux / 2390004 = 2 * (idxB + 1) + b2n lsB := by omega
    unfold getSns
    simp only [getBit, e1, e2, e3, e4, e5, e6, Nat.add_zero, Nat.sub_zero, if_true, b2n_ne, m1, m2,
      if_neg (show ¬ mux ≥ 2390004 * 14 by omega),
      decide_eq_false (show ¬ 2 * (idxB + 1) + b2n lsB < 2 by omega), show b2n false = 0 from rfl]
    rw [show (2 * (idxB + 1) + b2n lsB - 2) / 2 = idxB by omega,
      show (2 * (idxB + 1) + b2n lsB - 2) % 2 = b2n lsB by omega, hB']
  · replace h4 : gain < 4 := h4
    replace h5 : idxA < 2390004 := h5
    simp only [if_neg (show ¬ (1 = 0) by decide)] at h6
    simp only [opsSns, show (1 : Nat) >>> 1 = 0 from rfl, show 1 &&& 1 = 1 from rfl, if_true,
      if_neg (show ¬ (1 = 0) by decide), c1, hg1, List.cons_append, List.nil_append] at h
    simp only [putSns, show (1 : Nat) >>> 1 = 0 from rfl, show 1 &&& 1 = 1 from rfl, if_true,
      if_neg (show ¬ (1 = 0) by decide), c1, hg1]
    generalize hm : (gain % 2) * 2390004 + idxA = mux at *
    obtain ⟨r1, e1, h⟩ := h.bits
    obtain ⟨r2, e2, h⟩ := h.bits
    obtain ⟨r3, e3, h⟩ := h.bits
    obtain ⟨r4, e4, h⟩ := h.bits
    obtain ⟨r5, e5, h⟩ := h.bits
    obtain ⟨r6, e6, h⟩ := h.bits
    refine ⟨r6, ?_, h⟩
    have m1 : mux % 2390004 = idxA := by omega
    have m2 : mux / 2390004 = gain % 2 := by omega
    unfold getSns
    simp only [getBit, e1, e2, e3, e4, e5, e6, Nat.add_zero, Nat.sub_zero, if_true, b2n_ne, m1, m2,
      if_neg (show ¬ mux ≥ 2390004 * 14 by omega), decide_eq_true (show gain % 2 < 2 by omega),
      show b2n true = 1 from rfl, if_neg (show ¬ (1 = 0) by decide)]
    rw [show (gain / 2) <<< 1 + gain % 2 % 2 = gain by rw [Nat.shiftLeft_eq]; omega, h6.1, h6.2]
  · replace h4 : gain < 4 := h4
    replace h5 : idxA < 15158272 := h5
    simp only [if_neg (show ¬ (2 = 0) by decide)] at h6
    simp only [opsSns, show (2 : Nat) >>> 1 = 1 from rfl, show 2 &&& 1 = 0 from rfl, if_true, c0,
      if_neg (show ¬ (1 = 0) by decide), List.cons_append, List.nil_append] at h
    simp only [putSns, show (2 : Nat) >>> 1 = 1 from rfl, show 2 &&& 1 = 0 from rfl, if_true, c0,
      if_neg (show ¬ (1 = 0) by decide)]
    obtain ⟨r1, e1, h⟩ := h.bits
    obtain ⟨r2, e2, h⟩ := h.bits
    obtain ⟨r3, e3, h⟩ := h.bits
    obtain ⟨r4, e4, h⟩ := h.bits
    obtain ⟨r5, e5, h⟩ := h.bits
    obtain ⟨r6, e6, h⟩ := h.bits
    refine ⟨r6, ?_, h⟩
    unfold getSns
    simp only [getBit, e1, e2, e3, e4, e5, e6, show 1 + 1 = 2 from rfl, show 25 - 1 = 24 from rfl,
      if_neg (show ¬ (1 = 0) by decide), b2n_ne,
      if_neg (show ¬ idxA ≥ 15158272 + 1549824 by omega),
      decide_eq_false (show ¬ idxA ≥ 15158272 by omega),
      show b2n false = 0 from rfl, show 2 + 0 = 2 from rfl, if_true]
    rw [h6.1, h6.2]
  · replace h4 : gain < 8 := h4
    replace h5 : idxA < 774912 := h5
    simp only [if_neg (show ¬ (3 = 0) by decide)] at h6
    simp only [opsSns, show (3 : Nat) >>> 1 = 1 from rfl, show 3 &&& 1 = 1 from rfl,
      if_neg (show ¬ (1 = 0) by decide), c1, hg1, List.cons_append, List.nil_append] at h
    simp only [putSns, show (3 : Nat) >>> 1 = 1 from rfl, show 3 &&& 1 = 1 from rfl,
      if_neg (show ¬ (1 = 0) by decide), c1, hg1]
    generalize hm : 15158272 + 2 * idxA + gain % 2 = mux at *
    obtain ⟨r1, e1, h⟩ := h.bits
    obtain ⟨r2, e2, h⟩ := h.bits
    obtain ⟨r3, e3, h⟩ := h.bits
    obtain ⟨r4, e4, h⟩ := h.bits
    obtain ⟨r5, e5, h⟩ := h.bits
    obtain ⟨r6, e6, h⟩ := h.bits
    refine ⟨r6, ?_, h⟩
    unfold getSns
    simp only [getBit, e1, e2, e3, e4, e5, e6, show 1 + 1 = 2 from rfl, show 25 - 1 = 24 from rfl,
      if_neg (show ¬ (1 = 0) by decide), b2n_ne,
      if_neg (show ¬ mux ≥ 15158272 + 1549824 by omega),
      decide_eq_true (show mux ≥ 15158272 by omega),
      show b2n true = 1 from rfl, show 2 + 1 = 3 from rfl, if_neg (show ¬ (3 = 2) by decide)]
    rw [show (mux - 15158272) % 2 = gain % 2 by omega, show (mux - 15158272) / 2 = idxA by omega,
      show (gain / 2) <<< 1 + gain % 2 = gain by rw [Nat.shiftLeft_eq]; omega, h6.1, h6.2]

/-! ### LTPF -/

def opsLtpf (d : LtpfData) : List Op := [.bits (b2n d.active) 1, .bits d.pitchIndex 9]

theorem putLtpf_ops (b : Bits) (d : LtpfData) : putLtpf b d = putOps b (opsLtpf d) := rfl

theorem opsLtpf_valid (d : LtpfData) (h : d.pitchIndex < 512) : ∀ o ∈ opsLtpf d, o.Valid := by
  intro o ho
  have := b2n_lt d.active
  simp only [opsLtpf, List.mem_cons, List.not_mem_nil, or_false] at ho
  rcases ho with rfl | rfl <;> refine ⟨by omega, by omega, by omega⟩

theorem getLtpf_ready {F : List Nat} {rest : List Op} (d : LtpfData) (b r : Bits)
    (h : Ready F b r (opsLtpf d ++ rest)) :
    ∃ r', getLtpf r = (d, r') ∧ Ready F (putLtpf b d) r' rest := by
  obtain ⟨r1, e1, h⟩ := h.bits
  obtain ⟨r2, e2, h⟩ := h.bits
  refine ⟨r2, ?_, h⟩
  simp only [getLtpf, getBit, e1, e2, b2n_ne]

end LC3
