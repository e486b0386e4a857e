/-
Model of the side information of a frame: writing and reading of the bandwidth (`src/bwdet.c`), of
the spectrum side data (`src/spec.c`), of the TNS (`src/tns.c`), SNS (`src/sns.c`) and LTPF
(`src/ltpf.c`) parameters.

Conventions.
* Reading functions return the C return value (`0` or `-1`), the data, and the bitstream.
* `int` fields that are never negative are natural numbers, `bool` fields are `Bool`.
-/
import Verif.Model.Tables

namespace LC3

/-- Conversion of a `bool`. -/
def b2n (b : Bool) : Nat := if b then 1 else 0

/-! ### Bandwidth, `src/bwdet.c` -/

/-- `lc3_bwdet_get_nbits`, src/bwdet.c:125-128. -/
def bwNbits (sr : Srate) : Nat :=
  if sr.hr then 0
  else b2n (decide (sr.idx > 0)) + b2n (decide (sr.idx > 1)) + b2n (decide (sr.idx > 3))

/-- `lc3_bwdet_put_bw`, src/bwdet.c:133-139. `enum lc3_bandwidth` is its numerical value. -/
def putBw (b : Bits) (sr : Srate) (bw : Nat) : Bits :=
  if bwNbits sr > 0 then putBits b bw (bwNbits sr) else b

/-- `lc3_bwdet_get_bw`, src/bwdet.c:144-154. -/
def getBw (r : Bits) (sr : Srate) : Int × Nat × Bits :=
  let maxBw := sr.idx
  let (bw, r) := if bwNbits sr ≤ 0 then (maxBw, r) else getBits r (bwNbits sr)
  if bw > maxBw then (-1, maxBw, r) else (0, bw, r)

/-! ### Spectrum side data, `src/spec.c` -/

/-- `struct lc3_spec_side`, src/spec.h:33-36. -/
structure SpecSide where
  gIdx : Nat
  nq : Nat
  lsbMode : Bool
  deriving DecidableEq, Repr, Inhabited

/-- `get_nbits_nq`, src/spec.c:800-804. -/
def nbitsNq (dt : Dt) (sr : Srate) : Nat :=
  4 + b2n (decide (ne dt sr > 32)) + b2n (decide (ne dt sr > 64)) + b2n (decide (ne dt sr > 128)) +
    b2n (decide (ne dt sr > 256)) + b2n (decide (ne dt sr > 512))

/-- `lc3_spec_put_side`, src/spec.c:873-882. -/
def putSide (b : Bits) (dt : Dt) (sr : Srate) (side : SpecSide) : Bits :=
  let b := putBits b (max (side.nq >>> 1) 1 - 1) (nbitsNq dt sr)
  let b := putBits b (b2n side.lsbMode) 1
  putBits b side.gIdx 8

/-- `lc3_spec_get_side`, src/spec.c:914-925. -/
def getSide (r : Bits) (dt : Dt) (sr : Srate) : Int × SpecSide × Bits :=
  let (v, r) := getBits r (nbitsNq dt sr)
  let nq := (v + 1) <<< 1
  let (lsb, r) := getBit r
  let (gIdx, r) := getBits r 8
  if nq > ne dt sr then (-1, ⟨gIdx, ne dt sr, decide (lsb ≠ 0)⟩, r)
  else (0, ⟨gIdx, nq, decide (lsb ≠ 0)⟩, r)

/-! ### TNS, `src/tns.c` -/

/-- `struct lc3_tns_data`, src/tns.h:30-35. A filter is the list of its `rc_order` quantised
coefficients (the other cells of `rc[f]` are not used); `nfilters` is the number of filters. -/
structure TnsData where
  lpcWeighting : Bool
  filters : List (List Int)
  deriving DecidableEq, Repr, Inhabited

/-- `resolve_lpc_weighting`, src/tns.c:32-35. -/
def resolveLpcWeighting (dt : Dt) (nbytes : Nat) : Bool := decide (nbytes * 8 < 120 * (1 + dt.idx))

/-- `LC3_BANDWIDTH_SWB`, src/common.h:118-129. -/
def bwSwb : Nat := 3

/-- Number of TNS filters, src/tns.c:124, 305, 347, 401, 490. -/
def tnsNfilters (dt : Dt) (bw : Nat) : Nat := 1 + b2n (decide (dt.idx ≥ 1) && decide (bw ≥ bwSwb))

def tnsOrderModel (lpcWeighting : Bool) : AcModel := tnsOrderModels.getD (b2n lpcWeighting) []
def tnsCoeffsModel (i : Nat) : AcModel := tnsCoeffsModels.getD i []

/-- Loop on the coefficients of `lc3_tns_put_data`, src/tns.c:478-480, from index `i`. -/
def putTnsCoeffs (b : Bits) : Nat → List Int → Bits
  | _, [] => b
  | i, c :: l => putTnsCoeffs (putSymbol b (tnsCoeffsModel i) (8 + c).toNat) (i + 1) l

/-- One iteration of `lc3_tns_put_data`, src/tns.c:468-481. -/
def putTnsFilter (b : Bits) (lpcWeighting : Bool) (rc : List Int) : Bits :=
  let b := putBits b (b2n (decide (rc.length > 0))) 1
  if rc.length = 0 then b else
  let b := putSymbol b (tnsOrderModel lpcWeighting) (rc.length - 1)
  putTnsCoeffs b 0 rc

/-- `lc3_tns_put_data`, src/tns.c:466-482. -/
def putTns (b : Bits) (d : TnsData) : Bits :=
  d.filters.foldl (fun b rc => putTnsFilter b d.lpcWeighting rc) b

/-- Loop on the coefficients of `lc3_tns_get_data`, src/tns.c:504-506: `n` remain from index `i`. -/
def getTnsCoeffs : Nat → Nat → Bits → List Int × Bits
  | 0, _, r => ([], r)
  | n + 1, i, r =>
    let (s, r) := getSymbol r (tnsCoeffsModel i)
    let (l, r) := getTnsCoeffs n (i + 1) r
    (((s : Int) - 8) :: l, r)

/-- One iteration of `lc3_tns_get_data`, src/tns.c:493-507. -/
def getTnsFilter (r : Bits) (dt : Dt) (lpcWeighting : Bool) : Int × List Int × Bits :=
  let (f, r) := getBit r
  if f = 0 then (0, [], r) else
  let (s, r) := getSymbol r (tnsOrderModel lpcWeighting)
  let order := f + s
  if dt.idx ≤ 1 ∧ order > 4 then (-1, [], r) else
  let (l, r) := getTnsCoeffs order 0 r
  (0, l, r)

/-- Loop of `lc3_tns_get_data`, src/tns.c:493-507, on `n` filters. -/
def getTnsFilters : Nat → Bits → Dt → Bool → Int × List (List Int) × Bits
  | 0, r, _, _ => (0, [], r)
  | n + 1, r, dt, lw =>
    let (ret, rc, r) := getTnsFilter r dt lw
    if ret < 0 then (ret, [rc], r) else
    let (ret, l, r) := getTnsFilters n r dt lw
    (ret, rc :: l, r)

/-- `lc3_tns_get_data`, src/tns.c:487-510. -/
def getTns (r : Bits) (dt : Dt) (bw nbytes : Nat) : Int × TnsData × Bits :=
  let lw := resolveLpcWeighting dt nbytes
  let (ret, l, r) := getTnsFilters (tnsNfilters dt bw) r dt lw
  (ret, ⟨lw, l⟩, r)

/-! ### SNS, `src/sns.c` -/

/-- `struct lc3_sns_data`, src/sns.h:30-35. -/
structure SnsData where
  lfcb : Nat
  hfcb : Nat
  shape : Nat
  gain : Nat
  idxA : Nat
  lsA : Bool
  idxB : Nat
  lsB : Bool
  deriving DecidableEq, Repr, Inhabited

/-- `lc3_sns_put_data`, src/sns.c:835-872. -/
def putSns (b : Bits) (d : SnsData) : Bits :=
  let b := putBits b d.lfcb 5
  let b := putBits b d.hfcb 5
  let shapeMsb := d.shape >>> 1
  let b := putBit b shapeMsb
  let submode := d.shape &&& 1
  if shapeMsb = 0 then
    let muxHigh := if submode = 0 then 2 * (d.idxB + 1) + b2n d.lsB else d.gain &&& 1
    let muxCode := muxHigh * 2390004 + d.idxA
    let b := putBits b (d.gain >>> submode) 1
    let b := putBits b (b2n d.lsA) 1
    putBits b muxCode 25
  else
    let muxCode := if submode = 0 then d.idxA else 15158272 + 2 * d.idxA + (d.gain &&& 1)
    let b := putBits b (d.gain >>> submode) 2
    let b := putBits b (b2n d.lsA) 1
    putBits b muxCode 24

/-- `lc3_sns_get_data`, src/sns.c:877-929. Fields not set by the function are zero
(src/sns.c:881-884). -/
def getSns (r : Bits) : Int × SnsData × Bits :=
  let (lfcb, r) := getBits r 5
  let (hfcb, r) := getBits r 5
  let (shapeMsb, r) := getBit r
  let (gain, r) := getBits r (1 + shapeMsb)
  let (lsA, r) := getBit r
  let (muxCode, r) := getBits r (25 - shapeMsb)
  let lsA := decide (lsA ≠ 0)
  if shapeMsb = 0 then
    if muxCode ≥ 2390004 * 14 then (-1, ⟨lfcb, hfcb, 0, gain, 0, lsA, 0, false⟩, r) else
    let idxA := muxCode % 2390004
    let muxCode := muxCode / 2390004
    let shape := b2n (decide (muxCode < 2))
    if shape = 0 then
      (0, ⟨lfcb, hfcb, shape, gain, idxA, lsA, (muxCode - 2) / 2, decide ((muxCode - 2) % 2 ≠ 0)⟩, r)
    else
      (0, ⟨lfcb, hfcb, shape, (gain <<< 1) + muxCode % 2, idxA, lsA, 0, false⟩, r)
  else
    if muxCode ≥ 15158272 + 1549824 then (-1, ⟨lfcb, hfcb, 0, gain, 0, lsA, 0, false⟩, r) else
    let shape := 2 + b2n (decide (muxCode ≥ 15158272))
    if shape = 2 then
      (0, ⟨lfcb, hfcb, shape, gain, muxCode, lsA, 0, false⟩, r)
    else
      let muxCode := muxCode - 15158272
      (0, ⟨lfcb, hfcb, shape, (gain <<< 1) + muxCode % 2, muxCode / 2, lsA, 0, false⟩, r)

/-! ### LTPF, `src/ltpf.c` -/

/-- `struct lc3_ltpf_data`, src/ltpf.h:30-33. -/
structure LtpfData where
  active : Bool
  pitchIndex : Nat
  deriving DecidableEq, Repr, Inhabited

/-- `lc3_ltpf_put_data`, src/ltpf.c:949-954. -/
def putLtpf (b : Bits) (d : LtpfData) : Bits :=
  putBits (putBit b (b2n d.active)) d.pitchIndex 9

/-- `lc3_ltpf_get_data`, src/ltpf.c:959-964. -/
def getLtpf (r : Bits) : LtpfData × Bits :=
  let (a, r) := getBit r
  let (p, r) := getBits r 9
  (⟨decide (a ≠ 0), p⟩, r)

/-! ### Side information of a frame, `src/lc3.c` -/

/-- `struct side_data`, src/lc3.c:39-46. -/
structure SideData where
  bw : Nat
  spec : SpecSide
  tns : TnsData
  pitchPresent : Bool
  sns : SnsData
  ltpf : LtpfData
  deriving DecidableEq, Repr, Inhabited

/-- The side information written by `encode`, src/lc3.c:350-361. -/
def putSideData (b : Bits) (dt : Dt) (sr : Srate) (d : SideData) : Bits :=
  let b := putBw b sr d.bw
  let b := putSide b dt sr d.spec
  let b := putTns b d.tns
  let b := putBit b (b2n d.pitchPresent)
  let b := putSns b d.sns
  if d.pitchPresent then putLtpf b d.ltpf else b

/-- The side information read by `decode`, src/lc3.c:586-601: `none` on error. The structure
`side` is not initialised: when there is no pitch, `ltpf` is left undetermined, `junk` here. -/
def getSideData (r : Bits) (dt : Dt) (sr : Srate) (nbytes : Nat) (junk : LtpfData) :
    Option SideData × Bits :=
  let (ret, bw, r) := getBw r sr
  if ret < 0 then (none, r) else
  let (ret, spec, r) := getSide r dt sr
  if ret < 0 then (none, r) else
  let (ret, tns, r) := getTns r dt bw nbytes
  if ret < 0 then (none, r) else
  let (pitch, r) := getBit r
  let (ret, sns, r) := getSns r
  if ret < 0 then (none, r) else
  let (ltpf, r) := if pitch ≠ 0 then getLtpf r else (junk, r)
  (some ⟨bw, spec, tns, decide (pitch ≠ 0), sns, ltpf⟩, r)

end LC3
