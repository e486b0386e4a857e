import Verif.Model.Spec
import Verif.Model.Frame

/-!
Model of `src/spec.c`: gain estimation, bit consumption and rate control (`lc3_spec_analyze`), with
the consumption of the TNS data (`src/tns.c`) and the integer logarithm of `src/fastmath.h`.
-/

namespace LC3

/-! ### Bit consumption -/

/-- `lc3_spectrum_bits[lut[k]][s]`. -/
def specBits (lut : List Nat) (k s : Nat) : Nat := (spectrumBits.getD (lut.getD k 64) []).getD s 0

/-- The loop of escapes of `compute_nbits`, src/spec.c:374-375: the bits (1/2048) and the final `k`.
`m` is an `uint32_t`: 32 iterations are enough. -/
def rateEsc (lut : List Nat) : Nat → Nat → Nat → Nat × Nat
  | 0, _, k => (0, k)
  | f + 1, m, k =>
    if m = 0 then (0, k) else
    let w := rateEsc lut f (m >>> 1) (k + 1)
    (specBits lut (min k 3) 16 + w.1, w.2)

/-- Consumption of a pair of magnitudes `a` and `b`. -/
structure PairRate where
  /-- added to `nbits` -/
  nbits : Int
  /-- added to `nbits_lsb` -/
  lsb : Nat
  /-- `k`, `a` and `b` used by the update of the state -/
  k : Nat
  a : Nat
  b : Nat
  /-- `s` -/
  s : Nat
  deriving DecidableEq, Repr, Inhabited

/-- The consumption of a pair, src/spec.c:345-386. -/
def ratePair (lut : List Nat) (lsb : Bool) (a b : Nat) : PairRate :=
  let s := b2n (decide (a ≠ 0)) + b2n (decide (b ≠ 0))
  let m := (a ||| b) >>> 2
  if m = 0 then
    ⟨2048 * (s : Int) + (specBits lut 0 (a + 4 * b) : Nat), 0, 0, a, b, s⟩
  else
    let n0 : Int := if lsb then (specBits lut 0 16 : Nat) - 2 * 2048 else 0
    let nl := if lsb then 2 + b2n (decide (a = 1)) + b2n (decide (b = 1)) else 0
    let w := rateEsc lut 32 (m >>> b2n lsb) (b2n lsb)
    let a := a >>> w.2
    let b := b >>> w.2
    let k := min w.2 3
    ⟨2048 * (s : Int) + n0 + (w.1 : Nat) + 2 * 2048 * (w.2 : Nat) + (specBits lut k (a + 4 * b) : Nat),
      nl, k, a, b, s⟩

/-- The variables of the loop of `compute_nbits`, src/spec.c:329-335. -/
structure RateSt where
  nbits : Int := 0
  lsb : Nat := 0
  state : Nat := 0
  nbitsEnd : Int := 0
  nEnd : Nat := 0
  deriving DecidableEq, Repr, Inhabited

/-- An iteration of the loop of `compute_nbits`, src/spec.c:345-394. -/
def rateStep (hrate lsb : Bool) (ne : Nat) (lim : Int) (i : Nat) (st : RateSt) (a b : Nat) : RateSt :=
  let w := ratePair (lutOf hrate ne i st.state) lsb a b
  let nbits := st.nbits + w.nbits
  let acc := decide (w.s ≠ 0) && decide (nbits ≤ lim)
  { nbits := nbits
    lsb := st.lsb + w.lsb
    state := nextState st.state w.k w.a w.b
    nbitsEnd := if acc then nbits else st.nbitsEnd
    nEnd := if acc then i + 2 else st.nEnd }

/-- The loop of `compute_nbits`, src/spec.c:339-395, on the magnitudes of index lower than `*n`, from
the index `i`. -/
def rateLoop (hrate lsb : Bool) (ne : Nat) (lim : Int) : Nat → RateSt → List Nat → RateSt
  | i, st, a :: b :: l =>
    if st.nbits ≤ lim then rateLoop hrate lsb ne lim (i + 2) (rateStep hrate lsb ne lim i st a b) l
    else st
  | _, st, _ => st

/-- Result of `compute_nbits`: `*n`, `*p_lsb_mode` and the return value. -/
structure Rate where
  n : Nat
  lsbMode : Bool
  nbits : Int
  deriving DecidableEq, Repr, Inhabited

/-- `compute_nbits`, src/spec.c:321-409, on the magnitudes of the coefficients of index lower than `*n`
(an even number). The additions of `int` are exact: `C38_no_overflow`. -/
def computeNbits (dt : Dt) (sr : Srate) (nbytes : Nat) (mags : List Nat) (budget : Int) : Rate :=
  let lsb := lsbAllowed sr nbytes
  let lim : Int := if budget ≠ 0 then budget * 2048 else 2147483647
  let st := rateLoop (highRate sr nbytes) lsb (ne dt sr) lim 0 {} mags
  let nbitsEnd := if lim ≥ 2147483647 then st.nbitsEnd + 2048 * (st.lsb : Int) else st.nbitsEnd
  { n := st.nEnd
    lsbMode := lsb && decide (st.nbitsEnd + 2048 * (st.lsb : Int) > lim)
    nbits := (nbitsEnd + 2047) / 2048 }

/-! ### Budget -/

/-- `get_nbits_ac`, src/spec.c:811-815. -/
def nbitsAc (dt : Dt) (sr : Srate) (nbytes : Nat) : Nat :=
  nbitsNq dt sr + 3 + b2n sr.hr + min ((nbytes - 1) / 160) 2

/-- The consumption of the coefficients of a filter, src/tns.c:454-455, from index `i`. -/
def tnsCoeffsCost : Nat → List Int → Nat
  | _, [] => 0
  | i, c :: l => (tnsCoeffsBits.getD i []).getD (8 + c).toNat 0 + tnsCoeffsCost (i + 1) l

/-- The consumption of a filter, src/tns.c:448-457. -/
def tnsFilterBits (wt : Bool) (rc : List Int) : Nat :=
  (2048 + (if rc.length > 0 then (tnsOrderBits.getD (b2n wt) []).getD (rc.length - 1) 0 else 0) +
    tnsCoeffsCost 0 rc + 2047) >>> 11

/-- `lc3_tns_get_nbits`, src/tns.c:442-461. -/
def tnsNbits (d : TnsData) : Nat := (d.filters.map (tnsFilterBits d.lpcWeighting)).sum

/-- `nbits_budget` of `lc3_spec_analyze`, src/spec.c:833-835, with `lc3_ltpf_get_nbits`
(src/ltpf.c:941-944), `lc3_sns_get_nbits` (src/sns.c:827-830) and `lc3_bwdet_get_nbits` (src/bwdet.c:125-128). -/
def specBudget (dt : Dt) (sr : Srate) (nbytes : Nat) (pitch : Bool) (tns : TnsData) : Int :=
  8 * (nbytes : Int) - nbitsAc dt sr nbytes - bwNbits sr - (1 + 10 * b2n pitch) - 38 -
    tnsNbits tns - 8 - 3

end LC3
