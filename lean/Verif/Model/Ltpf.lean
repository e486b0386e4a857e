import Verif.Model.LtpfTables
import Verif.Model.Syntax
import Verif.Model.Arith

/-
Model of the long term postfilter, `src/ltpf.c`.

* `int16_t` / `int32_t` / `int64_t` values are `Int`, with checks of the overflows: `none` is an overflow
  of a signed addition or multiplication, or an access out of an array.
* Conversions to a smaller type wrap, as all the supported compilers do.
* Floating point operations are an arbitrary implementation `A : Arith R`; `sqrtf` is an arbitrary function.
* The loops on `k` of `synthesize_template` update each cell of `u` at most once: one pass with the cell updated by the
  first then by the second loop.
* The generic code is modelled, not the Neon/Arm variants.
-/

namespace LC3

/-- Conversion to `int32_t`. -/
def toI32 (v : Int) : Int := (v + 2147483648) % 4294967296 - 2147483648

/-- Conversion to `int16_t`. -/
def toI16 (v : Int) : Int := (v + 32768) % 65536 - 32768

/-- `n` cells of an array, from the position `base - back`. -/
def slice? {α : Type} (l : List α) (base back n : Nat) : Option (List α) :=
  if back ≤ base ∧ base - back + n ≤ l.length then some ((l.drop (base - back)).take n) else none

/-! ### Resampling -/

/-- `struct lc3_ltpf_hp50_state`, include/lc3_private.h:95-97. -/
structure Hp50 where
  s1 : Int
  s2 : Int
  deriving DecidableEq, Repr, Inhabited

/-- `filter_hp50`, src/ltpf.c:184-197; the right shift rounds down. -/
def filterHp50 (h : Hp50) (xn : Int) : Option (Int × Hp50) := do
  let a1 : Int := -2110217691
  let a2 : Int := 1037111617
  let b1 : Int := -2110535566
  let b2 : Int := 1055267782
  let v ← i64 (h.s1 + xn * b2)
  let yn := toI32 (v / 1073741824)
  let t ← i64 (h.s2 + xn * b1)
  let s1 ← i64 (t - yn * a1)
  let s2 ← i64 (xn * b2 - yn * a2)
  return (yn, ⟨s1, s2⟩)

/-- `un += *(xn++) * *(hn++)`, src/ltpf.c:225-236, 270-286, in `int32_t`. -/
def accumulate : Int → List Int → List Int → Option Int
  | un, x :: xs, h :: hs => do
    let p ← i32 (x * h)
    let un ← i32 (un + p)
    accumulate un xs hs
  | un, _, _ => some un

/-- Parameters of a resampler: increment (5 or 15), factor `p`, width `w`, and coefficients. -/
structure Resampler where
  inc : Nat
  p : Nat
  w : Nat
  h : List Int

/-- `resample_12k8`, with `resample_8k_12k8` to `resample_96k_12k8`, src/ltpf.c:303-387, 413-423: `w` is `2*(40 / p)`
(src/ltpf.c:216) or `2*(120 / p)` (src/ltpf.c:261). -/
def resampler : Srate → Resampler
  | .k8 => ⟨5, 8, 2 * (40 / 8), h8k⟩
  | .k16 => ⟨5, 4, 2 * (40 / 4), h16k⟩
  | .k24 => ⟨15, 8, 2 * (120 / 8), h24k⟩
  | .k32 => ⟨5, 2, 2 * (40 / 2), h32k⟩
  | .k48 => ⟨15, 4, 2 * (120 / 4), h48k⟩
  | .k48hr => ⟨15, 4, 2 * (120 / 4), h48k⟩
  | .k96hr => ⟨15, 2, 2 * (120 / 2), h96k⟩

/-- Accumulation of the output sample `n`, src/ltpf.c:220-236, 265-286: `buf` is the array of samples, `x` points to
the cell `base`. -/
def resampleAcc (r : Resampler) (buf : List Int) (base n : Nat) : Option Int := do
  let i := r.inc * n
  let hn ← slice? r.h (i % r.p * r.w) 0 r.w
  let xn ← slice? buf (base + i / r.p) (r.w - 1) r.w
  accumulate 0 xn hn

/-- `resample_x64k_12k8`, `resample_x192k_12k8`, src/ltpf.c:213-241, 258-291, for `k` samples
from the `n`-th. -/
def resample (r : Resampler) (buf : List Int) (base : Nat) : Nat → Nat → Hp50 → Option (List Int × Hp50)
  | 0, _, hp => some ([], hp)
  | k + 1, n, hp => do
    let un ← resampleAcc r buf base n
    let (yn, hp) ← filterHp50 hp un
    let v ← i32 (yn + 32768)
    let (l, hp) ← resample r buf base k (n + 1) hp
    return (toI16 (v / 65536) :: l, hp)

/-- `resample_6k4`, src/ltpf.c:398-406, for `k` samples from the `n`-th; `x` points to the cell `base`. -/
def resample6k4 (buf : List Int) (base : Nat) : Nat → Nat → Option (List Int)
  | 0, _ => some []
  | k + 1, n => do
    let w ← slice? buf (base + 2 * n) 3 5
    match w with
    | [a, b, c, d, e] => do
      let t0 ← i32 (c * 18477)
      let t1 ← i32 ((b + d) * 15424)
      let t2 ← i32 ((a + e) * 8105)
      let s ← i32 (t0 + t1)
      let s ← i32 (s + t2)
      let l ← resample6k4 buf base k (n + 1)
      return toI16 (s / 65536) :: l
    | _ => none

/-! ### Analysis -/

section
variable {R : Type} (A : Arith R) (sqrtf : R → R)

/-- `dot`, src/ltpf.c:438-448: the sum is in `int64_t`, then reduced to `int32_t`. -/
def dotI (a b : List Int) : R :=
  A.ofInt (toI32 (((List.zipWith (· * ·) a b).sum + 32) / 64))

/-- `correlate`, src/ltpf.c:460-465: `nc` values from the lag `lag`; `x` points to the cell `base` of
`buf`. -/
def correlate (buf : List Int) (base n lag : Nat) : Nat → Option (List R)
  | 0 => some []
  | nc + 1 => do
    let a ← slice? buf base 0 n
    let b ← slice? buf base lag n
    let l ← correlate buf base n (lag + 1) nc
    return dotI A a b :: l

/-- `argmax`, src/ltpf.c:474-484: position and value. The position of the first value of the list is `i`. -/
def argmaxFrom : Nat → Nat → R → List R → Nat × R
  | _, arg, m, [] => (arg, m)
  | i, arg, m, v :: l => if A.lt m v then argmaxFrom (i + 1) i v l else argmaxFrom (i + 1) arg m l

/-- `argmax`. -/
def argmax : List R → Option (Nat × R)
  | [] => none
  | v :: l => some (argmaxFrom A 1 0 v l)

/-- Loop of `argmax_weighted`, src/ltpf.c:501-503: position, value, with the weighted value `xw` and the weight. -/
def argmaxWFrom (incr : R) : Nat → Nat → R → R → R → List R → Nat × R
  | _, arg, m, _, _, [] => (arg, m)
  | i, arg, m, xw, w, v :: l =>
    if A.lt xw (A.mul v w) then argmaxWFrom incr (i + 1) i v (A.mul v w) (A.add w incr) l
    else argmaxWFrom incr (i + 1) arg m xw (A.add w incr) l

/-- `argmax_weighted`, src/ltpf.c:493-506. -/
def argmaxW (incr : R) : List R → Option (Nat × R)
  | [] => none
  | v :: l => some (argmaxWFrom A incr 1 0 v v (A.add (A.ofInt 1) incr) l)

/-- Normalized correlation, src/ltpf.c:600-604: `rm <= 0 ? 0 : rm / sqrtf(d * d1)`. -/
def normCorr (rm d d1 : R) : R :=
  if A.le rm (A.ofInt 0) then A.ofInt 0 else A.div rm (sqrtf (A.mul d d1))

/-- `detect_pitch`, src/ltpf.c:582-611: pitch present, lag `tc`, and the new `ltpf->tc`. `x` points to the
cell `base` of `buf`. -/
def detectPitch (buf : List Int) (base n tc : Nat) : Option (Bool × Nat × Nat) := do
  let k0 := max 0 (tc - 4)
  let nk := min (98 - 1) (tc + 4) - k0 + 1
  let r ← correlate A buf base n 17 98
  let (t1, rm1) ← argmaxW A (A.ofRat (-(1 / 2) / 97)) r
  let rk ← slice? r k0 0 nk
  let (t2, rm2) ← argmax A rk
  let t2 := k0 + t2
  let x ← slice? buf base 0 n
  let x1 ← slice? buf base (17 + t1) n
  let x2 ← slice? buf base (17 + t2) n
  let nc1 := normCorr A sqrtf rm1 (dotI A x x) (dotI A x1 x1)
  let nc2 := normCorr A sqrtf rm2 (dotI A x x) (dotI A x2 x2)
  let t1sel := A.le nc2 (A.mul (A.ofRat (85 / 100)) nc1)
  let tc := if t1sel then t1 else t2
  return (A.lt (A.ofRat (6 / 10)) (if t1sel then nc1 else nc2), 17 + tc, tc)

/-- `h4` of `interpolate_corr`, src/ltpf.c:551-560; the missing coefficient of the first row is null. -/
def h4 : List (List Rat) := [
  [dec 153572770 10, dec (-472963246) 10, dec 835788573 10, dec 898638285 9,
   dec 835788573 10, dec (-472963246) 10, dec 153572770 10, 0],
  [dec 274547165 11, dec 459833449 11, dec (-754404636) 10, dec 817488686 9,
   dec 330182571 9, dec (-105835916) 9, dec 286823405 10, dec (-287456116) 11],
  [dec (-300125103) 11, dec 295038503 10, dec (-130305021) 9, dec 603297008 9,
   dec 603297008 9, dec (-130305021) 9, dec 295038503 10, dec (-300125103) 11],
  [dec (-287456116) 11, dec 286823405 10, dec (-105835916) 9, dec 330182571 9,
   dec 817488686 9, dec (-754404636) 10, dec 459833449 11, dec 274547165 11]]

/-- `interpolate_corr`, src/ltpf.c:549-571: `x` points to the cell `pos` of `r`. -/
def interpolateCorr (r : List R) (pos : Nat) (d : Int) : Option R := do
  let h ← h4[((4 + d) % 4).toNat]?
  let x ← slice? r pos 4 9
  let xv := fun (i : Nat) => x[i]?
  let hv := fun (i : Nat) => h[i]?.map A.ofRat
  let y ← if d < 0 then (xv 0).bind fun a => (hv 0).map fun b => A.mul a b
    else if 0 < d then (xv 8).bind fun a => (hv 7).map fun b => A.mul a b
    else some (A.ofInt 0)
  let o := if d < 0 then 1 else 0
  let s := A.mul (← xv 1) (← hv o)
  let s := A.add s (A.mul (← xv 2) (← hv (o + 1)))
  let s := A.add s (A.mul (← xv 3) (← hv (o + 2)))
  let s := A.add s (A.mul (← xv 4) (← hv (o + 3)))
  let s := A.add s (A.mul (← xv 5) (← hv (o + 4)))
  let s := A.add s (A.mul (← xv 6) (← hv (o + 5)))
  let s := A.add s (A.mul (← xv 7) (← hv (o + 6)))
  return A.add y s

/-- Loop of `refine_pitch`, src/ltpf.c:636-647, from `i` for `k` iterations: the fraction `f`. -/
def refineFrac (ic : Int → Option R) (e : Nat) : Nat → Nat → R → Int → Option Int
  | 0, _, _, f => some f
  | k + 1, i, dm, f =>
    if 127 ≤ e ∧ (i % 2 = 1 ∨ 157 ≤ e) then refineFrac ic e k (i + 1) dm f else do
    let d ← ic i
    let (dm, f) := if A.lt dm d then (d, (i : Int)) else (dm, f)
    if 32 < e then do
      let d ← ic (-i)
      let (dm, f) := if A.lt dm d then (d, -(i : Int)) else (dm, f)
      refineFrac ic e k (i + 1) dm f
    else refineFrac ic e k (i + 1) dm f

/-- Index of the bitstream, src/ltpf.c:649-654, from the position `e` of the maximum and the fraction `f`:
`(pitch, index)`. -/
def pitchIndex (e : Nat) (f : Int) : Int × Int :=
  let e : Int := e - (if f < 0 then 1 else 0)
  let f := f + 4 * (if f < 0 then 1 else 0)
  (4 * e + f,
    if e < 127 then 4 * e + f - 128
    else if e < 157 then 2 * e + f / 2 + 126
    else e + 283)

/-- `refine_pitch`, src/ltpf.c:622-655: pitch (in quarter of samples) and index. `r` has room for 17
values. -/
def refinePitch (buf : List Int) (base n tc : Nat) : Option (Int × Int) := do
  let r0 := max 32 (2 * tc - 4)
  let nr := min 228 (2 * tc + 4) - r0 + 1
  if nr + 8 > 17 then none else do
  let r ← correlate A buf base n (r0 - 4) (nr + 8)
  let (am, _) ← argmax A (← slice? r 4 0 nr)
  let e := r0 + am
  let ic := interpolateCorr A r (e - (r0 - 4))
  let dm ← ic 0
  let f ← refineFrac A ic e 3 1 dm 0
  return pitchIndex e f

/-- `h4_q15` of `interpolate`, src/ltpf.c:518-520. -/
def h4q15 : List (List Int) := [
  [6877, 19121, 6877, 0], [3506, 18025, 11000, 220], [1300, 15048, 15048, 1300], [220, 11000, 18025, 3506]]

/-- `interpolate`, src/ltpf.c:516-541, the samples from `i`, for `k` samples: each one uses the current sample and the 3
previous ones. The C code unrolls the loop by 4, `n` is a multiple of 4. -/
def interpolateFrom (buf : List Int) (base : Nat) (h : List Int) : Nat → Nat → Option (List Int)
  | 0, _ => some []
  | k + 1, i => do
    match ← slice? buf (base + i) 2 4, h with
    | [x3, x2, x1, x0], [h0, h1, h2, h3] => do
      let p0 ← i32 (x0 * h0)
      let p1 ← i32 (x1 * h1)
      let p2 ← i32 (x2 * h2)
      let p3 ← i32 (x3 * h3)
      let s ← i32 (p0 + p1)
      let s ← i32 (s + p2)
      let s ← i32 (s + p3)
      let l ← interpolateFrom buf base h k (i + 1)
      return toI16 (s / 32768) :: l
    | _, _ => none

/-- `interpolate`: `x` points to the cell `base - back`. -/
def interpolate (buf : List Int) (base back n d : Nat) : Option (List Int) := do
  let h ← h4q15[d]?
  if back ≤ base then interpolateFrom buf (base - back) h n 0 else none

/-- `struct lc3_ltpf_analysis`, include/lc3_private.h:99-108. -/
structure LtpfA (R : Type) where
  active : Bool
  pitch : Int
  nc0 : R
  nc1 : R
  hp50 : Hp50
  x12k8 : List Int
  x6k4 : List Int
  tc : Nat

/-- State of the analysis at the setup of an encoder: zeroes, src/lc3.c:405-412. -/
def LtpfA.init {R : Type} (A : Arith R) : LtpfA R :=
  ⟨false, 0, A.ofInt 0, A.ofInt 0, ⟨0, 0⟩, List.replicate 384 0, List.replicate 178 0, 0⟩

/-- Result of the analysis of a frame. -/
structure LtpfOut where
  present : Bool
  active : Bool
  /-- `none` when not set by the function -/
  index : Option Int
  deriving DecidableEq, Repr

/-- Values of the resampling of a frame, src/ltpf.c:664-688: the state with `x_12k8` and `x_6k4` shifted and completed. -/
def ltpfResample (dt : Dt) (sr : Srate) (s : LtpfA R) (buf : List Int) (base : Nat) : Option (LtpfA R) := do
  let n := (1 + dt.idx) * 32
  let (y, hp) ← resample (resampler sr) buf base n 0 s.hp50
  let x12k8 := s.x12k8.drop n ++ y
  let base12 := 384 - n - (if dt = .m7_5 then 44 else 24)
  let n6 := n / 2
  let y6 ← resample6k4 x12k8 base12 n6 0
  return { s with hp50 := hp, x12k8 := x12k8, x6k4 := s.x6k4.drop n6 ++ y6 }

/-- Detection of the pitch, src/ltpf.c:690-713: `(pitch_present, index, pitch, nc, tc)`. `u` and `v`
have room for 128 samples. -/
def ltpfPitch (dt : Dt) (x12k8 x6k4 : List Int) (tc : Nat) : Option (Bool × Option Int × Int × R × Nat) := do
  let n := (1 + dt.idx) * 32
  let base12 := 384 - n - (if dt = .m7_5 then 44 else 24)
  let n6 := n / 2
  let base6 := 178 - n6
  let e12 := if dt = .m2_5 then n else 0
  let e6 := if dt = .m2_5 then n6 else 0
  let (base12, n, base6, n6) := (base12 - e12, n + e12, base6 - e6, n6 + e6)
  let (present, lag, tc) ← detectPitch A sqrtf x6k4 base6 n6 tc
  if present then do
    let (pitch, index) ← refinePitch A x12k8 base12 n lag
    if n > 128 ∨ pitch < 0 then none else do
    let u ← interpolate x12k8 base12 0 n 0
    let v ← interpolate x12k8 base12 (pitch.toNat / 4) n (pitch.toNat % 4)
    let nc := A.div (dotI A u v) (sqrtf (A.mul (dotI A u u) (dotI A v v)))
    return (present, some index, pitch, nc, tc)
  else return (present, none, 0, A.ofInt 0, tc)

/-- Activation, src/ltpf.c:717-729. -/
def ltpfActive (dt : Dt) (sr : Srate) (s : LtpfA R) (present : Bool) (pitch : Int) (nc : R) : Bool :=
  if s.active then
    let diff := max pitch s.pitch - min pitch s.pitch
    let ncDiff := A.sub nc s.nc0
    !sr.hr && present && (A.lt (A.ofRat (9 / 10)) nc ||
      (A.lt (A.ofRat (84 / 100)) nc && decide (diff < 8) && A.lt (A.ofRat (-1 / 10)) ncDiff))
  else
    !sr.hr && present && ((decide (dt = .m10) || A.lt (A.ofRat (94 / 100)) s.nc1) &&
      (A.lt (A.ofRat (94 / 100)) s.nc0 && A.lt (A.ofRat (94 / 100)) nc))

/-- `lc3_ltpf_analyse`, src/ltpf.c:660-737: `x` points to the cell `base` of the samples `buf`. -/
def ltpfAnalyse (dt : Dt) (sr : Srate) (s : LtpfA R) (buf : List Int) (base : Nat) :
    Option (LtpfOut × LtpfA R) := do
  let s ← ltpfResample dt sr s buf base
  let (present, index, pitch, nc, tc) ← ltpfPitch A sqrtf dt s.x12k8 s.x6k4 s.tc
  let active := ltpfActive A dt sr s present pitch nc
  return (⟨present, active, index⟩, { s with active, pitch, nc1 := s.nc0, nc0 := nc, tc })

end

/-! ### Synthesis -/

/-- Pitch at 12.8 kHz, in quarter of samples, from the index of the bitstream, src/ltpf.c:863-867. -/
def indexPitch (p : Nat) : Nat :=
  if 440 ≤ p then (p - 283) * 4
  else if 380 ≤ p then (p / 2 - 63) * 4 + (p % 2) * 2
  else (p / 4 + 32) * 4 + p % 4

/-- Pitch at the rate of the output, in quarter of samples, src/ltpf.c:869. -/
def outPitch (sr : Srate) (p : Nat) : Nat := (indexPitch p * ns .m10 sr + 64) / 128

/-- Width of the filter, src/ltpf.c:880. -/
def ltpfWidth (sr : Srate) : Nat := max 4 (ns4m sr / 16)

section
variable {R : Type} (A : Arith R)

/-- Update of the cells of `u` by a sample, src/ltpf.c:784-788, 801-805: `k m` is the index of the coefficient for the
cell `m`, if it is updated; the first cell of the list is the cell `m`. -/
def updateU (c : List R) (w : Nat) (yi xi : R) (k : Nat → Option Nat) : Nat → List R → Option (List R)
  | _, [] => some []
  | m, v :: u => do
    let v ← match k m with
      | none => some v
      | some k => do
        let d ← c[k]?
        let e ← c[w + k]?
        some (A.add (A.sub v (A.mul yi d)) (A.mul xi e))
    let u ← updateU c w yi xi k (m + 1) u
    return v :: u

/-- Load of the previous samples, src/ltpf.c:777-791: `j` is the position, the list the previous input
samples that remain. -/
def ltpfLoad (ring : List R) (nh : Nat) (c : List R) (w : Nat) :
    Nat → List R → Nat → List R → Option (Nat × List R)
  | _, [], y, u => some (y, u)
  | j, xi :: x0, y, u => do
    let u := u.set j (A.ofInt 0)
    let yi ← ring[y]?
    let y := if y < nh - 1 then y + 1 else 0
    let u ← updateU A c w yi xi (fun m => if m ≤ j then some (j - m) else none) 0 u
    ltpfLoad ring nh c w (j + 1) x0 y u

/-- Filtering, src/ltpf.c:795-809, of `k` samples from the `t`-th one: `x` is the position in the ring, and `j = t % w`. -/
def ltpfRun (nh : Nat) (c : List R) (w : Nat) (gIncr : R) :
    Nat → Nat → Nat → List R → Nat → List R → R → Option (List R)
  | 0, _, _, ring, _, _, _ => some ring
  | k + 1, t, x, ring, y, u, g => do
    let j := t % w
    let yi ← ring[y]?
    let xi ← ring[x]?
    let y := if y < nh - 1 then y + 1 else 0
    let u ← updateU A c w yi xi (fun m => some ((j + (w - 1) + w - m) % w)) 0 u
    let uj ← u[j]?
    let ring := ring.set x (A.sub xi (A.mul g uj))
    let u := u.set j (A.ofInt 0)
    ltpfRun nh c w gIncr k (t + 1) (x + 1) ring y u (A.add g gIncr)

/-- `synthesize_template`, src/ltpf.c:761-810: `x` is the position in the ring of `nh` samples; `fade` is -1, 0 or 1. The outer
loop runs while `i < n`, by steps of `w`. `MAX_FILTER_WIDTH` is 12 for 48 kHz, 24 for the library (96 kHz). The
last cell of `u` is null, the others are set before use. -/
def synthTemplate (ring : List R) (nh lag : Nat) (x0 : List R) (x n : Nat) (c : List R) (w : Nat)
    (fade : Int) : Option (List R) := do
  let g := if fade ≤ 0 then A.ofInt 1 else A.ofInt 0
  let gIncr := A.div (A.ofInt (fade.sign)) (A.ofInt n)
  let lag := lag + w / 2
  if x < lag ∧ nh < lag then none else do
  let y := if x < lag then x + (nh - lag) else x - lag
  if x0.length ≠ w - 1 then none else do
  let (y, u) ← ltpfLoad A ring nh c w 0 x0 y (List.replicate w (A.ofInt 0))
  ltpfRun A nh c w gIncr ((n + w - 1) / w * w) 0 x ring y u g

/-- `struct lc3_ltpf_synthesis`, include/lc3_private.h:144-148: 24 coefficients, 12 samples. -/
structure LtpfS (R : Type) where
  active : Bool
  pitch : Nat
  c : List R
  x : List R

/-- State of the postfilter at the setup of a decoder: zeroes, src/lc3.c:712-720. -/
def LtpfS.init {R : Type} (A : Arith R) : LtpfS R :=
  ⟨false, 0, List.replicate 24 (A.ofInt 0), List.replicate 12 (A.ofInt 0)⟩

/-- Gain index, src/ltpf.c:871-877. -/
def gainIndex (dt : Dt) (sr : Srate) (nbytes : Int) : Option Int :=
  (i32 (nbytes * 8)).bind fun b =>
  (i32 (b * 4)).bind fun b =>
  (match dt with
    | .m2_5 => (i32 (6 * b)).bind fun t => (i32 (t + 5)).bind fun t => some (t.tdiv 10)
    | .m5 => i32 (b.tdiv 2 - 160)
    | .m7_5 => some (b.tdiv 3)
    | .m10 => some (b.tdiv 4)).bind fun nbits =>
  some (max (nbits.tdiv 80) (3 + sr.idx) - (3 + sr.idx))

/-- Coefficients, src/ltpf.c:880-887. -/
def ltpfCoeffs (sr : Srate) (pitch : Nat) (active : Bool) (gIdx : Int) : Option (List R) := do
  let w := ltpfWidth sr
  let den ← (ltpfCden sr)[pitch % 4]?
  let num ← (ltpfCnum sr)[(min gIdx 3).toNat]?
  let g := if active then A.sub (A.ofRat (4 / 10)) (A.mul (A.ofRat (5 / 100)) (A.ofInt gIdx)) else A.ofInt 0
  if den.length < w ∨ num.length < w then none else
  return ((List.range w).map fun i => A.mul g (A.ofRat (den.getD (w - 1 - i) 0))) ++
    (List.range w).map fun i => A.mul (A.mul (A.ofRat (85 / 100)) g) (A.ofRat (num.getD (w - 1 - i) 0))

/-- Filtering of the transition, src/ltpf.c:900-911. -/
def ltpfTransition (s : LtpfS R) (ring : List R) (nh x nt w pitch : Nat) (active : Bool) (c : List R)
    (x00 : List R) : Option (List R) :=
  if !s.active && active then synthTemplate A ring nh (pitch / 4) x00 x nt c w 1
  else if s.active && !active then synthTemplate A ring nh (s.pitch / 4) x00 x nt s.c w (-1)
  else if s.active && active && decide (s.pitch = pitch) then
    synthTemplate A ring nh (pitch / 4) x00 x nt c w 0
  else if s.active && active then
    (synthTemplate A ring nh (s.pitch / 4) x00 x nt s.c w (-1)).bind fun ring =>
    (slice? ring (if x ≤ 0 then x + nh else x) (w - 1) (w - 1)).bind fun xp =>
    synthTemplate A ring nh (pitch / 4) xp x nt c w 1
  else some ring

/-- Filtering of the transition and of the remainder, src/ltpf.c:900-916. -/
def ltpfFilter (s : LtpfS R) (ring : List R) (nh x ns nt w pitch : Nat) (active : Bool) (c : List R)
    (x00 x01 : List R) : Option (List R) :=
  (ltpfTransition A s ring nh x nt w pitch active c x00).bind fun ring =>
  if active ∧ ns > nt then synthTemplate A ring nh (pitch / 4) x01 (x + nt) (ns - nt) c w 0
  else some ring

/-- Pitch index of the frame, `NULL` without long-term data, src/ltpf.c:865. -/
def dataIndex : Option LtpfData → Nat
  | some d => d.pitchIndex
  | none => 0

/-- Filter active in the frame, src/ltpf.c:878. -/
def dataActive (gIdx : Int) : Option LtpfData → Bool
  | some d => d.active && decide (gIdx < 4)
  | none => false

/-- `lc3_ltpf_synthesize`, src/ltpf.c:855-923: `ring` is the history, `x` the position of the frame in the
history; there is no table for the high-resolution rates. -/
def ltpfSynthesize (dt : Dt) (sr : Srate) (nbytes : Int) (s : LtpfS R) (data : Option LtpfData)
    (ring : List R) (x : Nat) : Option (LtpfS R × List R) :=
  let nh := ns dt sr + nh dt sr
  let pitch := outPitch sr (dataIndex data)
  (gainIndex dt sr nbytes).bind fun gIdx =>
  let active := dataActive gIdx data
  let w := ltpfWidth sr
  (ltpfCoeffs A sr pitch active gIdx).bind fun c =>
  let ns := ns dt sr
  let nt := ns / (1 + dt.idx)
  (slice? s.x 0 0 (w - 1)).bind fun x00 =>
  (slice? ring (x + ns) (w - 1) (w - 1)).bind fun xe =>
  (if active then slice? ring (x + nt) (w - 1) (w - 1) else some []).bind fun x01 =>
  (ltpfFilter A s ring nh x ns nt w pitch active c x00 x01).bind fun ring =>
  some (⟨active, pitch, c ++ s.c.drop (2 * w), xe ++ s.x.drop (w - 1)⟩, ring)

end

end LC3
