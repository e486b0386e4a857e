import Verif.Model.Ltpf
import Verif.Model.SimdTables

/-!
Model of the variants of `src/ltpf.c` for the ARM processors: `src/ltpf_neon.h` (Neon, 64 bits) and `src/ltpf_arm.h` (SIMD32).

* The lanes of a vector are a list. Products of 16-bit values are exact, the additions of 32-bit lanes wrap, as the instructions do.
  The additions of 64-bit lanes are exact: at most 16 additions of less than `2^34`.
* An array of `int16_t` is aligned on 32 bits: an access by pairs, at an odd position, is undefined (`none`). The arrays are
  `x_12k8` and `x_6k4`, after a structure of two `int64_t` (include/lc3_private.h:95-107), and the samples in the array of `float` of
  the encoder (src/lc3.c:198).
* `LtpfKernels` are the functions that a header replaces; the functions that call them are those of `Verif.Model.Ltpf`, with the
  replaced functions as a parameter.
-/

namespace LC3

/-! ### Neon -/

/-- `vld1_s16`: 4 values from the cell `i`. -/
def vld (l : List Int) (i : Nat) : Option (List Int) := slice? l i 0 4

/-- `vmull_s16`: products. -/
def vmull (a b : List Int) : List Int := List.zipWith (· * ·) a b

/-- `vmlal_s16`: sums of the lanes, on 32 bits, and of the products. -/
def vmlal (u a b : List Int) : List Int := List.zipWith (fun u p => toI32 (u + p)) u (vmull a b)

/-- `vaddvq_s32`: sum of the lanes on 32 bits. -/
def vaddv (u : List Int) : Int := toI32 u.sum

/-- `vpadalq_s32`: each of the two lanes on 64 bits is increased by the sum of two adjacent lanes on 32 bits. -/
def vpadal (v : Int × Int) : List Int → Int × Int
  | [u0, u1, u2, u3] => (v.1 + (u0 + u1), v.2 + (u2 + u3))
  | _ => v

/-- `vext_s16`: 4 values from the lane `n` of `a`, followed by `b`. -/
def vext (a b : List Int) (n : Nat) : List Int := a.drop n ++ b.take n

/-- The accumulations `un = vmlal_s16(un, vld1_s16(xn), vld1_s16(hn)), xn += 4, hn += 4`, src/ltpf_neon.h:65-68, 114-115, 178-179: `k`
times from the cells `x` of `buf` and `i` of `h`. -/
def neonMac (buf h : List Int) : Nat → Nat → Nat → List Int → Option (List Int)
  | 0, _, _, u => some u
  | k + 1, x, i, u => do
    let xv ← vld buf x
    let hv ← vld h i
    neonMac buf h k (x + 4) (i + 4) (vmlal u xv hv)

/-- The accumulation of the output sample `n` of `neon_resample_16k_12k8`, `neon_resample_32k_12k8` and `neon_resample_48k_12k8`,
src/ltpf_neon.h:58-70, 106-117, 167-181: the rows of the table `h` have `row` coefficients, `w` of them are used, the phase is
`i & (2^s - 1)` and the position `i >> s`. `x` points to the cell `base` of `buf`. -/
def neonAcc (inc s w row : Nat) (h buf : List Int) (base n : Nat) : Option Int := do
  let i := inc * n
  let hn ← slice? h ((i &&& (2 ^ s - 1)) * row) 0 row
  if base + (i >>> s) < w - 1 then none else do
  let x := base + (i >>> s) - (w - 1)
  let xv ← vld buf x
  let hv ← vld hn 0
  let u ← neonMac buf hn (w / 4 - 1) (x + 4) 4 (vmull xv hv)
  return vaddv u

/-- Half of an iteration of `neon_dot`, src/ltpf_neon.h:206-208: the lanes of the sum of 8 products. -/
def neonDot8 (a b : List Int) (v : Int × Int) : Option (Int × Int) := do
  let a0 ← vld a 0
  let b0 ← vld b 0
  let a1 ← vld a 4
  let b1 ← vld b 4
  return vpadal v (vmlal (vmull a0 b0) a1 b1)

/-- The loop of `neon_dot`, src/ltpf_neon.h:203-213, by 8 products. -/
def neonDotLoop : Nat → List Int → List Int → Int × Int → Option (Int × Int)
  | 0, _, _, v => some v
  | k + 1, a, b, v => do
    let v ← neonDot8 a b v
    neonDotLoop k (a.drop 8) (b.drop 8) v

/-- `(float)((int32_t)((v + (1 << 5)) >> 6))`, src/ltpf_neon.h:215-216, 271-274, src/ltpf_arm.h:491-492. -/
def dotOut {R : Type} (A : Arith R) (v : Int) : R := A.ofInt (toI32 ((v + 32) / 64))

/-- `neon_dot`, src/ltpf_neon.h:199-217: `n` is the length of `a`. -/
def neonDot {R : Type} (A : Arith R) (a b : List Int) : Option R := do
  let v ← neonDotLoop (2 * (a.length / 16)) a b (0, 0)
  return dotOut A (v.1 + v.2)

/-- The variables of the loop of `neon_correlate`: the last 4 values `b0`, and the sums `v0` to `v3`. -/
structure NeonCorr where
  b0 : List Int
  v0 : Int × Int
  v1 : Int × Int
  v2 : Int × Int
  v3 : Int × Int

/-- An iteration of the inner loop of `neon_correlate`, src/ltpf_neon.h:246-268: `an` and `bn` point to the cells `a` and `b`. -/
def neonCorr8 (buf : List Int) (a b : Nat) (c : NeonCorr) : Option NeonCorr := do
  let b1 := c.b0
  let b0 ← vld buf b
  let ax ← vld buf a
  let u0 := vmull ax b0
  let u1 := vmull ax (vext b1 b0 3)
  let u2 := vmull ax (vext b1 b0 2)
  let u3 := vmull ax (vext b1 b0 1)
  let b1 := b0
  let b0 ← vld buf (b + 4)
  let ax ← vld buf (a + 4)
  let u0 := vmlal u0 ax b0
  let u1 := vmlal u1 ax (vext b1 b0 3)
  let u2 := vmlal u2 ax (vext b1 b0 2)
  let u3 := vmlal u3 ax (vext b1 b0 1)
  return ⟨b0, vpadal c.v0 u0, vpadal c.v1 u1, vpadal c.v2 u2, vpadal c.v3 u3⟩

/-- The inner loops of `neon_correlate`, src/ltpf_neon.h:244-269. -/
def neonCorrLoop (buf : List Int) : Nat → Nat → Nat → NeonCorr → Option NeonCorr
  | 0, _, _, c => some c
  | k + 1, a, b, c => do
    let c ← neonCorr8 buf a b c
    neonCorrLoop buf k (a + 8) (b + 8) c

section
variable {R : Type} (A : Arith R)

/-- 4 correlations of `neon_correlate`, src/ltpf_neon.h:235-274: `a` and `b` point to the cells `a` and `b`. -/
def neonCorr4 (buf : List Int) (a b n : Nat) : Option (List R) := do
  if b < 4 then none else do
  let b0 ← vld buf (b - 4)
  let c ← neonCorrLoop buf (2 * (n / 16)) a b ⟨b0, (0, 0), (0, 0), (0, 0), (0, 0)⟩
  return [dotOut A (c.v0.1 + c.v0.2), dotOut A (c.v1.1 + c.v1.2), dotOut A (c.v2.1 + c.v2.2), dotOut A (c.v3.1 + c.v3.2)]

/-- The last correlations of `neon_correlate`, src/ltpf_neon.h:277-278. -/
def neonCorr1 (buf : List Int) (base n : Nat) : Nat → Nat → Option (List R)
  | _, 0 => some []
  | lag, nc + 1 => do
    let a ← slice? buf base 0 n
    let b ← slice? buf base lag n
    let y ← neonDot A a b
    let l ← neonCorr1 buf base n (lag + 1) nc
    return y :: l

/-- `neon_correlate`, src/ltpf_neon.h:231-279: the parameters are those of `correlate`. `fuel` bounds the number of iterations
(`nc` is enough). -/
def neonCorrFrom (buf : List Int) (base n : Nat) : Nat → Nat → Nat → Option (List R)
  | 0, lag, nc => neonCorr1 A buf base n lag nc
  | fuel + 1, lag, nc =>
    if nc < 4 then neonCorr1 A buf base n lag nc
    else if base < lag then none
    else do
      let y ← neonCorr4 A buf base (base - lag) n
      let l ← neonCorrFrom buf base n fuel (lag + 4) (nc - 4)
      return y ++ l

/-- `neon_correlate`. -/
def neonCorrelate (buf : List Int) (base n lag nc : Nat) : Option (List R) := neonCorrFrom A buf base n nc lag nc

/-! ### SIMD32 -/

/-- The accumulations `un = __smlad(*(xn++), *(hn++), un)`, src/ltpf_arm.h:59-67, 90-108: `un + x0 * h0 + x1 * h1`, on 32 bits. -/
def smlad : Int → List Int → List Int → Int
  | un, x0 :: x1 :: xs, h0 :: h1 :: hs => smlad (toI32 (un + (x0 * h0 + x1 * h1))) xs hs
  | un, _, _ => un

/-- The accumulation of the output sample `n` of `arm_resample_x64k_12k8` and `arm_resample_x192k_12k8`, src/ltpf_arm.h:51-67, 82-108:
`w` is `40 / p` or `120 / p` and `row` is `48 / p` or `128 / p`, in pairs of samples. `x` points to the cell `base` of `buf`. -/
def armAcc (inc p w row : Nat) (h buf : List Int) (base n : Nat) : Option Int := do
  let i := inc * n
  if base % 2 = 1 then none else do
  let hn ← slice? h (2 * (i % (2 * p) * row)) 0 (2 * (1 + w))
  let xn ← slice? buf (base + 2 * (i / (2 * p))) (2 * w) (2 * (1 + w))
  return smlad 0 xn hn

/-- `__pkhbt`, src/ltpf_arm.h:25-30: the first value of `a` and the second of `b`. -/
def pkhbt (a b : Int × Int) : Int × Int := (a.1, b.2)

/-- `__smlald`. -/
def smlald (a b : Int × Int) (v : Int) : Int := v + (a.1 * b.1 + a.2 * b.2)

/-- `__smlaldx`: the values of `b` exchanged. -/
def smlaldx (a b : Int × Int) (v : Int) : Int := v + (a.1 * b.2 + a.2 * b.1)

/-- Read of a pair of values from the cell `i`. -/
def rdPair (l : List Int) (i : Nat) : Option (Int × Int) :=
  if i % 2 = 1 then none else do
  let x ← l[i]?
  let y ← l[i + 1]?
  return (x, y)

/-- The loops of `arm_correlate`, src/ltpf_arm.h:481-489, by pairs of pairs, `k` times: `(v0, v1)`, from the previous pair `b1`. -/
def armCorrLoop (buf : List Int) : Nat → Nat → Nat → Int × Int → Int → Int → Option (Int × Int)
  | 0, _, _, _, v0, v1 => some (v0, v1)
  | k + 1, a, b, b1, v0, v1 => do
    let ax ← rdPair buf a
    let b0 ← rdPair buf b
    let v0 := smlald ax b0 v0
    let v1 := smlaldx ax (pkhbt b0 b1) v1
    let ax ← rdPair buf (a + 2)
    let b1 ← rdPair buf (b + 2)
    let v0 := smlald ax b1 v0
    let v1 := smlaldx ax (pkhbt b1 b0) v1
    armCorrLoop buf k (a + 4) (b + 4) b1 v0 v1

/-- The processing by pairs of `arm_correlate`, src/ltpf_arm.h:470-498, from an even position. `fuel` bounds the number of
iterations (`nc` is enough). -/
def armCorrFrom (buf : List Int) (base n : Nat) : Nat → Nat → Nat → Option (List R)
  | 0, lag, nc => correlate A buf base n lag nc
  | fuel + 1, lag, nc =>
    if nc < 2 then correlate A buf base n lag nc
    else if base < lag + 1 then none
    else do
      let b1 ← buf[base - (lag + 1)]?
      let v ← armCorrLoop buf (4 * (n / 16)) base (base - lag) (0, b1) 0 0
      let l ← armCorrFrom buf base n fuel (lag + 2) (nc - 2)
      return dotOut A v.1 :: dotOut A v.2 :: l

/-- `arm_correlate`, src/ltpf_arm.h:459-498. -/
def armCorrelate (buf : List Int) (base n lag nc : Nat) : Option (List R) :=
  if base < lag then none
  else if (base - lag) % 2 = 1 then do
    let a ← slice? buf base 0 n
    let b ← slice? buf base lag n
    let l ← armCorrFrom A buf base n (nc - 1) (lag + 1) (nc - 1)
    return dotI A a b :: l
  else armCorrFrom A buf base n nc lag nc

end

/-! ### The analysis -/

/-- The functions replaced by the headers: the accumulation of a resampler, `dot` and `correlate`. -/
structure LtpfKernels (R : Type) where
  acc : Srate → List Int → Nat → Nat → Option Int
  dot : List Int → List Int → Option R
  correlate : List Int → Nat → Nat → Nat → Nat → Option (List R)

/-- The functions of `src/ltpf.c`. -/
def genericKernels {R : Type} (A : Arith R) : LtpfKernels R where
  acc := fun sr => resampleAcc (resampler sr)
  dot := fun a b => some (dotI A a b)
  correlate := correlate A

/-- The functions with `src/ltpf_neon.h`: l.76, 123, 187 for the resamplers, l.221 and 283. The other rates are those of `src/ltpf.c`. -/
def neonKernels {R : Type} (A : Arith R) : LtpfKernels R where
  acc := fun sr => match sr with
    | .k16 => neonAcc 5 2 20 20 neonH16k
    | .k32 => neonAcc 5 1 40 40 neonH32k
    | .k48 => neonAcc 15 2 60 64 neonH48k
    | .k48hr => neonAcc 15 2 60 64 neonH48k
    | sr => resampleAcc (resampler sr)
  dot := neonDot A
  correlate := neonCorrelate A

/-- The functions with `src/ltpf_arm.h`: l.148, 206, 255, 356, 449, 501. `dot` and the resampler of 96 kHz are those of `src/ltpf.c`. -/
def armKernels {R : Type} (A : Arith R) : LtpfKernels R where
  acc := fun sr => match sr with
    | .k8 => armAcc 5 8 (40 / 8) (48 / 8) armH8k
    | .k16 => armAcc 5 4 (40 / 4) (48 / 4) armH16k
    | .k24 => armAcc 15 8 (120 / 8) (128 / 8) armH24k
    | .k32 => armAcc 5 2 (40 / 2) (48 / 2) armH32k
    | .k48 => armAcc 15 4 (120 / 4) (128 / 4) armH48k
    | .k48hr => armAcc 15 4 (120 / 4) (128 / 4) armH48k
    | .k96hr => resampleAcc (resampler .k96hr)
  dot := fun a b => some (dotI A a b)
  correlate := armCorrelate A

section
variable {R : Type} (A : Arith R) (sqrtf : R → R) (K : LtpfKernels R)

/-- The loop of a resampler, as `resample`: src/ltpf.c:213-241, src/ltpf_neon.h:58-73, src/ltpf_arm.h:55-72. -/
def resampleK (sr : Srate) (buf : List Int) (base : Nat) : Nat → Nat → Hp50 → Option (List Int × Hp50)
  | 0, _, hp => some ([], hp)
  | k + 1, n, hp => do
    let un ← K.acc sr buf base n
    let (yn, hp) ← filterHp50 hp un
    let v ← i32 (yn + 32768)
    let (l, hp) ← resampleK sr buf base k (n + 1) hp
    return (toI16 (v / 65536) :: l, hp)

/-- `detect_pitch`, src/ltpf.c:582-611, as `detectPitch`. -/
def detectPitchK (buf : List Int) (base n tc : Nat) : Option (Bool × Nat × Nat) := do
  let k0 := max 0 (tc - 4)
  let nk := min (98 - 1) (tc + 4) - k0 + 1
  let r ← K.correlate buf base n 17 98
  let (t1, rm1) ← argmaxW A (A.ofRat (-(1 / 2) / 97)) r
  let rk ← slice? r k0 0 nk
  let (t2, rm2) ← argmax A rk
  let t2 := k0 + t2
  let x ← slice? buf base 0 n
  let x1 ← slice? buf base (17 + t1) n
  let x2 ← slice? buf base (17 + t2) n
  let d ← K.dot x x
  let d1 ← K.dot x1 x1
  let d2 ← K.dot x2 x2
  let nc1 := normCorr A sqrtf rm1 d d1
  let nc2 := normCorr A sqrtf rm2 d d2
  let t1sel := A.le nc2 (A.mul (A.ofRat (85 / 100)) nc1)
  let tc := if t1sel then t1 else t2
  return (A.lt (A.ofRat (6 / 10)) (if t1sel then nc1 else nc2), 17 + tc, tc)

/-- `refine_pitch`, src/ltpf.c:622-655, as `refinePitch`. -/
def refinePitchK (buf : List Int) (base n tc : Nat) : Option (Int × Int) := do
  let r0 := max 32 (2 * tc - 4)
  let nr := min 228 (2 * tc + 4) - r0 + 1
  if nr + 8 > 17 then none else do
  let r ← K.correlate buf base n (r0 - 4) (nr + 8)
  let (am, _) ← argmax A (← slice? r 4 0 nr)
  let e := r0 + am
  let ic := interpolateCorr A r (e - (r0 - 4))
  let dm ← ic 0
  let f ← refineFrac A ic e 3 1 dm 0
  return pitchIndex e f

/-- The resampling of a frame, src/ltpf.c:664-688, as `ltpfResample`. -/
def ltpfResampleK (dt : Dt) (sr : Srate) (s : LtpfA R) (buf : List Int) (base : Nat) : Option (LtpfA R) := do
  let n := (1 + dt.idx) * 32
  let (y, hp) ← resampleK K sr buf base n 0 s.hp50
  let x12k8 := s.x12k8.drop n ++ y
  let base12 := 384 - n - (if dt = .m7_5 then 44 else 24)
  let n6 := n / 2
  let y6 ← resample6k4 x12k8 base12 n6 0
  return { s with hp50 := hp, x12k8 := x12k8, x6k4 := s.x6k4.drop n6 ++ y6 }

/-- Detection of the pitch, src/ltpf.c:690-713, as `ltpfPitch`. -/
def ltpfPitchK (dt : Dt) (x12k8 x6k4 : List Int) (tc : Nat) : Option (Bool × Option Int × Int × R × Nat) := do
  let n := (1 + dt.idx) * 32
  let base12 := 384 - n - (if dt = .m7_5 then 44 else 24)
  let n6 := n / 2
  let base6 := 178 - n6
  let e12 := if dt = .m2_5 then n else 0
  let e6 := if dt = .m2_5 then n6 else 0
  let (base12, n, base6, n6) := (base12 - e12, n + e12, base6 - e6, n6 + e6)
  let (present, lag, tc) ← detectPitchK A sqrtf K x6k4 base6 n6 tc
  if present then do
    let (pitch, index) ← refinePitchK A K x12k8 base12 n lag
    if n > 128 ∨ pitch < 0 then none else do
    let u ← interpolate x12k8 base12 0 n 0
    let v ← interpolate x12k8 base12 (pitch.toNat / 4) n (pitch.toNat % 4)
    let uv ← K.dot u v
    let uu ← K.dot u u
    let vv ← K.dot v v
    let nc := A.div uv (sqrtf (A.mul uu vv))
    return (present, some index, pitch, nc, tc)
  else return (present, none, 0, A.ofInt 0, tc)

/-- `lc3_ltpf_analyse`, src/ltpf.c:660-737, as `ltpfAnalyse`. -/
def ltpfAnalyseK (dt : Dt) (sr : Srate) (s : LtpfA R) (buf : List Int) (base : Nat) :
    Option (LtpfOut × LtpfA R) := do
  let s ← ltpfResampleK K dt sr s buf base
  let (present, index, pitch, nc, tc) ← ltpfPitchK A sqrtf K dt s.x12k8 s.x6k4 s.tc
  let active := ltpfActive A dt sr s present pitch nc
  return (⟨present, active, index⟩, { s with active, pitch, nc1 := s.nc0, nc0 := nc, tc })

end

end LC3
