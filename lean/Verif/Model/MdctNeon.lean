import Verif.Model.Mdct

/-!
Model of `src/mdct_neon.h`: the FFT with the vector instructions of the 64-bit ARM processors.

A vector of 4 lanes of `float` holds two complex numbers. The loads and the stores are checked, lane by lane. The fused operations
have a single rounding: they are operations of their own.
-/

namespace LC3

/-- The operations on `float` of the vector instructions: those of `Arith`, the negation, and the fused operations
`fma a b c = a + b * c`, `fms a b c = a - b * c`. -/
structure Neon (R : Type) extends Arith R where
  fneg : R → R
  fma : R → R → R → R
  fms : R → R → R → R

/-- The operations of the processor on rational numbers, with the rounding `rnd`: a single one for the fused operations, none for the negation. -/
def Neon.rounded (rnd : Rat → Rat) : Neon Rat where
  toArith := Arith.rounded rnd
  fneg := fun a => -a
  fma := fun a b c => rnd (a + b * c)
  fms := fun a b c => rnd (a - b * c)

variable {R : Type}

/-- `float32x4_t`. -/
structure V4 (R : Type) where
  a : R
  b : R
  c : R
  d : R

/-- `float32x2_t`. -/
structure V2 (R : Type) where
  a : R
  b : R

/-- `vld1q_f32` of the complex numbers of index `i`. -/
def ldq (l : List R) (i : Int) : Option (V4 R) := do
  let a ← rd l (2 * i); let b ← rd l (2 * i + 1); let c ← rd l (2 * i + 2); let d ← rd l (2 * i + 3)
  return ⟨a, b, c, d⟩

/-- `vld1_f32`. -/
def ld (l : List R) (i : Int) : Option (V2 R) := do
  let a ← rd l (2 * i); let b ← rd l (2 * i + 1)
  return ⟨a, b⟩

/-- `vst1q_f32`. -/
def stq (l : List R) (i : Int) (v : V4 R) : Option (List R) := do
  let l ← wr l (2 * i) v.a
  let l ← wr l (2 * i + 1) v.b
  let l ← wr l (2 * i + 2) v.c
  wr l (2 * i + 3) v.d

/-- `vst1_f32`. -/
def st (l : List R) (i : Int) (v : V2 R) : Option (List R) := do
  let l ← wr l (2 * i) v.a
  wr l (2 * i + 1) v.b

/-- `vld2q_f32`: the even values in the first vector, the odd ones in the second. -/
def ld2q (l : List R) (i : Int) : Option (V4 R × V4 R) := do
  let a ← ldq l i; let b ← ldq l (i + 2)
  return (⟨a.a, a.c, b.a, b.c⟩, ⟨a.b, a.d, b.b, b.d⟩)

/-- `vld2_f32`. -/
def ld2 (l : List R) (i : Int) : Option (V2 R × V2 R) := do
  let a ← ldq l i
  return (⟨a.a, a.c⟩, ⟨a.b, a.d⟩)

/-- Instructions of 2 operands, lane by lane (`vaddq_f32`, `vsubq_f32`). -/
def V4.map2 (f : R → R → R) (x y : V4 R) : V4 R := ⟨f x.a y.a, f x.b y.b, f x.c y.c, f x.d y.d⟩

/-- Instructions of 3 operands, lane by lane (`vfmaq_f32`, `vfmsq_f32`). -/
def V4.map3 (f : R → R → R → R) (x y z : V4 R) : V4 R := ⟨f x.a y.a z.a, f x.b y.b z.b, f x.c y.c z.c, f x.d y.d z.d⟩

/-- `vfma_f32`, `vfms_f32`. -/
def V2.map3 (f : R → R → R → R) (x y z : V2 R) : V2 R := ⟨f x.a y.a z.a, f x.b y.b z.b⟩

/-- `vnegq_f32`. -/
def V4.map (f : R → R) (x : V4 R) : V4 R := ⟨f x.a, f x.b, f x.c, f x.d⟩

/-- `vneg_f32`. -/
def V2.map (f : R → R) (x : V2 R) : V2 R := ⟨f x.a, f x.b⟩

/-- `vrev64q_f32`: the lanes of each half are exchanged. -/
def V4.rev (x : V4 R) : V4 R := ⟨x.b, x.a, x.d, x.c⟩

/-- `vrev64_f32`. -/
def V2.rev (x : V2 R) : V2 R := ⟨x.b, x.a⟩

/-- `vtrn1q_f32`: the even lanes of both operands, interleaved. -/
def V4.trn1 (x y : V4 R) : V4 R := ⟨x.a, y.a, x.c, y.c⟩

/-- `vtrn2q_f32`: the odd lanes of both operands, interleaved. -/
def V4.trn2 (x y : V4 R) : V4 R := ⟨x.b, y.b, x.d, y.d⟩

/-- `vtrn1_f32`. -/
def V2.trn1 (x y : V2 R) : V2 R := ⟨x.a, y.a⟩

/-- `vtrn2_f32`. -/
def V2.trn2 (x y : V2 R) : V2 R := ⟨x.b, y.b⟩

/-- `vget_low_f32`. -/
def V4.low (x : V4 R) : V2 R := ⟨x.a, x.b⟩

/-- `vget_high_f32`. -/
def V4.high (x : V4 R) : V2 R := ⟨x.c, x.d⟩

/-- An iteration of `neon_fft_5`, src/mdct_neon.h:52-99: the iteration `k` processes the transforms `2 * k` and `2 * k + 1`. The constants of
src/mdct_neon.h:36-40 are those of src/mdct.c:38-42, as pairs: of opposite values for the sines, whose sign is the one of the generic code. -/
def neonFft5Body (N : Neon R) (T : MdctTables R) (n : Nat) (x : List R) (k : Nat) (y : List R) : Option (List R) := do
  let sin1q : V4 R := ⟨N.fneg T.sin1, T.sin1, N.fneg T.sin1, T.sin1⟩
  let sin2q : V4 R := ⟨N.fneg T.sin2, T.sin2, N.fneg T.sin2, T.sin2⟩
  let cos1q : V4 R := ⟨T.cos1, T.cos1, T.cos1, T.cos1⟩
  let cos2q : V4 R := ⟨T.cos2, T.cos2, T.cos2, T.cos2⟩
  let x0 ← ldq x (2 * k + 0 * n); let x1 ← ldq x (2 * k + 1 * n); let x2 ← ldq x (2 * k + 2 * n)
  let x3 ← ldq x (2 * k + 3 * n); let x4 ← ldq x (2 * k + 4 * n)
  let s14 := V4.map2 N.add x1 x4
  let s23 := V4.map2 N.add x2 x3
  let d14 := (V4.map2 N.sub x1 x4).rev
  let d23 := (V4.map2 N.sub x2 x3).rev
  let y0 := V4.map2 N.add x0 (V4.map2 N.add s14 s23)
  let y4 := V4.map3 N.fma x0 s14 cos1q
  let y4 := V4.map3 N.fma y4 s23 cos2q
  let y1 := V4.map3 N.fma y4 d14 sin1q
  let y1 := V4.map3 N.fma y1 d23 sin2q
  let y4 := V4.map3 N.fms y4 d14 sin1q
  let y4 := V4.map3 N.fms y4 d23 sin2q
  let y3 := V4.map3 N.fma x0 s14 cos2q
  let y3 := V4.map3 N.fma y3 s23 cos1q
  let y2 := V4.map3 N.fma y3 d14 sin2q
  let y2 := V4.map3 N.fms y2 d23 sin1q
  let y3 := V4.map3 N.fms y3 d14 sin2q
  let y3 := V4.map3 N.fma y3 d23 sin1q
  let y ← st y (10 * k + 0) y0.low; let y ← st y (10 * k + 1) y1.low; let y ← st y (10 * k + 2) y2.low
  let y ← st y (10 * k + 3) y3.low; let y ← st y (10 * k + 4) y4.low
  let y ← st y (10 * k + 5) y0.high; let y ← st y (10 * k + 6) y1.high; let y ← st y (10 * k + 7) y2.high
  let y ← st y (10 * k + 8) y3.high; st y (10 * k + 9) y4.high

/-- `neon_fft_5`, src/mdct_neon.h:33-100: an iteration too many when `n` is odd. -/
def neonFft5 (N : Neon R) (T : MdctTables R) (n : Nat) (x y : List R) : Option (List R) :=
  iter (neonFft5Body N T n x) 0 ((n + 1) / 2) y

/-- One output of the pairs of `neon_fft_bf3`, src/mdct_neon.h:150-153, 158-161, 166-169. -/
def neon3q (N : Neon R) (x0 x1 x1r x2 x2r : V4 R) (wn : V4 R × V4 R) : V4 R :=
  let yn := V4.map3 N.fma x0 x1 (V4.trn1 wn.1 wn.1)
  let yn := V4.map3 N.fma yn x1r (V4.trn1 wn.2 wn.2)
  let yn := V4.map3 N.fma yn x2 (V4.trn2 wn.1 wn.1)
  V4.map3 N.fma yn x2r (V4.trn2 wn.2 wn.2)

/-- The same for the last iteration, src/mdct_neon.h:190-193, 198-201, 206-209. -/
def neon3 (N : Neon R) (x0 x1 x1r x2 x2r : V2 R) (wn : V2 R × V2 R) : V2 R :=
  let yn := V2.map3 N.fma x0 x1 (V2.trn1 wn.1 wn.1)
  let yn := V2.map3 N.fma yn x1r (V2.trn1 wn.2 wn.2)
  let yn := V2.map3 N.fma yn x2 (V2.trn2 wn.1 wn.1)
  V2.map3 N.fma yn x2r (V2.trn2 wn.2 wn.2)

/-- A pair of `neon_fft_bf3`, src/mdct_neon.h:135-172: the element `2 * j` of the row `i`, and the next one. -/
def neonBf3Pair (N : Neon R) (n3 : Nat) (w : List R) (n : Nat) (x : List R) (i j : Nat) (y : List R) : Option (List R) := do
  let t := i * n3 + 2 * j
  let x0 ← ldq x t; let x1 ← ldq x (t + n * n3); let x2 ← ldq x (t + n * n3 + n * n3)
  let x1r := V4.trn1 (V4.rev (V4.map N.fneg x1)) x1
  let x2r := V4.trn1 (V4.rev (V4.map N.fneg x2)) x2
  let k := 3 * n3 * i + 2 * j
  let wn ← ld2q w (2 * (2 * j))
  let y ← stq y k (neon3q N x0 x1 x1r x2 x2r wn)
  let wn ← ld2q w (2 * (n3 + 2 * j))
  let y ← stq y (k + n3) (neon3q N x0 x1 x1r x2 x2r wn)
  let wn ← ld2q w (2 * (2 * n3 + 2 * j))
  stq y (k + 2 * n3) (neon3q N x0 x1 x1r x2 x2r wn)

/-- The last iteration of a row of odd length, src/mdct_neon.h:176-211; `j` is the count of pairs. -/
def neonBf3Last (N : Neon R) (n3 : Nat) (w : List R) (n : Nat) (x : List R) (i j : Nat) (y : List R) : Option (List R) := do
  let t := i * n3 + 2 * j
  let x0 ← ld x t; let x1 ← ld x (t + n * n3); let x2 ← ld x (t + n * n3 + n * n3)
  let x1r := V2.trn1 (V2.rev (V2.map N.fneg x1)) x1
  let x2r := V2.trn1 (V2.rev (V2.map N.fneg x2)) x2
  let k := 3 * n3 * i + 2 * j
  let wn ← ld2 w (2 * (2 * j))
  let y ← st y k (neon3 N x0 x1 x1r x2 x2r wn)
  let wn ← ld2 w (2 * (n3 + 2 * j))
  let y ← st y (k + n3) (neon3 N x0 x1 x1r x2 x2r wn)
  let wn ← ld2 w (2 * (2 * n3 + 2 * j))
  st y (k + 2 * n3) (neon3 N x0 x1 x1r x2 x2r wn)

/-- `neon_fft_bf3`, src/mdct_neon.h:113-214: the pointers of `x` run over the rows. -/
def neonFftBf3 (N : Neon R) (tw : Nat × List R) (n : Nat) (x y : List R) : Option (List R) :=
  iter (fun i y => (iter (neonBf3Pair N tw.1 tw.2 n x i) 0 (tw.1 / 2) y).bind fun y =>
    if tw.1 % 2 = 1 then neonBf3Last N tw.1 tw.2 n x i (tw.1 / 2) y else some y) 0 n y

/-- A pair of `neon_fft_bf2`, src/mdct_neon.h:244-263. -/
def neonBf2Pair (N : Neon R) (n2 : Nat) (w : List R) (n : Nat) (x : List R) (i j : Nat) (y : List R) : Option (List R) := do
  let t := i * n2 + 2 * j
  let x0 ← ldq x t; let x1 ← ldq x (t + n * n2)
  let x1r := V4.trn1 (V4.rev (V4.map N.fneg x1)) x1
  let w ← ldq w (2 * j)
  let wre := V4.trn1 w w
  let wim := V4.trn2 w w
  let k := 2 * n2 * i + 2 * j
  let y0 := V4.map3 N.fma x0 x1 wre
  let y0 := V4.map3 N.fma y0 x1r wim
  let y ← stq y k y0
  let y1 := V4.map3 N.fms x0 x1 wre
  let y1 := V4.map3 N.fms y1 x1r wim
  stq y (k + n2) y1

/-- The last iteration of a row of odd length, src/mdct_neon.h:267-286. -/
def neonBf2Last (N : Neon R) (n2 : Nat) (w : List R) (n : Nat) (x : List R) (i j : Nat) (y : List R) : Option (List R) := do
  let t := i * n2 + 2 * j
  let x0 ← ld x t; let x1 ← ld x (t + n * n2)
  let x1r := V2.trn1 (V2.rev (V2.map N.fneg x1)) x1
  let w ← ld w (2 * j)
  let wre := V2.trn1 w w
  let wim := V2.trn2 w w
  let k := 2 * n2 * i + 2 * j
  let y0 := V2.map3 N.fma x0 x1 wre
  let y0 := V2.map3 N.fma y0 x1r wim
  let y ← st y k y0
  let y1 := V2.map3 N.fms x0 x1 wre
  let y1 := V2.map3 N.fms y1 x1r wim
  st y (k + n2) y1

/-- `neon_fft_bf2`, src/mdct_neon.h:227-288. -/
def neonFftBf2 (N : Neon R) (tw : Nat × List R) (n : Nat) (x y : List R) : Option (List R) :=
  iter (fun i y => (iter (neonBf2Pair N tw.1 tw.2 n x i) 0 (tw.1 / 2) y).bind fun y =>
    if tw.1 % 2 = 1 then neonBf2Last N tw.1 tw.2 n x i (tw.1 / 2) y else some y) 0 n y

/-- The loop of src/mdct.c:187-188 with `neon_fft_bf3`, as `fftLoop3`. -/
def neonLoop3 (N : Neon R) (T : MdctTables R) : Nat → Nat → Nat → Bool → List R → List R → Option (Nat × Nat × Bool × List R × List R)
  | 0, _, _, _, _, _ => none
  | fuel + 1, n, i3, swap, src, dst =>
    if n &&& (n - 1) = 0 then some (n, i3, swap, src, dst) else
    (T.bf3 i3).bind fun tw => (neonFftBf3 N tw (n / 3) src dst).bind fun dst =>
    neonLoop3 N T fuel (n / 3) (i3 + 1) (!swap) dst src

/-- The loop of src/mdct.c:190-191 with `neon_fft_bf2`, as `fftLoop2`. -/
def neonLoop2 (N : Neon R) (T : MdctTables R) (i3 : Nat) : Nat → Nat → Nat → Bool → List R → List R → Option (Bool × List R × List R)
  | 0, _, _, _, _, _ => none
  | fuel + 1, n, i2, swap, src, dst =>
    if n ≤ 1 then some (swap, src, dst) else
    (T.bf2 i2 i3).bind fun tw => (neonFftBf2 N tw (n / 2) src dst).bind fun dst =>
    neonLoop2 N T i3 fuel (n / 2) (i2 + 1) (!swap) dst src

/-- `fft`, src/mdct.c:168-194, when `fft_5`, `fft_bf3` and `fft_bf2` are those of src/mdct_neon.h (src/mdct.c:22). -/
def neonFft (N : Neon R) (T : MdctTables R) (n : Nat) (y0 y1 : List R) : Option (Bool × List R × List R) := do
  let y1 ← neonFft5 N T (n / 5) y0 y1
  let w ← neonLoop3 N T (n / 5 + 1) (n / 5) 0 false y1 y0
  let r ← neonLoop2 N T w.2.1 (w.1 + 1) w.1 0 w.2.2.1 w.2.2.2.1 w.2.2.2.2
  return (r.1, if r.1 then (r.2.1, r.2.2) else (r.2.2, r.2.1))

/-- `lc3_mdct_forward`, src/mdct.c:430-450, on these processors. -/
def neonMdctForward (N : Neon R) (sqrt : R → R) (T : MdctTables R) (dt : Dt) (sr srDst : Srate) (buf x d y : List R) :
    Option (List R × List R) := do
  let A := N.toArith
  let rot ← T.rot dt sr
  let win ← T.win dt sr
  let w ← mdctWindow A (ns dt sr) (nd dt sr) win x d buf
  let u ← mdctPre A rot w.1
  let r ← neonFft N T (ns dt sr / 2) u y
  let y ← mdctPost A rot (if r.1 then some r.2.1 else none) r.2.2
  (if ns dt sr ≠ ns dt srDst then
      rescale A (ns dt srDst) (sqrt (A.div (A.ofInt (ns dt srDst)) (A.ofInt (ns dt sr)))) y
    else some y).bind fun y => some (y, w.2)

/-- `lc3_mdct_inverse`, src/mdct.c:455-475, on these processors. -/
def neonMdctInverse (N : Neon R) (sqrt : R → R) (T : MdctTables R) (dt : Dt) (sr srSrc : Srate) (buf : List R) (x : Option (List R))
    (d y : List R) : Option (List R × List R) := do
  let A := N.toArith
  let rot ← T.rot dt sr
  let win ← T.win dt sr
  let z ← imdctPre A rot x y
  let r ← neonFft N T (ns dt sr / 2) z buf
  let u ← imdctPost A rot (if r.1 then some r.2.1 else none) r.2.2
  (if ns dt sr ≠ ns dt srSrc then
      rescale A (ns dt sr) (sqrt (A.div (A.ofInt (ns dt sr)) (A.ofInt (ns dt srSrc)))) u
    else some u).bind fun u => imdctWindow A (ns dt sr) (nd dt sr) win u d r.2.1

end LC3
