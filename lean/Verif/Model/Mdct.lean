import Verif.Model.Api
import Verif.Model.Arith

/-!
Model of `src/mdct.c`: FFT and MDCT transforms.

Buffers are lists of `float`; a buffer of complex numbers is the list of its real and imaginary parts, alternately, as the
code casts one to the other. Accesses are checked: `none` is an access out of the buffer. The walk of the pointers is
written as index expressions of the iteration number.
-/

namespace LC3

/-! ### Accesses and loops -/

/-- Read of a cell. -/
def rd {R : Type} (l : List R) (i : Int) : Option R := if 0 ≤ i then l[i.toNat]? else none

/-- Write of a cell. -/
def wr {R : Type} (l : List R) (i : Int) (v : R) : Option (List R) :=
  if 0 ≤ i ∧ i < l.length then some (l.set i.toNat v) else none

/-- The iterations from `i`, `n` times. -/
def iter {S : Type} (body : Nat → S → Option S) : Nat → Nat → S → Option S
  | _, 0, s => some s
  | i, n + 1, s => (body i s).bind (iter body (i + 1) n)

/-- The tables of `src/tables.c`: 85-156 (3 points butterflies), 158-615 (2 points butterflies), 617-1468 (rotations),
1470-4080 (windows), and the constants of src/mdct.c:38-42. Complex numbers are flattened; a missing table is `none`. -/
structure MdctTables (R : Type) where
  cos1 : R
  cos2 : R
  sin1 : R
  sin2 : R
  bf3 : Nat → Option (Nat × List R)
  bf2 : Nat → Nat → Option (Nat × List R)
  rot : Dt → Srate → Option (Nat × List R)
  win : Dt → Srate → Option (List R)

variable {R : Type}

/-! ### FFT -/

/-- An iteration of `fft_5`, src/mdct.c:44-83. -/
def fft5Body (A : Arith R) (T : MdctTables R) (n : Nat) (x : List R) (i : Nat) (y : List R) : Option (List R) := do
  let x0r ← rd x (2 * i);           let x0i ← rd x (2 * i + 1)
  let x1r ← rd x (2 * (i + 1 * n)); let x1i ← rd x (2 * (i + 1 * n) + 1)
  let x2r ← rd x (2 * (i + 2 * n)); let x2i ← rd x (2 * (i + 2 * n) + 1)
  let x3r ← rd x (2 * (i + 3 * n)); let x3i ← rd x (2 * (i + 3 * n) + 1)
  let x4r ← rd x (2 * (i + 4 * n)); let x4i ← rd x (2 * (i + 4 * n) + 1)
  let s14r := A.add x1r x4r; let s14i := A.add x1i x4i
  let d14r := A.sub x1r x4r; let d14i := A.sub x1i x4i
  let s23r := A.add x2r x3r; let s23i := A.add x2i x3i
  let d23r := A.sub x2r x3r; let d23i := A.sub x2i x3i
  let y ← wr y (10 * i + 0) (A.add (A.add x0r s14r) s23r)
  let y ← wr y (10 * i + 1) (A.add (A.add x0i s14i) s23i)
  let y ← wr y (10 * i + 2) (A.sub (A.add (A.sub (A.add x0r (A.mul s14r T.cos1)) (A.mul d14i T.sin1)) (A.mul s23r T.cos2)) (A.mul d23i T.sin2))
  let y ← wr y (10 * i + 3) (A.add (A.add (A.add (A.add x0i (A.mul s14i T.cos1)) (A.mul d14r T.sin1)) (A.mul s23i T.cos2)) (A.mul d23r T.sin2))
  let y ← wr y (10 * i + 4) (A.add (A.add (A.sub (A.add x0r (A.mul s14r T.cos2)) (A.mul d14i T.sin2)) (A.mul s23r T.cos1)) (A.mul d23i T.sin1))
  let y ← wr y (10 * i + 5) (A.sub (A.add (A.add (A.add x0i (A.mul s14i T.cos2)) (A.mul d14r T.sin2)) (A.mul s23i T.cos1)) (A.mul d23r T.sin1))
  let y ← wr y (10 * i + 6) (A.sub (A.add (A.add (A.add x0r (A.mul s14r T.cos2)) (A.mul d14i T.sin2)) (A.mul s23r T.cos1)) (A.mul d23i T.sin1))
  let y ← wr y (10 * i + 7) (A.add (A.add (A.sub (A.add x0i (A.mul s14i T.cos2)) (A.mul d14r T.sin2)) (A.mul s23i T.cos1)) (A.mul d23r T.sin1))
  let y ← wr y (10 * i + 8) (A.add (A.add (A.add (A.add x0r (A.mul s14r T.cos1)) (A.mul d14i T.sin1)) (A.mul s23r T.cos2)) (A.mul d23i T.sin2))
  wr y (10 * i + 9) (A.sub (A.add (A.sub (A.add x0i (A.mul s14i T.cos1)) (A.mul d14r T.sin1)) (A.mul s23i T.cos2)) (A.mul d23r T.sin2))

/-- `fft_5`, src/mdct.c:35-84. -/
def fft5 (A : Arith R) (T : MdctTables R) (n : Nat) (x y : List R) : Option (List R) := iter (fft5Body A T n x) 0 n y

/-- The real part of `x0 + x1 * a + x2 * b`, src/mdct.c:108-109. -/
def cmac3Re (A : Arith R) (x0 x1 x2 a b : R × R) : R :=
  A.sub (A.add (A.sub (A.add x0.1 (A.mul x1.1 a.1)) (A.mul x1.2 a.2)) (A.mul x2.1 b.1)) (A.mul x2.2 b.2)

/-- The imaginary part, src/mdct.c:111-112. -/
def cmac3Im (A : Arith R) (x0 x1 x2 a b : R × R) : R :=
  A.add (A.add (A.add (A.add x0.2 (A.mul x1.2 a.1)) (A.mul x1.1 a.2)) (A.mul x2.2 b.1)) (A.mul x2.1 b.2)

/-- Read of a complex number. -/
def rdc (l : List R) (i : Int) : Option (R × R) := do
  let r ← rd l (2 * i)
  let m ← rd l (2 * i + 1)
  return (r, m)

/-- An iteration of the inner loop of `fft_bf3`, src/mdct.c:106-125: `t = i * n3 + j`. -/
def bf3Body (A : Arith R) (n3 : Nat) (w : List R) (n : Nat) (x : List R) (t : Nat) (y : List R) : Option (List R) := do
  let i := t / n3
  let j := t % n3
  let x0 ← rdc x t; let x1 ← rdc x (t + n * n3); let x2 ← rdc x (t + n * n3 + n * n3)
  let a0 ← rdc w (2 * j); let b0 ← rdc w (2 * j + 1)
  let a1 ← rdc w (2 * (n3 + j)); let b1 ← rdc w (2 * (n3 + j) + 1)
  let a2 ← rdc w (2 * (2 * n3 + j)); let b2 ← rdc w (2 * (2 * n3 + j) + 1)
  let k := 3 * n3 * i + j
  let y ← wr y (2 * k) (cmac3Re A x0 x1 x2 a0 b0)
  let y ← wr y (2 * k + 1) (cmac3Im A x0 x1 x2 a0 b0)
  let y ← wr y (2 * (k + n3)) (cmac3Re A x0 x1 x2 a1 b1)
  let y ← wr y (2 * (k + n3) + 1) (cmac3Im A x0 x1 x2 a1 b1)
  let y ← wr y (2 * (k + 2 * n3)) (cmac3Re A x0 x1 x2 a2 b2)
  wr y (2 * (k + 2 * n3) + 1) (cmac3Im A x0 x1 x2 a2 b2)

/-- `fft_bf3`, src/mdct.c:94-126. -/
def fftBf3 (A : Arith R) (tw : Nat × List R) (n : Nat) (x y : List R) : Option (List R) :=
  iter (bf3Body A tw.1 tw.2 n x) 0 (n * tw.1) y

/-- An iteration of the inner loop of `fft_bf2`, src/mdct.c:148-155: `t = i * n2 + j`. -/
def bf2Body (A : Arith R) (n2 : Nat) (w : List R) (n : Nat) (x : List R) (t : Nat) (y : List R) : Option (List R) := do
  let i := t / n2
  let j := t % n2
  let x0 ← rdc x t; let x1 ← rdc x (t + n * n2)
  let a ← rdc w j
  let k := 2 * n2 * i + j
  let y ← wr y (2 * k) (A.sub (A.add x0.1 (A.mul x1.1 a.1)) (A.mul x1.2 a.2))
  let y ← wr y (2 * k + 1) (A.add (A.add x0.2 (A.mul x1.2 a.1)) (A.mul x1.1 a.2))
  let y ← wr y (2 * (k + n2)) (A.add (A.sub x0.1 (A.mul x1.1 a.1)) (A.mul x1.2 a.2))
  wr y (2 * (k + n2) + 1) (A.sub (A.sub x0.2 (A.mul x1.2 a.1)) (A.mul x1.1 a.2))

/-- `fft_bf2`, src/mdct.c:136-157. -/
def fftBf2 (A : Arith R) (tw : Nat × List R) (n : Nat) (x y : List R) : Option (List R) :=
  iter (bf2Body A tw.1 tw.2 n x) 0 (n * tw.1) y

/-- The loop of src/mdct.c:187-188: `src` is `y[is]` and `dst` is `y[is ^ 1]`, exchanged at each iteration, as told by
the boolean. `fuel` bounds the number of iterations (more than `n` is enough). -/
def fftLoop3 (A : Arith R) (T : MdctTables R) : Nat → Nat → Nat → Bool → List R → List R → Option (Nat × Nat × Bool × List R × List R)
  | 0, _, _, _, _, _ => none
  | fuel + 1, n, i3, swap, src, dst =>
    if n &&& (n - 1) = 0 then some (n, i3, swap, src, dst) else
    (T.bf3 i3).bind fun tw => (fftBf3 A tw (n / 3) src dst).bind fun dst =>
    fftLoop3 A T fuel (n / 3) (i3 + 1) (!swap) dst src

/-- The loop of src/mdct.c:190-191. -/
def fftLoop2 (A : Arith R) (T : MdctTables R) (i3 : Nat) : Nat → Nat → Nat → Bool → List R → List R → Option (Bool × List R × List R)
  | 0, _, _, _, _, _ => none
  | fuel + 1, n, i2, swap, src, dst =>
    if n ≤ 1 then some (swap, src, dst) else
    (T.bf2 i2 i3).bind fun tw => (fftBf2 A tw (n / 2) src dst).bind fun dst =>
    fftLoop2 A T i3 fuel (n / 2) (i2 + 1) (!swap) dst src

/-- `fft`, src/mdct.c:168-194: from `x`, equal to `y0`, the contents of `y0` and `y1` and whether the result is in `y0`. -/
def fft (A : Arith R) (T : MdctTables R) (n : Nat) (y0 y1 : List R) : Option (Bool × List R × List R) := do
  let y1 ← fft5 A T (n / 5) y0 y1
  let w ← fftLoop3 A T (n / 5 + 1) (n / 5) 0 false y1 y0
  let r ← fftLoop2 A T w.2.1 (w.1 + 1) w.1 0 w.2.2.1 w.2.2.2.1 w.2.2.2.2
  return (r.1, if r.1 then (r.2.1, r.2.2) else (r.2.2, r.2.1))

/-! ### MDCT -/

/-- Two steps by iteration, from the step `j0`. -/
def pairs {S : Type} (step : Nat → S → Option S) (j0 n : Nat) (s : S) : Option S :=
  iter (fun i s => (step (j0 + 2 * i) s).bind (step (j0 + 2 * i + 1))) 0 n s

/-- A step of the first loop of `mdct_window`, src/mdct.c:222-223: the state is `y` and `d`. -/
def winStepA (A : Arith R) (ns nd : Nat) (win x : List R) (j : Nat) (s : List R × List R) : Option (List R × List R) := do
  let a ← rd s.2 j; let w0 ← rd win j
  let b ← rd x ((ns : Int) - nd - j - 1); let w1 ← rd win ((ns : Int) - j - 1)
  let y ← wr s.1 ((ns / 2 : Nat) - j - 1 : Int) (A.sub (A.mul a w0) (A.mul b w1))
  let c ← rd x ((ns : Int) - nd + j)
  let d ← wr s.2 j c
  let w2 ← rd win (ns + j)
  let y ← wr y ((ns / 2 : Nat) + j) (A.mul c w2)
  return (y, d)

/-- A step of the second loop of `mdct_window`, src/mdct.c:230-231; `j0` is the number of steps of the first one. -/
def winStepB (A : Arith R) (ns nd j0 : Nat) (win x : List R) (j : Nat) (s : List R × List R) : Option (List R × List R) := do
  let a ← rd s.2 j; let w0 ← rd win j
  let b ← rd s.2 ((nd : Int) - (j - j0) - 1); let w1 ← rd win ((ns : Int) - j - 1)
  let y ← wr s.1 ((ns / 2 : Nat) - j - 1 : Int) (A.sub (A.mul a w0) (A.mul b w1))
  let c ← rd x ((ns : Int) - nd + j)
  let d ← wr s.2 j c
  let w2 ← rd win (ns + j)
  let e ← rd x (2 * (ns : Int) - nd - j - 1)
  let d ← wr d ((nd : Int) - (j - j0) - 1) e
  let w3 ← rd win ((ns : Int) + nd - (j - j0) - 1)
  let y ← wr y ((ns / 2 : Nat) + j) (A.add (A.mul c w2) (A.mul e w3))
  return (y, d)

/-- `mdct_window`, src/mdct.c:207-236: the loops are unrolled twice. -/
def mdctWindow (A : Arith R) (ns nd : Nat) (win x d y : List R) : Option (List R × List R) := do
  let n1 := (ns - nd + 1) / 2
  let s ← pairs (winStepA A ns nd win x) 0 n1 (y, d)
  let j0 := 2 * n1
  -- while ns - nd + j < 2 ns - nd - j
  pairs (winStepB A ns nd j0 win x) j0 ((ns - 2 * j0 + 3) / 4) s

/-- Negation. -/
def Arith.neg (A : Arith R) (x : R) : R := A.sub (A.ofRat 0) x

/-- An iteration of `mdct_pre_fft`, src/mdct.c:254-265, in place. -/
def preBody (A : Arith R) (n4 : Nat) (w : List R) (i : Nat) (y : List R) : Option (List R) := do
  let uw ← rdc w i
  let x1 ← rd y (2 * (n4 : Int) - 2 * i - 1); let x0 ← rd y (2 * i)
  let ur := A.add (A.mul (A.neg x1) uw.1) (A.mul x0 uw.2)
  let ui := A.add (A.mul x0 uw.1) (A.mul x1 uw.2)
  let vw ← rdc w ((n4 : Int) - i - 1)
  let x1 ← rd y (2 * (n4 : Int) - 2 * i - 2); let x0 ← rd y (2 * i + 1)
  let vr := A.add (A.mul (A.neg x1) vw.2) (A.mul x0 vw.1)
  let vi := A.sub (A.mul (A.neg x0) vw.2) (A.mul x1 vw.1)
  let y ← wr y (2 * i) ur
  let y ← wr y (2 * i + 1) ui
  let y ← wr y (2 * ((n4 : Int) - i - 1)) vr
  wr y (2 * ((n4 : Int) - i - 1) + 1) vi

/-- `mdct_pre_fft`, src/mdct.c:245-266, with `x` and `y` the same buffer, as called. -/
def mdctPre (A : Arith R) (rot : Nat × List R) (y : List R) : Option (List R) := iter (preBody A rot.1 rot.2) 0 ((rot.1 + 1) / 2) y

/-- An iteration of `mdct_post_fft`, src/mdct.c:285-295; `x` is `none` when it is the same buffer as `y`. -/
def postBody (A : Arith R) (n4 : Nat) (w : List R) (x : Option (List R)) (i : Nat) (y : List R) : Option (List R) := do
  let src := x.getD y
  let n8 := n4 / 2
  let x0 ← rdc src (n8 + i); let x1 ← rdc src ((n8 : Int) - 1 - i)
  let w0 ← rdc w (n8 + i); let w1 ← rdc w ((n8 : Int) - 1 - i)
  let u0 := A.add (A.mul x0.2 w0.2) (A.mul x0.1 w0.1)
  let u1 := A.sub (A.mul x1.1 w1.2) (A.mul x1.2 w1.1)
  let v0 := A.sub (A.mul x0.1 w0.2) (A.mul x0.2 w0.1)
  let v1 := A.add (A.mul x1.2 w1.2) (A.mul x1.1 w1.1)
  let y ← wr y (n4 + 2 * i) u0
  let y ← wr y (n4 + 2 * i + 1) u1
  let y ← wr y ((n4 : Int) - 2 * i - 1) v0
  wr y ((n4 : Int) - 2 * i - 2) v1

/-- `mdct_post_fft`, src/mdct.c:275-296. -/
def mdctPost (A : Arith R) (rot : Nat × List R) (x : Option (List R)) (y : List R) : Option (List R) :=
  iter (postBody A rot.1 rot.2 x) 0 ((rot.1 + 1) / 2) y

/-- An iteration of `imdct_pre_fft`, src/mdct.c:317-327; `x` is `none` when it is the same buffer as `y`. -/
def ipreBody (A : Arith R) (n4 : Nat) (w : List R) (x : Option (List R)) (i : Nat) (y : List R) : Option (List R) := do
  let src := x.getD y
  let u0 ← rd src (2 * i); let u1 ← rd src (2 * (n4 : Int) - 2 * i - 1)
  let v0 ← rd src (2 * i + 1); let v1 ← rd src (2 * (n4 : Int) - 2 * i - 2)
  let uw ← rdc w i; let vw ← rdc w ((n4 : Int) - i - 1)
  let y ← wr y (2 * i) (A.sub (A.mul (A.neg u0) uw.1) (A.mul u1 uw.2))
  let y ← wr y (2 * i + 1) (A.add (A.mul (A.neg u1) uw.1) (A.mul u0 uw.2))
  let y ← wr y (2 * ((n4 : Int) - i - 1)) (A.sub (A.mul (A.neg v1) vw.1) (A.mul v0 vw.2))
  wr y (2 * ((n4 : Int) - i - 1) + 1) (A.add (A.mul (A.neg v0) vw.1) (A.mul v1 vw.2))

/-- `imdct_pre_fft`, src/mdct.c:307-328. -/
def imdctPre (A : Arith R) (rot : Nat × List R) (x : Option (List R)) (y : List R) : Option (List R) :=
  iter (ipreBody A rot.1 rot.2 x) 0 ((rot.1 + 1) / 2) y

/-- An iteration of `imdct_post_fft`, src/mdct.c:349-358; `x` is `none` when it is the same buffer as `y`. -/
def ipostBody (A : Arith R) (n4 : Nat) (w : List R) (x : Option (List R)) (i : Nat) (y : List R) : Option (List R) := do
  let src := x.getD y
  let uz ← rdc src i; let vz ← rdc src ((n4 : Int) - i - 1)
  let uw ← rdc w i; let vw ← rdc w ((n4 : Int) - i - 1)
  let y ← wr y (2 * i) (A.sub (A.mul uz.1 uw.2) (A.mul uz.2 uw.1))
  let y ← wr y (2 * (n4 : Int) - 2 * i - 1) (A.add (A.mul uz.1 uw.1) (A.mul uz.2 uw.2))
  let y ← wr y (2 * (n4 : Int) - 2 * i - 2) (A.sub (A.mul vz.1 vw.2) (A.mul vz.2 vw.1))
  wr y (2 * i + 1) (A.add (A.mul vz.1 vw.1) (A.mul vz.2 vw.2))

/-- `imdct_post_fft`, src/mdct.c:339-359. -/
def imdctPost (A : Arith R) (rot : Nat × List R) (x : Option (List R)) (y : List R) : Option (List R) :=
  iter (ipostBody A rot.1 rot.2 x) 0 ((rot.1 + 1) / 2) y

/-- A step of the first loop of `imdct_window`, src/mdct.c:385-386: the state is `y` and `d`. -/
def iwinStep1 (A : Arith R) (n4 nd : Nat) (win x : List R) (j : Nat) (s : List R × List R) : Option (List R × List R) := do
  let a ← rd s.2 ((nd : Int) - n4 - j - 1); let u ← rd x j; let w1 ← rd win (3 * n4 + j)
  let y ← wr s.1 ((nd : Int) - n4 - j - 1) (A.sub a (A.mul u w1))
  let b ← rd s.2 ((nd : Int) - n4 + j); let w0 ← rd win (3 * (n4 : Int) - j - 1)
  let y ← wr y ((nd : Int) - n4 + j) (A.add b (A.mul u w0))
  return (y, s.2)

/-- A step of the second loop, src/mdct.c:393. -/
def iwinStep2 (A : Arith R) (n4 nd : Nat) (win x : List R) (j : Nat) (s : List R × List R) : Option (List R × List R) := do
  let b ← rd s.2 ((nd : Int) - n4 + j); let u ← rd x j; let w0 ← rd win (3 * (n4 : Int) - j - 1)
  let y ← wr s.1 ((nd : Int) - n4 + j) (A.add b (A.mul u w0))
  return (y, s.2)

/-- A step of the third loop, src/mdct.c:398-399; `j2` is the number of steps of the first two. -/
def iwinStep3 (A : Arith R) (n4 nd j2 : Nat) (win x : List R) (j : Nat) (s : List R × List R) : Option (List R × List R) := do
  let u ← rd x j; let w0 ← rd win (3 * (n4 : Int) - j - 1)
  let y ← wr s.1 ((nd : Int) - n4 + j) (A.mul u w0)
  let w2 ← rd win ((j : Int) - j2)
  let d ← wr s.2 ((nd : Int) - (j - j2) - 1) (A.mul u w2)
  return (y, d)

/-- A step of the last loop, src/mdct.c:406-407; `j3` is the number of steps of the first three. -/
def iwinStep4 (A : Arith R) (n4 nd j2 j3 : Nat) (win x : List R) (j : Nat) (s : List R × List R) : Option (List R × List R) := do
  let u ← rd x j; let w0 ← rd win (3 * (n4 : Int) - j - 1)
  let d ← wr s.2 ((j : Int) - j3) (A.mul u w0)
  let w2 ← rd win ((j : Int) - j2)
  let d ← wr d ((nd : Int) - (j - j2) - 1) (A.mul u w2)
  return (s.1, d)

/-- `imdct_window`, src/mdct.c:367-412: the number of iterations of each loop is deduced from its condition. -/
def imdctWindow (A : Arith R) (ns nd : Nat) (win x d y : List R) : Option (List R × List R) := do
  let n4 := ns / 2
  let i1 := (nd - n4 + 1) / 2
  let s ← pairs (iwinStep1 A n4 nd win x) 0 i1 (y, d)
  let j1 := 2 * i1
  -- while nd - n4 + j < nd
  let i2 := (n4 - j1 + 1) / 2
  let s ← pairs (iwinStep2 A n4 nd win x) j1 i2 s
  let j2 := j1 + 2 * i2
  -- while nd - n4 + j < 2 n4
  let i3 := (3 * n4 - nd - j2 + 1) / 2
  let s ← pairs (iwinStep3 A n4 nd j2 win x) j2 i3 s
  let j3 := j2 + 2 * i3
  -- while nd - (j - j2) > j - j3
  let i4 := (nd + j2 + j3 - 2 * j3 + 3) / 4
  pairs (iwinStep4 A n4 nd j2 j3 win x) j3 i4 s

/-- `rescale`, src/mdct.c:419-425: the `n / 4 * 4` first values. -/
def rescale (A : Arith R) (n : Nat) (f : R) (x : List R) : Option (List R) :=
  if x.length < n / 4 * 4 then none else
  some ((x.take (n / 4 * 4)).map (fun v => A.mul v f) ++ x.drop (n / 4 * 4))

/-- `lc3_mdct_forward`, src/mdct.c:430-450: `buf` is the content of the local buffer, not initialised, of `LC3_MAX_NS` values;
`y` is the output buffer, which may be the same as `x`; the outcome is the output and the delayed samples. -/
def mdctForward (A : Arith R) (sqrt : R → R) (T : MdctTables R) (dt : Dt) (sr srDst : Srate) (buf x d y : List R) :
    Option (List R × List R) := do
  let rot ← T.rot dt sr
  let win ← T.win dt sr
  let w ← mdctWindow A (ns dt sr) (nd dt sr) win x d buf
  let u ← mdctPre A rot w.1
  let r ← fft A T (ns dt sr / 2) u y
  let y ← mdctPost A rot (if r.1 then some r.2.1 else none) r.2.2
  (if ns dt sr ≠ ns dt srDst then
      rescale A (ns dt srDst) (sqrt (A.div (A.ofInt (ns dt srDst)) (A.ofInt (ns dt sr)))) y
    else some y).bind fun y => some (y, w.2)

/-- `lc3_mdct_inverse`, src/mdct.c:455-475: `x` is `none` when it is the same buffer as `y`; the outcome is the output and the
delayed samples. -/
def mdctInverse (A : Arith R) (sqrt : R → R) (T : MdctTables R) (dt : Dt) (sr srSrc : Srate) (buf : List R) (x : Option (List R))
    (d y : List R) : Option (List R × List R) := do
  let rot ← T.rot dt sr
  let win ← T.win dt sr
  let z ← imdctPre A rot x y
  let r ← fft A T (ns dt sr / 2) z buf
  let u ← imdctPost A rot (if r.1 then some r.2.1 else none) r.2.2
  (if ns dt sr ≠ ns dt srSrc then
      rescale A (ns dt sr) (sqrt (A.div (A.ofInt (ns dt sr)) (A.ofInt (ns dt srSrc)))) u
    else some u).bind fun u => imdctWindow A (ns dt sr) (nd dt sr) win u d r.2.1

end LC3
