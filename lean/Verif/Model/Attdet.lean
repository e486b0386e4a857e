import Verif.Model.Api

/-!
Model of `src/attdet.c`: time domain attack detector.

The samples are read in a list `x`, the first sample of the frame is at the index `o` of the list: `x[-6]` in the code is the
element `o - 6`. A read out of the list, an overflow of `int`, or a value that does not fit in `int16_t` where one is
stored, is the outcome `none`.
-/

namespace LC3

/-- `lc3_attdet_analysis_t`, include/lc3_private.h:90-93. -/
structure Attdet where
  en1 : Int
  an1 : Int
  pAtt : Int

/-- A value stored in an `int16_t`; `none` if it is not preserved. -/
def i16 (x : Int) : Option Int := if -32768 ≤ x ∧ x ≤ 32767 then some x else none

/-- `nbytes_ranges`, src/attdet.c:30-33, with the condition on the duration and rate of src/attdet.c:35-38: the range
of sizes where the detector runs. -/
def attdetRange (dt : Dt) (sr : Srate) : Option (Int × Int) :=
  match dt, sr with
  | .m7_5, .k32 => some (61, 149)
  | .m7_5, .k48 => some (75, 149)
  | .m10, .k32 => some (81, 2147483647)
  | .m10, .k48 => some (100, 2147483647)
  | _, _ => none

/-- Mean of the samples: `(x[0] + x[1]) >> 1`, src/attdet.c:54, or `(x[0] + x[1] + x[2]) >> 2`, src/attdet.c:66;
`m` is the number of samples. -/
def attdetDown (x : List Int) (i m : Nat) : Option Int :=
  (x[i]?).bind fun a => (x[i + 1]?).bind fun b =>
  if m = 2 then (i32 (a + b)).bind fun s => i16 (s >>> 1)
  else (x[i + 2]?).bind fun c => (i32 (a + b)).bind fun s => (i32 (s + c)).bind fun s => i16 (s >>> 2)

/-- The loops on `j` of `lc3_attdet_run`, src/attdet.c:53-57, 65-69: `n` iterations. -/
def attdetEnergy (x : List Int) (m : Nat) : Nat → Nat → Int → Int → Int → Option Int
  | 0, _, _, _, e => some e
  | n + 1, i, xn1, xn2, e =>
    (attdetDown x i m).bind fun xn =>
    (i32 (3 * xn)).bind fun a => (i32 (4 * xn1)).bind fun b => (i32 (a - b)).bind fun c => (i32 (c + 1 * xn2)).bind fun d =>
    (i16 (d >>> 3)).bind fun xf => (i32 (xf * xf)).bind fun s => (i32 (e + (s >>> 5))).bind fun e =>
    attdetEnergy x m n (i + m) xn xn1 e

/-- A block of 40 values from the sample `i`, src/attdet.c:46-70. -/
def attdetBlock (x : List Int) (m i : Nat) : Option Int :=
  if i < 2 * m then none else
  (attdetDown x (i - 2 * m) m).bind fun xn2 => (attdetDown x (i - m) m).bind fun xn1 =>
  attdetEnergy x m 40 i xn1 xn2 0

/-- The first loop of `lc3_attdet_run`, src/attdet.c:45-71: the energies of `n` blocks. -/
def attdetBlocks (x : List Int) (m : Nat) : Nat → Nat → Option (List Int)
  | 0, _ => some []
  | n + 1, i =>
    (attdetBlock x m i).bind fun e => (attdetBlocks x m n (i + 40 * m)).map fun l => e :: l

/-- The second loop of `lc3_attdet_run`, src/attdet.c:80-86, from the block `i`: `en1`, `an1` and `p_att`. -/
def attdetDetect : List Int → Nat → Int → Int → Int → Option (Int × Int × Int)
  | [], _, en1, an1, p => some (en1, an1, p)
  | e :: l, i, en1, an1, p =>
    let a := max (an1 >>> 2) en1
    (i32 (a + (a >>> 4))).bind fun t =>
    attdetDetect l (i + 1) e a (if e >>> 3 > t then i + 1 else p)

/-- `lc3_attdet_run`, src/attdet.c:25-92: the detection and the new state. -/
def attdetRun (dt : Dt) (sr : Srate) (nbytes : Int) (s : Attdet) (x : List Int) (o : Nat) : Option (Bool × Attdet) :=
  match attdetRange dt sr with
  | none => some (false, s)
  | some (lo, hi) =>
    if nbytes < lo ∨ nbytes > hi then some (false, s) else
    let nblk := if dt = .m7_5 then 3 else 4
    (attdetBlocks x (if sr = .k32 then 2 else 3) nblk o).bind fun e =>
    (attdetDetect e 0 s.en1 s.an1 0).map fun q =>
    (decide (s.pAtt ≥ 1 + nblk >>> 1) || decide (q.2.2 > 0), ⟨q.1, q.2.1, q.2.2⟩)

end LC3
