import Verif.Model.Pcm
import Verif.Model.Gain

/-!
Model of `src/fastmath.h` on the binary32 representations.

The operations are the ones of IEEE 754, to the nearest with ties to even, subnormal numbers included. Simplifications: the sign
of the zeros is lost, the results are not numbers only by an overflow, and the operations are the ones written (the compiler
option `-ffast-math` allows others).
-/

namespace LC3

/-- The exponent of the operand, at least the one of the subnormal numbers. -/
def F32.expOf (a : Rat) : Int :=
  let e0 : Int := (Nat.log2 a.num.toNat : Int) - (Nat.log2 a.den : Int)
  max (if a < pow2 e0 then e0 - 1 else e0) (-126)

/-- The representation of the magnitude `a`: the infinity from `2^128 - 2^103`. -/
def F32.roundPos (a : Rat) : Nat :=
  if a = 0 then 0 else
  let e := F32.expOf a
  min ((e + 126) * 2 ^ 23 + rneInt (a * pow2 (23 - e))).toNat (255 * 2 ^ 23)

/-- Rounding of IEEE 754 binary32, to the nearest, ties to even: the representation. -/
def F32.round (x : Rat) : Nat := if x < 0 then 2 ^ 31 + F32.roundPos (-x) else F32.roundPos x

/-- The `float` nearest to `x`. -/
def fl (x : Rat) : Rat := F32.value (F32.round x)

/-- The table `e` of `lc3_exp2f`, src/fastmath.h:81-83, before the conversion to `float`. -/
def exp2E : List Rat :=
  [1, 109050773/100000000, 118920712/100000000, 129683955/100000000, 141421356/100000000, 154221083/100000000,
   168179283/100000000, 183400809/100000000]

/-- The table `p` of `lc3_exp2f`, src/fastmath.h:87-88, before the conversion to `float`. -/
def exp2P : Nat → Rat
  | 0 => 100448128/10000000000
  | 1 => 55456326/1000000000
  | 2 => 240228756/1000000000
  | _ => 69314714/100000000

/-- `0x1.8p20f`, src/fastmath.h:99. -/
def exp2C : Rat := 1572864

/-- The polynomial of src/fastmath.h:109-112, without the last constant. -/
def exp2Poly (x : Rat) : Rat :=
  let y := fl (fl (exp2P 0) * x)
  let y := fl (fl (y + fl (exp2P 1)) * x)
  let y := fl (fl (y + fl (exp2P 2)) * x)
  fl (fl (y + fl (exp2P 3)) * x)

/-- The shift `(k >> 3) << LC3_IEEE754_EXP_SHL` of src/fastmath.h:117, as the C language defines it: `none` when the result is
not representable, or when the operand is negative. -/
def exp2Shift (k : Int) : Option Int := if k / 8 < 0 then none else i32 (k / 8 * 2 ^ 23)

/-- `lc3_exp2f`, src/fastmath.h:77-120, with the shift and the addition of src/fastmath.h:117 modulo `2^32`, as the compilers do
(see `exp2Shift`). -/
def exp2Bits (u : Nat) : Nat :=
  let x := F32.value u
  let v := F32.round (x + exp2C)
  let k := F32.signed v
  let x := fl (x - fl (F32.value v - exp2C))
  let y := F32.round (fl (exp2Poly x + 1) * fl (exp2E.getD (k % 8).toNat 0))
  ((F32.signed y + k / 8 * 2 ^ 23) % 2 ^ 32).toNat

/-- `lc3_frexpf`, src/fastmath.h:60-70: the representation of the fraction, and the exponent. -/
def frexpBits (u : Nat) : Nat × Int :=
  ((if F32.sign u then 2 ^ 31 else 0) + 126 * 2 ^ 23 + F32.mant u, (F32.exp u : Int) - 126)

/-- The table `c` of `lc3_log2f`, src/fastmath.h:134-135, before the conversion to `float`. -/
def log2C : Nat → Rat
  | 0 => -129479677/100000000
  | 1 => 511769018/100000000
  | 2 => -842295281/100000000
  | 3 => 810557963/100000000
  | _ => -350567360/100000000

/-- `lc3_log2f`, src/fastmath.h:127-148: the value returned. -/
def log2F (u : Nat) : Rat :=
  let r := frexpBits u
  let x := F32.value r.1
  let y := fl (fl (log2C 0) * x)
  let y := fl (fl (y + fl (log2C 1)) * x)
  let y := fl (fl (y + fl (log2C 2)) * x)
  let y := fl (fl (y + fl (log2C 3)) * x)
  let y := fl (y + fl (log2C 4))
  fl (r.2 + y)

/-- `lc3_db_q16`, src/fastmath.h:168-216, of the operand `u`. -/
def dbQ16Of (u : Nat) : Int := dbQ16 (F32.round (F32.value u * F32.value u))

end LC3
