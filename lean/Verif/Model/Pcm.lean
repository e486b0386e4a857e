import Verif.Model.Arith
import Verif.Model.Api

/-!
Model of the PCM conversions of `src/lc3.c` and of `lc3_ldexpf` (`src/fastmath.h`).

A `float` is its binary32 representation, a natural number below `2^32`. The memory of the samples is a function from the
index of an element (an `int16_t`, `int32_t`, `float`, or a byte of packed samples) to its value.
-/

namespace LC3

/-! ### Representation of `float` -/

/-- Sign bit. -/
def F32.sign (u : Nat) : Bool := decide (2 ^ 31 ≤ u)

/-- Exponent field. -/
def F32.exp (u : Nat) : Nat := (u / 2 ^ 23) % 256

/-- Mantissa field. -/
def F32.mant (u : Nat) : Nat := u % 2 ^ 23

/-- A finite number. -/
def F32.Finite (u : Nat) : Prop := u < 2 ^ 32 ∧ F32.exp u < 255

/-- Magnitude of a finite number. -/
def F32.mag (u : Nat) : Rat :=
  if F32.exp u = 0 then (F32.mant u : Rat) * pow2 (-149)
  else ((2 ^ 23 + F32.mant u : Nat) : Rat) * pow2 ((F32.exp u : Int) - 150)

/-- Value of a finite number. -/
def F32.value (u : Nat) : Rat := if F32.sign u then -F32.mag u else F32.mag u

/-- The representation as an `int32_t`, the member `s` of the union of src/fastmath.h:46. -/
def F32.signed (u : Nat) : Int := if u < 2 ^ 31 then (u : Int) else (u : Int) - 2 ^ 32

/-- `lc3_ldexpf`, src/fastmath.h:45-52: the addition of `int32_t` may overflow. The shift `exp << 23` of a negative number
is taken as a multiplication. -/
def ldexpBits (u : Nat) (exp : Int) : Option Nat :=
  if F32.exp u ≠ 0 then (i32 (F32.signed u + exp * 2 ^ 23)).map fun s => (s % 2 ^ 32).toNat
  else some u

/-- Conversion of an integer to `float`. Simplification: exact when the integer has 24 significant bits, truncated (instead of
rounded) otherwise. -/
def floatOfInt (p : Int) : Nat :=
  let n := p.natAbs
  if n = 0 then 0 else
  let e := Nat.log2 n
  (if p < 0 then 2 ^ 31 else 0) + (e + 127) * 2 ^ 23 + (n * 2 ^ 23 / 2 ^ e - 2 ^ 23)

/-! ### Input -/

/-- Conversion to `int16_t` of a value out of range: modulo `2^16`, as documented by the compilers. -/
def wrap16 (x : Int) : Int := (x + 2 ^ 15) % 2 ^ 16 - 2 ^ 15

/-- `load_s16`, src/lc3.c:203: a sample `*pcm` to `xt[i]` and `xs[i]`. -/
def loadS16 (p : Int) : Int × Nat := (p, floatOfInt p)

/-- `load_s24`, src/lc3.c:224-225. `none` is the overflow of `lc3_ldexpf`. -/
def loadS24 (p : Int) : Option (Int × Nat) := (ldexpBits (floatOfInt p) (-8)).map fun x => (wrap16 (p >>> 8), x)

/-- The value read from 3 bytes, src/lc3.c:247-249. -/
def packed24 (b0 b1 b2 : Nat) : Int :=
  let u := (b0 <<< 8) ||| (b1 <<< 16) ||| (b2 <<< 24)
  if u < 2 ^ 31 then (u : Int) else (u : Int) - 2 ^ 32

/-- `load_s24_3le`, src/lc3.c:247-252. -/
def loadS24P (b0 b1 b2 : Nat) : Option (Int × Nat) :=
  let v := packed24 b0 b1 b2
  (ldexpBits (floatOfInt v) (-16)).map fun x => (wrap16 (v >>> 16), x)

/-- `LC3_SAT16`, src/common.h. -/
def sat16 (x : Int) : Int := min (max x (-32768)) 32767

/-- `LC3_SAT24`, src/common.h. -/
def sat24 (x : Int) : Int := min (max x (-8388608)) 8388607

/-- `load_float`, src/lc3.c:274-275: undefined when the product by `2^15` is not representable by an `int32_t`. -/
def loadFloat (u : Nat) : Option (Int × Nat) :=
  (ldexpBits u 15).bind fun x =>
  if F32.exp x = 255 then none else
  (i32 (Arith.exact.trunc (F32.value x))).map fun v => (sat16 v, x)

/-! ### Output -/

/-- The rounding of src/lc3.c:487, 509-510, 532-533 of the value `v`, by excess when `pos`: `none` is a conversion out of the
range of `int`. -/
def roundHalf (A : Arith Rat) (pos : Bool) (v : Rat) : Option Int :=
  i32 (A.trunc (if pos then A.add v (1/2) else A.sub v (1/2)))

/-- `store_s16`, src/lc3.c:487-488: the value written for the sample `u`. -/
def storeS16 (A : Arith Rat) (u : Nat) : Option Int :=
  (roundHalf A (decide (0 ≤ F32.value u)) (F32.value u)).map sat16

/-- `store_s24`, src/lc3.c:509-511, and src/lc3.c:532-535. The result of `lc3_ldexpf` may not be a number. -/
def storeS24 (A : Arith Rat) (u : Nat) : Option Int :=
  (ldexpBits u 8).bind fun w =>
  if F32.exp w = 255 then none else
  (roundHalf A (decide (0 ≤ F32.value u)) (F32.value w)).map sat24

/-- The bytes of `store_s24_3le`, src/lc3.c:536-538. -/
def bytes24 (s : Int) : Nat × Nat × Nat :=
  ((s % 256).toNat, ((s >>> 8) % 256).toNat, ((s >>> 16) % 256).toNat)

/-- `store_s24_3le`, src/lc3.c:532-538: the 3 bytes written. -/
def storeS24P (A : Arith Rat) (u : Nat) : Option (Nat × Nat × Nat) := (storeS24 A u).map bytes24

/-- `fminf(fmaxf(s, -1.f), 1.f)`, src/lc3.c:560, on any number: a NaN gives -1. -/
def clampUnit (u : Nat) : Rat :=
  if F32.exp u = 255 then
    if F32.mant u = 0 ∧ F32.sign u = false then 1 else -1
  else min (max (F32.value u) (-1)) 1

/-- `store_float`, src/lc3.c:559-560: the value written. `none` is the overflow of `lc3_ldexpf`. -/
def storeFloat (u : Nat) : Option Rat := (ldexpBits u (-15)).map clampUnit

/-! ### Interleaving -/

/-- The loop of the output functions, src/lc3.c:486-489, 508-512, 558-561: element `i` is written at the index
`base + i * stride`. -/
def pcmStore {α : Type} (stride : Int) : Int → List α → (Int → α) → (Int → α)
  | _, [], m => m
  | p, v :: l, m => pcmStore stride (p + stride) l (fun a => if a = p then v else m a)

/-- The loop of `store_s24_3le`, src/lc3.c:531-539: 3 bytes by element. -/
def pcmStore3 (stride : Int) : Int → List (Nat × Nat × Nat) → (Int → Nat) → (Int → Nat)
  | _, [], m => m
  | p, (b0, b1, b2) :: l, m =>
    pcmStore3 stride (p + 3 * stride) l
      (fun a => if a = p + 2 then b2 else if a = p + 1 then b1 else if a = p then b0 else m a)

/-- The loop of the input functions, src/lc3.c:202-203, 223-226, 273-276, on `n` elements. -/
def pcmLoad {α : Type} (stride : Int) (m : Int → α) : Int → Nat → List α
  | _, 0 => []
  | p, n + 1 => m p :: pcmLoad stride m (p + stride) n

/-- The loop of `load_s24_3le`, src/lc3.c:246-253. -/
def pcmLoad3 (stride : Int) (m : Int → Nat) : Int → Nat → List (Nat × Nat × Nat)
  | _, 0 => []
  | p, n + 1 => (m p, m (p + 1), m (p + 2)) :: pcmLoad3 stride m (p + 3 * stride) n

end LC3
