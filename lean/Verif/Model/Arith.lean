/-
Floating point arithmetic as a parameter.

The code is modelled over an arbitrary type of values and arbitrary operations: theorems that do not
put hypotheses on the operations hold for any rounding, any ordering (including comparisons
with NaN, always false) and any implementation of the mathematical functions.
-/

namespace LC3

/-- An implementation of the `float` operations used by the code. -/
structure Arith (R : Type) where
  /-- constants and conversions from `int` -/
  ofRat : Rat → R
  add : R → R → R
  sub : R → R → R
  mul : R → R → R
  div : R → R → R
  /-- `fmaxf` -/
  max : R → R → R
  /-- `fabsf` -/
  abs : R → R
  /-- `<` -/
  lt : R → R → Bool
  /-- `<=` -/
  le : R → R → Bool
  /-- conversion of `floorf` to `int` -/
  floor : R → Int
  /-- conversion to `int` (toward zero) -/
  trunc : R → Int

/-- Conversion from `int`. -/
def Arith.ofInt {R : Type} (A : Arith R) (n : Int) : R := A.ofRat n

/-- Exact arithmetic on the rational numbers. -/
def Arith.exact : Arith Rat where
  ofRat := id
  add := (· + ·)
  sub := (· - ·)
  mul := (· * ·)
  div := (· / ·)
  max := fun a b => if a ≤ b then b else a
  abs := fun a => if a < 0 then -a else a
  lt := fun a b => decide (a < b)
  le := fun a b => decide (a ≤ b)
  floor := Rat.floor
  trunc := fun a => if a < 0 then -(Rat.floor (-a)) else Rat.floor a

/-- Exact operations followed by a rounding `rnd`. Exponents are not bounded: overflow, underflow, infinities and NaN are
not modelled. -/
def Arith.rounded (rnd : Rat → Rat) : Arith Rat where
  ofRat := rnd
  add := fun a b => rnd (a + b)
  sub := fun a b => rnd (a - b)
  mul := fun a b => rnd (a * b)
  div := fun a b => rnd (a / b)
  max := fun a b => if a ≤ b then b else a
  abs := fun a => if a < 0 then -a else a
  lt := fun a b => decide (a < b)
  le := fun a b => decide (a ≤ b)
  floor := Rat.floor
  trunc := fun a => if a < 0 then -(Rat.floor (-a)) else Rat.floor a

/-- Rounding to the nearest integer, ties to even. -/
def rneInt (x : Rat) : Int :=
  let f := Rat.floor x
  if x - f < 1/2 then f else if 1/2 < x - f then f + 1 else if f % 2 = 0 then f else f + 1

/-- `2 ^ e`, for any integer `e`. -/
def pow2 (e : Int) : Rat := if 0 ≤ e then (2 ^ e.toNat : Nat) else 1 / ((2 ^ (-e).toNat : Nat) : Rat)

/-- Rounding of IEEE 754 binary32, to the nearest with 24 significant bits, ties to even, regardless of the limits of the
exponent. -/
def rne24 (x : Rat) : Rat :=
  let a : Rat := if x < 0 then -x else x
  if a = 0 then 0 else
  let e0 : Int := (Nat.log2 a.num.toNat : Int) - (Nat.log2 a.den : Int)
  let e := if a < pow2 e0 then e0 - 1 else e0
  let r := (rneInt (a * pow2 (23 - e)) : Rat) * pow2 (e - 23)
  if x < 0 then -r else r

end LC3
