import Verif.Model.Tools

/-!
Model of the command lines of `tools/elc3.c` and `tools/dlc3.c`: `parse_args`, and the conversions of the C library it calls.

An argument is the list of its bytes, without the null byte at the end; none of them is null. The names of the files are kept in a list, the
first is `fname_in`, the second `fname_out`; the default is the standard input and output.
-/

namespace LC3

/-- A character of an argument: the null byte follows the last one, a read beyond is undefined. -/
def argAt (a : List Nat) (i : Nat) : Option Nat := if i < a.length then a[i]? else if i = a.length then some 0 else none

/-- `isspace`, in the locale of the program, the "C" one. -/
def isSpace (c : Nat) : Bool := decide (c = 32) || (decide (9 ≤ c) && decide (c ≤ 13))

/-- `isdigit`. -/
def isDigit (c : Nat) : Bool := decide (48 ≤ c) && decide (c ≤ 57)

/-- The value of a sequence of digits. -/
def decimal (l : List Nat) : Nat := l.foldl (fun v c => 10 * v + (c - 48)) 0

/-- The sign and what follows, as `strtol` and `strtod` read them. -/
def signOf : List Nat → Bool × List Nat
  | 45 :: l => (true, l)
  | 43 :: l => (false, l)
  | l => (false, l)

/-- `atoi`, C11 7.22.1.2: undefined when the value is not an `int` (7.22.1). -/
def atoi (s : List Nat) : Option Int :=
  let t := signOf (s.dropWhile isSpace)
  let v : Int := decimal (t.2.takeWhile isDigit)
  i32 (if t.1 then -v else v)

/-- The exponent of `strtod`, after the digits; a text without digits after the letter is not an exponent. -/
def expOfText : List Nat → Int
  | c :: l =>
    if c = 101 ∨ c = 69 then
      let t := signOf l
      let v : Int := decimal (t.2.takeWhile isDigit)
      if t.1 then -v else v
    else 0
  | [] => 0

/-- The value of `strtod` before the rounding, for a number in decimal. Infinities, NaN and numbers in hexadecimal are not modelled: `none`. -/
def strtodDec (s : List Nat) : Option Rat :=
  let t := signOf (s.dropWhile isSpace)
  let a := t.2.takeWhile isDigit
  let u := t.2.dropWhile isDigit
  if a = [] ∧ (u.head? = some 105 ∨ u.head? = some 73 ∨ u.head? = some 110 ∨ u.head? = some 78) then none else
  if a = [48] ∧ (u.head? = some 120 ∨ u.head? = some 88) then none else
  let b := match u with
    | 46 :: u => u.takeWhile isDigit
    | _ => []
  let u := match u with
    | 46 :: u => u.dropWhile isDigit
    | u => u
  if a = [] ∧ b = [] then some 0 else
  let e := expOfText u
  let m : Rat := ((decimal (a ++ b) : Nat) : Rat) / (10 : Rat) ^ b.length
  let v := if 0 ≤ e then m * (10 : Rat) ^ e.toNat else m / (10 : Rat) ^ (-e).toNat
  some (if t.1 then -v else v)

/-- `p.frame_ms = atof(optarg)`, tools/elc3.c:107: the value is rounded to `double`, by `rd`, then to `float`. -/
def atofF (rd : Rat → Rat) (s : List Nat) : Option Rat := (strtodDec s).map fun v => rne24 (rd v)

/-- The end of `parse_args`: the parameters, the help displayed, or a call of `error`. The two last ones exit. -/
inductive Parsed (P : Type) where
  | ok (p : P)
  | help
  | error
  deriving DecidableEq, Repr

/-- The loop of `parse_args`, tools/elc3.c:87-123, tools/dlc3.c:91-125, on the arguments that remain: `takes` is the first `switch`, the
options that have an argument; `set` the second one. -/
def parseLoop {P : Type} (takes : Nat → Bool) (set : Nat → List Nat → P → Option (Parsed P)) :
    List (List Nat) → List (List Nat) → P → Option (Parsed (List (List Nat) × P))
  | [], f, p => some (.ok (f, p))
  | arg :: rest, f, p =>
    (argAt arg 0).bind fun c0 =>
    if c0 = 45 then
      (argAt arg 2).bind fun c2 =>
      if c2 ≠ 0 then some .error else
      (argAt arg 1).bind fun opt =>
      if takes opt then
        match rest with
        | [] => some .error
        | oa :: rest =>
          (set opt oa p).bind fun r =>
          match r with
          | .ok p => parseLoop takes set rest f p
          | .help => some .help
          | .error => some .error
      else
        (set opt [] p).bind fun r =>
        match r with
        | .ok p => parseLoop takes set rest f p
        | .help => some .help
        | .error => some .error
    else if f.length < 2 then parseLoop takes set rest (f ++ [arg]) p
    else some .error

/-- `struct parameters` without the names, tools/elc3.c:60-67; `frameMs` is the value of the `float`. -/
structure ElcArgs where
  frameMs : Rat
  srHz : Int
  hr : Bool
  bitrate : Int

/-- The options that have an argument, tools/elc3.c:97-102. -/
def elcTakes (c : Nat) : Bool := decide (c = 98) || decide (c = 109) || decide (c = 114)

/-- The options, tools/elc3.c:104-112. -/
def elcSet (rd : Rat → Rat) (c : Nat) (oa : List Nat) (p : ElcArgs) : Option (Parsed ElcArgs) :=
  if c = 104 then some .help
  else if c = 98 then (atoi oa).map fun v => .ok { p with bitrate := v }
  else if c = 109 then (atofF rd oa).map fun v => .ok { p with frameMs := v }
  else if c = 114 then (atoi oa).map fun v => .ok { p with srHz := v }
  else if c = 72 then some (.ok { p with hr := true })
  else some .error

/-- `parse_args`, tools/elc3.c:69-126, without the name of the program. -/
def elcParse (rd : Rat → Rat) (args : List (List Nat)) : Option (Parsed (List (List Nat) × ElcArgs)) :=
  parseLoop elcTakes (elcSet rd) args [] ⟨10, 0, false, 0⟩

/-- The conversion of tools/elc3.c:162, `int frame_us = p.frame_ms * 1000`: the product is a `float`, rounded toward zero; undefined out of
the range of `int`. -/
def elcParams (p : ElcArgs) : Option ElcParams :=
  let u := rne24 (p.frameMs * 1000)
  (i32 (if u < 0 then -(Rat.floor (-u)) else Rat.floor u)).map fun us => ⟨us, p.srHz, p.hr, p.bitrate⟩

/-- The options that have an argument, tools/dlc3.c:101-106. -/
def dlcTakes (c : Nat) : Bool := decide (c = 98) || decide (c = 114)

/-- The options, tools/dlc3.c:108-114. -/
def dlcSet (c : Nat) (oa : List Nat) (p : DlcParams) : Option (Parsed DlcParams) :=
  if c = 104 then some .help
  else if c = 98 then (atoi oa).map fun v => .ok { p with bitdepth := v }
  else if c = 114 then (atoi oa).map fun v => .ok { p with srHz := v }
  else some .error

/-- `parse_args`, tools/dlc3.c:75-128, without the name of the program. -/
def dlcParse (args : List (List Nat)) : Option (Parsed (List (List Nat) × DlcParams)) :=
  parseLoop dlcTakes dlcSet args [] ⟨0, 16⟩

/-- The input of a program, tools/elc3.c:152-155, tools/dlc3.c:150-153: the standard input without name, the content of the file of the name
given; the inner `none` when it cannot be opened. `fopen` gives the content of the files that can be read. -/
def toolInput (fopen : List Nat → Option (List Nat)) (stdin : List Nat) (files : List (List Nat)) : Option (List Nat) :=
  match files[0]? with
  | none => some stdin
  | some f => fopen f

/-- `elc3` from its command line, tools/elc3.c:147-289: `true` when the end of `main` is reached, `false` after `error` or the help, and the
bytes written. The output can be opened and is another file than the input. -/
def elc3Main {σ : Type} (rd : Rat → Rat) (fopen : List Nat → Option (List Nat)) (stdin : List Nat)
    (e : σ → List (List Nat) → Nat → Option (σ × Option (List Nat))) (init : Nat → σ) (out : List Nat) (args : List (List Nat)) :
    Option (Bool × List Nat) :=
  (elcParse rd args).bind fun r =>
  match r with
  | .ok (files, p) =>
    match toolInput fopen stdin files with
    | none => some (false, [])
    | some data => (elcParams p).bind fun p => elc3 e init out p data
  | _ => some (false, [])

/-- `dlc3` from its command line, tools/dlc3.c:145-280, see `elc3Main`. -/
def dlc3Main {σ : Type} (fopen : List Nat → Option (List Nat)) (stdin : List Nat)
    (d : σ → List Nat → Option (σ × Option (List (List Nat)))) (init : Nat → σ) (buf : List Nat) (args : List (List Nat)) :
    Option (Bool × List Nat) :=
  (dlcParse args).bind fun r =>
  match r with
  | .ok (files, p) =>
    match toolInput fopen stdin files with
    | none => some (false, [])
    | some data => dlc3 d init buf p data
  | _ => some (false, [])

end LC3
