import Verif.Model.Api
import Verif.Model.Arith

/-!
Model of `src/plc.c`: packet loss concealment.
-/

namespace LC3

/-- `lc3_plc_state_t`, include/lc3_private.h:150-154: `count` is an `int`. -/
structure Plc (R : Type) where
  seed : Nat
  count : Int
  alpha : R

/-- `lc3_plc_suspend`, src/plc.c:35-39. -/
def plcSuspend {R : Type} (A : Arith R) (p : Plc R) : Plc R := { p with count := 1, alpha := A.ofRat 1 }

/-- `lc3_plc_reset`, src/plc.c:26-30. -/
def plcReset {R : Type} (A : Arith R) : Plc R := plcSuspend A ⟨24607, 0, A.ofRat 0⟩

/-- The generator, src/plc.c:55. -/
def plcLcg (seed : Nat) : Nat := (16831 + seed * 12821) &&& 0xffff

/-- The attenuation factor, src/plc.c:51-52. -/
def plcFactor (count : Int) : Rat := if count < 4 then 1 else if count < 8 then 9/10 else 85/100

/-- The loop on the coefficients, src/plc.c:54-57: the last seed and the coefficients. -/
def plcLoop {R : Type} (A : Arith R) (alpha : R) : Nat → List R → Nat × List R
  | seed, [] => (seed, [])
  | seed, x :: l =>
    let seed := plcLcg seed
    let w := plcLoop A alpha seed l
    (w.1, A.mul alpha (if seed &&& 0x8000 ≠ 0 then A.sub (A.ofRat 0) x else x) :: w.2)

/-- `lc3_plc_synthesize`, src/plc.c:44-62, on the `ne` first values of `x`: the new state, and the coefficients.
The outcome is undefined when the counter overflows. -/
def plcSynthesize {R : Type} (A : Arith R) (ne : Nat) (p : Plc R) (x : List R) : Option (Plc R × List R) :=
  if x.length < ne then none else
  let alpha := A.mul p.alpha (A.ofRat (plcFactor p.count))
  let w := plcLoop A alpha p.seed (x.take ne)
  (i32 (p.count + 1)).map fun c => (⟨w.1, c, alpha⟩, w.2)

end LC3
