/- Dump, as JSON lines, the constants of the project each theorem of the project refers to.
   Used by tools/mutate.py:  cd lean && lake env lean --stdin < ../tools/deps.src -/
import Verif
open Lean
run_cmd do
  let env ← getEnv
  let mut out := #[]
  for (n, c) in env.constants.map₁.toList do
    if (`LC3).isPrefixOf n then
      let used := (c.type.getUsedConstants ++ ((c.value? (allowOpaque := true)).map (·.getUsedConstants)).getD #[])
      let used := used.filter fun u => (`LC3).isPrefixOf u
      out := out.push (n, used)
  for (n, us) in out do
    IO.println s!"{n} {" ".intercalate (us.toList.map toString)}"
