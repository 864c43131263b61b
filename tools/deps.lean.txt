import Verif
import Lean
/-! Prints, for each constant of this project, the constants of this project it uses (T for a theorem). -/
open Lean

def projectModule (env : Environment) (n : Name) : Bool :=
  match env.getModuleIdxFor? n with
  | some i => (`Verif).isPrefixOf env.header.moduleNames[i.toNat]!
  | none => false

run_meta do
  let env ← getEnv
  let h ← IO.FS.Handle.mk "/tmp/mut/edges.txt" .write
  for (n, c) in env.constants.map₁.toList do
    if projectModule env n then
      let t := match c with | .thmInfo _ => "T" | _ => "D"
      let us := c.getUsedConstantsAsSet.toList.filter (projectModule env)
      h.putStrLn (t ++ " " ++ n.toString ++ ": " ++ " ".intercalate (us.map fun m => m.toString))
