import Verif.Model.Live
open Py Arinc
def num (s : String) : List Nat := if s.isEmpty then [] else (s.splitOn ",").map (·.toNat!)
def main : IO Unit := do
  let h ← IO.getStdin
  repeat do
    let l ← h.getLine
    if l.isEmpty then break
    let rs := ((l.trimAscii.toString).splitOn ";").map num
    match liveLines [] rs with
    | none => IO.println "N"
    | some (.error .valueError) => IO.println "V"
    | some (.error _) => IO.println "O"
    | some (.ok ls) => IO.println ("/".intercalate (ls.map fun s => ",".intercalate (s.map toString)))
