import Verif.Model.Summary
import Verif.Py.Printable
open Py Arinc
def num (s : String) : List Nat := if s.isEmpty then [] else (s.splitOn ",").map (·.toNat!)
def main : IO Unit := do
  let h ← IO.getStdin
  repeat do
    let l ← h.getLine
    if l.isEmpty then break
    let t := l.trimAscii.toString
    let ss := if t = "-" then [] else (t.splitOn ";").map num
    match summaryText Py.Tables.printable311 ss.length (.list ss) with
    | none => IO.println "N"
    | some s => IO.println (",".intercalate (s.map toString))
