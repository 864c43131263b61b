import Verif.Model.Stream
open Py Arinc
def showS (s : Str) : String := ",".intercalate (s.map toString)
def showR (r : Except Exc (List Str)) : String :=
  match r with
  | .ok ls => "/".intercalate (ls.map showS)
  | .error .valueError => "V"
  | .error .osError => "O"
  | .error _ => "?"
def main : IO Unit := do
  let h ← IO.getStdin
  let mut go := true
  while go do
    let l ← h.getLine
    if l.isEmpty then go := false
    else
      let l := l.trimAscii.toString
      let cs : List (List Nat) := if l == "-" then [] else (l.splitOn ";").map fun p => (p.splitOn ",").map (·.toNat!)
      IO.println (showR (Source.pieces cs).readlines ++ "|" ++ showR (Source.broken cs).readlines)
