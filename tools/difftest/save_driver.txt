import Verif.Model.Save
open Py Arinc
def nums (s : String) : List Nat := if s.isEmpty then [] else (s.splitOn ",").map (·.toNat!)
def sh (l : List Nat) : String := ",".intercalate (l.map toString)
def one (w : Bool) (s : Str) : String :=
  match save w s with
  | none => "E"
  | some b => sh b ++ ">" ++ (match load b with | some t => sh t | none => "D")
def main : IO Unit := do
  let stdin ← IO.getStdin
  repeat
    let l ← stdin.getLine
    if l.isEmpty then break
    let l := l.trimAscii.toString
    let s := nums (if l = "-" then "" else l)
    IO.println (one false s ++ "|" ++ one true s)
