import Verif.Py.Cpython311
import Verif.Py.Num
import Verif.Py.Repr
import Verif.Model.Json
open Py Arinc
instance : PyUnicode := Py.Tables.cpython311
def showS (s : Str) : String := ",".intercalate (s.map toString)
def f (s : Str) : String :=
  let i := match pyInt s with | .ok i => toString i | .error _ => "E"
  let fl := match pyFloat s with | .ok x => showS ((x.divNat 10).fmt 1) ++ ";" ++ showS ((x.divNat 100).fmt 2) ++ ";" ++ showS (x.fmt 20) ++ ";" ++ (match x.repr with | some t => showS t | none => "?") ++ ";" ++ (match (x.divNat 10).repr with | some t => showS t | none => "?") | .error _ => "E"
  let d := [(s, s), (s.reverse, s), (s.drop 1, s)].foldl (fun d p => dictUpdate d p.1 p.2) []
  "|".intercalate [i, fl, showS (strip s), toString (isAlnum s), toString (isNumeric s), toString (isAlpha s), " / ".intercalate ((readlines s).map showS), showS (dumps d), showS (dumpsPretty d), toString (contains (s.drop 1) s)]
def main : IO Unit := do
  let h ← IO.getStdin
  let mut go := true
  while go do
    let l ← h.getLine
    if l.isEmpty then go := false
    else
      let l := l.trimAscii.toString
      let s : Str := if l == "-" then [] else (l.splitOn ",").map (·.toNat!)
      IO.println (f s)
