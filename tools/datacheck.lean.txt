import Verif
open Arinc Py
attribute [local instance] Py.Tables.cpython311
def toStr (s : String) : Str := s.toList.map Char.toNat
def main (args : List String) : IO Unit := do
  for f in args do
    let s ← IO.FS.readFile f
    let r := readFile (.text (toStr s)) true legTypeDesc
    let n := r.out.foldl (fun n e => match e with | .table _ => n+1 | _ => n) 0
    let m := r.out.length
    IO.println s!"{f} {match r.res with | .ok _ => "ok" | .error _ => "ERROR"} tables {n} events {m}"
