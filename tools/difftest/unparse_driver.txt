import Verif.Model.SourceLibrary
open Py Arinc Arinc.Lang

def text (s : Str) : String := String.ofList (s.map Char.ofNat)
def quoted (s : Str) : String :=
  "'" ++ String.join (s.map fun c => if c = 39 then "\\'" else if c = 92 then "\\\\" else if c = 10 then "\\n" else text [c]) ++ "'"
def commas (l : List String) : String := ", ".intercalate l

partial def valPy : Val → String
  | .none => "None"
  | .bool b => if b then "True" else "False"
  | .int i => "(" ++ toString i ++ ")"
  | .str s => quoted s
  | .list l => "[" ++ commas (l.map valPy) ++ "]"
  | .dict .none [] => "{}"
  | .dict d [] => "defaultdict(" ++ valPy d ++ ")"
  | .fn f => "decoder." ++ text f
  | _ => "UNKNOWN"

def binPy : BinOp → String
  | .add => "+" | .sub => "-" | .mul => "*" | .div => "/"
def cmpPy : CmpOp → String
  | .eq => "==" | .ne => "!=" | .gt => ">" | .ge => ">=" | .is => "is" | .in => "in" | .notIn => "not in"
def methPy : Meth → String
  | .strip => "strip" | .lstrip => "lstrip" | .isnumeric => "isnumeric" | .isalnum => "isalnum" | .isalpha => "isalpha"
  | .endswith => "endswith" | .startswith => "startswith" | .write => "write" | .getvalue => "getvalue" | .update => "update"
  | .addRow => "add_row" | .getString => "get_string" | .readlines => "readlines"
def specPy : Arinc.Lang.Spec → String
  | .plain => "" | .fixed n => ":." ++ toString n ++ "f" | .pad3 => ":03"
def boundPy : Option Int → String
  | some i => toString i
  | none => ""

def items : Exprs → List Expr
  | .nil => []
  | .cons e es => e :: items es

partial def exprPy : Expr → String
  | .const v => valPy v
  | .name x => text x
  | .attr e a => exprPy e ++ "." ++ text a
  | .sub e i => exprPy e ++ "[" ++ exprPy i ++ "]"
  | .slice e lo hi => exprPy e ++ "[" ++ boundPy lo ++ ":" ++ boundPy hi ++ "]"
  | .bin op a b => "(" ++ exprPy a ++ " " ++ binPy op ++ " " ++ exprPy b ++ ")"
  | .cmp op a b => "(" ++ exprPy a ++ " " ++ cmpPy op ++ " " ++ exprPy b ++ ")"
  | .and a b => "(" ++ exprPy a ++ " and " ++ exprPy b ++ ")"
  | .or a b => "(" ++ exprPy a ++ " or " ++ exprPy b ++ ")"
  | .not a => "(not " ++ exprPy a ++ ")"
  | .cond c a b => "(" ++ exprPy a ++ " if " ++ exprPy c ++ " else " ++ exprPy b ++ ")"
  | .list es => "[" ++ commas ((items es).map exprPy) ++ "]"
  | .pair k v => "{" ++ exprPy k ++ ": " ++ exprPy v ++ "}"
  | .fmt _ _ => "UNKNOWN"
  | .join es =>
    "'" ++ String.join ((items es).map fun
      | .const (.str s) => (((((quoted s).drop 1).dropEnd 1).toString.replace "{" "{{").replace "}" "}}")
      | .fmt s _ => "{" ++ specPy s ++ "}"
      | _ => "UNKNOWN") ++ "'.format(" ++
    commas ((items es).filterMap fun | .fmt _ e => some (exprPy e) | _ => none) ++ ")"
  | .prim p args =>
    let as := (items args).map exprPy
    let call := fun f => f ++ "(" ++ commas as ++ ")"
    match p, as with
    | .print, _ => call "print" | .len, _ => call "len" | .int, _ => call "int" | .float, _ => call "float" | .str, _ => call "str"
    | .exit, _ => call "exit" | .stringIO, _ => call "io.StringIO" | .upperIndex, _ => call "string.ascii_uppercase.index"
    | .hasattr, _ => call "hasattr" | .isStr, [a] => "isinstance(" ++ a ++ ", str)" | .isList, [a] => "isinstance(" ++ a ++ ", list)"
    | .allIn, [a, b] => "all(map(" ++ a ++ ".__contains__, " ++ b ++ "))"
    | .colored, _ => call "colored" | .dumps, _ => call "json.dumps"
    | .dumpsPretty, [a] => "json.dumps(" ++ a ++ ", sort_keys=True, indent=4, separators=(',', ': '))"
    | .scandir, _ => call "os.scandir" | .joinPath, _ => call "os.path.join"
    | .prettyTable, [a] => "PrettyTable(field_names=" ++ a ++ ")"
    | _, _ => "UNKNOWN"
  | .call f args => text f ++ "(" ++ commas ((items args).map exprPy) ++ ")"
  | .method e m args => exprPy e ++ "." ++ methPy m ++ "(" ++ commas ((items args).map exprPy) ++ ")"
  | .invoke e m args => exprPy e ++ "." ++ text m ++ "(" ++ commas ((items args).map exprPy) ++ ")"

def excPy : Exc → String
  | .valueError => "ValueError" | .indexError => "IndexError" | _ => "UNKNOWN"

partial def stmtPy (i : String) : Stmt → List String
  | .pass => [i ++ "pass"]
  | .seq a b => stmtPy i a ++ stmtPy i b
  | .ret e => [i ++ "return " ++ exprPy e]
  | .raise args => [i ++ "raise ValueError(" ++ commas ((items args).map exprPy) ++ ")"]
  | .assign x e => [i ++ text x ++ " = " ++ exprPy e]
  | .setAttr x a e => [i ++ text x ++ "." ++ text a ++ " = " ++ exprPy e]
  | .setItem x k e => [i ++ text x ++ "[" ++ exprPy k ++ "] = " ++ exprPy e]
  | .aug x e => [i ++ text x ++ " += " ++ exprPy e]
  | .expr e => [i ++ exprPy e]
  | .ite c a b => [i ++ "if " ++ exprPy c ++ ":"] ++ stmtPy (i ++ "  ") a ++ [i ++ "else:"] ++ stmtPy (i ++ "  ") b
  | .matchOn e cases => [i ++ "match " ++ exprPy e ++ ":"] ++ stmtPy (i ++ "  ") (cases)
  | .case v a rest =>
    [i ++ "case " ++ (match v with | .int n => toString n | v => valPy v) ++ ":"] ++ stmtPy (i ++ "  ") a ++
      (match rest with
      | .case .. => stmtPy i rest
      | rest => [i ++ "case _:"] ++ stmtPy (i ++ "  ") rest)
  | .tryExcept a es x h => [i ++ "try:"] ++ stmtPy (i ++ "  ") a ++
      [i ++ "except (" ++ commas (es.map excPy) ++ ") as " ++ text x ++ ":"] ++ stmtPy (i ++ "  ") h
  | .forIn x e a => [i ++ "for " ++ text x ++ " in " ++ exprPy e ++ ":"] ++ stmtPy (i ++ "  ") a
  | .withOpen e x a => [i ++ "with open(" ++ exprPy e ++ ") as " ++ text x ++ ":"] ++ stmtPy (i ++ "  ") a
  | .continue => [i ++ "continue"]

def funcPy (i : String) (p : Str × Func) : List String :=
  [i ++ "def " ++ text p.1 ++ "(" ++ commas (p.2.params.map fun x => match p.2.defaults.lookup x with
    | some v => text x ++ "=" ++ valPy v
    | none => text x) ++ "):"] ++ stmtPy (i ++ "  ") p.2.body

def classPy (p : Str × Class) : List String :=
  ["class " ++ text p.1 ++ ":"] ++ (p.2.attrs.map fun a => "  " ++ text a.1 ++ " = " ++ valPy a.2) ++ p.2.methods.flatMap (funcPy "  ")

#eval IO.FS.writeFile "/tmp/unparsed.py" ("\n".intercalate (stmtPy "" Src.decoderModule ++ stmtPy "" Src.recordModule ++
  Src.library.funcs.flatMap (funcPy "") ++ Src.library.classes.flatMap classPy) ++ "\n")
