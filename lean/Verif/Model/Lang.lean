import Verif.Model.Fault
import Verif.Model.Json
/-!
# A small Python

Syntax and semantics of the part of Python in which arinc424 is written. `tools/source.py` writes the syntax trees of
the functions and classes of the library (Python's own parser, `ast`) as terms of these types to `Model/Source.lean`,
`Model/SourceDefs.lean` and `Model/SourceLibrary.lean`; the theorems of `Props/Source*.lean` say that what they compute is
what the model computes.

Whatever is not covered (a `TypeError`, an unknown name, ...) is the error `stuck`; the theorems say that it does not
occur. Simplifications: a name that is not rebound anywhere in the library is taken for what it is (`len`, `print`,
`string.ascii_uppercase.index`, ...); `defaultdict(f)` is a dict with the value that `f` returns as its default; objects
are values, which is the same as references as long as no object is changed that is known under two names: a method that
is called on anything but a variable may not assign to attributes (`frozen`), and `tools/source.py` checks that a variable
whose object a function changes is its only name. The variables of the modules are in one
table: no two modules have a variable of the same name. `table.align = 'l'` (record.py:168) is left out, since
`shownTable` aligns to the left. An open file is what its path names; it is closed at the end of `with` (`Model/Handles.lean`
is about that).
-/
namespace Arinc.Lang
open Py

/-- values -/
inductive Val where
  | none
  | bool (b : Bool)
  | int (i : Int)
  | float (x : Dbl)
  | str (s : Str)
  | list (l : List Val)
  /-- `dict`, in order of insertion; with a default that is not `None`, a `defaultdict` -/
  | dict (default : Val) (items : List (Str × Val))
  | obj (cls : Str) (attrs : List (Str × Val))
  | fn (name : Str)
  /-- `io.StringIO` -/
  | buf (s : Str)
  /-- an exception -/
  | fault (f : Fault)
  /-- the name of a file, as what `open` makes of it; also the open file -/
  | file (f : FileObj)
  /-- the name of a folder, as what `os.scandir` makes of it -/
  | folder (f : Option (List FileObj))
  /-- `PrettyTable`, with its rows -/
  | table (rows : List Row)

/-- why something has no result -/
inductive Err where
  /-- an exception was raised -/
  | fault (f : Fault)
  /-- outside of what is modelled here -/
  | stuck

/-- `a + b`, `a - b`, `a * b`, `a / b` -/
inductive BinOp where
  | add | sub | mul | div

/-- `a == b`, `a != b`, `a > b`, `a >= b`, `a is b`, `a in b`, `a not in b` -/
inductive CmpOp where
  | eq | ne | gt | ge | is | in | notIn

/-- `{}`, `{:.nf}`, `{:03}` -/
inductive Spec where
  | plain | fixed (n : Nat) | pad3

/-- functions of Python and of other packages -/
inductive Prim where
  | print | len | int | float | str | exit | stringIO
  /-- `string.ascii_uppercase.index` -/
  | upperIndex
  | hasattr | isStr | isList
  /-- `all(map(s.__contains__, l))` -/
  | allIn
  | colored | dumps | dumpsPretty | scandir | joinPath | prettyTable
deriving DecidableEq

/-- methods of types of Python and of other packages -/
inductive Meth where
  | strip | lstrip | isnumeric | isalnum | isalpha | endswith | startswith | write | getvalue | update | addRow
  | getString | readlines
deriving DecidableEq

mutual
/-- expressions -/
inductive Expr where
  | const (v : Val)
  | name (x : Str)
  /-- `e.a` -/
  | attr (e : Expr) (a : Str)
  /-- `e[i]` -/
  | sub (e i : Expr)
  /-- `e[lo:hi]` -/
  | slice (e : Expr) (lo hi : Option Int)
  | bin (op : BinOp) (a b : Expr)
  | cmp (op : CmpOp) (a b : Expr)
  | and (a b : Expr)
  | or (a b : Expr)
  | not (a : Expr)
  /-- `a if c else b` -/
  | cond (c a b : Expr)
  /-- `[a, b, ...]`, also `(a, b, ...)` -/
  | list (es : Exprs)
  /-- `{k: v}` -/
  | pair (k v : Expr)
  /-- a replacement field -/
  | fmt (spec : Spec) (e : Expr)
  /-- an f-string, or `'...'.format(...)`, by its pieces -/
  | join (es : Exprs)
  | prim (p : Prim) (args : Exprs)
  /-- a function or class of the library -/
  | call (f : Str) (args : Exprs)
  | method (e : Expr) (m : Meth) (args : Exprs)
  /-- a method of a class of the library, or a function in an attribute -/
  | invoke (e : Expr) (m : Str) (args : Exprs)
/-- lists of expressions -/
inductive Exprs where
  | nil
  | cons (e : Expr) (es : Exprs)
end

/-- statements -/
inductive Stmt where
  | pass
  | seq (a b : Stmt)
  | ret (e : Expr)
  /-- `raise ValueError(...)` -/
  | raise (args : Exprs)
  | assign (x : Str) (e : Expr)
  /-- `x.a = e` -/
  | setAttr (x a : Str) (e : Expr)
  /-- `x[k] = e` -/
  | setItem (x : Str) (k e : Expr)
  /-- `x += e` -/
  | aug (x : Str) (e : Expr)
  | expr (e : Expr)
  | ite (c : Expr) (a b : Stmt)
  /-- `match e:` and its cases -/
  | matchOn (e : Expr) (cases : Stmt)
  /-- `case v:`, then the other cases; `case _:` is the last of them, without this -/
  | case (v : Val) (a rest : Stmt)
  /-- `try: a except es as x: h` -/
  | tryExcept (a : Stmt) (es : List Exc) (x : Str) (h : Stmt)
  | forIn (x : Str) (e : Expr) (a : Stmt)
  /-- `with open(e) as x: a` -/
  | withOpen (e : Expr) (x : Str) (a : Stmt)
  | continue

/-- a function: parameters, defaults of the last ones, body -/
structure Func where
  params : List Str
  defaults : List (Str × Val)
  body : Stmt

/-- a class: class attributes and methods -/
structure Class where
  attrs : List (Str × Val)
  methods : List (Str × Func)

/-- a program -/
structure Prog where
  funcs : List (Str × Func)
  classes : List (Str × Class)

/-- the state -/
structure St where
  locals : List (Str × Val)
  globals : List (Str × Val)
  /-- what was given to `print`, as text -/
  out : List Str
  /-- the object of the method that runs may not be changed -/
  frozen : Bool

/-- result or error, and the state afterwards -/
abbrev Res (α : Type) := Except Err α × St

/-- how a statement ends -/
inductive Flow where
  | next
  | continue
  | ret (v : Val)

/-- what the evaluation of expressions depends on -/
structure Env where
  sc : Screen
  /-- class attributes -/
  classAttr : Str → Str → Option Val
  /-- call of a function or class -/
  call : Str → List Val → St → Res Val
  /-- call of a method: class, method, object, arguments; the object afterwards -/
  callMethod : Str → Str → Val → List Val → St → Except Err Val × St × Val

/-- go on, unless there was an error -/
def bindR {α β : Type} (r : Res α) (k : α → St → Res β) : Res β :=
  match r with
  | (.ok a, st) => k a st
  | (.error e, st) => (.error e, st)

/-- outside of what is modelled here -/
def stuck {α : Type} (st : St) : Res α := (.error .stuck, st)

/-- the result of a function of Python that may raise -/
def lift {α : Type} (r : Except Fault α) (f : α → Val) (st : St) : Res Val :=
  match r with
  | .ok a => (.ok (f a), st)
  | .error e => (.error (.fault e), st)

/-- `d[k] = v` on a `dict`: in its place, or at the end -/
def put (d : List (Str × Val)) (k : Str) (v : Val) : List (Str × Val) :=
  match d with
  | [] => [(k, v)]
  | (k', v') :: d => if k' = k then (k, v) :: d else (k', v') :: put d k v

/-- the value of a name -/
def find : List (Str × Val) → Str → Option Val
  | [], _ => none
  | (k, v) :: d, x => if k = x then some v else find d x

/-- the value of a variable: local, or global -/
def St.get (st : St) (x : Str) : Option Val :=
  match find st.locals x with
  | some v => some v
  | none => find st.globals x

/-- `x = v` -/
def St.assign (st : St) (x : Str) (v : Val) : St := { st with locals := put st.locals x v }

/-- the value of the variable has changed -/
def St.mutate (st : St) (x : Str) (v : Val) : St :=
  match find st.locals x with
  | some _ => { st with locals := put st.locals x v }
  | none => { st with globals := put st.globals x v }

/-- `bool(v)`; `none`: not modelled -/
def truth : Val → Option Bool
  | .none => some false
  | .bool b => some b
  | .int i => some (i != 0)
  | .str s => some (!s.isEmpty)
  | .list l => some (!l.isEmpty)
  | .obj _ _ => some true
  | _ => none

/-- `a == b`; `none`: not modelled -/
def equal : Val → Val → Option Bool
  | .str a, .str b => some (a == b)
  | .int a, .int b => some (a == b)
  | .bool a, .bool b => some (a == b)
  | .obj _ _, .int _ => some false
  | _, _ => none

/-- the texts, if all are texts -/
def texts : List Val → Option (List Str)
  | [] => some []
  | .str s :: vs => (texts vs).map (s :: ·)
  | _ => none

/-- a `dict` of texts -/
def textItems : List (Str × Val) → Option (List (Str × Str))
  | [] => some []
  | (k, .str s) :: vs => (textItems vs).map ((k, s) :: ·)
  | _ => none

/-- `a op b` on numbers and texts -/
def binary (op : BinOp) (a b : Val) (st : St) : Res Val :=
  match op, a, b with
  | .add, .str s, .str t => (.ok (.str (s ++ t)), st)
  | .add, .int i, .int j => (.ok (.int (i + j)), st)
  | .sub, .int i, .int j => (.ok (.int (i - j)), st)
  | .mul, .int i, .int j => (.ok (.int (i * j)), st)
  | .div, .float x, .int i => if i ≤ 0 then stuck st else (.ok (.float (x.divNat i.toNat)), st)
  | _, _, _ => stuck st

/-- the answer of a comparison -/
def answer (b : Option Bool) (st : St) : Res Val :=
  match b with
  | some b => (.ok (.bool b), st)
  | none => stuck st

/-- `a in b`; `none`: not modelled -/
def isIn : Val → Val → Option Bool
  | .str k, .dict _ items => some (items.lookup k).isSome
  | .str s, .str t => some (contains s t)
  | .str s, .list l => (texts l).map (·.contains s)
  | _, _ => none

/-- `a op b` -/
def compare (op : CmpOp) (a b : Val) (st : St) : Res Val :=
  match op, a, b with
  | .eq, a, b => answer (equal a b) st
  | .ne, a, b => answer ((equal a b).map (!·)) st
  | .gt, .int i, .int j => answer (some (decide (i > j))) st
  | .ge, .int i, .int j => answer (some (decide (i ≥ j))) st
  | .is, a, .bool b => answer (some (match a with | .bool a => a == b | _ => false)) st
  | .in, a, b => answer (isIn a b) st
  | .notIn, a, b => answer ((isIn a b).map (!·)) st
  | _, _, _ => stuck st

/-- `str(e)`. The message of `IndexError` is that of `str.__getitem__`. -/
def faultText (sc : Screen) : Fault → Option Str
  | .other .indexError => some (py!"string index out of range")
  | f => f.text sc.printable

/-- `str(v)`; `none`: not modelled -/
def plainText (sc : Screen) : Val → Option Str
  | .str s => some s
  | .int i => some (intStr i)
  | .fault f => faultText sc f
  | .list l => (texts l).map fun ss => 91 :: (reprElems sc.printable ss ++ [93])
  | .table rows => shownTable sc.width rows
  | _ => none

/-- the text of a replacement field -/
def format (sc : Screen) : Spec → Val → Option Str
  | .plain, v => plainText sc v
  | .fixed n, .float x => some (x.fmt n)
  | .pad3, .int i => some (fmt03 i)
  | _, _ => none

/-- a text, if it is modelled -/
def asText (t : Option Str) (st : St) : Res Val :=
  match t with
  | some s => (.ok (.str s), st)
  | none => stuck st

/-- `v.a` -/
def getAttr (E : Env) (v : Val) (a : Str) (st : St) : Res Val :=
  match v with
  | .obj cls attrs =>
    match find attrs a with
    | some v => (.ok v, st)
    | none =>
      match E.classAttr cls a with
      | some v => (.ok v, st)
      | none => (.error (.fault (.other .attributeError)), st)
  | .file f => if a = py!"name" then (.ok (.file f), st) else stuck st
  | _ => stuck st

/-- `v[k]`, where `v` is the value of `e` -/
def subscript (e : Expr) (v k : Val) (st : St) : Res Val :=
  match v, k with
  | .str s, .int i => if i < 0 then stuck st else lift (indexF s i.toNat) .str st
  | .dict d items, .str k =>
    match items.lookup k with
    | some v => (.ok v, st)
    | none =>
      match d, e with
      | .none, _ => stuck st
      | d, .name x => (.ok d, st.mutate x (.dict d (items ++ [(k, d)])))
      | _, _ => stuck st
  | _, _ => stuck st

/-- `s[lo:hi]` -/
def sliced (v : Val) (lo hi : Option Int) (st : St) : Res Val :=
  match v, lo, hi with
  | .str s, some i, some j => if i < 0 ∨ j < 0 then stuck st else (.ok (.str (slice s i.toNat j.toNat)), st)
  | .str s, none, some j => if j < 0 then stuck st else (.ok (.str (slice s 0 j.toNat)), st)
  | .str s, some i, none =>
    (.ok (.str (if i < 0 then lastN s (-i).toNat else sliceFrom s i.toNat)), st)
  | _, _, _ => stuck st

section
variable [PyUnicode]

/-- call of a function of Python -/
def callPrim (E : Env) (p : Prim) (args : List Val) (st : St) : Res Val :=
  match p, args with
  | .print, [v] =>
    match plainText E.sc v with
    | some t => (.ok .none, { st with out := st.out ++ [t] })
    | none => stuck st
  | .len, [.str s] => (.ok (.int s.length), st)
  | .int, [.str s] => lift (pyIntF E.sc.printable s) .int st
  | .float, [.str s] => lift (pyFloatF E.sc.printable s) .float st
  | .str, [v] => asText (plainText E.sc v) st
  | .exit, [] => (.error (.fault .exit), st)
  | .stringIO, [] => (.ok (.buf []), st)
  | .upperIndex, [.str [c]] =>
    match upperIndex [c] with
    | .ok i => (.ok (.int i), st)
    | .error _ => (.error (.fault (.value [py!"substring not found"])), st)
  | .hasattr, [.obj cls attrs, .str a] =>
    (.ok (.bool ((find attrs a).isSome || (E.classAttr cls a).isSome)), st)
  | .isStr, [v] => (.ok (.bool (match v with | .str _ => true | _ => false)), st)
  | .isList, [v] => (.ok (.bool (match v with | .list _ => true | _ => false)), st)
  | .allIn, [.str s, .list l] => answer ((texts l).map (·.all fun t => contains t s)) st
  | .colored, [.str s, .str c] =>
    if c = py!"green" ∨ c = py!"red" then (.ok (.str (colored E.sc.colour (c == py!"green") s)), st) else stuck st
  | .dumps, [.dict _ items] => asText ((textItems items).map dumps) st
  | .dumpsPretty, [.dict _ items] => asText ((textItems items).map dumpsPretty) st
  | .scandir, [.folder f] =>
    match f with
    | some fs => (.ok (.list (fs.map .file)), st)
    | none => (.error (.fault (.other .osError)), st)
  | .joinPath, [.folder _, .file f] => (.ok (.file f), st)
  | .prettyTable, [.list l] => if texts l = some tableHead then (.ok (.table []), st) else stuck st
  | _, _ => stuck st

/-- the value of a cell of a table -/
def cell : Val → Option PyVal
  | .str s => some (.str s)
  | .float x => some (.float x)
  | .none => some .none
  | _ => none

/-- call of a method of a type of Python: the result, and the object afterwards if it has changed -/
def callMeth (E : Env) (v : Val) (m : Meth) (args : List Val) : Option (Except Fault Val × Option Val) :=
  match m, v, args with
  | .strip, .str s, [] => some (.ok (.str (strip s)), none)
  | .lstrip, .str s, [.str [48]] => some (.ok (.str (lstripZeros s)), none)
  | .isnumeric, .str s, [] => some (.ok (.bool (isNumeric s)), none)
  | .isalnum, .str s, [] => some (.ok (.bool (isAlnum s)), none)
  | .isalpha, .str s, [] => some (.ok (.bool (isAlpha s)), none)
  | .endswith, .str s, [.str [c]] => some (.ok (.bool (endsWithChar s c)), none)
  | .startswith, .str s, [.list [.str [c], .str [d]]] => some (.ok (.bool (startsWithEither s c d)), none)
  | .write, .buf s, [.str t] => some (.ok (.int t.length), some (.buf (s ++ t)))
  | .getvalue, .buf s, [] => some (.ok (.str s), none)
  | .update, .dict d items, [.dict _ [(k, x)]] => some (.ok .none, some (.dict d (put items k x)))
  | .addRow, .table rows, [.list [.str f, .str x, y]] =>
    (cell y).map fun y => (.ok .none, some (.table (rows ++ [⟨f, x, y⟩])))
  | .getString, .table rows, [] => (shownTable E.sc.width rows).map fun t => (.ok (.str t), none)
  | .readlines, .file f, [] =>
    some (match f.readlines with
      | .ok ls => .ok (.list (ls.map .str))
      | .error e => .error (.other e), none)
  | _, _, _ => none

/-- the effect of a method on the state, where the object is the value of `e` -/
def applyMeth (e : Expr) (r : Option (Except Fault Val × Option Val)) (st : St) : Res Val :=
  match r with
  | none => stuck st
  | some (.error f, _) => (.error (.fault f), st)
  | some (.ok v, none) => (.ok v, st)
  | some (.ok v, some o) =>
    match e with
    | .name x => (.ok v, st.mutate x o)
    | _ => stuck st

/-- the effect of a method of the library on the state, where the object is the value of `e` -/
def applyMethod (e : Expr) (r : Except Err Val × St × Val) (frozen : Bool) : Res Val :=
  match e with
  | .name x => (r.1, { r.2.1 with frozen := frozen }.mutate x r.2.2)
  | _ => (r.1, { r.2.1 with frozen := frozen })

/-- is it a variable? -/
def isName : Expr → Bool
  | .name _ => true
  | _ => false

mutual
/-- evaluation of an expression -/
def eval (E : Env) : Expr → St → Res Val
  | .const v, st => (.ok v, st)
  | .name x, st =>
    match st.get x with
    | some v => (.ok v, st)
    | none => stuck st
  | .attr e a, st => bindR (eval E e st) fun v st => getAttr E v a st
  | .sub e i, st => bindR (eval E e st) fun v st => bindR (eval E i st) fun k st => subscript e v k st
  | .slice e lo hi, st => bindR (eval E e st) fun v st => sliced v lo hi st
  | .bin op a b, st => bindR (eval E a st) fun v st => bindR (eval E b st) fun w st => binary op v w st
  | .cmp op a b, st => bindR (eval E a st) fun v st => bindR (eval E b st) fun w st => compare op v w st
  | .and a b, st => bindR (eval E a st) fun v st =>
    match truth v with
    | some t => if t then eval E b st else (.ok v, st)
    | none => stuck st
  | .or a b, st => bindR (eval E a st) fun v st =>
    match truth v with
    | some t => if t then (.ok v, st) else eval E b st
    | none => stuck st
  | .not a, st => bindR (eval E a st) fun v st => answer ((truth v).map (!·)) st
  | .cond c a b, st => bindR (eval E c st) fun v st =>
    match truth v with
    | some t => if t then eval E a st else eval E b st
    | none => stuck st
  | .list es, st => bindR (evals E es st) fun vs st => (.ok (.list vs), st)
  | .pair k v, st => bindR (eval E k st) fun k st => bindR (eval E v st) fun v st =>
    match k with
    | .str k => (.ok (.dict .none [(k, v)]), st)
    | _ => stuck st
  | .fmt spec e, st => bindR (eval E e st) fun v st => asText (format E.sc spec v) st
  | .join es, st => bindR (evals E es st) fun vs st => asText ((texts vs).map List.flatten) st
  | .prim p args, st => bindR (evals E args st) fun vs st => callPrim E p vs st
  | .call f args, st => bindR (evals E args st) fun vs st => E.call f vs st
  | .method e m args, st => bindR (eval E e st) fun v st => bindR (evals E args st) fun vs st =>
    applyMeth e (callMeth E v m vs) st
  | .invoke e m args, st => bindR (eval E e st) fun v st => bindR (evals E args st) fun vs st =>
    match v with
    | .obj cls attrs =>
      match find attrs m with
      | some (.fn f) => E.call f vs st
      | some _ => stuck st
      | none =>
        applyMethod e (E.callMethod cls m v vs { st with frozen := st.frozen || !isName e }) st.frozen
    | _ => stuck st
/-- evaluation from left to right -/
def evals (E : Env) : Exprs → St → Res (List Val)
  | .nil, st => (.ok [], st)
  | .cons e es, st => bindR (eval E e st) fun v st => bindR (evals E es st) fun vs st => (.ok (v :: vs), st)
end

/-- `for x in vs`, where `step` runs the body for one value -/
def loop (step : Val → St → Res Flow) : List Val → St → Res Flow
  | [], st => (.ok .next, st)
  | v :: vs, st => bindR (step v st) fun fl st =>
    match fl with
    | .ret w => (.ok (.ret w), st)
    | _ => loop step vs st

/-- where the value of `match` is kept -/
def subject : Str := py!"match"

/-- execution of a statement -/
def exec (E : Env) : Stmt → St → Res Flow
  | .pass, st => (.ok .next, st)
  | .seq a b, st => bindR (exec E a st) fun fl st =>
    match fl with
    | .next => exec E b st
    | fl => (.ok fl, st)
  | .ret e, st => bindR (eval E e st) fun v st => (.ok (.ret v), st)
  | .raise args, st => bindR (evals E args st) fun vs st =>
    match texts vs with
    | some ss => (.error (.fault (.value ss)), st)
    | none => stuck st
  | .assign x e, st => bindR (eval E e st) fun v st => (.ok .next, st.assign x v)
  | .setAttr x a e, st => bindR (eval E e st) fun v st =>
    match st.get x with
    | some (.obj cls attrs) =>
      if st.frozen then stuck st else (.ok .next, st.mutate x (.obj cls (put attrs a v)))
    | _ => stuck st
  | .setItem x k e, st => bindR (eval E e st) fun v st => bindR (eval E k st) fun k st =>
    match st.get x, k with
    | some (.dict d items), .str k => (.ok .next, st.mutate x (.dict d (put items k v)))
    | _, _ => stuck st
  | .aug x e, st =>
    match st.get x with
    | some v => bindR (eval E e st) fun w st => bindR (binary .add v w st) fun u st => (.ok .next, st.assign x u)
    | none => stuck st
  | .expr e, st => bindR (eval E e st) fun _ st => (.ok .next, st)
  | .ite c a b, st => bindR (eval E c st) fun v st =>
    match truth v with
    | some t => if t then exec E a st else exec E b st
    | none => stuck st
  | .matchOn e cases, st => bindR (eval E e st) fun v st => exec E cases (st.assign subject v)
  | .case v a rest, st =>
    match find st.locals subject with
    | some w =>
      match equal w v with
      | some t => if t then exec E a st else exec E rest st
      | none => stuck st
    | none => stuck st
  | .tryExcept a es x h, st =>
    match exec E a st with
    | (.error (.fault f), st') =>
      if es.contains f.exc then exec E h (st'.assign x (.fault f)) else (.error (.fault f), st')
    | r => r
  | .forIn x e a, st => bindR (eval E e st) fun v st =>
    match v with
    | .list vs => loop (fun v st => exec E a (st.assign x v)) vs st
    | _ => stuck st
  | .withOpen e x a, st => bindR (eval E e st) fun v st =>
    match v with
    | .file .unopenable => (.error (.fault (.other .osError)), st)
    | .file f => exec E a (st.assign x (.file f))
    | _ => stuck st
  | .continue, st => (.ok .continue, st)

/-! ## Calls -/

/-- parameters with their values: the arguments, then defaults -/
def bindParams (params : List Str) (defaults : List (Str × Val)) (args : List Val) : Option (List (Str × Val)) :=
  match params, args with
  | [], [] => some []
  | p :: ps, v :: vs => (bindParams ps defaults vs).map ((p, v) :: ·)
  | p :: ps, [] => (find defaults p).bind fun v => (bindParams ps defaults []).map ((p, v) :: ·)
  | [], _ :: _ => none

/-- the value a body returns -/
def returned : Flow → Option Val
  | .next => some .none
  | .ret v => some v
  | .continue => none

/-- the end of a call: the variables of the caller are back; also the variables at the end -/
def leave (st : St) (r : Res Flow) : Except Err Val × St × List (Str × Val) :=
  match r with
  | (.error e, st') => (.error e, { st' with locals := st.locals, frozen := st.frozen }, st'.locals)
  | (.ok fl, st') =>
    match returned fl with
    | some v => (.ok v, { st' with locals := st.locals, frozen := st.frozen }, st'.locals)
    | none => (.error .stuck, { st' with locals := st.locals, frozen := st.frozen }, st'.locals)

/-- a call: the body runs with its own variables -/
def runBody (E : Env) (F : Func) (args : List Val) (st : St) : Except Err Val × St × List (Str × Val) :=
  match bindParams F.params F.defaults args with
  | none => (.error .stuck, st, [])
  | some vars => leave st (exec E F.body { st with locals := vars })

/-- `self` at the end of a method -/
def selfOf (vars : List (Str × Val)) (before : Val) : Val :=
  match find vars (py!"self") with
  | some v => v
  | none => before

/-- the result and the state of a call -/
def outcome {α : Type} (r : Except Err Val × St × α) : Res Val := (r.1, r.2.1)

/-- call of a function, or of a class, which makes an object and runs `__init__` -/
def Prog.callFn (P : Prog) (E : Env) (f : Str) (args : List Val) (st : St) : Res Val :=
  match P.funcs.lookup f with
  | some F => outcome (runBody E F args st)
  | none =>
    match P.classes.lookup f with
    | some C =>
      match C.methods.lookup (py!"__init__") with
      | some F =>
        let r := runBody E F (.obj f [] :: args) { st with frozen := false }
        match r.1 with
        | .ok _ => (.ok (selfOf r.2.2 .none), { r.2.1 with frozen := st.frozen })
        | .error e => (.error e, { r.2.1 with frozen := st.frozen })
      | none => if args.isEmpty then (.ok (.obj f []), st) else stuck st
    | none => stuck st

/-- call of a method -/
def Prog.callMethod (P : Prog) (E : Env) (cls m : Str) (self : Val) (args : List Val) (st : St) :
    Except Err Val × St × Val :=
  match (P.classes.lookup cls).bind fun C => C.methods.lookup m with
  | some F => let r := runBody E F (self :: args) st; (r.1, r.2.1, selfOf r.2.2 self)
  | none => (.error (.fault (.other .attributeError)), st, self)

/-- a class attribute -/
def Prog.classAttr (P : Prog) (cls a : Str) : Option Val :=
  (P.classes.lookup cls).bind fun C => find C.attrs a

/-- the program, with calls of a depth of at most `n` -/
def Prog.env (P : Prog) (sc : Screen) : Nat → Env
  | 0 => ⟨sc, P.classAttr, fun _ _ st => stuck st, fun _ _ v _ st => (.error .stuck, st, v)⟩
  | n + 1 => ⟨sc, P.classAttr, P.callFn (P.env sc n), P.callMethod (P.env sc n)⟩

end
end Arinc.Lang
