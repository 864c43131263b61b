import Verif.Model.Threads
/-!
# One `Record` used by several threads

The methods of `Record` once more, now as programs that show every access to an attribute of the object. Between any
two of these accesses another thread may run. Reading an attribute, assigning an attribute and one `print` are each
one access. Not shown here are the dictionaries `records` and `LegTypeDesc`: C83 says that what they give does not
depend on other threads. Definitions and `Field`s are never changed after they are made.
-/
namespace Arinc
open Py

/-- A program of one thread. -/
inductive Sh (α : Type) where
  | done (r : α)
  /-- `print(...)` -/
  | print (e : Event) (k : Sh α)
  /-- the value of `self.ident` -/
  | getIdent (k : Str → Sh α)
  /-- the value of `self.raw` -/
  | getRaw (k : Str → Sh α)
  /-- the value of `self.continuation` -/
  | getCont (k : Str → Sh α)
  /-- the value of `self.fields` -/
  | getFields (k : List Field → Sh α)
  /-- the value of `self.definition` -/
  | getDef (k : Option Definition → Sh α)
  /-- `self.ident = v` -/
  | setIdent (v : Str) (k : Sh α)
  /-- `self.raw = v` -/
  | setRaw (v : Str) (k : Sh α)
  /-- `self.continuation = v` -/
  | setCont (v : Str) (k : Sh α)
  /-- `self.fields = v` -/
  | setFields (v : List Field) (k : Sh α)
  /-- `self.definition = v` -/
  | setDef (v : Option Definition) (k : Sh α)

/-- several prints -/
def Sh.prints {α : Type} : List Event → Sh α → Sh α
  | [], k => k
  | e :: es, k => .print e (Sh.prints es k)

/-- record.py:98-101 `primary`; line 101 reads the attribute once or twice -/
def primarySh {α : Type} (k : Bool → Sh α) : Sh α :=
  .getDef fun
    | none => k false
    | some _ => .getCont fun c =>
      if c = py!"0" then k true
      else .getCont fun c => k (c == py!"1")

/-- record.py:103-106 `hasCont` -/
def hasContSh {α : Type} (k : Bool → Sh α) : Sh α :=
  primarySh fun b => if b = false then k false else .getCont fun c => k (c == py!"1")

variable [PyUnicode]

omit [PyUnicode] in
/-- record.py:159-164 -/
def readFieldsSh (line : Str) : Sh (Except Exc Bool) :=
  .getDef fun
    | none => .done (.error .attributeError)
    | some d => primarySh fun b =>
      match d.read line b with
      | .error e => .done (.error e)
      | .ok fields => .setFields fields <| .getFields fun fields =>
        if fields.isEmpty then .done (.ok false) else .done (.ok true)

omit [PyUnicode] in
/-- record.py:147-157, then the rest of `read`; `-1` has none of the attributes -/
def checkApplicationSh (line : Str) : Sh (Except Exc Bool) :=
  primarySh fun b =>
    if b = false then
      .getDef fun d =>
        match d.bind (·.appIdx) with
        | none => .done (.error .valueError)
        | some _ => .getDef fun d =>
          match d.bind (·.appType) with
          | none => .done (.error .attributeError)
          | some sl => .getRaw fun raw =>
            match sl.eval raw with
            | .error e => .done (.error e)
            | .ok application_type => .getDef fun d =>
              match d.bind (·.continuations) with
              | none => .done (.error .attributeError)
              | some cs =>
                if !cs.contains application_type && !truthy (py!"J") then
                  .getDef fun d =>
                    match d.bind (·.name) with
                    | none => .done (.error .attributeError)
                    | some nm =>
                      .print (.line (py!"Unsupported " ++ nm ++ py!" Application Type: \"" ++ application_type
                        ++ py!"\"")) <|
                      .getDef fun d =>
                        match d.bind (·.name) with
                        | none => .done (.error .attributeError)
                        | some nm => .getDef fun d =>
                          match d.bind (·.continuations) with
                          | none => .done (.error .attributeError)
                          | some cs =>
                            .print (.line (py!"Supported application types for " ++ nm ++ py!" are: "
                              ++ listRepr cs)) <|
                            .getRaw fun raw => .print (.line (py!"Record: " ++ raw)) (.done (.ok false))
                else readFieldsSh line
    else readFieldsSh line

/-- record.py:138-145, then the rest of `read` -/
def checkContSh (line : Str) : Sh (Except Exc Bool) :=
  .getDef fun d =>
    match d.bind (·.contIdx) with
    | none => readFieldsSh line
    | some _ => .getRaw fun raw => .getDef fun d =>
      match d.bind (·.contIdx) with
      | none => .done (.error .attributeError)
      | some i =>
        match index raw i with
        | .error e => .done (.error e)
        | .ok c => .setCont c <| .getCont fun c =>
          if isAlnum c = false then
            .getDef fun d =>
              match d.bind (·.name) with
              | none => .done (.error .attributeError)
              | some nm => .getCont fun c =>
                .print (.line (py!"Unsupported " ++ nm ++ py!" Continuation Record Number: \"" ++ c ++ py!"\"")) <|
                .print (.line (py!"Valid Continuation Record Numbers are 0, 1, 2 (through 9) A, B, C (through Z)")) <|
                .getRaw fun raw => .print (.line (py!"Record: " ++ raw)) (.done (.ok false))
          else checkApplicationSh line

/-- record.py:136, then the rest of `read`; a missing key would give `False`, which has no `read` -/
def lookupSh (line : Str) : Sh (Except Exc Bool) :=
  .getIdent fun ident =>
    match registry.lookup ident with
    | none => .done (.error .attributeError)
    | some d => .setDef (some d) (checkContSh line)

/-- record.py:118-164 `read` -/
def readSh (line : Str) : Sh (Except Exc Bool) :=
  if validate line = false then .done (.ok false)
  else
    .setRaw (strip line) <|
    match (Slice.pair 4 12).eval line with
    | .error e => .done (.error e)
    | .ok identifier_2 =>
      if inRegistry (slice line 4 6) then .setIdent (slice line 4 6) (lookupSh line)
      else if inRegistry identifier_2 then .setIdent identifier_2 (lookupSh line)
      else .done (.ok false)

omit [PyUnicode] in
/-- decoder.py:119-193: `record.ident` is read again for each comparison -/
def routeTypesSh {α : Type} (k : List (Str × Str) → Sh α) : Sh α :=
  .getIdent fun i => if i = py!"ER" then k t007_1 else
  .getIdent fun i => if i = py!"ET" then k t007_2 else
  .getIdent fun i => if i = py!"PD" then k t007_3 else
  .getIdent fun i => if i = py!"HD" then k t007_3 else
  .getIdent fun i => if i = py!"PE" then k t007_4 else
  .getIdent fun i => if i = py!"HE" then k t007_4 else
  .getIdent fun i => if i = py!"PF" then k t007_5 else
  .getIdent fun i => if i = py!"HF" then k t007_5 else k []

/-- `field.decode(self)` (decoder.py:13-14): of all the decoders only 5.7 and 5.34 look at the record
    (decoder.py:118-194, 491-500) -/
def decodeFieldSh {α : Type} (f : Field) (k : Except Exc PyVal → Sh α) : Sh α :=
  match f.dec with
  | .f007 => routeTypesSh fun d =>
    k (ret (if lookupD d f.value ≠ py!"bad value" then lookupD d f.value else f.value ++ py!" - BAD VALUE"))
  | .f034 =>
    let value := strip f.value
    if value.length > 0 ∧ isNumeric value = false then
      .print (.line (py!"Unsupported VOR/NDB Frequency: \"" ++ value ++ py!"\"")) <|
      .getIdent fun ident => .getRaw fun raw =>
      .print (.line (py!"from record type \"" ++ ident ++ py!"\": \"" ++ raw ++ py!"\"")) (k (.error .systemExit))
    else k (field_034 f.value [] []).1
  | fn => .prints (runDec fn f.value ⟨[], []⟩ legTypeDesc).out (k (runDec fn f.value ⟨[], []⟩ legTypeDesc).res)

/-- record.py:169-170: the loop adding one row per field; the list is looked up once, before the loop -/
def decodeRowsSh {α : Type} (k : Except Exc (List Row) → Sh α) : List Field → List Row → Sh α
  | [], rows => k (.ok rows)
  | f :: fs, rows => decodeFieldSh f fun
    | .error e => k (.error e)
    | .ok v => decodeRowsSh k fs (rows ++ [⟨f.name, py!"'" ++ f.value ++ py!"'", v⟩])

/-- record.py:166-173 `decode` -/
def decodeSh (output : Bool) : Sh (Except Exc (List Row)) :=
  .getFields fun fields => decodeRowsSh (fun
    | .error e => .done (.error e)
    | .ok rows => .prints (if output then [.table rows] else []) (.done (.ok rows))) fields []

omit [PyUnicode] in
/-- record.py:175-187 `json`; the list is looked up once -/
def jsonSh (output single_line : Bool) : Sh Str :=
  .getFields fun fields =>
    let r := ({ Record.new with fields := fields } : Record).json output single_line
    .prints r.2 (.done r.1)

/-- a method called on the shared object -/
inductive Call where
  | read (line : Str)
  | decode (output : Bool)
  | json (output single_line : Bool)
  | primary
  | hasCont

omit [PyUnicode] in
/-- the same program, its result put in another form -/
def Sh.map {α β : Type} (f : α → β) : Sh α → Sh β
  | .done r => .done (f r)
  | .print e k => .print e (k.map f)
  | .getIdent k => .getIdent fun v => (k v).map f
  | .getRaw k => .getRaw fun v => (k v).map f
  | .getCont k => .getCont fun v => (k v).map f
  | .getFields k => .getFields fun v => (k v).map f
  | .getDef k => .getDef fun v => (k v).map f
  | .setIdent v k => .setIdent v (k.map f)
  | .setRaw v k => .setRaw v (k.map f)
  | .setCont v k => .setCont v (k.map f)
  | .setFields v k => .setFields v (k.map f)
  | .setDef v k => .setDef v (k.map f)

/-- the program of a call -/
def Call.prog : Call → Sh Result
  | .read line => (readSh line).map .bool
  | .decode output => (decodeSh output).map .rows
  | .json output single_line => (jsonSh output single_line).map .text
  | .primary => primarySh fun b => .done (.bool (.ok b))
  | .hasCont => hasContSh fun b => .done (.bool (.ok b))

/-- Threads (by number), the object, and what was printed by which thread. -/
structure Sharing where
  threads : Nat → Sh Result
  obj : Record
  log : List (Nat × Event)

omit [PyUnicode] in
/-- thread `i` goes on with `p` -/
def Sharing.go (m : Sharing) (i : Nat) (p : Sh Result) : Sharing :=
  { m with threads := fun j => if j = i then p else m.threads j }

omit [PyUnicode] in
/-- one step of thread `i` -/
def Sharing.step (m : Sharing) (i : Nat) : Sharing :=
  match m.threads i with
  | .done _ => m
  | .print e k => { m with log := m.log ++ [(i, e)] }.go i k
  | .getIdent k => m.go i (k m.obj.ident)
  | .getRaw k => m.go i (k m.obj.raw)
  | .getCont k => m.go i (k m.obj.continuation)
  | .getFields k => m.go i (k m.obj.fields)
  | .getDef k => m.go i (k m.obj.definition)
  | .setIdent v k => { m with obj := { m.obj with ident := v } }.go i k
  | .setRaw v k => { m with obj := { m.obj with raw := v } }.go i k
  | .setCont v k => { m with obj := { m.obj with continuation := v } }.go i k
  | .setFields v k => { m with obj := { m.obj with fields := v } }.go i k
  | .setDef v k => { m with obj := { m.obj with definition := v } }.go i k

/-- the steps are made by these threads, in this order -/
def Sharing.run (m : Sharing) (schedule : List Nat) : Sharing := schedule.foldl Sharing.step m

/-- thread `i` is about to make the call `calls i` on the object -/
def Sharing.start (obj : Record) (calls : Nat → Call) : Sharing := ⟨fun i => (calls i).prog, obj, []⟩

end Arinc
