import Verif.Lemmas.SharedAlone
import Verif.Props.Samples
import Verif.Props.Continuation
/-!
# C95: several threads use the same `Record`

Thread `i` makes the call `calls i` on the object; there are threads without limit. `schedule` says whose turn it is,
one access to an attribute at a time, so calls of one thread after the other are included.
-/
namespace Arinc
open Py Spec

section
variable [PyUnicode]

/-- C95, the part that holds in general: whatever the threads do, the text of the object is the old one or that of a
record that one of them reads, and so is the section; the list of fields is the old one or was cut as a whole from one
line, according to one section. What is missing: that text, section and fields belong to the same record
(`C95_refuted`). -/
theorem C95_attributes_partial (obj : Record) (calls : Nat → Call) (schedule : List Nat) :
    let o := ((Sharing.start obj calls).run schedule).obj
    (o.raw = obj.raw ∨ OneText calls o.raw) ∧ (o.ident = obj.ident ∨ OneSection calls o.ident) ∧
    (o.continuation = obj.continuation ∨ OneNumber calls o.continuation) ∧
    (o.fields = obj.fields ∨ OneList calls o.fields) ∧
    (o.definition = obj.definition ∨
      ∃ k d, OneSection calls k ∧ registry.lookup k = some d ∧ o.definition = some d) := by
  have h : (Sharing.start obj calls).Fine ((mixView calls).orInit obj) (mixView calls) fun _ _ _ _ => True := by
    refine Sharing.fine_start (w := .none) (Flags.none_holds _ _) fun i => ?_
    exact ok_mono (fun _ _ _ _ => trivial) (call_mix rfl)
  have h := (h.run schedule).attrs
  exact ⟨h.raw, h.ident, h.cont, h.fields, h.defn⟩

/-- C95, the part that holds in general: `read` returns or raises `ValueError` or `AttributeError`; `decode` and `json`
show one list of fields, the old one or one cut from one line. What is missing: that `read` raises no
`AttributeError`, and that the list belongs to the text. -/
theorem C95_results_partial (obj : Record) (calls : Nat → Call) (schedule : List Nat) (i : Nat) (r : Result)
    (h : ((Sharing.start obj calls).run schedule).threads i = .done r) :
    match calls i with
    | .read _ => (∃ b, r = .bool (.ok b)) ∨ r = .bool (.error .valueError) ∨ r = .bool (.error .attributeError)
    | .decode _ => ∃ fs, (fs = obj.fields ∨ OneList calls fs) ∧
      ((∃ rows, r = .rows (.ok rows) ∧ SharedRows (fun k => k = obj.ident ∨ OneSection calls k) fs rows) ∨
       (∃ e, r = .rows (.error e) ∧ ∃ f ∈ fs, ∃ k, ((k = obj.ident ∨ OneSection calls k) ∨ k = []) ∧
          (runDec f.dec f.value ⟨k, []⟩ legTypeDesc).res = .error e))
    | .json output single_line => ∃ fs, (fs = obj.fields ∨ OneList calls fs) ∧
      (r, saidBy ((Sharing.start obj calls).run schedule) i) =
        aloneCall { obj with fields := fs } (.json output single_line)
    | .primary => ∃ b, r = .bool (.ok b)
    | .hasCont => ∃ b, r = .bool (.ok b) := by
  have hf : (Sharing.start obj calls).Fine ((mixView calls).orInit obj) (mixView calls)
      fun i _ out r => MixEnd obj calls (calls i) out r :=
    Sharing.fine_start (w := .none) (Flags.none_holds _ _) fun i => call_mix rfl
  obtain ⟨w, _, hw⟩ := (hf.run schedule).threads i
  rw [h] at hw
  exact hw

/-- C95: as long as nobody calls `read`, every thread gets and prints what it does alone, and the object stays as it
is. -/
theorem C95_readers (obj : Record) (calls : Nat → Call) (hc : ∀ i line, calls i ≠ .read line) (schedule : List Nat) :
    ((Sharing.start obj calls).run schedule).obj = obj ∧
    ∀ i r, ((Sharing.start obj calls).run schedule).threads i = .done r →
      (r, saidBy ((Sharing.start obj calls).run schedule) i) = aloneCall obj (calls i) := by
  have hf : (Sharing.start obj calls).Fine ((View.just obj).orInit obj) (View.just obj)
      fun i _ out r => (r, out) = aloneCall obj (calls i) :=
    Sharing.fine_start (w := .none) (Flags.none_holds _ _) fun i => call_same (just_same obj) (hc i)
  have hf := hf.run schedule
  constructor
  · have hs := just_same obj
    have ha := hf.attrs
    generalize ((Sharing.start obj calls).run schedule).obj = o at ha
    obtain ⟨_, _, _, _, _⟩ := o
    obtain ⟨_, _, _, _, _⟩ := obj
    have h1 := hs.ident _ ha.ident
    have h2 := hs.raw _ ha.raw
    have h3 := hs.cont _ ha.cont
    have h4 := hs.fields _ ha.fields
    have h5 := hs.defn _ ha.defn
    simp only at h1 h2 h3 h4 h5
    rw [h1, h2, h3, h4, h5]
  · intro i r h
    obtain ⟨w, _, hw⟩ := hf.threads i
    rw [h] at hw
    exact hw

/-- C95: threads that read the same line do not disturb each other: a thread that has finished got and printed what it
does alone, and the object is then as after one call. -/
theorem C95_same_line (obj : Record) (line : Str) (schedule : List Nat) (i : Nat) (r : Result)
    (h : ((Sharing.start obj fun _ => .read line).run schedule).threads i = .done r) :
    (r, saidBy ((Sharing.start obj fun _ => .read line).run schedule) i) = aloneCall obj (.read line) ∧
    ((Sharing.start obj fun _ => .read line).run schedule).obj = (obj.read line).obj := by
  have hf : (Sharing.start obj fun _ => .read line).Fine ((View.just (obj.read line).obj).orInit obj)
      (View.just (obj.read line).obj)
      fun _ w out r => (r, out) = aloneCall obj (.read line) ∧ w.Whole obj (obj.read line).obj :=
    Sharing.fine_start (w := .unchanged obj (obj.read line).obj) unchanged_holds fun i => Sh.Ok.map readSh_line
  have hf := hf.run schedule
  obtain ⟨w, h1, hw⟩ := hf.threads i
  rw [h] at hw
  exact ⟨hw.1, whole_eq hw.2 h1 hf.attrs⟩

/-- C95: threads that read accepted records of the same section with the same continuation number all get `True`, and
print nothing. (Of which of the records text and fields of the object are then, and whether of the same, is open.) -/
theorem C95_same_kind (obj : Record) (lines : Nat → Str) (k c : Str)
    (ha : ∀ i, (obj.read (lines i)).res = .ok true) (hk : ∀ i, Resolves (lines i) k)
    (hc : ∀ i t j, Padded (lines i) t → IsRecord t → contColumn k = some j → col t j = c)
    (schedule : List Nat) (i : Nat) (r : Result)
    (h : ((Sharing.start obj fun i => .read (lines i)).run schedule).threads i = .done r) :
    r = .bool (.ok true) ∧ saidBy ((Sharing.start obj fun i => .read (lines i)).run schedule) i = [] := by
  obtain ⟨d, hd⟩ := kind_def (hk 0)
  have hf : (Sharing.start obj fun i => .read (lines i)).Fine ((kindView obj lines k c d).orInit obj)
      (kindView obj lines k c d) fun _ _ out r => r = .bool (.ok true) ∧ out = [] :=
    Sharing.fine_start (w := .kind d) kind_holds fun i =>
      Sh.Ok.map (kind_read ha hk hc hd)
  obtain ⟨w, _, hw⟩ := (hf.run schedule).threads i
  rw [h] at hw
  exact hw

omit [PyUnicode] in
theorem sharing_step_other (m : Sharing) {i j : Nat} (h : j ≠ i) : (m.step j).threads i = m.threads i := by
  unfold Sharing.step
  split <;> first | rfl | exact if_neg (Ne.symm h)

/-- C95: no thread waits for another: if its turn comes again and again, it finishes, whatever the others do. -/
theorem C95_finishes (obj : Record) (calls : Nat → Call) (turn : Nat → Nat) (i : Nat)
    (hi : ∀ n, ∃ m, n ≤ m ∧ turn m = i) :
    ∃ n r, ((Sharing.start obj calls).run ((List.range n).map turn)).threads i = .done r := by
  have hs : ∀ n, (Sharing.start obj calls).run ((List.range (n + 1)).map turn) =
      ((Sharing.start obj calls).run ((List.range n).map turn)).step (turn n) := by
    intro n
    rw [List.range_succ, List.map_append, Sharing.run, List.foldl_append]
    rfl
  generalize Sharing.start obj calls = m0 at hs ⊢
  generalize hst : (fun n => m0.run ((List.range n).map turn)) = st at hs
  have hs : ∀ n, st (n + 1) = (st n).step (turn n) := by rw [← hst]; exact hs
  have goal : ∀ p n, (st n).threads i = p → ∃ n r, (st n).threads i = .done r := by
    -- the next turn of the thread
    have wait : ∀ gap n, turn (n + gap) = i → ∃ m, turn m = i ∧ (st m).threads i = (st n).threads i := by
      intro gap
      induction gap with
      | zero => intro n h; exact ⟨n, h, rfl⟩
      | succ gap ih =>
        intro n h
        by_cases hn : turn n = i
        · exact ⟨n, hn, rfl⟩
        · obtain ⟨m, h1, h2⟩ := ih (n + 1) (by rw [← h]; congr 1; omega)
          exact ⟨m, h1, by rw [h2, hs, sharing_step_other _ hn]⟩
    have next : ∀ n, ∃ m, (st m).threads i = (st n).threads i ∧ st (m + 1) = (st m).step i := by
      intro n
      obtain ⟨m, h1, h2⟩ := hi n
      obtain ⟨m', h3, h4⟩ := wait (m - n) n (by rw [← h2]; congr 1; omega)
      exact ⟨m', h4, by rw [hs, h3]⟩
    intro p
    induction p with
    | done r => intro n h; exact ⟨n, r, h⟩
    | print e k ih =>
      intro n h
      obtain ⟨m, h1, h2⟩ := next n
      exact ih (m + 1) (by rw [h2, Sharing.step, h1, h]; exact if_pos rfl)
    | getIdent k ih | getRaw k ih | getCont k ih | getFields k ih | getDef k ih =>
      intro n h
      obtain ⟨m, h1, h2⟩ := next n
      exact ih _ (m + 1) (by rw [h2, Sharing.step, h1, h]; exact if_pos rfl)
    | setIdent v k ih | setRaw v k ih | setCont v k ih | setFields v k ih | setDef v k ih =>
      intro n h
      obtain ⟨m, h1, h2⟩ := next n
      exact ih (m + 1) (by rw [h2, Sharing.step, h1, h]; exact if_pos rfl)
  have := goal _ 0 rfl
  rw [← hst] at this
  exact this

end

theorem fateRead [PyUnicode] (obj : Record) (line : Str) :
    (obj.read line).res = .error .valueError ∨ ∃ b, (obj.read line).res = .ok b := by
  cases h : (obj.read line).res with
  | ok b => exact .inr ⟨b, rfl⟩
  | error e => exact .inl (by rw [((C09_read_raises_iff obj line e).1 h).1])

section
attribute [local instance] Py.Tables.cpython311

/-- the result of a program that has ended -/
def Sh.result {α : Type} : Sh α → Option α
  | .done r => some r
  | _ => none

theorem sh_result_iff {α : Type} {p : Sh α} {r : α} : p.result = some r ↔ p = .done r := by
  cases p <;> simp [Sh.result]

instance (line k : Str) (p : Bool) (fs : List Field) : Decidable (CutFrom line k p fs) := by
  unfold CutFrom; infer_instance

/-- thread 0 reads `a`, the others read `b` -/
def twoReads (a b : Str) (i : Nat) : Call := if i = 0 then .read a else .read b

/-- the turns: `n` of thread 0, all of thread 1, the rest of thread 0 -/
def interleave (n : Nat) : List Nat := List.replicate n 0 ++ List.replicate 25 1 ++ List.replicate 25 0

/-- C95 is false as it stands. One thread reads an airport; while it does so, another thread uses the same object for
another record, and reads it completely.

* If that is a Grid MORA, the first thread may get `AttributeError`, which `read` raises for no line in any object.
* If that is a VHF navaid, the first thread may get `True` and leave the columns of the airport in the object cut up as a
  navaid.
* The object may be left with the text of the one record and the fields of the other, after both calls have returned
  `True`: even if both records are airports. -/
theorem C95_refuted :
    (((Sharing.start Record.new (twoReads Sample.airport Sample.mora)).run (interleave 6)).threads 0 =
        .done (.bool (.error .attributeError))) ∧
    (∀ obj line, (Record.read obj line).res ≠ .error .attributeError) ∧
    (let m := (Sharing.start Record.new (twoReads Sample.airport Sample.vhf)).run (interleave 4)
     m.threads 0 = .done (.bool (.ok true)) ∧ m.threads 1 = .done (.bool (.ok true)) ∧
     CutFrom Sample.airport (py!"D ") true m.obj.fields) ∧
    (let m := (Sharing.start Record.new (twoReads Sample.airport Sample.airportBlank)).run (interleave 1)
     m.threads 0 = .done (.bool (.ok true)) ∧ m.threads 1 = .done (.bool (.ok true)) ∧
     m.obj.raw = Sample.airportBlank ∧ CutFrom Sample.airport (py!"PA") true m.obj.fields ∧
     ¬ CutFrom Sample.airportBlank (py!"PA") true m.obj.fields) := by
  simp only [← sh_result_iff]
  refine ⟨by decide +kernel, ?_, by decide +kernel, by decide +kernel⟩
  intro obj line h
  rcases fateRead obj line with h' | ⟨b, h'⟩ <;> rw [h'] at h <;> cases h

/-! ### the theorems say something about cases like these -/

/-- both threads of the first example do finish if they take turns in another way -/
example : let m := (Sharing.start Record.new (twoReads Sample.airport Sample.mora)).run (interleave 25)
    m.obj = (Record.read (Record.new.read Sample.airport).obj Sample.mora).obj ∧
    (m.threads 0).result = some (.bool (.ok true)) ∧ (m.threads 1).result = some (.bool (.ok true)) := by
  decide +kernel

/-- a turn each -/
def inTurn (n : Nat) : List Nat := (List.range n).flatMap fun _ => [0, 1]

/-- two threads read the same line, with a bad continuation number, and both complain -/
example : let m := (Sharing.start Record.new fun _ => .read Sample.airportBadCont).run (inTurn 30)
    (m.threads 0).result = some (.bool (.ok false)) ∧ (m.threads 1).result = some (.bool (.ok false)) ∧
    (saidBy m 0).length = 3 ∧ saidBy m 0 = saidBy m 1 ∧ m.log.length = 6 := by decide +kernel

/-- two airports -/
example : let lines := fun i : Nat => if i = 0 then Sample.airport else Sample.airportBlank
    (∀ i, (Record.new.read (lines i)).res = .ok true) ∧ (∀ i, Resolves (lines i) (py!"PA")) ∧
    ∀ i t j, Padded (lines i) t → IsRecord t → contColumn (py!"PA") = some j → col t j = py!"1" := by
  refine ⟨fun i => ?_, fun i => ?_, fun i t j hp ht hj => ?_⟩
  · dsimp only; split <;> decide +kernel
  · rw [← resolve_iff]; dsimp only; split <;> decide +kernel
  · rw [← isRecord_strip hp ht]
    cases hj
    dsimp only; split <;> decide +kernel

/-- `decode` and `json` at the same time, in an object that was read before -/
example : let obj := (Record.new.read Sample.vhfBadFreq).obj
    let m := (Sharing.start obj fun i => if i = 0 then .decode true else .json true true).run (inTurn 60)
    (m.threads 0).result = some (.rows (.error .systemExit)) ∧ (saidBy m 0).length = 2 ∧ (saidBy m 1).length = 1 ∧
    obj.fields ≠ [] := by decide +kernel

/-- a thread decodes while another reads: the route type is looked up for the other record -/
example : let obj := (Record.new.read Sample.sid).obj
    let calls := fun i : Nat => if i = 0 then Call.decode false else .read Sample.airport
    let m := (Sharing.start obj calls).run ([0] ++ List.replicate 25 1 ++ List.replicate 60 0)
    (m.threads 0).result ≠ some (aloneCall obj (calls 0)).1 ∧ (m.threads 0).result ≠ none := by decide +kernel

end

end Arinc
