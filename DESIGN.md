# Formal model of jack-laverty/arinc424 in Lean 4

## 1. What is modelled

| Lean module | models | how |
|---|---|---|
| `Verif/Py/Str.lean` | Python `str` (sequence of code points), slicing, `strip`, `lstrip('0')`, `in`, `startswith`, `endswith`, universal newlines + `readlines` | total functions on `List Nat` |
| `Verif/Py/Unicode.lean` | `isalpha`, `isalnum`, `isnumeric`, decimal digit value | a type class `PyUnicode` with the laws that every Python >= 3.10 satisfies (exact on ASCII, decimal => numeric, no overlap with whitespace); theorems are proved for every instance |
| `Verif/Py/UnicodeTables.lean`, `Cpython311.lean` | the tables of CPython 3.11 (Unicode 14) | generated instance of `PyUnicode`: shows the class is inhabited by the real thing; used in concrete examples and refutations |
| `Verif/Py/Num.lean` | `int(str)`, `float(str)`, `float / 10`, `float / 100`, `"{:.1f}"`, `"{:.2f}"`, `"{:03}"` | exact integer arithmetic; IEEE-754 binary64 with round-half-even |
| `Verif/Py/Repr.lean` | `str(float)`: the shortest decimal that reads back as the same double | search with exact arithmetic |
| `Verif/Py/Utf8.lean` | decoding of UTF-8, strict | by hand after CPython's decoder |
| `Verif/Py/Encode.lean`, `Verif/Model/Save.lean` | encoding of UTF-8, line ends written to and read from text files: what README.md's "Writing a Record to a File" leaves on the disk | by hand |
| `Verif/Model/Types.lean` | `Field`, slices, decoders' names, values | by hand |
| `Verif/Model/Layouts.lean` | every field list of `definitions/*.py` | generated from the source text by `tools/gen.py` (Python `ast`), one line per `Field(...)`, with file:line |
| `Verif/Model/Definitions.lean` | the `read` method and class attributes of each class in `definitions/*.py`, registry `records` in `record.py` | generated, same tool |
| `Verif/Model/Tables.lean` | the literal look-up tables of `decoder.py` | generated, same tool |
| `Verif/Model/Decoder.lean` | every `field_NNN` of `decoder.py` | by hand, branch by branch |
| `Verif/Model/Record.lean` | class `Record` of `record.py` | by hand |
| `Verif/Model/Json.lean` | `json.dumps` of a flat str->str dict in the two styles used | by hand |
| `Verif/Model/Api.lean` | `parse`, `search`, `read_file`, `read_folder` of `__init__.py` | by hand |
| `Verif/Model/Disk.lean` | `search`, `read_file`, `read_folder` on files of bytes | by hand |
| `Verif/Model/World.lean` | a process: many `Record` objects, the module-level `records` and `LegTypeDesc` with `defaultdict` semantics, any sequence of calls | by hand |
| `Verif/Model/Cells.lean` | `str(value)` in the cells of the table | by hand |
| `Verif/Model/Threads.lean` | the same functions as programs that show every access to the shared tables and to standard output; a machine that interleaves any number of them | by hand |
| `Verif/Model/Live.lean` | files and folders that other programs change while they are read | by hand |
| `Verif/Model/Summary.lean` | the text of the summary of `search`: `repr` of strings and lists; which characters are printable is a parameter (CPython's table, `Verif/Py/Printable.lean`, is for examples only) | by hand; table by `tools/printable.py` |
| `Verif/Model/AnyArg.lean` | `line`, `output`, `single_line`, `path` of any type | by hand |
| `Verif/Model/Encoding.lean` | the default encoding of the system is a code page instead of UTF-8; the theorems are about any code page, the tables `cp1252` and `latin1` serve as witnesses and were compared with CPython's for all 256 bytes | by hand |
| `Verif/Spec/Agree.lean`, `Lemmas/Agree.lean`, `Props/Version.lean` | two Unicode databases that classify characters in the same way |
| `Verif/Spec/Hidden.lean`, `Props/Hidden.lean` | the columns of each kind of record that no field shows |
| `Verif/Model/Output.lean` | `print` on an output whose encoding lacks characters: `UnicodeEncodeError` |
| `Verif/Model/Registry.lean` | programs that look into `records` and change it |
| `Verif/Model/Table.lean` | the text of the table (PrettyTable) |
| `Verif/Model/Stdout.lean` | standard output as text (termcolor, messages of `int`) |
| `Verif/Model/Fault.lean` | arguments and texts of exceptions, exit status |
| `Verif/Model/Objects.lean` | lists and `Field`s with addresses; callers that share and change them |
| `Verif/Model/Lang.lean` | syntax and semantics of the part of Python in which the library is written | by hand |
| `Verif/Model/Source.lean` | the syntax trees of decoder.py | `tools/source.py`, from Python's `ast` |
| `Verif/Model/SourceDefs.lean` | the syntax trees of definitions/*.py | `tools/source.py`, from Python's `ast` |
| `Verif/Model/SourceLibrary.lean` | the syntax trees of record.py and __init__.py | `tools/source.py`, from Python's `ast` |
| `Verif/Model/Shared.lean` | the methods of `Record` as programs that show every access to an attribute; a machine that interleaves any number of them on one object | by hand |
| `Verif/Model/Interrupt.lean` | calls that end after any number of these accesses, sessions of such calls | by hand |
| `Verif/Py/Stream.lean`, `Verif/Model/Stream.lean` | `TextIOWrapper.readlines` on a file delivered in pieces: incremental UTF-8 and newline decoders, lines across pieces | by hand |
| `Verif/Model/Args.lean` | `search` with a `filters` argument of any type | by hand |
| `Verif/Model/Handles.lean` | `read_file`, `search`, `read_folder` with the files and directories they open and close, interrupted anywhere | by hand |
| `Verif/Spec/*.lean` | independent specifications used in theorem statements: `Shape` (what a record line is), `Domain` (which values decode), `History`, `File` (lines of a text), `Json` (a JSON parser), `Value` (numbers and texts), `Codes` (documented codes), `Columns`, `Text`, `Consistency`, `Kinds`, `Standard` (the fields of every kind of record), `Meaning` (what a line is and what its fields mean, all together), `Fate` (what becomes of a line, a file, a search, an object), `Schedule` (what a thread should see), `Cells` (the texts in the table), `Number` (which texts are numbers; also used by `Domain`), `Double` (IEEE 754 rounding, stated with rational numbers), `Repr` (the shortest decimal of a double), `Total` (what becomes of any field, line, file and folder, without hypotheses), `Chars` (the characters that are printed), `Utf8` (the encoding), `Bytes` (what becomes of a file of any bytes), `Interrupt` (sessions with interrupted calls), `Shared` (what a shared object may hold), `Cut` (the lines of a file that is cut short), `Live` (what can be relied on of a directory listing), `Table` (a table as text), `Fault` (what exceptions say), `Objects` (programs of callers that share lists), `Damage` (lines with other characters), `Memory` (the texts given to be decoded), `Narrow` (the lines a search gets to), `Size` (how much is printed), `Blanks` (a record with blanks in front), `Turns` (how often a call uses what threads share), `Source` (values and states of the interpreter), `SourceLibrary` (objects of the model as values of the interpreter), `SourceSession` (programs that call the library, executed by the interpreter and by the model), `SourceSpec` (what the specification asks of a call of the source), `SourceProgram` (programs with any number of objects, executed by the interpreter), `SourceEnd` (what a call on an object shows, later in a program) | by hand |
| `Verif/Lemmas/*.lean` | helper lemmas | |
| `Verif/Props/*.lean` | the property theorems, `Cnn_...`, followed by non-vacuity `example`s | |

`tools/check_cites.py` checks that the cited lines of /repo exist and name what is
cited. `tools/difftest` compares the `Verif/Py` layer (not the library) with the
built-ins of CPython on random inputs. `tools/difftest/lang.py` does that for the
interpreter `Model/Lang.lean`: it writes random small programs (functions, a class,
`if`, `match`, `try`, `for`, texts, numbers, dicts, buffers; nothing of the library),
runs them with CPython and, translated by `tools/source.py`, with the interpreter,
and compares results, exceptions with their arguments, and prints. It found one
difference, `string.ascii_uppercase.index` of a text of several characters, which
the library does not use; the interpreter is now `stuck` there. The comparison was
itself tried on wrong interpreters (a dict that puts new keys in front, `except` that
undoes what was done before, locals that outlive a call, `in` with its sides swapped,
...): each makes programs differ, or get `stuck` that did not.

### Modelling decisions

* Threads (C83): one operation of a dictionary and one `print` are atomic (the
  global interpreter lock; a `print` of one string without interleaving inside
  it), except that subscripting `LegTypeDesc` with a missing key is two steps.
  Threads do not share `Record` objects there; C95 is about threads that do,
  with each read or assignment of an attribute one step. Sequential and threaded model are
  separate definitions; C83 and C95 include that they agree.
* A Python string is a `List Nat` of code points. Lone surrogates, which `str`
  allows, are included; numbers above 0x10FFFF are harmless extra strings.
* Exceptions are values: `valueError`, `indexError`, `attributeError`,
  `systemExit`, `osError`. Their arguments and texts, and the exit status, are in a second version of
  the functions, `Model/Fault.lean` (C108).
* Printing is an ordered list of events. Plain lines are modelled as their text;
  a printed table is modelled as its rows, and the summary of `search` as its
  count, filter argument and colour; its text is modelled in `Model/Summary.lean` (C99). The texts written, with
  colour codes (termcolor 2.3.0, third party) and messages, are functions of the events, modelled in `Model/Stdout.lean` (C107). `decode()` "returns" rows; the text that
  PrettyTable 3.9.0 (third party, not in the repository) draws of them is a function of the rows, modelled in
  `Model/Table.lean` (C106) from knowledge of that library.
* A float shown by PrettyTable (fields 62, 135, 269) is kept as the double; its
  text `str(value)` is modelled in `Py/Repr.lean` and `Model/Cells.lean` (C84).
* Objects: a `Record` is its five attributes. The only other mutable state in
  the library is `decoder.LegTypeDesc` (a module-level defaultdict), threaded explicitly.
  The registry `records` is also a defaultdict; the model threads it explicitly
  in the property on the registry only, since `read` guards each lookup.
* A file is what `open().readlines()` makes of it: text, or an error on opening
  (`OSError`) or on decoding (`UnicodeDecodeError`, raised before any line is
  seen). `Model/Disk.lean` derives this from the bytes, for a default encoding
  of UTF-8 (C89); `Model/Stream.lean` from the pieces in which the bytes
  are delivered (C94). A directory
  scan is the list of entries in the order the OS returned
  them, or an error.

### Not modelled

the text of the messages of `OSError`, `UnicodeDecodeError`, `IndexError` and `AttributeError`, the reasons for `print` to fail
(that it may is modelled in `Model/Interrupt.lean`), memory/recursion limits,
the test-suite and packaging files, dead code not reachable from the public API
(`AirportGate.py` contains an unused copy of `CompanyRoute`; layouts never
selected are still translated but unused).

## 2. Trusted base

* Lean 4.33.0 kernel. Axioms: at most `propext`, `Classical.choice`,
  `Quot.sound` (audited by `#print axioms`, see `tools/axioms.sh`).
  No axioms are added; no `sorry`, `admit`, `native_decide`, `bv_decide`.
* The fidelity of the model to the Python source (hand-written parts carry
  file:line citations; generated parts are a mechanical transcription by
  `tools/gen.py`, which fails on any AST shape it does not know). For decoder.py, definitions/*.py,
  record.py and __init__.py it is proved (C119 - C122), relative to the syntax trees that `tools/source.py`
  writes (one constructor per node of Python's own `ast`; exceptions in the head of `Model/Lang.lean`) and to the
  semantics of Python in `Model/Lang.lean`. What remains to be trusted there: Python's parser, `tools/source.py`, and
  that semantics. Objects are values in it; `tools/source.py` checks that no object that a function changes has a
  second name (`Module.alone`) and that arguments do not change the object whose method is called (`Module.order`).
  `tools/difftest/unparse.py` checks `tools/source.py`: Lean prints the trees as Python text, and Python's parse of that
  text is compared with its parse of the library (no differences; 594 functions, methods and attributes, 67 statements). The models of threads, interrupts, handles, live files, other encodings and arguments of other
  types are not covered by that proof; they carry citations.
* In the statements of C85 - C90, Mathlib's rational numbers and, of C115, its integers and
  sums. Mathlib is imported only by `Spec/Double`, `Spec/Size`, `Lemmas/Double`,
  `Lemmas/Seventeen`, `Props/Memory` and, through them, by what is built on them.
* CPython semantics of the `str` methods, `int`, `float`, `format`, `json.dumps`
  as transcribed in `Verif/Py` and `Verif/Model/Json.lean`.

## 3. Properties

"all R" = every prior state of the Record object. For properties the code
violates, the full statement is refuted by a theorem (`..._refuted`, concrete
witness or, where possible, for all lines) and the strongest true part is proved
(`_partial`). `MANIFEST.json` names the theorems.

| id | modelled by | proof |
|---|---|---|
| C01 | `Record.read`, spec of a well-shaped line | case split on `read`; all R |
| C02 | `Record.read`, `registry` | case split |
| C03 | `Record.read`, `registry` | case split, spec `Resolves` |
| C04 | layouts, `Definition.read` | table check of all slices (`decide` over the whole finite table) + slice lemma |
| C05 | layouts | table check + lemma |
| C06 | `Definition.read` | layout selection is a function of (section, primary, app) |
| C07 | `Record.read` | slices below 132 ignore suffix; strip lemma |
| C08 | `Record.read` | refuted by witness; partial: shape gate is insensitive |
| C09 | `Record.read` | case split + table check, iff |
| C10 | `Definition.read` | refuted for 5 sections; partial for others |
| C11 | `Definition.read` | refuted for HC; partial |
| C12 | `Record.read` | case split |
| C13 | `Record.primary/hasCont` | invariant over read histories |
| C14 | same | refuted + partial |
| C15, C16 | read histories | frame argument; EU refuted |
| C17 | read histories | refuted; partial; classification of what is left |
| C18 | EU definition | universal refutation |
| C19, C20, C23 | `Record.decode` with threaded leg table | induction on fields |
| C21, C22 | leg table invariant; world of objects, interleavings | invariant + simulation |
| C24 | decoders + layouts widths | per decoder domain + table check of widths |
| C25, C26 | `parse` | decoder domain spec, iff |
| C27, C28 | `parse` on sections | table check of decoders used + decoder lemmas; the list of sections is exact |
| C29-C32 | `readFile`, newline model | induction on lines / characters |
| C33-C35 | `search` | induction on lines |
| C36 | `readFolder` | induction on entries, permutations |
| C37-C40 | `json` | independent JSON parser in Spec; round trip by induction |
| C41, C42 | altitude family | numeric value spec, canonical decimal |
| C43 | `field_032` | all digit pairs symbolically |
| C44, C45, C60 | float model | error bound of correctly rounded division |
| C46, C47, C48 | field_039, 178, 065 | case analysis |
| C49, C50, C71 | tables | lookup lemmas + table check against the lists in Spec |
| C51-C53 | layouts | refuted by table + partial by table check |
| C54, C55 | decoders | case split over decoder numbers |
| C56, C61 | position-coded fields | case analysis, independence |
| C57, C58, C62, C63 | layouts | table check; refuted for exactly the listed kinds |
| C59 | registry as state | invariant over all call sequences |
| C64 | checked text fields | case analysis, spec of trimming |
| C65 | all decoders | case split, iff |
| C66 | `Record.read` twice | case split, all R |
| C67 | `search` on its own output | induction on hits; refuted for leading blanks |
| C68 | `read_file`, `search` | induction on lines |
| C69 | `decode`, `json` | dictionary lemmas; refuted for repeated names |
| C70 | all decoders on blanks, layouts | domain of blanks + table check |
| C72, C73 | layouts, registry | table check against `Spec/Standard.lean`; witness line for every kind |
| C74 | all field functions | `Spec/Meaning.lean` says what every value means; case analysis over the field types, from C41-C49, C54, C56, C60, C61, C64 |
| C75 | `Record.read` | composition of C01-C12 and C72, both directions |
| C76 | `parse`, `read_file`, `Record.decode` | composition of C74, C75, C25, C29; induction over fields and lines |
| C77 | `Record.read` | `Spec/Fate.lean` defines the six cases; existence and uniqueness by case analysis, effect from C75, C12, C09 |
| C78 | all field functions | from C74 and the messages of 5.34, 5.65, 5.118 |
| C79 | `parse`, `read_file`, `read_folder` | inductive specifications of runs; model satisfies them (induction over fields, lines, files), and they are functional, so equivalence |
| C80 | `search` | the same |
| C81 | `Record.json` | composition of C37-C39 with C75 |
| C82 | `Record` | induction over the sequence of reads; a relation `Last` tells the last line of which something can be said |
| C83 | `Model/Threads.lean` | a relation `Gives` (result and prints of a program for all legal answers of the tables, with a bound on its steps), proved for every function and equal to the sequential model; invariant of the machine by induction over the schedule |
| C84 | `Py/Repr.lean`, `Model/Cells.lean` | rounding does not depend on how a fraction is written; tenths below 2^51 are told apart by their doubles, so the search for the shortest decimal ends at the tenths themselves; composition with C79 |
| C85 | `Py/Num.lean` | `Spec/Number.lean` is a grammar; equivalence with `int` and `float` by induction on the text (underscores, signs, digits, exponent). `Spec/Double.lean` says with rational numbers (Mathlib's ℚ) which double a number is rounded to; the integer arithmetic of the model is proved to find it |
| C86 | everything of C79 | `Spec/Total.lean`; per field type from the grammar of C85, then as C79, without hypotheses on the characters |
| C87 | `Py/Repr.lean`, `Model/Cells.lean` | `Spec/Repr.lean`; the search for a power of ten ends because a double has at most 1074 decimals, its result is the nearest multiple, and the layout is proved equal to the specified one; reading back by the grammar of C85; tables by C86; seventeen digits because half a unit of the seventeenth is less than half the distance of two doubles |
| C88 | `Model/Api.lean` | `Spec/Chars.lean`; `runDec_over`: every decoder writes only printable ASCII characters, line ends, or characters of its value, by cases on the decoders; carried through a record, a line, a file, a folder and a search by the relations of C80 and C86 |
| C89 | `Py/Utf8.lean`, `Model/Disk.lean` | `Spec/Utf8.lean`, `Spec/Bytes.lean`; the decoder accepts exactly the encodings of texts, by induction on the number of bytes and on the encoding; a byte above 127 has a neighbour above 127; composition with C80, C86, C88 |
| C90 | `Model/Disk.lean` | U+FEFF is neither white space nor `S` or `T`, so the first line is no record; refuted for files that begin with a record |
| C91 | `Model/Interrupt.lean` | `Spec/Interrupt.lean`; the invariant of C83 (`Gives`) after any number of accesses; simulation between a session with interrupted calls and the same without them, by induction on the session |
| C92 | `Model/Args.lean` | `Spec/Args.lean`; induction on the lines with the fate of each (C77); on the elements of the list for `all`; uniqueness of the specification gives the equivalence |
| C93 | `Model/Handles.lean` | `Spec/Handles.lean` (what is held after any acts); the acts of a call are blocks "open, prints, close", by induction on lines and entries; simulation with the model of the other properties |
| C94 | `Py/Stream.lean`, `Model/Stream.lean` | `Spec/Stream.lean`; incremental decoding of `a ++ b` is that of `a` followed by that of the rest and `b`, by induction on the length of `a`; newline translation and line splitting of joined texts; composition with C89 |
| C95 | `Model/Shared.lean` | `Spec/Shared.lean`; a predicate `Ok` on programs (they assign good values only, whatever good values the others assign), which is an invariant of the machine for every schedule; proved of every method for three choices of the good values |
| C96 | `Model/Disk.lean`, `Model/Api.lean` | `Spec/Cut.lean`; the lines of a prefix of a text, by induction on `Lines`; a beginning of a line is no record or differs by whitespace |
| C97 | `Model/Live.lean` | a relation of what the reads of a changing file can bring; induction on it; what lines come to is a list of effects in which lines that are ignored do not occur, so that the two halves of a line drop out |
| C98 | `Model/Live.lean` | `Spec/Live.lean` (hypothesis on `os.scandir`); induction on the entries |
| C99 | `Model/Summary.lean` | `Spec/Summary.lean`, how Python reads string literals and list displays; a text is a literal for one string only; induction on strings and lists |
| C100 | `Model/AnyArg.lean` | by cases on the object; the functions on it agree with the other model on strings and flags, by induction on lines |
| C101 | `Model/Encoding.lean` | `Spec/Encoding.lean`; what a text in UTF-8 looks like in the code page, character by character; a record with a longer character is longer than 132 columns or ends in a letter; induction on lines |
| C102 | all of the model that uses the character database | `Spec/Agree.lean`: same classes, texts of a call; congruence of each decoder, then induction on the history |
| C103 | layouts, `Record.read` | `Spec/Hidden.lean`: gaps of each kind; table check with sets of columns as bits, then: equal fields iff equal characters outside the gaps |
| C104 | `Model/Output.lean` | `Spec/Output.lean`; the invariant of C83 (`Gives`) up to the first print that fails; the characters of what is printed as for C88, extended to objects that are read and decoded later |
| C105 | `Model/Registry.lean` (on `Model/World.lean`) | `Spec/Registry.lean`; simulation between a process whose table differs in some entries and one with the table of the library, by induction on the program |
| C106 | `Model/Table.lean` | `Spec/Table.lean`; the model draws what the specification describes, by induction on the rows; the specification determines the rows: rules give the widths, a quote in the second column begins a row |
| C107 | `Model/Stdout.lean` | statements use the model of the text; searching again: complaints and the summary begin with a letter other than S and T; reading back: lines that begin with `+` divide the text into tables and single lines, then C106 |
| C108 | `Model/Fault.lean`, a second version of the field functions that keeps the arguments of exceptions | erasing the arguments gives the other functions (by cases); texts by cases over the fields, against a small table of messages |
| C109 | `Model/Objects.lean`, which runs the programs of `Model/Shared.lean` on objects with addresses | a run with addresses is a run of one thread of C95; stores only grow; `read` returns `True` only after a new list was assigned (all by induction on the program) |
| C110 | `Model/Stdout.lean`, `Model/Api.lean` | every line written begins with one of seven characters: by induction on the lines of the file; cells are over the characters of the line (C88), so without carriage returns |
| C111 | `Record.read`, `Record.decode` | `Spec/Damage.lean`; the damaged line satisfies the specification of a line (C75) with the same section and list of fields, since a list depends on the application type for continuation records and EU only (table check); rows by C19 and C55 |
| C112 | `Model/World.lean` | `Spec/Memory.lean` (texts given to be decoded); invariant of the table and of the leg fields of all objects, by induction on the history; table check that a leg type is two neighbouring columns; a list without duplicates is no longer than a list it is contained in |
| C113 | `Model/Stdout.lean`, `Model/Api.lean` | `Spec/Narrow.lean`; the lines of the output that are no records come to nothing, so the output and the file of the records found have the same effects; `Spec/File.lean` for the records that satisfy both |
| C114 | `Model/Api.lean` | a call returns iff no line raises, and then prints what each line comes to; permutations and sublists of `flatMap`; induction over the pieces |
| C115 | `Model/Stdout.lean`, `Model/Table.lean`, `Model/Decoder.lean` | `Spec/Size.lean`; a bound for the text of every decoder (floats by C87, formatted numbers because a double is less than 10^309, tables by `decide` over their entries), for a row, a table, a line; only lines of 132 characters print anything |
| C116 | `Model/Save.lean`, `Py/Encode.lean` | encoder inverse to the decoder of C89; the table's characters are printable ASCII, line ends or from the line (as C88); JSON is printable ASCII (C40); CR LF and LF are read alike |
| C117 | `Model/Record.lean`, `Model/Layouts.lean` | `Spec/Blanks.lean`; column 5 holds the first letter of a supported section, hence at most four blanks; columns of a joined text |
| C118 | `Model/Threads.lean` | `Spec/Turns.lean` (how many turns a call may need); a bound for the steps of programs, by induction; the layouts have at most two steps |
| C119 | `Model/Lang.lean`, `Model/Source.lean`: decoder.py as syntax trees with an interpreter | `Spec/Source.lean`; every function by symbolic execution, tables by induction over their entries |
| C120 | `Model/SourceDefs.lean`, `Model/SourceLibrary.lean`, `Model/Lang.lean` | `Spec/SourceLibrary.lean`; a checker that compares trees with layouts, proved sound and evaluated on all classes; symbolic execution of the module |
| C121 | `Model/SourceLibrary.lean`: class `Record` | `Spec/SourceSession.lean`; rules of a program logic for each statement, induction over the fields and over the calls |
| C122 | `Model/SourceLibrary.lean`: the four functions | `Spec/SourceSession.lean`; induction over lines, files and calls |
| C123 | `Model/SourceLibrary.lean`, all of it | `Spec/SourceSpec.lean`, `Spec/Fate.lean`; from C122 and C79, C80, C75 |
| C124 | `Model/SourceLibrary.lean` and `Model/World.lean` | `Spec/SourceProgram.lean`; a simulation relation, induction over the calls |
| C125 | `Model/SourceLibrary.lean`, C76, C81, C124 | `Spec/SourceEnd.lean`; the simulation relation of C124, induction over the calls that leave the object alone |

## 4. Findings: where the code violates a property

Each is backed by a theorem, except those marked (read off).

* Blanks in front of a record shift every field by their number and can make the record unreadable (C08), and `search` prints such a record in a form it does not find again (C67).
* A byte-order mark at the beginning of a file makes the first record disappear without a message (C90).
* A tuple or a set of filters is ignored: `search` prints every record and counts it as containing them. A list with an element that is no string raises TypeError, but only when a record contains the strings before it (C92).
* An exception that leaves `read_folder` leaves the directory open (C93).
* A `Record` used by two threads can raise AttributeError in `read`, hold the text of one record and the fields of another, or hold one record cut up as another section (C95).
* A line of more than 132 columns is ignored, but if the file is cut after 132 of them, they can be shown as a record (C96).
* A record that is being appended to a file while it is read can be lost although later ones are shown, and a file that is rewritten can show a record that never existed (C97). A file removed from a folder while it is read ends `read_folder` (C98).
* The summary of a search for the string `['KSEA']` reads like that of a search for the list `['KSEA']` (C99).
* `output=1` prints nothing: only the object `True` turns the output on. `read_folder(None)` and `read_folder(fd)` raise TypeError unless the folder is empty (C100).
* On a system whose default encoding is a code page (Windows), records of a UTF-8 file with characters outside ASCII are ignored without a message, since their columns are counted in bytes; or nothing of the file is shown (C101).
* Outside ASCII the version of Python decides whether a record is accepted: a character that became a letter in a later Unicode version is a valid continuation number only there (C102).
* No kind of record is shown completely: columns between the fields are dropped without a trace, so records that differ only there are shown alike (C103). Most are blank or reserved in the standard.
* On an output that lacks a character of a record (`LC_ALL=C`, redirected output on Windows) `read_file` and `search` end with `UnicodeEncodeError` at that record; the records after it are not shown (C104).
* `records` is a `defaultdict`: `records[key]` for an unknown section enters `False`, and from then on reading a line that names it raises AttributeError instead of returning False; after `records['P ']` this holds of all airport records (C105).
* The exceptions about an IFR capability (5.108), a time zone (5.178, `substring not found`), a guard/transmit indicator (5.182) and most unsupported application types do not tell which value was wrong (C108).
* A bad frequency in a file makes `read_file` end the whole program with exit status 0, as if all had been read (C108).
* `float()` accepts exponents, so four characters such as `9e99` are shown as a course of 99 digits; what is printed for a field is bounded all the same (C115).
* A CR within a field of a line that is given to `read` directly is written into the table as it is; read back from a file it has become a line end (C116).
* Up to four blanks in front of a record are accepted and displace all its fields, among them the cycle date. `read`, `json` and `search` do not notice; decoding raises ValueError for the record type (C117).
* A single byte that is no UTF-8, anywhere in a file, and nothing of the file is shown; in a folder the files after it are not read (C89).
* `primary()` is False for every record of AS, R, RA, TC and, on a new object, EU (C14); a primary EU record is read as a continuation record by a new object (C18), and its reading depends on what the object read before (C15, C16).
* After a `read` that returns False or raises, the object can hold the old fields with the new text (C17).
* The test for application type J in `read` is dead code (read off). ER, EV, HV and PP raise ValueError on an unknown application type instead of reporting it (C10); HC accepts any (C11).
* One record with an undecodable field stops `read_file` and `read_folder` (C32); a bad frequency in section D, DB, PN or PM ends the interpreter by `exit()` (C28).
* `json()` drops values of records with a repeated field name (C39, C69); the text form `\udXXX` of an adjacent high and low surrogate reads back as one character (C37).
* An altitude or elevation of zero is shown as `" ft"` (C41), a longest runway of zero as `"00 ft"` (C42).
* Time zones A to L are shown with a double minus (`GMT --1`), lower-case and non-ASCII letters raise (C47).
* `isnumeric` admits characters such as `²` and `½` on which `int` and `float` raise (C26 gives the exact domain).
* A blank IFR capability (PA, HA) and blank route identifiers (ER, ET, EU, TG) raise (C70); so most TG records, which leave some of their six route identifiers blank, cannot be displayed.
* The Section Code of PN is cut from columns 5-6 and shown as `<UNKNOWN>` (C51). The continuation number of PT is cut from columns 19-21, and that of PK/HK continuation records from column 39 (C52). The application type of EP continuation records is cut from column 41 (C53).
* Key fields of PK/HK and PA(P) continuation records differ from those of the primary (C57).
* Columns shown in two fields: fifteen kinds (C58). Types of field with more than one width: twenty-three (C62).
* Fields that differ from the standard in columns or type: the 59 marked `but` in `Spec/Standard.lean` (C72): class of VHF navaids and NDBs cut short, lower limit of restrictive airspaces cut by one column, airspace type of UC, MSA center, most of the second half of company routes decoded as unrelated types, restrictive airspace types of ER continuation records decoded as sequence numbers, and so on.
* Each unknown path terminator is added to the process-wide table (C21; harmless).

## 5. Tests of the theorems against wrong programs

`seeded/mutants.py` is a list of edits to the model, each a realistic bug with the
properties it breaks; `tools/mutate.py` applies one at a time to a scratch copy,
rebuilds and records in `seeded/LOG.jsonl` which theorems no longer prove. A
proof that fails is replaced by `sorry` in the scratch copy so that later modules
still build, and theorems whose proofs use a failed one count as failed (so for an
edit that breaks a widely used lemma the list is an over-approximation). By
default the build stops as soon as every expected property has lost a theorem.
Theorems tightened after a surviving edit are named in the log.

`tools/datacheck.lean.txt` runs the model's `readFile` on the sample files that the
repository's own tests parse: all 26 are processed without an exception, as those
tests expect of the code. `Props/Fates.lean` also checks that the model prints the table shown in
README.md for its example. These are tests of the model's fidelity, not proofs.

`tools/automutate.py` complements this: it edits every number, text, comparison
and connective of a model file, one at a time, in a copy without the examples, and
reports edits after which everything still builds.

`tools/pymutate.py` does the same to the Python text itself: it edits a copy of the
library, writes the syntax trees of the edited text with `tools/source.py` and
builds the theorems about the source (C119 - C125). `seeded/pymutants.py` is its
list of realistic bugs; given file names it makes small edits everywhere. The
library is not run.
