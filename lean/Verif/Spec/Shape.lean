import Verif.Py.Unicode
/-!
# Specification: what an ARINC-424 line looks like

Independent of the model's functions (`validate`, `strip`, `slice`, `registry`).
-/
namespace Spec
open Py

/-- only whitespace -/
def AllSpace (s : Str) : Prop := ∀ c ∈ s, isSpace c = true

/-- `line` is `t` with arbitrary whitespace around it -/
def Padded (line t : Str) : Prop :=
  ∃ pre post, line = pre ++ t ++ post ∧ AllSpace pre ∧ AllSpace post

/-- columns `lo+1 .. hi` (0-based `lo` to `hi-1`) of a text -/
def cols (t : Str) (lo hi : Nat) : Str := (t.drop lo).take (hi - lo)

/-- column `i+1` (0-based `i`) of a text, as a string of length at most one -/
def col (t : Str) (i : Nat) : Str := t[i]?.toList

/-- the text found in the given (0-based) columns, in the given order -/
def pick (t : Str) (cs : List Nat) : Str := cs.flatMap (col t)

/-- A record: 132 columns, `S` or `T` in column 1, nine numeric characters at the end. -/
structure IsRecord [PyUnicode] (t : Str) : Prop where
  length : t.length = 132
  first : t.head? = some 83 ∨ t.head? = some 84
  tail : ∀ c ∈ t.drop 123, PyUnicode.numeric c = true

/-- The line is a record up to surrounding whitespace. -/
def WellShaped [PyUnicode] (line : Str) : Prop := ∃ t, Padded line t ∧ IsRecord t

/-- the line does not start with whitespace -/
def NoLeadingSpace (line : Str) : Prop := ∀ c, line.head? = some c → isSpace c = false

/-- Sections the library documents as supported (README.md "Supported Records"; section and
    subsection character). -/
def supported : List Str :=
  [py!"AS", py!"D ", py!"DB", py!"EA", py!"EM", py!"EP", py!"ER", py!"ET", py!"EU", py!"EV",
   py!"HA", py!"HC", py!"HD", py!"HE", py!"HF", py!"HK", py!"HS", py!"HV",
   py!"PA", py!"PB", py!"PC", py!"PD", py!"PE", py!"PF", py!"PG", py!"PI", py!"PK", py!"PL",
   py!"PM", py!"PN", py!"PP", py!"PR", py!"PS", py!"PT", py!"PV",
   py!"R ", py!"RA", py!"TC", py!"TG", py!"UC", py!"UF", py!"UR"]

/-- 0-based column of the continuation record number, for the sections that have one
    (definitions/*.py `cont_idx`). -/
def contColumn (section_ : Str) : Option Nat :=
  if section_ ∈ [py!"AS", py!"EU", py!"R ", py!"RA", py!"TC"] then none
  else if section_ ∈ [py!"EP", py!"ER", py!"ET", py!"HD", py!"HE", py!"HF", py!"HS", py!"PD", py!"PE",
      py!"PF", py!"PS", py!"TG"] then some 38
  else if section_ ∈ [py!"HV", py!"PV"] then some 25
  else if section_ ∈ [py!"UC", py!"UR"] then some 24
  else if section_ ∈ [py!"HK", py!"PK"] then some 29
  else if section_ = py!"EV" then some 55
  else if section_ = py!"UF" then some 19
  else if section_ = py!"PR" then some 69
  else if section_ = py!"PP" then some 26
  else some 21

/-- The section a line is dispatched to: columns 5-6 if they are a supported code, else
    columns 5 and 13. -/
inductive Resolves (line : Str) : Str → Prop
  | byPair (h : cols line 4 6 ∈ supported) : Resolves line (cols line 4 6)
  | bySplit (h₁ : cols line 4 6 ∉ supported) (h₂ : col line 4 ++ col line 12 ∈ supported) :
      Resolves line (col line 4 ++ col line 12)

/-- 0-based columns of the application type (restriction type for EU) of a section -/
def appColumns (section_ : Str) : List Nat :=
  if section_ = py!"EU" then [15, 16]
  else match contColumn section_ with
    | some k => [k + 1]
    | none => []

/-- application types a section supports for its continuation records (the `continuations`
    lists of definitions/*.py); for EU the restriction types -/
def declaredApps (section_ : Str) : List Str :=
  if section_ ∈ [py!"EA", py!"ER", py!"HA", py!"PA", py!"PC"] then [py!"A", py!"P", py!"Q"]
  else if section_ ∈ [py!"DB", py!"PN"] then [py!"A", py!"P", py!"Q", py!"S"]
  else if section_ = py!"D " then [py!"A", py!"L", py!"P", py!"S"]
  else if section_ ∈ [py!"HD", py!"HE", py!"HF", py!"PD", py!"PE", py!"PF"] then
    [py!"E", py!"P", py!"W"]
  else if section_ = py!"UR" then [py!"T", py!"P", py!"C"]
  else if section_ ∈ [py!"ET", py!"PR", py!"HV"] then [py!"A", py!"T"]
  else if section_ = py!"HC" then [py!"A", py!"P"]
  else if section_ ∈ [py!"PG", py!"PI"] then [py!"A", py!"S"]
  else if section_ = py!"EV" then [py!" ", py!"T"]
  else if section_ = py!"PP" then [py!"E"]
  else if section_ = py!"PV" then [py!"N"]
  else if section_ = py!"EU" then [py!"AE", py!"TC", py!"NR"]
  else if section_ ∈ [py!"AS", py!"R ", py!"RA", py!"TC"] then []
  else [py!"A"]

/-- name of the record type, as diagnostics call it (definitions/*.py `name`), for the sections
    with a continuation number -/
def recordName (section_ : Str) : Option Str :=
  [(py!"D ", py!"VHF Navaid"), (py!"DB", py!"NDB Navaid"), (py!"EA", py!"Waypoint"),
   (py!"EM", py!"Airways Marker"), (py!"EP", py!"Holding Pattern"),
   (py!"ER", py!"Enroute Airways"), (py!"ET", py!"Preferred Route"),
   (py!"EV", py!"Enroute Communications"), (py!"HA", py!"Heliport"),
   (py!"HC", py!"Heliport Terminal Waypoint"), (py!"HD", py!"SID/STAR/Approach"),
   (py!"HE", py!"SID/STAR/Approach"), (py!"HF", py!"SID/STAR/Approach"), (py!"HK", py!"TAA"),
   (py!"HS", py!"MSA"), (py!"HV", py!"Heliport Communications"), (py!"PA", py!"Airport"),
   (py!"PB", py!"Airport Gate"), (py!"PC", py!"Waypoint"), (py!"PD", py!"SID/STAR/Approach"),
   (py!"PE", py!"SID/STAR/Approach"), (py!"PF", py!"SID/STAR/Approach"), (py!"PG", py!"Runway"),
   (py!"PI", py!"Localizer and Glide Slope"), (py!"PK", py!"TAA"), (py!"PL", py!"MLS"),
   (py!"PM", py!"Localizer Marker"), (py!"PN", py!"NDB Navaid"), (py!"PP", py!"Path Point"),
   (py!"PR", py!"Flight Planning Arrival/Departure"), (py!"PS", py!"MSA"), (py!"PT", py!"GLS"),
   (py!"PV", py!"Airport Communications"), (py!"TG", py!"Geographical Reference Table"),
   (py!"UC", py!"Controlled Airspace"), (py!"UF", py!"FIR/UIR"),
   (py!"UR", py!"Restrictive Airspace")].lookup section_

/-- continuation numbers of primary records -/
def PrimaryNo (c : Str) : Prop := c = py!"0" ∨ c = py!"1"

instance (c : Str) : Decidable (PrimaryNo c) := inferInstanceAs (Decidable (_ ∨ _))

end Spec
