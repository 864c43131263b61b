import Verif.Spec.Columns
/-!
# Specification: the fields of every kind of record

For each kind of record, its fields in order: name, columns counted from 1 as in the standard, and
field type (section of chapter 5 of ARINC 424-18, the decoder's number). A list was started from
the definitions in /repo and then compared with chapter 4 of the standard as far as it is known here
(there is no copy of it in the sandbox); where the code does something else, `but` says what.
-/
namespace Spec.Std
open Py Arinc

/-- a field of a record: columns and type by the standard, and those used by the code if different -/
structure StdField where
  name : Str
  columns : List Nat
  fn : DecFn
  used : Option (List Nat × DecFn) := none
deriving DecidableEq

/-- one column -/
def one (name : Str) (c : Nat) (fn : DecFn) : StdField := ⟨name, [c - 1], fn, none⟩

/-- columns `a` to `b` -/
def span (name : Str) (a b : Nat) (fn : DecFn) : StdField := ⟨name, List.range' (a - 1) (b + 1 - a), fn, none⟩

/-- two columns -/
def two (name : Str) (a b : Nat) (fn : DecFn) : StdField := ⟨name, [a - 1, b - 1], fn, none⟩

/-- ... but the code uses columns `a` to `b` and this field type -/
def StdField.but (f : StdField) (a b : Nat) (fn : DecFn) : StdField :=
  { f with used := some (List.range' (a - 1) (b + 1 - a), fn) }

/-- section AS, primary record -/
def gridMora : List StdField :=
  [one (py!"Record Type") 1 .f002, span (py!"Section Code") 5 6 .f004,
   span (py!"Starting Latitude") 14 16 (.ident 141), span (py!"Starting Longitude") 17 20 (.ident 142),
   span (py!"MORA") 31 33 (.ident 143), span (py!"MORA (2)") 34 36 (.ident 143),
   span (py!"MORA (3)") 37 39 (.ident 143), span (py!"MORA (4)") 40 42 (.ident 143),
   span (py!"MORA (5)") 43 45 (.ident 143), span (py!"MORA (6)") 46 48 (.ident 143),
   span (py!"MORA (7)") 49 51 (.ident 143), span (py!"MORA (8)") 52 54 (.ident 143),
   span (py!"MORA (9)") 55 57 (.ident 143), span (py!"MORA (10)") 58 60 (.ident 143),
   span (py!"MORA (11)") 61 63 (.ident 143), span (py!"MORA (12)") 64 66 (.ident 143),
   span (py!"MORA (13)") 67 69 (.ident 143), span (py!"MORA (14)") 70 72 (.ident 143),
   span (py!"MORA (15)") 73 75 (.ident 143), span (py!"MORA (16)") 76 78 (.ident 143),
   span (py!"MORA (17)") 79 81 (.ident 143), span (py!"MORA (18)") 82 84 (.ident 143),
   span (py!"MORA (19)") 85 87 (.ident 143), span (py!"MORA (21)") 88 90 (.ident 143),
   span (py!"MORA (22)") 91 93 (.ident 143), span (py!"MORA (23)") 94 96 (.ident 143),
   span (py!"MORA (24)") 97 99 (.ident 143), span (py!"MORA (25)") 100 102 (.ident 143),
   span (py!"MORA (26)") 103 105 (.ident 143), span (py!"MORA (27)") 106 108 (.ident 143),
   span (py!"MORA (28)") 109 111 (.ident 143), span (py!"MORA (29)") 112 114 (.ident 143),
   span (py!"MORA (30)") 115 117 (.ident 143), span (py!"MORA (31)") 118 120 (.ident 143),
   span (py!"File Record No") 124 128 (.ident 31), span (py!"Cycle Date") 129 132 .f032]

/-- section D, primary record -/
def vhfNavaid : List StdField :=
  [one (py!"Record Type") 1 .f002, span (py!"Customer / Area Code") 2 4 .f003,
   span (py!"Section Code") 5 6 .f004, span (py!"Airport ICAO Identifier") 7 10 (.ident 6),
   span (py!"ICAO Code") 11 12 (.ident 14), span (py!"VOR Identifier") 14 17 (.ident 33),
   span (py!"ICAO Code (2)") 20 21 (.ident 14), one (py!"Continuation Record No") 22 .f016,
   span (py!"Frequency") 23 27 .f034, span (py!"Class") 28 32 (.ident 35) |>.but 28 29 (.ident 35),
   span (py!"VOR Latitude") 33 41 (.ident 36), span (py!"VOR Longitude") 42 51 (.ident 37),
   span (py!"DME Ident") 52 55 (.ident 38), span (py!"DME Latitude") 56 64 (.ident 36),
   span (py!"DME Longitude") 65 74 (.ident 37), span (py!"Station Declination") 75 79 (.ident 66),
   span (py!"DME Elevation") 80 84 (.ident 40), one (py!"Figure of Merit") 85 (.ident 149),
   span (py!"ILS/DME Bias") 86 87 (.ident 90), span (py!"Frequency Protection") 88 90 (.ident 150),
   span (py!"Datum Code") 91 93 (.ident 197), span (py!"VOR Name") 94 123 (.ident 71),
   span (py!"File Record No") 124 128 (.ident 31), span (py!"Cycle Date") 129 132 .f032]

/-- section D, continuation record, type A -/
def vhfNavaidContA : List StdField :=
  [one (py!"Record Type") 1 .f002, span (py!"Customer / Area Code") 2 4 .f003,
   span (py!"Section Code") 5 6 .f004, span (py!"Airport ICAO Identifier") 7 10 (.ident 6),
   span (py!"ICAO Code") 11 12 (.ident 14), span (py!"VOR Identifier") 14 17 (.ident 33),
   span (py!"ICAO Code (2)") 20 21 (.ident 14), one (py!"Continuation Record No") 22 .f016,
   one (py!"Application Type") 23 .f091, span (py!"Notes") 24 92 (.ident 61),
   span (py!"File Record No") 124 128 (.ident 31), span (py!"Cycle Date") 129 132 .f032]

/-- section D, continuation record, type L -/
def vhfNavaidContL : List StdField :=
  [one (py!"Record Type") 1 .f002, span (py!"Customer / Area Code") 2 4 .f003,
   span (py!"Section Code") 5 6 .f004, span (py!"Airport ICAO Identifier") 7 10 (.ident 6),
   span (py!"ICAO Code") 11 12 (.ident 14), span (py!"VOR Identifier") 14 17 (.ident 33),
   span (py!"ICAO Code (2)") 20 21 (.ident 14), one (py!"Continuation Record No") 22 .f016,
   one (py!"Application Type") 23 .f091, one (py!"Navaid Limitation Code") 24 (.ident 205),
   one (py!"Component Affected Indicator") 25 (.ident 206), span (py!"Sequence Number") 26 27 .f012,
   span (py!"Sector From/Sector To") 28 29 (.ident 207), one (py!"Distance Description") 30 (.ident 187),
   span (py!"Distance Limitation") 31 36 (.ident 208), one (py!"Altitude Description") 37 .f029,
   span (py!"Altitude Limitation") 38 43 .f209 |>.but 38 43 .f029,
   span (py!"Sector From/Sector To (2)") 44 45 (.ident 207),
   one (py!"Distance Description (2)") 46 (.ident 187), span (py!"Distance Limitation (2)") 47 52 (.ident 208),
   one (py!"Altitude Description (2)") 53 .f029, span (py!"Altitude Limitation (2)") 54 59 .f209,
   span (py!"Sector From/Sector To (3)") 60 61 (.ident 207),
   one (py!"Distance Description (3)") 62 (.ident 187), span (py!"Distance Limitation (3)") 63 68 (.ident 208),
   one (py!"Altitude Description (3)") 69 .f029, span (py!"Altitude Limitation (3)") 70 75 .f209,
   span (py!"Sector From/Sector To (4)") 76 77 (.ident 207),
   one (py!"Distance Description (4)") 78 (.ident 187),
   span (py!"Distance Limitation (4)") 79 84 (.ident 208) |>.but 80 84 (.ident 208),
   one (py!"Altitude Description (4)") 85 .f029, span (py!"Altitude Limitation (4)") 86 91 .f209,
   span (py!"Sector From/Sector To (5)") 92 93 (.ident 207),
   one (py!"Distance Description (5)") 94 (.ident 187), span (py!"Distance Limitation (5)") 95 100 (.ident 208),
   one (py!"Altitude Description (5)") 101 .f029 |>.but 102 102 .f029,
   span (py!"Altitude Limitation (5)") 102 107 .f209, one (py!"Sequence End Indicator") 108 (.ident 210),
   span (py!"File Record No") 124 128 (.ident 31), span (py!"Cycle Date") 129 132 .f032]

/-- section D, continuation record, type P -/
def vhfNavaidContP : List StdField :=
  [one (py!"Record Type") 1 .f002, span (py!"Customer / Area Code") 2 4 .f003,
   span (py!"Section Code") 5 6 .f004, span (py!"Airport ICAO Identifier") 7 10 (.ident 6),
   span (py!"ICAO Code") 11 12 (.ident 14), span (py!"VOR Identifier") 14 17 (.ident 33),
   span (py!"ICAO Code (2)") 20 21 (.ident 14), one (py!"Continuation Record No") 22 .f016,
   one (py!"Application Type") 23 .f091, span (py!"FIR Identifier") 24 27 (.ident 116),
   span (py!"UIR Identifier") 28 31 (.ident 116) |>.but 29 31 (.ident 116),
   one (py!"Start/End Indicator") 32 (.ident 152) |>.but 33 33 (.ident 152),
   span (py!"Start/End Date") 33 43 (.ident 153), span (py!"File Record No") 124 128 (.ident 31),
   span (py!"Cycle Date") 129 132 .f032]

/-- section D, continuation record, type S -/
def vhfNavaidContS : List StdField :=
  [one (py!"Record Type") 1 .f002, span (py!"Customer / Area Code") 2 4 .f003,
   span (py!"Section Code") 5 6 .f004, span (py!"Airport ICAO Identifier") 7 10 (.ident 6),
   span (py!"ICAO Code") 11 12 (.ident 14), span (py!"VOR Identifier") 14 17 (.ident 33),
   span (py!"ICAO Code (2)") 20 21 (.ident 14), one (py!"Continuation Record No") 22 .f016,
   one (py!"Application Type") 23 .f091, span (py!"Facility Characteristics") 28 32 (.ident 93),
   span (py!"Magnetic Variation") 75 79 .f039, span (py!"Facility Elevation") 80 84 .f092,
   span (py!"File Record No") 124 128 (.ident 31), span (py!"Cycle Date") 129 132 .f032]

/-- section DB, primary record -/
def ndbNavaid : List StdField :=
  [one (py!"Record Type") 1 .f002, span (py!"Customer / Area Code") 2 4 .f003,
   span (py!"Section Code") 5 6 .f004, span (py!"Airport ICAO Identifier") 7 10 (.ident 6),
   span (py!"ICAO Code") 11 12 (.ident 14), span (py!"NDB Identifier") 14 17 (.ident 33),
   span (py!"ICAO Code (2)") 20 21 (.ident 14), one (py!"Continuation Record No") 22 .f016,
   span (py!"NDB Frequency") 23 27 .f034, span (py!"NDB Class") 28 32 (.ident 35) |>.but 28 31 (.ident 35),
   span (py!"NDB Latitude") 33 41 (.ident 36), span (py!"NDB Longitude") 42 51 (.ident 37),
   span (py!"Magnetic Variation") 75 79 .f039, span (py!"Datum Code") 91 93 (.ident 197),
   span (py!"NDB Name") 94 123 (.ident 71), span (py!"File Record No") 124 128 (.ident 31),
   span (py!"Cycle Date") 129 132 .f032]

/-- section DB, continuation record, type A -/
def ndbNavaidContA : List StdField :=
  [one (py!"Record Type") 1 .f002, span (py!"Customer / Area Code") 2 4 .f003,
   span (py!"Section Code") 5 6 .f004, span (py!"Airport ICAO Identifier") 7 10 (.ident 6),
   span (py!"ICAO Code") 11 12 (.ident 14), span (py!"NDB Identifier") 14 17 (.ident 33),
   span (py!"ICAO Code (2)") 20 21 (.ident 14), one (py!"Continuation Record No") 22 .f016,
   one (py!"Application Type") 23 .f091, span (py!"Notes") 24 92 (.ident 61),
   span (py!"File Record No") 124 128 (.ident 31), span (py!"Cycle Date") 129 132 .f032]

/-- section DB, continuation record, type P -/
def ndbNavaidContP : List StdField :=
  [one (py!"Record Type") 1 .f002, span (py!"Customer / Area Code") 2 4 .f003,
   span (py!"Section Code") 5 6 .f004, span (py!"Airport ICAO Identifier") 7 10 (.ident 6),
   span (py!"ICAO Code") 11 12 (.ident 14), span (py!"NDB Identifier") 14 17 (.ident 33),
   span (py!"ICAO Code (2)") 20 21 (.ident 14), one (py!"Continuation Record No") 22 .f016,
   one (py!"Application Type") 23 .f091, span (py!"FIR Identifier") 24 27 (.ident 116),
   span (py!"UIR Identifier") 28 31 (.ident 116) |>.but 29 31 (.ident 116),
   one (py!"Start/End Indicator") 32 (.ident 152) |>.but 33 33 (.ident 152),
   span (py!"Start/End Date") 33 43 (.ident 153), span (py!"File Record No") 124 128 (.ident 31),
   span (py!"Cycle Date") 129 132 .f032]

/-- section DB, continuation record, type S -/
def ndbNavaidContS : List StdField :=
  [one (py!"Record Type") 1 .f002, span (py!"Customer / Area Code") 2 4 .f003,
   span (py!"Section Code") 5 6 .f004, span (py!"Airport ICAO Identifier") 7 10 (.ident 6),
   span (py!"ICAO Code") 11 12 (.ident 14), span (py!"NDB Identifier") 14 17 (.ident 33),
   span (py!"ICAO Code (2)") 20 21 (.ident 14), one (py!"Continuation Record No") 22 .f016,
   one (py!"Application Type") 23 .f091, span (py!"Facility Characteristics") 28 32 (.ident 93),
   span (py!"Facility Elevation") 80 84 .f092, span (py!"File Record No") 124 128 (.ident 31),
   span (py!"Cycle Date") 129 132 .f032]

/-- section EA, primary record -/
def enrouteWaypoint : List StdField :=
  [one (py!"Record Type") 1 .f002, span (py!"Customer / Area Code") 2 4 .f003,
   span (py!"Section Code") 5 6 .f004, span (py!"Region Code") 7 10 (.ident 41),
   span (py!"ICAO Code") 11 12 (.ident 14), span (py!"Waypoint Identifier") 14 18 (.ident 13),
   span (py!"ICAO Code (2)") 20 21 (.ident 14), one (py!"Continuation Record No") 22 .f016,
   span (py!"Waypoint Type") 27 29 .f042, span (py!"Waypoint Usage") 30 31 .f082,
   span (py!"Waypoint Latitude") 33 41 (.ident 36), span (py!"Waypoint Longitude") 42 51 (.ident 37),
   span (py!"Dynamic Mag. Variation") 75 79 .f039, span (py!"Datum Code") 85 87 (.ident 197),
   span (py!"Name Format Indicator") 96 98 .f196, span (py!"Waypoint Name / Desc") 99 123 .f043,
   span (py!"File Record No") 124 128 (.ident 31), span (py!"Cycle Date") 129 132 .f032]

/-- section EA, continuation record, type A -/
def enrouteWaypointContA : List StdField :=
  [one (py!"Record Type") 1 .f002, span (py!"Customer / Area Code") 2 4 .f003,
   span (py!"Section Code") 5 6 .f004, span (py!"Region Code") 7 10 (.ident 41),
   span (py!"ICAO Code") 11 12 (.ident 14), span (py!"Waypoint Identifier") 14 18 (.ident 13),
   span (py!"ICAO Code (2)") 20 21 (.ident 14), one (py!"Continuation Record No") 22 .f016,
   one (py!"Application Type") 23 .f091, span (py!"Notes") 24 92 (.ident 61) |>.but 24 123 (.ident 61),
   span (py!"File Record No") 124 128 (.ident 31), span (py!"Cycle Date") 129 132 .f032]

/-- section EA, continuation record, type P -/
def enrouteWaypointContP : List StdField :=
  [one (py!"Record Type") 1 .f002, span (py!"Customer / Area Code") 2 4 .f003,
   span (py!"Section Code") 5 6 .f004, span (py!"Region Code") 7 10 (.ident 41),
   span (py!"ICAO Code") 11 12 (.ident 14), span (py!"Waypoint Identifier") 14 18 (.ident 13),
   span (py!"ICAO Code (2)") 20 21 (.ident 14), one (py!"Continuation Record No") 22 .f016,
   one (py!"Application Type") 23 .f091, span (py!"FIR Identifier") 24 27 (.ident 116),
   span (py!"UIR Identifier") 28 31 (.ident 116), one (py!"Start/End Indicator") 32 (.ident 152),
   span (py!"Start/End Date") 33 43 (.ident 153), span (py!"File Record No") 124 128 (.ident 31),
   span (py!"Cycle Date") 129 132 .f032]

/-- section EM, primary record -/
def airwaysMarker : List StdField :=
  [one (py!"Record Type") 1 .f002, span (py!"Customer / Area Code") 2 4 .f003,
   span (py!"Section Code") 5 6 .f004, span (py!"Marker Identifier") 14 17 (.ident 110),
   span (py!"ICAO Code") 20 21 (.ident 14), one (py!"Continuation Record No") 22 .f016,
   span (py!"Marker Code") 23 26 (.ident 111), one (py!"Marker Shape") 28 .f112,
   one (py!"Marker Power") 29 .f113, span (py!"Marker Latitude") 33 41 (.ident 36),
   span (py!"Marker Longitude") 42 51 (.ident 37), span (py!"Minor Axis") 52 55 (.ident 100),
   span (py!"Magnetic Variation") 75 79 .f039, span (py!"Facility Elevation") 80 84 .f092,
   span (py!"Datum Code") 85 87 (.ident 197), span (py!"Marker Name") 94 123 (.ident 71),
   span (py!"File Record No") 124 128 (.ident 31), span (py!"Cycle Date") 129 132 .f032]

/-- section EM, continuation record, type A -/
def airwaysMarkerContA : List StdField :=
  [one (py!"Record Type") 1 .f002, span (py!"Customer / Area Code") 2 4 .f003,
   span (py!"Section Code") 5 6 .f004, span (py!"Marker Identifier") 14 17 (.ident 110),
   span (py!"ICAO Code") 20 21 (.ident 14), one (py!"Continuation Record No") 22 .f016,
   one (py!"Application Type") 23 .f091, span (py!"File Record No") 124 128 (.ident 31),
   span (py!"Cycle Date") 129 132 .f032]

/-- section EP, primary record -/
def holdingPattern : List StdField :=
  [one (py!"Record Type") 1 .f002, span (py!"Customer / Area Code") 2 4 .f003,
   span (py!"Section Code") 5 6 .f004, span (py!"Region Code") 7 10 (.ident 41),
   span (py!"ICAO Code") 11 12 (.ident 14), span (py!"Duplicate Identifier") 28 29 (.ident 114),
   span (py!"Fix Identifier") 30 34 (.ident 13), span (py!"ICAO Code (2)") 35 36 (.ident 14),
   span (py!"Section Code (2)") 37 38 .f004, one (py!"Continuation Record No") 39 .f016,
   span (py!"Inbound Holding Course") 40 43 .f062, one (py!"Turn Direction") 44 (.ident 63),
   span (py!"Leg Length") 45 47 (.ident 64), span (py!"Leg Time") 48 49 .f065,
   span (py!"Minimum Altitude") 50 54 .f030, span (py!"Maximum Altitude") 55 59 .f127,
   span (py!"Holding Speed") 60 62 (.ident 175), span (py!"RNP") 63 65 (.ident 211),
   span (py!"Arc Radius") 66 71 (.ident 204), span (py!"Name") 99 123 (.ident 60),
   span (py!"File Record No") 124 128 (.ident 31), span (py!"Cycle Date") 129 132 .f032]

/-- section EP, continuation record, type A -/
def holdingPatternContA : List StdField :=
  [one (py!"Record Type") 1 .f002, span (py!"Customer / Area Code") 2 4 .f003,
   span (py!"Section Code") 5 6 .f004, span (py!"Region Code") 7 10 (.ident 41),
   span (py!"ICAO Code") 11 12 (.ident 14), span (py!"Duplicate Identifier") 28 29 (.ident 114),
   span (py!"Fix Identifier") 30 34 (.ident 13), span (py!"ICAO Code (2)") 35 36 (.ident 14),
   span (py!"Section Code (2)") 37 38 .f004, one (py!"Continuation Record No") 39 .f016,
   one (py!"Application Type") 40 .f091 |>.but 41 41 .f091, span (py!"Notes") 41 109 (.ident 61),
   span (py!"File Record No") 124 128 (.ident 31), span (py!"Cycle Date") 129 132 .f032]

/-- section ER, primary record -/
def airway : List StdField :=
  [one (py!"Record Type") 1 .f002, span (py!"Customer / Area Code") 2 4 .f003,
   span (py!"Section Code") 5 6 .f004, span (py!"Route Identifier") 14 18 .f008,
   span (py!"Sequence Number") 26 29 .f012, span (py!"Fix Identifier") 30 34 (.ident 13),
   span (py!"ICAO Code") 35 36 (.ident 14), span (py!"Section Code (2)") 37 38 .f004,
   one (py!"Continuation Record No") 39 .f016, span (py!"Waypoint Desc Code") 40 43 .f017,
   one (py!"Boundary Code") 44 (.ident 18), one (py!"Route Type") 45 .f007, one (py!"Level") 46 (.ident 19),
   one (py!"Direction Restriction") 47 (.ident 115), span (py!"Cruise Table Indicator") 48 49 (.ident 134),
   one (py!"EU Indicator") 50 (.ident 164), span (py!"Recommended NAVAID") 51 54 .f023,
   span (py!"ICAO Code (2)") 55 56 (.ident 14), span (py!"RNP") 57 59 (.ident 211),
   span (py!"Theta") 63 66 .f024, span (py!"Rho") 67 70 .f025, span (py!"Outbound Magnetic Course") 71 74 .f026,
   span (py!"Route Distance From") 75 78 .f027, span (py!"Inbound Magnetic Course") 79 82 (.ident 28),
   span (py!"Minimum Altitude") 84 88 .f030, span (py!"Minimum Altitude (2)") 89 93 .f030,
   span (py!"Maximum Altitude") 94 98 .f127, span (py!"Fix Radius Transition Indicator") 99 101 (.ident 254),
   span (py!"File Record No") 124 128 (.ident 31), span (py!"Cycle Date") 129 132 .f032]

/-- section ER, continuation record, type A -/
def airwayContA : List StdField :=
  [one (py!"Record Type") 1 .f002, span (py!"Customer / Area Code") 2 4 .f003,
   span (py!"Section Code") 5 6 .f004, span (py!"Route Identifier") 14 18 .f008,
   span (py!"Sequence Number") 26 29 .f012, span (py!"Fix Identifier") 30 34 (.ident 13),
   span (py!"ICAO Code") 35 36 (.ident 14), span (py!"Section Code (2)") 37 38 .f004,
   one (py!"Continuation Record No") 39 .f016, one (py!"Application Type") 40 .f091,
   span (py!"Notes") 41 109 (.ident 61), span (py!"File Record No") 124 128 (.ident 31),
   span (py!"Cycle Date") 129 132 .f032]

/-- section ER, continuation record, type P -/
def airwayContP : List StdField :=
  [one (py!"Record Type") 1 .f002, span (py!"Customer / Area Code") 2 4 .f003,
   span (py!"Section Code") 5 6 .f004, span (py!"Route Identifier") 14 18 .f008,
   span (py!"Sequence Number") 26 29 .f012, span (py!"Fix Identifier") 30 34 (.ident 13),
   span (py!"ICAO Code") 35 36 (.ident 14), span (py!"Section Code (2)") 37 38 .f004,
   one (py!"Continuation Record No") 39 .f016, one (py!"Application Type") 40 .f091,
   one (py!"Start/End Indicator") 41 (.ident 152), span (py!"Start/End Date") 42 52 (.ident 153),
   span (py!"Restr. Air ICAO Code") 67 68 (.ident 14), one (py!"Restr. Air Type") 69 (.ident 128),
   span (py!"Restr. Air Designation") 70 79 (.ident 129), one (py!"Restr. Air Multiple Code") 80 (.ident 130),
   span (py!"Restr. Air ICAO Code (2)") 81 82 (.ident 14),
   one (py!"Restr. Air Type (2)") 83 (.ident 128) |>.but 83 83 .f012,
   span (py!"Restr. Air Designation (2)") 84 93 (.ident 129),
   one (py!"Restr. Air Multiple Code (2)") 94 (.ident 130),
   span (py!"Restr. Air ICAO Code (3)") 95 96 (.ident 14),
   one (py!"Restr. Air Type (3)") 97 (.ident 128) |>.but 97 97 .f012,
   span (py!"Restr. Air Designation (3)") 98 107 (.ident 129),
   one (py!"Restr. Air Multiple Code (3)") 108 (.ident 130),
   span (py!"Restr. Air ICAO Code (4)") 109 110 (.ident 14),
   one (py!"Restr. Air Type (4)") 111 (.ident 128) |>.but 111 111 .f012,
   span (py!"Restr. Air Designation (4)") 112 121 (.ident 129),
   one (py!"Restr. Air Link Continuation") 123 (.ident 174), span (py!"File Record No") 124 128 (.ident 31),
   span (py!"Cycle Date") 129 132 .f032]

/-- section ET, primary record -/
def preferredRoute : List StdField :=
  [one (py!"Record Type") 1 .f002, span (py!"Customer / Area Code") 2 4 .f003,
   span (py!"Section Code") 5 6 .f004, span (py!"Route Identifier") 14 23 .f008,
   span (py!"Preferred Route Use Ind") 24 25 (.ident 220), span (py!"Sequence Number") 26 29 .f012,
   one (py!"Continuation Record No") 39 .f016, span (py!"To Fix Identifier") 40 44 (.ident 83),
   span (py!"ICAO Code") 45 46 (.ident 14), span (py!"Section Code (2)") 47 48 .f004,
   span (py!"VIA Code") 49 51 (.ident 77), span (py!"SID/STAR/AWY Ident") 52 57 (.ident 78),
   span (py!"AREA Code") 58 60 .f003, one (py!"Level") 61 (.ident 19), one (py!"Route Type") 62 .f007,
   span (py!"Initial Airport/Fix") 63 67 (.ident 194), span (py!"ICAO Code") 68 69 (.ident 14),
   span (py!"Section Code") 70 71 .f004, span (py!"Terminus Airport/Fix") 72 76 (.ident 194),
   span (py!"ICAO Code") 77 78 (.ident 14), span (py!"Section Code") 79 80 .f004,
   span (py!"Minimum Altitude") 81 85 .f030, span (py!"Maximum Altitude") 86 90 .f127,
   one (py!"Time Code") 91 (.ident 131), span (py!"Aircraft Use Group") 92 93 (.ident 221),
   one (py!"Direction Restriction") 94 (.ident 115), one (py!"Altitude Description") 95 .f029,
   span (py!"Altitude One") 96 100 .f030, span (py!"Altitude Two") 101 105 .f030,
   span (py!"File Record No") 124 128 (.ident 31), span (py!"Cycle Date") 129 132 .f032]

/-- section ET, continuation record, type A -/
def preferredRouteContA : List StdField :=
  [one (py!"Record Type") 1 .f002, span (py!"Customer / Area Code") 2 4 .f003,
   span (py!"Section Code") 5 6 .f004, span (py!"Route Identifier") 14 23 .f008,
   span (py!"Preferred Route Use Ind") 24 25 (.ident 220), span (py!"Sequence Number") 26 29 .f012,
   one (py!"Continuation Record No") 39 .f016, one (py!"Application Type") 40 .f091,
   span (py!"Notes") 41 109 (.ident 61), span (py!"File Record No") 124 128 (.ident 31),
   span (py!"Cycle Date") 129 132 .f032]

/-- section ET, continuation record, type T -/
def preferredRouteContT : List StdField :=
  [one (py!"Record Type") 1 .f002, span (py!"Customer / Area Code") 2 4 .f003,
   span (py!"Section Code") 5 6 .f004, span (py!"Route Identifier") 14 23 .f008,
   span (py!"Preferred Route Use Ind") 24 25 (.ident 220), span (py!"Sequence Number") 26 29 .f012,
   one (py!"Continuation Record No") 39 .f016, one (py!"Application Type") 40 .f091,
   one (py!"Time Code") 41 (.ident 131), one (py!"Time Indicator") 42 (.ident 138),
   span (py!"Time of Operation") 43 52 (.ident 195), span (py!"Time of Operation (2)") 53 62 (.ident 195),
   span (py!"Time of Operation (3)") 63 72 (.ident 195), span (py!"Time of Operation (4)") 73 82 (.ident 195),
   span (py!"Time of Operation (5)") 83 92 (.ident 195), span (py!"Time of Operation (6)") 93 102 (.ident 195),
   span (py!"Time of Operation (7)") 103 112 (.ident 195), span (py!"File Record No") 124 128 (.ident 31),
   span (py!"Cycle Date") 129 132 .f032]

/-- section EU, primary record, type AE -/
def airwayRestrictionAE : List StdField :=
  [one (py!"Record Type") 1 .f002, span (py!"Customer / Area Code") 2 4 .f003,
   span (py!"Section Code") 5 6 .f004, span (py!"Route Identifier") 7 11 .f008,
   span (py!"Restriction Identifier") 13 15 (.ident 154), span (py!"Restriction Type") 16 17 (.ident 201),
   one (py!"Continuation Record No") 18 .f016, span (py!"Start Fix Identifier") 19 23 (.ident 13),
   span (py!"Start Fix ICAO Code") 24 25 (.ident 14), span (py!"Start Fix Section Code") 26 27 .f004,
   span (py!"End Fix Identifier") 28 32 (.ident 13), span (py!"End Fix ICAO Code") 33 34 (.ident 14),
   span (py!"End Fix Section Code") 35 36 .f004, span (py!"Start Date") 38 44 (.ident 157),
   span (py!"End Date") 45 51 (.ident 157), one (py!"Time Code") 52 (.ident 131),
   one (py!"Time Indicator") 53 (.ident 138), span (py!"Time of Operation") 54 63 (.ident 195),
   span (py!"Time of Operation") 64 73 (.ident 195), span (py!"Time of Operation") 74 83 (.ident 195),
   span (py!"Time of Operation") 84 93 (.ident 195), one (py!"Exclusion Indicator") 94 (.ident 202),
   one (py!"Units of Altitude") 95 (.ident 160), span (py!"Restriction Altitude") 96 98 .f161,
   one (py!"Block Indicator") 99 (.ident 203), span (py!"Restriction Altitude") 100 102 .f161,
   one (py!"Block Indicator") 103 (.ident 203), span (py!"Restriction Altitude") 104 106 .f161,
   one (py!"Block Indicator") 107 (.ident 203), span (py!"Restriction Altitude") 108 110 .f161,
   one (py!"Block Indicator") 111 (.ident 203), span (py!"Restriction Altitude") 112 114 .f161,
   one (py!"Block Indicator") 115 (.ident 203), span (py!"Restriction Altitude") 116 118 .f161,
   one (py!"Block Indicator") 119 (.ident 203), span (py!"Restriction Altitude") 120 122 .f161,
   one (py!"Block Indicator") 123 (.ident 203), span (py!"File Record No") 124 128 (.ident 31),
   span (py!"Cycle Date") 129 132 .f032]

/-- section EU, primary record, type TC -/
def airwayRestrictionTC : List StdField :=
  [one (py!"Record Type") 1 .f002, span (py!"Customer / Area Code") 2 4 .f003,
   span (py!"Section Code") 5 6 .f004, span (py!"Route Identifier") 7 11 .f008,
   span (py!"Restriction Identifier") 13 15 (.ident 154), span (py!"Restriction Type") 16 17 (.ident 201),
   one (py!"Continuation Record No") 18 .f016, span (py!"Start Fix Identifier") 19 23 (.ident 13),
   span (py!"Start Fix ICAO Code") 24 25 (.ident 14), span (py!"Start Fix Section Code") 26 27 .f004,
   span (py!"End Fix Identifier") 28 32 (.ident 13), span (py!"End Fix ICAO Code") 33 34 (.ident 14),
   span (py!"End Fix Section Code") 35 36 .f004, span (py!"Start Date") 38 44 (.ident 157),
   span (py!"End Date") 45 51 (.ident 157), one (py!"Time Code") 52 (.ident 131),
   one (py!"Time Indicator") 53 (.ident 138), span (py!"Time of Operation") 54 63 (.ident 195),
   span (py!"Time of Operation (2)") 64 73 (.ident 195), span (py!"Time of Operation (3)") 74 83 (.ident 195),
   span (py!"Time of Operation (4)") 84 93 (.ident 195), span (py!"Cruise Table Ident") 94 95 (.ident 134),
   span (py!"File Record No") 124 128 (.ident 31), span (py!"Cycle Date") 129 132 .f032]

/-- section EU, primary record, type NR -/
def airwayRestrictionNR : List StdField :=
  [one (py!"Record Type") 1 .f002, span (py!"Customer / Area Code") 2 4 .f003,
   span (py!"Section Code") 5 6 .f004, span (py!"Route Identifier") 7 11 .f008 |>.but 8 11 .f008,
   span (py!"Restriction Identifier") 13 15 (.ident 154), span (py!"Restriction Type") 16 17 (.ident 201),
   one (py!"Continuation Record No") 18 .f016, span (py!"Start Fix Identifier") 19 23 (.ident 13),
   span (py!"Start Fix ICAO Code") 24 25 (.ident 14),
   span (py!"Start Fix Section Code") 26 27 .f004 |>.but 26 26 .f004,
   span (py!"End Fix Identifier") 28 32 (.ident 13), span (py!"End Fix ICAO Code") 33 34 (.ident 14),
   span (py!"End Fix Section Code") 35 36 .f004, span (py!"Start Date") 38 44 (.ident 157),
   span (py!"End Date") 45 51 (.ident 157), span (py!"Restriction Notes") 52 120 (.ident 163),
   span (py!"File Record No") 124 128 (.ident 31), span (py!"Cycle Date") 129 132 .f032]

/-- section EU, continuation record, type AE -/
def airwayRestrictionContAE : List StdField :=
  [one (py!"Record Type") 1 .f002, span (py!"Customer / Area Code") 2 4 .f003,
   span (py!"Section Code") 5 6 .f004, span (py!"Route Identifier") 7 11 .f008,
   span (py!"Restriction Identifier") 13 15 (.ident 154), span (py!"Restriction Type") 16 17 (.ident 201),
   one (py!"Continuation Record No") 18 .f016, one (py!"Application Type") 19 .f091,
   one (py!"Time Code") 52 (.ident 131), one (py!"Time Indicator") 53 (.ident 138),
   span (py!"Time of Operation") 54 63 (.ident 195), span (py!"Time of Operation (2)") 64 73 (.ident 195),
   span (py!"Time of Operation (3)") 74 83 (.ident 195), span (py!"Time of Operation (4)") 84 93 (.ident 195),
   one (py!"Exclusion Operator") 94 (.ident 202), one (py!"Units of Altitude") 95 (.ident 160),
   span (py!"Restriction Altitude") 96 98 .f161, one (py!"Block Indicator") 99 (.ident 203),
   span (py!"Restriction Altitude (2)") 100 102 .f161, one (py!"Block Indicator (2)") 103 (.ident 203),
   span (py!"Restriction Altitude (3)") 104 106 .f161, one (py!"Block Indicator (3)") 107 (.ident 203),
   span (py!"Restriction Altitude (4)") 108 110 .f161, one (py!"Block Indicator (4)") 111 (.ident 203),
   span (py!"Restriction Altitude (5)") 112 114 .f161, one (py!"Block Indicator (5)") 115 (.ident 203),
   span (py!"Restriction Altitude (6)") 116 118 .f161, one (py!"Block Indicator (6)") 119 (.ident 203),
   span (py!"Restriction Altitude (7)") 120 122 .f161, one (py!"Block Indicator (7)") 123 (.ident 203),
   span (py!"File Record No") 124 128 (.ident 31), span (py!"Cycle Date") 129 132 .f032]

/-- section EU, continuation record, type TC -/
def airwayRestrictionContTC : List StdField :=
  [one (py!"Record Type") 1 .f002, span (py!"Customer / Area Code") 2 4 .f003,
   span (py!"Section Code") 5 6 .f004, span (py!"Route Identifier") 7 11 .f008,
   span (py!"Restriction Identifier") 13 15 (.ident 154), span (py!"Restriction Type") 16 17 (.ident 201),
   one (py!"Continuation Record No") 18 .f016, one (py!"Application Type") 19 .f091,
   one (py!"Time Code") 52 (.ident 131), one (py!"Time Indicator") 53 (.ident 138),
   span (py!"Time of Operation") 54 63 (.ident 195), span (py!"Time of Operation (2)") 64 73 (.ident 195),
   span (py!"Time of Operation (3)") 74 83 (.ident 195), span (py!"Time of Operation (4)") 84 93 (.ident 195),
   span (py!"Cruise Table Ident") 94 95 (.ident 134), span (py!"File Record No") 124 128 (.ident 31),
   span (py!"Cycle Date") 129 132 .f032]

/-- section EU, continuation record, type NR -/
def airwayRestrictionContNR : List StdField :=
  [one (py!"Record Type") 1 .f002, span (py!"Customer / Area Code") 2 4 .f003,
   span (py!"Section Code") 5 6 .f004, span (py!"Route Identifier") 7 11 .f008 |>.but 8 11 .f008,
   span (py!"Restriction Identifier") 13 15 (.ident 154), span (py!"Restriction Type") 16 17 (.ident 201),
   one (py!"Continuation Record No") 18 .f016, one (py!"Application Type") 19 .f091,
   span (py!"Restriction Notes") 52 120 (.ident 163), span (py!"File Record No") 124 128 (.ident 31),
   span (py!"Cycle Date") 129 132 .f032]

/-- section EV, primary record -/
def enrouteCommunications : List StdField :=
  [one (py!"Record Type") 1 .f002, span (py!"Customer / Area Code") 2 4 .f003,
   span (py!"Section Code") 5 6 .f004, span (py!"FIR/RDO Ident") 7 10 (.ident 190),
   span (py!"FIR/UIR Address") 11 14 (.ident 151), one (py!"Indicator") 15 .f117,
   span (py!"Remote Name") 19 43 (.ident 189), span (py!"Communications Type") 44 46 .f101,
   span (py!"Comm Frequency") 47 53 .f103, one (py!"Guard/Transmit") 54 .f182,
   one (py!"Frequency Units") 55 .f104, one (py!"Continuation Record No") 56 .f016,
   span (py!"Service Indicator") 57 59 .f106, one (py!"Radar Service") 60 .f102, one (py!"Modulation") 61 .f198,
   one (py!"Signal Emission") 62 .f199, span (py!"Latitude") 63 71 (.ident 36),
   span (py!"Longitude") 72 81 (.ident 37), span (py!"Magnetic Variation") 82 86 .f039,
   span (py!"Facility Elevation") 87 91 .f092, one (py!"H24 Indicator") 92 .f181,
   one (py!"Altitude Description") 93 .f029, span (py!"Communication Altitude") 94 98 .f184,
   span (py!"Communication Altitude (2)") 99 103 .f184, span (py!"Remote Facility") 104 107 (.ident 200),
   span (py!"ICAO Code") 108 109 (.ident 14), span (py!"Section Code (2)") 110 111 .f004,
   span (py!"File Record No") 124 128 (.ident 31), span (py!"Cycle Date") 129 132 .f032]

/-- section EV, continuation record, type   -/
def enrouteCommunicationsCont  : List StdField :=
  [one (py!"Record Type") 1 .f002, span (py!"Customer / Area Code") 2 4 .f003,
   span (py!"Section Code") 5 6 .f004, span (py!"FIR/RDO Ident") 7 10 (.ident 190),
   span (py!"FIR/UIR Address") 11 14 (.ident 151), one (py!"Indicator") 15 .f117,
   span (py!"Remote Name") 19 43 (.ident 189), span (py!"Communications Type") 44 46 .f101,
   span (py!"Comm Frequency") 47 53 .f103, one (py!"Guard/Transmit") 54 .f182,
   one (py!"Frequency Units") 55 .f104, one (py!"Continuation Record No") 56 .f016,
   one (py!"Application Type") 57 .f091, one (py!"Time Code") 58 (.ident 131), one (py!"NOTAM") 59 (.ident 132),
   one (py!"Time Indicator") 60 (.ident 138), span (py!"Time of Operation") 61 70 (.ident 195),
   span (py!"Call Sign") 94 123 (.ident 105), span (py!"File Record No") 124 128 (.ident 31),
   span (py!"Cycle Date") 129 132 .f032]

/-- section EV, continuation record, type T -/
def enrouteCommunicationsContT : List StdField :=
  [one (py!"Record Type") 1 .f002, span (py!"Customer / Area Code") 2 4 .f003,
   span (py!"Section Code") 5 6 .f004, span (py!"FIR/RDO Ident") 7 10 (.ident 190),
   span (py!"FIR/UIR Address") 11 14 (.ident 151), one (py!"Indicator") 15 .f117,
   span (py!"Remote Name") 19 43 (.ident 189), span (py!"Communications Type") 44 46 .f101,
   span (py!"Comm Frequency") 47 53 .f103, one (py!"Guard/Transmit") 54 .f182,
   one (py!"Frequency Units") 55 .f104, one (py!"Continuation Record No") 56 .f016,
   one (py!"Application Type") 57 .f091, span (py!"Time of Operation") 61 70 (.ident 195),
   span (py!"Time of Operation (2)") 71 80 (.ident 195), span (py!"Time of Operation (3)") 81 90 (.ident 195),
   span (py!"Time of Operation (4)") 91 100 (.ident 195),
   span (py!"Time of Operation (5)") 101 110 (.ident 195),
   span (py!"Time of Operation (6)") 111 120 (.ident 195), span (py!"File Record No") 124 128 (.ident 31),
   span (py!"Cycle Date") 129 132 .f032]

/-- section HA, primary record -/
def heliport : List StdField :=
  [one (py!"Record Type") 1 .f002, span (py!"Customer / Area Code") 2 4 .f003,
   two (py!"Section Code") 5 13 .f004, span (py!"Heliport Identifier") 7 10 (.ident 6),
   span (py!"ICAO Code") 11 12 (.ident 14), span (py!"ATA/IATA Designator") 14 16 (.ident 107),
   span (py!"PAD Identifier") 17 21 (.ident 180), one (py!"Continuation Record No") 22 .f016,
   span (py!"Speed Limit Altitude") 23 27 .f073, span (py!"Datum Code") 28 30 (.ident 197),
   one (py!"IFR Indicator") 31 .f108, span (py!"Latitude") 33 41 (.ident 36),
   span (py!"Longitude") 42 51 (.ident 37), span (py!"Magnetic Variation") 52 56 .f039,
   span (py!"Heliport Elevation") 57 61 (.ident 55), span (py!"Speed Limit") 62 64 .f072,
   span (py!"Recommended VHF Navaid") 65 68 .f023, span (py!"ICAO Code (2)") 69 70 (.ident 14),
   span (py!"Transition Altitude") 71 75 .f053, span (py!"Transition Level") 76 80 .f053,
   one (py!"Public Military Indicator") 81 .f177, span (py!"Time Zone") 82 84 .f178,
   one (py!"Daylight Indicator") 85 .f179, span (py!"Pad Dimensions") 86 91 (.ident 176),
   one (py!"Magnetic/True Indicator") 92 .f165, span (py!"Heliport Name") 94 123 (.ident 71),
   span (py!"File Record No") 124 128 (.ident 31), span (py!"Cycle Date") 129 132 .f032]

/-- section HA, continuation record, type A -/
def heliportContA : List StdField :=
  [one (py!"Record Type") 1 .f002, span (py!"Customer / Area Code") 2 4 .f003,
   two (py!"Section Code") 5 13 .f004, span (py!"Heliport Identifier") 7 10 (.ident 6),
   span (py!"ICAO Code") 11 12 (.ident 14), span (py!"ATA/IATA Designator") 14 16 (.ident 107),
   span (py!"PAD Identifier") 17 21 (.ident 180), one (py!"Continuation Record No") 22 .f016,
   one (py!"Application Type") 23 .f091, span (py!"Notes") 24 92 (.ident 61),
   span (py!"File Record No") 124 128 (.ident 31), span (py!"Cycle Date") 129 132 .f032]

/-- section HA, continuation record, type P -/
def heliportContP : List StdField :=
  [one (py!"Record Type") 1 .f002, span (py!"Customer / Area Code") 2 4 .f003,
   two (py!"Section Code") 5 13 .f004, span (py!"Heliport Identifier") 7 10 (.ident 6),
   span (py!"ICAO Code") 11 12 (.ident 14), span (py!"ATA/IATA Designator") 14 16 (.ident 107),
   span (py!"PAD Identifier") 17 21 (.ident 180), one (py!"Continuation Record No") 22 .f016,
   one (py!"Application Type") 23 .f091, span (py!"FIR Identifier") 24 27 (.ident 116),
   span (py!"UIR Identifier") 28 31 (.ident 116), one (py!"Start/End Indicator") 32 (.ident 152),
   span (py!"Start/End Date/Time") 33 43 (.ident 153), one (py!"Controlled A/S Indicator") 67 (.ident 217),
   span (py!"Controlled A/S Airport Indentifier") 68 71 (.ident 6),
   span (py!"Controlled A/S Airport ICAO") 72 73 (.ident 14), span (py!"File Record No") 124 128 (.ident 31),
   span (py!"Cycle Date") 129 132 .f032]

/-- section HC, primary record -/
def heliportWaypoint : List StdField :=
  [one (py!"Record Type") 1 .f002, span (py!"Customer / Area Code") 2 4 .f003,
   two (py!"Section Code") 5 13 .f004, span (py!"Heliport Identifier") 7 10 (.ident 6),
   span (py!"ICAO Code") 11 12 (.ident 14), span (py!"Waypoint Identifier") 14 18 (.ident 13),
   span (py!"ICAO Code (2)") 20 21 (.ident 14), one (py!"Continuation Record No") 22 .f016,
   span (py!"Waypoint Type") 27 29 .f042, span (py!"Waypoint Usage") 30 31 .f082,
   span (py!"Waypoint Latitude") 33 41 (.ident 36), span (py!"Waypoint Longitude") 42 51 (.ident 37),
   span (py!"Dynamic Magnetic Variation") 75 79 .f039, span (py!"Datum Code") 85 87 (.ident 197),
   span (py!"Name Format Indicator") 96 98 .f196, span (py!"Waypoint Name/Description") 99 123 .f043,
   span (py!"File Record No") 124 128 (.ident 31), span (py!"Cycle Date") 129 132 .f032]

/-- section HC, continuation record, type A -/
def heliportWaypointContA : List StdField :=
  [one (py!"Record Type") 1 .f002, span (py!"Customer / Area Code") 2 4 .f003,
   two (py!"Section Code") 5 13 .f004, span (py!"Heliport Identifier") 7 10 (.ident 6),
   span (py!"ICAO Code") 11 12 (.ident 14), span (py!"Waypoint Identifier") 14 18 (.ident 13),
   span (py!"ICAO Code (2)") 20 21 (.ident 14), one (py!"Continuation Record No") 22 .f016,
   one (py!"Application Type") 23 .f091, span (py!"Notes") 24 92 (.ident 61),
   span (py!"File Record No") 124 128 (.ident 31), span (py!"Cycle Date") 129 132 .f032]

/-- section HC, continuation record, type P -/
def heliportWaypointContP : List StdField :=
  [one (py!"Record Type") 1 .f002, span (py!"Customer / Area Code") 2 4 .f003,
   two (py!"Section Code") 5 13 .f004, span (py!"Heliport Identifier") 7 10 (.ident 6),
   span (py!"ICAO Code") 11 12 (.ident 14), span (py!"Waypoint Identifier") 14 18 (.ident 13),
   span (py!"ICAO Code (2)") 20 21 (.ident 14), one (py!"Continuation Record No") 22 .f016,
   one (py!"Application Type") 23 .f091, span (py!"FIR Identifier") 24 27 (.ident 116),
   span (py!"UIR Identifier") 28 31 (.ident 116), one (py!"Start/End Indicator") 32 (.ident 152),
   span (py!"Start/End Date") 33 43 (.ident 153), span (py!"File Record No") 124 128 (.ident 31),
   span (py!"Cycle Date") 129 132 .f032]

/-- section HD, primary record -/
def procedure : List StdField :=
  [one (py!"Record Type") 1 .f002, span (py!"Customer / Area Code") 2 4 .f003,
   two (py!"Section Code") 5 13 .f004, span (py!"Airport Identifier") 7 10 (.ident 6),
   span (py!"ICAO Code") 11 12 (.ident 14), span (py!"SID/STAR/Approach Identifier") 14 19 .f009,
   one (py!"Route Type") 20 .f007, span (py!"Transition Identifier") 21 25 (.ident 11),
   span (py!"Sequence Number") 27 29 .f012, span (py!"Fix Identifier") 30 34 (.ident 13),
   span (py!"ICAO Code (2)") 35 36 (.ident 14), span (py!"Section Code (2)") 37 38 .f004,
   one (py!"Continuation Record No") 39 .f016, span (py!"Waypoint Description Code") 40 43 .f017,
   one (py!"Turn Direction") 44 .f020, span (py!"RNP") 45 47 (.ident 211),
   span (py!"Path and Termination") 48 49 .f021, one (py!"Turn Direction Valid") 50 .f022,
   span (py!"Recommended Navaid") 51 54 .f023, span (py!"ICAO Code (3)") 55 56 (.ident 14),
   span (py!"Arc Radius") 57 62 (.ident 204), span (py!"Theta") 63 66 .f024, span (py!"Rho") 67 70 .f025,
   span (py!"Magnetic Course") 71 74 .f026, span (py!"Route / Holding Distance or Time") 75 78 .f027,
   span (py!"Recommended Navaid (2)") 79 80 .f004, one (py!"Altitude Description") 83 .f029,
   one (py!"ATC Indicator") 84 (.ident 81), span (py!"Altitude") 85 89 .f030,
   span (py!"Altitude (2)") 90 94 .f030, span (py!"Transition Altitude") 95 99 .f053,
   span (py!"Speed Limit") 100 102 .f072, span (py!"Vertical Angle") 103 106 (.ident 70),
   span (py!"Center Fix or TAA Procedure Turn Indicator") 107 111 (.ident 144),
   one (py!"Multiple Code or TAA Sector Identifier") 112 (.ident 130),
   span (py!"ICAO Code (4)") 113 114 (.ident 14) |>.but 113 113 (.ident 14),
   span (py!"Section Code (3)") 115 116 .f004, one (py!"GNSS/FMS Indication") 117 (.ident 222),
   one (py!"Speed Limit Description") 118 (.ident 261), one (py!"Apch Route Qualifier 1") 119 .f007,
   one (py!"Apch Route Qualifier 2") 120 .f007, span (py!"File Record No") 124 128 (.ident 31),
   span (py!"Cycle Date") 129 132 .f032]

/-- section HD, continuation record, type E -/
def procedureContE : List StdField :=
  [one (py!"Record Type") 1 .f002, span (py!"Customer / Area Code") 2 4 .f003,
   two (py!"Section Code") 5 13 .f004, span (py!"Airport Identifier") 7 10 (.ident 6),
   span (py!"ICAO Code") 11 12 (.ident 14), span (py!"SID/STAR/Approach Identifier") 14 19 .f009,
   one (py!"Route Type") 20 .f007, span (py!"Transition Identifier") 21 25 (.ident 11),
   span (py!"Sequence Number") 27 29 .f012, span (py!"Fix Identifier") 30 34 (.ident 13),
   span (py!"ICAO Code (2)") 35 36 (.ident 14), span (py!"Section Code (2)") 37 38 .f004,
   one (py!"Continuation Record No") 39 .f016, one (py!"Application Type") 40 .f091,
   span (py!"CAT A Decision Height") 41 44 (.ident 170), span (py!"CAT B Decision Height") 45 48 (.ident 170),
   span (py!"CAT C Decision Height") 49 52 (.ident 170), span (py!"CAT D Decision Height") 53 56 (.ident 170),
   span (py!"CAT A Minimum Descent Altitude") 57 60 (.ident 171),
   span (py!"CAT B Minimum Descent Altitude") 61 64 (.ident 171),
   span (py!"CAT C Minimum Descent Altitude") 65 68 (.ident 171),
   span (py!"CAT D Minimum Descent Altitude") 69 72 (.ident 171), span (py!"Procedure TCH") 73 75 (.ident 67),
   one (py!"Localizer Only Altitude Desc") 76 .f029, span (py!"Localizer Only Altitude") 77 81 .f030,
   span (py!"Localizer Only Vertical Angle") 82 85 (.ident 70), span (py!"RNP") 90 92 (.ident 211),
   one (py!"Apch Route Qualifier 1") 119 .f007, one (py!"Apch Route Qualifier 2") 120 .f007,
   span (py!"File Record No") 124 128 (.ident 31), span (py!"Cycle Date") 129 132 .f032]

/-- section HD, continuation record, type P -/
def procedureContP : List StdField :=
  [one (py!"Record Type") 1 .f002, span (py!"Customer / Area Code") 2 4 .f003,
   two (py!"Section Code") 5 13 .f004, span (py!"Airport Identifier") 7 10 (.ident 6),
   span (py!"ICAO Code") 11 12 (.ident 14), span (py!"SID/STAR/Approach Identifier") 14 19 .f009,
   one (py!"Route Type") 20 .f007, span (py!"Transition Identifier") 21 25 (.ident 11),
   span (py!"Sequence Number") 27 29 .f012, span (py!"Fix Identifier") 30 34 (.ident 13),
   span (py!"ICAO Code (2)") 35 36 (.ident 14), span (py!"Section Code (2)") 37 38 .f004,
   one (py!"Continuation Record No") 39 .f016, one (py!"Application Type") 40 .f091,
   one (py!"Start/End Indicator") 41 (.ident 152),
   span (py!"Start/End Date") 42 52 (.ident 153) |>.but 42 45 (.ident 153),
   span (py!"Leg Distance") 75 78 (.ident 260), span (py!"File Record No") 124 128 (.ident 31),
   span (py!"Cycle Date") 129 132 .f032]

/-- section HD, continuation record, type W -/
def procedureContW : List StdField :=
  [one (py!"Record Type") 1 .f002, span (py!"Customer / Area Code") 2 4 .f003,
   two (py!"Section Code") 5 13 .f004, span (py!"Airport Identifier") 7 10 (.ident 6),
   span (py!"ICAO Code") 11 12 (.ident 14), span (py!"SID/STAR/Approach Identifier") 14 19 .f009,
   one (py!"Route Type") 20 .f007, span (py!"Transition Identifier") 21 25 (.ident 11),
   span (py!"Sequence Number") 27 29 .f012, span (py!"Fix Identifier") 30 34 (.ident 13),
   span (py!"ICAO Code (2)") 35 36 (.ident 14), span (py!"Section Code (2)") 37 38 .f004,
   one (py!"Continuation Record No") 39 .f016, one (py!"Application Type") 40 .f091,
   one (py!"FAS Block Provided") 41 (.ident 276),
   span (py!"FAS Block Provided Level of Service Name") 42 51 (.ident 275),
   one (py!"LNAV/VNAV Authorized for SBAS") 52 (.ident 276),
   span (py!"LNAV/VNAV Level of Service Name") 53 62 (.ident 275),
   one (py!"LNAV Authorized for SBAS") 63 (.ident 276),
   span (py!"LNAV Level of Service Name") 64 73 (.ident 275), one (py!"Apch Route Qualifier 1") 119 .f007,
   one (py!"Apch Route Qualifier 2") 120 .f007, span (py!"File Record No") 124 128 (.ident 31),
   span (py!"Cycle Date") 129 132 .f032]

/-- section HK, primary record -/
def heliportTaa : List StdField :=
  [one (py!"Record Type") 1 .f002, span (py!"Customer / Area Code") 2 4 .f003,
   two (py!"Section Code") 5 13 .f004, span (py!"Heliport Identifier") 7 10 (.ident 6),
   span (py!"ICAO Code") 11 12 (.ident 14), span (py!"Approach Identifier") 14 19 .f010,
   span (py!"TAA Waypoint") 20 24 (.ident 273), span (py!"TAA Procedure Turn") 21 24 (.ident 271),
   span (py!"ICAO Code (2)") 25 26 (.ident 14), span (py!"Section Code (2)") 27 28 .f004,
   one (py!"TAA Fix Position Indicator") 29 (.ident 272), one (py!"Continuation Record No") 30 .f016,
   one (py!"Mag/True Indicator") 41 .f165, span (py!"Sector Radius") 42 45 (.ident 274),
   span (py!"Sector Bearing") 46 51 (.ident 146), span (py!"Sector Minimum Altitude") 52 54 .f147,
   span (py!"Sector Radius (2)") 55 58 (.ident 274), span (py!"Sector Bearing (2)") 59 64 (.ident 146),
   span (py!"Sector Minimum Altitude (2)") 65 67 .f147, span (py!"Sector Radius (3)") 68 71 (.ident 274),
   span (py!"Sector Bearing (3)") 72 77 (.ident 146), span (py!"Sector Minimum Altitude (3)") 78 80 .f147,
   span (py!"Sector Radius (4)") 81 84 (.ident 274), span (py!"Sector Bearing (4)") 85 90 (.ident 146),
   span (py!"Sector Minimum Altitude (4)") 91 93 .f147, span (py!"Sector Radius (5)") 94 97 (.ident 274),
   span (py!"Sector Bearing (5)") 98 103 (.ident 146), span (py!"Sector Minimum Altitude (5)") 104 106 .f147,
   span (py!"Sector Radius (6)") 107 110 (.ident 274), span (py!"Sector Bearing (6)") 111 116 (.ident 146),
   span (py!"Sector Minimum Altitude (6)") 117 119 .f147, span (py!"File Record No") 124 128 (.ident 31),
   span (py!"Cycle Date") 129 132 .f032]

/-- section HK, continuation record, type A -/
def heliportTaaContA : List StdField :=
  [one (py!"Record Type") 1 .f002, span (py!"Customer / Area Code") 2 4 .f003,
   two (py!"Section Code") 5 13 .f004, span (py!"Heliport Identifier") 7 10 (.ident 6),
   span (py!"ICAO Code") 11 12 (.ident 14), span (py!"Approach Identifier") 14 19 .f010,
   one (py!"TAA Sector Identifier") 20 (.ident 272), span (py!"TAA Procedure Turn") 21 24 (.ident 271),
   span (py!"TAA IAF Waypoint") 30 34 (.ident 273),
   span (py!"ICAO Code (2)") 35 36 (.ident 14) |>.but 11 12 (.ident 14),
   span (py!"Section Code (2)") 37 38 .f004, one (py!"Continuation Record No") 39 .f016,
   one (py!"Application Notes") 40 .f091, span (py!"Notes") 41 109 (.ident 61) |>.but 51 109 (.ident 61),
   span (py!"File Record No") 124 128 (.ident 31), span (py!"Cycle Date") 129 132 .f032]

/-- section HS, primary record -/
def heliportMsa : List StdField :=
  [one (py!"Record Type") 1 .f002, span (py!"Customer / Area Code") 2 4 .f003,
   two (py!"Section Code") 5 13 .f004, span (py!"Heliport Identifier") 7 10 (.ident 6),
   span (py!"ICAO Code") 11 12 (.ident 14), span (py!"MSA Center") 14 18 (.ident 144) |>.but 14 17 (.ident 144),
   span (py!"ICAO Code (2)") 19 20 (.ident 14), span (py!"Section Code (2)") 21 22 .f004,
   one (py!"Multiple Code") 23 (.ident 130), one (py!"Continuation Record No") 39 .f016,
   span (py!"Sector Bearing") 43 48 (.ident 146), span (py!"Sector Altitude") 49 51 .f147,
   span (py!"Sector Radius") 52 53 (.ident 145), span (py!"Sector Bearing (2)") 54 59 (.ident 146),
   span (py!"Sector Altitude (2)") 60 62 .f147, span (py!"Sector Radius (2)") 63 64 (.ident 145),
   span (py!"Sector Bearing (3)") 65 70 (.ident 146), span (py!"Sector Altitude (3)") 71 73 .f147,
   span (py!"Sector Radius (3)") 74 75 (.ident 145), span (py!"Sector Bearing (4)") 76 81 (.ident 146),
   span (py!"Sector Altitude (4)") 82 84 .f147, span (py!"Sector Radius (4)") 85 86 (.ident 145),
   span (py!"Sector Bearing (5)") 87 92 (.ident 146), span (py!"Sector Altitude (5)") 93 95 .f147,
   span (py!"Sector Radius (5)") 96 97 (.ident 145), span (py!"Sector Bearing (6)") 98 103 (.ident 146),
   span (py!"Sector Altitude (6)") 104 106 .f147, span (py!"Sector Radius (6)") 107 108 (.ident 145),
   span (py!"Sector Bearing (7)") 109 114 (.ident 146), span (py!"Sector Altitude (7)") 115 117 .f147,
   span (py!"Sector Radius (7)") 118 119 (.ident 145), one (py!"Magnetic/True Bearing") 120 .f165,
   span (py!"File Record No") 124 128 (.ident 31), span (py!"Cycle Date") 129 132 .f032]

/-- section HS, continuation record, type A -/
def heliportMsaContA : List StdField :=
  [one (py!"Record Type") 1 .f002, span (py!"Customer / Area Code") 2 4 .f003,
   two (py!"Section Code") 5 13 .f004, span (py!"Heliport Identifier") 7 10 (.ident 6),
   span (py!"ICAO Code") 11 12 (.ident 14), span (py!"MSA Center") 14 18 (.ident 144) |>.but 14 17 (.ident 144),
   span (py!"ICAO Code (2)") 19 20 (.ident 14), span (py!"Section Code (2)") 21 22 .f004,
   one (py!"Multiple Code") 23 (.ident 130), one (py!"Continuation Record No") 39 .f016,
   one (py!"Application Type") 40 .f091, span (py!"Notes") 41 109 (.ident 61),
   span (py!"File Record No") 124 128 (.ident 31), span (py!"Cycle Date") 129 132 .f032]

/-- section HV, primary record -/
def heliportCommunications : List StdField :=
  [one (py!"Record Type") 1 .f002, span (py!"Customer / Area Code") 2 4 .f003,
   two (py!"Section Code") 5 13 .f004, span (py!"Heliport Identifier") 7 10 (.ident 6),
   span (py!"ICAO Code") 11 12 (.ident 14), span (py!"Communications Type") 14 16 .f101,
   span (py!"Communications Freq") 17 23 .f103, one (py!"Guard/Transmit") 24 .f182,
   one (py!"Frequency Units") 25 .f104, one (py!"Continuation Record No") 26 .f016,
   span (py!"Service Indicator") 27 29 .f106, one (py!"Radar Service") 30 .f102, one (py!"Modulation") 31 .f198,
   one (py!"Signal Emission") 32 .f199, span (py!"Latitude") 33 41 (.ident 36),
   span (py!"Longitude") 42 51 (.ident 37) |>.but 42 51 (.ident 36), span (py!"Magnetic Variation") 52 56 .f039,
   span (py!"Facility Elevation") 57 61 .f092, one (py!"H24 Indicator") 62 .f181,
   span (py!"Sectorization") 63 68 (.ident 183), one (py!"Altitude Description") 69 .f029,
   span (py!"Communication Altitude") 70 74 .f184, span (py!"Communication Altitude (2)") 75 79 .f184,
   span (py!"Sector Facility") 80 83 (.ident 185), span (py!"ICAO Code (2)") 84 85 (.ident 14),
   span (py!"Section Code (2)") 86 87 .f004, one (py!"Distance Description") 88 (.ident 187),
   span (py!"Communications Distance") 89 90 (.ident 188), span (py!"Remote Facility") 91 94 (.ident 200),
   span (py!"ICAO Code (3)") 95 96 (.ident 14), span (py!"Section Code (3)") 97 98 .f004,
   span (py!"Call Sign") 99 123 (.ident 105), span (py!"File Record No") 124 128 (.ident 31),
   span (py!"Cycle Date") 129 132 .f032]

/-- section HV, continuation record, type A -/
def heliportCommunicationsContA : List StdField :=
  [one (py!"Record Type") 1 .f002, span (py!"Customer / Area Code") 2 4 .f003,
   two (py!"Section Code") 5 13 .f004, span (py!"Heliport Identifier") 7 10 (.ident 6),
   span (py!"ICAO Code") 11 12 (.ident 14), span (py!"Communications Type") 14 16 .f101,
   span (py!"Communications Freq") 17 23 .f103, one (py!"Guard/Transmit") 24 .f182,
   one (py!"Frequency Units") 25 .f104, one (py!"Continuation Record No") 26 .f016,
   one (py!"Application Type") 27 .f091, span (py!"Narrative") 28 87 (.ident 186),
   span (py!"File Record No") 124 128 (.ident 31), span (py!"Cycle Date") 129 132 .f032]

/-- section HV, continuation record, type T -/
def heliportCommunicationsContT : List StdField :=
  [one (py!"Record Type") 1 .f002, span (py!"Customer / Area Code") 2 4 .f003,
   two (py!"Section Code") 5 13 .f004, span (py!"Heliport Identifier") 7 10 (.ident 6),
   span (py!"ICAO Code") 11 12 (.ident 14), span (py!"Communications Type") 14 16 .f101,
   span (py!"Communications Freq") 17 23 .f103, one (py!"Guard/Transmit") 24 .f182,
   one (py!"Frequency Units") 25 .f104, one (py!"Continuation Record No") 26 .f016,
   one (py!"Application Type") 27 .f091, one (py!"Time Code") 28 (.ident 131), one (py!"NOTAM") 29 (.ident 132),
   one (py!"Time Indicator") 30 (.ident 138), span (py!"Time of Operation") 31 40 (.ident 195),
   span (py!"Time of Operation (2)") 41 50 (.ident 195), span (py!"Time of Operation (3)") 51 60 (.ident 195),
   span (py!"Time of Operation (4)") 61 70 (.ident 195), span (py!"Time of Operation (5)") 71 80 (.ident 195),
   span (py!"Time of Operation (6)") 81 90 (.ident 195), span (py!"Time of Operation (7)") 91 100 (.ident 195),
   span (py!"File Record No") 124 128 (.ident 31), span (py!"Cycle Date") 129 132 .f032]

/-- section PA, primary record -/
def airport : List StdField :=
  [one (py!"Record Type") 1 .f002, span (py!"Customer / Area Code") 2 4 .f003,
   two (py!"Section Code") 5 13 .f004, span (py!"Airport ICAO Identifier") 7 10 (.ident 6),
   span (py!"ICAO Code") 11 12 (.ident 14), span (py!"ATA/IATA Designator") 14 16 (.ident 107),
   one (py!"Continuation Record No") 22 .f016, span (py!"Speed Limit Altitude") 23 27 .f073,
   span (py!"Longest Runway") 28 30 .f054, one (py!"IFR Capability") 31 .f108,
   one (py!"Longest Runway Surface Code") 32 (.ident 249),
   span (py!"Airport Reference Pt. Latitude") 33 41 (.ident 36),
   span (py!"Airport Reference Pt. Longitude") 42 51 (.ident 37), span (py!"Magnetic Variation") 52 56 .f039,
   span (py!"Airport Elevation") 57 61 (.ident 55), span (py!"Speed Limit") 62 64 .f072,
   span (py!"Recommended Navaid") 65 68 .f023, span (py!"ICAO Code (2)") 69 70 (.ident 14),
   span (py!"Transition Altitude") 71 75 .f053, span (py!"Transition Level") 76 80 .f053,
   one (py!"Public Military Indicator") 81 .f177, span (py!"Time Zone") 82 84 .f178,
   one (py!"Daylight Indicator") 85 .f179, one (py!"Magnetic/True Indicator") 86 .f165,
   span (py!"Datum Code") 87 89 (.ident 197), span (py!"Airport Name") 94 123 (.ident 71),
   span (py!"File Record No") 124 128 (.ident 31), span (py!"Cycle Date") 129 132 .f032]

/-- section PA, continuation record, type A -/
def airportContA : List StdField :=
  [one (py!"Record Type") 1 .f002, span (py!"Customer / Area Code") 2 4 .f003,
   two (py!"Section Code") 5 13 .f004, span (py!"Airport ICAO Identifier") 7 10 (.ident 6),
   span (py!"ICAO Code") 11 12 (.ident 14), span (py!"ATA/IATA Designator") 14 16 (.ident 107),
   one (py!"Continuation Record No") 22 .f016, one (py!"Application Type") 23 .f091,
   span (py!"Notes") 24 92 (.ident 61), span (py!"File Record No") 124 128 (.ident 31),
   span (py!"Cycle Date") 129 132 .f032]

/-- section PA, continuation record, type P -/
def airportContP : List StdField :=
  [one (py!"Record Type") 1 .f002, span (py!"Customer / Area Code") 2 4 .f003,
   two (py!"Section Code") 5 13 .f004, span (py!"Heliport Identifier") 7 10 (.ident 6),
   span (py!"ICAO Code") 11 12 (.ident 14), span (py!"ATA/IATA Designator") 14 16 (.ident 107),
   one (py!"Continuation Record No") 22 .f016, one (py!"Application Type") 23 .f091,
   span (py!"FIR Identifier") 24 27 (.ident 116), span (py!"UIR Identifier") 28 31 (.ident 116),
   one (py!"Start/End Indicator") 32 (.ident 152), span (py!"Start/End Date/Time") 33 43 (.ident 153),
   one (py!"Controlled A/S Indicator") 67 (.ident 217),
   span (py!"Controlled A/S Airport Ident") 68 71 (.ident 6),
   span (py!"Controlled A/S Airport ICAO") 72 73 (.ident 14), span (py!"File Record No") 124 128 (.ident 31),
   span (py!"Cycle Date") 129 132 .f032]

/-- section PB, primary record -/
def gate : List StdField :=
  [one (py!"Record Type") 1 .f002, span (py!"Customer / Area Code") 2 4 .f003,
   two (py!"Section Code") 5 13 .f004, span (py!"Airport ICAO Identifier") 7 10 (.ident 6),
   span (py!"ICAO Code") 11 12 (.ident 14), span (py!"Gate Identifier") 14 18 (.ident 56),
   one (py!"Continuation Record No") 22 .f016, span (py!"Gate Latitude") 33 41 (.ident 36),
   span (py!"Gate Longitude") 42 51 (.ident 37), span (py!"Name") 99 123 (.ident 60),
   span (py!"File Record No") 124 128 (.ident 31), span (py!"Cycle Date") 129 132 .f032]

/-- section PB, continuation record, type A -/
def gateContA : List StdField :=
  [one (py!"Record Type") 1 .f002, span (py!"Customer / Area Code") 2 4 .f003,
   two (py!"Section Code") 5 13 .f004, span (py!"Airport ICAO Identifier") 7 10 (.ident 6),
   span (py!"ICAO Code") 11 12 (.ident 14), span (py!"Gate Identifier") 14 18 (.ident 56),
   one (py!"Continuation Record No") 22 .f016, one (py!"Application Notes") 23 .f091,
   span (py!"Notes") 24 92 (.ident 61), span (py!"File Record No") 124 128 (.ident 31),
   span (py!"Cycle Date") 129 132 .f032]

/-- section PC, primary record -/
def terminalWaypoint : List StdField :=
  [one (py!"Record Type") 1 .f002, span (py!"Customer / Area Code") 2 4 .f003,
   two (py!"Section Code") 5 13 .f004, span (py!"Region Code") 7 10 (.ident 41),
   span (py!"ICAO Code") 11 12 (.ident 14), span (py!"Waypoint Identifier") 14 18 (.ident 13),
   span (py!"ICAO Code (2)") 20 21 (.ident 14), one (py!"Continuation Record No") 22 .f016,
   span (py!"Waypoint Type") 27 29 .f042, span (py!"Waypoint Usage") 30 31 .f082,
   span (py!"Waypoint Latitude") 33 41 (.ident 36), span (py!"Waypoint Longitude") 42 51 (.ident 37),
   span (py!"Dynamic Mag. Variation") 75 79 .f039, span (py!"Datum Code") 85 87 (.ident 197),
   span (py!"Name Format Indicator") 96 98 .f196, span (py!"Waypoint Name / Desc") 99 123 .f043,
   span (py!"File Record No") 124 128 (.ident 31), span (py!"Cycle Date") 129 132 .f032]

/-- section PC, continuation record, type A -/
def terminalWaypointContA : List StdField :=
  [one (py!"Record Type") 1 .f002, span (py!"Customer / Area Code") 2 4 .f003,
   two (py!"Section Code") 5 13 .f004, span (py!"Region Code") 7 10 (.ident 41),
   span (py!"ICAO Code") 11 12 (.ident 14), span (py!"Waypoint Identifier") 14 18 (.ident 13),
   span (py!"ICAO Code (2)") 20 21 (.ident 14), one (py!"Continuation Record No") 22 .f016,
   one (py!"Application Type") 23 .f091, span (py!"Notes") 24 92 (.ident 61) |>.but 24 123 (.ident 61),
   span (py!"File Record No") 124 128 (.ident 31), span (py!"Cycle Date") 129 132 .f032]

/-- section PC, continuation record, type P -/
def terminalWaypointContP : List StdField :=
  [one (py!"Record Type") 1 .f002, span (py!"Customer / Area Code") 2 4 .f003,
   two (py!"Section Code") 5 13 .f004, span (py!"Region Code") 7 10 (.ident 41),
   span (py!"ICAO Code") 11 12 (.ident 14), span (py!"Waypoint Identifier") 14 18 (.ident 13),
   span (py!"ICAO Code (2)") 20 21 (.ident 14), one (py!"Continuation Record No") 22 .f016,
   one (py!"Application Type") 23 .f091, span (py!"FIR Identifier") 24 27 (.ident 116),
   span (py!"UIR Identifier") 28 31 (.ident 116), one (py!"Start/End Indicator") 32 (.ident 152),
   span (py!"Start/End Date") 33 43 (.ident 153), span (py!"File Record No") 124 128 (.ident 31),
   span (py!"Cycle Date") 129 132 .f032]

/-- section PG, primary record -/
def runway : List StdField :=
  [one (py!"Record Type") 1 .f002, span (py!"Customer / Area Code") 2 4 .f003,
   two (py!"Section Code") 5 13 .f004, span (py!"Airport ICAO Identifier") 7 10 (.ident 6),
   span (py!"ICAO Code") 11 12 (.ident 14), span (py!"Runway Identifier") 14 18 (.ident 46),
   one (py!"Continuation Record No") 22 .f016, span (py!"Runway Length") 23 27 (.ident 57),
   span (py!"Runway Magnetic Bearing") 28 31 (.ident 58), span (py!"Runway Latitude") 33 41 (.ident 36),
   span (py!"Runway Longitude") 42 51 (.ident 37), span (py!"Runway Gradient") 52 56 (.ident 212),
   span (py!"(LTP) Ellipsoid Height") 61 66 (.ident 225),
   span (py!"Landing Threshold Elevation") 67 71 (.ident 68),
   span (py!"Displaced Threshold Dist") 72 75 (.ident 69),
   span (py!"Threshold Crossing Height") 76 77 (.ident 67), span (py!"Runway Width") 78 80 (.ident 109),
   one (py!"TCH Value Indicator") 81 .f270, span (py!"Localizer/MLS/GLS Ref Path Ident") 82 85 (.ident 44),
   one (py!"Localizer/MLS/GLS Category/Class") 86 (.ident 80), span (py!"Stopway") 87 90 (.ident 79),
   span (py!"Localizer/MLS/GLS Ref Path Ident (2)") 91 94 (.ident 44),
   one (py!"Localizer/MLS/GLS Category/Class (2)") 95 (.ident 80),
   span (py!"Runway Description") 102 123 (.ident 59), span (py!"File Record No") 124 128 (.ident 31),
   span (py!"Cycle Date") 129 132 .f032]

/-- section PG, continuation record, type A -/
def runwayContA : List StdField :=
  [one (py!"Record Type") 1 .f002, span (py!"Customer / Area Code") 2 4 .f003,
   two (py!"Section Code") 5 13 .f004, span (py!"Airport ICAO Identifier") 7 10 (.ident 6),
   span (py!"ICAO Code") 11 12 (.ident 14), span (py!"Runway Identifier") 14 18 (.ident 46),
   one (py!"Continuation Record No") 22 .f016, span (py!"Notes") 24 92 (.ident 61),
   span (py!"File Record No") 124 128 (.ident 31), span (py!"Cycle Date") 129 132 .f032]

/-- section PG, continuation record, type S -/
def runwayContS : List StdField :=
  [one (py!"Record Type") 1 .f002, span (py!"Customer / Area Code") 2 4 .f003,
   two (py!"Section Code") 5 13 .f004, span (py!"Airport ICAO Identifier") 7 10 (.ident 6),
   span (py!"ICAO Code") 11 12 (.ident 14), span (py!"Runway Identifier") 14 18 (.ident 46),
   one (py!"Continuation Record No") 22 .f016, one (py!"Application Type") 23 .f091,
   span (py!"Runway True Bearing") 52 56 (.ident 94), one (py!"True Bearing Source") 57 (.ident 95),
   one (py!"TDZE Location") 66 (.ident 98), span (py!"Touchdown Zone Elevation") 67 71 (.ident 97),
   span (py!"File Record No") 124 128 (.ident 31), span (py!"Cycle Date") 129 132 .f032]

/-- section PI, primary record -/
def localizer : List StdField :=
  [one (py!"Record Type") 1 .f002, span (py!"Customer / Area Code") 2 4 .f003,
   two (py!"Section Code") 5 13 .f004, span (py!"Airport Identifier") 7 10 (.ident 6),
   span (py!"ICAO Code") 11 12 (.ident 14), span (py!"Localizer Identifier") 14 17 (.ident 44),
   one (py!"ILS Category") 18 (.ident 80), one (py!"Continuation Record No") 22 .f016,
   span (py!"Localizer Frequency") 23 27 .f045, span (py!"Runway Identifier") 28 32 (.ident 46),
   span (py!"Localizer Latitude") 33 41 (.ident 36), span (py!"Localizer Longitude") 42 51 (.ident 37),
   span (py!"Localizer Bearing") 52 55 (.ident 47), span (py!"Glide Slope Latitude") 56 64 (.ident 36),
   span (py!"Glide Slope Longitude") 65 74 (.ident 37), span (py!"Localizer Position") 75 78 .f048,
   one (py!"Localizer Position Reference") 79 .f049, span (py!"Glide Slope Position") 80 83 .f050,
   span (py!"Localizer Width") 84 87 (.ident 51), span (py!"Glide Slope Angle") 88 90 (.ident 52),
   span (py!"Station Declination") 91 95 (.ident 66),
   span (py!"Glide Slope Height at Landing Threshold") 96 97 (.ident 67),
   span (py!"Glide Slope Elevation") 98 102 (.ident 74),
   span (py!"Supporting Facility ID Note 1") 103 106 (.ident 33),
   span (py!"Supporting Facility ICAO Code Note 1") 107 108 (.ident 14),
   span (py!"Supporting Facility Section Code Note 1") 109 110 .f004,
   span (py!"File Record No") 124 128 (.ident 31), span (py!"Cycle Date") 129 132 .f032]

/-- section PI, continuation record, type A -/
def localizerContA : List StdField :=
  [one (py!"Record Type") 1 .f002, span (py!"Customer / Area Code") 2 4 .f003,
   two (py!"Section Code") 5 13 .f004, span (py!"Airport Identifier") 7 10 (.ident 6),
   span (py!"ICAO Code") 11 12 (.ident 14), span (py!"Localizer Identifier") 14 17 (.ident 44),
   one (py!"ILS Category") 18 (.ident 80), one (py!"Continuation Record No") 22 .f016,
   span (py!"Notes") 24 92 (.ident 61), span (py!"File Record No") 124 128 (.ident 31),
   span (py!"Cycle Date") 129 132 .f032]

/-- section PI, continuation record, type S -/
def localizerContS : List StdField :=
  [one (py!"Record Type") 1 .f002, span (py!"Customer / Area Code") 2 4 .f003,
   two (py!"Section Code") 5 13 .f004, span (py!"Airport Identifier") 7 10 (.ident 6),
   span (py!"ICAO Code") 11 12 (.ident 14), span (py!"Localizer Identifier") 14 17 (.ident 44),
   one (py!"ILS Category") 18 (.ident 80), one (py!"Continuation Record No") 22 .f016,
   one (py!"Application Type") 23 .f091, span (py!"Facility Characteristics") 28 32 (.ident 93),
   span (py!"Localizer True Bearing") 52 56 (.ident 94), one (py!"Localizer Bearing Source") 57 (.ident 95),
   span (py!"Glide Slope Beam Width") 88 90 (.ident 96), span (py!"Approach Route Ident") 91 96 .f010,
   span (py!"Approach Route Ident (2)") 97 102 .f010, span (py!"Approach Route Ident (3)") 103 108 .f010,
   span (py!"Approach Route Ident (4)") 109 114 .f010, span (py!"Approach Route Ident (5)") 115 120 .f010,
   span (py!"File Record No") 124 128 (.ident 31), span (py!"Cycle Date") 129 132 .f032]

/-- section PK, primary record -/
def airportTaa : List StdField :=
  [one (py!"Record Type") 1 .f002, span (py!"Customer / Area Code") 2 4 .f003,
   two (py!"Section Code") 5 13 .f004, span (py!"Airport Identifier") 7 10 (.ident 6),
   span (py!"ICAO Code") 11 12 (.ident 14), span (py!"Approach Identifier") 14 19 .f010,
   span (py!"TAA Waypoint") 20 24 (.ident 273), span (py!"TAA Procedure Turn") 21 24 (.ident 271),
   span (py!"ICAO Code (2)") 25 26 (.ident 14), span (py!"Section Code (2)") 27 28 .f004,
   one (py!"TAA Fix Position Indicator") 29 (.ident 272), one (py!"Continuation Record No") 30 .f016,
   one (py!"Mag/True Indicator") 41 .f165, span (py!"Sector Radius") 42 45 (.ident 274),
   span (py!"Sector Bearing") 46 51 (.ident 146), span (py!"Sector Minimum Altitude") 52 54 .f147,
   span (py!"Sector Radius (2)") 55 58 (.ident 274), span (py!"Sector Bearing (2)") 59 64 (.ident 146),
   span (py!"Sector Minimum Altitude (2)") 65 67 .f147, span (py!"Sector Radius (3)") 68 71 (.ident 274),
   span (py!"Sector Bearing (3)") 72 77 (.ident 146), span (py!"Sector Minimum Altitude (3)") 78 80 .f147,
   span (py!"Sector Radius (4)") 81 84 (.ident 274), span (py!"Sector Bearing (4)") 85 90 (.ident 146),
   span (py!"Sector Minimum Altitude (4)") 91 93 .f147, span (py!"Sector Radius (5)") 94 97 (.ident 274),
   span (py!"Sector Bearing (5)") 98 103 (.ident 146), span (py!"Sector Minimum Altitude (5)") 104 106 .f147,
   span (py!"Sector Radius (6)") 107 110 (.ident 274), span (py!"Sector Bearing (6)") 111 116 (.ident 146),
   span (py!"Sector Minimum Altitude (6)") 117 119 .f147, span (py!"File Record No") 124 128 (.ident 31),
   span (py!"Cycle Date") 129 132 .f032]

/-- section PK, continuation record, type A -/
def airportTaaContA : List StdField :=
  [one (py!"Record Type") 1 .f002, span (py!"Customer / Area Code") 2 4 .f003,
   two (py!"Section Code") 5 13 .f004, span (py!"Airport Identifier") 7 10 (.ident 6),
   span (py!"ICAO Code") 11 12 (.ident 14), span (py!"Approach Identifier") 14 19 .f010,
   one (py!"TAA Sector Identifier") 20 (.ident 272), span (py!"TAA Procedure Turn") 21 24 (.ident 271),
   span (py!"TAA IAF Waypoint") 30 34 (.ident 273),
   span (py!"ICAO Code (2)") 35 36 (.ident 14) |>.but 11 12 (.ident 14),
   span (py!"Section Code (2)") 37 38 .f004, one (py!"Continuation Record No") 39 .f016,
   one (py!"Application Notes") 40 .f091, span (py!"Notes") 41 109 (.ident 61) |>.but 51 109 (.ident 61),
   span (py!"File Record No") 124 128 (.ident 31), span (py!"Cycle Date") 129 132 .f032]

/-- section PL, primary record -/
def mls : List StdField :=
  [one (py!"Record Type") 1 .f002, span (py!"Customer / Area Code") 2 4 .f003,
   two (py!"Section Code") 5 13 .f004, span (py!"Airport Identifier") 7 10 (.ident 6),
   span (py!"ICAO Code") 11 12 (.ident 14), span (py!"MLS Identifier") 14 17 (.ident 44),
   one (py!"MLS Category") 18 (.ident 80), one (py!"Continuation Record No") 22 .f016,
   span (py!"Channel") 23 25 (.ident 166), span (py!"Runway Identifier") 28 32 (.ident 46),
   span (py!"Azimuth Latitude") 33 41 (.ident 36), span (py!"Azimuth Longitude") 42 51 (.ident 37),
   span (py!"Azimuth Bearing") 52 55 (.ident 167), span (py!"Elevation Latitude") 56 64 (.ident 36),
   span (py!"Elevation Longitude") 65 74 (.ident 37), span (py!"Azimuth Position") 75 78 .f048,
   one (py!"Azimuth Position Reference") 79 .f049, span (py!"Elevation Position") 80 83 .f050,
   span (py!"Azimuth Proportional Angle Right") 84 86 (.ident 168),
   span (py!"Azimuth Proportional Angle Left") 87 89 (.ident 168),
   span (py!"Azimuth Coverage Right") 90 92 (.ident 172), span (py!"Azimuth Coverage Left") 93 95 (.ident 172),
   span (py!"Elevation Angle Span") 96 98 (.ident 169), span (py!"Magnetic Variation") 99 103 .f039,
   span (py!"EL Elevation") 104 108 (.ident 74), span (py!"Nominal Elevation Angle") 109 112 (.ident 173),
   span (py!"Minimum Glide Path Angle") 113 115 (.ident 52),
   span (py!"Supporting Facility Identifier") 116 119 (.ident 33),
   span (py!"Supporting Facility ICAO Code") 120 121 (.ident 14),
   span (py!"Supporting Facility Section") 122 123 .f004, span (py!"File Record No") 124 128 (.ident 31),
   span (py!"Cycle Date") 129 132 .f032]

/-- section PL, continuation record, type A -/
def mlsContA : List StdField :=
  [one (py!"Record Type") 1 .f002, span (py!"Customer / Area Code") 2 4 .f003,
   two (py!"Section Code") 5 13 .f004, span (py!"Airport Identifier") 7 10 (.ident 6),
   span (py!"ICAO Code") 11 12 (.ident 14), span (py!"MLS Identifier") 14 17 (.ident 44),
   one (py!"MLS Category") 18 (.ident 80), one (py!"Continuation Record No") 22 .f016,
   one (py!"Application Type") 23 .f091, span (py!"Facility Characteristics") 28 32 (.ident 93),
   span (py!"Back Azimuth Latitude") 33 41 (.ident 36), span (py!"Back Azimuth Longitude") 42 51 (.ident 37),
   span (py!"Back Azimuth Bearing") 52 55 (.ident 167), span (py!"MLS Datum Point Latitude") 56 64 (.ident 36),
   span (py!"MLS Datum Point Longitude") 65 74 (.ident 37), span (py!"Back Azimuth Position") 75 78 .f048,
   one (py!"Back Azimuth Position Reference") 79 .f049,
   span (py!"Back Azimuth Proportional Angle Right") 84 86 (.ident 168),
   span (py!"Back Azimuth Proportional Angle Left") 87 89 (.ident 168),
   span (py!"Back Azimuth Coverage Right") 90 92 (.ident 172),
   span (py!"Back Azimuth Coverage Left") 93 95 (.ident 172),
   span (py!"Back Azimuth True Bearing") 96 100 (.ident 94) |>.but 96 98 (.ident 94),
   one (py!"Back Azimuth Bearing Source") 101 (.ident 95), span (py!"Azimuth True Bearing") 102 106 (.ident 94),
   one (py!"Azimuth Bearing Source") 107 (.ident 95),
   span (py!"Glide Path Height at Landing Threshold") 108 109 (.ident 67),
   span (py!"File Record No") 124 128 (.ident 31), span (py!"Cycle Date") 129 132 .f032]

/-- section PM, primary record -/
def localizerMarker : List StdField :=
  [one (py!"Record Type") 1 .f002, span (py!"Customer / Area Code") 2 4 .f003,
   two (py!"Section Code") 5 13 .f004, span (py!"Airport Identifier") 7 10 (.ident 6),
   span (py!"ICAO Code") 11 12 (.ident 14), span (py!"Localizer Identifier") 14 17 (.ident 44),
   span (py!"Marker Type") 18 20 (.ident 99), one (py!"Continuation Record No") 22 .f016,
   span (py!"Locator Frequency") 23 27 .f034, span (py!"Runway Identifier") 28 32 (.ident 46),
   span (py!"Marker Latitude") 33 41 (.ident 36), span (py!"Marker Longitude") 42 51 (.ident 37),
   span (py!"Minor Axis Bearing") 52 55 (.ident 100), span (py!"Locator Latitude") 56 64 (.ident 36),
   span (py!"Locator Longitude") 65 74 (.ident 37), span (py!"Localizer Class") 75 79 (.ident 35),
   span (py!"Localizer Facility Characteristics") 80 84 (.ident 93) |>.but 80 83 (.ident 93),
   span (py!"Localizer Identifier (2)") 85 88 (.ident 33), span (py!"Magnetic Variation") 91 95 .f039,
   span (py!"Facility Elevation") 98 102 .f092, span (py!"File Record No") 124 128 (.ident 31),
   span (py!"Cycle Date") 129 132 .f032]

/-- section PM, continuation record, type A -/
def localizerMarkerContA : List StdField :=
  [one (py!"Record Type") 1 .f002, span (py!"Customer / Area Code") 2 4 .f003,
   two (py!"Section Code") 5 13 .f004, span (py!"Airport Identifier") 7 10 (.ident 6),
   span (py!"ICAO Code") 11 12 (.ident 14), span (py!"Localizer Identifier") 14 17 (.ident 44),
   span (py!"Marker Type") 18 20 (.ident 99), one (py!"Continuation Record No") 22 .f016,
   one (py!"Application Type") 23 .f091, span (py!"File Record No") 124 128 (.ident 31),
   span (py!"Cycle Date") 129 132 .f032]

/-- section PN, primary record -/
def terminalNdb : List StdField :=
  [one (py!"Record Type") 1 .f002, span (py!"Customer / Area Code") 2 4 .f003,
   two (py!"Section Code") 5 13 .f004 |>.but 5 6 .f004, span (py!"Airport ICAO Identifier") 7 10 (.ident 6),
   span (py!"ICAO Code") 11 12 (.ident 14), span (py!"NDB Identifier") 14 17 (.ident 33),
   span (py!"ICAO Code (2)") 20 21 (.ident 14), one (py!"Continuation Record No") 22 .f016,
   span (py!"NDB Frequency") 23 27 .f034, span (py!"NDB Class") 28 32 (.ident 35) |>.but 28 31 (.ident 35),
   span (py!"NDB Latitude") 33 41 (.ident 36), span (py!"NDB Longitude") 42 51 (.ident 37),
   span (py!"Magnetic Variation") 75 79 .f039, span (py!"Datum Code") 91 93 (.ident 197),
   span (py!"NDB Name") 94 123 (.ident 71), span (py!"File Record No") 124 128 (.ident 31),
   span (py!"Cycle Date") 129 132 .f032]

/-- section PN, continuation record, type A -/
def terminalNdbContA : List StdField :=
  [one (py!"Record Type") 1 .f002, span (py!"Customer / Area Code") 2 4 .f003,
   two (py!"Section Code") 5 13 .f004 |>.but 5 6 .f004, span (py!"Airport ICAO Identifier") 7 10 (.ident 6),
   span (py!"ICAO Code") 11 12 (.ident 14), span (py!"NDB Identifier") 14 17 (.ident 33),
   span (py!"ICAO Code (2)") 20 21 (.ident 14), one (py!"Continuation Record No") 22 .f016,
   one (py!"Application Type") 23 .f091, span (py!"Notes") 24 92 (.ident 61),
   span (py!"File Record No") 124 128 (.ident 31), span (py!"Cycle Date") 129 132 .f032]

/-- section PN, continuation record, type P -/
def terminalNdbContP : List StdField :=
  [one (py!"Record Type") 1 .f002, span (py!"Customer / Area Code") 2 4 .f003,
   two (py!"Section Code") 5 13 .f004 |>.but 5 6 .f004, span (py!"Airport ICAO Identifier") 7 10 (.ident 6),
   span (py!"ICAO Code") 11 12 (.ident 14), span (py!"NDB Identifier") 14 17 (.ident 33),
   span (py!"ICAO Code (2)") 20 21 (.ident 14), one (py!"Continuation Record No") 22 .f016,
   one (py!"Application Type") 23 .f091, span (py!"FIR Identifier") 24 27 (.ident 116),
   span (py!"UIR Identifier") 28 31 (.ident 116) |>.but 29 31 (.ident 116),
   one (py!"Start/End Indicator") 32 (.ident 152) |>.but 33 33 (.ident 152),
   span (py!"Start/End Date") 33 43 (.ident 153), span (py!"File Record No") 124 128 (.ident 31),
   span (py!"Cycle Date") 129 132 .f032]

/-- section PN, continuation record, type S -/
def terminalNdbContS : List StdField :=
  [one (py!"Record Type") 1 .f002, span (py!"Customer / Area Code") 2 4 .f003,
   two (py!"Section Code") 5 13 .f004 |>.but 5 6 .f004, span (py!"Airport ICAO Identifier") 7 10 (.ident 6),
   span (py!"ICAO Code") 11 12 (.ident 14), span (py!"NDB Identifier") 14 17 (.ident 33),
   span (py!"ICAO Code (2)") 20 21 (.ident 14), one (py!"Continuation Record No") 22 .f016,
   one (py!"Application Type") 23 .f091, span (py!"Facility Characteristics") 28 32 (.ident 93),
   span (py!"Facility Elevation") 80 84 .f092, span (py!"File Record No") 124 128 (.ident 31),
   span (py!"Cycle Date") 129 132 .f032]

/-- section PP, primary record -/
def pathPoint : List StdField :=
  [one (py!"Record Type") 1 .f002, span (py!"Customer / Area Code") 2 4 .f003,
   two (py!"Section Code") 5 13 .f004, span (py!"Airport Identifier") 7 10 (.ident 6),
   span (py!"ICAO Code") 11 12 (.ident 14), span (py!"Approach Procedure Ident") 14 19 .f010,
   span (py!"Runway or Helipad Ident") 20 24 (.ident 46), span (py!"Operation Type") 25 26 (.ident 223),
   one (py!"Continuation Record No") 27 .f016, one (py!"Route Identifier") 28 (.ident 224),
   span (py!"SBAS Service Provider Ident") 29 30 (.ident 255),
   span (py!"Reference Path Data Selector") 31 32 (.ident 256),
   span (py!"Reference Path Identifier") 33 36 (.ident 257),
   one (py!"Approach Performance Designator") 37 (.ident 258),
   span (py!"Landing Threshold Point Latitude") 38 48 (.ident 267),
   span (py!"Landing Threshold Point Longitude") 49 60 (.ident 268),
   span (py!"(LTP) Ellipsoid Height") 61 66 (.ident 225), span (py!"Glide Path Angle") 67 70 (.ident 226),
   span (py!"Flight Path Alignment Point Latitude") 71 81 (.ident 267),
   span (py!"Flight Path Alignment Point Longitude") 82 93 (.ident 268),
   span (py!"Course Width at Threshold Note 4") 94 98 (.ident 228),
   span (py!"Length Offset") 99 102 (.ident 259), span (py!"Path Point TCH") 103 108 (.ident 265),
   one (py!"TCH Units Indicator") 109 (.ident 266), span (py!"HAL") 110 112 (.ident 263),
   span (py!"VAL") 113 115 (.ident 264), span (py!"SBAS FAS Data CRC Remainder") 116 123 (.ident 229),
   span (py!"File Record No") 124 128 (.ident 31), span (py!"Cycle Date") 129 132 .f032]

/-- section PP, continuation record, type E -/
def pathPointContE : List StdField :=
  [one (py!"Record Type") 1 .f002, span (py!"Customer / Area Code") 2 4 .f003,
   two (py!"Section Code") 5 13 .f004, span (py!"Airport Identifier") 7 10 (.ident 6),
   span (py!"ICAO Code") 11 12 (.ident 14), span (py!"Approach Procedure Ident") 14 19 .f010,
   span (py!"Runway or Helipad Ident") 20 24 (.ident 46), span (py!"Operation Type") 25 26 (.ident 223),
   one (py!"Continuation Record No") 27 .f016, one (py!"Application Type") 28 .f091,
   span (py!"(FPAP) Ellipsoid Height") 29 34 (.ident 225),
   span (py!"(FPAP) Orthometric Height") 35 40 (.ident 227),
   span (py!"(LTP) Orthometric Height") 41 46 (.ident 227),
   span (py!"Approach Type Identifier") 47 56 (.ident 262), span (py!"GNSS Channel Number") 57 61 (.ident 244),
   span (py!"Helicopter Procedure Course") 72 74 .f269, span (py!"File Record No") 124 128 (.ident 31),
   span (py!"Cycle Date") 129 132 .f032]

/-- section PR, primary record -/
def flightPlanning : List StdField :=
  [one (py!"Record Type") 1 .f002, span (py!"Customer / Area Code") 2 4 .f003,
   two (py!"Section Code") 5 13 .f004, span (py!"Airport Identifier") 7 10 (.ident 6),
   span (py!"ICAO Code") 11 12 (.ident 14), span (py!"SID/STAR/Approach Identifier") 14 19 .f009,
   one (py!"Procedure Type") 20 (.ident 230), span (py!"Runway Transition Identifier") 21 25 (.ident 11),
   span (py!"Runway Transition Fix") 26 30 (.ident 13), span (py!"ICAO Code (2)") 31 32 (.ident 14),
   span (py!"Section Code (2)") 33 34 .f004, span (py!"Runway Transition Along Track Dist") 35 37 (.ident 231),
   span (py!"Common Segment Transition Fix") 38 42 (.ident 13), span (py!"ICAO Code (3)") 43 44 (.ident 14),
   span (py!"Section Code (3)") 45 46 .f004, span (py!"Common Segment Along Track Dist") 47 49 (.ident 231),
   span (py!"Enroute Transition Identifier") 50 54 (.ident 11),
   span (py!"Enroute Transition Fix") 55 59 (.ident 13), span (py!"ICAO Code (4)") 60 61 (.ident 14),
   span (py!"Section Code (4)") 62 63 .f004, span (py!"Enroute Transition Along Track Dist") 64 66 (.ident 231),
   span (py!"Sequence Number") 67 69 .f012, one (py!"Continuation Number") 70 .f016,
   span (py!"Number of Engines") 71 74 (.ident 232), one (py!"Turboprop/Jet Indicator") 75 (.ident 233),
   one (py!"RNAV Flag") 76 (.ident 234), one (py!"ATC Weight Category") 77 (.ident 235),
   span (py!"ATC Identifier") 78 84 (.ident 236), one (py!"Time Code") 85 (.ident 131),
   span (py!"Procedure Description") 86 100 (.ident 237), span (py!"Leg Type Code") 101 102 (.ident 238),
   one (py!"Reporting Code") 103 (.ident 239), span (py!"Initial Departure Magnetic Course") 104 107 .f026,
   one (py!"Altitude Description") 108 .f029, span (py!"Altitude") 109 111 .f240,
   span (py!"Altitude (2)") 112 114 .f240, span (py!"Speed Limit") 115 117 .f072,
   span (py!"Initial Cruise Table") 118 119 (.ident 134), one (py!"Speed Limit Description") 120 (.ident 261),
   span (py!"File Record No") 124 128 (.ident 31), span (py!"Cycle Date") 129 132 .f032]

/-- section PR, continuation record, type A -/
def flightPlanningContA : List StdField :=
  [one (py!"Record Type") 1 .f002, span (py!"Customer / Area Code") 2 4 .f003,
   two (py!"Section Code") 5 13 .f004, span (py!"Airport Identifier") 7 10 (.ident 6),
   span (py!"ICAO Code") 11 12 (.ident 14), span (py!"SID/STAR/Approach Identifier") 14 19 .f009,
   one (py!"Procedure Type") 20 (.ident 230), span (py!"Runway Transition Identifier") 21 25 (.ident 11),
   span (py!"Runway Transition Fix") 26 30 (.ident 13), span (py!"ICAO Code (2)") 31 32 (.ident 14),
   span (py!"Section Code (2)") 33 34 .f004, span (py!"Runway Transition Along Track Dist") 35 37 (.ident 231),
   span (py!"Common Segment Transition Fix") 38 42 (.ident 13), span (py!"ICAO Code (3)") 43 44 (.ident 14),
   span (py!"Section Code (3)") 45 46 .f004, span (py!"Common Segment Along Track Dist") 47 49 (.ident 231),
   span (py!"Enroute Transition Identifier") 50 54 (.ident 11),
   span (py!"Enroute Transition Fix") 55 59 (.ident 13), span (py!"ICAO Code (4)") 60 61 (.ident 14),
   span (py!"Section Code (4)") 62 63 .f004, span (py!"Enroute Transition Along Track Dist") 64 66 (.ident 231),
   span (py!"Sequence Number") 67 69 .f012, one (py!"Continuation Number") 70 .f016,
   one (py!"Application Type") 71 .f091, span (py!"Intermediate Fix Identifier") 72 76 (.ident 13),
   span (py!"ICAO Code (5)") 77 78 (.ident 14), span (py!"Section Code (5)") 79 80 .f004 |>.but 92 93 .f004,
   span (py!"Intermediate Distance") 81 83 (.ident 231) |>.but 107 109 (.ident 231),
   one (py!"Fix Related Transition Code") 84 (.ident 241) |>.but 110 110 (.ident 241),
   span (py!"Intermediate Fix Identifier") 111 115 (.ident 13), span (py!"ICAO Code (6)") 116 117 (.ident 14),
   span (py!"Section Code (6)") 118 119 .f004 |>.but 119 119 .f004,
   span (py!"Intermediate Distance") 120 122 (.ident 231),
   one (py!"Fix Related Transition Code") 123 (.ident 241), span (py!"File Record No") 124 128 (.ident 31),
   span (py!"Cycle Date") 129 132 .f032]

/-- section PR, continuation record, type T -/
def flightPlanningContT : List StdField :=
  [one (py!"Record Type") 1 .f002, span (py!"Customer / Area Code") 2 4 .f003,
   two (py!"Section Code") 5 13 .f004, span (py!"Airport Identifier") 7 10 (.ident 6),
   span (py!"ICAO Code") 11 12 (.ident 14), span (py!"SID/STAR/Approach Identifier") 14 19 .f009,
   one (py!"Procedure Type") 20 (.ident 230), span (py!"Runway Transition Identifier") 21 25 (.ident 11),
   span (py!"Runway Transition Fix") 26 30 (.ident 13), span (py!"ICAO Code (2)") 31 32 (.ident 14),
   span (py!"Section Code (2)") 33 34 .f004, span (py!"Runway Transition Along Track Dist") 35 37 (.ident 231),
   span (py!"Common Segment Transition Fix") 38 42 (.ident 13), span (py!"ICAO Code (3)") 43 44 (.ident 14),
   span (py!"Section Code (3)") 45 46 .f004, span (py!"Common Segment Along Track Dist") 47 49 (.ident 231),
   span (py!"Enroute Transition Identifier") 50 54 (.ident 11),
   span (py!"Enroute Transition Fix") 55 59 (.ident 13), span (py!"ICAO Code (4)") 60 61 (.ident 14),
   span (py!"Section Code (4)") 62 63 .f004, span (py!"Enroute Transition Along Track Dist") 64 66 (.ident 231),
   span (py!"Sequence Number") 67 69 .f012, one (py!"Continuation Number") 70 .f016,
   one (py!"Application Type") 71 .f091, one (py!"Time Code") 72 (.ident 131),
   one (py!"Time Indicator") 73 (.ident 138), span (py!"Time of Operation") 74 83 (.ident 195),
   span (py!"Time of Operation (1)") 84 93 (.ident 195), span (py!"Time of Operation (2)") 94 103 (.ident 195),
   span (py!"Time of Operation (3)") 104 113 (.ident 195),
   span (py!"Time of Operation (4)") 114 123 (.ident 195), span (py!"File Record No") 124 128 (.ident 31),
   span (py!"Cycle Date") 129 132 .f032]

/-- section PS, primary record -/
def airportMsa : List StdField :=
  [one (py!"Record Type") 1 .f002, span (py!"Customer / Area Code") 2 4 .f003,
   two (py!"Section Code") 5 13 .f004, span (py!"Airport Identifier") 7 10 (.ident 6),
   span (py!"ICAO Code") 11 12 (.ident 14), span (py!"MSA Center") 14 18 (.ident 144) |>.but 14 17 (.ident 144),
   span (py!"ICAO Code (2)") 19 20 (.ident 14), span (py!"Section Code (2)") 21 22 .f004,
   one (py!"Multiple Code") 23 (.ident 130), one (py!"Continuation Record No") 39 .f016,
   span (py!"Sector Bearing") 43 48 (.ident 146), span (py!"Sector Altitude") 49 51 .f147,
   span (py!"Sector Radius") 52 53 (.ident 145), span (py!"Sector Bearing (2)") 54 59 (.ident 146),
   span (py!"Sector Altitude (2)") 60 62 .f147, span (py!"Sector Radius (2)") 63 64 (.ident 145),
   span (py!"Sector Bearing (3)") 65 70 (.ident 146), span (py!"Sector Altitude (3)") 71 73 .f147,
   span (py!"Sector Radius (3)") 74 75 (.ident 145), span (py!"Sector Bearing (4)") 76 81 (.ident 146),
   span (py!"Sector Altitude (4)") 82 84 .f147, span (py!"Sector Radius (4)") 85 86 (.ident 145),
   span (py!"Sector Bearing (5)") 87 92 (.ident 146), span (py!"Sector Altitude (5)") 93 95 .f147,
   span (py!"Sector Radius (5)") 96 97 (.ident 145), span (py!"Sector Bearing (6)") 98 103 (.ident 146),
   span (py!"Sector Altitude (6)") 104 106 .f147, span (py!"Sector Radius (6)") 107 108 (.ident 145),
   span (py!"Sector Bearing (7)") 109 114 (.ident 146), span (py!"Sector Altitude (7)") 115 117 .f147,
   span (py!"Sector Radius (7)") 118 119 (.ident 145), one (py!"Magnetic/True Bearing") 120 .f165,
   span (py!"File Record No") 124 128 (.ident 31), span (py!"Cycle Date") 129 132 .f032]

/-- section PS, continuation record, type A -/
def airportMsaContA : List StdField :=
  [one (py!"Record Type") 1 .f002, span (py!"Customer / Area Code") 2 4 .f003,
   two (py!"Section Code") 5 13 .f004, span (py!"Airport Identifier") 7 10 (.ident 6),
   span (py!"ICAO Code") 11 12 (.ident 14), span (py!"MSA Center") 14 18 (.ident 144) |>.but 14 17 (.ident 144),
   span (py!"ICAO Code (2)") 19 20 (.ident 14), span (py!"Section Code (2)") 21 22 .f004,
   one (py!"Multiple Code") 23 (.ident 130), one (py!"Continuation Record No") 39 .f016,
   one (py!"Application Type") 40 .f091, span (py!"Notes") 41 109 (.ident 61),
   span (py!"File Record No") 124 128 (.ident 31), span (py!"Cycle Date") 129 132 .f032]

/-- section PT, primary record -/
def gls : List StdField :=
  [one (py!"Record Type") 1 .f002, span (py!"Customer / Area Code") 2 4 .f003,
   two (py!"Section Code") 5 13 .f004, span (py!"Airport and Heliport Identifier") 7 10 (.ident 6),
   span (py!"ICAO Code") 11 12 (.ident 14), span (py!"GLS Ref Path Identifier") 14 17 (.ident 44),
   one (py!"GLS Category") 18 (.ident 80), one (py!"Continuation Record No") 22 .f016 |>.but 19 21 .f016,
   span (py!"GLS Channel") 23 27 (.ident 244), span (py!"Runway Identifier") 28 32 (.ident 46),
   span (py!"GLS Approach Bearing") 52 55 (.ident 47), span (py!"Station Latitude") 56 64 (.ident 36),
   span (py!"Station Longitude") 65 74 (.ident 37), span (py!"GLS Station Ident") 75 78 (.ident 243),
   span (py!"Service Volume Radius") 84 85 (.ident 245), span (py!"TDMA Slots") 86 87 (.ident 246),
   span (py!"GLS Approach Slope") 88 90 (.ident 52), span (py!"Magnetic Variation") 91 95 .f039,
   span (py!"Station Elevation") 98 102 (.ident 74), span (py!"Datum Code") 103 105 (.ident 197),
   span (py!"Station Type") 106 108 (.ident 247), span (py!"Station Elevation WGS") 111 115 (.ident 248),
   span (py!"File Record No") 124 128 (.ident 31), span (py!"Cycle Date") 129 132 .f032]

/-- section PT, continuation record, type A -/
def glsContA : List StdField :=
  [one (py!"Record Type") 1 .f002, span (py!"Customer / Area Code") 2 4 .f003,
   two (py!"Section Code") 5 13 .f004, span (py!"Airport and Heliport Identifier") 7 10 (.ident 6),
   span (py!"ICAO Code") 11 12 (.ident 14), span (py!"GLS Ref Path Identifier") 14 17 (.ident 44),
   one (py!"GLS Category") 18 (.ident 80), one (py!"Continuation Record No") 22 .f016 |>.but 19 21 .f016,
   one (py!"Application Type") 23 .f091, span (py!"File Record No") 124 128 (.ident 31),
   span (py!"Cycle Date") 129 132 .f032]

/-- section PV, primary record -/
def airportCommunications : List StdField :=
  [one (py!"Record Type") 1 .f002, span (py!"Customer / Area Code") 2 4 .f003,
   two (py!"Section Code") 5 13 .f004, span (py!"Airport Identifier") 7 10 (.ident 6),
   span (py!"ICAO Code") 11 12 (.ident 14), span (py!"Communications Type") 14 16 .f101,
   span (py!"Communications Freq") 17 23 .f103, one (py!"Guard/Transmit") 24 .f182,
   one (py!"Frequency Units") 25 .f104, one (py!"Continuation Record No") 26 .f016,
   span (py!"Service Indicator") 27 29 .f106, one (py!"Radar Service") 30 .f102, one (py!"Modulation") 31 .f198,
   one (py!"Signal Emission") 32 .f199, span (py!"Latitude") 33 41 (.ident 36),
   span (py!"Longitude") 42 51 (.ident 37), span (py!"Magnetic Variation") 52 56 .f039,
   span (py!"Facility Elevation") 57 61 .f092, one (py!"H24 Indicator") 62 .f181,
   span (py!"Sectorization") 63 68 (.ident 183), one (py!"Altitude Description") 69 .f029,
   span (py!"Communication Altitude") 70 74 .f184, span (py!"Communication Altitude (2)") 75 79 .f184,
   span (py!"Sector Facility") 80 83 (.ident 185), span (py!"ICAO Code (2)") 84 85 (.ident 14),
   span (py!"Section (2)") 86 87 .f004, one (py!"Distance Description") 88 (.ident 187),
   span (py!"Communications Distance") 89 90 (.ident 188), span (py!"Remote Facility") 91 94 (.ident 200),
   span (py!"ICAO Code (3)") 95 96 (.ident 14), span (py!"Section (3)") 97 98 .f004,
   span (py!"Call Sign") 99 123 (.ident 105), span (py!"File Record No") 124 128 (.ident 31),
   span (py!"Cycle Date") 129 132 .f032]

/-- section PV, continuation record, type N -/
def airportCommunicationsContN : List StdField :=
  [one (py!"Record Type") 1 .f002, span (py!"Customer / Area Code") 2 4 .f003,
   two (py!"Section Code") 5 13 .f004, span (py!"Airport Identifier") 7 10 (.ident 6),
   span (py!"ICAO Code") 11 12 (.ident 14), span (py!"Communications Type") 14 16 .f101,
   span (py!"Communications Freq") 17 23 .f103, one (py!"Guard/Transmit") 24 .f182,
   one (py!"Frequency Units") 25 .f104, one (py!"Continuation Record No") 26 .f016,
   one (py!"Application Type") 27 .f091, span (py!"Narrative") 28 87 (.ident 186),
   span (py!"File Record No") 124 128 (.ident 31), span (py!"Cycle Date") 129 132 .f032]

/-- section R, primary record -/
def companyRoute : List StdField :=
  [one (py!"Record Type") 1 .f002, span (py!"Customer") 2 4 .f003, span (py!"Section Code") 5 6 .f004,
   span (py!"From Airport/Fix") 7 11 (.ident 75), span (py!"ICAO Code") 13 14 (.ident 14),
   span (py!"Airspace Center") 10 14 (.ident 214), span (py!"Section Code (2)") 15 16 .f004,
   span (py!"To Airport/Fix") 17 21 (.ident 75), span (py!"ICAO Code (2)") 23 24 (.ident 14),
   span (py!"Section Code (3)") 25 26 .f004, span (py!"Company Route ID") 27 36 (.ident 76),
   span (py!"Sequence Number") 37 39 .f012, span (py!"VIA") 40 42 (.ident 77),
   span (py!"SID/STAR/App/Awy") 43 48 (.ident 78), span (py!"Area Code") 49 51 .f003,
   span (py!"To Fix") 52 57 (.ident 83) |>.but 52 57 (.ident 132),
   span (py!"ICAO Code") 58 59 (.ident 14) |>.but 58 59 .f118,
   span (py!"Section Code (4)") 60 61 .f004 |>.but 60 60 (.ident 36),
   span (py!"RUnway Trans") 62 66 (.ident 84) |>.but 62 66 (.ident 37),
   span (py!"ENRT Trans") 67 71 (.ident 85) |>.but 67 71 (.ident 36),
   span (py!"Cruise Altitude") 73 77 .f086 |>.but 73 77 (.ident 37),
   span (py!"Terminal/Alternate Airport") 78 81 (.ident 87) |>.but 78 81 (.ident 119),
   span (py!"ICAO Code") 82 83 (.ident 14) |>.but 82 83 (.ident 120),
   span (py!"Alternate Distance") 84 87 (.ident 88) |>.but 84 87 (.ident 211),
   span (py!"Cost Index") 88 90 (.ident 89) |>.but 88 90 (.ident 121),
   span (py!"Enroute Alternate Airport") 91 94 (.ident 6) |>.but 91 94 (.ident 133),
   span (py!"File Record No") 124 128 (.ident 31), span (py!"Cycle Date") 129 132 .f032]

/-- section RA, primary record -/
def alternate : List StdField :=
  [one (py!"Record Type") 1 .f002, span (py!"Customer / Area Code") 2 4 .f003,
   span (py!"Section Code") 5 6 .f004, span (py!"Alternate Related Airport to Fix") 7 11 (.ident 75),
   span (py!"Alternate Related ICAO Code") 12 13 (.ident 14), span (py!"Alternate Section") 14 15 .f004,
   span (py!"Alternate Record Type") 16 17 (.ident 250), span (py!"Distance to Alternate") 20 22 (.ident 251),
   one (py!"Alternate Type") 23 (.ident 252), span (py!"Primary Alternate Identifier") 24 33 (.ident 253),
   span (py!"Distance to Alternate (2)") 36 38 (.ident 251), one (py!"Alternate Type (2)") 39 (.ident 252),
   span (py!"Additional Alternate Identifier One") 40 49 (.ident 253),
   span (py!"Distance to Alternate (3)") 52 54 (.ident 251), one (py!"Alternate Type (3)") 55 (.ident 252),
   span (py!"Additional Alternate Identifier Two") 56 65 (.ident 253),
   span (py!"Distance to Alternate (3)") 68 70 (.ident 251), one (py!"Alternate Type (3)") 71 (.ident 252),
   span (py!"Additional Alternate Identifier (3))") 72 81 (.ident 253),
   span (py!"Distance to Alternate (4)") 84 86 (.ident 251), one (py!"Alternate Type (4)") 87 (.ident 252),
   span (py!"Additional Alternate Identifier (4)") 88 97 (.ident 253),
   span (py!"Distance to Alternate (5)") 100 102 (.ident 251), one (py!"Alternate Type (5)") 103 (.ident 252),
   span (py!"Additional Alternate Identifier (5)") 104 113 (.ident 253),
   span (py!"File Record No") 124 128 (.ident 31), span (py!"Cycle Date") 129 132 .f032]

/-- section TC, primary record -/
def cruisingTable : List StdField :=
  [one (py!"Record Type") 1 .f002, span (py!"Section Code") 5 6 .f004,
   span (py!"Cruise Table Identifier") 7 8 (.ident 134), one (py!"Sequence Number") 9 .f012,
   span (py!"Course From") 29 32 .f135, span (py!"Course To") 33 36 .f135, one (py!"Mag/True") 37 .f165,
   span (py!"Cruise Level From") 40 44 (.ident 136), span (py!"Vertical Separation") 45 49 (.ident 137),
   span (py!"Cruise Level To ") 50 54 (.ident 136), span (py!"Cruise Level From (2)") 55 59 (.ident 136),
   span (py!"Vertical Separation (2)") 60 64 (.ident 137), span (py!"Cruise Level To (2)") 65 69 (.ident 136),
   span (py!"Cruise Level From (3)") 70 74 (.ident 136), span (py!"Vertical Separation (3)") 75 79 (.ident 137),
   span (py!"Cruise Level To (3)") 80 84 (.ident 136), span (py!"Cruise Level From (4)") 85 89 (.ident 136),
   span (py!"Vertical Separation (4)") 90 94 (.ident 137), span (py!"Cruise Level To (4)") 95 99 (.ident 136),
   span (py!"File Record No") 124 128 (.ident 31), span (py!"Cycle Date") 129 132 .f032]

/-- section TG, primary record -/
def geoReference : List StdField :=
  [one (py!"Record Type") 1 .f002, span (py!"Customer / Area Code") 2 4 .f003,
   span (py!"Section Code") 5 6 .f004, span (py!"Geographical Ref Table ID") 7 8 (.ident 218),
   one (py!"Sequence Number") 9 .f012, span (py!"Geographical Entity") 10 38 (.ident 219),
   one (py!"Continuation Record No") 39 .f016, span (py!"Preferred Route Ident") 41 50 .f008,
   span (py!"Preferred Route Use Ind") 51 52 (.ident 220), span (py!"Preferred Route Ident (2)") 53 62 .f008,
   span (py!"Preferred Route Use Ind (2)") 63 64 (.ident 220),
   span (py!"Preferred Route Ident (3)") 65 74 .f008,
   span (py!"Preferred Route Use Ind (3)") 75 76 (.ident 220),
   span (py!"Preferred Route Ident (4)") 77 86 .f008,
   span (py!"Preferred Route Use Ind (4)") 87 88 (.ident 220),
   span (py!"Preferred Route Ident (4)") 89 98 .f008,
   span (py!"Preferred Route Use Ind (4)") 99 100 (.ident 220),
   span (py!"Preferred Route Ident (5)") 101 110 .f008,
   span (py!"Preferred Route Use Ind (5)") 111 112 (.ident 220), span (py!"File Record No") 124 128 (.ident 31),
   span (py!"Cycle Date") 129 132 .f032]

/-- section TG, continuation record, type A -/
def geoReferenceContA : List StdField :=
  [one (py!"Record Type") 1 .f002, span (py!"Customer / Area Code") 2 4 .f003,
   span (py!"Section Code") 5 6 .f004, span (py!"Geographical Ref Table ID") 7 8 (.ident 218),
   one (py!"Sequence Number") 9 .f012, span (py!"Geographical Entity") 10 38 (.ident 219),
   one (py!"Continuation Record No") 39 .f016, one (py!"Application Type") 40 .f091,
   span (py!"File Record No") 124 128 (.ident 31), span (py!"Cycle Date") 129 132 .f032]

/-- section UC, primary record -/
def controlledAirspace : List StdField :=
  [one (py!"Record Type") 1 .f002, span (py!"Customer / Area Code") 2 4 .f003,
   span (py!"Section Code") 5 6 .f004, span (py!"ICAO Code") 7 8 (.ident 14),
   one (py!"Airspace Type") 9 (.ident 213) |>.but 10 10 (.ident 213),
   span (py!"Airspace Center") 10 14 (.ident 214), span (py!"Section Code (2)") 15 16 .f004,
   one (py!"Airspace Classification") 17 (.ident 215), one (py!"Multiple Code") 20 (.ident 130),
   span (py!"Sequence Number") 21 24 .f012, one (py!"Continuation Record No") 25 .f016,
   one (py!"Level") 26 (.ident 19), one (py!"Time Code") 27 (.ident 131), one (py!"NOTAM") 28 (.ident 132),
   span (py!"Boundary Via") 31 32 .f118, span (py!"Latitude") 33 41 (.ident 36),
   span (py!"Longitude") 42 51 (.ident 37), span (py!"Arc Origin Latitude") 52 60 (.ident 36),
   span (py!"Arc Origin Longitude") 61 70 (.ident 37), span (py!"Arc Distance") 71 74 (.ident 119),
   span (py!"Arc Bearing") 75 78 (.ident 120), span (py!"RNP") 79 81 (.ident 211),
   span (py!"Lower Limit") 82 86 (.ident 121), one (py!"Unit Indicator") 87 (.ident 133),
   span (py!"Upper Limit") 88 92 (.ident 121), one (py!"Unit Indicator (2)") 93 (.ident 133),
   span (py!"Controlled Airspace Name") 94 123 (.ident 216), span (py!"File Record No") 124 128 (.ident 31),
   span (py!"Cycle Date") 129 132 .f032]

/-- section UC, continuation record, type A -/
def controlledAirspaceContA : List StdField :=
  [one (py!"Record Type") 1 .f002, span (py!"Customer / Area Code") 2 4 .f003,
   span (py!"Section Code") 5 6 .f004, span (py!"ICAO Code") 7 8 (.ident 14),
   one (py!"Airspace Type") 9 (.ident 213) |>.but 10 10 (.ident 213),
   span (py!"Airspace Center") 10 14 (.ident 214), span (py!"Section Code (2)") 15 16 .f004,
   one (py!"Airspace Classification") 17 (.ident 215), one (py!"Multiple Code") 20 (.ident 130),
   span (py!"Sequence Number") 21 24 .f012, one (py!"Continuation Record No") 25 .f016,
   one (py!"Application Type") 26 .f091, one (py!"Time Code") 27 (.ident 131), one (py!"NOTAM") 28 (.ident 132),
   one (py!"Time Indicator") 29 (.ident 138), span (py!"Time of Operations") 30 39 (.ident 195),
   span (py!"Time of Operations (2)") 40 49 (.ident 195), span (py!"Time of Operations (3)") 50 59 (.ident 195),
   span (py!"Time of Operations (4)") 60 69 (.ident 195), span (py!"Time of Operations (5)") 70 79 (.ident 195),
   span (py!"Time of Operations (6)") 80 89 (.ident 195), span (py!"Time of Operations (7)") 90 99 (.ident 195),
   span (py!"Controlling Agency") 100 123 (.ident 140), span (py!"File Record No") 124 128 (.ident 31),
   span (py!"Cycle Date") 129 132 .f032]

/-- section UF, primary record -/
def firUir : List StdField :=
  [one (py!"Record Type") 1 .f002, span (py!"Customer / Area Code") 2 4 .f003,
   span (py!"Section Code") 5 6 .f004, span (py!"FIR/UIR Identifier") 7 10 (.ident 116),
   span (py!"FIR/UIR Address") 11 14 (.ident 151), one (py!"FIR/UIR Indicator") 15 .f117,
   span (py!"Sequence Number") 16 19 .f012, one (py!"Continuation Record No") 20 .f016,
   span (py!"Adjacent FIR Identifier") 21 24 (.ident 116),
   span (py!"Adjacent UIR Identifier") 25 28 (.ident 116), one (py!"Reporting Units Speed") 29 (.ident 122),
   one (py!"Reporting Units Altitude") 30 .f123, one (py!"Entry Report") 31 (.ident 124),
   span (py!"Boundary Via") 33 34 .f118, span (py!"FIR/UIR Latitude") 35 43 (.ident 36),
   span (py!"FIR/UIR Longitude") 44 53 (.ident 37), span (py!"Arc Origin Latitude") 54 62 (.ident 36),
   span (py!"Arc Origin Longitude") 63 72 (.ident 37), span (py!"Arc Distance") 73 76 (.ident 119),
   span (py!"Arc Bearing") 77 80 (.ident 120), span (py!"FIR Upper Limit") 81 85 (.ident 121),
   span (py!"UIR Lower Limit") 86 90 (.ident 121), span (py!"UIR Upper Limit") 91 95 (.ident 121),
   span (py!"Cruise Table Ind") 96 97 (.ident 134), span (py!"FIR/UIR Name") 99 123 (.ident 125),
   span (py!"File Record No") 124 128 (.ident 31), span (py!"Cycle Date") 129 132 .f032]

/-- section UF, continuation record, type A -/
def firUirContA : List StdField :=
  [one (py!"Record Type") 1 .f002, span (py!"Customer / Area Code") 2 4 .f003,
   span (py!"Section Code") 5 6 .f004, span (py!"FIR/UIR Identifier") 7 10 (.ident 116),
   span (py!"FIR/UIR Address") 11 14 (.ident 151), one (py!"FIR/UIR Indicator") 15 .f117,
   span (py!"Sequence Number") 16 19 .f012, one (py!"Continuation Record No") 20 .f016,
   one (py!"Application Type") 21 .f091, span (py!"File Record No") 124 128 (.ident 31),
   span (py!"Cycle Date") 129 132 .f032]

/-- section UR, primary record -/
def restrictiveAirspace : List StdField :=
  [one (py!"Record Type") 1 .f002, span (py!"Customer / Area Code") 2 4 .f003,
   span (py!"Section Code") 5 6 .f004, span (py!"ICAO Code") 7 8 (.ident 14),
   one (py!"Restrictive Type") 9 (.ident 128), span (py!"Restrictive Airspace Designation") 10 19 (.ident 129),
   one (py!"Multiple Code") 20 (.ident 130), span (py!"Sequence Number") 21 24 .f012,
   one (py!"Continuation Record No") 25 .f016, one (py!"Level") 26 (.ident 19),
   one (py!"Time Code") 27 (.ident 131), one (py!"NOTAM") 28 (.ident 132), span (py!"Boundary Via") 31 32 .f118,
   span (py!"Latitude") 33 41 (.ident 36), span (py!"Longitude") 42 51 (.ident 37),
   span (py!"Arc Origin Latitude") 52 60 (.ident 36), span (py!"Arc Origin Longitude") 61 70 (.ident 37),
   span (py!"Arc Distance") 71 74 (.ident 119), span (py!"Arc Bearing") 75 78 (.ident 120),
   span (py!"Lower Limit") 82 86 (.ident 121) |>.but 83 86 (.ident 121),
   one (py!"Unit Indicator") 87 (.ident 133), span (py!"Upper Limit") 88 92 (.ident 121),
   one (py!"Unit Indicator (2)") 93 (.ident 133), span (py!"Restrictive Airspace Name") 94 123 (.ident 126),
   span (py!"File Record No") 124 128 (.ident 31), span (py!"Cycle Date") 129 132 .f032]

/-- section UR, continuation record, type T -/
def restrictiveAirspaceContT : List StdField :=
  [one (py!"Record Type") 1 .f002, span (py!"Customer / Area Code") 2 4 .f003,
   span (py!"Section Code") 5 6 .f004, span (py!"ICAO Code") 7 8 (.ident 14),
   one (py!"Restrictive Type") 9 (.ident 128), span (py!"Restrictive Airspace Designation") 10 19 (.ident 129),
   one (py!"Multiple Code") 20 (.ident 130), span (py!"Sequence Number") 21 24 .f012,
   one (py!"Continuation Record No") 25 .f016, one (py!"Application Type") 26 .f091,
   one (py!"Time Code") 27 (.ident 131), one (py!"NOTAM") 28 (.ident 132),
   one (py!"Time Indicator") 29 (.ident 138) |>.but 28 28 (.ident 138),
   span (py!"Time of Operations") 30 39 (.ident 195), span (py!"Time of Operations (2)") 40 49 (.ident 195),
   span (py!"Time of Operations (3)") 50 59 (.ident 195), span (py!"Time of Operations (4)") 60 69 (.ident 195),
   span (py!"Time of Operations (5)") 70 79 (.ident 195), span (py!"Time of Operations (6)") 80 89 (.ident 195),
   span (py!"Time of Operations (7)") 90 99 (.ident 195), span (py!"Controlling Agency") 100 123 (.ident 140),
   span (py!"File Record No") 124 128 (.ident 31), span (py!"Cycle Date") 129 132 .f032]

/-- section UR, continuation record, type P -/
def restrictiveAirspaceContP : List StdField :=
  [one (py!"Record Type") 1 .f002, span (py!"Customer / Area Code") 2 4 .f003,
   span (py!"Section Code") 5 6 .f004, span (py!"ICAO Code") 7 8 (.ident 14),
   one (py!"Restrictive Type") 9 (.ident 128), span (py!"Restrictive Airspace Designation") 10 19 (.ident 129),
   one (py!"Multiple Code") 20 (.ident 130), span (py!"Sequence Number") 21 24 .f012,
   one (py!"Continuation Record No") 25 .f016, one (py!"Application Type") 26 .f091,
   one (py!"Start/End Indicator") 30 (.ident 152), span (py!"Start/End Date") 31 41 (.ident 153),
   span (py!"File Record No") 124 128 (.ident 31), span (py!"Cycle Date") 129 132 .f032]

/-- the application types (restriction types for EU) of the records of a section with their fields, and
    the fields of all other records of the section if they are read at all -/
def kindsOf : List (Str × Bool × List (Str × List StdField) × Option (List StdField)) :=
  [(py!"AS", true, [], some gridMora),
   (py!"AS", false, [], some gridMora),
   (py!"D ", true, [], some vhfNavaid),
   (py!"D ", false, [(py!"A", vhfNavaidContA), (py!"L", vhfNavaidContL), (py!"P", vhfNavaidContP), (py!"S", vhfNavaidContS)], none),
   (py!"DB", true, [], some ndbNavaid),
   (py!"DB", false, [(py!"A", ndbNavaidContA), (py!"P", ndbNavaidContP), (py!"Q", ndbNavaid), (py!"S", ndbNavaidContS)], none),
   (py!"EA", true, [], some enrouteWaypoint),
   (py!"EA", false, [(py!"A", enrouteWaypointContA), (py!"P", enrouteWaypointContP), (py!"Q", enrouteWaypoint)], none),
   (py!"EM", true, [], some airwaysMarker),
   (py!"EM", false, [(py!"A", airwaysMarkerContA)], none),
   (py!"EP", true, [], some holdingPattern),
   (py!"EP", false, [(py!"A", holdingPatternContA)], none),
   (py!"ER", true, [], some airway),
   (py!"ER", false, [(py!"A", airwayContA), (py!"P", airwayContP), (py!"Q", airway)], none),
   (py!"ET", true, [], some preferredRoute),
   (py!"ET", false, [(py!"A", preferredRouteContA), (py!"T", preferredRouteContT)], none),
   (py!"EU", true, [(py!"AE", airwayRestrictionAE), (py!"TC", airwayRestrictionTC), (py!"SC", airwayRestrictionTC), (py!"NR", airwayRestrictionNR)], none),
   (py!"EU", false, [(py!"AE", airwayRestrictionContAE), (py!"TC", airwayRestrictionContTC), (py!"NR", airwayRestrictionContNR)], none),
   (py!"EV", true, [], some enrouteCommunications),
   (py!"EV", false, [(py!" ", enrouteCommunicationsCont ), (py!"T", enrouteCommunicationsContT)], none),
   (py!"HA", true, [], some heliport),
   (py!"HA", false, [(py!"A", heliportContA), (py!"P", heliportContP), (py!"Q", heliportContA)], none),
   (py!"HC", true, [], some heliportWaypoint),
   (py!"HC", false, [(py!"A", heliportWaypointContA), (py!"P", heliportWaypointContP)], some heliportWaypoint),
   (py!"HD", true, [], some procedure),
   (py!"HD", false, [(py!"E", procedureContE), (py!"P", procedureContP), (py!"W", procedureContW)], none),
   (py!"HE", true, [], some procedure),
   (py!"HE", false, [(py!"E", procedureContE), (py!"P", procedureContP), (py!"W", procedureContW)], none),
   (py!"HF", true, [], some procedure),
   (py!"HF", false, [(py!"E", procedureContE), (py!"P", procedureContP), (py!"W", procedureContW)], none),
   (py!"HK", true, [], some heliportTaa),
   (py!"HK", false, [(py!"A", heliportTaaContA)], none),
   (py!"HS", true, [], some heliportMsa),
   (py!"HS", false, [(py!"A", heliportMsaContA)], none),
   (py!"HV", true, [], some heliportCommunications),
   (py!"HV", false, [(py!"A", heliportCommunicationsContA), (py!"T", heliportCommunicationsContT)], none),
   (py!"PA", true, [], some airport),
   (py!"PA", false, [(py!"A", airportContA), (py!"P", airportContP), (py!"Q", airport)], none),
   (py!"PB", true, [], some gate),
   (py!"PB", false, [(py!"A", gateContA)], none),
   (py!"PC", true, [], some terminalWaypoint),
   (py!"PC", false, [(py!"A", terminalWaypointContA), (py!"P", terminalWaypointContP), (py!"Q", terminalWaypoint)], none),
   (py!"PD", true, [], some procedure),
   (py!"PD", false, [(py!"E", procedureContE), (py!"P", procedureContP), (py!"W", procedureContW)], none),
   (py!"PE", true, [], some procedure),
   (py!"PE", false, [(py!"E", procedureContE), (py!"P", procedureContP), (py!"W", procedureContW)], none),
   (py!"PF", true, [], some procedure),
   (py!"PF", false, [(py!"E", procedureContE), (py!"P", procedureContP), (py!"W", procedureContW)], none),
   (py!"PG", true, [], some runway),
   (py!"PG", false, [(py!"A", runwayContA), (py!"S", runwayContS)], none),
   (py!"PI", true, [], some localizer),
   (py!"PI", false, [(py!"A", localizerContA), (py!"S", localizerContS)], none),
   (py!"PK", true, [], some airportTaa),
   (py!"PK", false, [(py!"A", airportTaaContA)], none),
   (py!"PL", true, [], some mls),
   (py!"PL", false, [(py!"A", mlsContA)], none),
   (py!"PM", true, [], some localizerMarker),
   (py!"PM", false, [(py!"A", localizerMarkerContA)], none),
   (py!"PN", true, [], some terminalNdb),
   (py!"PN", false, [(py!"A", terminalNdbContA), (py!"P", terminalNdbContP), (py!"Q", terminalNdb), (py!"S", terminalNdbContS)], none),
   (py!"PP", true, [], some pathPoint),
   (py!"PP", false, [(py!"E", pathPointContE)], none),
   (py!"PR", true, [], some flightPlanning),
   (py!"PR", false, [(py!"A", flightPlanningContA), (py!"T", flightPlanningContT)], none),
   (py!"PS", true, [], some airportMsa),
   (py!"PS", false, [(py!"A", airportMsaContA)], none),
   (py!"PT", true, [], some gls),
   (py!"PT", false, [(py!"A", glsContA)], none),
   (py!"PV", true, [], some airportCommunications),
   (py!"PV", false, [(py!"N", airportCommunicationsContN)], none),
   (py!"R ", true, [], some companyRoute),
   (py!"R ", false, [], some companyRoute),
   (py!"RA", true, [], some alternate),
   (py!"RA", false, [], some alternate),
   (py!"TC", true, [], some cruisingTable),
   (py!"TC", false, [], some cruisingTable),
   (py!"TG", true, [], some geoReference),
   (py!"TG", false, [(py!"A", geoReferenceContA)], none),
   (py!"UC", true, [], some controlledAirspace),
   (py!"UC", false, [(py!"A", controlledAirspaceContA)], none),
   (py!"UF", true, [], some firUir),
   (py!"UF", false, [(py!"A", firUirContA)], none),
   (py!"UR", true, [], some restrictiveAirspace),
   (py!"UR", false, [(py!"T", restrictiveAirspaceContT), (py!"P", restrictiveAirspaceContP), (py!"C", restrictiveAirspaceContT)], none)]

/-- the fields of a record of section `k`, primary or not, with application type `a` -/
def fieldsOf (k : Str) (primary : Bool) (a : Str) : List StdField :=
  match kindsOf.find? (fun e => e.1 = k && e.2.1 = primary) with
  | none => []
  | some e => match e.2.2.1.lookup a, e.2.2.2 with
    | some l, _ => l
    | none, some l => l
    | none, none => []

end Spec.Std
