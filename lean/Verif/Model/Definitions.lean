import Verif.Model.Layouts
/-!
# Record definitions and registry (GENERATED by tools/gen.py)
-/
namespace Arinc
open Py

/-- definitions/Airport.py:6-148, class `Airport` (attributes and `read`, lines 16-30) -/
def Airport.definition : Definition where
  cls := py!"Airport"
  name := some (py!"Airport")
  contIdx := some 21
  appIdx := some 22
  continuations := some [py!"A", py!"P", py!"Q"]
  appType := some (.at 22)
  onPrimary := .always Airport.read_primary
  onCont := .onApp (.at 22)
      [(py!"A", Airport.read_cont),
       (py!"P", Airport.read_flight0),
       (py!"Q", Airport.read_flight1)]
      .empty

/-- definitions/AirportCommunication.py:6-115, class `AirportCommunication` (attributes and `read`, lines 16-29) -/
def AirportCommunication.definition : Definition where
  cls := py!"AirportCommunication"
  name := some (py!"Airport Communications")
  contIdx := some 25
  appIdx := some 26
  continuations := some [py!"N"]
  appType := some (.at 26)
  onPrimary := .always AirportCommunication.read_primary
  onCont := .onApp (.at 26)
      [(py!"N", AirportCommunication.read_cont_narr)]
      .empty

/-- definitions/AirportGate.py:6-59, class `AirportGate` (attributes and `read`, lines 16-26) -/
def AirportGate.definition : Definition where
  cls := py!"AirportGate"
  name := some (py!"Airport Gate")
  contIdx := some 21
  appIdx := some 22
  continuations := some [py!"A"]
  appType := some (.at 22)
  onPrimary := .always AirportGate.read_primary
  onCont := .onApp (.at 22)
      [(py!"A", AirportGate.read_cont)]
      .empty

/-- definitions/AirwaysMarker.py:6-63, class `AirwaysMarker` (attributes and `read`, lines 16-26) -/
def AirwaysMarker.definition : Definition where
  cls := py!"AirwaysMarker"
  name := some (py!"Airways Marker")
  contIdx := some 21
  appIdx := some 22
  continuations := some [py!"A"]
  appType := some (.at 22)
  onPrimary := .always AirwaysMarker.read_primary
  onCont := .onApp (.at 22)
      [(py!"A", AirwaysMarker.read_cont)]
      .empty

/-- definitions/Alternate.py:6-38, class `Alternate` (attributes and `read`, lines 9-38) -/
def Alternate.definition : Definition where
  cls := py!"Alternate"
  name := none
  contIdx := none
  appIdx := none
  continuations := none
  appType := none
  onPrimary := .always Alternate.read
  onCont := .always Alternate.read

/-- definitions/CompanyRoute.py:9-42, class `CompanyRoute` (attributes and `read`, lines 12-42) -/
def CompanyRoute.definition : Definition where
  cls := py!"CompanyRoute"
  name := none
  contIdx := none
  appIdx := none
  continuations := none
  appType := none
  onPrimary := .always CompanyRoute.read
  onCont := .always CompanyRoute.read

/-- definitions/ControlledAirspace.py:13-97, class `ControlledAirspace` (attributes and `read`, lines 23-33) -/
def ControlledAirspace.definition : Definition where
  cls := py!"ControlledAirspace"
  name := some (py!"Controlled Airspace")
  contIdx := some 24
  appIdx := some 25
  continuations := some [py!"A"]
  appType := some (.at 25)
  onPrimary := .always ControlledAirspace.read_primary
  onCont := .onApp (.at 25)
      [(py!"A", ControlledAirspace.read_cont)]
      .empty

/-- definitions/CruisingTables.py:6-35, class `CruisingTables` (attributes and `read`, lines 8-9) -/
def CruisingTables.definition : Definition where
  cls := py!"CruisingTables"
  name := none
  contIdx := none
  appIdx := none
  continuations := none
  appType := none
  onPrimary := .always CruisingTables.read_primary
  onCont := .always CruisingTables.read_primary

/-- definitions/EnrouteAirways.py:6-153, class `EnrouteAirways` (attributes and `read`, lines 16-30) -/
def EnrouteAirways.definition : Definition where
  cls := py!"EnrouteAirways"
  name := some (py!"Enroute Airways")
  contIdx := some 38
  appIdx := some 39
  continuations := some [py!"A", py!"P", py!"Q"]
  appType := some (.at 39)
  onPrimary := .always EnrouteAirways.read_primary
  onCont := .onApp (.at 39)
      [(py!"A", EnrouteAirways.read_cont),
       (py!"P", EnrouteAirways.read_flight_plan0),
       (py!"Q", EnrouteAirways.read_flight_plan1)]
      .raise

/-- definitions/EnrouteAirwaysRestriction.py:6-262, class `EnrouteAirwaysRestriction` (attributes and `read`, lines 14-39) -/
def EnrouteAirwaysRestriction.definition : Definition where
  cls := py!"EnrouteAirwaysRestriction"
  name := some (py!"Enroute Airways")
  contIdx := none
  appIdx := none
  continuations := some [py!"AE", py!"TC", py!"NR"]
  appType := some (.range 15 17)
  onPrimary := .onApp (.range 15 17)
      [(py!"AE", EnrouteAirwaysRestriction.primary_altitude_exclude),
       (py!"TC", EnrouteAirwaysRestriction.primary_cruise_table),
       (py!"SC", EnrouteAirwaysRestriction.primary_seasonal_closure),
       (py!"NR", EnrouteAirwaysRestriction.primary_note_restriction)]
      .raise
  onCont := .onApp (.range 15 17)
      [(py!"AE", EnrouteAirwaysRestriction.cont_altitude_exclude),
       (py!"TC", EnrouteAirwaysRestriction.cont_cruise_table),
       (py!"NR", EnrouteAirwaysRestriction.cont_note_restriction)]
      .raise

/-- definitions/EnrouteCommunications.py:6-113, class `EnrouteCommunications` (attributes and `read`, lines 16-28) -/
def EnrouteCommunications.definition : Definition where
  cls := py!"EnrouteCommunications"
  name := some (py!"Enroute Communications")
  contIdx := some 55
  appIdx := some 56
  continuations := some [py!" ", py!"T"]
  appType := some (.at 56)
  onPrimary := .always EnrouteCommunications.read_primary
  onCont := .onApp (.at 56)
      [(py!" ", EnrouteCommunications.read_cont),
       (py!"T", EnrouteCommunications.read_timeop)]
      .raise

/-- definitions/FIRUIR.py:6-74, class `FIRUIR` (attributes and `read`, lines 16-26) -/
def FIRUIR.definition : Definition where
  cls := py!"FIRUIR"
  name := some (py!"FIR/UIR")
  contIdx := some 19
  appIdx := some 20
  continuations := some [py!"A"]
  appType := some (.at 20)
  onPrimary := .always FIRUIR.read_primary
  onCont := .onApp (.at 20)
      [(py!"A", FIRUIR.read_cont)]
      .empty

/-- definitions/FlightPlanning.py:6-153, class `FlightPlanning` (attributes and `read`, lines 16-28) -/
def FlightPlanning.definition : Definition where
  cls := py!"FlightPlanning"
  name := some (py!"Flight Planning Arrival/Departure")
  contIdx := some 69
  appIdx := some 70
  continuations := some [py!"A", py!"T"]
  appType := some (.at 70)
  onPrimary := .always FlightPlanning.read_primary
  onCont := .onApp (.at 70)
      [(py!"A", FlightPlanning.read_cont),
       (py!"T", FlightPlanning.read_timeop)]
      .empty

/-- definitions/GLS.py:6-71, class `GLS` (attributes and `read`, lines 16-26) -/
def GLS.definition : Definition where
  cls := py!"GLS"
  name := some (py!"GLS")
  contIdx := some 21
  appIdx := some 22
  continuations := some [py!"A"]
  appType := some (.at 22)
  onPrimary := .always GLS.read_primary
  onCont := .onApp (.at 22)
      [(py!"A", GLS.read_cont)]
      .empty

/-- definitions/GeoReferenceTable.py:16-77, class `GeoReferenceTable` (attributes and `read`, lines 26-36) -/
def GeoReferenceTable.definition : Definition where
  cls := py!"GeoReferenceTable"
  name := some (py!"Geographical Reference Table")
  contIdx := some 38
  appIdx := some 39
  continuations := some [py!"A"]
  appType := some (.at 39)
  onPrimary := .always GeoReferenceTable.read_primary
  onCont := .onApp (.at 39)
      [(py!"A", GeoReferenceTable.read_cont)]
      .empty

/-- definitions/GridMORA.py:8-52, class `GridMORA` (attributes and `read`, lines 10-11) -/
def GridMORA.definition : Definition where
  cls := py!"GridMORA"
  name := none
  contIdx := none
  appIdx := none
  continuations := none
  appType := none
  onPrimary := .always GridMORA.read_primary
  onCont := .always GridMORA.read_primary

/-- definitions/Heliport.py:6-120, class `Heliport` (attributes and `read`, lines 16-30) -/
def Heliport.definition : Definition where
  cls := py!"Heliport"
  name := some (py!"Heliport")
  contIdx := some 21
  appIdx := some 22
  continuations := some [py!"A", py!"P", py!"Q"]
  appType := some (.at 22)
  onPrimary := .always Heliport.read_primary
  onCont := .onApp (.at 22)
      [(py!"A", Heliport.read_cont),
       (py!"P", Heliport.read_flight0),
       (py!"Q", Heliport.read_flight1)]
      .empty

/-- definitions/HeliportCommunications.py:6-114, class `HeliportCommunications` (attributes and `read`, lines 16-28) -/
def HeliportCommunications.definition : Definition where
  cls := py!"HeliportCommunications"
  name := some (py!"Heliport Communications")
  contIdx := some 25
  appIdx := some 26
  continuations := some [py!"A", py!"T"]
  appType := some (.at 26)
  onPrimary := .always HeliportCommunications.read_primary
  onCont := .onApp (.at 26)
      [(py!"A", HeliportCommunications.read_cont),
       (py!"T", HeliportCommunications.read_timeop)]
      .raise

/-- definitions/HeliportTerminalWaypoint.py:6-112, class `HeliportTerminalWaypoint` (attributes and `read`, lines 16-29) -/
def HeliportTerminalWaypoint.definition : Definition where
  cls := py!"HeliportTerminalWaypoint"
  name := some (py!"Heliport Terminal Waypoint")
  contIdx := some 21
  appIdx := some 22
  continuations := some [py!"A", py!"P"]
  appType := some (.at 22)
  onPrimary := .always HeliportTerminalWaypoint.read_primary
  onCont := .onApp (.at 22)
      [(py!"A", HeliportTerminalWaypoint.read_cont),
       (py!"P", HeliportTerminalWaypoint.read_flight0)]
      (.layout HeliportTerminalWaypoint.read_flight1)

/-- definitions/HoldingPattern.py:6-84, class `HoldingPattern` (attributes and `read`, lines 16-26) -/
def HoldingPattern.definition : Definition where
  cls := py!"HoldingPattern"
  name := some (py!"Holding Pattern")
  contIdx := some 38
  appIdx := some 39
  continuations := some [py!"A"]
  appType := some (.at 39)
  onPrimary := .always HoldingPattern.read_primary
  onCont := .onApp (.at 39)
      [(py!"A", HoldingPattern.read_cont)]
      .empty

/-- definitions/LocalizerGlideslope.py:6-103, class `LocalizerGlideslope` (attributes and `read`, lines 16-28) -/
def LocalizerGlideslope.definition : Definition where
  cls := py!"LocalizerGlideslope"
  name := some (py!"Localizer and Glide Slope")
  contIdx := some 21
  appIdx := some 22
  continuations := some [py!"A", py!"S"]
  appType := some (.at 22)
  onPrimary := .always LocalizerGlideslope.read_primary
  onCont := .onApp (.at 22)
      [(py!"A", LocalizerGlideslope.read_cont),
       (py!"S", LocalizerGlideslope.read_sim)]
      .empty

/-- definitions/LocalizerMarker.py:6-69, class `LocalizerMarker` (attributes and `read`, lines 16-26) -/
def LocalizerMarker.definition : Definition where
  cls := py!"LocalizerMarker"
  name := some (py!"Localizer Marker")
  contIdx := some 21
  appIdx := some 22
  continuations := some [py!"A"]
  appType := some (.at 22)
  onPrimary := .always LocalizerMarker.read_primary
  onCont := .onApp (.at 22)
      [(py!"A", LocalizerMarker.read_cont)]
      .empty

/-- definitions/MLS.py:7-97, class `MLS` (attributes and `read`, lines 17-27) -/
def MLS.definition : Definition where
  cls := py!"MLS"
  name := some (py!"MLS")
  contIdx := some 21
  appIdx := some 22
  continuations := some [py!"A"]
  appType := some (.at 22)
  onPrimary := .always MLS.read_primary
  onCont := .onApp (.at 22)
      [(py!"A", MLS.read_cont)]
      .empty

/-- definitions/MSA.py:5-88, class `MSA` (attributes and `read`, lines 22-32) -/
def MSA.definition (heliport : Bool) : Definition where
  cls := py!"MSA"
  name := some (py!"MSA")
  contIdx := some 38
  appIdx := some 39
  continuations := some [py!"A"]
  appType := some (.at 39)
  onPrimary := .always (MSA.read_primary (if heliport = false then py!"Airport Identifier" else py!"Heliport Identifier"))
  onCont := .onApp (.at 39)
      [(py!"A", (MSA.read_cont (if heliport = false then py!"Airport Identifier" else py!"Heliport Identifier")))]
      .empty

/-- definitions/NDBNavaid.py:6-131, class `NDBNavaid` (attributes and `read`, lines 16-32) -/
def NDBNavaid.definition : Definition where
  cls := py!"NDBNavaid"
  name := some (py!"NDB Navaid")
  contIdx := some 21
  appIdx := some 22
  continuations := some [py!"A", py!"P", py!"Q", py!"S"]
  appType := some (.at 22)
  onPrimary := .always NDBNavaid.read_primary
  onCont := .onApp (.at 22)
      [(py!"A", NDBNavaid.read_cont),
       (py!"P", NDBNavaid.read_flight_plan0),
       (py!"Q", NDBNavaid.read_flight_plan1),
       (py!"S", NDBNavaid.read_sim)]
      .empty

/-- definitions/PathPoint.py:6-83, class `PathPoint` (attributes and `read`, lines 16-26) -/
def PathPoint.definition : Definition where
  cls := py!"PathPoint"
  name := some (py!"Path Point")
  contIdx := some 26
  appIdx := some 27
  continuations := some [py!"E"]
  appType := some (.at 27)
  onPrimary := .always PathPoint.read_primary
  onCont := .onApp (.at 27)
      [(py!"E", PathPoint.read_cont)]
      .raise

/-- definitions/PreferredRoute.py:10-108, class `PreferredRoute` (attributes and `read`, lines 20-32) -/
def PreferredRoute.definition : Definition where
  cls := py!"PreferredRoute"
  name := some (py!"Preferred Route")
  contIdx := some 38
  appIdx := some 39
  continuations := some [py!"A", py!"T"]
  appType := some (.at 39)
  onPrimary := .always PreferredRoute.read_primary
  onCont := .onApp (.at 39)
      [(py!"A", PreferredRoute.read_cont),
       (py!"T", PreferredRoute.read_timeop)]
      .empty

/-- definitions/RestrictiveAirspace.py:6-138, class `RestrictiveAirspace` (attributes and `read`, lines 16-30) -/
def RestrictiveAirspace.definition : Definition where
  cls := py!"RestrictiveAirspace"
  name := some (py!"Restrictive Airspace")
  contIdx := some 24
  appIdx := some 25
  continuations := some [py!"T", py!"P", py!"C"]
  appType := some (.at 25)
  onPrimary := .always RestrictiveAirspace.read_primary
  onCont := .onApp (.at 25)
      [(py!"T", RestrictiveAirspace.read_time),
       (py!"P", RestrictiveAirspace.read_flight0),
       (py!"C", RestrictiveAirspace.read_callsign)]
      .empty

/-- definitions/Runway.py:6-90, class `Runway` (attributes and `read`, lines 16-28) -/
def Runway.definition : Definition where
  cls := py!"Runway"
  name := some (py!"Runway")
  contIdx := some 21
  appIdx := some 22
  continuations := some [py!"A", py!"S"]
  appType := some (.at 22)
  onPrimary := .always Runway.read_primary
  onCont := .onApp (.at 22)
      [(py!"A", Runway.read_cont),
       (py!"S", Runway.read_sim)]
      .empty

/-- definitions/SIDSTARApproach.py:6-171, class `SIDSTARApproach` (attributes and `read`, lines 16-30) -/
def SIDSTARApproach.definition : Definition where
  cls := py!"SIDSTARApproach"
  name := some (py!"SID/STAR/Approach")
  contIdx := some 38
  appIdx := some 39
  continuations := some [py!"E", py!"P", py!"W"]
  appType := some (.at 39)
  onPrimary := .always SIDSTARApproach.read_primary
  onCont := .onApp (.at 39)
      [(py!"E", SIDSTARApproach.read_ext),
       (py!"P", SIDSTARApproach.read_flight0),
       (py!"W", SIDSTARApproach.read_data)]
      .empty

/-- definitions/TAA.py:6-94, class `TAA` (attributes and `read`, lines 25-35) -/
def TAA.definition (heliport : Bool) : Definition where
  cls := py!"TAA"
  name := some (py!"TAA")
  contIdx := some 29
  appIdx := some 30
  continuations := some [py!"A"]
  appType := some (.at 30)
  onPrimary := .always (TAA.read_primary (if heliport = false then py!"Airport Identifier" else py!"Heliport Identifier"))
  onCont := .onApp (.at 30)
      [(py!"A", (TAA.read_cont (if heliport = false then py!"Airport Identifier" else py!"Heliport Identifier")))]
      .empty

/-- definitions/VHFNavaid.py:17-202, class `VHFNavaid` (attributes and `read`, lines 27-43) -/
def VHFNavaid.definition : Definition where
  cls := py!"VHFNavaid"
  name := some (py!"VHF Navaid")
  contIdx := some 21
  appIdx := some 22
  continuations := some [py!"A", py!"L", py!"P", py!"S"]
  appType := some (.at 22)
  onPrimary := .always VHFNavaid.read_primary
  onCont := .onApp (.at 22)
      [(py!"A", VHFNavaid.read_cont),
       (py!"L", VHFNavaid.read_lim),
       (py!"P", VHFNavaid.read_flight_plan0),
       (py!"S", VHFNavaid.read_sim)]
      .empty

/-- definitions/Waypoint.py:6-120, class `Waypoint` (attributes and `read`, lines 19-33) -/
def Waypoint.definition (enroute : Bool) : Definition where
  cls := py!"Waypoint"
  name := some (py!"Waypoint")
  contIdx := some 21
  appIdx := some 22
  continuations := some [py!"A", py!"P", py!"Q"]
  appType := some (.at 22)
  onPrimary := .always (Waypoint.read_primary enroute)
  onCont := .onApp (.at 22)
      [(py!"A", (Waypoint.read_cont enroute)),
       (py!"P", (Waypoint.read_flight_plan0 enroute)),
       (py!"Q", (Waypoint.read_flight_plan1 enroute))]
      .empty

/-- record.py:44-86, the registry `records` -/
def registry : List (Str × Definition) := [
  (py!"AS", GridMORA.definition),  -- L45
  (py!"D ", VHFNavaid.definition),  -- L46
  (py!"DB", NDBNavaid.definition),  -- L47
  (py!"EA", Waypoint.definition true),  -- L48
  (py!"EM", AirwaysMarker.definition),  -- L49
  (py!"EP", HoldingPattern.definition),  -- L50
  (py!"ER", EnrouteAirways.definition),  -- L51
  (py!"ET", PreferredRoute.definition),  -- L52
  (py!"EU", EnrouteAirwaysRestriction.definition),  -- L53
  (py!"EV", EnrouteCommunications.definition),  -- L54
  (py!"HA", Heliport.definition),  -- L55
  (py!"HC", HeliportTerminalWaypoint.definition),  -- L56
  (py!"HD", SIDSTARApproach.definition),  -- L57
  (py!"HE", SIDSTARApproach.definition),  -- L58
  (py!"HF", SIDSTARApproach.definition),  -- L59
  (py!"HK", TAA.definition true),  -- L60
  (py!"HS", MSA.definition true),  -- L61
  (py!"HV", HeliportCommunications.definition),  -- L62
  (py!"PA", Airport.definition),  -- L63
  (py!"PB", AirportGate.definition),  -- L64
  (py!"PC", Waypoint.definition false),  -- L65
  (py!"PD", SIDSTARApproach.definition),  -- L66
  (py!"PE", SIDSTARApproach.definition),  -- L67
  (py!"PF", SIDSTARApproach.definition),  -- L68
  (py!"PG", Runway.definition),  -- L69
  (py!"PI", LocalizerGlideslope.definition),  -- L70
  (py!"PK", TAA.definition false),  -- L71
  (py!"PL", MLS.definition),  -- L72
  (py!"PM", LocalizerMarker.definition),  -- L73
  (py!"PN", NDBNavaid.definition),  -- L74
  (py!"PP", PathPoint.definition),  -- L75
  (py!"PR", FlightPlanning.definition),  -- L76
  (py!"PS", MSA.definition false),  -- L77
  (py!"PT", GLS.definition),  -- L78
  (py!"PV", AirportCommunication.definition),  -- L79
  (py!"R ", CompanyRoute.definition),  -- L80
  (py!"RA", Alternate.definition),  -- L81
  (py!"TC", CruisingTables.definition),  -- L82
  (py!"TG", GeoReferenceTable.definition),  -- L83
  (py!"UC", ControlledAirspace.definition),  -- L84
  (py!"UF", FIRUIR.definition),  -- L85
  (py!"UR", RestrictiveAirspace.definition)  -- L86
]

end Arinc
