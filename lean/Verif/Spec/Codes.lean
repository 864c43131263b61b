import Verif.Spec.Value
import Verif.Spec.Shape
/-!
# Specification: documented codes

The codes of ARINC-424 chapter 5 that the library documents (in the code of decoder.py and the README
table), with the description shown for each. Written as plain lists; what the decoders compute is in
`Model/Decoder.lean` and `Model/Tables.lean`. These lists are not generated.
-/
namespace Spec
open Py Arinc

/-- 5.3 customer / area codes -/
def areaCodes : List (Str × Str) :=
  [(py!"USA", py!"United States of America"),
   (py!"AFR", py!"Africa"),
   (py!"CAN", py!"Canada"),
   (py!"EEU", py!"Eastern Europe and Asia"),
   (py!"EUR", py!"Europe"),
   (py!"LAM", py!"Latin America"),
   (py!"MES", py!"Middle East"),
   (py!"PAC", py!"Pacific"),
   (py!"SAM", py!"Southern America"),
   (py!"SPA", py!"South Pacific")]

/-- 5.4, 5.5 section and subsection codes -/
def sectionCodes : List (Str × Str) :=
  [(py!"AS", py!"Grid MORA"),
   (py!"D ", py!"VHF Navaid"),
   (py!"DB", py!"NDB Navaid"),
   (py!"EA", py!"Waypoint"),
   (py!"EM", py!"Airways Marker"),
   (py!"EP", py!"Holding Pattern"),
   (py!"ER", py!"Airways and Route"),
   (py!"ET", py!"Preferred Route"),
   (py!"EU", py!"Airway Restrictions"),
   (py!"EV", py!"Enroute Communication"),
   (py!"HA", py!"Heliport Pads"),
   (py!"HC", py!"Heliport Terminal Waypoint"),
   (py!"HD", py!"Heliport SID"),
   (py!"HE", py!"Heliport STAR"),
   (py!"HF", py!"Heliport Approach Procedure"),
   (py!"HK", py!"Heliport TAA"),
   (py!"HS", py!"Heliport MSA"),
   (py!"HV", py!"Heliport Communication"),
   (py!"PA", py!"Airport Reference Point"),
   (py!"PB", py!"Airport Gates"),
   (py!"PC", py!"Airport Terminal Waypoint"),
   (py!"PD", py!"Airport SID"),
   (py!"PE", py!"Airport STAR"),
   (py!"PF", py!"Airport Approach Procedure"),
   (py!"PG", py!"Airport Runway"),
   (py!"PI", py!"Airport Localizer/Glideslope"),
   (py!"PK", py!"Airport TAA"),
   (py!"PL", py!"Airport MLS"),
   (py!"PM", py!"Airport Localizer Marker"),
   (py!"PN", py!"Airport Terminal"),
   (py!"PP", py!"Airport Path"),
   (py!"PR", py!"Airport Flt Planning ARR/DEP"),
   (py!"PS", py!"Airport MSA"),
   (py!"PT", py!"Airport GLS Station"),
   (py!"PV", py!"Airport Communication"),
   (py!"R ", py!"Company Route"),
   (py!"RA", py!"Alternate Record"),
   (py!"TC", py!"Cruising Table"),
   (py!"TG", py!"Geographical Reference"),
   (py!"TN", py!"RNAV Name Table"),
   (py!"UC", py!"Controller Airspace"),
   (py!"UF", py!"Airspace FIR/UIR"),
   (py!"UR", py!"Restrictive Airspace")]

/-- 5.7 route types of enroute airways (ER) -/
def airwayRouteTypes : List (Str × Str) :=
  [(py!"A", py!"Airline Airway (Tailored Data)"),
   (py!"C", py!"Control"),
   (py!"D", py!"Direct Route"),
   (py!"H", py!"Helicopter Airways"),
   (py!"O", py!"Officially Designated Airways"),
   (py!"R", py!"RNAV Airways"),
   (py!"S", py!"Undesignated ATS Route")]

/-- 5.7 route types of preferred routes (ET) -/
def preferredRouteTypes : List (Str × Str) :=
  [(py!"C", py!"North American Routes for North Atlantic Traffic Common Portion"),
   (py!"D", py!"Preferential Routes"),
   (py!"J", py!"Pacific Oceanic Transition Routes (PACOTS)"),
   (py!"M", py!"RNAV Airways"),
   (py!"N", py!"Undesignated ATS Route")]

/-- 5.7 route types of SIDs (PD, HD) -/
def sidRouteTypes : List (Str × Str) :=
  [(py!"0", py!"Engine Out SID"),
   (py!"1", py!"SID Runway Transition"),
   (py!"2", py!"SID or SID Common Route"),
   (py!"3", py!"SID Enroute Transition"),
   (py!"4", py!"RNAV SID Runway Transition"),
   (py!"5", py!"RNAV SID or SID Common Route"),
   (py!"6", py!"RNAV SID Enroute Transition"),
   (py!"F", py!"FMS SID Runway Transition"),
   (py!"M", py!"FMS SID or SID Common Route"),
   (py!"S", py!"FMS SID Enroute Transition"),
   (py!"R", py!"RNP SID Runway Transition"),
   (py!"N", py!"RNP SID or SID Common Route"),
   (py!"P", py!"RNP SID Enroute Transition"),
   (py!"T", py!"Vector SID Runway Transition"),
   (py!"V", py!"Vector SID Enroute Transition")]

/-- 5.7 route types of STARs (PE, HE) -/
def starRouteTypes : List (Str × Str) :=
  [(py!"1", py!"STAR Enroute Transition"),
   (py!"2", py!"STAR or STAR Common Route"),
   (py!"3", py!"STAR Runway Transition"),
   (py!"4", py!"RNAV STAR Enroute Transition"),
   (py!"5", py!"RNAV STAR or STAR Common Route"),
   (py!"6", py!"RNAV STAR Runway Transition"),
   (py!"7", py!"Profile Descent Enroute Transition"),
   (py!"8", py!"Profile Descent Common Route"),
   (py!"9", py!"Profile Descent Runway Transition"),
   (py!"F", py!"FMS STAR Enroute Transition"),
   (py!"M", py!"FMS STAR or STAR Common Route"),
   (py!"S", py!"FMS STAR Runway Transition"),
   (py!"R", py!"RNP STAR Enroute Transition"),
   (py!"N", py!"RNP STAR or STAR Common Route"),
   (py!"P", py!"RNP STAR Runway Transition")]

/-- 5.7 route types of approaches (PF, HF) -/
def approachRouteTypes : List (Str × Str) :=
  [(py!"A", py!"Approach Transition"),
   (py!"B", py!"Localizer/Backcourse Approach"),
   (py!"D", py!"VORDME Approach"),
   (py!"F", py!"Flight Management System (FMS) Approach"),
   (py!"G", py!"Instrument Guidance System (IGS) Approach"),
   (py!"H", py!"Area Navigation (RNAV) Approach with Required Navigation Performance (RNP) Approach"),
   (py!"I", py!"Instrument Landing System (ILS) Approach"),
   (py!"J", py!"GNSS Landing System (GLS) Approach"),
   (py!"L", py!"Localizer Only (LOC) Approach"),
   (py!"M", py!"Microwave Landing System (MLS) Approach"),
   (py!"N", py!"Non-Directional Beacon (NDB) Approach"),
   (py!"P", py!"Global Position System (GPS) Approach"),
   (py!"Q", py!"Non-Directional Beacon + DME (NDB+DME) Approach"),
   (py!"R", py!"Area Navigation (RNAV) Approach (Note 1)"),
   (py!"S", py!"VOR Approach using VORDME/VORTAC"),
   (py!"T", py!"TACAN Approach"),
   (py!"U", py!"Simplified Directional Facility (SDF) Approach"),
   (py!"V", py!"VOR Approach"),
   (py!"W", py!"Microwave Landing System (MLS), Type A Approach"),
   (py!"X", py!"Localizer Directional Aid (LDA) Approach"),
   (py!"Y", py!"Microwave Landing System (MLS), Type B and C Approach"),
   (py!"Z", py!"Missed Approach")]

/-- 5.17 waypoint description, position 1 -/
def waypointDescription1 : List (Str × Str) :=
  [(py!"A", py!"Airport as Waypoint"),
   (py!"E", py!"Essential Waypoint"),
   (py!"F", py!"Off Airway Waypoint"),
   (py!"G", py!"Runway/Helipad as Waypoint"),
   (py!"H", py!"Heliport as Waypoint"),
   (py!"N", py!"NDB Navaid as Waypoint"),
   (py!"P", py!"Phantom Waypoint"),
   (py!"R", py!"Non-Essential Waypoint"),
   (py!"T", py!"Transition Essential Waypoint"),
   (py!"V", py!"VHF Navaid as Waypoint")]

/-- 5.17 waypoint description, position 2 -/
def waypointDescription2 : List (Str × Str) :=
  [(py!"B", py!"Flyover Waypoint: End of SID/STAR Route Type, APCH Transition or Final Approach"),
   (py!"E", py!"End of Enroute Airway or Terminal Procedure Route Type"),
   (py!"U", py!"Uncharted Airway Intersection"),
   (py!"Y", py!"Fly-Over Waypoint")]

/-- 5.17 waypoint description, position 3 -/
def waypointDescription3 : List (Str × Str) :=
  [(py!"A", py!"Unnamed Stepdown Fix After Final Approach Fix"),
   (py!"B", py!"Unnamed Stepdown Fix Before Final Approach Fix"),
   (py!"C", py!"ATC Compulsory Waypoint"),
   (py!"G", py!"Oceanic Gateway Waypoint"),
   (py!"M", py!"First Leg of Missed Approach Procedure"),
   (py!"P", py!"Path Point Fix"),
   (py!"R", py!"Fix used for turning final approach"),
   (py!"S", py!"Named Stepdown Fix")]

/-- 5.17 waypoint description, position 4 -/
def waypointDescription4 : List (Str × Str) :=
  [(py!"A", py!"Initial Approach Fix"),
   (py!"B", py!"Intermediate Approach Fix"),
   (py!"C", py!"Initial Approach Fix with Holding"),
   (py!"D", py!"Initial Approach Fix with Final Approach Course Fix"),
   (py!"E", py!"Final End Point Fix"),
   (py!"F", py!"Published Final Approach Fix or Database Final Approach Fix"),
   (py!"H", py!"Holding Fix"),
   (py!"I", py!"Final Approach Course Fix"),
   (py!"M", py!"Published Missed Approach Point Fix")]

/-- 5.21 path and termination -/
def pathTerminators : List (Str × Str) :=
  [(py!"IF", py!"Initial Fix or IF Leg."),
   (py!"TF", py!"Track to a Fix or TF Leg."),
   (py!"CF", py!"Course to a Fix or CF Leg."),
   (py!"DF", py!"Direct to a Fix or DF Leg."),
   (py!"FA", py!"Fix to an Altitude or FA Leg."),
   (py!"FC", py!"Track from a Fix for a Distance or FC Leg."),
   (py!"FD", py!"Track from a Fix to a DME Distance or FD Leg."),
   (py!"FM", py!"From a Fix to a Manual termination or FM Leg."),
   (py!"CA", py!"Course to an Altitude or CA Leg."),
   (py!"CD", py!"Course to a DME Distance or CD Leg."),
   (py!"CI", py!"Course to an Intercept or CI Leg."),
   (py!"CR", py!"Course to a Radial termination or CR Leg."),
   (py!"RF", py!"Constant Radius Arc or RF Leg."),
   (py!"AF", py!"Arc to a Fix or AF Leg."),
   (py!"VA", py!"Heading to an Altitude termination or VA Leg."),
   (py!"VD", py!"Heading to a DME Distance termination or VD Leg."),
   (py!"VI", py!"Heading to an Intercept or VI Leg."),
   (py!"VM", py!"Heading to a Manual termination or VM Leg."),
   (py!"VR", py!"Heading to a Radial termination or VR Leg."),
   (py!"PI", py!"045/180 Procedure Turn or PI Leg."),
   (py!"HA", py!"Holding pattern (Altitude Termination)"),
   (py!"HF", py!"Holding pattern (Single circuit terminating at the fix)"),
   (py!"HM", py!"Holding pattern (Manual Termination)")]

/-- 5.42 waypoint type, first column (besides N) -/
def waypointTypes1 : List (Str × Str) :=
  [(py!"C", py!"Combined Named Intersection and RNAV"),
   (py!"I", py!"Unnamed, Charted Intersection"),
   (py!"R", py!"Named Intersection"),
   (py!"U", py!"Uncharted Airway Intersection"),
   (py!"V", py!"VFR Waypoint"),
   (py!"W", py!"RNAV Waypoint")]

/-- 5.42 waypoint type, second column -/
def waypointTypes2 : List (Str × Str) :=
  [(py!"A", py!"Final Approach Fix"),
   (py!"B", py!"Initial and Final Approach Fix"),
   (py!"C", py!"Final Approach Course Fix"),
   (py!"D", py!"Intermediate Approach Fix"),
   (py!"E", py!"Off-Route intersection in FAA National Reference System"),
   (py!"F", py!"Off-Route Intersection"),
   (py!"I", py!"Initial Approach Fix"),
   (py!"K", py!"Final Approach Course Fix at Initial Approach Fix"),
   (py!"L", py!"Final Approach Course Fix at Intermediate Approach Fix"),
   (py!"M", py!"Missed Approach Fix"),
   (py!"N", py!"Initial Approach Fix and Missed Approach Fix"),
   (py!"O", py!"Oceanic Entry/Exit Waypoint"),
   (py!"P", py!"Pitch and Catch Point in the FAA High Altitude Redesign"),
   (py!"S", py!"AACAA and SUA Waypoints in the FAA High Altitude Redesign"),
   (py!"U", py!"FIR/UIR or Controlled Airspace Intersection"),
   (py!"V", py!"Latitude/Longitude Intersection, Full Degree of Latitude"),
   (py!"W", py!"Latitude/Longitude Intersection, Half Degree of Latitude")]

/-- 5.91 application types of continuation records -/
def applicationTypes : List (Str × Str) :=
  [(py!"A", py!"Standard ARINC Continuation containing notes or other formatted data"),
   (py!"B", py!"Combined Controlling Agency/Call Sign and formatted Time of Operation"),
   (py!"C", py!"Call Sign/Controlling Agency Continuation"),
   (py!"E", py!"Primary Record Extension"),
   (py!"L", py!"VHF Navaid Limitation Continuation"),
   (py!"N", py!"Sector Narrative Continuation"),
   (py!"T", py!"Time of Operations Continuation \"formatted time data\""),
   (py!"U", py!"Time of Operations Continuation \"Narrative time data\""),
   (py!"V", py!"Time of Operations Continuation, Start/End Date"),
   (py!"P", py!"Flight Planning Application Continuation"),
   (py!"Q", py!"Flight Planning Application Primary Data Continuation"),
   (py!"S", py!"Simulation Application Continuation"),
   (py!"W", py!"Airport or Heliport Procedure Data Continuation with SBAS use authorization information")]

/-- 5.101 communication types -/
def communicationTypes : List (Str × Str) :=
  [(py!"ACC", py!"Area Control Center"),
   (py!"ACP", py!"Airlift Command Post"),
   (py!"AIR", py!"Air to Air"),
   (py!"APP", py!"Approach Control"),
   (py!"ARR", py!"Arrival Control"),
   (py!"ASO", py!"Automatic Surface Observing System (ASOS)"),
   (py!"ATI", py!"Automatic Terminal Info Service (ATIS)"),
   (py!"AWI", py!"Airport Weather Information Broadcast (AWIB)"),
   (py!"AWO", py!"Automatic Weather Observing Service (AWOS)"),
   (py!"AWS", py!"Aerodrome Weather Information Services (AWIS)"),
   (py!"CLD", py!"Clearance Delivery"),
   (py!"CPT", py!"Clearance, Pre-Taxi"),
   (py!"CTA", py!"Control Area (Terminal)"),
   (py!"CTL", py!"Control"),
   (py!"DEP", py!"Departure Control"),
   (py!"DIR", py!"Director (Approach Control Radar)"),
   (py!"EFS", py!"Enroute Flight Advisory Service (EFAS)"),
   (py!"EMR", py!"Emergency"),
   (py!"FSS", py!"Flight Service Station"),
   (py!"GCO", py!"Ground Comm Outlet"),
   (py!"GND", py!"Ground Control"),
   (py!"GTE", py!"Gate Control"),
   (py!"HEL", py!"Helicopter Frequency"),
   (py!"INF", py!"Information"),
   (py!"MIL", py!"Military Frequency"),
   (py!"MUL", py!"Multicom"),
   (py!"OPS", py!"Operations"),
   (py!"PAL", py!"Pilot Activated Lighting (Note 1)"),
   (py!"RDO", py!"Radio"),
   (py!"RDR", py!"Radar"),
   (py!"RFS", py!"Remote Flight Service Station (RFSS)"),
   (py!"RMP", py!"Ramp/Taxi Control"),
   (py!"RSA", py!"Airport Radar Service Area (ARSA)"),
   (py!"TCA", py!"Terminal Control Area"),
   (py!"TMA", py!"Terminal Control Area"),
   (py!"TML", py!"Terminal"),
   (py!"TRS", py!"Terminal Radar Service Area (TRSA)"),
   (py!"TWE", py!"Transcribe Weather Broadcast (TWEB)"),
   (py!"TWR", py!"Tower, Air Traffic Control"),
   (py!"UAC", py!"Upper Area Control"),
   (py!"UNI", py!"Unicom"),
   (py!"VOL", py!"Volmet")]

/-- 5.104 frequency units -/
def frequencyUnits : List (Str × Str) :=
  [(py!"H", py!"High Frequency (3000 kHz - 30,000 kHz)"),
   (py!"V", py!"Very High Frequency (30,000 kHz - 200 MHz)"),
   (py!"U", py!"Ultra High Frequency (200 MHz - 3000 MHz)"),
   (py!"C", py!"Communication Channel for 8.33 kHz spacing")]

/-- 5.106 service indicators -/
def serviceIndicators : List (Str × Str) :=
  [(py!"A  ", py!"Airport Advisory Serivce (AAS)"),
   (py!"C  ", py!"Community Aerodrome Radio Station (CARS)"),
   (py!"D  ", py!"Departure Service (Other than Departure Control Unit)"),
   (py!"F  ", py!"Flight Information Serivce (FIS)"),
   (py!"I  ", py!"Initial Contact (IC)"),
   (py!"L  ", py!"Arrival Service (Other than Arrival Control Unit)"),
   (py!"P  ", py!"Pre-Departure Clearance (Data Link Service)"),
   (py!"S  ", py!"Aerodrome Flight Information Service (AFIS)"),
   (py!"T  ", py!"Terminal Area Control (Other than dedicated Terminal Control Unit)"),
   (py!" A ", py!"Aerodrome Traffic Frequency (ATF)"),
   (py!" C ", py!"Common Traffic Advisory Frequency (CTAF)"),
   (py!" M ", py!"Mandatory Frequency (MF) "),
   (py!" R ", py!"Air/Air"),
   (py!" S ", py!"Secondary Frequency"),
   (py!"  A", py!"Air/Ground"),
   (py!"  D", py!"VHF Direction Finding Service (VDF)"),
   (py!"  G", py!"Remote Communications Air to Ground (RCAG)"),
   (py!"  L", py!"Language other than English"),
   (py!"  M", py!"Military Use Frequency"),
   (py!"  P", py!"Pilot Controlled Light (PCL)"),
   (py!"  R", py!"Remote Communications Outlet (RCO)")]

/-- 5.181 H24 indicator -/
def h24Indicators : List (Str × Str) :=
  [(py!"Y", py!"24-Hour Availability"),
   (py!"N", py!"Part-time Availability")]

/-- 5.196 name format indicator, first column -/
def nameFormats1 : List (Str × Str) :=
  [(py!"A", py!"Abeam Fix"),
   (py!"B", py!"Bearing and Distance Fix "),
   (py!"D", py!"Airport Name as Fix"),
   (py!"F", py!"FIR Fix"),
   (py!"H", py!"Phonetic Letter Name Fix"),
   (py!"I", py!"Airport Ident as Fix"),
   (py!"L", py!"Latitude/Longitude Fix "),
   (py!"M", py!"Multiple Word Name Fix"),
   (py!"N", py!"Navaid Ident as Fix"),
   (py!"P", py!"Published Five - Letter - Name - Fix"),
   (py!"Q", py!"Published Name Fix, less than five letters"),
   (py!"R", py!"Published Name Fix, more than five letters"),
   (py!"T", py!"Airport/Rwy Related Fix (Note 2)"),
   (py!"U", py!"UIR Fix")]

/-- 5.196 name format indicator, second column -/
def nameFormats2 : List (Str × Str) :=
  [(py!"O", py!"Localizer Marker with officially published five - letter identifier"),
   (py!"M", py!"Localizer Marker without officially published five - letter identifier")]

/-- 5.198 modulation -/
def modulations : List (Str × Str) :=
  [(py!"A", py!"Amplitude Modulated"),
   (py!"F", py!"Frequency Modulated")]

/-- 5.199 signal emission -/
def signalEmissions : List (Str × Str) :=
  [(py!"3", py!"Double Sideband (A3) "),
   (py!"A", py!"Single sideband, reduced carrier (A3A) "),
   (py!"B", py!"Two Independent sidebands (A3B)"),
   (py!"H", py!"Single sideband, full carrier (A3H) "),
   (py!"J", py!"Single sideband, suppressed carrier (A3J)"),
   (py!"L", py!"Lower (single) sideband, carrier unknown"),
   (py!"U", py!"Upper (single) sideband, carrier unknown")]

/-- what a value outside the documented codes decodes to -/
inductive Otherwise where
  /-- the same text for all -/
  | text (s : Str)
  /-- this text followed by the value -/
  | prefixed (s : Str)
  /-- the value itself -/
  | same
  /-- `Unsupported Value: "..."` -/
  | unsupported
  /-- `ValueError` -/
  | raises

/-- A field whose value is one of a list of codes. -/
structure CodeField where
  fn : DecFn
  codes : List (Str × Str)
  /-- a blank value is shown as it is -/
  blank : Bool
  otherwise : Otherwise

/-- the fields whose whole value is a code -/
def codeFields : List CodeField :=
  [⟨.f002, [(py!"S", py!"Standard"), (py!"T", py!"Tailored")], false, .raises⟩,
   ⟨.f003, areaCodes, false, .text (py!"<UNKNOWN>")⟩,
   ⟨.f004, sectionCodes, true, .text (py!"<UNKNOWN>")⟩,
   ⟨.f020, [(py!"R", py!"Right"), (py!"L", py!"Left"), (py!"E", py!"Either"), (py!" ", py!"Either")], false,
     .raises⟩,
   ⟨.f049, [(py!"@", py!"Beyond stop end of runway"), (py!"+", py!"Ahead of approach end of runway"),
     (py!"-", py!"To the side of runway")], false, .same⟩,
   ⟨.f091, applicationTypes, false, .prefixed (py!"Unknown Application Type: ")⟩,
   ⟨.f101, communicationTypes, false, .text (py!"<UNKNOWN>")⟩,
   ⟨.f102, [(py!"R", py!"Radar Capabilities"), (py!"N", py!"No Radar Capabilities")], false, .same⟩,
   ⟨.f104, frequencyUnits, false, .text (py!"<UNKNOWN>")⟩,
   ⟨.f106, serviceIndicators, true, .text (py!"<UNKNOWN>")⟩,
   ⟨.f108, [(py!"Y", py!"Official"), (py!"N", py!"Non-official")], false, .raises⟩,
   ⟨.f112, [(py!"E", py!"Elliptical"), (py!"B", py!"Bone")], false, .same⟩,
   ⟨.f113, [(py!"H", py!"High Power (general use)"), (py!"L", py!"Low Power (low altitude use)")], false, .same⟩,
   ⟨.f117, [(py!"F", py!"FIR"), (py!"U", py!"UIR"), (py!"B", py!"Combined FIR/UIR")], false, .same⟩,
   ⟨.f165, [(py!"M", py!"Magnetic"), (py!"T", py!"True")], false, .same⟩,
   ⟨.f177, [(py!"C", py!"Public / Civil"), (py!"M", py!"Military"), (py!"P", py!"Private (not open to public)")],
     false, .unsupported⟩,
   ⟨.f179, [(py!"Y", py!"Yes"), (py!"N", py!"No")], false, .unsupported⟩,
   ⟨.f181, h24Indicators, false, .text (py!"<UNKNOWN>")⟩,
   ⟨.f182, [(py!"G", py!"Guard (radio receives on this freq)"), (py!"T", py!"Transmit (radio transmits on this freq)"),
     (py!" ", py!"Guards and Transmits")], false, .raises⟩,
   ⟨.f198, modulations, false, .text (py!"<UNKNOWN>")⟩,
   ⟨.f199, signalEmissions, true, .text (py!"<UNKNOWN>")⟩,
   ⟨.f270, [(py!"I", py!"ILS or MLS Glideslope"), (py!"R", py!"RNAV Procedure"),
     (py!"V", py!"Visual Glideslope Indicator (VGSI)"), (py!"D", py!"Default Value (40 or 50 feet)"),
     (py!" ", py!" ")], false, .raises⟩]

/-- what a value that is not documented decodes to -/
def ShowsOther [PyUnicode] (fn : DecFn) (v : Str) : Otherwise → Prop
  | .text s => Shows fn v s
  | .prefixed s => Shows fn v (s ++ v)
  | .same => Shows fn v v
  | .unsupported => Shows fn v (py!"Unsupported Value: \"" ++ v ++ py!"\"")
  | .raises => Rejects fn v

/-- two documented codes of a field that have the same description -/
def synonyms : List (DecFn × Str × Str) :=
  [(.f020, py!"E", py!" "), (.f020, py!" ", py!"E"),
   (.f101, py!"TCA", py!"TMA"), (.f101, py!"TMA", py!"TCA")]

/-- the documented route types of a section -/
def routeTypesOf (section_ : Str) : List (Str × Str) :=
  if section_ = py!"ER" then airwayRouteTypes
  else if section_ = py!"ET" then preferredRouteTypes
  else if section_ ∈ [py!"PD", py!"HD"] then sidRouteTypes
  else if section_ ∈ [py!"PE", py!"HE"] then starRouteTypes
  else if section_ ∈ [py!"PF", py!"HF"] then approachRouteTypes
  else []

/-- the descriptions a list gives for a code (none or one) -/
def described (codes : List (Str × Str)) (c : Nat) : List Str :=
  (codes.filter (fun p => p.1 = [c])).map (·.2)

/-- texts separated by newlines -/
def lines (ts : List Str) : Str := List.intercalate [10] ts

/-- 5.118 boundary via, first column -/
def boundaryVias : List (Str × Str) :=
  [(py!"C", py!"Circle"), (py!"G", py!"Great Circle"), (py!"H", py!"Rhumb Line"),
   (py!"L", py!"Counter Clockwise ARC"), (py!"R", py!"Clockwise ARC")]

/-- 5.82 waypoint usage, second column -/
def waypointUsages : List (Str × Str) :=
  [(py!"B", py!"HI and LO Altitude"), (py!"H", py!"HI Altitude"), (py!"L", py!"LO Altitude"),
   (py!" ", py!"Terminal Use Only")]

/-- 5.12 which kind of sequence number it is, by the number of characters -/
def sequenceKinds : List (Nat × Str) :=
  [(1, py!"MSA Table, TAA Table, Cruise Table"),
   (2, py!"VHF Navaid Limitation Continuation Records"),
   (3, py!"SID/STAR/Approach and Company Routes"),
   (4, py!"Enroute Airways, Preferred Routes, FIR/UIR, and Restrictive Airspace")]

/-- the decoders that interpret the value; all others show it as it is -/
def interpreted : List DecFn :=
  [.f002, .f003, .f004, .f007, .f008, .f009, .f010, .f012, .f016, .f017, .f020, .f021, .f022, .f023,
   .f024, .f025, .f026, .f027, .f029, .f030, .f032, .f034, .f039, .f042, .f043, .f045, .f048, .f049,
   .f050, .f053, .f054, .f062, .f065, .f072, .f073, .f082, .f086, .f091, .f092, .f101, .f102, .f103,
   .f104, .f106, .f108, .f112, .f113, .f117, .f118, .f123, .f127, .f135, .f147, .f161, .f165, .f177,
   .f178, .f179, .f181, .f182, .f184, .f196, .f198, .f199, .f209, .f240, .f269, .f270]

end Spec
