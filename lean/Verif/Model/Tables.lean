import Verif.Model.Types
/-!
# Look-up tables of decoder.py (GENERATED by tools/gen.py)
-/
namespace Arinc
open Py

/-- the functions `field_NNN` of decoder.py whose body is `return value` -/
def identityFns : List Nat :=
  [6, 11, 13, 14, 18, 19, 28, 31, 33, 35, 36, 37, 38, 40, 41, 44, 46, 47,
   51, 52, 55, 56, 57, 58, 59, 60, 61, 63, 64, 66, 67, 68, 69, 70, 71, 74,
   75, 76, 77, 78, 79, 80, 81, 83, 84, 85, 87, 88, 89, 90, 93, 94, 95, 96,
   97, 98, 99, 100, 105, 107, 109, 110, 111, 114, 115, 116, 119, 120, 121, 122, 124, 125,
   126, 128, 129, 130, 131, 132, 133, 134, 136, 137, 138, 139, 140, 141, 142, 143, 144, 145,
   146, 148, 149, 150, 151, 152, 153, 154, 155, 156, 157, 158, 159, 160, 162, 163, 164, 166,
   167, 168, 169, 170, 171, 172, 173, 174, 175, 176, 180, 183, 185, 186, 187, 188, 189, 190,
   191, 192, 193, 194, 195, 197, 200, 201, 202, 203, 204, 205, 206, 207, 208, 210, 211, 212,
   213, 214, 215, 216, 217, 218, 219, 220, 221, 222, 223, 224, 225, 226, 227, 228, 229, 230,
   231, 232, 233, 234, 235, 236, 237, 238, 239, 241, 242, 243, 244, 245, 246, 247, 248, 249,
   250, 251, 252, 253, 254, 255, 256, 257, 258, 259, 260, 261, 262, 263, 264, 265, 266, 267,
   268, 271, 272, 273, 274, 275, 276]

/-- decoder.py:35-58 `field_003` -/
def t003 : List (Str × Str) := [
  (py!"USA", py!"United States of America"),  -- L38
  (py!"AFR", py!"Africa"),  -- L40
  (py!"CAN", py!"Canada"),  -- L42
  (py!"EEU", py!"Eastern Europe and Asia"),  -- L44
  (py!"EUR", py!"Europe"),  -- L46
  (py!"LAM", py!"Latin America"),  -- L48
  (py!"MES", py!"Middle East"),  -- L50
  (py!"PAC", py!"Pacific"),  -- L52
  (py!"SAM", py!"Southern America"),  -- L54
  (py!"SPA", py!"South Pacific")  -- L56
]

/-- decoder.py:62-109 `field_004` -/
def t004 : List (Str × Str) := [
  (py!"AS", py!"Grid MORA"),  -- L66
  (py!"D ", py!"VHF Navaid"),  -- L67
  (py!"DB", py!"NDB Navaid"),  -- L68
  (py!"EA", py!"Waypoint"),  -- L69
  (py!"EM", py!"Airways Marker"),  -- L70
  (py!"EP", py!"Holding Pattern"),  -- L71
  (py!"ER", py!"Airways and Route"),  -- L72
  (py!"ET", py!"Preferred Route"),  -- L73
  (py!"EU", py!"Airway Restrictions"),  -- L74
  (py!"EV", py!"Enroute Communication"),  -- L75
  (py!"HA", py!"Heliport Pads"),  -- L76
  (py!"HC", py!"Heliport Terminal Waypoint"),  -- L77
  (py!"HD", py!"Heliport SID"),  -- L78
  (py!"HE", py!"Heliport STAR"),  -- L79
  (py!"HF", py!"Heliport Approach Procedure"),  -- L80
  (py!"HK", py!"Heliport TAA"),  -- L81
  (py!"HS", py!"Heliport MSA"),  -- L82
  (py!"HV", py!"Heliport Communication"),  -- L83
  (py!"PA", py!"Airport Reference Point"),  -- L84
  (py!"PB", py!"Airport Gates"),  -- L85
  (py!"PC", py!"Airport Terminal Waypoint"),  -- L86
  (py!"PD", py!"Airport SID"),  -- L87
  (py!"PE", py!"Airport STAR"),  -- L88
  (py!"PF", py!"Airport Approach Procedure"),  -- L89
  (py!"PG", py!"Airport Runway"),  -- L90
  (py!"PI", py!"Airport Localizer/Glideslope"),  -- L91
  (py!"PK", py!"Airport TAA"),  -- L92
  (py!"PL", py!"Airport MLS"),  -- L93
  (py!"PM", py!"Airport Localizer Marker"),  -- L94
  (py!"PN", py!"Airport Terminal"),  -- L95
  (py!"PP", py!"Airport Path"),  -- L96
  (py!"PR", py!"Airport Flt Planning ARR/DEP"),  -- L97
  (py!"PS", py!"Airport MSA"),  -- L98
  (py!"PT", py!"Airport GLS Station"),  -- L99
  (py!"PV", py!"Airport Communication"),  -- L100
  (py!"R ", py!"Company Route"),  -- L101
  (py!"RA", py!"Alternate Record"),  -- L102
  (py!"TC", py!"Cruising Table"),  -- L103
  (py!"TG", py!"Geographical Reference"),  -- L104
  (py!"TN", py!"RNAV Name Table"),  -- L105
  (py!"UC", py!"Controller Airspace"),  -- L106
  (py!"UF", py!"Airspace FIR/UIR"),  -- L107
  (py!"UR", py!"Restrictive Airspace")  -- L108
]

/-- decoder.py:120-128 `field_007`, branch `record.ident == 'ER'` -/
def t007_1 : List (Str × Str) := [
  (py!"A", py!"Airline Airway (Tailored Data)"),  -- L122
  (py!"C", py!"Control"),  -- L123
  (py!"D", py!"Direct Route"),  -- L124
  (py!"H", py!"Helicopter Airways"),  -- L125
  (py!"O", py!"Officially Designated Airways"),  -- L126
  (py!"R", py!"RNAV Airways"),  -- L127
  (py!"S", py!"Undesignated ATS Route")  -- L128
]

/-- decoder.py:129-135 `field_007`, branch `record.ident == 'ET'` -/
def t007_2 : List (Str × Str) := [
  (py!"C", py!"North American Routes for North Atlantic Traffic Common Portion"),  -- L131
  (py!"D", py!"Preferential Routes"),  -- L132
  (py!"J", py!"Pacific Oceanic Transition Routes (PACOTS)"),  -- L133
  (py!"M", py!"RNAV Airways"),  -- L134
  (py!"N", py!"Undesignated ATS Route")  -- L135
]

/-- decoder.py:136-152 `field_007`, branch `record.ident == 'PD' or record.ident == 'HD'` -/
def t007_3 : List (Str × Str) := [
  (py!"0", py!"Engine Out SID"),  -- L138
  (py!"1", py!"SID Runway Transition"),  -- L139
  (py!"2", py!"SID or SID Common Route"),  -- L140
  (py!"3", py!"SID Enroute Transition"),  -- L141
  (py!"4", py!"RNAV SID Runway Transition"),  -- L142
  (py!"5", py!"RNAV SID or SID Common Route"),  -- L143
  (py!"6", py!"RNAV SID Enroute Transition"),  -- L144
  (py!"F", py!"FMS SID Runway Transition"),  -- L145
  (py!"M", py!"FMS SID or SID Common Route"),  -- L146
  (py!"S", py!"FMS SID Enroute Transition"),  -- L147
  (py!"R", py!"RNP SID Runway Transition"),  -- L148
  (py!"N", py!"RNP SID or SID Common Route"),  -- L149
  (py!"P", py!"RNP SID Enroute Transition"),  -- L150
  (py!"T", py!"Vector SID Runway Transition"),  -- L151
  (py!"V", py!"Vector SID Enroute Transition")  -- L152
]

/-- decoder.py:153-169 `field_007`, branch `record.ident == 'PE' or record.ident == 'HE'` -/
def t007_4 : List (Str × Str) := [
  (py!"1", py!"STAR Enroute Transition"),  -- L155
  (py!"2", py!"STAR or STAR Common Route"),  -- L156
  (py!"3", py!"STAR Runway Transition"),  -- L157
  (py!"4", py!"RNAV STAR Enroute Transition"),  -- L158
  (py!"5", py!"RNAV STAR or STAR Common Route"),  -- L159
  (py!"6", py!"RNAV STAR Runway Transition"),  -- L160
  (py!"7", py!"Profile Descent Enroute Transition"),  -- L161
  (py!"8", py!"Profile Descent Common Route"),  -- L162
  (py!"9", py!"Profile Descent Runway Transition"),  -- L163
  (py!"F", py!"FMS STAR Enroute Transition"),  -- L164
  (py!"M", py!"FMS STAR or STAR Common Route"),  -- L165
  (py!"S", py!"FMS STAR Runway Transition"),  -- L166
  (py!"R", py!"RNP STAR Enroute Transition"),  -- L167
  (py!"N", py!"RNP STAR or STAR Common Route"),  -- L168
  (py!"P", py!"RNP STAR Runway Transition")  -- L169
]

/-- decoder.py:170-193 `field_007`, branch `record.ident == 'PF' or record.ident == 'HF'` -/
def t007_5 : List (Str × Str) := [
  (py!"A", py!"Approach Transition"),  -- L172
  (py!"B", py!"Localizer/Backcourse Approach"),  -- L173
  (py!"D", py!"VORDME Approach"),  -- L174
  (py!"F", py!"Flight Management System (FMS) Approach"),  -- L175
  (py!"G", py!"Instrument Guidance System (IGS) Approach"),  -- L176
  (py!"H", py!"Area Navigation (RNAV) Approach with Required Navigation Performance (RNP) Approach"),  -- L177
  (py!"I", py!"Instrument Landing System (ILS) Approach"),  -- L178
  (py!"J", py!"GNSS Landing System (GLS) Approach"),  -- L179
  (py!"L", py!"Localizer Only (LOC) Approach"),  -- L180
  (py!"M", py!"Microwave Landing System (MLS) Approach"),  -- L181
  (py!"N", py!"Non-Directional Beacon (NDB) Approach"),  -- L182
  (py!"P", py!"Global Position System (GPS) Approach"),  -- L183
  (py!"Q", py!"Non-Directional Beacon + DME (NDB+DME) Approach"),  -- L184
  (py!"R", py!"Area Navigation (RNAV) Approach (Note 1)"),  -- L185
  (py!"S", py!"VOR Approach using VORDME/VORTAC"),  -- L186
  (py!"T", py!"TACAN Approach"),  -- L187
  (py!"U", py!"Simplified Directional Facility (SDF) Approach"),  -- L188
  (py!"V", py!"VOR Approach"),  -- L189
  (py!"W", py!"Microwave Landing System (MLS), Type A Approach"),  -- L190
  (py!"X", py!"Localizer Directional Aid (LDA) Approach"),  -- L191
  (py!"Y", py!"Microwave Landing System (MLS), Type B and C Approach"),  -- L192
  (py!"Z", py!"Missed Approach")  -- L193
]

/-- decoder.py:259-279 `field_017`, `match value[0]`; each text is followed by a newline -/
def t017_0 : List (Str × Str) := [
  (py!"A", py!"Airport as Waypoint"),  -- L261
  (py!"E", py!"Essential Waypoint"),  -- L263
  (py!"F", py!"Off Airway Waypoint"),  -- L265
  (py!"G", py!"Runway/Helipad as Waypoint"),  -- L267
  (py!"H", py!"Heliport as Waypoint"),  -- L269
  (py!"N", py!"NDB Navaid as Waypoint"),  -- L271
  (py!"P", py!"Phantom Waypoint"),  -- L273
  (py!"R", py!"Non-Essential Waypoint"),  -- L275
  (py!"T", py!"Transition Essential Waypoint"),  -- L277
  (py!"V", py!"VHF Navaid as Waypoint")  -- L279
]

/-- decoder.py:281-289 `field_017`, `match value[1]`; each text is followed by a newline -/
def t017_1 : List (Str × Str) := [
  (py!"B", py!"Flyover Waypoint: End of SID/STAR Route Type, APCH Transition or Final Approach"),  -- L283
  (py!"E", py!"End of Enroute Airway or Terminal Procedure Route Type"),  -- L285
  (py!"U", py!"Uncharted Airway Intersection"),  -- L287
  (py!"Y", py!"Fly-Over Waypoint")  -- L289
]

/-- decoder.py:291-307 `field_017`, `match value[2]`; each text is followed by a newline -/
def t017_2 : List (Str × Str) := [
  (py!"A", py!"Unnamed Stepdown Fix After Final Approach Fix"),  -- L293
  (py!"B", py!"Unnamed Stepdown Fix Before Final Approach Fix"),  -- L295
  (py!"C", py!"ATC Compulsory Waypoint"),  -- L297
  (py!"G", py!"Oceanic Gateway Waypoint"),  -- L299
  (py!"M", py!"First Leg of Missed Approach Procedure"),  -- L301
  (py!"P", py!"Path Point Fix"),  -- L303
  (py!"R", py!"Fix used for turning final approach"),  -- L305
  (py!"S", py!"Named Stepdown Fix")  -- L307
]

/-- decoder.py:309-327 `field_017`, `match value[3]`; each text is followed by a newline -/
def t017_3 : List (Str × Str) := [
  (py!"A", py!"Initial Approach Fix"),  -- L311
  (py!"B", py!"Intermediate Approach Fix"),  -- L313
  (py!"C", py!"Initial Approach Fix with Holding"),  -- L315
  (py!"D", py!"Initial Approach Fix with Final Approach Course Fix"),  -- L317
  (py!"E", py!"Final End Point Fix"),  -- L319
  (py!"F", py!"Published Final Approach Fix or Database Final Approach Fix"),  -- L321
  (py!"H", py!"Holding Fix"),  -- L323
  (py!"I", py!"Final Approach Course Fix"),  -- L325
  (py!"M", py!"Published Missed Approach Point Fix")  -- L327
]

/-- decoder.py:357-379, module-level `LegTypeDesc` after import -/
def legTypeDesc : List (Str × Str) := [
  (py!"IF", py!"Initial Fix or IF Leg."),  -- L357
  (py!"TF", py!"Track to a Fix or TF Leg."),  -- L358
  (py!"CF", py!"Course to a Fix or CF Leg."),  -- L359
  (py!"DF", py!"Direct to a Fix or DF Leg."),  -- L360
  (py!"FA", py!"Fix to an Altitude or FA Leg."),  -- L361
  (py!"FC", py!"Track from a Fix for a Distance or FC Leg."),  -- L362
  (py!"FD", py!"Track from a Fix to a DME Distance or FD Leg."),  -- L363
  (py!"FM", py!"From a Fix to a Manual termination or FM Leg."),  -- L364
  (py!"CA", py!"Course to an Altitude or CA Leg."),  -- L365
  (py!"CD", py!"Course to a DME Distance or CD Leg."),  -- L366
  (py!"CI", py!"Course to an Intercept or CI Leg."),  -- L367
  (py!"CR", py!"Course to a Radial termination or CR Leg."),  -- L368
  (py!"RF", py!"Constant Radius Arc or RF Leg."),  -- L369
  (py!"AF", py!"Arc to a Fix or AF Leg."),  -- L370
  (py!"VA", py!"Heading to an Altitude termination or VA Leg."),  -- L371
  (py!"VD", py!"Heading to a DME Distance termination or VD Leg."),  -- L372
  (py!"VI", py!"Heading to an Intercept or VI Leg."),  -- L373
  (py!"VM", py!"Heading to a Manual termination or VM Leg."),  -- L374
  (py!"VR", py!"Heading to a Radial termination or VR Leg."),  -- L375
  (py!"PI", py!"045/180 Procedure Turn or PI Leg."),  -- L376
  (py!"HA", py!"Holding pattern (Altitude Termination)"),  -- L377
  (py!"HF", py!"Holding pattern (Single circuit terminating at the fix)"),  -- L378
  (py!"HM", py!"Holding pattern (Manual Termination)")  -- L379
]

/-- decoder.py:570-584 `field_042`, `match value[0]` (without the case 'N') -/
def t042_0 : List (Str × Str) := [
  (py!"C", py!"Combined Named Intersection and RNAV"),  -- L572
  (py!"I", py!"Unnamed, Charted Intersection"),  -- L574
  (py!"R", py!"Named Intersection"),  -- L578
  (py!"U", py!"Uncharted Airway Intersection"),  -- L580
  (py!"V", py!"VFR Waypoint"),  -- L582
  (py!"W", py!"RNAV Waypoint")  -- L584
]

/-- decoder.py:585-621 `field_042`, `match value[1]` -/
def t042_1 : List (Str × Str) := [
  (py!"A", py!"Final Approach Fix"),  -- L587
  (py!"B", py!"Initial and Final Approach Fix"),  -- L589
  (py!"C", py!"Final Approach Course Fix"),  -- L591
  (py!"D", py!"Intermediate Approach Fix"),  -- L593
  (py!"E", py!"Off-Route intersection in FAA National Reference System"),  -- L595
  (py!"F", py!"Off-Route Intersection"),  -- L597
  (py!"I", py!"Initial Approach Fix"),  -- L599
  (py!"K", py!"Final Approach Course Fix at Initial Approach Fix"),  -- L601
  (py!"L", py!"Final Approach Course Fix at Intermediate Approach Fix"),  -- L603
  (py!"M", py!"Missed Approach Fix"),  -- L605
  (py!"N", py!"Initial Approach Fix and Missed Approach Fix"),  -- L607
  (py!"O", py!"Oceanic Entry/Exit Waypoint"),  -- L609
  (py!"P", py!"Pitch and Catch Point in the FAA High Altitude Redesign"),  -- L611
  (py!"S", py!"AACAA and SUA Waypoints in the FAA High Altitude Redesign"),  -- L613
  (py!"U", py!"FIR/UIR or Controlled Airspace Intersection"),  -- L615
  (py!"V", py!"Latitude/Longitude Intersection, Full Degree of Latitude"),  -- L617
  (py!"W", py!"Latitude/Longitude Intersection, Half Degree of Latitude")  -- L619
]

/-- decoder.py:908-937 `field_091` -/
def t091 : List (Str × Str) := [
  (py!"A", py!"Standard ARINC Continuation containing notes or other formatted data"),  -- L911
  (py!"B", py!"Combined Controlling Agency/Call Sign and formatted Time of Operation"),  -- L913
  (py!"C", py!"Call Sign/Controlling Agency Continuation"),  -- L915
  (py!"E", py!"Primary Record Extension"),  -- L917
  (py!"L", py!"VHF Navaid Limitation Continuation"),  -- L919
  (py!"N", py!"Sector Narrative Continuation"),  -- L921
  (py!"T", py!"Time of Operations Continuation \"formatted time data\""),  -- L923
  (py!"U", py!"Time of Operations Continuation \"Narrative time data\""),  -- L925
  (py!"V", py!"Time of Operations Continuation, Start/End Date"),  -- L927
  (py!"P", py!"Flight Planning Application Continuation"),  -- L929
  (py!"Q", py!"Flight Planning Application Primary Data Continuation"),  -- L931
  (py!"S", py!"Simulation Application Continuation"),  -- L933
  (py!"W", py!"Airport or Heliport Procedure Data Continuation with SBAS use authorization information")  -- L935
]

/-- decoder.py:986-1030 `field_101` -/
def t101 : List (Str × Str) := [
  (py!"ACC", py!"Area Control Center"),  -- L988
  (py!"ACP", py!"Airlift Command Post"),  -- L989
  (py!"AIR", py!"Air to Air"),  -- L990
  (py!"APP", py!"Approach Control"),  -- L991
  (py!"ARR", py!"Arrival Control"),  -- L992
  (py!"ASO", py!"Automatic Surface Observing System (ASOS)"),  -- L993
  (py!"ATI", py!"Automatic Terminal Info Service (ATIS)"),  -- L994
  (py!"AWI", py!"Airport Weather Information Broadcast (AWIB)"),  -- L995
  (py!"AWO", py!"Automatic Weather Observing Service (AWOS)"),  -- L996
  (py!"AWS", py!"Aerodrome Weather Information Services (AWIS)"),  -- L997
  (py!"CLD", py!"Clearance Delivery"),  -- L998
  (py!"CPT", py!"Clearance, Pre-Taxi"),  -- L999
  (py!"CTA", py!"Control Area (Terminal)"),  -- L1000
  (py!"CTL", py!"Control"),  -- L1001
  (py!"DEP", py!"Departure Control"),  -- L1002
  (py!"DIR", py!"Director (Approach Control Radar)"),  -- L1003
  (py!"EFS", py!"Enroute Flight Advisory Service (EFAS)"),  -- L1004
  (py!"EMR", py!"Emergency"),  -- L1005
  (py!"FSS", py!"Flight Service Station"),  -- L1006
  (py!"GCO", py!"Ground Comm Outlet"),  -- L1007
  (py!"GND", py!"Ground Control"),  -- L1008
  (py!"GTE", py!"Gate Control"),  -- L1009
  (py!"HEL", py!"Helicopter Frequency"),  -- L1010
  (py!"INF", py!"Information"),  -- L1011
  (py!"MIL", py!"Military Frequency"),  -- L1012
  (py!"MUL", py!"Multicom"),  -- L1013
  (py!"OPS", py!"Operations"),  -- L1014
  (py!"PAL", py!"Pilot Activated Lighting (Note 1)"),  -- L1015
  (py!"RDO", py!"Radio"),  -- L1016
  (py!"RDR", py!"Radar"),  -- L1017
  (py!"RFS", py!"Remote Flight Service Station (RFSS)"),  -- L1018
  (py!"RMP", py!"Ramp/Taxi Control"),  -- L1019
  (py!"RSA", py!"Airport Radar Service Area (ARSA)"),  -- L1020
  (py!"TCA", py!"Terminal Control Area"),  -- L1021
  (py!"TMA", py!"Terminal Control Area"),  -- L1022
  (py!"TML", py!"Terminal"),  -- L1023
  (py!"TRS", py!"Terminal Radar Service Area (TRSA)"),  -- L1024
  (py!"TWE", py!"Transcribe Weather Broadcast (TWEB)"),  -- L1025
  (py!"TWR", py!"Tower, Air Traffic Control"),  -- L1026
  (py!"UAC", py!"Upper Area Control"),  -- L1027
  (py!"UNI", py!"Unicom"),  -- L1028
  (py!"VOL", py!"Volmet")  -- L1029
]

/-- decoder.py:1053-1059 `field_104` -/
def t104 : List (Str × Str) := [
  (py!"H", py!"High Frequency (3000 kHz - 30,000 kHz)"),  -- L1055
  (py!"V", py!"Very High Frequency (30,000 kHz - 200 MHz)"),  -- L1056
  (py!"U", py!"Ultra High Frequency (200 MHz - 3000 MHz)"),  -- L1057
  (py!"C", py!"Communication Channel for 8.33 kHz spacing")  -- L1058
]

/-- decoder.py:1068-1093 `field_106` -/
def t106 : List (Str × Str) := [
  (py!"A  ", py!"Airport Advisory Serivce (AAS)"),  -- L1072
  (py!"C  ", py!"Community Aerodrome Radio Station (CARS)"),  -- L1073
  (py!"D  ", py!"Departure Service (Other than Departure Control Unit)"),  -- L1074
  (py!"F  ", py!"Flight Information Serivce (FIS)"),  -- L1075
  (py!"I  ", py!"Initial Contact (IC)"),  -- L1076
  (py!"L  ", py!"Arrival Service (Other than Arrival Control Unit)"),  -- L1077
  (py!"P  ", py!"Pre-Departure Clearance (Data Link Service)"),  -- L1078
  (py!"S  ", py!"Aerodrome Flight Information Service (AFIS)"),  -- L1079
  (py!"T  ", py!"Terminal Area Control (Other than dedicated Terminal Control Unit)"),  -- L1080
  (py!" A ", py!"Aerodrome Traffic Frequency (ATF)"),  -- L1081
  (py!" C ", py!"Common Traffic Advisory Frequency (CTAF)"),  -- L1082
  (py!" M ", py!"Mandatory Frequency (MF) "),  -- L1083
  (py!" R ", py!"Air/Air"),  -- L1084
  (py!" S ", py!"Secondary Frequency"),  -- L1085
  (py!"  A", py!"Air/Ground"),  -- L1086
  (py!"  D", py!"VHF Direction Finding Service (VDF)"),  -- L1087
  (py!"  G", py!"Remote Communications Air to Ground (RCAG)"),  -- L1088
  (py!"  L", py!"Language other than English"),  -- L1089
  (py!"  M", py!"Military Use Frequency"),  -- L1090
  (py!"  P", py!"Pilot Controlled Light (PCL)"),  -- L1091
  (py!"  R", py!"Remote Communications Outlet (RCO)")  -- L1092
]

/-- decoder.py:1539-1543 `field_181` -/
def t181 : List (Str × Str) := [
  (py!"Y", py!"24-Hour Availability"),  -- L1541
  (py!"N", py!"Part-time Availability")  -- L1542
]

/-- decoder.py:1626-1654 `field_196`, `match value[0]` -/
def t196_0 : List (Str × Str) := [
  (py!"A", py!"Abeam Fix"),  -- L1628
  (py!"B", py!"Bearing and Distance Fix "),  -- L1630
  (py!"D", py!"Airport Name as Fix"),  -- L1632
  (py!"F", py!"FIR Fix"),  -- L1634
  (py!"H", py!"Phonetic Letter Name Fix"),  -- L1636
  (py!"I", py!"Airport Ident as Fix"),  -- L1638
  (py!"L", py!"Latitude/Longitude Fix "),  -- L1640
  (py!"M", py!"Multiple Word Name Fix"),  -- L1642
  (py!"N", py!"Navaid Ident as Fix"),  -- L1644
  (py!"P", py!"Published Five - Letter - Name - Fix"),  -- L1646
  (py!"Q", py!"Published Name Fix, less than five letters"),  -- L1648
  (py!"R", py!"Published Name Fix, more than five letters"),  -- L1650
  (py!"T", py!"Airport/Rwy Related Fix (Note 2)"),  -- L1652
  (py!"U", py!"UIR Fix")  -- L1654
]

/-- decoder.py:1655-1661 `field_196`, `match value[1]` -/
def t196_1 : List (Str × Str) := [
  (py!"O", py!"Localizer Marker with officially published five - letter identifier"),  -- L1657
  (py!"M", py!"Localizer Marker without officially published five - letter identifier")  -- L1659
]

/-- decoder.py:1670-1674 `field_198` -/
def t198 : List (Str × Str) := [
  (py!"A", py!"Amplitude Modulated"),  -- L1672
  (py!"F", py!"Frequency Modulated")  -- L1673
]

/-- decoder.py:1678-1689 `field_199` -/
def t199 : List (Str × Str) := [
  (py!"3", py!"Double Sideband (A3) "),  -- L1682
  (py!"A", py!"Single sideband, reduced carrier (A3A) "),  -- L1683
  (py!"B", py!"Two Independent sidebands (A3B)"),  -- L1684
  (py!"H", py!"Single sideband, full carrier (A3H) "),  -- L1685
  (py!"J", py!"Single sideband, suppressed carrier (A3J)"),  -- L1686
  (py!"L", py!"Lower (single) sideband, carrier unknown"),  -- L1687
  (py!"U", py!"Upper (single) sideband, carrier unknown")  -- L1688
]

end Arinc
