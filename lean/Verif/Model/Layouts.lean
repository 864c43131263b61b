import Verif.Model.Types
/-!
# Field layouts (GENERATED by tools/gen.py from /repo/src/arinc424/definitions/*.py)

One definition per `read_*` method, one row per `Field(...)`; the comment after a
row is its source line.
-/
namespace Arinc
open Py

/-- definitions/Airport.py:33-63 `Airport.read_primary` -/
def Airport.read_primary : Layout := [
  ⟨py!"Record Type", .at 0, .f002⟩,  -- L35
  ⟨py!"Customer / Area Code", .range 1 4, .f003⟩,  -- L36
  ⟨py!"Section Code", .pair 4 12, .f004⟩,  -- L37
  ⟨py!"Airport ICAO Identifier", .range 6 10, .ident 6⟩,  -- L38
  ⟨py!"ICAO Code", .range 10 12, .ident 14⟩,  -- L39
  ⟨py!"ATA/IATA Designator", .range 13 16, .ident 107⟩,  -- L40
  ⟨py!"Continuation Record No", .at 21, .f016⟩,  -- L41
  ⟨py!"Speed Limit Altitude", .range 22 27, .f073⟩,  -- L42
  ⟨py!"Longest Runway", .range 27 30, .f054⟩,  -- L43
  ⟨py!"IFR Capability", .at 30, .f108⟩,  -- L44
  ⟨py!"Longest Runway Surface Code", .at 31, .ident 249⟩,  -- L45
  ⟨py!"Airport Reference Pt. Latitude", .range 32 41, .ident 36⟩,  -- L46
  ⟨py!"Airport Reference Pt. Longitude", .range 41 51, .ident 37⟩,  -- L47
  ⟨py!"Magnetic Variation", .range 51 56, .f039⟩,  -- L48
  ⟨py!"Airport Elevation", .range 56 61, .ident 55⟩,  -- L49
  ⟨py!"Speed Limit", .range 61 64, .f072⟩,  -- L50
  ⟨py!"Recommended Navaid", .range 64 68, .f023⟩,  -- L51
  ⟨py!"ICAO Code (2)", .range 68 70, .ident 14⟩,  -- L52
  ⟨py!"Transition Altitude", .range 70 75, .f053⟩,  -- L53
  ⟨py!"Transition Level", .range 75 80, .f053⟩,  -- L54
  ⟨py!"Public Military Indicator", .at 80, .f177⟩,  -- L55
  ⟨py!"Time Zone", .range 81 84, .f178⟩,  -- L56
  ⟨py!"Daylight Indicator", .at 84, .f179⟩,  -- L57
  ⟨py!"Magnetic/True Indicator", .at 85, .f165⟩,  -- L58
  ⟨py!"Datum Code", .range 86 89, .ident 197⟩,  -- L59
  ⟨py!"Airport Name", .range 93 123, .ident 71⟩,  -- L60
  ⟨py!"File Record No", .range 123 128, .ident 31⟩,  -- L61
  ⟨py!"Cycle Date", .range 128 132, .f032⟩  -- L62
]

/-- definitions/Airport.py:66-79 `Airport.read_cont` -/
def Airport.read_cont : Layout := [
  ⟨py!"Record Type", .at 0, .f002⟩,  -- L68
  ⟨py!"Customer / Area Code", .range 1 4, .f003⟩,  -- L69
  ⟨py!"Section Code", .pair 4 12, .f004⟩,  -- L70
  ⟨py!"Airport ICAO Identifier", .range 6 10, .ident 6⟩,  -- L71
  ⟨py!"ICAO Code", .range 10 12, .ident 14⟩,  -- L72
  ⟨py!"ATA/IATA Designator", .range 13 16, .ident 107⟩,  -- L73
  ⟨py!"Continuation Record No", .at 21, .f016⟩,  -- L74
  ⟨py!"Application Type", .at 22, .f091⟩,  -- L75
  ⟨py!"Notes", .range 23 92, .ident 61⟩,  -- L76
  ⟨py!"File Record No", .range 123 128, .ident 31⟩,  -- L77
  ⟨py!"Cycle Date", .range 128 132, .f032⟩  -- L78
]

/-- definitions/Airport.py:87-106 `Airport.read_flight0` -/
def Airport.read_flight0 : Layout := [
  ⟨py!"Record Type", .at 0, .f002⟩,  -- L89
  ⟨py!"Customer / Area Code", .range 1 4, .f003⟩,  -- L90
  ⟨py!"Section Code", .pair 4 12, .f004⟩,  -- L91
  ⟨py!"Heliport Identifier", .range 6 10, .ident 6⟩,  -- L92
  ⟨py!"ICAO Code", .range 10 12, .ident 14⟩,  -- L93
  ⟨py!"ATA/IATA Designator", .range 13 16, .ident 107⟩,  -- L94
  ⟨py!"Continuation Record No", .at 21, .f016⟩,  -- L95
  ⟨py!"Application Type", .at 22, .f091⟩,  -- L96
  ⟨py!"FIR Identifier", .range 23 27, .ident 116⟩,  -- L97
  ⟨py!"UIR Identifier", .range 27 31, .ident 116⟩,  -- L98
  ⟨py!"Start/End Indicator", .at 31, .ident 152⟩,  -- L99
  ⟨py!"Start/End Date/Time", .range 32 43, .ident 153⟩,  -- L100
  ⟨py!"Controlled A/S Indicator", .at 66, .ident 217⟩,  -- L101
  ⟨py!"Controlled A/S Airport Ident", .range 67 71, .ident 6⟩,  -- L102
  ⟨py!"Controlled A/S Airport ICAO", .range 71 73, .ident 14⟩,  -- L103
  ⟨py!"File Record No", .range 123 128, .ident 31⟩,  -- L104
  ⟨py!"Cycle Date", .range 128 132, .f032⟩  -- L105
]

/-- definitions/Airport.py:118-148 `Airport.read_flight1` -/
def Airport.read_flight1 : Layout := [
  ⟨py!"Record Type", .at 0, .f002⟩,  -- L120
  ⟨py!"Customer / Area Code", .range 1 4, .f003⟩,  -- L121
  ⟨py!"Section Code", .pair 4 12, .f004⟩,  -- L122
  ⟨py!"Airport ICAO Identifier", .range 6 10, .ident 6⟩,  -- L123
  ⟨py!"ICAO Code", .range 10 12, .ident 14⟩,  -- L124
  ⟨py!"ATA/IATA Designator", .range 13 16, .ident 107⟩,  -- L125
  ⟨py!"Continuation Record No", .at 21, .f016⟩,  -- L126
  ⟨py!"Speed Limit Altitude", .range 22 27, .f073⟩,  -- L127
  ⟨py!"Longest Runway", .range 27 30, .f054⟩,  -- L128
  ⟨py!"IFR Capability", .at 30, .f108⟩,  -- L129
  ⟨py!"Longest Runway Surface Code", .at 31, .ident 249⟩,  -- L130
  ⟨py!"Airport Reference Pt. Latitude", .range 32 41, .ident 36⟩,  -- L131
  ⟨py!"Airport Reference Pt. Longitude", .range 41 51, .ident 37⟩,  -- L132
  ⟨py!"Magnetic Variation", .range 51 56, .f039⟩,  -- L133
  ⟨py!"Airport Elevation", .range 56 61, .ident 55⟩,  -- L134
  ⟨py!"Speed Limit", .range 61 64, .f072⟩,  -- L135
  ⟨py!"Recommended Navaid", .range 64 68, .f023⟩,  -- L136
  ⟨py!"ICAO Code (2)", .range 68 70, .ident 14⟩,  -- L137
  ⟨py!"Transition Altitude", .range 70 75, .f053⟩,  -- L138
  ⟨py!"Transition Level", .range 75 80, .f053⟩,  -- L139
  ⟨py!"Public Military Indicator", .at 80, .f177⟩,  -- L140
  ⟨py!"Time Zone", .range 81 84, .f178⟩,  -- L141
  ⟨py!"Daylight Indicator", .at 84, .f179⟩,  -- L142
  ⟨py!"Magnetic/True Indicator", .at 85, .f165⟩,  -- L143
  ⟨py!"Datum Code", .range 86 89, .ident 197⟩,  -- L144
  ⟨py!"Airport Name", .range 93 123, .ident 71⟩,  -- L145
  ⟨py!"File Record No", .range 123 128, .ident 31⟩,  -- L146
  ⟨py!"Cycle Date", .range 128 132, .f032⟩  -- L147
]

/-- definitions/AirportCommunication.py:32-68 `AirportCommunication.read_primary` -/
def AirportCommunication.read_primary : Layout := [
  ⟨py!"Record Type", .at 0, .f002⟩,  -- L34
  ⟨py!"Customer / Area Code", .range 1 4, .f003⟩,  -- L35
  ⟨py!"Section Code", .pair 4 12, .f004⟩,  -- L36
  ⟨py!"Airport Identifier", .range 6 10, .ident 6⟩,  -- L37
  ⟨py!"ICAO Code", .range 10 12, .ident 14⟩,  -- L38
  ⟨py!"Communications Type", .range 13 16, .f101⟩,  -- L39
  ⟨py!"Communications Freq", .range 16 23, .f103⟩,  -- L40
  ⟨py!"Guard/Transmit", .at 23, .f182⟩,  -- L41
  ⟨py!"Frequency Units", .at 24, .f104⟩,  -- L42
  ⟨py!"Continuation Record No", .at 25, .f016⟩,  -- L43
  ⟨py!"Service Indicator", .range 26 29, .f106⟩,  -- L44
  ⟨py!"Radar Service", .at 29, .f102⟩,  -- L45
  ⟨py!"Modulation", .at 30, .f198⟩,  -- L46
  ⟨py!"Signal Emission", .at 31, .f199⟩,  -- L47
  ⟨py!"Latitude", .range 32 41, .ident 36⟩,  -- L48
  ⟨py!"Longitude", .range 41 51, .ident 37⟩,  -- L49
  ⟨py!"Magnetic Variation", .range 51 56, .f039⟩,  -- L50
  ⟨py!"Facility Elevation", .range 56 61, .f092⟩,  -- L51
  ⟨py!"H24 Indicator", .at 61, .f181⟩,  -- L52
  ⟨py!"Sectorization", .range 62 68, .ident 183⟩,  -- L53
  ⟨py!"Altitude Description", .at 68, .f029⟩,  -- L54
  ⟨py!"Communication Altitude", .range 69 74, .f184⟩,  -- L55
  ⟨py!"Communication Altitude (2)", .range 74 79, .f184⟩,  -- L56
  ⟨py!"Sector Facility", .range 79 83, .ident 185⟩,  -- L57
  ⟨py!"ICAO Code (2)", .range 83 85, .ident 14⟩,  -- L58
  ⟨py!"Section (2)", .range 85 87, .f004⟩,  -- L59
  ⟨py!"Distance Description", .at 87, .ident 187⟩,  -- L60
  ⟨py!"Communications Distance", .range 88 90, .ident 188⟩,  -- L61
  ⟨py!"Remote Facility", .range 90 94, .ident 200⟩,  -- L62
  ⟨py!"ICAO Code (3)", .range 94 96, .ident 14⟩,  -- L63
  ⟨py!"Section (3)", .range 96 98, .f004⟩,  -- L64
  ⟨py!"Call Sign", .range 98 123, .ident 105⟩,  -- L65
  ⟨py!"File Record No", .range 123 128, .ident 31⟩,  -- L66
  ⟨py!"Cycle Date", .range 128 132, .f032⟩  -- L67
]

/-- definitions/AirportCommunication.py:71-87 `AirportCommunication.read_cont_narr` -/
def AirportCommunication.read_cont_narr : Layout := [
  ⟨py!"Record Type", .at 0, .f002⟩,  -- L73
  ⟨py!"Customer / Area Code", .range 1 4, .f003⟩,  -- L74
  ⟨py!"Section Code", .pair 4 12, .f004⟩,  -- L75
  ⟨py!"Airport Identifier", .range 6 10, .ident 6⟩,  -- L76
  ⟨py!"ICAO Code", .range 10 12, .ident 14⟩,  -- L77
  ⟨py!"Communications Type", .range 13 16, .f101⟩,  -- L78
  ⟨py!"Communications Freq", .range 16 23, .f103⟩,  -- L79
  ⟨py!"Guard/Transmit", .at 23, .f182⟩,  -- L80
  ⟨py!"Frequency Units", .at 24, .f104⟩,  -- L81
  ⟨py!"Continuation Record No", .at 25, .f016⟩,  -- L82
  ⟨py!"Application Type", .at 26, .f091⟩,  -- L83
  ⟨py!"Narrative", .range 27 87, .ident 186⟩,  -- L84
  ⟨py!"File Record No", .range 123 128, .ident 31⟩,  -- L85
  ⟨py!"Cycle Date", .range 128 132, .f032⟩  -- L86
]

/-- definitions/AirportCommunication.py:90-115 `AirportCommunication.read_time` -/
def AirportCommunication.read_time : Layout := [
  ⟨py!"Record Type", .at 0, .f002⟩,  -- L92
  ⟨py!"Customer / Area Code", .range 1 4, .f003⟩,  -- L93
  ⟨py!"Section Code", .pair 4 12, .f004⟩,  -- L94
  ⟨py!"Airport Identifier", .range 6 10, .ident 6⟩,  -- L95
  ⟨py!"ICAO Code", .range 10 12, .ident 14⟩,  -- L96
  ⟨py!"Communications Type", .range 13 16, .f101⟩,  -- L97
  ⟨py!"Communications Freq", .range 16 23, .f103⟩,  -- L98
  ⟨py!"Guard/Transmit", .at 23, .f182⟩,  -- L99
  ⟨py!"Frequency Units", .at 24, .f104⟩,  -- L100
  ⟨py!"Continuation Record No", .at 25, .f016⟩,  -- L101
  ⟨py!"Application Type", .at 26, .f091⟩,  -- L102
  ⟨py!"Time Code", .at 27, .ident 131⟩,  -- L103
  ⟨py!"NOTAM", .at 28, .ident 132⟩,  -- L104
  ⟨py!"Time Indicator", .at 29, .ident 138⟩,  -- L105
  ⟨py!"Time of Operaion", .range 30 40, .ident 195⟩,  -- L106
  ⟨py!"Time of Operaion (2)", .range 40 50, .ident 195⟩,  -- L107
  ⟨py!"Time of Operaion (2)", .range 50 60, .ident 195⟩,  -- L108
  ⟨py!"Time of Operaion (3)", .range 60 70, .ident 195⟩,  -- L109
  ⟨py!"Time of Operaion (4)", .range 70 80, .ident 195⟩,  -- L110
  ⟨py!"Time of Operaion (5)", .range 80 90, .ident 195⟩,  -- L111
  ⟨py!"Time of Operaion (6)", .range 90 100, .ident 195⟩,  -- L112
  ⟨py!"File Record No", .range 123 128, .ident 31⟩,  -- L113
  ⟨py!"Cycle Date", .range 128 132, .f032⟩  -- L114
]

/-- definitions/AirportGate.py:29-43 `AirportGate.read_primary` -/
def AirportGate.read_primary : Layout := [
  ⟨py!"Record Type", .at 0, .f002⟩,  -- L31
  ⟨py!"Customer / Area Code", .range 1 4, .f003⟩,  -- L32
  ⟨py!"Section Code", .pair 4 12, .f004⟩,  -- L33
  ⟨py!"Airport ICAO Identifier", .range 6 10, .ident 6⟩,  -- L34
  ⟨py!"ICAO Code", .range 10 12, .ident 14⟩,  -- L35
  ⟨py!"Gate Identifier", .range 13 18, .ident 56⟩,  -- L36
  ⟨py!"Continuation Record No", .at 21, .f016⟩,  -- L37
  ⟨py!"Gate Latitude", .range 32 41, .ident 36⟩,  -- L38
  ⟨py!"Gate Longitude", .range 41 51, .ident 37⟩,  -- L39
  ⟨py!"Name", .range 98 123, .ident 60⟩,  -- L40
  ⟨py!"File Record No", .range 123 128, .ident 31⟩,  -- L41
  ⟨py!"Cycle Date", .range 128 132, .f032⟩  -- L42
]

/-- definitions/AirportGate.py:46-59 `AirportGate.read_cont` -/
def AirportGate.read_cont : Layout := [
  ⟨py!"Record Type", .at 0, .f002⟩,  -- L48
  ⟨py!"Customer / Area Code", .range 1 4, .f003⟩,  -- L49
  ⟨py!"Section Code", .pair 4 12, .f004⟩,  -- L50
  ⟨py!"Airport ICAO Identifier", .range 6 10, .ident 6⟩,  -- L51
  ⟨py!"ICAO Code", .range 10 12, .ident 14⟩,  -- L52
  ⟨py!"Gate Identifier", .range 13 18, .ident 56⟩,  -- L53
  ⟨py!"Continuation Record No", .at 21, .f016⟩,  -- L54
  ⟨py!"Application Notes", .at 22, .f091⟩,  -- L55
  ⟨py!"Notes", .range 23 92, .ident 61⟩,  -- L56
  ⟨py!"File Record No", .range 123 128, .ident 31⟩,  -- L57
  ⟨py!"Cycle Date", .range 128 132, .f032⟩  -- L58
]

/-- definitions/AirwaysMarker.py:29-49 `AirwaysMarker.read_primary` -/
def AirwaysMarker.read_primary : Layout := [
  ⟨py!"Record Type", .at 0, .f002⟩,  -- L31
  ⟨py!"Customer / Area Code", .range 1 4, .f003⟩,  -- L32
  ⟨py!"Section Code", .range 4 6, .f004⟩,  -- L33
  ⟨py!"Marker Identifier", .range 13 17, .ident 110⟩,  -- L34
  ⟨py!"ICAO Code", .range 19 21, .ident 14⟩,  -- L35
  ⟨py!"Continuation Record No", .at 21, .f016⟩,  -- L36
  ⟨py!"Marker Code", .range 22 26, .ident 111⟩,  -- L37
  ⟨py!"Marker Shape", .at 27, .f112⟩,  -- L38
  ⟨py!"Marker Power", .at 28, .f113⟩,  -- L39
  ⟨py!"Marker Latitude", .range 32 41, .ident 36⟩,  -- L40
  ⟨py!"Marker Longitude", .range 41 51, .ident 37⟩,  -- L41
  ⟨py!"Minor Axis", .range 51 55, .ident 100⟩,  -- L42
  ⟨py!"Magnetic Variation", .range 74 79, .f039⟩,  -- L43
  ⟨py!"Facility Elevation", .range 79 84, .f092⟩,  -- L44
  ⟨py!"Datum Code", .range 84 87, .ident 197⟩,  -- L45
  ⟨py!"Marker Name", .range 93 123, .ident 71⟩,  -- L46
  ⟨py!"File Record No", .range 123 128, .ident 31⟩,  -- L47
  ⟨py!"Cycle Date", .range 128 132, .f032⟩  -- L48
]

/-- definitions/AirwaysMarker.py:52-63 `AirwaysMarker.read_cont` -/
def AirwaysMarker.read_cont : Layout := [
  ⟨py!"Record Type", .at 0, .f002⟩,  -- L54
  ⟨py!"Customer / Area Code", .range 1 4, .f003⟩,  -- L55
  ⟨py!"Section Code", .range 4 6, .f004⟩,  -- L56
  ⟨py!"Marker Identifier", .range 13 17, .ident 110⟩,  -- L57
  ⟨py!"ICAO Code", .range 19 21, .ident 14⟩,  -- L58
  ⟨py!"Continuation Record No", .at 21, .f016⟩,  -- L59
  ⟨py!"Application Type", .at 22, .f091⟩,  -- L60
  ⟨py!"File Record No", .range 123 128, .ident 31⟩,  -- L61
  ⟨py!"Cycle Date", .range 128 132, .f032⟩  -- L62
]

/-- definitions/Alternate.py:9-38 `Alternate.read` -/
def Alternate.read : Layout := [
  ⟨py!"Record Type", .at 0, .f002⟩,  -- L11
  ⟨py!"Customer / Area Code", .range 1 4, .f003⟩,  -- L12
  ⟨py!"Section Code", .range 4 6, .f004⟩,  -- L13
  ⟨py!"Alternate Related Airport to Fix", .range 6 11, .ident 75⟩,  -- L14
  ⟨py!"Alternate Related ICAO Code", .range 11 13, .ident 14⟩,  -- L15
  ⟨py!"Alternate Section", .range 13 15, .f004⟩,  -- L16
  ⟨py!"Alternate Record Type", .range 15 17, .ident 250⟩,  -- L17
  ⟨py!"Distance to Alternate", .range 19 22, .ident 251⟩,  -- L18
  ⟨py!"Alternate Type", .at 22, .ident 252⟩,  -- L19
  ⟨py!"Primary Alternate Identifier", .range 23 33, .ident 253⟩,  -- L20
  ⟨py!"Distance to Alternate (2)", .range 35 38, .ident 251⟩,  -- L21
  ⟨py!"Alternate Type (2)", .at 38, .ident 252⟩,  -- L22
  ⟨py!"Additional Alternate Identifier One", .range 39 49, .ident 253⟩,  -- L23
  ⟨py!"Distance to Alternate (3)", .range 51 54, .ident 251⟩,  -- L24
  ⟨py!"Alternate Type (3)", .at 54, .ident 252⟩,  -- L25
  ⟨py!"Additional Alternate Identifier Two", .range 55 65, .ident 253⟩,  -- L26
  ⟨py!"Distance to Alternate (3)", .range 67 70, .ident 251⟩,  -- L27
  ⟨py!"Alternate Type (3)", .at 70, .ident 252⟩,  -- L28
  ⟨py!"Additional Alternate Identifier (3))", .range 71 81, .ident 253⟩,  -- L29
  ⟨py!"Distance to Alternate (4)", .range 83 86, .ident 251⟩,  -- L30
  ⟨py!"Alternate Type (4)", .at 86, .ident 252⟩,  -- L31
  ⟨py!"Additional Alternate Identifier (4)", .range 87 97, .ident 253⟩,  -- L32
  ⟨py!"Distance to Alternate (5)", .range 99 102, .ident 251⟩,  -- L33
  ⟨py!"Alternate Type (5)", .at 102, .ident 252⟩,  -- L34
  ⟨py!"Additional Alternate Identifier (5)", .range 103 113, .ident 253⟩,  -- L35
  ⟨py!"File Record No", .range 123 128, .ident 31⟩,  -- L36
  ⟨py!"Cycle Date", .range 128 132, .f032⟩  -- L37
]

/-- definitions/CompanyRoute.py:12-42 `CompanyRoute.read` -/
def CompanyRoute.read : Layout := [
  ⟨py!"Record Type", .at 0, .f002⟩,  -- L14
  ⟨py!"Customer", .range 1 4, .f003⟩,  -- L15
  ⟨py!"Section Code", .range 4 6, .f004⟩,  -- L16
  ⟨py!"From Airport/Fix", .range 6 11, .ident 75⟩,  -- L17
  ⟨py!"ICAO Code", .range 12 14, .ident 14⟩,  -- L18
  ⟨py!"Airspace Center", .range 9 14, .ident 214⟩,  -- L19
  ⟨py!"Section Code (2)", .range 14 16, .f004⟩,  -- L20
  ⟨py!"To Airport/Fix", .range 16 21, .ident 75⟩,  -- L21
  ⟨py!"ICAO Code (2)", .range 22 24, .ident 14⟩,  -- L22
  ⟨py!"Section Code (3)", .range 24 26, .f004⟩,  -- L23
  ⟨py!"Company Route ID", .range 26 36, .ident 76⟩,  -- L24
  ⟨py!"Sequence Number", .range 36 39, .f012⟩,  -- L25
  ⟨py!"VIA", .range 39 42, .ident 77⟩,  -- L26
  ⟨py!"SID/STAR/App/Awy", .range 42 48, .ident 78⟩,  -- L27
  ⟨py!"Area Code", .range 48 51, .f003⟩,  -- L28
  ⟨py!"To Fix", .range 51 57, .ident 132⟩,  -- L29
  ⟨py!"ICAO Code", .range 57 59, .f118⟩,  -- L30
  ⟨py!"Section Code (4)", .at 59, .ident 36⟩,  -- L31
  ⟨py!"RUnway Trans", .range 61 66, .ident 37⟩,  -- L32
  ⟨py!"ENRT Trans", .range 66 71, .ident 36⟩,  -- L33
  ⟨py!"Cruise Altitude", .range 72 77, .ident 37⟩,  -- L34
  ⟨py!"Terminal/Alternate Airport", .range 77 81, .ident 119⟩,  -- L35
  ⟨py!"ICAO Code", .range 81 83, .ident 120⟩,  -- L36
  ⟨py!"Alternate Distance", .range 83 87, .ident 211⟩,  -- L37
  ⟨py!"Cost Index", .range 87 90, .ident 121⟩,  -- L38
  ⟨py!"Enroute Alternate Airport", .range 90 94, .ident 133⟩,  -- L39
  ⟨py!"File Record No", .range 123 128, .ident 31⟩,  -- L40
  ⟨py!"Cycle Date", .range 128 132, .f032⟩  -- L41
]

/-- definitions/ControlledAirspace.py:36-67 `ControlledAirspace.read_primary` -/
def ControlledAirspace.read_primary : Layout := [
  ⟨py!"Record Type", .at 0, .f002⟩,  -- L38
  ⟨py!"Customer / Area Code", .range 1 4, .f003⟩,  -- L39
  ⟨py!"Section Code", .range 4 6, .f004⟩,  -- L40
  ⟨py!"ICAO Code", .range 6 8, .ident 14⟩,  -- L41
  ⟨py!"Airspace Type", .at 9, .ident 213⟩,  -- L42
  ⟨py!"Airspace Center", .range 9 14, .ident 214⟩,  -- L43
  ⟨py!"Section Code (2)", .range 14 16, .f004⟩,  -- L44
  ⟨py!"Airspace Classification", .at 16, .ident 215⟩,  -- L45
  ⟨py!"Multiple Code", .at 19, .ident 130⟩,  -- L46
  ⟨py!"Sequence Number", .range 20 24, .f012⟩,  -- L47
  ⟨py!"Continuation Record No", .at 24, .f016⟩,  -- L48
  ⟨py!"Level", .at 25, .ident 19⟩,  -- L49
  ⟨py!"Time Code", .at 26, .ident 131⟩,  -- L50
  ⟨py!"NOTAM", .at 27, .ident 132⟩,  -- L51
  ⟨py!"Boundary Via", .range 30 32, .f118⟩,  -- L52
  ⟨py!"Latitude", .range 32 41, .ident 36⟩,  -- L53
  ⟨py!"Longitude", .range 41 51, .ident 37⟩,  -- L54
  ⟨py!"Arc Origin Latitude", .range 51 60, .ident 36⟩,  -- L55
  ⟨py!"Arc Origin Longitude", .range 60 70, .ident 37⟩,  -- L56
  ⟨py!"Arc Distance", .range 70 74, .ident 119⟩,  -- L57
  ⟨py!"Arc Bearing", .range 74 78, .ident 120⟩,  -- L58
  ⟨py!"RNP", .range 78 81, .ident 211⟩,  -- L59
  ⟨py!"Lower Limit", .range 81 86, .ident 121⟩,  -- L60
  ⟨py!"Unit Indicator", .at 86, .ident 133⟩,  -- L61
  ⟨py!"Upper Limit", .range 87 92, .ident 121⟩,  -- L62
  ⟨py!"Unit Indicator (2)", .at 92, .ident 133⟩,  -- L63
  ⟨py!"Controlled Airspace Name", .range 93 123, .ident 216⟩,  -- L64
  ⟨py!"File Record No", .range 123 128, .ident 31⟩,  -- L65
  ⟨py!"Cycle Date", .range 128 132, .f032⟩  -- L66
]

/-- definitions/ControlledAirspace.py:70-97 `ControlledAirspace.read_cont` -/
def ControlledAirspace.read_cont : Layout := [
  ⟨py!"Record Type", .at 0, .f002⟩,  -- L72
  ⟨py!"Customer / Area Code", .range 1 4, .f003⟩,  -- L73
  ⟨py!"Section Code", .range 4 6, .f004⟩,  -- L74
  ⟨py!"ICAO Code", .range 6 8, .ident 14⟩,  -- L75
  ⟨py!"Airspace Type", .at 9, .ident 213⟩,  -- L76
  ⟨py!"Airspace Center", .range 9 14, .ident 214⟩,  -- L77
  ⟨py!"Section Code (2)", .range 14 16, .f004⟩,  -- L78
  ⟨py!"Airspace Classification", .at 16, .ident 215⟩,  -- L79
  ⟨py!"Multiple Code", .at 19, .ident 130⟩,  -- L80
  ⟨py!"Sequence Number", .range 20 24, .f012⟩,  -- L81
  ⟨py!"Continuation Record No", .at 24, .f016⟩,  -- L82
  ⟨py!"Application Type", .at 25, .f091⟩,  -- L83
  ⟨py!"Time Code", .at 26, .ident 131⟩,  -- L84
  ⟨py!"NOTAM", .at 27, .ident 132⟩,  -- L85
  ⟨py!"Time Indicator", .at 28, .ident 138⟩,  -- L86
  ⟨py!"Time of Operations", .range 29 39, .ident 195⟩,  -- L87
  ⟨py!"Time of Operations (2)", .range 39 49, .ident 195⟩,  -- L88
  ⟨py!"Time of Operations (3)", .range 49 59, .ident 195⟩,  -- L89
  ⟨py!"Time of Operations (4)", .range 59 69, .ident 195⟩,  -- L90
  ⟨py!"Time of Operations (5)", .range 69 79, .ident 195⟩,  -- L91
  ⟨py!"Time of Operations (6)", .range 79 89, .ident 195⟩,  -- L92
  ⟨py!"Time of Operations (7)", .range 89 99, .ident 195⟩,  -- L93
  ⟨py!"Controlling Agency", .range 99 123, .ident 140⟩,  -- L94
  ⟨py!"File Record No", .range 123 128, .ident 31⟩,  -- L95
  ⟨py!"Cycle Date", .range 128 132, .f032⟩  -- L96
]

/-- definitions/CruisingTables.py:12-35 `CruisingTables.read_primary` -/
def CruisingTables.read_primary : Layout := [
  ⟨py!"Record Type", .at 0, .f002⟩,  -- L14
  ⟨py!"Section Code", .range 4 6, .f004⟩,  -- L15
  ⟨py!"Cruise Table Identifier", .range 6 8, .ident 134⟩,  -- L16
  ⟨py!"Sequence Number", .at 8, .f012⟩,  -- L17
  ⟨py!"Course From", .range 28 32, .f135⟩,  -- L18
  ⟨py!"Course To", .range 32 36, .f135⟩,  -- L19
  ⟨py!"Mag/True", .at 36, .f165⟩,  -- L20
  ⟨py!"Cruise Level From", .range 39 44, .ident 136⟩,  -- L21
  ⟨py!"Vertical Separation", .range 44 49, .ident 137⟩,  -- L22
  ⟨py!"Cruise Level To ", .range 49 54, .ident 136⟩,  -- L23
  ⟨py!"Cruise Level From (2)", .range 54 59, .ident 136⟩,  -- L24
  ⟨py!"Vertical Separation (2)", .range 59 64, .ident 137⟩,  -- L25
  ⟨py!"Cruise Level To (2)", .range 64 69, .ident 136⟩,  -- L26
  ⟨py!"Cruise Level From (3)", .range 69 74, .ident 136⟩,  -- L27
  ⟨py!"Vertical Separation (3)", .range 74 79, .ident 137⟩,  -- L28
  ⟨py!"Cruise Level To (3)", .range 79 84, .ident 136⟩,  -- L29
  ⟨py!"Cruise Level From (4)", .range 84 89, .ident 136⟩,  -- L30
  ⟨py!"Vertical Separation (4)", .range 89 94, .ident 137⟩,  -- L31
  ⟨py!"Cruise Level To (4)", .range 94 99, .ident 136⟩,  -- L32
  ⟨py!"File Record No", .range 123 128, .ident 31⟩,  -- L33
  ⟨py!"Cycle Date", .range 128 132, .f032⟩  -- L34
]

/-- definitions/EnrouteAirways.py:33-65 `EnrouteAirways.read_primary` -/
def EnrouteAirways.read_primary : Layout := [
  ⟨py!"Record Type", .at 0, .f002⟩,  -- L35
  ⟨py!"Customer / Area Code", .range 1 4, .f003⟩,  -- L36
  ⟨py!"Section Code", .range 4 6, .f004⟩,  -- L37
  ⟨py!"Route Identifier", .range 13 18, .f008⟩,  -- L38
  ⟨py!"Sequence Number", .range 25 29, .f012⟩,  -- L39
  ⟨py!"Fix Identifier", .range 29 34, .ident 13⟩,  -- L40
  ⟨py!"ICAO Code", .range 34 36, .ident 14⟩,  -- L41
  ⟨py!"Section Code (2)", .range 36 38, .f004⟩,  -- L42
  ⟨py!"Continuation Record No", .at 38, .f016⟩,  -- L43
  ⟨py!"Waypoint Desc Code", .range 39 43, .f017⟩,  -- L44
  ⟨py!"Boundary Code", .at 43, .ident 18⟩,  -- L45
  ⟨py!"Route Type", .at 44, .f007⟩,  -- L46
  ⟨py!"Level", .at 45, .ident 19⟩,  -- L47
  ⟨py!"Direction Restriction", .at 46, .ident 115⟩,  -- L48
  ⟨py!"Cruise Table Indicator", .range 47 49, .ident 134⟩,  -- L49
  ⟨py!"EU Indicator", .at 49, .ident 164⟩,  -- L50
  ⟨py!"Recommended NAVAID", .range 50 54, .f023⟩,  -- L51
  ⟨py!"ICAO Code (2)", .range 54 56, .ident 14⟩,  -- L52
  ⟨py!"RNP", .range 56 59, .ident 211⟩,  -- L53
  ⟨py!"Theta", .range 62 66, .f024⟩,  -- L54
  ⟨py!"Rho", .range 66 70, .f025⟩,  -- L55
  ⟨py!"Outbound Magnetic Course", .range 70 74, .f026⟩,  -- L56
  ⟨py!"Route Distance From", .range 74 78, .f027⟩,  -- L57
  ⟨py!"Inbound Magnetic Course", .range 78 82, .ident 28⟩,  -- L58
  ⟨py!"Minimum Altitude", .range 83 88, .f030⟩,  -- L59
  ⟨py!"Minimum Altitude (2)", .range 88 93, .f030⟩,  -- L60
  ⟨py!"Maximum Altitude", .range 93 98, .f127⟩,  -- L61
  ⟨py!"Fix Radius Transition Indicator", .range 98 101, .ident 254⟩,  -- L62
  ⟨py!"File Record No", .range 123 128, .ident 31⟩,  -- L63
  ⟨py!"Cycle Date", .range 128 132, .f032⟩  -- L64
]

/-- definitions/EnrouteAirways.py:68-83 `EnrouteAirways.read_cont` -/
def EnrouteAirways.read_cont : Layout := [
  ⟨py!"Record Type", .at 0, .f002⟩,  -- L70
  ⟨py!"Customer / Area Code", .range 1 4, .f003⟩,  -- L71
  ⟨py!"Section Code", .range 4 6, .f004⟩,  -- L72
  ⟨py!"Route Identifier", .range 13 18, .f008⟩,  -- L73
  ⟨py!"Sequence Number", .range 25 29, .f012⟩,  -- L74
  ⟨py!"Fix Identifier", .range 29 34, .ident 13⟩,  -- L75
  ⟨py!"ICAO Code", .range 34 36, .ident 14⟩,  -- L76
  ⟨py!"Section Code (2)", .range 36 38, .f004⟩,  -- L77
  ⟨py!"Continuation Record No", .at 38, .f016⟩,  -- L78
  ⟨py!"Application Type", .at 39, .f091⟩,  -- L79
  ⟨py!"Notes", .range 40 109, .ident 61⟩,  -- L80
  ⟨py!"File Record No", .range 123 128, .ident 31⟩,  -- L81
  ⟨py!"Cycle Date", .range 128 132, .f032⟩  -- L82
]

/-- definitions/EnrouteAirways.py:86-118 `EnrouteAirways.read_flight_plan0` -/
def EnrouteAirways.read_flight_plan0 : Layout := [
  ⟨py!"Record Type", .at 0, .f002⟩,  -- L88
  ⟨py!"Customer / Area Code", .range 1 4, .f003⟩,  -- L89
  ⟨py!"Section Code", .range 4 6, .f004⟩,  -- L90
  ⟨py!"Route Identifier", .range 13 18, .f008⟩,  -- L91
  ⟨py!"Sequence Number", .range 25 29, .f012⟩,  -- L92
  ⟨py!"Fix Identifier", .range 29 34, .ident 13⟩,  -- L93
  ⟨py!"ICAO Code", .range 34 36, .ident 14⟩,  -- L94
  ⟨py!"Section Code (2)", .range 36 38, .f004⟩,  -- L95
  ⟨py!"Continuation Record No", .at 38, .f016⟩,  -- L96
  ⟨py!"Application Type", .at 39, .f091⟩,  -- L97
  ⟨py!"Start/End Indicator", .at 40, .ident 152⟩,  -- L98
  ⟨py!"Start/End Date", .range 41 52, .ident 153⟩,  -- L99
  ⟨py!"Restr. Air ICAO Code", .range 66 68, .ident 14⟩,  -- L100
  ⟨py!"Restr. Air Type", .at 68, .ident 128⟩,  -- L101
  ⟨py!"Restr. Air Designation", .range 69 79, .ident 129⟩,  -- L102
  ⟨py!"Restr. Air Multiple Code", .at 79, .ident 130⟩,  -- L103
  ⟨py!"Restr. Air ICAO Code (2)", .range 80 82, .ident 14⟩,  -- L104
  ⟨py!"Restr. Air Type (2)", .at 82, .f012⟩,  -- L105
  ⟨py!"Restr. Air Designation (2)", .range 83 93, .ident 129⟩,  -- L106
  ⟨py!"Restr. Air Multiple Code (2)", .at 93, .ident 130⟩,  -- L107
  ⟨py!"Restr. Air ICAO Code (3)", .range 94 96, .ident 14⟩,  -- L108
  ⟨py!"Restr. Air Type (3)", .at 96, .f012⟩,  -- L109
  ⟨py!"Restr. Air Designation (3)", .range 97 107, .ident 129⟩,  -- L110
  ⟨py!"Restr. Air Multiple Code (3)", .at 107, .ident 130⟩,  -- L111
  ⟨py!"Restr. Air ICAO Code (4)", .range 108 110, .ident 14⟩,  -- L112
  ⟨py!"Restr. Air Type (4)", .at 110, .f012⟩,  -- L113
  ⟨py!"Restr. Air Designation (4)", .range 111 121, .ident 129⟩,  -- L114
  ⟨py!"Restr. Air Link Continuation", .at 122, .ident 174⟩,  -- L115
  ⟨py!"File Record No", .range 123 128, .ident 31⟩,  -- L116
  ⟨py!"Cycle Date", .range 128 132, .f032⟩  -- L117
]

/-- definitions/EnrouteAirways.py:121-153 `EnrouteAirways.read_flight_plan1` -/
def EnrouteAirways.read_flight_plan1 : Layout := [
  ⟨py!"Record Type", .at 0, .f002⟩,  -- L123
  ⟨py!"Customer / Area Code", .range 1 4, .f003⟩,  -- L124
  ⟨py!"Section Code", .range 4 6, .f004⟩,  -- L125
  ⟨py!"Route Identifier", .range 13 18, .f008⟩,  -- L126
  ⟨py!"Sequence Number", .range 25 29, .f012⟩,  -- L127
  ⟨py!"Fix Identifier", .range 29 34, .ident 13⟩,  -- L128
  ⟨py!"ICAO Code", .range 34 36, .ident 14⟩,  -- L129
  ⟨py!"Section Code (2)", .range 36 38, .f004⟩,  -- L130
  ⟨py!"Continuation Record No", .at 38, .f016⟩,  -- L131
  ⟨py!"Waypoint Desc Code", .range 39 43, .f017⟩,  -- L132
  ⟨py!"Boundary Code", .at 43, .ident 18⟩,  -- L133
  ⟨py!"Route Type", .at 44, .f007⟩,  -- L134
  ⟨py!"Level", .at 45, .ident 19⟩,  -- L135
  ⟨py!"Direction Restriction", .at 46, .ident 115⟩,  -- L136
  ⟨py!"Cruise Table Indicator", .range 47 49, .ident 134⟩,  -- L137
  ⟨py!"EU Indicator", .at 49, .ident 164⟩,  -- L138
  ⟨py!"Recommended NAVAID", .range 50 54, .f023⟩,  -- L139
  ⟨py!"ICAO Code (2)", .range 54 56, .ident 14⟩,  -- L140
  ⟨py!"RNP", .range 56 59, .ident 211⟩,  -- L141
  ⟨py!"Theta", .range 62 66, .f024⟩,  -- L142
  ⟨py!"Rho", .range 66 70, .f025⟩,  -- L143
  ⟨py!"Outbound Magnetic Course", .range 70 74, .f026⟩,  -- L144
  ⟨py!"Route Distance From", .range 74 78, .f027⟩,  -- L145
  ⟨py!"Inbound Magnetic Course", .range 78 82, .ident 28⟩,  -- L146
  ⟨py!"Minimum Altitude", .range 83 88, .f030⟩,  -- L147
  ⟨py!"Minimum Altitude (2)", .range 88 93, .f030⟩,  -- L148
  ⟨py!"Maximum Altitude", .range 93 98, .f127⟩,  -- L149
  ⟨py!"Fix Radius Transition Indicator", .range 98 101, .ident 254⟩,  -- L150
  ⟨py!"File Record No", .range 123 128, .ident 31⟩,  -- L151
  ⟨py!"Cycle Date", .range 128 132, .f032⟩  -- L152
]

/-- definitions/EnrouteAirwaysRestriction.py:48-89 `EnrouteAirwaysRestriction.primary_altitude_exclude` -/
def EnrouteAirwaysRestriction.primary_altitude_exclude : Layout := [
  ⟨py!"Record Type", .at 0, .f002⟩,  -- L50
  ⟨py!"Customer / Area Code", .range 1 4, .f003⟩,  -- L51
  ⟨py!"Section Code", .range 4 6, .f004⟩,  -- L52
  ⟨py!"Route Identifier", .range 6 11, .f008⟩,  -- L53
  ⟨py!"Restriction Identifier", .range 12 15, .ident 154⟩,  -- L54
  ⟨py!"Restriction Type", .range 15 17, .ident 201⟩,  -- L55
  ⟨py!"Continuation Record No", .at 17, .f016⟩,  -- L56
  ⟨py!"Start Fix Identifier", .range 18 23, .ident 13⟩,  -- L57
  ⟨py!"Start Fix ICAO Code", .range 23 25, .ident 14⟩,  -- L58
  ⟨py!"Start Fix Section Code", .range 25 27, .f004⟩,  -- L59
  ⟨py!"End Fix Identifier", .range 27 32, .ident 13⟩,  -- L60
  ⟨py!"End Fix ICAO Code", .range 32 34, .ident 14⟩,  -- L61
  ⟨py!"End Fix Section Code", .range 34 36, .f004⟩,  -- L62
  ⟨py!"Start Date", .range 37 44, .ident 157⟩,  -- L63
  ⟨py!"End Date", .range 44 51, .ident 157⟩,  -- L64
  ⟨py!"Time Code", .at 51, .ident 131⟩,  -- L65
  ⟨py!"Time Indicator", .at 52, .ident 138⟩,  -- L66
  ⟨py!"Time of Operation", .range 53 63, .ident 195⟩,  -- L67
  ⟨py!"Time of Operation", .range 63 73, .ident 195⟩,  -- L68
  ⟨py!"Time of Operation", .range 73 83, .ident 195⟩,  -- L69
  ⟨py!"Time of Operation", .range 83 93, .ident 195⟩,  -- L70
  ⟨py!"Exclusion Indicator", .at 93, .ident 202⟩,  -- L71
  ⟨py!"Units of Altitude", .at 94, .ident 160⟩,  -- L72
  ⟨py!"Restriction Altitude", .range 95 98, .f161⟩,  -- L73
  ⟨py!"Block Indicator", .at 98, .ident 203⟩,  -- L74
  ⟨py!"Restriction Altitude", .range 99 102, .f161⟩,  -- L75
  ⟨py!"Block Indicator", .at 102, .ident 203⟩,  -- L76
  ⟨py!"Restriction Altitude", .range 103 106, .f161⟩,  -- L77
  ⟨py!"Block Indicator", .at 106, .ident 203⟩,  -- L78
  ⟨py!"Restriction Altitude", .range 107 110, .f161⟩,  -- L79
  ⟨py!"Block Indicator", .at 110, .ident 203⟩,  -- L80
  ⟨py!"Restriction Altitude", .range 111 114, .f161⟩,  -- L81
  ⟨py!"Block Indicator", .at 114, .ident 203⟩,  -- L82
  ⟨py!"Restriction Altitude", .range 115 118, .f161⟩,  -- L83
  ⟨py!"Block Indicator", .at 118, .ident 203⟩,  -- L84
  ⟨py!"Restriction Altitude", .range 119 122, .f161⟩,  -- L85
  ⟨py!"Block Indicator", .at 122, .ident 203⟩,  -- L86
  ⟨py!"File Record No", .range 123 128, .ident 31⟩,  -- L87
  ⟨py!"Cycle Date", .range 128 132, .f032⟩  -- L88
]

/-- definitions/EnrouteAirwaysRestriction.py:91-125 `EnrouteAirwaysRestriction.cont_altitude_exclude` -/
def EnrouteAirwaysRestriction.cont_altitude_exclude : Layout := [
  ⟨py!"Record Type", .at 0, .f002⟩,  -- L93
  ⟨py!"Customer / Area Code", .range 1 4, .f003⟩,  -- L94
  ⟨py!"Section Code", .range 4 6, .f004⟩,  -- L95
  ⟨py!"Route Identifier", .range 6 11, .f008⟩,  -- L96
  ⟨py!"Restriction Identifier", .range 12 15, .ident 154⟩,  -- L97
  ⟨py!"Restriction Type", .range 15 17, .ident 201⟩,  -- L98
  ⟨py!"Continuation Record No", .at 17, .f016⟩,  -- L99
  ⟨py!"Application Type", .at 18, .f091⟩,  -- L100
  ⟨py!"Time Code", .at 51, .ident 131⟩,  -- L101
  ⟨py!"Time Indicator", .at 52, .ident 138⟩,  -- L102
  ⟨py!"Time of Operation", .range 53 63, .ident 195⟩,  -- L103
  ⟨py!"Time of Operation (2)", .range 63 73, .ident 195⟩,  -- L104
  ⟨py!"Time of Operation (3)", .range 73 83, .ident 195⟩,  -- L105
  ⟨py!"Time of Operation (4)", .range 83 93, .ident 195⟩,  -- L106
  ⟨py!"Exclusion Operator", .at 93, .ident 202⟩,  -- L107
  ⟨py!"Units of Altitude", .at 94, .ident 160⟩,  -- L108
  ⟨py!"Restriction Altitude", .range 95 98, .f161⟩,  -- L109
  ⟨py!"Block Indicator", .at 98, .ident 203⟩,  -- L110
  ⟨py!"Restriction Altitude (2)", .range 99 102, .f161⟩,  -- L111
  ⟨py!"Block Indicator (2)", .at 102, .ident 203⟩,  -- L112
  ⟨py!"Restriction Altitude (3)", .range 103 106, .f161⟩,  -- L113
  ⟨py!"Block Indicator (3)", .at 106, .ident 203⟩,  -- L114
  ⟨py!"Restriction Altitude (4)", .range 107 110, .f161⟩,  -- L115
  ⟨py!"Block Indicator (4)", .at 110, .ident 203⟩,  -- L116
  ⟨py!"Restriction Altitude (5)", .range 111 114, .f161⟩,  -- L117
  ⟨py!"Block Indicator (5)", .at 114, .ident 203⟩,  -- L118
  ⟨py!"Restriction Altitude (6)", .range 115 118, .f161⟩,  -- L119
  ⟨py!"Block Indicator (6)", .at 118, .ident 203⟩,  -- L120
  ⟨py!"Restriction Altitude (7)", .range 119 122, .f161⟩,  -- L121
  ⟨py!"Block Indicator (7)", .at 122, .ident 203⟩,  -- L122
  ⟨py!"File Record No", .range 123 128, .ident 31⟩,  -- L123
  ⟨py!"Cycle Date", .range 128 132, .f032⟩  -- L124
]

/-- definitions/EnrouteAirwaysRestriction.py:134-154 `EnrouteAirwaysRestriction.primary_note_restriction` -/
def EnrouteAirwaysRestriction.primary_note_restriction : Layout := [
  ⟨py!"Record Type", .at 0, .f002⟩,  -- L136
  ⟨py!"Customer / Area Code", .range 1 4, .f003⟩,  -- L137
  ⟨py!"Section Code", .range 4 6, .f004⟩,  -- L138
  ⟨py!"Route Identifier", .range 7 11, .f008⟩,  -- L139
  ⟨py!"Restriction Identifier", .range 12 15, .ident 154⟩,  -- L140
  ⟨py!"Restriction Type", .range 15 17, .ident 201⟩,  -- L141
  ⟨py!"Continuation Record No", .at 17, .f016⟩,  -- L142
  ⟨py!"Start Fix Identifier", .range 18 23, .ident 13⟩,  -- L143
  ⟨py!"Start Fix ICAO Code", .range 23 25, .ident 14⟩,  -- L144
  ⟨py!"Start Fix Section Code", .at 25, .f004⟩,  -- L145
  ⟨py!"End Fix Identifier", .range 27 32, .ident 13⟩,  -- L146
  ⟨py!"End Fix ICAO Code", .range 32 34, .ident 14⟩,  -- L147
  ⟨py!"End Fix Section Code", .range 34 36, .f004⟩,  -- L148
  ⟨py!"Start Date", .range 37 44, .ident 157⟩,  -- L149
  ⟨py!"End Date", .range 44 51, .ident 157⟩,  -- L150
  ⟨py!"Restriction Notes", .range 51 120, .ident 163⟩,  -- L151
  ⟨py!"File Record No", .range 123 128, .ident 31⟩,  -- L152
  ⟨py!"Cycle Date", .range 128 132, .f032⟩  -- L153
]

/-- definitions/EnrouteAirwaysRestriction.py:157-170 `EnrouteAirwaysRestriction.cont_note_restriction` -/
def EnrouteAirwaysRestriction.cont_note_restriction : Layout := [
  ⟨py!"Record Type", .at 0, .f002⟩,  -- L159
  ⟨py!"Customer / Area Code", .range 1 4, .f003⟩,  -- L160
  ⟨py!"Section Code", .range 4 6, .f004⟩,  -- L161
  ⟨py!"Route Identifier", .range 7 11, .f008⟩,  -- L162
  ⟨py!"Restriction Identifier", .range 12 15, .ident 154⟩,  -- L163
  ⟨py!"Restriction Type", .range 15 17, .ident 201⟩,  -- L164
  ⟨py!"Continuation Record No", .at 17, .f016⟩,  -- L165
  ⟨py!"Application Type", .at 18, .f091⟩,  -- L166
  ⟨py!"Restriction Notes", .range 51 120, .ident 163⟩,  -- L167
  ⟨py!"File Record No", .range 123 128, .ident 31⟩,  -- L168
  ⟨py!"Cycle Date", .range 128 132, .f032⟩  -- L169
]

/-- definitions/EnrouteAirwaysRestriction.py:179-205 `EnrouteAirwaysRestriction.primary_seasonal_closure` -/
def EnrouteAirwaysRestriction.primary_seasonal_closure : Layout := [
  ⟨py!"Record Type", .at 0, .f002⟩,  -- L181
  ⟨py!"Customer / Area Code", .range 1 4, .f003⟩,  -- L182
  ⟨py!"Section Code", .range 4 6, .f004⟩,  -- L183
  ⟨py!"Route Identifier", .range 6 11, .f008⟩,  -- L184
  ⟨py!"Restriction Identifier", .range 12 15, .ident 154⟩,  -- L185
  ⟨py!"Restriction Type", .range 15 17, .ident 201⟩,  -- L186
  ⟨py!"Continuation Record No", .at 17, .f016⟩,  -- L187
  ⟨py!"Start Fix Identifier", .range 18 23, .ident 13⟩,  -- L188
  ⟨py!"Start Fix ICAO Code", .range 23 25, .ident 14⟩,  -- L189
  ⟨py!"Start Fix Section Code", .range 25 27, .f004⟩,  -- L190
  ⟨py!"End Fix Identifier", .range 27 32, .ident 13⟩,  -- L191
  ⟨py!"End Fix ICAO Code", .range 32 34, .ident 14⟩,  -- L192
  ⟨py!"End Fix Section Code", .range 34 36, .f004⟩,  -- L193
  ⟨py!"Start Date", .range 37 44, .ident 157⟩,  -- L194
  ⟨py!"End Date", .range 44 51, .ident 157⟩,  -- L195
  ⟨py!"Time Code", .at 51, .ident 131⟩,  -- L196
  ⟨py!"Time Indicator", .at 52, .ident 138⟩,  -- L197
  ⟨py!"Time of Operation", .range 53 63, .ident 195⟩,  -- L198
  ⟨py!"Time of Operation (2)", .range 63 73, .ident 195⟩,  -- L199
  ⟨py!"Time of Operation (3)", .range 73 83, .ident 195⟩,  -- L200
  ⟨py!"Time of Operation (4)", .range 83 93, .ident 195⟩,  -- L201
  ⟨py!"Cruise Table Ident", .range 93 95, .ident 134⟩,  -- L202
  ⟨py!"File Record No", .range 123 128, .ident 31⟩,  -- L203
  ⟨py!"Cycle Date", .range 128 132, .f032⟩  -- L204
]

/-- definitions/EnrouteAirwaysRestriction.py:214-240 `EnrouteAirwaysRestriction.primary_cruise_table` -/
def EnrouteAirwaysRestriction.primary_cruise_table : Layout := [
  ⟨py!"Record Type", .at 0, .f002⟩,  -- L216
  ⟨py!"Customer / Area Code", .range 1 4, .f003⟩,  -- L217
  ⟨py!"Section Code", .range 4 6, .f004⟩,  -- L218
  ⟨py!"Route Identifier", .range 6 11, .f008⟩,  -- L219
  ⟨py!"Restriction Identifier", .range 12 15, .ident 154⟩,  -- L220
  ⟨py!"Restriction Type", .range 15 17, .ident 201⟩,  -- L221
  ⟨py!"Continuation Record No", .at 17, .f016⟩,  -- L222
  ⟨py!"Start Fix Identifier", .range 18 23, .ident 13⟩,  -- L223
  ⟨py!"Start Fix ICAO Code", .range 23 25, .ident 14⟩,  -- L224
  ⟨py!"Start Fix Section Code", .range 25 27, .f004⟩,  -- L225
  ⟨py!"End Fix Identifier", .range 27 32, .ident 13⟩,  -- L226
  ⟨py!"End Fix ICAO Code", .range 32 34, .ident 14⟩,  -- L227
  ⟨py!"End Fix Section Code", .range 34 36, .f004⟩,  -- L228
  ⟨py!"Start Date", .range 37 44, .ident 157⟩,  -- L229
  ⟨py!"End Date", .range 44 51, .ident 157⟩,  -- L230
  ⟨py!"Time Code", .at 51, .ident 131⟩,  -- L231
  ⟨py!"Time Indicator", .at 52, .ident 138⟩,  -- L232
  ⟨py!"Time of Operation", .range 53 63, .ident 195⟩,  -- L233
  ⟨py!"Time of Operation (2)", .range 63 73, .ident 195⟩,  -- L234
  ⟨py!"Time of Operation (3)", .range 73 83, .ident 195⟩,  -- L235
  ⟨py!"Time of Operation (4)", .range 83 93, .ident 195⟩,  -- L236
  ⟨py!"Cruise Table Ident", .range 93 95, .ident 134⟩,  -- L237
  ⟨py!"File Record No", .range 123 128, .ident 31⟩,  -- L238
  ⟨py!"Cycle Date", .range 128 132, .f032⟩  -- L239
]

/-- definitions/EnrouteAirwaysRestriction.py:243-262 `EnrouteAirwaysRestriction.cont_cruise_table` -/
def EnrouteAirwaysRestriction.cont_cruise_table : Layout := [
  ⟨py!"Record Type", .at 0, .f002⟩,  -- L245
  ⟨py!"Customer / Area Code", .range 1 4, .f003⟩,  -- L246
  ⟨py!"Section Code", .range 4 6, .f004⟩,  -- L247
  ⟨py!"Route Identifier", .range 6 11, .f008⟩,  -- L248
  ⟨py!"Restriction Identifier", .range 12 15, .ident 154⟩,  -- L249
  ⟨py!"Restriction Type", .range 15 17, .ident 201⟩,  -- L250
  ⟨py!"Continuation Record No", .at 17, .f016⟩,  -- L251
  ⟨py!"Application Type", .at 18, .f091⟩,  -- L252
  ⟨py!"Time Code", .at 51, .ident 131⟩,  -- L253
  ⟨py!"Time Indicator", .at 52, .ident 138⟩,  -- L254
  ⟨py!"Time of Operation", .range 53 63, .ident 195⟩,  -- L255
  ⟨py!"Time of Operation (2)", .range 63 73, .ident 195⟩,  -- L256
  ⟨py!"Time of Operation (3)", .range 73 83, .ident 195⟩,  -- L257
  ⟨py!"Time of Operation (4)", .range 83 93, .ident 195⟩,  -- L258
  ⟨py!"Cruise Table Ident", .range 93 95, .ident 134⟩,  -- L259
  ⟨py!"File Record No", .range 123 128, .ident 31⟩,  -- L260
  ⟨py!"Cycle Date", .range 128 132, .f032⟩  -- L261
]

/-- definitions/EnrouteCommunications.py:31-62 `EnrouteCommunications.read_primary` -/
def EnrouteCommunications.read_primary : Layout := [
  ⟨py!"Record Type", .at 0, .f002⟩,  -- L33
  ⟨py!"Customer / Area Code", .range 1 4, .f003⟩,  -- L34
  ⟨py!"Section Code", .range 4 6, .f004⟩,  -- L35
  ⟨py!"FIR/RDO Ident", .range 6 10, .ident 190⟩,  -- L36
  ⟨py!"FIR/UIR Address", .range 10 14, .ident 151⟩,  -- L37
  ⟨py!"Indicator", .at 14, .f117⟩,  -- L38
  ⟨py!"Remote Name", .range 18 43, .ident 189⟩,  -- L39
  ⟨py!"Communications Type", .range 43 46, .f101⟩,  -- L40
  ⟨py!"Comm Frequency", .range 46 53, .f103⟩,  -- L41
  ⟨py!"Guard/Transmit", .at 53, .f182⟩,  -- L42
  ⟨py!"Frequency Units", .at 54, .f104⟩,  -- L43
  ⟨py!"Continuation Record No", .at 55, .f016⟩,  -- L44
  ⟨py!"Service Indicator", .range 56 59, .f106⟩,  -- L45
  ⟨py!"Radar Service", .at 59, .f102⟩,  -- L46
  ⟨py!"Modulation", .at 60, .f198⟩,  -- L47
  ⟨py!"Signal Emission", .at 61, .f199⟩,  -- L48
  ⟨py!"Latitude", .range 62 71, .ident 36⟩,  -- L49
  ⟨py!"Longitude", .range 71 81, .ident 37⟩,  -- L50
  ⟨py!"Magnetic Variation", .range 81 86, .f039⟩,  -- L51
  ⟨py!"Facility Elevation", .range 86 91, .f092⟩,  -- L52
  ⟨py!"H24 Indicator", .at 91, .f181⟩,  -- L53
  ⟨py!"Altitude Description", .at 92, .f029⟩,  -- L54
  ⟨py!"Communication Altitude", .range 93 98, .f184⟩,  -- L55
  ⟨py!"Communication Altitude (2)", .range 98 103, .f184⟩,  -- L56
  ⟨py!"Remote Facility", .range 103 107, .ident 200⟩,  -- L57
  ⟨py!"ICAO Code", .range 107 109, .ident 14⟩,  -- L58
  ⟨py!"Section Code (2)", .range 109 111, .f004⟩,  -- L59
  ⟨py!"File Record No", .range 123 128, .ident 31⟩,  -- L60
  ⟨py!"Cycle Date", .range 128 132, .f032⟩  -- L61
]

/-- definitions/EnrouteCommunications.py:65-87 `EnrouteCommunications.read_cont` -/
def EnrouteCommunications.read_cont : Layout := [
  ⟨py!"Record Type", .at 0, .f002⟩,  -- L67
  ⟨py!"Customer / Area Code", .range 1 4, .f003⟩,  -- L68
  ⟨py!"Section Code", .range 4 6, .f004⟩,  -- L69
  ⟨py!"FIR/RDO Ident", .range 6 10, .ident 190⟩,  -- L70
  ⟨py!"FIR/UIR Address", .range 10 14, .ident 151⟩,  -- L71
  ⟨py!"Indicator", .at 14, .f117⟩,  -- L72
  ⟨py!"Remote Name", .range 18 43, .ident 189⟩,  -- L73
  ⟨py!"Communications Type", .range 43 46, .f101⟩,  -- L74
  ⟨py!"Comm Frequency", .range 46 53, .f103⟩,  -- L75
  ⟨py!"Guard/Transmit", .at 53, .f182⟩,  -- L76
  ⟨py!"Frequency Units", .at 54, .f104⟩,  -- L77
  ⟨py!"Continuation Record No", .at 55, .f016⟩,  -- L78
  ⟨py!"Application Type", .at 56, .f091⟩,  -- L79
  ⟨py!"Time Code", .at 57, .ident 131⟩,  -- L80
  ⟨py!"NOTAM", .at 58, .ident 132⟩,  -- L81
  ⟨py!"Time Indicator", .at 59, .ident 138⟩,  -- L82
  ⟨py!"Time of Operation", .range 60 70, .ident 195⟩,  -- L83
  ⟨py!"Call Sign", .range 93 123, .ident 105⟩,  -- L84
  ⟨py!"File Record No", .range 123 128, .ident 31⟩,  -- L85
  ⟨py!"Cycle Date", .range 128 132, .f032⟩  -- L86
]

/-- definitions/EnrouteCommunications.py:90-113 `EnrouteCommunications.read_timeop` -/
def EnrouteCommunications.read_timeop : Layout := [
  ⟨py!"Record Type", .at 0, .f002⟩,  -- L92
  ⟨py!"Customer / Area Code", .range 1 4, .f003⟩,  -- L93
  ⟨py!"Section Code", .range 4 6, .f004⟩,  -- L94
  ⟨py!"FIR/RDO Ident", .range 6 10, .ident 190⟩,  -- L95
  ⟨py!"FIR/UIR Address", .range 10 14, .ident 151⟩,  -- L96
  ⟨py!"Indicator", .at 14, .f117⟩,  -- L97
  ⟨py!"Remote Name", .range 18 43, .ident 189⟩,  -- L98
  ⟨py!"Communications Type", .range 43 46, .f101⟩,  -- L99
  ⟨py!"Comm Frequency", .range 46 53, .f103⟩,  -- L100
  ⟨py!"Guard/Transmit", .at 53, .f182⟩,  -- L101
  ⟨py!"Frequency Units", .at 54, .f104⟩,  -- L102
  ⟨py!"Continuation Record No", .at 55, .f016⟩,  -- L103
  ⟨py!"Application Type", .at 56, .f091⟩,  -- L104
  ⟨py!"Time of Operation", .range 60 70, .ident 195⟩,  -- L105
  ⟨py!"Time of Operation (2)", .range 70 80, .ident 195⟩,  -- L106
  ⟨py!"Time of Operation (3)", .range 80 90, .ident 195⟩,  -- L107
  ⟨py!"Time of Operation (4)", .range 90 100, .ident 195⟩,  -- L108
  ⟨py!"Time of Operation (5)", .range 100 110, .ident 195⟩,  -- L109
  ⟨py!"Time of Operation (6)", .range 110 120, .ident 195⟩,  -- L110
  ⟨py!"File Record No", .range 123 128, .ident 31⟩,  -- L111
  ⟨py!"Cycle Date", .range 128 132, .f032⟩  -- L112
]

/-- definitions/FIRUIR.py:29-58 `FIRUIR.read_primary` -/
def FIRUIR.read_primary : Layout := [
  ⟨py!"Record Type", .at 0, .f002⟩,  -- L31
  ⟨py!"Customer / Area Code", .range 1 4, .f003⟩,  -- L32
  ⟨py!"Section Code", .range 4 6, .f004⟩,  -- L33
  ⟨py!"FIR/UIR Identifier", .range 6 10, .ident 116⟩,  -- L34
  ⟨py!"FIR/UIR Address", .range 10 14, .ident 151⟩,  -- L35
  ⟨py!"FIR/UIR Indicator", .at 14, .f117⟩,  -- L36
  ⟨py!"Sequence Number", .range 15 19, .f012⟩,  -- L37
  ⟨py!"Continuation Record No", .at 19, .f016⟩,  -- L38
  ⟨py!"Adjacent FIR Identifier", .range 20 24, .ident 116⟩,  -- L39
  ⟨py!"Adjacent UIR Identifier", .range 24 28, .ident 116⟩,  -- L40
  ⟨py!"Reporting Units Speed", .at 28, .ident 122⟩,  -- L41
  ⟨py!"Reporting Units Altitude", .at 29, .f123⟩,  -- L42
  ⟨py!"Entry Report", .at 30, .ident 124⟩,  -- L43
  ⟨py!"Boundary Via", .range 32 34, .f118⟩,  -- L44
  ⟨py!"FIR/UIR Latitude", .range 34 43, .ident 36⟩,  -- L45
  ⟨py!"FIR/UIR Longitude", .range 43 53, .ident 37⟩,  -- L46
  ⟨py!"Arc Origin Latitude", .range 53 62, .ident 36⟩,  -- L47
  ⟨py!"Arc Origin Longitude", .range 62 72, .ident 37⟩,  -- L48
  ⟨py!"Arc Distance", .range 72 76, .ident 119⟩,  -- L49
  ⟨py!"Arc Bearing", .range 76 80, .ident 120⟩,  -- L50
  ⟨py!"FIR Upper Limit", .range 80 85, .ident 121⟩,  -- L51
  ⟨py!"UIR Lower Limit", .range 85 90, .ident 121⟩,  -- L52
  ⟨py!"UIR Upper Limit", .range 90 95, .ident 121⟩,  -- L53
  ⟨py!"Cruise Table Ind", .range 95 97, .ident 134⟩,  -- L54
  ⟨py!"FIR/UIR Name", .range 98 123, .ident 125⟩,  -- L55
  ⟨py!"File Record No", .range 123 128, .ident 31⟩,  -- L56
  ⟨py!"Cycle Date", .range 128 132, .f032⟩  -- L57
]

/-- definitions/FIRUIR.py:61-74 `FIRUIR.read_cont` -/
def FIRUIR.read_cont : Layout := [
  ⟨py!"Record Type", .at 0, .f002⟩,  -- L63
  ⟨py!"Customer / Area Code", .range 1 4, .f003⟩,  -- L64
  ⟨py!"Section Code", .range 4 6, .f004⟩,  -- L65
  ⟨py!"FIR/UIR Identifier", .range 6 10, .ident 116⟩,  -- L66
  ⟨py!"FIR/UIR Address", .range 10 14, .ident 151⟩,  -- L67
  ⟨py!"FIR/UIR Indicator", .at 14, .f117⟩,  -- L68
  ⟨py!"Sequence Number", .range 15 19, .f012⟩,  -- L69
  ⟨py!"Continuation Record No", .at 19, .f016⟩,  -- L70
  ⟨py!"Application Type", .at 20, .f091⟩,  -- L71
  ⟨py!"File Record No", .range 123 128, .ident 31⟩,  -- L72
  ⟨py!"Cycle Date", .range 128 132, .f032⟩  -- L73
]

/-- definitions/FlightPlanning.py:31-74 `FlightPlanning.read_primary` -/
def FlightPlanning.read_primary : Layout := [
  ⟨py!"Record Type", .at 0, .f002⟩,  -- L33
  ⟨py!"Customer / Area Code", .range 1 4, .f003⟩,  -- L34
  ⟨py!"Section Code", .pair 4 12, .f004⟩,  -- L35
  ⟨py!"Airport Identifier", .range 6 10, .ident 6⟩,  -- L36
  ⟨py!"ICAO Code", .range 10 12, .ident 14⟩,  -- L37
  ⟨py!"SID/STAR/Approach Identifier", .range 13 19, .f009⟩,  -- L38
  ⟨py!"Procedure Type", .at 19, .ident 230⟩,  -- L39
  ⟨py!"Runway Transition Identifier", .range 20 25, .ident 11⟩,  -- L40
  ⟨py!"Runway Transition Fix", .range 25 30, .ident 13⟩,  -- L41
  ⟨py!"ICAO Code (2)", .range 30 32, .ident 14⟩,  -- L42
  ⟨py!"Section Code (2)", .range 32 34, .f004⟩,  -- L43
  ⟨py!"Runway Transition Along Track Dist", .range 34 37, .ident 231⟩,  -- L44
  ⟨py!"Common Segment Transition Fix", .range 37 42, .ident 13⟩,  -- L45
  ⟨py!"ICAO Code (3)", .range 42 44, .ident 14⟩,  -- L46
  ⟨py!"Section Code (3)", .range 44 46, .f004⟩,  -- L47
  ⟨py!"Common Segment Along Track Dist", .range 46 49, .ident 231⟩,  -- L48
  ⟨py!"Enroute Transition Identifier", .range 49 54, .ident 11⟩,  -- L49
  ⟨py!"Enroute Transition Fix", .range 54 59, .ident 13⟩,  -- L50
  ⟨py!"ICAO Code (4)", .range 59 61, .ident 14⟩,  -- L51
  ⟨py!"Section Code (4)", .range 61 63, .f004⟩,  -- L52
  ⟨py!"Enroute Transition Along Track Dist", .range 63 66, .ident 231⟩,  -- L53
  ⟨py!"Sequence Number", .range 66 69, .f012⟩,  -- L54
  ⟨py!"Continuation Number", .at 69, .f016⟩,  -- L55
  ⟨py!"Number of Engines", .range 70 74, .ident 232⟩,  -- L56
  ⟨py!"Turboprop/Jet Indicator", .at 74, .ident 233⟩,  -- L57
  ⟨py!"RNAV Flag", .at 75, .ident 234⟩,  -- L58
  ⟨py!"ATC Weight Category", .at 76, .ident 235⟩,  -- L59
  ⟨py!"ATC Identifier", .range 77 84, .ident 236⟩,  -- L60
  ⟨py!"Time Code", .at 84, .ident 131⟩,  -- L61
  ⟨py!"Procedure Description", .range 85 100, .ident 237⟩,  -- L62
  ⟨py!"Leg Type Code", .range 100 102, .ident 238⟩,  -- L63
  ⟨py!"Reporting Code", .at 102, .ident 239⟩,  -- L64
  ⟨py!"Initial Departure Magnetic Course", .range 103 107, .f026⟩,  -- L65
  ⟨py!"Altitude Description", .at 107, .f029⟩,  -- L66
  ⟨py!"Altitude", .range 108 111, .f240⟩,  -- L67
  ⟨py!"Altitude (2)", .range 111 114, .f240⟩,  -- L68
  ⟨py!"Speed Limit", .range 114 117, .f072⟩,  -- L69
  ⟨py!"Initial Cruise Table", .range 117 119, .ident 134⟩,  -- L70
  ⟨py!"Speed Limit Description", .at 119, .ident 261⟩,  -- L71
  ⟨py!"File Record No", .range 123 128, .ident 31⟩,  -- L72
  ⟨py!"Cycle Date", .range 128 132, .f032⟩  -- L73
]

/-- definitions/FlightPlanning.py:77-115 `FlightPlanning.read_cont` -/
def FlightPlanning.read_cont : Layout := [
  ⟨py!"Record Type", .at 0, .f002⟩,  -- L79
  ⟨py!"Customer / Area Code", .range 1 4, .f003⟩,  -- L80
  ⟨py!"Section Code", .pair 4 12, .f004⟩,  -- L81
  ⟨py!"Airport Identifier", .range 6 10, .ident 6⟩,  -- L82
  ⟨py!"ICAO Code", .range 10 12, .ident 14⟩,  -- L83
  ⟨py!"SID/STAR/Approach Identifier", .range 13 19, .f009⟩,  -- L84
  ⟨py!"Procedure Type", .at 19, .ident 230⟩,  -- L85
  ⟨py!"Runway Transition Identifier", .range 20 25, .ident 11⟩,  -- L86
  ⟨py!"Runway Transition Fix", .range 25 30, .ident 13⟩,  -- L87
  ⟨py!"ICAO Code (2)", .range 30 32, .ident 14⟩,  -- L88
  ⟨py!"Section Code (2)", .range 32 34, .f004⟩,  -- L89
  ⟨py!"Runway Transition Along Track Dist", .range 34 37, .ident 231⟩,  -- L90
  ⟨py!"Common Segment Transition Fix", .range 37 42, .ident 13⟩,  -- L91
  ⟨py!"ICAO Code (3)", .range 42 44, .ident 14⟩,  -- L92
  ⟨py!"Section Code (3)", .range 44 46, .f004⟩,  -- L93
  ⟨py!"Common Segment Along Track Dist", .range 46 49, .ident 231⟩,  -- L94
  ⟨py!"Enroute Transition Identifier", .range 49 54, .ident 11⟩,  -- L95
  ⟨py!"Enroute Transition Fix", .range 54 59, .ident 13⟩,  -- L96
  ⟨py!"ICAO Code (4)", .range 59 61, .ident 14⟩,  -- L97
  ⟨py!"Section Code (4)", .range 61 63, .f004⟩,  -- L98
  ⟨py!"Enroute Transition Along Track Dist", .range 63 66, .ident 231⟩,  -- L99
  ⟨py!"Sequence Number", .range 66 69, .f012⟩,  -- L100
  ⟨py!"Continuation Number", .at 69, .f016⟩,  -- L101
  ⟨py!"Application Type", .at 70, .f091⟩,  -- L102
  ⟨py!"Intermediate Fix Identifier", .range 71 76, .ident 13⟩,  -- L103
  ⟨py!"ICAO Code (5)", .range 76 78, .ident 14⟩,  -- L104
  ⟨py!"Section Code (5)", .range 91 93, .f004⟩,  -- L105
  ⟨py!"Intermediate Distance", .range 106 109, .ident 231⟩,  -- L106
  ⟨py!"Fix Related Transition Code", .at 109, .ident 241⟩,  -- L107
  ⟨py!"Intermediate Fix Identifier", .range 110 115, .ident 13⟩,  -- L108
  ⟨py!"ICAO Code (6)", .range 115 117, .ident 14⟩,  -- L109
  ⟨py!"Section Code (6)", .at 118, .f004⟩,  -- L110
  ⟨py!"Intermediate Distance", .range 119 122, .ident 231⟩,  -- L111
  ⟨py!"Fix Related Transition Code", .at 122, .ident 241⟩,  -- L112
  ⟨py!"File Record No", .range 123 128, .ident 31⟩,  -- L113
  ⟨py!"Cycle Date", .range 128 132, .f032⟩  -- L114
]

/-- definitions/FlightPlanning.py:118-153 `FlightPlanning.read_timeop` -/
def FlightPlanning.read_timeop : Layout := [
  ⟨py!"Record Type", .at 0, .f002⟩,  -- L120
  ⟨py!"Customer / Area Code", .range 1 4, .f003⟩,  -- L121
  ⟨py!"Section Code", .pair 4 12, .f004⟩,  -- L122
  ⟨py!"Airport Identifier", .range 6 10, .ident 6⟩,  -- L123
  ⟨py!"ICAO Code", .range 10 12, .ident 14⟩,  -- L124
  ⟨py!"SID/STAR/Approach Identifier", .range 13 19, .f009⟩,  -- L125
  ⟨py!"Procedure Type", .at 19, .ident 230⟩,  -- L126
  ⟨py!"Runway Transition Identifier", .range 20 25, .ident 11⟩,  -- L127
  ⟨py!"Runway Transition Fix", .range 25 30, .ident 13⟩,  -- L128
  ⟨py!"ICAO Code (2)", .range 30 32, .ident 14⟩,  -- L129
  ⟨py!"Section Code (2)", .range 32 34, .f004⟩,  -- L130
  ⟨py!"Runway Transition Along Track Dist", .range 34 37, .ident 231⟩,  -- L131
  ⟨py!"Common Segment Transition Fix", .range 37 42, .ident 13⟩,  -- L132
  ⟨py!"ICAO Code (3)", .range 42 44, .ident 14⟩,  -- L133
  ⟨py!"Section Code (3)", .range 44 46, .f004⟩,  -- L134
  ⟨py!"Common Segment Along Track Dist", .range 46 49, .ident 231⟩,  -- L135
  ⟨py!"Enroute Transition Identifier", .range 49 54, .ident 11⟩,  -- L136
  ⟨py!"Enroute Transition Fix", .range 54 59, .ident 13⟩,  -- L137
  ⟨py!"ICAO Code (4)", .range 59 61, .ident 14⟩,  -- L138
  ⟨py!"Section Code (4)", .range 61 63, .f004⟩,  -- L139
  ⟨py!"Enroute Transition Along Track Dist", .range 63 66, .ident 231⟩,  -- L140
  ⟨py!"Sequence Number", .range 66 69, .f012⟩,  -- L141
  ⟨py!"Continuation Number", .at 69, .f016⟩,  -- L142
  ⟨py!"Application Type", .at 70, .f091⟩,  -- L143
  ⟨py!"Time Code", .at 71, .ident 131⟩,  -- L144
  ⟨py!"Time Indicator", .at 72, .ident 138⟩,  -- L145
  ⟨py!"Time of Operation", .range 73 83, .ident 195⟩,  -- L146
  ⟨py!"Time of Operation (1)", .range 83 93, .ident 195⟩,  -- L147
  ⟨py!"Time of Operation (2)", .range 93 103, .ident 195⟩,  -- L148
  ⟨py!"Time of Operation (3)", .range 103 113, .ident 195⟩,  -- L149
  ⟨py!"Time of Operation (4)", .range 113 123, .ident 195⟩,  -- L150
  ⟨py!"File Record No", .range 123 128, .ident 31⟩,  -- L151
  ⟨py!"Cycle Date", .range 128 132, .f032⟩  -- L152
]

/-- definitions/GLS.py:29-55 `GLS.read_primary` -/
def GLS.read_primary : Layout := [
  ⟨py!"Record Type", .at 0, .f002⟩,  -- L31
  ⟨py!"Customer / Area Code", .range 1 4, .f003⟩,  -- L32
  ⟨py!"Section Code", .pair 4 12, .f004⟩,  -- L33
  ⟨py!"Airport and Heliport Identifier", .range 6 10, .ident 6⟩,  -- L34
  ⟨py!"ICAO Code", .range 10 12, .ident 14⟩,  -- L35
  ⟨py!"GLS Ref Path Identifier", .range 13 17, .ident 44⟩,  -- L36
  ⟨py!"GLS Category", .at 17, .ident 80⟩,  -- L37
  ⟨py!"Continuation Record No", .range 18 21, .f016⟩,  -- L38
  ⟨py!"GLS Channel", .range 22 27, .ident 244⟩,  -- L39
  ⟨py!"Runway Identifier", .range 27 32, .ident 46⟩,  -- L40
  ⟨py!"GLS Approach Bearing", .range 51 55, .ident 47⟩,  -- L41
  ⟨py!"Station Latitude", .range 55 64, .ident 36⟩,  -- L42
  ⟨py!"Station Longitude", .range 64 74, .ident 37⟩,  -- L43
  ⟨py!"GLS Station Ident", .range 74 78, .ident 243⟩,  -- L44
  ⟨py!"Service Volume Radius", .range 83 85, .ident 245⟩,  -- L45
  ⟨py!"TDMA Slots", .range 85 87, .ident 246⟩,  -- L46
  ⟨py!"GLS Approach Slope", .range 87 90, .ident 52⟩,  -- L47
  ⟨py!"Magnetic Variation", .range 90 95, .f039⟩,  -- L48
  ⟨py!"Station Elevation", .range 97 102, .ident 74⟩,  -- L49
  ⟨py!"Datum Code", .range 102 105, .ident 197⟩,  -- L50
  ⟨py!"Station Type", .range 105 108, .ident 247⟩,  -- L51
  ⟨py!"Station Elevation WGS", .range 110 115, .ident 248⟩,  -- L52
  ⟨py!"File Record No", .range 123 128, .ident 31⟩,  -- L53
  ⟨py!"Cycle Date", .range 128 132, .f032⟩  -- L54
]

/-- definitions/GLS.py:58-71 `GLS.read_cont` -/
def GLS.read_cont : Layout := [
  ⟨py!"Record Type", .at 0, .f002⟩,  -- L60
  ⟨py!"Customer / Area Code", .range 1 4, .f003⟩,  -- L61
  ⟨py!"Section Code", .pair 4 12, .f004⟩,  -- L62
  ⟨py!"Airport and Heliport Identifier", .range 6 10, .ident 6⟩,  -- L63
  ⟨py!"ICAO Code", .range 10 12, .ident 14⟩,  -- L64
  ⟨py!"GLS Ref Path Identifier", .range 13 17, .ident 44⟩,  -- L65
  ⟨py!"GLS Category", .at 17, .ident 80⟩,  -- L66
  ⟨py!"Continuation Record No", .range 18 21, .f016⟩,  -- L67
  ⟨py!"Application Type", .at 22, .f091⟩,  -- L68
  ⟨py!"File Record No", .range 123 128, .ident 31⟩,  -- L69
  ⟨py!"Cycle Date", .range 128 132, .f032⟩  -- L70
]

/-- definitions/GeoReferenceTable.py:39-62 `GeoReferenceTable.read_primary` -/
def GeoReferenceTable.read_primary : Layout := [
  ⟨py!"Record Type", .at 0, .f002⟩,  -- L41
  ⟨py!"Customer / Area Code", .range 1 4, .f003⟩,  -- L42
  ⟨py!"Section Code", .range 4 6, .f004⟩,  -- L43
  ⟨py!"Geographical Ref Table ID", .range 6 8, .ident 218⟩,  -- L44
  ⟨py!"Sequence Number", .at 8, .f012⟩,  -- L45
  ⟨py!"Geographical Entity", .range 9 38, .ident 219⟩,  -- L46
  ⟨py!"Continuation Record No", .at 38, .f016⟩,  -- L47
  ⟨py!"Preferred Route Ident", .range 40 50, .f008⟩,  -- L48
  ⟨py!"Preferred Route Use Ind", .range 50 52, .ident 220⟩,  -- L49
  ⟨py!"Preferred Route Ident (2)", .range 52 62, .f008⟩,  -- L50
  ⟨py!"Preferred Route Use Ind (2)", .range 62 64, .ident 220⟩,  -- L51
  ⟨py!"Preferred Route Ident (3)", .range 64 74, .f008⟩,  -- L52
  ⟨py!"Preferred Route Use Ind (3)", .range 74 76, .ident 220⟩,  -- L53
  ⟨py!"Preferred Route Ident (4)", .range 76 86, .f008⟩,  -- L54
  ⟨py!"Preferred Route Use Ind (4)", .range 86 88, .ident 220⟩,  -- L55
  ⟨py!"Preferred Route Ident (4)", .range 88 98, .f008⟩,  -- L56
  ⟨py!"Preferred Route Use Ind (4)", .range 98 100, .ident 220⟩,  -- L57
  ⟨py!"Preferred Route Ident (5)", .range 100 110, .f008⟩,  -- L58
  ⟨py!"Preferred Route Use Ind (5)", .range 110 112, .ident 220⟩,  -- L59
  ⟨py!"File Record No", .range 123 128, .ident 31⟩,  -- L60
  ⟨py!"Cycle Date", .range 128 132, .f032⟩  -- L61
]

/-- definitions/GeoReferenceTable.py:65-77 `GeoReferenceTable.read_cont` -/
def GeoReferenceTable.read_cont : Layout := [
  ⟨py!"Record Type", .at 0, .f002⟩,  -- L67
  ⟨py!"Customer / Area Code", .range 1 4, .f003⟩,  -- L68
  ⟨py!"Section Code", .range 4 6, .f004⟩,  -- L69
  ⟨py!"Geographical Ref Table ID", .range 6 8, .ident 218⟩,  -- L70
  ⟨py!"Sequence Number", .at 8, .f012⟩,  -- L71
  ⟨py!"Geographical Entity", .range 9 38, .ident 219⟩,  -- L72
  ⟨py!"Continuation Record No", .at 38, .f016⟩,  -- L73
  ⟨py!"Application Type", .at 39, .f091⟩,  -- L74
  ⟨py!"File Record No", .range 123 128, .ident 31⟩,  -- L75
  ⟨py!"Cycle Date", .range 128 132, .f032⟩  -- L76
]

/-- definitions/GridMORA.py:14-52 `GridMORA.read_primary` -/
def GridMORA.read_primary : Layout := [
  ⟨py!"Record Type", .at 0, .f002⟩,  -- L16
  ⟨py!"Section Code", .range 4 6, .f004⟩,  -- L17
  ⟨py!"Starting Latitude", .range 13 16, .ident 141⟩,  -- L18
  ⟨py!"Starting Longitude", .range 16 20, .ident 142⟩,  -- L19
  ⟨py!"MORA", .range 30 33, .ident 143⟩,  -- L20
  ⟨py!"MORA (2)", .range 33 36, .ident 143⟩,  -- L21
  ⟨py!"MORA (3)", .range 36 39, .ident 143⟩,  -- L22
  ⟨py!"MORA (4)", .range 39 42, .ident 143⟩,  -- L23
  ⟨py!"MORA (5)", .range 42 45, .ident 143⟩,  -- L24
  ⟨py!"MORA (6)", .range 45 48, .ident 143⟩,  -- L25
  ⟨py!"MORA (7)", .range 48 51, .ident 143⟩,  -- L26
  ⟨py!"MORA (8)", .range 51 54, .ident 143⟩,  -- L27
  ⟨py!"MORA (9)", .range 54 57, .ident 143⟩,  -- L28
  ⟨py!"MORA (10)", .range 57 60, .ident 143⟩,  -- L29
  ⟨py!"MORA (11)", .range 60 63, .ident 143⟩,  -- L30
  ⟨py!"MORA (12)", .range 63 66, .ident 143⟩,  -- L31
  ⟨py!"MORA (13)", .range 66 69, .ident 143⟩,  -- L32
  ⟨py!"MORA (14)", .range 69 72, .ident 143⟩,  -- L33
  ⟨py!"MORA (15)", .range 72 75, .ident 143⟩,  -- L34
  ⟨py!"MORA (16)", .range 75 78, .ident 143⟩,  -- L35
  ⟨py!"MORA (17)", .range 78 81, .ident 143⟩,  -- L36
  ⟨py!"MORA (18)", .range 81 84, .ident 143⟩,  -- L37
  ⟨py!"MORA (19)", .range 84 87, .ident 143⟩,  -- L38
  ⟨py!"MORA (21)", .range 87 90, .ident 143⟩,  -- L39
  ⟨py!"MORA (22)", .range 90 93, .ident 143⟩,  -- L40
  ⟨py!"MORA (23)", .range 93 96, .ident 143⟩,  -- L41
  ⟨py!"MORA (24)", .range 96 99, .ident 143⟩,  -- L42
  ⟨py!"MORA (25)", .range 99 102, .ident 143⟩,  -- L43
  ⟨py!"MORA (26)", .range 102 105, .ident 143⟩,  -- L44
  ⟨py!"MORA (27)", .range 105 108, .ident 143⟩,  -- L45
  ⟨py!"MORA (28)", .range 108 111, .ident 143⟩,  -- L46
  ⟨py!"MORA (29)", .range 111 114, .ident 143⟩,  -- L47
  ⟨py!"MORA (30)", .range 114 117, .ident 143⟩,  -- L48
  ⟨py!"MORA (31)", .range 117 120, .ident 143⟩,  -- L49
  ⟨py!"File Record No", .range 123 128, .ident 31⟩,  -- L50
  ⟨py!"Cycle Date", .range 128 132, .f032⟩  -- L51
]

/-- definitions/Heliport.py:33-63 `Heliport.read_primary` -/
def Heliport.read_primary : Layout := [
  ⟨py!"Record Type", .at 0, .f002⟩,  -- L35
  ⟨py!"Customer / Area Code", .range 1 4, .f003⟩,  -- L36
  ⟨py!"Section Code", .pair 4 12, .f004⟩,  -- L37
  ⟨py!"Heliport Identifier", .range 6 10, .ident 6⟩,  -- L38
  ⟨py!"ICAO Code", .range 10 12, .ident 14⟩,  -- L39
  ⟨py!"ATA/IATA Designator", .range 13 16, .ident 107⟩,  -- L40
  ⟨py!"PAD Identifier", .range 16 21, .ident 180⟩,  -- L41
  ⟨py!"Continuation Record No", .at 21, .f016⟩,  -- L42
  ⟨py!"Speed Limit Altitude", .range 22 27, .f073⟩,  -- L43
  ⟨py!"Datum Code", .range 27 30, .ident 197⟩,  -- L44
  ⟨py!"IFR Indicator", .at 30, .f108⟩,  -- L45
  ⟨py!"Latitude", .range 32 41, .ident 36⟩,  -- L46
  ⟨py!"Longitude", .range 41 51, .ident 37⟩,  -- L47
  ⟨py!"Magnetic Variation", .range 51 56, .f039⟩,  -- L48
  ⟨py!"Heliport Elevation", .range 56 61, .ident 55⟩,  -- L49
  ⟨py!"Speed Limit", .range 61 64, .f072⟩,  -- L50
  ⟨py!"Recommended VHF Navaid", .range 64 68, .f023⟩,  -- L51
  ⟨py!"ICAO Code (2)", .range 68 70, .ident 14⟩,  -- L52
  ⟨py!"Transition Altitude", .range 70 75, .f053⟩,  -- L53
  ⟨py!"Transition Level", .range 75 80, .f053⟩,  -- L54
  ⟨py!"Public Military Indicator", .at 80, .f177⟩,  -- L55
  ⟨py!"Time Zone", .range 81 84, .f178⟩,  -- L56
  ⟨py!"Daylight Indicator", .at 84, .f179⟩,  -- L57
  ⟨py!"Pad Dimensions", .range 85 91, .ident 176⟩,  -- L58
  ⟨py!"Magnetic/True Indicator", .at 91, .f165⟩,  -- L59
  ⟨py!"Heliport Name", .range 93 123, .ident 71⟩,  -- L60
  ⟨py!"File Record No", .range 123 128, .ident 31⟩,  -- L61
  ⟨py!"Cycle Date", .range 128 132, .f032⟩  -- L62
]

/-- definitions/Heliport.py:66-80 `Heliport.read_cont` -/
def Heliport.read_cont : Layout := [
  ⟨py!"Record Type", .at 0, .f002⟩,  -- L68
  ⟨py!"Customer / Area Code", .range 1 4, .f003⟩,  -- L69
  ⟨py!"Section Code", .pair 4 12, .f004⟩,  -- L70
  ⟨py!"Heliport Identifier", .range 6 10, .ident 6⟩,  -- L71
  ⟨py!"ICAO Code", .range 10 12, .ident 14⟩,  -- L72
  ⟨py!"ATA/IATA Designator", .range 13 16, .ident 107⟩,  -- L73
  ⟨py!"PAD Identifier", .range 16 21, .ident 180⟩,  -- L74
  ⟨py!"Continuation Record No", .at 21, .f016⟩,  -- L75
  ⟨py!"Application Type", .at 22, .f091⟩,  -- L76
  ⟨py!"Notes", .range 23 92, .ident 61⟩,  -- L77
  ⟨py!"File Record No", .range 123 128, .ident 31⟩,  -- L78
  ⟨py!"Cycle Date", .range 128 132, .f032⟩  -- L79
]

/-- definitions/Heliport.py:83-103 `Heliport.read_flight0` -/
def Heliport.read_flight0 : Layout := [
  ⟨py!"Record Type", .at 0, .f002⟩,  -- L85
  ⟨py!"Customer / Area Code", .range 1 4, .f003⟩,  -- L86
  ⟨py!"Section Code", .pair 4 12, .f004⟩,  -- L87
  ⟨py!"Heliport Identifier", .range 6 10, .ident 6⟩,  -- L88
  ⟨py!"ICAO Code", .range 10 12, .ident 14⟩,  -- L89
  ⟨py!"ATA/IATA Designator", .range 13 16, .ident 107⟩,  -- L90
  ⟨py!"PAD Identifier", .range 16 21, .ident 180⟩,  -- L91
  ⟨py!"Continuation Record No", .at 21, .f016⟩,  -- L92
  ⟨py!"Application Type", .at 22, .f091⟩,  -- L93
  ⟨py!"FIR Identifier", .range 23 27, .ident 116⟩,  -- L94
  ⟨py!"UIR Identifier", .range 27 31, .ident 116⟩,  -- L95
  ⟨py!"Start/End Indicator", .at 31, .ident 152⟩,  -- L96
  ⟨py!"Start/End Date/Time", .range 32 43, .ident 153⟩,  -- L97
  ⟨py!"Controlled A/S Indicator", .at 66, .ident 217⟩,  -- L98
  ⟨py!"Controlled A/S Airport Indentifier", .range 67 71, .ident 6⟩,  -- L99
  ⟨py!"Controlled A/S Airport ICAO", .range 71 73, .ident 14⟩,  -- L100
  ⟨py!"File Record No", .range 123 128, .ident 31⟩,  -- L101
  ⟨py!"Cycle Date", .range 128 132, .f032⟩  -- L102
]

/-- definitions/Heliport.py:106-120 `Heliport.read_flight1` -/
def Heliport.read_flight1 : Layout := [
  ⟨py!"Record Type", .at 0, .f002⟩,  -- L108
  ⟨py!"Customer / Area Code", .range 1 4, .f003⟩,  -- L109
  ⟨py!"Section Code", .pair 4 12, .f004⟩,  -- L110
  ⟨py!"Heliport Identifier", .range 6 10, .ident 6⟩,  -- L111
  ⟨py!"ICAO Code", .range 10 12, .ident 14⟩,  -- L112
  ⟨py!"ATA/IATA Designator", .range 13 16, .ident 107⟩,  -- L113
  ⟨py!"PAD Identifier", .range 16 21, .ident 180⟩,  -- L114
  ⟨py!"Continuation Record No", .at 21, .f016⟩,  -- L115
  ⟨py!"Application Type", .at 22, .f091⟩,  -- L116
  ⟨py!"Notes", .range 23 92, .ident 61⟩,  -- L117
  ⟨py!"File Record No", .range 123 128, .ident 31⟩,  -- L118
  ⟨py!"Cycle Date", .range 128 132, .f032⟩  -- L119
]

/-- definitions/HeliportCommunications.py:31-67 `HeliportCommunications.read_primary` -/
def HeliportCommunications.read_primary : Layout := [
  ⟨py!"Record Type", .at 0, .f002⟩,  -- L33
  ⟨py!"Customer / Area Code", .range 1 4, .f003⟩,  -- L34
  ⟨py!"Section Code", .pair 4 12, .f004⟩,  -- L35
  ⟨py!"Heliport Identifier", .range 6 10, .ident 6⟩,  -- L36
  ⟨py!"ICAO Code", .range 10 12, .ident 14⟩,  -- L37
  ⟨py!"Communications Type", .range 13 16, .f101⟩,  -- L38
  ⟨py!"Communications Freq", .range 16 23, .f103⟩,  -- L39
  ⟨py!"Guard/Transmit", .at 23, .f182⟩,  -- L40
  ⟨py!"Frequency Units", .at 24, .f104⟩,  -- L41
  ⟨py!"Continuation Record No", .at 25, .f016⟩,  -- L42
  ⟨py!"Service Indicator", .range 26 29, .f106⟩,  -- L43
  ⟨py!"Radar Service", .at 29, .f102⟩,  -- L44
  ⟨py!"Modulation", .at 30, .f198⟩,  -- L45
  ⟨py!"Signal Emission", .at 31, .f199⟩,  -- L46
  ⟨py!"Latitude", .range 32 41, .ident 36⟩,  -- L47
  ⟨py!"Longitude", .range 41 51, .ident 36⟩,  -- L48
  ⟨py!"Magnetic Variation", .range 51 56, .f039⟩,  -- L49
  ⟨py!"Facility Elevation", .range 56 61, .f092⟩,  -- L50
  ⟨py!"H24 Indicator", .at 61, .f181⟩,  -- L51
  ⟨py!"Sectorization", .range 62 68, .ident 183⟩,  -- L52
  ⟨py!"Altitude Description", .at 68, .f029⟩,  -- L53
  ⟨py!"Communication Altitude", .range 69 74, .f184⟩,  -- L54
  ⟨py!"Communication Altitude (2)", .range 74 79, .f184⟩,  -- L55
  ⟨py!"Sector Facility", .range 79 83, .ident 185⟩,  -- L56
  ⟨py!"ICAO Code (2)", .range 83 85, .ident 14⟩,  -- L57
  ⟨py!"Section Code (2)", .range 85 87, .f004⟩,  -- L58
  ⟨py!"Distance Description", .at 87, .ident 187⟩,  -- L59
  ⟨py!"Communications Distance", .range 88 90, .ident 188⟩,  -- L60
  ⟨py!"Remote Facility", .range 90 94, .ident 200⟩,  -- L61
  ⟨py!"ICAO Code (3)", .range 94 96, .ident 14⟩,  -- L62
  ⟨py!"Section Code (3)", .range 96 98, .f004⟩,  -- L63
  ⟨py!"Call Sign", .range 98 123, .ident 105⟩,  -- L64
  ⟨py!"File Record No", .range 123 128, .ident 31⟩,  -- L65
  ⟨py!"Cycle Date", .range 128 132, .f032⟩  -- L66
]

/-- definitions/HeliportCommunications.py:70-86 `HeliportCommunications.read_cont` -/
def HeliportCommunications.read_cont : Layout := [
  ⟨py!"Record Type", .at 0, .f002⟩,  -- L72
  ⟨py!"Customer / Area Code", .range 1 4, .f003⟩,  -- L73
  ⟨py!"Section Code", .pair 4 12, .f004⟩,  -- L74
  ⟨py!"Heliport Identifier", .range 6 10, .ident 6⟩,  -- L75
  ⟨py!"ICAO Code", .range 10 12, .ident 14⟩,  -- L76
  ⟨py!"Communications Type", .range 13 16, .f101⟩,  -- L77
  ⟨py!"Communications Freq", .range 16 23, .f103⟩,  -- L78
  ⟨py!"Guard/Transmit", .at 23, .f182⟩,  -- L79
  ⟨py!"Frequency Units", .at 24, .f104⟩,  -- L80
  ⟨py!"Continuation Record No", .at 25, .f016⟩,  -- L81
  ⟨py!"Application Type", .at 26, .f091⟩,  -- L82
  ⟨py!"Narrative", .range 27 87, .ident 186⟩,  -- L83
  ⟨py!"File Record No", .range 123 128, .ident 31⟩,  -- L84
  ⟨py!"Cycle Date", .range 128 132, .f032⟩  -- L85
]

/-- definitions/HeliportCommunications.py:89-114 `HeliportCommunications.read_timeop` -/
def HeliportCommunications.read_timeop : Layout := [
  ⟨py!"Record Type", .at 0, .f002⟩,  -- L91
  ⟨py!"Customer / Area Code", .range 1 4, .f003⟩,  -- L92
  ⟨py!"Section Code", .pair 4 12, .f004⟩,  -- L93
  ⟨py!"Heliport Identifier", .range 6 10, .ident 6⟩,  -- L94
  ⟨py!"ICAO Code", .range 10 12, .ident 14⟩,  -- L95
  ⟨py!"Communications Type", .range 13 16, .f101⟩,  -- L96
  ⟨py!"Communications Freq", .range 16 23, .f103⟩,  -- L97
  ⟨py!"Guard/Transmit", .at 23, .f182⟩,  -- L98
  ⟨py!"Frequency Units", .at 24, .f104⟩,  -- L99
  ⟨py!"Continuation Record No", .at 25, .f016⟩,  -- L100
  ⟨py!"Application Type", .at 26, .f091⟩,  -- L101
  ⟨py!"Time Code", .at 27, .ident 131⟩,  -- L102
  ⟨py!"NOTAM", .at 28, .ident 132⟩,  -- L103
  ⟨py!"Time Indicator", .at 29, .ident 138⟩,  -- L104
  ⟨py!"Time of Operation", .range 30 40, .ident 195⟩,  -- L105
  ⟨py!"Time of Operation (2)", .range 40 50, .ident 195⟩,  -- L106
  ⟨py!"Time of Operation (3)", .range 50 60, .ident 195⟩,  -- L107
  ⟨py!"Time of Operation (4)", .range 60 70, .ident 195⟩,  -- L108
  ⟨py!"Time of Operation (5)", .range 70 80, .ident 195⟩,  -- L109
  ⟨py!"Time of Operation (6)", .range 80 90, .ident 195⟩,  -- L110
  ⟨py!"Time of Operation (7)", .range 90 100, .ident 195⟩,  -- L111
  ⟨py!"File Record No", .range 123 128, .ident 31⟩,  -- L112
  ⟨py!"Cycle Date", .range 128 132, .f032⟩  -- L113
]

/-- definitions/HeliportTerminalWaypoint.py:32-52 `HeliportTerminalWaypoint.read_primary` -/
def HeliportTerminalWaypoint.read_primary : Layout := [
  ⟨py!"Record Type", .at 0, .f002⟩,  -- L34
  ⟨py!"Customer / Area Code", .range 1 4, .f003⟩,  -- L35
  ⟨py!"Section Code", .pair 4 12, .f004⟩,  -- L36
  ⟨py!"Heliport Identifier", .range 6 10, .ident 6⟩,  -- L37
  ⟨py!"ICAO Code", .range 10 12, .ident 14⟩,  -- L38
  ⟨py!"Waypoint Identifier", .range 13 18, .ident 13⟩,  -- L39
  ⟨py!"ICAO Code (2)", .range 19 21, .ident 14⟩,  -- L40
  ⟨py!"Continuation Record No", .at 21, .f016⟩,  -- L41
  ⟨py!"Waypoint Type", .range 26 29, .f042⟩,  -- L42
  ⟨py!"Waypoint Usage", .range 29 31, .f082⟩,  -- L43
  ⟨py!"Waypoint Latitude", .range 32 41, .ident 36⟩,  -- L44
  ⟨py!"Waypoint Longitude", .range 41 51, .ident 37⟩,  -- L45
  ⟨py!"Dynamic Magnetic Variation", .range 74 79, .f039⟩,  -- L46
  ⟨py!"Datum Code", .range 84 87, .ident 197⟩,  -- L47
  ⟨py!"Name Format Indicator", .range 95 98, .f196⟩,  -- L48
  ⟨py!"Waypoint Name/Description", .range 98 123, .f043⟩,  -- L49
  ⟨py!"File Record No", .range 123 128, .ident 31⟩,  -- L50
  ⟨py!"Cycle Date", .range 128 132, .f032⟩  -- L51
]

/-- definitions/HeliportTerminalWaypoint.py:55-69 `HeliportTerminalWaypoint.read_cont` -/
def HeliportTerminalWaypoint.read_cont : Layout := [
  ⟨py!"Record Type", .at 0, .f002⟩,  -- L57
  ⟨py!"Customer / Area Code", .range 1 4, .f003⟩,  -- L58
  ⟨py!"Section Code", .pair 4 12, .f004⟩,  -- L59
  ⟨py!"Heliport Identifier", .range 6 10, .ident 6⟩,  -- L60
  ⟨py!"ICAO Code", .range 10 12, .ident 14⟩,  -- L61
  ⟨py!"Waypoint Identifier", .range 13 18, .ident 13⟩,  -- L62
  ⟨py!"ICAO Code (2)", .range 19 21, .ident 14⟩,  -- L63
  ⟨py!"Continuation Record No", .at 21, .f016⟩,  -- L64
  ⟨py!"Application Type", .at 22, .f091⟩,  -- L65
  ⟨py!"Notes", .range 23 92, .ident 61⟩,  -- L66
  ⟨py!"File Record No", .range 123 128, .ident 31⟩,  -- L67
  ⟨py!"Cycle Date", .range 128 132, .f032⟩  -- L68
]

/-- definitions/HeliportTerminalWaypoint.py:72-89 `HeliportTerminalWaypoint.read_flight0` -/
def HeliportTerminalWaypoint.read_flight0 : Layout := [
  ⟨py!"Record Type", .at 0, .f002⟩,  -- L74
  ⟨py!"Customer / Area Code", .range 1 4, .f003⟩,  -- L75
  ⟨py!"Section Code", .pair 4 12, .f004⟩,  -- L76
  ⟨py!"Heliport Identifier", .range 6 10, .ident 6⟩,  -- L77
  ⟨py!"ICAO Code", .range 10 12, .ident 14⟩,  -- L78
  ⟨py!"Waypoint Identifier", .range 13 18, .ident 13⟩,  -- L79
  ⟨py!"ICAO Code (2)", .range 19 21, .ident 14⟩,  -- L80
  ⟨py!"Continuation Record No", .at 21, .f016⟩,  -- L81
  ⟨py!"Application Type", .at 22, .f091⟩,  -- L82
  ⟨py!"FIR Identifier", .range 23 27, .ident 116⟩,  -- L83
  ⟨py!"UIR Identifier", .range 27 31, .ident 116⟩,  -- L84
  ⟨py!"Start/End Indicator", .at 31, .ident 152⟩,  -- L85
  ⟨py!"Start/End Date", .range 32 43, .ident 153⟩,  -- L86
  ⟨py!"File Record No", .range 123 128, .ident 31⟩,  -- L87
  ⟨py!"Cycle Date", .range 128 132, .f032⟩  -- L88
]

/-- definitions/HeliportTerminalWaypoint.py:92-112 `HeliportTerminalWaypoint.read_flight1` -/
def HeliportTerminalWaypoint.read_flight1 : Layout := [
  ⟨py!"Record Type", .at 0, .f002⟩,  -- L94
  ⟨py!"Customer / Area Code", .range 1 4, .f003⟩,  -- L95
  ⟨py!"Section Code", .pair 4 12, .f004⟩,  -- L96
  ⟨py!"Heliport Identifier", .range 6 10, .ident 6⟩,  -- L97
  ⟨py!"ICAO Code", .range 10 12, .ident 14⟩,  -- L98
  ⟨py!"Waypoint Identifier", .range 13 18, .ident 13⟩,  -- L99
  ⟨py!"ICAO Code (2)", .range 19 21, .ident 14⟩,  -- L100
  ⟨py!"Continuation Record No", .at 21, .f016⟩,  -- L101
  ⟨py!"Waypoint Type", .range 26 29, .f042⟩,  -- L102
  ⟨py!"Waypoint Usage", .range 29 31, .f082⟩,  -- L103
  ⟨py!"Waypoint Latitude", .range 32 41, .ident 36⟩,  -- L104
  ⟨py!"Waypoint Longitude", .range 41 51, .ident 37⟩,  -- L105
  ⟨py!"Dynamic Magnetic Variation", .range 74 79, .f039⟩,  -- L106
  ⟨py!"Datum Code", .range 84 87, .ident 197⟩,  -- L107
  ⟨py!"Name Format Indicator", .range 95 98, .f196⟩,  -- L108
  ⟨py!"Waypoint Name/Description", .range 98 123, .f043⟩,  -- L109
  ⟨py!"File Record No", .range 123 128, .ident 31⟩,  -- L110
  ⟨py!"Cycle Date", .range 128 132, .f032⟩  -- L111
]

/-- definitions/HoldingPattern.py:41-65 `HoldingPattern.read_primary` -/
def HoldingPattern.read_primary : Layout := [
  ⟨py!"Record Type", .at 0, .f002⟩,  -- L43
  ⟨py!"Customer / Area Code", .range 1 4, .f003⟩,  -- L44
  ⟨py!"Section Code", .range 4 6, .f004⟩,  -- L45
  ⟨py!"Region Code", .range 6 10, .ident 41⟩,  -- L46
  ⟨py!"ICAO Code", .range 10 12, .ident 14⟩,  -- L47
  ⟨py!"Duplicate Identifier", .range 27 29, .ident 114⟩,  -- L48
  ⟨py!"Fix Identifier", .range 29 34, .ident 13⟩,  -- L49
  ⟨py!"ICAO Code (2)", .range 34 36, .ident 14⟩,  -- L50
  ⟨py!"Section Code (2)", .range 36 38, .f004⟩,  -- L51
  ⟨py!"Continuation Record No", .at 38, .f016⟩,  -- L52
  ⟨py!"Inbound Holding Course", .range 39 43, .f062⟩,  -- L53
  ⟨py!"Turn Direction", .at 43, .ident 63⟩,  -- L54
  ⟨py!"Leg Length", .range 44 47, .ident 64⟩,  -- L55
  ⟨py!"Leg Time", .range 47 49, .f065⟩,  -- L56
  ⟨py!"Minimum Altitude", .range 49 54, .f030⟩,  -- L57
  ⟨py!"Maximum Altitude", .range 54 59, .f127⟩,  -- L58
  ⟨py!"Holding Speed", .range 59 62, .ident 175⟩,  -- L59
  ⟨py!"RNP", .range 62 65, .ident 211⟩,  -- L60
  ⟨py!"Arc Radius", .range 65 71, .ident 204⟩,  -- L61
  ⟨py!"Name", .range 98 123, .ident 60⟩,  -- L62
  ⟨py!"File Record No", .range 123 128, .ident 31⟩,  -- L63
  ⟨py!"Cycle Date", .range 128 132, .f032⟩  -- L64
]

/-- definitions/HoldingPattern.py:68-84 `HoldingPattern.read_cont` -/
def HoldingPattern.read_cont : Layout := [
  ⟨py!"Record Type", .at 0, .f002⟩,  -- L70
  ⟨py!"Customer / Area Code", .range 1 4, .f003⟩,  -- L71
  ⟨py!"Section Code", .range 4 6, .f004⟩,  -- L72
  ⟨py!"Region Code", .range 6 10, .ident 41⟩,  -- L73
  ⟨py!"ICAO Code", .range 10 12, .ident 14⟩,  -- L74
  ⟨py!"Duplicate Identifier", .range 27 29, .ident 114⟩,  -- L75
  ⟨py!"Fix Identifier", .range 29 34, .ident 13⟩,  -- L76
  ⟨py!"ICAO Code (2)", .range 34 36, .ident 14⟩,  -- L77
  ⟨py!"Section Code (2)", .range 36 38, .f004⟩,  -- L78
  ⟨py!"Continuation Record No", .at 38, .f016⟩,  -- L79
  ⟨py!"Application Type", .at 40, .f091⟩,  -- L80
  ⟨py!"Notes", .range 40 109, .ident 61⟩,  -- L81
  ⟨py!"File Record No", .range 123 128, .ident 31⟩,  -- L82
  ⟨py!"Cycle Date", .range 128 132, .f032⟩  -- L83
]

/-- definitions/LocalizerGlideslope.py:31-61 `LocalizerGlideslope.read_primary` -/
def LocalizerGlideslope.read_primary : Layout := [
  ⟨py!"Record Type", .at 0, .f002⟩,  -- L33
  ⟨py!"Customer / Area Code", .range 1 4, .f003⟩,  -- L34
  ⟨py!"Section Code", .pair 4 12, .f004⟩,  -- L35
  ⟨py!"Airport Identifier", .range 6 10, .ident 6⟩,  -- L36
  ⟨py!"ICAO Code", .range 10 12, .ident 14⟩,  -- L37
  ⟨py!"Localizer Identifier", .range 13 17, .ident 44⟩,  -- L38
  ⟨py!"ILS Category", .at 17, .ident 80⟩,  -- L39
  ⟨py!"Continuation Record No", .at 21, .f016⟩,  -- L40
  ⟨py!"Localizer Frequency", .range 22 27, .f045⟩,  -- L41
  ⟨py!"Runway Identifier", .range 27 32, .ident 46⟩,  -- L42
  ⟨py!"Localizer Latitude", .range 32 41, .ident 36⟩,  -- L43
  ⟨py!"Localizer Longitude", .range 41 51, .ident 37⟩,  -- L44
  ⟨py!"Localizer Bearing", .range 51 55, .ident 47⟩,  -- L45
  ⟨py!"Glide Slope Latitude", .range 55 64, .ident 36⟩,  -- L46
  ⟨py!"Glide Slope Longitude", .range 64 74, .ident 37⟩,  -- L47
  ⟨py!"Localizer Position", .range 74 78, .f048⟩,  -- L48
  ⟨py!"Localizer Position Reference", .at 78, .f049⟩,  -- L49
  ⟨py!"Glide Slope Position", .range 79 83, .f050⟩,  -- L50
  ⟨py!"Localizer Width", .range 83 87, .ident 51⟩,  -- L51
  ⟨py!"Glide Slope Angle", .range 87 90, .ident 52⟩,  -- L52
  ⟨py!"Station Declination", .range 90 95, .ident 66⟩,  -- L53
  ⟨py!"Glide Slope Height at Landing Threshold", .range 95 97, .ident 67⟩,  -- L54
  ⟨py!"Glide Slope Elevation", .range 97 102, .ident 74⟩,  -- L55
  ⟨py!"Supporting Facility ID Note 1", .range 102 106, .ident 33⟩,  -- L56
  ⟨py!"Supporting Facility ICAO Code Note 1", .range 106 108, .ident 14⟩,  -- L57
  ⟨py!"Supporting Facility Section Code Note 1", .range 108 110, .f004⟩,  -- L58
  ⟨py!"File Record No", .range 123 128, .ident 31⟩,  -- L59
  ⟨py!"Cycle Date", .range 128 132, .f032⟩  -- L60
]

/-- definitions/LocalizerGlideslope.py:64-77 `LocalizerGlideslope.read_cont` -/
def LocalizerGlideslope.read_cont : Layout := [
  ⟨py!"Record Type", .at 0, .f002⟩,  -- L66
  ⟨py!"Customer / Area Code", .range 1 4, .f003⟩,  -- L67
  ⟨py!"Section Code", .pair 4 12, .f004⟩,  -- L68
  ⟨py!"Airport Identifier", .range 6 10, .ident 6⟩,  -- L69
  ⟨py!"ICAO Code", .range 10 12, .ident 14⟩,  -- L70
  ⟨py!"Localizer Identifier", .range 13 17, .ident 44⟩,  -- L71
  ⟨py!"ILS Category", .at 17, .ident 80⟩,  -- L72
  ⟨py!"Continuation Record No", .at 21, .f016⟩,  -- L73
  ⟨py!"Notes", .range 23 92, .ident 61⟩,  -- L74
  ⟨py!"File Record No", .range 123 128, .ident 31⟩,  -- L75
  ⟨py!"Cycle Date", .range 128 132, .f032⟩  -- L76
]

/-- definitions/LocalizerGlideslope.py:80-103 `LocalizerGlideslope.read_sim` -/
def LocalizerGlideslope.read_sim : Layout := [
  ⟨py!"Record Type", .at 0, .f002⟩,  -- L82
  ⟨py!"Customer / Area Code", .range 1 4, .f003⟩,  -- L83
  ⟨py!"Section Code", .pair 4 12, .f004⟩,  -- L84
  ⟨py!"Airport Identifier", .range 6 10, .ident 6⟩,  -- L85
  ⟨py!"ICAO Code", .range 10 12, .ident 14⟩,  -- L86
  ⟨py!"Localizer Identifier", .range 13 17, .ident 44⟩,  -- L87
  ⟨py!"ILS Category", .at 17, .ident 80⟩,  -- L88
  ⟨py!"Continuation Record No", .at 21, .f016⟩,  -- L89
  ⟨py!"Application Type", .at 22, .f091⟩,  -- L90
  ⟨py!"Facility Characteristics", .range 27 32, .ident 93⟩,  -- L92
  ⟨py!"Localizer True Bearing", .range 51 56, .ident 94⟩,  -- L93
  ⟨py!"Localizer Bearing Source", .at 56, .ident 95⟩,  -- L94
  ⟨py!"Glide Slope Beam Width", .range 87 90, .ident 96⟩,  -- L95
  ⟨py!"Approach Route Ident", .range 90 96, .f010⟩,  -- L96
  ⟨py!"Approach Route Ident (2)", .range 96 102, .f010⟩,  -- L97
  ⟨py!"Approach Route Ident (3)", .range 102 108, .f010⟩,  -- L98
  ⟨py!"Approach Route Ident (4)", .range 108 114, .f010⟩,  -- L99
  ⟨py!"Approach Route Ident (5)", .range 114 120, .f010⟩,  -- L100
  ⟨py!"File Record No", .range 123 128, .ident 31⟩,  -- L101
  ⟨py!"Cycle Date", .range 128 132, .f032⟩  -- L102
]

/-- definitions/LocalizerMarker.py:29-53 `LocalizerMarker.read_primary` -/
def LocalizerMarker.read_primary : Layout := [
  ⟨py!"Record Type", .at 0, .f002⟩,  -- L31
  ⟨py!"Customer / Area Code", .range 1 4, .f003⟩,  -- L32
  ⟨py!"Section Code", .pair 4 12, .f004⟩,  -- L33
  ⟨py!"Airport Identifier", .range 6 10, .ident 6⟩,  -- L34
  ⟨py!"ICAO Code", .range 10 12, .ident 14⟩,  -- L35
  ⟨py!"Localizer Identifier", .range 13 17, .ident 44⟩,  -- L36
  ⟨py!"Marker Type", .range 17 20, .ident 99⟩,  -- L37
  ⟨py!"Continuation Record No", .at 21, .f016⟩,  -- L38
  ⟨py!"Locator Frequency", .range 22 27, .f034⟩,  -- L39
  ⟨py!"Runway Identifier", .range 27 32, .ident 46⟩,  -- L40
  ⟨py!"Marker Latitude", .range 32 41, .ident 36⟩,  -- L41
  ⟨py!"Marker Longitude", .range 41 51, .ident 37⟩,  -- L42
  ⟨py!"Minor Axis Bearing", .range 51 55, .ident 100⟩,  -- L43
  ⟨py!"Locator Latitude", .range 55 64, .ident 36⟩,  -- L44
  ⟨py!"Locator Longitude", .range 64 74, .ident 37⟩,  -- L45
  ⟨py!"Localizer Class", .range 74 79, .ident 35⟩,  -- L46
  ⟨py!"Localizer Facility Characteristics", .range 79 83, .ident 93⟩,  -- L47
  ⟨py!"Localizer Identifier (2)", .range 84 88, .ident 33⟩,  -- L48
  ⟨py!"Magnetic Variation", .range 90 95, .f039⟩,  -- L49
  ⟨py!"Facility Elevation", .range 97 102, .f092⟩,  -- L50
  ⟨py!"File Record No", .range 123 128, .ident 31⟩,  -- L51
  ⟨py!"Cycle Date", .range 128 132, .f032⟩  -- L52
]

/-- definitions/LocalizerMarker.py:56-69 `LocalizerMarker.read_cont` -/
def LocalizerMarker.read_cont : Layout := [
  ⟨py!"Record Type", .at 0, .f002⟩,  -- L58
  ⟨py!"Customer / Area Code", .range 1 4, .f003⟩,  -- L59
  ⟨py!"Section Code", .pair 4 12, .f004⟩,  -- L60
  ⟨py!"Airport Identifier", .range 6 10, .ident 6⟩,  -- L61
  ⟨py!"ICAO Code", .range 10 12, .ident 14⟩,  -- L62
  ⟨py!"Localizer Identifier", .range 13 17, .ident 44⟩,  -- L63
  ⟨py!"Marker Type", .range 17 20, .ident 99⟩,  -- L64
  ⟨py!"Continuation Record No", .at 21, .f016⟩,  -- L65
  ⟨py!"Application Type", .at 22, .f091⟩,  -- L66
  ⟨py!"File Record No", .range 123 128, .ident 31⟩,  -- L67
  ⟨py!"Cycle Date", .range 128 132, .f032⟩  -- L68
]

/-- definitions/MLS.py:30-64 `MLS.read_primary` -/
def MLS.read_primary : Layout := [
  ⟨py!"Record Type", .at 0, .f002⟩,  -- L32
  ⟨py!"Customer / Area Code", .range 1 4, .f003⟩,  -- L33
  ⟨py!"Section Code", .pair 4 12, .f004⟩,  -- L34
  ⟨py!"Airport Identifier", .range 6 10, .ident 6⟩,  -- L35
  ⟨py!"ICAO Code", .range 10 12, .ident 14⟩,  -- L36
  ⟨py!"MLS Identifier", .range 13 17, .ident 44⟩,  -- L37
  ⟨py!"MLS Category", .at 17, .ident 80⟩,  -- L38
  ⟨py!"Continuation Record No", .at 21, .f016⟩,  -- L39
  ⟨py!"Channel", .range 22 25, .ident 166⟩,  -- L40
  ⟨py!"Runway Identifier", .range 27 32, .ident 46⟩,  -- L41
  ⟨py!"Azimuth Latitude", .range 32 41, .ident 36⟩,  -- L42
  ⟨py!"Azimuth Longitude", .range 41 51, .ident 37⟩,  -- L43
  ⟨py!"Azimuth Bearing", .range 51 55, .ident 167⟩,  -- L44
  ⟨py!"Elevation Latitude", .range 55 64, .ident 36⟩,  -- L45
  ⟨py!"Elevation Longitude", .range 64 74, .ident 37⟩,  -- L46
  ⟨py!"Azimuth Position", .range 74 78, .f048⟩,  -- L47
  ⟨py!"Azimuth Position Reference", .at 78, .f049⟩,  -- L48
  ⟨py!"Elevation Position", .range 79 83, .f050⟩,  -- L49
  ⟨py!"Azimuth Proportional Angle Right", .range 83 86, .ident 168⟩,  -- L50
  ⟨py!"Azimuth Proportional Angle Left", .range 86 89, .ident 168⟩,  -- L51
  ⟨py!"Azimuth Coverage Right", .range 89 92, .ident 172⟩,  -- L52
  ⟨py!"Azimuth Coverage Left", .range 92 95, .ident 172⟩,  -- L53
  ⟨py!"Elevation Angle Span", .range 95 98, .ident 169⟩,  -- L54
  ⟨py!"Magnetic Variation", .range 98 103, .f039⟩,  -- L55
  ⟨py!"EL Elevation", .range 103 108, .ident 74⟩,  -- L56
  ⟨py!"Nominal Elevation Angle", .range 108 112, .ident 173⟩,  -- L57
  ⟨py!"Minimum Glide Path Angle", .range 112 115, .ident 52⟩,  -- L58
  ⟨py!"Supporting Facility Identifier", .range 115 119, .ident 33⟩,  -- L59
  ⟨py!"Supporting Facility ICAO Code", .range 119 121, .ident 14⟩,  -- L60
  ⟨py!"Supporting Facility Section", .range 121 123, .f004⟩,  -- L61
  ⟨py!"File Record No", .range 123 128, .ident 31⟩,  -- L62
  ⟨py!"Cycle Date", .range 128 132, .f032⟩  -- L63
]

/-- definitions/MLS.py:67-97 `MLS.read_cont` -/
def MLS.read_cont : Layout := [
  ⟨py!"Record Type", .at 0, .f002⟩,  -- L69
  ⟨py!"Customer / Area Code", .range 1 4, .f003⟩,  -- L70
  ⟨py!"Section Code", .pair 4 12, .f004⟩,  -- L71
  ⟨py!"Airport Identifier", .range 6 10, .ident 6⟩,  -- L72
  ⟨py!"ICAO Code", .range 10 12, .ident 14⟩,  -- L73
  ⟨py!"MLS Identifier", .range 13 17, .ident 44⟩,  -- L74
  ⟨py!"MLS Category", .at 17, .ident 80⟩,  -- L75
  ⟨py!"Continuation Record No", .at 21, .f016⟩,  -- L76
  ⟨py!"Application Type", .at 22, .f091⟩,  -- L77
  ⟨py!"Facility Characteristics", .range 27 32, .ident 93⟩,  -- L78
  ⟨py!"Back Azimuth Latitude", .range 32 41, .ident 36⟩,  -- L79
  ⟨py!"Back Azimuth Longitude", .range 41 51, .ident 37⟩,  -- L80
  ⟨py!"Back Azimuth Bearing", .range 51 55, .ident 167⟩,  -- L81
  ⟨py!"MLS Datum Point Latitude", .range 55 64, .ident 36⟩,  -- L82
  ⟨py!"MLS Datum Point Longitude", .range 64 74, .ident 37⟩,  -- L83
  ⟨py!"Back Azimuth Position", .range 74 78, .f048⟩,  -- L84
  ⟨py!"Back Azimuth Position Reference", .at 78, .f049⟩,  -- L85
  ⟨py!"Back Azimuth Proportional Angle Right", .range 83 86, .ident 168⟩,  -- L86
  ⟨py!"Back Azimuth Proportional Angle Left", .range 86 89, .ident 168⟩,  -- L87
  ⟨py!"Back Azimuth Coverage Right", .range 89 92, .ident 172⟩,  -- L88
  ⟨py!"Back Azimuth Coverage Left", .range 92 95, .ident 172⟩,  -- L89
  ⟨py!"Back Azimuth True Bearing", .range 95 98, .ident 94⟩,  -- L90
  ⟨py!"Back Azimuth Bearing Source", .at 100, .ident 95⟩,  -- L91
  ⟨py!"Azimuth True Bearing", .range 101 106, .ident 94⟩,  -- L92
  ⟨py!"Azimuth Bearing Source", .at 106, .ident 95⟩,  -- L93
  ⟨py!"Glide Path Height at Landing Threshold", .range 107 109, .ident 67⟩,  -- L94
  ⟨py!"File Record No", .range 123 128, .ident 31⟩,  -- L95
  ⟨py!"Cycle Date", .range 128 132, .f032⟩  -- L96
]

/-- definitions/MSA.py:34-70 `MSA.read_primary` -/
def MSA.read_primary (id_name : Str) : Layout := [
  ⟨py!"Record Type", .at 0, .f002⟩,  -- L36
  ⟨py!"Customer / Area Code", .range 1 4, .f003⟩,  -- L37
  ⟨py!"Section Code", .pair 4 12, .f004⟩,  -- L38
  ⟨id_name, .range 6 10, .ident 6⟩,  -- L39
  ⟨py!"ICAO Code", .range 10 12, .ident 14⟩,  -- L40
  ⟨py!"MSA Center", .range 13 17, .ident 144⟩,  -- L41
  ⟨py!"ICAO Code (2)", .range 18 20, .ident 14⟩,  -- L42
  ⟨py!"Section Code (2)", .range 20 22, .f004⟩,  -- L43
  ⟨py!"Multiple Code", .at 22, .ident 130⟩,  -- L44
  ⟨py!"Continuation Record No", .at 38, .f016⟩,  -- L45
  ⟨py!"Sector Bearing", .range 42 48, .ident 146⟩,  -- L46
  ⟨py!"Sector Altitude", .range 48 51, .f147⟩,  -- L47
  ⟨py!"Sector Radius", .range 51 53, .ident 145⟩,  -- L48
  ⟨py!"Sector Bearing (2)", .range 53 59, .ident 146⟩,  -- L49
  ⟨py!"Sector Altitude (2)", .range 59 62, .f147⟩,  -- L50
  ⟨py!"Sector Radius (2)", .range 62 64, .ident 145⟩,  -- L51
  ⟨py!"Sector Bearing (3)", .range 64 70, .ident 146⟩,  -- L52
  ⟨py!"Sector Altitude (3)", .range 70 73, .f147⟩,  -- L53
  ⟨py!"Sector Radius (3)", .range 73 75, .ident 145⟩,  -- L54
  ⟨py!"Sector Bearing (4)", .range 75 81, .ident 146⟩,  -- L55
  ⟨py!"Sector Altitude (4)", .range 81 84, .f147⟩,  -- L56
  ⟨py!"Sector Radius (4)", .range 84 86, .ident 145⟩,  -- L57
  ⟨py!"Sector Bearing (5)", .range 86 92, .ident 146⟩,  -- L58
  ⟨py!"Sector Altitude (5)", .range 92 95, .f147⟩,  -- L59
  ⟨py!"Sector Radius (5)", .range 95 97, .ident 145⟩,  -- L60
  ⟨py!"Sector Bearing (6)", .range 97 103, .ident 146⟩,  -- L61
  ⟨py!"Sector Altitude (6)", .range 103 106, .f147⟩,  -- L62
  ⟨py!"Sector Radius (6)", .range 106 108, .ident 145⟩,  -- L63
  ⟨py!"Sector Bearing (7)", .range 108 114, .ident 146⟩,  -- L64
  ⟨py!"Sector Altitude (7)", .range 114 117, .f147⟩,  -- L65
  ⟨py!"Sector Radius (7)", .range 117 119, .ident 145⟩,  -- L66
  ⟨py!"Magnetic/True Bearing", .at 119, .f165⟩,  -- L67
  ⟨py!"File Record No", .range 123 128, .ident 31⟩,  -- L68
  ⟨py!"Cycle Date", .range 128 132, .f032⟩  -- L69
]

/-- definitions/MSA.py:72-88 `MSA.read_cont` -/
def MSA.read_cont (id_name : Str) : Layout := [
  ⟨py!"Record Type", .at 0, .f002⟩,  -- L74
  ⟨py!"Customer / Area Code", .range 1 4, .f003⟩,  -- L75
  ⟨py!"Section Code", .pair 4 12, .f004⟩,  -- L76
  ⟨id_name, .range 6 10, .ident 6⟩,  -- L77
  ⟨py!"ICAO Code", .range 10 12, .ident 14⟩,  -- L78
  ⟨py!"MSA Center", .range 13 17, .ident 144⟩,  -- L79
  ⟨py!"ICAO Code (2)", .range 18 20, .ident 14⟩,  -- L80
  ⟨py!"Section Code (2)", .range 20 22, .f004⟩,  -- L81
  ⟨py!"Multiple Code", .at 22, .ident 130⟩,  -- L82
  ⟨py!"Continuation Record No", .at 38, .f016⟩,  -- L83
  ⟨py!"Application Type", .at 39, .f091⟩,  -- L84
  ⟨py!"Notes", .range 40 109, .ident 61⟩,  -- L85
  ⟨py!"File Record No", .range 123 128, .ident 31⟩,  -- L86
  ⟨py!"Cycle Date", .range 128 132, .f032⟩  -- L87
]

/-- definitions/NDBNavaid.py:35-54 `NDBNavaid.read_primary` -/
def NDBNavaid.read_primary : Layout := [
  ⟨py!"Record Type", .at 0, .f002⟩,  -- L37
  ⟨py!"Customer / Area Code", .range 1 4, .f003⟩,  -- L38
  ⟨py!"Section Code", .range 4 6, .f004⟩,  -- L39
  ⟨py!"Airport ICAO Identifier", .range 6 10, .ident 6⟩,  -- L40
  ⟨py!"ICAO Code", .range 10 12, .ident 14⟩,  -- L41
  ⟨py!"NDB Identifier", .range 13 17, .ident 33⟩,  -- L42
  ⟨py!"ICAO Code (2)", .range 19 21, .ident 14⟩,  -- L43
  ⟨py!"Continuation Record No", .at 21, .f016⟩,  -- L44
  ⟨py!"NDB Frequency", .range 22 27, .f034⟩,  -- L45
  ⟨py!"NDB Class", .range 27 31, .ident 35⟩,  -- L46
  ⟨py!"NDB Latitude", .range 32 41, .ident 36⟩,  -- L47
  ⟨py!"NDB Longitude", .range 41 51, .ident 37⟩,  -- L48
  ⟨py!"Magnetic Variation", .range 74 79, .f039⟩,  -- L49
  ⟨py!"Datum Code", .range 90 93, .ident 197⟩,  -- L50
  ⟨py!"NDB Name", .range 93 123, .ident 71⟩,  -- L51
  ⟨py!"File Record No", .range 123 128, .ident 31⟩,  -- L52
  ⟨py!"Cycle Date", .range 128 132, .f032⟩  -- L53
]

/-- definitions/NDBNavaid.py:57-71 `NDBNavaid.read_cont` -/
def NDBNavaid.read_cont : Layout := [
  ⟨py!"Record Type", .at 0, .f002⟩,  -- L59
  ⟨py!"Customer / Area Code", .range 1 4, .f003⟩,  -- L60
  ⟨py!"Section Code", .range 4 6, .f004⟩,  -- L61
  ⟨py!"Airport ICAO Identifier", .range 6 10, .ident 6⟩,  -- L62
  ⟨py!"ICAO Code", .range 10 12, .ident 14⟩,  -- L63
  ⟨py!"NDB Identifier", .range 13 17, .ident 33⟩,  -- L64
  ⟨py!"ICAO Code (2)", .range 19 21, .ident 14⟩,  -- L65
  ⟨py!"Continuation Record No", .at 21, .f016⟩,  -- L66
  ⟨py!"Application Type", .at 22, .f091⟩,  -- L67
  ⟨py!"Notes", .range 23 92, .ident 61⟩,  -- L68
  ⟨py!"File Record No", .range 123 128, .ident 31⟩,  -- L69
  ⟨py!"Cycle Date", .range 128 132, .f032⟩  -- L70
]

/-- definitions/NDBNavaid.py:74-89 `NDBNavaid.read_sim` -/
def NDBNavaid.read_sim : Layout := [
  ⟨py!"Record Type", .at 0, .f002⟩,  -- L76
  ⟨py!"Customer / Area Code", .range 1 4, .f003⟩,  -- L77
  ⟨py!"Section Code", .range 4 6, .f004⟩,  -- L78
  ⟨py!"Airport ICAO Identifier", .range 6 10, .ident 6⟩,  -- L79
  ⟨py!"ICAO Code", .range 10 12, .ident 14⟩,  -- L80
  ⟨py!"NDB Identifier", .range 13 17, .ident 33⟩,  -- L81
  ⟨py!"ICAO Code (2)", .range 19 21, .ident 14⟩,  -- L82
  ⟨py!"Continuation Record No", .at 21, .f016⟩,  -- L83
  ⟨py!"Application Type", .at 22, .f091⟩,  -- L84
  ⟨py!"Facility Characteristics", .range 27 32, .ident 93⟩,  -- L85
  ⟨py!"Facility Elevation", .range 79 84, .f092⟩,  -- L86
  ⟨py!"File Record No", .range 123 128, .ident 31⟩,  -- L87
  ⟨py!"Cycle Date", .range 128 132, .f032⟩  -- L88
]

/-- definitions/NDBNavaid.py:92-109 `NDBNavaid.read_flight_plan0` -/
def NDBNavaid.read_flight_plan0 : Layout := [
  ⟨py!"Record Type", .at 0, .f002⟩,  -- L94
  ⟨py!"Customer / Area Code", .range 1 4, .f003⟩,  -- L95
  ⟨py!"Section Code", .range 4 6, .f004⟩,  -- L96
  ⟨py!"Airport ICAO Identifier", .range 6 10, .ident 6⟩,  -- L97
  ⟨py!"ICAO Code", .range 10 12, .ident 14⟩,  -- L98
  ⟨py!"NDB Identifier", .range 13 17, .ident 33⟩,  -- L99
  ⟨py!"ICAO Code (2)", .range 19 21, .ident 14⟩,  -- L100
  ⟨py!"Continuation Record No", .at 21, .f016⟩,  -- L101
  ⟨py!"Application Type", .at 22, .f091⟩,  -- L102
  ⟨py!"FIR Identifier", .range 23 27, .ident 116⟩,  -- L103
  ⟨py!"UIR Identifier", .range 28 31, .ident 116⟩,  -- L104
  ⟨py!"Start/End Indicator", .at 32, .ident 152⟩,  -- L105
  ⟨py!"Start/End Date", .range 32 43, .ident 153⟩,  -- L106
  ⟨py!"File Record No", .range 123 128, .ident 31⟩,  -- L107
  ⟨py!"Cycle Date", .range 128 132, .f032⟩  -- L108
]

/-- definitions/NDBNavaid.py:112-131 `NDBNavaid.read_flight_plan1` -/
def NDBNavaid.read_flight_plan1 : Layout := [
  ⟨py!"Record Type", .at 0, .f002⟩,  -- L114
  ⟨py!"Customer / Area Code", .range 1 4, .f003⟩,  -- L115
  ⟨py!"Section Code", .range 4 6, .f004⟩,  -- L116
  ⟨py!"Airport ICAO Identifier", .range 6 10, .ident 6⟩,  -- L117
  ⟨py!"ICAO Code", .range 10 12, .ident 14⟩,  -- L118
  ⟨py!"NDB Identifier", .range 13 17, .ident 33⟩,  -- L119
  ⟨py!"ICAO Code (2)", .range 19 21, .ident 14⟩,  -- L120
  ⟨py!"Continuation Record No", .at 21, .f016⟩,  -- L121
  ⟨py!"NDB Frequency", .range 22 27, .f034⟩,  -- L122
  ⟨py!"NDB Class", .range 27 31, .ident 35⟩,  -- L123
  ⟨py!"NDB Latitude", .range 32 41, .ident 36⟩,  -- L124
  ⟨py!"NDB Longitude", .range 41 51, .ident 37⟩,  -- L125
  ⟨py!"Magnetic Variation", .range 74 79, .f039⟩,  -- L126
  ⟨py!"Datum Code", .range 90 93, .ident 197⟩,  -- L127
  ⟨py!"NDB Name", .range 93 123, .ident 71⟩,  -- L128
  ⟨py!"File Record No", .range 123 128, .ident 31⟩,  -- L129
  ⟨py!"Cycle Date", .range 128 132, .f032⟩  -- L130
]

/-- definitions/PathPoint.py:29-60 `PathPoint.read_primary` -/
def PathPoint.read_primary : Layout := [
  ⟨py!"Record Type", .at 0, .f002⟩,  -- L31
  ⟨py!"Customer / Area Code", .range 1 4, .f003⟩,  -- L32
  ⟨py!"Section Code", .pair 4 12, .f004⟩,  -- L33
  ⟨py!"Airport Identifier", .range 6 10, .ident 6⟩,  -- L34
  ⟨py!"ICAO Code", .range 10 12, .ident 14⟩,  -- L35
  ⟨py!"Approach Procedure Ident", .range 13 19, .f010⟩,  -- L36
  ⟨py!"Runway or Helipad Ident", .range 19 24, .ident 46⟩,  -- L37
  ⟨py!"Operation Type", .range 24 26, .ident 223⟩,  -- L38
  ⟨py!"Continuation Record No", .at 26, .f016⟩,  -- L39
  ⟨py!"Route Identifier", .at 27, .ident 224⟩,  -- L40
  ⟨py!"SBAS Service Provider Ident", .range 28 30, .ident 255⟩,  -- L41
  ⟨py!"Reference Path Data Selector", .range 30 32, .ident 256⟩,  -- L42
  ⟨py!"Reference Path Identifier", .range 32 36, .ident 257⟩,  -- L43
  ⟨py!"Approach Performance Designator", .at 36, .ident 258⟩,  -- L44
  ⟨py!"Landing Threshold Point Latitude", .range 37 48, .ident 267⟩,  -- L45
  ⟨py!"Landing Threshold Point Longitude", .range 48 60, .ident 268⟩,  -- L46
  ⟨py!"(LTP) Ellipsoid Height", .range 60 66, .ident 225⟩,  -- L47
  ⟨py!"Glide Path Angle", .range 66 70, .ident 226⟩,  -- L48
  ⟨py!"Flight Path Alignment Point Latitude", .range 70 81, .ident 267⟩,  -- L49
  ⟨py!"Flight Path Alignment Point Longitude", .range 81 93, .ident 268⟩,  -- L50
  ⟨py!"Course Width at Threshold Note 4", .range 93 98, .ident 228⟩,  -- L51
  ⟨py!"Length Offset", .range 98 102, .ident 259⟩,  -- L52
  ⟨py!"Path Point TCH", .range 102 108, .ident 265⟩,  -- L53
  ⟨py!"TCH Units Indicator", .at 108, .ident 266⟩,  -- L54
  ⟨py!"HAL", .range 109 112, .ident 263⟩,  -- L55
  ⟨py!"VAL", .range 112 115, .ident 264⟩,  -- L56
  ⟨py!"SBAS FAS Data CRC Remainder", .range 115 123, .ident 229⟩,  -- L57
  ⟨py!"File Record No", .range 123 128, .ident 31⟩,  -- L58
  ⟨py!"Cycle Date", .range 128 132, .f032⟩  -- L59
]

/-- definitions/PathPoint.py:63-83 `PathPoint.read_cont` -/
def PathPoint.read_cont : Layout := [
  ⟨py!"Record Type", .at 0, .f002⟩,  -- L65
  ⟨py!"Customer / Area Code", .range 1 4, .f003⟩,  -- L66
  ⟨py!"Section Code", .pair 4 12, .f004⟩,  -- L67
  ⟨py!"Airport Identifier", .range 6 10, .ident 6⟩,  -- L68
  ⟨py!"ICAO Code", .range 10 12, .ident 14⟩,  -- L69
  ⟨py!"Approach Procedure Ident", .range 13 19, .f010⟩,  -- L70
  ⟨py!"Runway or Helipad Ident", .range 19 24, .ident 46⟩,  -- L71
  ⟨py!"Operation Type", .range 24 26, .ident 223⟩,  -- L72
  ⟨py!"Continuation Record No", .at 26, .f016⟩,  -- L73
  ⟨py!"Application Type", .at 27, .f091⟩,  -- L74
  ⟨py!"(FPAP) Ellipsoid Height", .range 28 34, .ident 225⟩,  -- L75
  ⟨py!"(FPAP) Orthometric Height", .range 34 40, .ident 227⟩,  -- L76
  ⟨py!"(LTP) Orthometric Height", .range 40 46, .ident 227⟩,  -- L77
  ⟨py!"Approach Type Identifier", .range 46 56, .ident 262⟩,  -- L78
  ⟨py!"GNSS Channel Number", .range 56 61, .ident 244⟩,  -- L79
  ⟨py!"Helicopter Procedure Course", .range 71 74, .f269⟩,  -- L80
  ⟨py!"File Record No", .range 123 128, .ident 31⟩,  -- L81
  ⟨py!"Cycle Date", .range 128 132, .f032⟩  -- L82
]

/-- definitions/PreferredRoute.py:35-68 `PreferredRoute.read_primary` -/
def PreferredRoute.read_primary : Layout := [
  ⟨py!"Record Type", .at 0, .f002⟩,  -- L37
  ⟨py!"Customer / Area Code", .range 1 4, .f003⟩,  -- L38
  ⟨py!"Section Code", .range 4 6, .f004⟩,  -- L39
  ⟨py!"Route Identifier", .range 13 23, .f008⟩,  -- L40
  ⟨py!"Preferred Route Use Ind", .range 23 25, .ident 220⟩,  -- L41
  ⟨py!"Sequence Number", .range 25 29, .f012⟩,  -- L42
  ⟨py!"Continuation Record No", .at 38, .f016⟩,  -- L43
  ⟨py!"To Fix Identifier", .range 39 44, .ident 83⟩,  -- L44
  ⟨py!"ICAO Code", .range 44 46, .ident 14⟩,  -- L45
  ⟨py!"Section Code (2)", .range 46 48, .f004⟩,  -- L46
  ⟨py!"VIA Code", .range 48 51, .ident 77⟩,  -- L47
  ⟨py!"SID/STAR/AWY Ident", .range 51 57, .ident 78⟩,  -- L48
  ⟨py!"AREA Code", .range 57 60, .f003⟩,  -- L49
  ⟨py!"Level", .at 60, .ident 19⟩,  -- L50
  ⟨py!"Route Type", .at 61, .f007⟩,  -- L51
  ⟨py!"Initial Airport/Fix", .range 62 67, .ident 194⟩,  -- L52
  ⟨py!"ICAO Code", .range 67 69, .ident 14⟩,  -- L53
  ⟨py!"Section Code", .range 69 71, .f004⟩,  -- L54
  ⟨py!"Terminus Airport/Fix", .range 71 76, .ident 194⟩,  -- L55
  ⟨py!"ICAO Code", .range 76 78, .ident 14⟩,  -- L56
  ⟨py!"Section Code", .range 78 80, .f004⟩,  -- L57
  ⟨py!"Minimum Altitude", .range 80 85, .f030⟩,  -- L58
  ⟨py!"Maximum Altitude", .range 85 90, .f127⟩,  -- L59
  ⟨py!"Time Code", .at 90, .ident 131⟩,  -- L60
  ⟨py!"Aircraft Use Group", .range 91 93, .ident 221⟩,  -- L61
  ⟨py!"Direction Restriction", .at 93, .ident 115⟩,  -- L62
  ⟨py!"Altitude Description", .at 94, .f029⟩,  -- L63
  ⟨py!"Altitude One", .range 95 100, .f030⟩,  -- L64
  ⟨py!"Altitude Two", .range 100 105, .f030⟩,  -- L65
  ⟨py!"File Record No", .range 123 128, .ident 31⟩,  -- L66
  ⟨py!"Cycle Date", .range 128 132, .f032⟩  -- L67
]

/-- definitions/PreferredRoute.py:71-92 `PreferredRoute.read_timeop` -/
def PreferredRoute.read_timeop : Layout := [
  ⟨py!"Record Type", .at 0, .f002⟩,  -- L73
  ⟨py!"Customer / Area Code", .range 1 4, .f003⟩,  -- L74
  ⟨py!"Section Code", .range 4 6, .f004⟩,  -- L75
  ⟨py!"Route Identifier", .range 13 23, .f008⟩,  -- L76
  ⟨py!"Preferred Route Use Ind", .range 23 25, .ident 220⟩,  -- L77
  ⟨py!"Sequence Number", .range 25 29, .f012⟩,  -- L78
  ⟨py!"Continuation Record No", .at 38, .f016⟩,  -- L79
  ⟨py!"Application Type", .at 39, .f091⟩,  -- L80
  ⟨py!"Time Code", .at 40, .ident 131⟩,  -- L81
  ⟨py!"Time Indicator", .at 41, .ident 138⟩,  -- L82
  ⟨py!"Time of Operation", .range 42 52, .ident 195⟩,  -- L83
  ⟨py!"Time of Operation (2)", .range 52 62, .ident 195⟩,  -- L84
  ⟨py!"Time of Operation (3)", .range 62 72, .ident 195⟩,  -- L85
  ⟨py!"Time of Operation (4)", .range 72 82, .ident 195⟩,  -- L86
  ⟨py!"Time of Operation (5)", .range 82 92, .ident 195⟩,  -- L87
  ⟨py!"Time of Operation (6)", .range 92 102, .ident 195⟩,  -- L88
  ⟨py!"Time of Operation (7)", .range 102 112, .ident 195⟩,  -- L89
  ⟨py!"File Record No", .range 123 128, .ident 31⟩,  -- L90
  ⟨py!"Cycle Date", .range 128 132, .f032⟩  -- L91
]

/-- definitions/PreferredRoute.py:95-108 `PreferredRoute.read_cont` -/
def PreferredRoute.read_cont : Layout := [
  ⟨py!"Record Type", .at 0, .f002⟩,  -- L97
  ⟨py!"Customer / Area Code", .range 1 4, .f003⟩,  -- L98
  ⟨py!"Section Code", .range 4 6, .f004⟩,  -- L99
  ⟨py!"Route Identifier", .range 13 23, .f008⟩,  -- L100
  ⟨py!"Preferred Route Use Ind", .range 23 25, .ident 220⟩,  -- L101
  ⟨py!"Sequence Number", .range 25 29, .f012⟩,  -- L102
  ⟨py!"Continuation Record No", .at 38, .f016⟩,  -- L103
  ⟨py!"Application Type", .at 39, .f091⟩,  -- L104
  ⟨py!"Notes", .range 40 109, .ident 61⟩,  -- L105
  ⟨py!"File Record No", .range 123 128, .ident 31⟩,  -- L106
  ⟨py!"Cycle Date", .range 128 132, .f032⟩  -- L107
]

/-- definitions/RestrictiveAirspace.py:33-61 `RestrictiveAirspace.read_primary` -/
def RestrictiveAirspace.read_primary : Layout := [
  ⟨py!"Record Type", .at 0, .f002⟩,  -- L35
  ⟨py!"Customer / Area Code", .range 1 4, .f003⟩,  -- L36
  ⟨py!"Section Code", .range 4 6, .f004⟩,  -- L37
  ⟨py!"ICAO Code", .range 6 8, .ident 14⟩,  -- L38
  ⟨py!"Restrictive Type", .at 8, .ident 128⟩,  -- L39
  ⟨py!"Restrictive Airspace Designation", .range 9 19, .ident 129⟩,  -- L40
  ⟨py!"Multiple Code", .at 19, .ident 130⟩,  -- L41
  ⟨py!"Sequence Number", .range 20 24, .f012⟩,  -- L42
  ⟨py!"Continuation Record No", .at 24, .f016⟩,  -- L43
  ⟨py!"Level", .at 25, .ident 19⟩,  -- L44
  ⟨py!"Time Code", .at 26, .ident 131⟩,  -- L45
  ⟨py!"NOTAM", .at 27, .ident 132⟩,  -- L46
  ⟨py!"Boundary Via", .range 30 32, .f118⟩,  -- L47
  ⟨py!"Latitude", .range 32 41, .ident 36⟩,  -- L48
  ⟨py!"Longitude", .range 41 51, .ident 37⟩,  -- L49
  ⟨py!"Arc Origin Latitude", .range 51 60, .ident 36⟩,  -- L50
  ⟨py!"Arc Origin Longitude", .range 60 70, .ident 37⟩,  -- L51
  ⟨py!"Arc Distance", .range 70 74, .ident 119⟩,  -- L52
  ⟨py!"Arc Bearing", .range 74 78, .ident 120⟩,  -- L53
  ⟨py!"Lower Limit", .range 82 86, .ident 121⟩,  -- L54
  ⟨py!"Unit Indicator", .at 86, .ident 133⟩,  -- L55
  ⟨py!"Upper Limit", .range 87 92, .ident 121⟩,  -- L56
  ⟨py!"Unit Indicator (2)", .at 92, .ident 133⟩,  -- L57
  ⟨py!"Restrictive Airspace Name", .range 93 123, .ident 126⟩,  -- L58
  ⟨py!"File Record No", .range 123 128, .ident 31⟩,  -- L59
  ⟨py!"Cycle Date", .range 128 132, .f032⟩  -- L60
]

/-- definitions/RestrictiveAirspace.py:64-89 `RestrictiveAirspace.read_time` -/
def RestrictiveAirspace.read_time : Layout := [
  ⟨py!"Record Type", .at 0, .f002⟩,  -- L66
  ⟨py!"Customer / Area Code", .range 1 4, .f003⟩,  -- L67
  ⟨py!"Section Code", .range 4 6, .f004⟩,  -- L68
  ⟨py!"ICAO Code", .range 6 8, .ident 14⟩,  -- L69
  ⟨py!"Restrictive Type", .at 8, .ident 128⟩,  -- L70
  ⟨py!"Restrictive Airspace Designation", .range 9 19, .ident 129⟩,  -- L71
  ⟨py!"Multiple Code", .at 19, .ident 130⟩,  -- L72
  ⟨py!"Sequence Number", .range 20 24, .f012⟩,  -- L73
  ⟨py!"Continuation Record No", .at 24, .f016⟩,  -- L74
  ⟨py!"Application Type", .at 25, .f091⟩,  -- L75
  ⟨py!"Time Code", .at 26, .ident 131⟩,  -- L76
  ⟨py!"NOTAM", .at 27, .ident 132⟩,  -- L77
  ⟨py!"Time Indicator", .at 27, .ident 138⟩,  -- L78
  ⟨py!"Time of Operations", .range 29 39, .ident 195⟩,  -- L79
  ⟨py!"Time of Operations (2)", .range 39 49, .ident 195⟩,  -- L80
  ⟨py!"Time of Operations (3)", .range 49 59, .ident 195⟩,  -- L81
  ⟨py!"Time of Operations (4)", .range 59 69, .ident 195⟩,  -- L82
  ⟨py!"Time of Operations (5)", .range 69 79, .ident 195⟩,  -- L83
  ⟨py!"Time of Operations (6)", .range 79 89, .ident 195⟩,  -- L84
  ⟨py!"Time of Operations (7)", .range 89 99, .ident 195⟩,  -- L85
  ⟨py!"Controlling Agency", .range 99 123, .ident 140⟩,  -- L86
  ⟨py!"File Record No", .range 123 128, .ident 31⟩,  -- L87
  ⟨py!"Cycle Date", .range 128 132, .f032⟩  -- L88
]

/-- definitions/RestrictiveAirspace.py:92-108 `RestrictiveAirspace.read_flight0` -/
def RestrictiveAirspace.read_flight0 : Layout := [
  ⟨py!"Record Type", .at 0, .f002⟩,  -- L94
  ⟨py!"Customer / Area Code", .range 1 4, .f003⟩,  -- L95
  ⟨py!"Section Code", .range 4 6, .f004⟩,  -- L96
  ⟨py!"ICAO Code", .range 6 8, .ident 14⟩,  -- L97
  ⟨py!"Restrictive Type", .at 8, .ident 128⟩,  -- L98
  ⟨py!"Restrictive Airspace Designation", .range 9 19, .ident 129⟩,  -- L99
  ⟨py!"Multiple Code", .at 19, .ident 130⟩,  -- L100
  ⟨py!"Sequence Number", .range 20 24, .f012⟩,  -- L101
  ⟨py!"Continuation Record No", .at 24, .f016⟩,  -- L102
  ⟨py!"Application Type", .at 25, .f091⟩,  -- L103
  ⟨py!"Start/End Indicator", .at 29, .ident 152⟩,  -- L104
  ⟨py!"Start/End Date", .range 30 41, .ident 153⟩,  -- L105
  ⟨py!"File Record No", .range 123 128, .ident 31⟩,  -- L106
  ⟨py!"Cycle Date", .range 128 132, .f032⟩  -- L107
]

/-- definitions/RestrictiveAirspace.py:113-138 `RestrictiveAirspace.read_callsign` -/
def RestrictiveAirspace.read_callsign : Layout := [
  ⟨py!"Record Type", .at 0, .f002⟩,  -- L115
  ⟨py!"Customer / Area Code", .range 1 4, .f003⟩,  -- L116
  ⟨py!"Section Code", .range 4 6, .f004⟩,  -- L117
  ⟨py!"ICAO Code", .range 6 8, .ident 14⟩,  -- L118
  ⟨py!"Restrictive Type", .at 8, .ident 128⟩,  -- L119
  ⟨py!"Restrictive Airspace Designation", .range 9 19, .ident 129⟩,  -- L120
  ⟨py!"Multiple Code", .at 19, .ident 130⟩,  -- L121
  ⟨py!"Sequence Number", .range 20 24, .f012⟩,  -- L122
  ⟨py!"Continuation Record No", .at 24, .f016⟩,  -- L123
  ⟨py!"Application Type", .at 25, .f091⟩,  -- L124
  ⟨py!"Time Code", .at 26, .ident 131⟩,  -- L125
  ⟨py!"NOTAM", .at 27, .ident 132⟩,  -- L126
  ⟨py!"Time Indicator", .at 27, .ident 138⟩,  -- L127
  ⟨py!"Time of Operations", .range 29 39, .ident 195⟩,  -- L128
  ⟨py!"Time of Operations (2)", .range 39 49, .ident 195⟩,  -- L129
  ⟨py!"Time of Operations (3)", .range 49 59, .ident 195⟩,  -- L130
  ⟨py!"Time of Operations (4)", .range 59 69, .ident 195⟩,  -- L131
  ⟨py!"Time of Operations (5)", .range 69 79, .ident 195⟩,  -- L132
  ⟨py!"Time of Operations (6)", .range 79 89, .ident 195⟩,  -- L133
  ⟨py!"Time of Operations (7)", .range 89 99, .ident 195⟩,  -- L134
  ⟨py!"Controlling Agency", .range 99 123, .ident 140⟩,  -- L135
  ⟨py!"File Record No", .range 123 128, .ident 31⟩,  -- L136
  ⟨py!"Cycle Date", .range 128 132, .f032⟩  -- L137
]

/-- definitions/Runway.py:30-58 `Runway.read_primary` -/
def Runway.read_primary : Layout := [
  ⟨py!"Record Type", .at 0, .f002⟩,  -- L32
  ⟨py!"Customer / Area Code", .range 1 4, .f003⟩,  -- L33
  ⟨py!"Section Code", .pair 4 12, .f004⟩,  -- L34
  ⟨py!"Airport ICAO Identifier", .range 6 10, .ident 6⟩,  -- L35
  ⟨py!"ICAO Code", .range 10 12, .ident 14⟩,  -- L36
  ⟨py!"Runway Identifier", .range 13 18, .ident 46⟩,  -- L37
  ⟨py!"Continuation Record No", .at 21, .f016⟩,  -- L38
  ⟨py!"Runway Length", .range 22 27, .ident 57⟩,  -- L39
  ⟨py!"Runway Magnetic Bearing", .range 27 31, .ident 58⟩,  -- L40
  ⟨py!"Runway Latitude", .range 32 41, .ident 36⟩,  -- L41
  ⟨py!"Runway Longitude", .range 41 51, .ident 37⟩,  -- L42
  ⟨py!"Runway Gradient", .range 51 56, .ident 212⟩,  -- L43
  ⟨py!"(LTP) Ellipsoid Height", .range 60 66, .ident 225⟩,  -- L44
  ⟨py!"Landing Threshold Elevation", .range 66 71, .ident 68⟩,  -- L45
  ⟨py!"Displaced Threshold Dist", .range 71 75, .ident 69⟩,  -- L46
  ⟨py!"Threshold Crossing Height", .range 75 77, .ident 67⟩,  -- L47
  ⟨py!"Runway Width", .range 77 80, .ident 109⟩,  -- L48
  ⟨py!"TCH Value Indicator", .at 80, .f270⟩,  -- L49
  ⟨py!"Localizer/MLS/GLS Ref Path Ident", .range 81 85, .ident 44⟩,  -- L50
  ⟨py!"Localizer/MLS/GLS Category/Class", .at 85, .ident 80⟩,  -- L51
  ⟨py!"Stopway", .range 86 90, .ident 79⟩,  -- L52
  ⟨py!"Localizer/MLS/GLS Ref Path Ident (2)", .range 90 94, .ident 44⟩,  -- L53
  ⟨py!"Localizer/MLS/GLS Category/Class (2)", .at 94, .ident 80⟩,  -- L54
  ⟨py!"Runway Description", .range 101 123, .ident 59⟩,  -- L55
  ⟨py!"File Record No", .range 123 128, .ident 31⟩,  -- L56
  ⟨py!"Cycle Date", .range 128 132, .f032⟩  -- L57
]

/-- definitions/Runway.py:60-72 `Runway.read_cont` -/
def Runway.read_cont : Layout := [
  ⟨py!"Record Type", .at 0, .f002⟩,  -- L62
  ⟨py!"Customer / Area Code", .range 1 4, .f003⟩,  -- L63
  ⟨py!"Section Code", .pair 4 12, .f004⟩,  -- L64
  ⟨py!"Airport ICAO Identifier", .range 6 10, .ident 6⟩,  -- L65
  ⟨py!"ICAO Code", .range 10 12, .ident 14⟩,  -- L66
  ⟨py!"Runway Identifier", .range 13 18, .ident 46⟩,  -- L67
  ⟨py!"Continuation Record No", .at 21, .f016⟩,  -- L68
  ⟨py!"Notes", .range 23 92, .ident 61⟩,  -- L69
  ⟨py!"File Record No", .range 123 128, .ident 31⟩,  -- L70
  ⟨py!"Cycle Date", .range 128 132, .f032⟩  -- L71
]

/-- definitions/Runway.py:74-90 `Runway.read_sim` -/
def Runway.read_sim : Layout := [
  ⟨py!"Record Type", .at 0, .f002⟩,  -- L76
  ⟨py!"Customer / Area Code", .range 1 4, .f003⟩,  -- L77
  ⟨py!"Section Code", .pair 4 12, .f004⟩,  -- L78
  ⟨py!"Airport ICAO Identifier", .range 6 10, .ident 6⟩,  -- L79
  ⟨py!"ICAO Code", .range 10 12, .ident 14⟩,  -- L80
  ⟨py!"Runway Identifier", .range 13 18, .ident 46⟩,  -- L81
  ⟨py!"Continuation Record No", .at 21, .f016⟩,  -- L82
  ⟨py!"Application Type", .at 22, .f091⟩,  -- L83
  ⟨py!"Runway True Bearing", .range 51 56, .ident 94⟩,  -- L84
  ⟨py!"True Bearing Source", .at 56, .ident 95⟩,  -- L85
  ⟨py!"TDZE Location", .at 65, .ident 98⟩,  -- L86
  ⟨py!"Touchdown Zone Elevation", .range 66 71, .ident 97⟩,  -- L87
  ⟨py!"File Record No", .range 123 128, .ident 31⟩,  -- L88
  ⟨py!"Cycle Date", .range 128 132, .f032⟩  -- L89
]

/-- definitions/SIDSTARApproach.py:34-79 `SIDSTARApproach.read_primary` -/
def SIDSTARApproach.read_primary : Layout := [
  ⟨py!"Record Type", .at 0, .f002⟩,  -- L36
  ⟨py!"Customer / Area Code", .range 1 4, .f003⟩,  -- L37
  ⟨py!"Section Code", .pair 4 12, .f004⟩,  -- L38
  ⟨py!"Airport Identifier", .range 6 10, .ident 6⟩,  -- L39
  ⟨py!"ICAO Code", .range 10 12, .ident 14⟩,  -- L40
  ⟨py!"SID/STAR/Approach Identifier", .range 13 19, .f009⟩,  -- L41
  ⟨py!"Route Type", .at 19, .f007⟩,  -- L42
  ⟨py!"Transition Identifier", .range 20 25, .ident 11⟩,  -- L43
  ⟨py!"Sequence Number", .range 26 29, .f012⟩,  -- L44
  ⟨py!"Fix Identifier", .range 29 34, .ident 13⟩,  -- L45
  ⟨py!"ICAO Code (2)", .range 34 36, .ident 14⟩,  -- L46
  ⟨py!"Section Code (2)", .range 36 38, .f004⟩,  -- L47
  ⟨py!"Continuation Record No", .at 38, .f016⟩,  -- L48
  ⟨py!"Waypoint Description Code", .range 39 43, .f017⟩,  -- L49
  ⟨py!"Turn Direction", .at 43, .f020⟩,  -- L50
  ⟨py!"RNP", .range 44 47, .ident 211⟩,  -- L51
  ⟨py!"Path and Termination", .range 47 49, .f021⟩,  -- L52
  ⟨py!"Turn Direction Valid", .at 49, .f022⟩,  -- L53
  ⟨py!"Recommended Navaid", .range 50 54, .f023⟩,  -- L54
  ⟨py!"ICAO Code (3)", .range 54 56, .ident 14⟩,  -- L55
  ⟨py!"Arc Radius", .range 56 62, .ident 204⟩,  -- L56
  ⟨py!"Theta", .range 62 66, .f024⟩,  -- L57
  ⟨py!"Rho", .range 66 70, .f025⟩,  -- L58
  ⟨py!"Magnetic Course", .range 70 74, .f026⟩,  -- L59
  ⟨py!"Route / Holding Distance or Time", .range 74 78, .f027⟩,  -- L60
  ⟨py!"Recommended Navaid (2)", .range 78 80, .f004⟩,  -- L61
  ⟨py!"Altitude Description", .at 82, .f029⟩,  -- L62
  ⟨py!"ATC Indicator", .at 83, .ident 81⟩,  -- L63
  ⟨py!"Altitude", .range 84 89, .f030⟩,  -- L64
  ⟨py!"Altitude (2)", .range 89 94, .f030⟩,  -- L65
  ⟨py!"Transition Altitude", .range 94 99, .f053⟩,  -- L66
  ⟨py!"Speed Limit", .range 99 102, .f072⟩,  -- L67
  ⟨py!"Vertical Angle", .range 102 106, .ident 70⟩,  -- L68
  ⟨py!"Center Fix or TAA Procedure Turn Indicator", .range 106 111, .ident 144⟩,  -- L69
  ⟨py!"Multiple Code or TAA Sector Identifier", .at 111, .ident 130⟩,  -- L70
  ⟨py!"ICAO Code (4)", .range 112 113, .ident 14⟩,  -- L71
  ⟨py!"Section Code (3)", .range 114 116, .f004⟩,  -- L72
  ⟨py!"GNSS/FMS Indication", .at 116, .ident 222⟩,  -- L73
  ⟨py!"Speed Limit Description", .at 117, .ident 261⟩,  -- L74
  ⟨py!"Apch Route Qualifier 1", .at 118, .f007⟩,  -- L75
  ⟨py!"Apch Route Qualifier 2", .at 119, .f007⟩,  -- L76
  ⟨py!"File Record No", .range 123 128, .ident 31⟩,  -- L77
  ⟨py!"Cycle Date", .range 128 132, .f032⟩  -- L78
]

/-- definitions/SIDSTARApproach.py:83-116 `SIDSTARApproach.read_ext` -/
def SIDSTARApproach.read_ext : Layout := [
  ⟨py!"Record Type", .at 0, .f002⟩,  -- L85
  ⟨py!"Customer / Area Code", .range 1 4, .f003⟩,  -- L86
  ⟨py!"Section Code", .pair 4 12, .f004⟩,  -- L87
  ⟨py!"Airport Identifier", .range 6 10, .ident 6⟩,  -- L88
  ⟨py!"ICAO Code", .range 10 12, .ident 14⟩,  -- L89
  ⟨py!"SID/STAR/Approach Identifier", .range 13 19, .f009⟩,  -- L90
  ⟨py!"Route Type", .at 19, .f007⟩,  -- L91
  ⟨py!"Transition Identifier", .range 20 25, .ident 11⟩,  -- L92
  ⟨py!"Sequence Number", .range 26 29, .f012⟩,  -- L93
  ⟨py!"Fix Identifier", .range 29 34, .ident 13⟩,  -- L94
  ⟨py!"ICAO Code (2)", .range 34 36, .ident 14⟩,  -- L95
  ⟨py!"Section Code (2)", .range 36 38, .f004⟩,  -- L96
  ⟨py!"Continuation Record No", .at 38, .f016⟩,  -- L97
  ⟨py!"Application Type", .at 39, .f091⟩,  -- L98
  ⟨py!"CAT A Decision Height", .range 40 44, .ident 170⟩,  -- L99
  ⟨py!"CAT B Decision Height", .range 44 48, .ident 170⟩,  -- L100
  ⟨py!"CAT C Decision Height", .range 48 52, .ident 170⟩,  -- L101
  ⟨py!"CAT D Decision Height", .range 52 56, .ident 170⟩,  -- L102
  ⟨py!"CAT A Minimum Descent Altitude", .range 56 60, .ident 171⟩,  -- L103
  ⟨py!"CAT B Minimum Descent Altitude", .range 60 64, .ident 171⟩,  -- L104
  ⟨py!"CAT C Minimum Descent Altitude", .range 64 68, .ident 171⟩,  -- L105
  ⟨py!"CAT D Minimum Descent Altitude", .range 68 72, .ident 171⟩,  -- L106
  ⟨py!"Procedure TCH", .range 72 75, .ident 67⟩,  -- L107
  ⟨py!"Localizer Only Altitude Desc", .at 75, .f029⟩,  -- L108
  ⟨py!"Localizer Only Altitude", .range 76 81, .f030⟩,  -- L109
  ⟨py!"Localizer Only Vertical Angle", .range 81 85, .ident 70⟩,  -- L110
  ⟨py!"RNP", .range 89 92, .ident 211⟩,  -- L111
  ⟨py!"Apch Route Qualifier 1", .at 118, .f007⟩,  -- L112
  ⟨py!"Apch Route Qualifier 2", .at 119, .f007⟩,  -- L113
  ⟨py!"File Record No", .range 123 128, .ident 31⟩,  -- L114
  ⟨py!"Cycle Date", .range 128 132, .f032⟩  -- L115
]

/-- definitions/SIDSTARApproach.py:120-141 `SIDSTARApproach.read_flight0` -/
def SIDSTARApproach.read_flight0 : Layout := [
  ⟨py!"Record Type", .at 0, .f002⟩,  -- L122
  ⟨py!"Customer / Area Code", .range 1 4, .f003⟩,  -- L123
  ⟨py!"Section Code", .pair 4 12, .f004⟩,  -- L124
  ⟨py!"Airport Identifier", .range 6 10, .ident 6⟩,  -- L125
  ⟨py!"ICAO Code", .range 10 12, .ident 14⟩,  -- L126
  ⟨py!"SID/STAR/Approach Identifier", .range 13 19, .f009⟩,  -- L127
  ⟨py!"Route Type", .at 19, .f007⟩,  -- L128
  ⟨py!"Transition Identifier", .range 20 25, .ident 11⟩,  -- L129
  ⟨py!"Sequence Number", .range 26 29, .f012⟩,  -- L130
  ⟨py!"Fix Identifier", .range 29 34, .ident 13⟩,  -- L131
  ⟨py!"ICAO Code (2)", .range 34 36, .ident 14⟩,  -- L132
  ⟨py!"Section Code (2)", .range 36 38, .f004⟩,  -- L133
  ⟨py!"Continuation Record No", .at 38, .f016⟩,  -- L134
  ⟨py!"Application Type", .at 39, .f091⟩,  -- L135
  ⟨py!"Start/End Indicator", .at 40, .ident 152⟩,  -- L136
  ⟨py!"Start/End Date", .range 41 45, .ident 153⟩,  -- L137
  ⟨py!"Leg Distance", .range 74 78, .ident 260⟩,  -- L138
  ⟨py!"File Record No", .range 123 128, .ident 31⟩,  -- L139
  ⟨py!"Cycle Date", .range 128 132, .f032⟩  -- L140
]

/-- definitions/SIDSTARApproach.py:145-171 `SIDSTARApproach.read_data` -/
def SIDSTARApproach.read_data : Layout := [
  ⟨py!"Record Type", .at 0, .f002⟩,  -- L147
  ⟨py!"Customer / Area Code", .range 1 4, .f003⟩,  -- L148
  ⟨py!"Section Code", .pair 4 12, .f004⟩,  -- L149
  ⟨py!"Airport Identifier", .range 6 10, .ident 6⟩,  -- L150
  ⟨py!"ICAO Code", .range 10 12, .ident 14⟩,  -- L151
  ⟨py!"SID/STAR/Approach Identifier", .range 13 19, .f009⟩,  -- L152
  ⟨py!"Route Type", .at 19, .f007⟩,  -- L153
  ⟨py!"Transition Identifier", .range 20 25, .ident 11⟩,  -- L154
  ⟨py!"Sequence Number", .range 26 29, .f012⟩,  -- L155
  ⟨py!"Fix Identifier", .range 29 34, .ident 13⟩,  -- L156
  ⟨py!"ICAO Code (2)", .range 34 36, .ident 14⟩,  -- L157
  ⟨py!"Section Code (2)", .range 36 38, .f004⟩,  -- L158
  ⟨py!"Continuation Record No", .at 38, .f016⟩,  -- L159
  ⟨py!"Application Type", .at 39, .f091⟩,  -- L160
  ⟨py!"FAS Block Provided", .at 40, .ident 276⟩,  -- L161
  ⟨py!"FAS Block Provided Level of Service Name", .range 41 51, .ident 275⟩,  -- L162
  ⟨py!"LNAV/VNAV Authorized for SBAS", .at 51, .ident 276⟩,  -- L163
  ⟨py!"LNAV/VNAV Level of Service Name", .range 52 62, .ident 275⟩,  -- L164
  ⟨py!"LNAV Authorized for SBAS", .at 62, .ident 276⟩,  -- L165
  ⟨py!"LNAV Level of Service Name", .range 63 73, .ident 275⟩,  -- L166
  ⟨py!"Apch Route Qualifier 1", .at 118, .f007⟩,  -- L167
  ⟨py!"Apch Route Qualifier 2", .at 119, .f007⟩,  -- L168
  ⟨py!"File Record No", .range 123 128, .ident 31⟩,  -- L169
  ⟨py!"Cycle Date", .range 128 132, .f032⟩  -- L170
]

/-- definitions/TAA.py:38-73 `TAA.read_primary` -/
def TAA.read_primary (id_name : Str) : Layout := [
  ⟨py!"Record Type", .at 0, .f002⟩,  -- L40
  ⟨py!"Customer / Area Code", .range 1 4, .f003⟩,  -- L41
  ⟨py!"Section Code", .pair 4 12, .f004⟩,  -- L42
  ⟨id_name, .range 6 10, .ident 6⟩,  -- L43
  ⟨py!"ICAO Code", .range 10 12, .ident 14⟩,  -- L44
  ⟨py!"Approach Identifier", .range 13 19, .f010⟩,  -- L45
  ⟨py!"TAA Waypoint", .range 19 24, .ident 273⟩,  -- L46
  ⟨py!"TAA Procedure Turn", .range 20 24, .ident 271⟩,  -- L47
  ⟨py!"ICAO Code (2)", .range 24 26, .ident 14⟩,  -- L48
  ⟨py!"Section Code (2)", .range 26 28, .f004⟩,  -- L49
  ⟨py!"TAA Fix Position Indicator", .at 28, .ident 272⟩,  -- L50
  ⟨py!"Continuation Record No", .at 29, .f016⟩,  -- L51
  ⟨py!"Mag/True Indicator", .at 40, .f165⟩,  -- L52
  ⟨py!"Sector Radius", .range 41 45, .ident 274⟩,  -- L53
  ⟨py!"Sector Bearing", .range 45 51, .ident 146⟩,  -- L54
  ⟨py!"Sector Minimum Altitude", .range 51 54, .f147⟩,  -- L55
  ⟨py!"Sector Radius (2)", .range 54 58, .ident 274⟩,  -- L56
  ⟨py!"Sector Bearing (2)", .range 58 64, .ident 146⟩,  -- L57
  ⟨py!"Sector Minimum Altitude (2)", .range 64 67, .f147⟩,  -- L58
  ⟨py!"Sector Radius (3)", .range 67 71, .ident 274⟩,  -- L59
  ⟨py!"Sector Bearing (3)", .range 71 77, .ident 146⟩,  -- L60
  ⟨py!"Sector Minimum Altitude (3)", .range 77 80, .f147⟩,  -- L61
  ⟨py!"Sector Radius (4)", .range 80 84, .ident 274⟩,  -- L62
  ⟨py!"Sector Bearing (4)", .range 84 90, .ident 146⟩,  -- L63
  ⟨py!"Sector Minimum Altitude (4)", .range 90 93, .f147⟩,  -- L64
  ⟨py!"Sector Radius (5)", .range 93 97, .ident 274⟩,  -- L65
  ⟨py!"Sector Bearing (5)", .range 97 103, .ident 146⟩,  -- L66
  ⟨py!"Sector Minimum Altitude (5)", .range 103 106, .f147⟩,  -- L67
  ⟨py!"Sector Radius (6)", .range 106 110, .ident 274⟩,  -- L68
  ⟨py!"Sector Bearing (6)", .range 110 116, .ident 146⟩,  -- L69
  ⟨py!"Sector Minimum Altitude (6)", .range 116 119, .f147⟩,  -- L70
  ⟨py!"File Record No", .range 123 128, .ident 31⟩,  -- L71
  ⟨py!"Cycle Date", .range 128 132, .f032⟩  -- L72
]

/-- definitions/TAA.py:76-94 `TAA.read_cont` -/
def TAA.read_cont (id_name : Str) : Layout := [
  ⟨py!"Record Type", .at 0, .f002⟩,  -- L78
  ⟨py!"Customer / Area Code", .range 1 4, .f003⟩,  -- L79
  ⟨py!"Section Code", .pair 4 12, .f004⟩,  -- L80
  ⟨id_name, .range 6 10, .ident 6⟩,  -- L81
  ⟨py!"ICAO Code", .range 10 12, .ident 14⟩,  -- L82
  ⟨py!"Approach Identifier", .range 13 19, .f010⟩,  -- L83
  ⟨py!"TAA Sector Identifier", .at 19, .ident 272⟩,  -- L84
  ⟨py!"TAA Procedure Turn", .range 20 24, .ident 271⟩,  -- L85
  ⟨py!"TAA IAF Waypoint", .range 29 34, .ident 273⟩,  -- L86
  ⟨py!"ICAO Code (2)", .range 10 12, .ident 14⟩,  -- L87
  ⟨py!"Section Code (2)", .range 36 38, .f004⟩,  -- L88
  ⟨py!"Continuation Record No", .at 38, .f016⟩,  -- L89
  ⟨py!"Application Notes", .at 39, .f091⟩,  -- L90
  ⟨py!"Notes", .range 50 109, .ident 61⟩,  -- L91
  ⟨py!"File Record No", .range 123 128, .ident 31⟩,  -- L92
  ⟨py!"Cycle Date", .range 128 132, .f032⟩  -- L93
]

/-- definitions/VHFNavaid.py:46-72 `VHFNavaid.read_primary` -/
def VHFNavaid.read_primary : Layout := [
  ⟨py!"Record Type", .at 0, .f002⟩,  -- L48
  ⟨py!"Customer / Area Code", .range 1 4, .f003⟩,  -- L49
  ⟨py!"Section Code", .range 4 6, .f004⟩,  -- L50
  ⟨py!"Airport ICAO Identifier", .range 6 10, .ident 6⟩,  -- L51
  ⟨py!"ICAO Code", .range 10 12, .ident 14⟩,  -- L52
  ⟨py!"VOR Identifier", .range 13 17, .ident 33⟩,  -- L53
  ⟨py!"ICAO Code (2)", .range 19 21, .ident 14⟩,  -- L54
  ⟨py!"Continuation Record No", .at 21, .f016⟩,  -- L55
  ⟨py!"Frequency", .range 22 27, .f034⟩,  -- L56
  ⟨py!"Class", .range 27 29, .ident 35⟩,  -- L57
  ⟨py!"VOR Latitude", .range 32 41, .ident 36⟩,  -- L58
  ⟨py!"VOR Longitude", .range 41 51, .ident 37⟩,  -- L59
  ⟨py!"DME Ident", .range 51 55, .ident 38⟩,  -- L60
  ⟨py!"DME Latitude", .range 55 64, .ident 36⟩,  -- L61
  ⟨py!"DME Longitude", .range 64 74, .ident 37⟩,  -- L62
  ⟨py!"Station Declination", .range 74 79, .ident 66⟩,  -- L63
  ⟨py!"DME Elevation", .range 79 84, .ident 40⟩,  -- L64
  ⟨py!"Figure of Merit", .at 84, .ident 149⟩,  -- L65
  ⟨py!"ILS/DME Bias", .range 85 87, .ident 90⟩,  -- L66
  ⟨py!"Frequency Protection", .range 87 90, .ident 150⟩,  -- L67
  ⟨py!"Datum Code", .range 90 93, .ident 197⟩,  -- L68
  ⟨py!"VOR Name", .range 93 123, .ident 71⟩,  -- L69
  ⟨py!"File Record No", .range 123 128, .ident 31⟩,  -- L70
  ⟨py!"Cycle Date", .range 128 132, .f032⟩  -- L71
]

/-- definitions/VHFNavaid.py:75-89 `VHFNavaid.read_cont` -/
def VHFNavaid.read_cont : Layout := [
  ⟨py!"Record Type", .at 0, .f002⟩,  -- L77
  ⟨py!"Customer / Area Code", .range 1 4, .f003⟩,  -- L78
  ⟨py!"Section Code", .range 4 6, .f004⟩,  -- L79
  ⟨py!"Airport ICAO Identifier", .range 6 10, .ident 6⟩,  -- L80
  ⟨py!"ICAO Code", .range 10 12, .ident 14⟩,  -- L81
  ⟨py!"VOR Identifier", .range 13 17, .ident 33⟩,  -- L82
  ⟨py!"ICAO Code (2)", .range 19 21, .ident 14⟩,  -- L83
  ⟨py!"Continuation Record No", .at 21, .f016⟩,  -- L84
  ⟨py!"Application Type", .at 22, .f091⟩,  -- L85
  ⟨py!"Notes", .range 23 92, .ident 61⟩,  -- L86
  ⟨py!"File Record No", .range 123 128, .ident 31⟩,  -- L87
  ⟨py!"Cycle Date", .range 128 132, .f032⟩  -- L88
]

/-- definitions/VHFNavaid.py:92-108 `VHFNavaid.read_sim` -/
def VHFNavaid.read_sim : Layout := [
  ⟨py!"Record Type", .at 0, .f002⟩,  -- L94
  ⟨py!"Customer / Area Code", .range 1 4, .f003⟩,  -- L95
  ⟨py!"Section Code", .range 4 6, .f004⟩,  -- L96
  ⟨py!"Airport ICAO Identifier", .range 6 10, .ident 6⟩,  -- L97
  ⟨py!"ICAO Code", .range 10 12, .ident 14⟩,  -- L98
  ⟨py!"VOR Identifier", .range 13 17, .ident 33⟩,  -- L99
  ⟨py!"ICAO Code (2)", .range 19 21, .ident 14⟩,  -- L100
  ⟨py!"Continuation Record No", .at 21, .f016⟩,  -- L101
  ⟨py!"Application Type", .at 22, .f091⟩,  -- L102
  ⟨py!"Facility Characteristics", .range 27 32, .ident 93⟩,  -- L103
  ⟨py!"Magnetic Variation", .range 74 79, .f039⟩,  -- L104
  ⟨py!"Facility Elevation", .range 79 84, .f092⟩,  -- L105
  ⟨py!"File Record No", .range 123 128, .ident 31⟩,  -- L106
  ⟨py!"Cycle Date", .range 128 132, .f032⟩  -- L107
]

/-- definitions/VHFNavaid.py:111-128 `VHFNavaid.read_flight_plan0` -/
def VHFNavaid.read_flight_plan0 : Layout := [
  ⟨py!"Record Type", .at 0, .f002⟩,  -- L113
  ⟨py!"Customer / Area Code", .range 1 4, .f003⟩,  -- L114
  ⟨py!"Section Code", .range 4 6, .f004⟩,  -- L115
  ⟨py!"Airport ICAO Identifier", .range 6 10, .ident 6⟩,  -- L116
  ⟨py!"ICAO Code", .range 10 12, .ident 14⟩,  -- L117
  ⟨py!"VOR Identifier", .range 13 17, .ident 33⟩,  -- L118
  ⟨py!"ICAO Code (2)", .range 19 21, .ident 14⟩,  -- L119
  ⟨py!"Continuation Record No", .at 21, .f016⟩,  -- L120
  ⟨py!"Application Type", .at 22, .f091⟩,  -- L121
  ⟨py!"FIR Identifier", .range 23 27, .ident 116⟩,  -- L122
  ⟨py!"UIR Identifier", .range 28 31, .ident 116⟩,  -- L123
  ⟨py!"Start/End Indicator", .at 32, .ident 152⟩,  -- L124
  ⟨py!"Start/End Date", .range 32 43, .ident 153⟩,  -- L125
  ⟨py!"File Record No", .range 123 128, .ident 31⟩,  -- L126
  ⟨py!"Cycle Date", .range 128 132, .f032⟩  -- L127
]

/-- definitions/VHFNavaid.py:131-157 `VHFNavaid.read_flight_plan1` -/
def VHFNavaid.read_flight_plan1 : Layout := [
  ⟨py!"Record Type", .at 0, .f002⟩,  -- L133
  ⟨py!"Customer / Area Code", .range 1 4, .f003⟩,  -- L134
  ⟨py!"Section Code", .range 4 6, .f004⟩,  -- L135
  ⟨py!"Airport ICAO Identifier", .range 6 10, .ident 6⟩,  -- L136
  ⟨py!"ICAO Code", .range 10 12, .ident 14⟩,  -- L137
  ⟨py!"VOR Identifier", .range 13 17, .ident 33⟩,  -- L138
  ⟨py!"ICAO Code (2)", .range 19 21, .ident 14⟩,  -- L139
  ⟨py!"Continuation Record No", .at 21, .f016⟩,  -- L140
  ⟨py!"Frequency", .range 22 27, .f034⟩,  -- L141
  ⟨py!"Class", .range 27 29, .ident 35⟩,  -- L142
  ⟨py!"VOR Latitude", .range 32 41, .ident 36⟩,  -- L143
  ⟨py!"VOR Longitude", .range 41 51, .ident 37⟩,  -- L144
  ⟨py!"DME Ident", .range 51 55, .ident 38⟩,  -- L145
  ⟨py!"DME Latitude", .range 55 64, .ident 36⟩,  -- L146
  ⟨py!"DME Longitude", .range 64 74, .ident 37⟩,  -- L147
  ⟨py!"Station Declination", .range 74 79, .ident 66⟩,  -- L148
  ⟨py!"DME Elevation", .range 79 84, .ident 40⟩,  -- L149
  ⟨py!"Figure of Merit", .at 84, .ident 149⟩,  -- L150
  ⟨py!"ILS/DME Bias", .range 85 87, .ident 90⟩,  -- L151
  ⟨py!"Frequency Protection", .range 87 90, .ident 150⟩,  -- L152
  ⟨py!"Datum Code", .range 90 93, .ident 197⟩,  -- L153
  ⟨py!"VOR Name", .range 93 123, .ident 71⟩,  -- L154
  ⟨py!"File Record No", .range 123 128, .ident 31⟩,  -- L155
  ⟨py!"Cycle Date", .range 128 132, .f032⟩  -- L156
]

/-- definitions/VHFNavaid.py:160-202 `VHFNavaid.read_lim` -/
def VHFNavaid.read_lim : Layout := [
  ⟨py!"Record Type", .at 0, .f002⟩,  -- L162
  ⟨py!"Customer / Area Code", .range 1 4, .f003⟩,  -- L163
  ⟨py!"Section Code", .range 4 6, .f004⟩,  -- L164
  ⟨py!"Airport ICAO Identifier", .range 6 10, .ident 6⟩,  -- L165
  ⟨py!"ICAO Code", .range 10 12, .ident 14⟩,  -- L166
  ⟨py!"VOR Identifier", .range 13 17, .ident 33⟩,  -- L167
  ⟨py!"ICAO Code (2)", .range 19 21, .ident 14⟩,  -- L168
  ⟨py!"Continuation Record No", .at 21, .f016⟩,  -- L169
  ⟨py!"Application Type", .at 22, .f091⟩,  -- L170
  ⟨py!"Navaid Limitation Code", .at 23, .ident 205⟩,  -- L171
  ⟨py!"Component Affected Indicator", .at 24, .ident 206⟩,  -- L172
  ⟨py!"Sequence Number", .range 25 27, .f012⟩,  -- L173
  ⟨py!"Sector From/Sector To", .range 27 29, .ident 207⟩,  -- L174
  ⟨py!"Distance Description", .at 29, .ident 187⟩,  -- L175
  ⟨py!"Distance Limitation", .range 30 36, .ident 208⟩,  -- L176
  ⟨py!"Altitude Description", .at 36, .f029⟩,  -- L177
  ⟨py!"Altitude Limitation", .range 37 43, .f029⟩,  -- L178
  ⟨py!"Sector From/Sector To (2)", .range 43 45, .ident 207⟩,  -- L179
  ⟨py!"Distance Description (2)", .at 45, .ident 187⟩,  -- L180
  ⟨py!"Distance Limitation (2)", .range 46 52, .ident 208⟩,  -- L181
  ⟨py!"Altitude Description (2)", .at 52, .f029⟩,  -- L182
  ⟨py!"Altitude Limitation (2)", .range 53 59, .f209⟩,  -- L183
  ⟨py!"Sector From/Sector To (3)", .range 59 61, .ident 207⟩,  -- L184
  ⟨py!"Distance Description (3)", .at 61, .ident 187⟩,  -- L185
  ⟨py!"Distance Limitation (3)", .range 62 68, .ident 208⟩,  -- L186
  ⟨py!"Altitude Description (3)", .at 68, .f029⟩,  -- L187
  ⟨py!"Altitude Limitation (3)", .range 69 75, .f209⟩,  -- L188
  ⟨py!"Sector From/Sector To (4)", .range 75 77, .ident 207⟩,  -- L189
  ⟨py!"Distance Description (4)", .at 77, .ident 187⟩,  -- L190
  ⟨py!"Distance Limitation (4)", .range 79 84, .ident 208⟩,  -- L191
  ⟨py!"Altitude Description (4)", .at 84, .f029⟩,  -- L192
  ⟨py!"Altitude Limitation (4)", .range 85 91, .f209⟩,  -- L193
  ⟨py!"Sector From/Sector To (5)", .range 91 93, .ident 207⟩,  -- L194
  ⟨py!"Distance Description (5)", .at 93, .ident 187⟩,  -- L195
  ⟨py!"Distance Limitation (5)", .range 94 100, .ident 208⟩,  -- L196
  ⟨py!"Altitude Description (5)", .at 101, .f029⟩,  -- L197
  ⟨py!"Altitude Limitation (5)", .range 101 107, .f209⟩,  -- L198
  ⟨py!"Sequence End Indicator", .at 107, .ident 210⟩,  -- L199
  ⟨py!"File Record No", .range 123 128, .ident 31⟩,  -- L200
  ⟨py!"Cycle Date", .range 128 132, .f032⟩  -- L201
]

/-- definitions/Waypoint.py:36-57 `Waypoint.read_primary` -/
def Waypoint.read_primary (enroute : Bool) : Layout := [
  ⟨py!"Record Type", .at 0, .f002⟩,  -- L38
  ⟨py!"Customer / Area Code", .range 1 4, .f003⟩,  -- L39
  ⟨py!"Section Code", if enroute then .range 4 6 else .pair 4 12, .f004⟩,  -- L40
  ⟨py!"Region Code", .range 6 10, .ident 41⟩,  -- L42
  ⟨py!"ICAO Code", .range 10 12, .ident 14⟩,  -- L43
  ⟨py!"Waypoint Identifier", .range 13 18, .ident 13⟩,  -- L44
  ⟨py!"ICAO Code (2)", .range 19 21, .ident 14⟩,  -- L45
  ⟨py!"Continuation Record No", .at 21, .f016⟩,  -- L46
  ⟨py!"Waypoint Type", .range 26 29, .f042⟩,  -- L47
  ⟨py!"Waypoint Usage", .range 29 31, .f082⟩,  -- L48
  ⟨py!"Waypoint Latitude", .range 32 41, .ident 36⟩,  -- L49
  ⟨py!"Waypoint Longitude", .range 41 51, .ident 37⟩,  -- L50
  ⟨py!"Dynamic Mag. Variation", .range 74 79, .f039⟩,  -- L51
  ⟨py!"Datum Code", .range 84 87, .ident 197⟩,  -- L52
  ⟨py!"Name Format Indicator", .range 95 98, .f196⟩,  -- L53
  ⟨py!"Waypoint Name / Desc", .range 98 123, .f043⟩,  -- L54
  ⟨py!"File Record No", .range 123 128, .ident 31⟩,  -- L55
  ⟨py!"Cycle Date", .range 128 132, .f032⟩  -- L56
]

/-- definitions/Waypoint.py:60-75 `Waypoint.read_cont` -/
def Waypoint.read_cont (enroute : Bool) : Layout := [
  ⟨py!"Record Type", .at 0, .f002⟩,  -- L62
  ⟨py!"Customer / Area Code", .range 1 4, .f003⟩,  -- L63
  ⟨py!"Section Code", if enroute then .range 4 6 else .pair 4 12, .f004⟩,  -- L64
  ⟨py!"Region Code", .range 6 10, .ident 41⟩,  -- L66
  ⟨py!"ICAO Code", .range 10 12, .ident 14⟩,  -- L67
  ⟨py!"Waypoint Identifier", .range 13 18, .ident 13⟩,  -- L68
  ⟨py!"ICAO Code (2)", .range 19 21, .ident 14⟩,  -- L69
  ⟨py!"Continuation Record No", .at 21, .f016⟩,  -- L70
  ⟨py!"Application Type", .at 22, .f091⟩,  -- L71
  ⟨py!"Notes", .range 23 123, .ident 61⟩,  -- L72
  ⟨py!"File Record No", .range 123 128, .ident 31⟩,  -- L73
  ⟨py!"Cycle Date", .range 128 132, .f032⟩  -- L74
]

/-- definitions/Waypoint.py:78-96 `Waypoint.read_flight_plan0` -/
def Waypoint.read_flight_plan0 (enroute : Bool) : Layout := [
  ⟨py!"Record Type", .at 0, .f002⟩,  -- L80
  ⟨py!"Customer / Area Code", .range 1 4, .f003⟩,  -- L81
  ⟨py!"Section Code", if enroute then .range 4 6 else .pair 4 12, .f004⟩,  -- L82
  ⟨py!"Region Code", .range 6 10, .ident 41⟩,  -- L84
  ⟨py!"ICAO Code", .range 10 12, .ident 14⟩,  -- L85
  ⟨py!"Waypoint Identifier", .range 13 18, .ident 13⟩,  -- L86
  ⟨py!"ICAO Code (2)", .range 19 21, .ident 14⟩,  -- L87
  ⟨py!"Continuation Record No", .at 21, .f016⟩,  -- L88
  ⟨py!"Application Type", .at 22, .f091⟩,  -- L89
  ⟨py!"FIR Identifier", .range 23 27, .ident 116⟩,  -- L90
  ⟨py!"UIR Identifier", .range 27 31, .ident 116⟩,  -- L91
  ⟨py!"Start/End Indicator", .at 31, .ident 152⟩,  -- L92
  ⟨py!"Start/End Date", .range 32 43, .ident 153⟩,  -- L93
  ⟨py!"File Record No", .range 123 128, .ident 31⟩,  -- L94
  ⟨py!"Cycle Date", .range 128 132, .f032⟩  -- L95
]

/-- definitions/Waypoint.py:99-120 `Waypoint.read_flight_plan1` -/
def Waypoint.read_flight_plan1 (enroute : Bool) : Layout := [
  ⟨py!"Record Type", .at 0, .f002⟩,  -- L101
  ⟨py!"Customer / Area Code", .range 1 4, .f003⟩,  -- L102
  ⟨py!"Section Code", if enroute then .range 4 6 else .pair 4 12, .f004⟩,  -- L103
  ⟨py!"Region Code", .range 6 10, .ident 41⟩,  -- L105
  ⟨py!"ICAO Code", .range 10 12, .ident 14⟩,  -- L106
  ⟨py!"Waypoint Identifier", .range 13 18, .ident 13⟩,  -- L107
  ⟨py!"ICAO Code (2)", .range 19 21, .ident 14⟩,  -- L108
  ⟨py!"Continuation Record No", .at 21, .f016⟩,  -- L109
  ⟨py!"Waypoint Type", .range 26 29, .f042⟩,  -- L110
  ⟨py!"Waypoint Usage", .range 29 31, .f082⟩,  -- L111
  ⟨py!"Waypoint Latitude", .range 32 41, .ident 36⟩,  -- L112
  ⟨py!"Waypoint Longitude", .range 41 51, .ident 37⟩,  -- L113
  ⟨py!"Dynamic Mag. Variation", .range 74 79, .f039⟩,  -- L114
  ⟨py!"Datum Code", .range 84 87, .ident 197⟩,  -- L115
  ⟨py!"Name Format Indicator", .range 95 98, .f196⟩,  -- L116
  ⟨py!"Waypoint Name / Desc", .range 98 123, .f043⟩,  -- L117
  ⟨py!"File Record No", .range 123 128, .ident 31⟩,  -- L118
  ⟨py!"Cycle Date", .range 128 132, .f032⟩  -- L119
]

end Arinc
