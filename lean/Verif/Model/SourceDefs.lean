import Verif.Model.Lang
/-!
# Source of definitions/*.py (GENERATED by tools/source.py)

The syntax trees of the classes of /repo/src/arinc424/definitions that record.py imports.
-/
namespace Arinc.Lang.Src
open Py

/-- definitions/GridMORA.py:10-11 -/
def GridMORA_read : Func := ⟨[py!"self", py!"line", py!"primary"], [],
  (.ret (.invoke (.name (py!"self")) (py!"read_primary") (.cons (.name (py!"line")) .nil)))⟩

/-- definitions/GridMORA.py:14-52 -/
def GridMORA_read_primary : Func := ⟨[py!"self", py!"r"], [],
  (.ret (.list (.cons (.call (py!"Field") (.cons (.const (.str (py!"Record Type"))) (.cons (.sub (.name (py!"r")) (.const (.int 0))) (.cons (.const (.fn (py!"field_002"))) .nil))))
      (.cons (.call (py!"Field") (.cons (.const (.str (py!"Section Code"))) (.cons (.slice (.name (py!"r")) (some 4) (some 6)) (.cons (.const (.fn (py!"field_004"))) .nil))))
      (.cons (.call (py!"Field") (.cons (.const (.str (py!"Starting Latitude"))) (.cons (.slice (.name (py!"r")) (some 13) (some 16)) (.cons (.const (.fn (py!"field_141"))) .nil))))
      (.cons (.call (py!"Field") (.cons (.const (.str (py!"Starting Longitude"))) (.cons (.slice (.name (py!"r")) (some 16) (some 20)) (.cons (.const (.fn (py!"field_142"))) .nil))))
      (.cons (.call (py!"Field") (.cons (.const (.str (py!"MORA"))) (.cons (.slice (.name (py!"r")) (some 30) (some 33)) (.cons (.const (.fn (py!"field_143"))) .nil))))
      (.cons (.call (py!"Field") (.cons (.const (.str (py!"MORA (2)"))) (.cons (.slice (.name (py!"r")) (some 33) (some 36)) (.cons (.const (.fn (py!"field_143"))) .nil))))
      (.cons (.call (py!"Field") (.cons (.const (.str (py!"MORA (3)"))) (.cons (.slice (.name (py!"r")) (some 36) (some 39)) (.cons (.const (.fn (py!"field_143"))) .nil))))
      (.cons (.call (py!"Field") (.cons (.const (.str (py!"MORA (4)"))) (.cons (.slice (.name (py!"r")) (some 39) (some 42)) (.cons (.const (.fn (py!"field_143"))) .nil))))
      (.cons (.call (py!"Field") (.cons (.const (.str (py!"MORA (5)"))) (.cons (.slice (.name (py!"r")) (some 42) (some 45)) (.cons (.const (.fn (py!"field_143"))) .nil))))
      (.cons (.call (py!"Field") (.cons (.const (.str (py!"MORA (6)"))) (.cons (.slice (.name (py!"r")) (some 45) (some 48)) (.cons (.const (.fn (py!"field_143"))) .nil))))
      (.cons (.call (py!"Field") (.cons (.const (.str (py!"MORA (7)"))) (.cons (.slice (.name (py!"r")) (some 48) (some 51)) (.cons (.const (.fn (py!"field_143"))) .nil))))
      (.cons (.call (py!"Field") (.cons (.const (.str (py!"MORA (8)"))) (.cons (.slice (.name (py!"r")) (some 51) (some 54)) (.cons (.const (.fn (py!"field_143"))) .nil))))
      (.cons (.call (py!"Field") (.cons (.const (.str (py!"MORA (9)"))) (.cons (.slice (.name (py!"r")) (some 54) (some 57)) (.cons (.const (.fn (py!"field_143"))) .nil))))
      (.cons (.call (py!"Field") (.cons (.const (.str (py!"MORA (10)"))) (.cons (.slice (.name (py!"r")) (some 57) (some 60)) (.cons (.const (.fn (py!"field_143"))) .nil))))
      (.cons (.call (py!"Field") (.cons (.const (.str (py!"MORA (11)"))) (.cons (.slice (.name (py!"r")) (some 60) (some 63)) (.cons (.const (.fn (py!"field_143"))) .nil))))
      (.cons (.call (py!"Field") (.cons (.const (.str (py!"MORA (12)"))) (.cons (.slice (.name (py!"r")) (some 63) (some 66)) (.cons (.const (.fn (py!"field_143"))) .nil))))
      (.cons (.call (py!"Field") (.cons (.const (.str (py!"MORA (13)"))) (.cons (.slice (.name (py!"r")) (some 66) (some 69)) (.cons (.const (.fn (py!"field_143"))) .nil))))
      (.cons (.call (py!"Field") (.cons (.const (.str (py!"MORA (14)"))) (.cons (.slice (.name (py!"r")) (some 69) (some 72)) (.cons (.const (.fn (py!"field_143"))) .nil))))
      (.cons (.call (py!"Field") (.cons (.const (.str (py!"MORA (15)"))) (.cons (.slice (.name (py!"r")) (some 72) (some 75)) (.cons (.const (.fn (py!"field_143"))) .nil))))
      (.cons (.call (py!"Field") (.cons (.const (.str (py!"MORA (16)"))) (.cons (.slice (.name (py!"r")) (some 75) (some 78)) (.cons (.const (.fn (py!"field_143"))) .nil))))
      (.cons (.call (py!"Field") (.cons (.const (.str (py!"MORA (17)"))) (.cons (.slice (.name (py!"r")) (some 78) (some 81)) (.cons (.const (.fn (py!"field_143"))) .nil))))
      (.cons (.call (py!"Field") (.cons (.const (.str (py!"MORA (18)"))) (.cons (.slice (.name (py!"r")) (some 81) (some 84)) (.cons (.const (.fn (py!"field_143"))) .nil))))
      (.cons (.call (py!"Field") (.cons (.const (.str (py!"MORA (19)"))) (.cons (.slice (.name (py!"r")) (some 84) (some 87)) (.cons (.const (.fn (py!"field_143"))) .nil))))
      (.cons (.call (py!"Field") (.cons (.const (.str (py!"MORA (21)"))) (.cons (.slice (.name (py!"r")) (some 87) (some 90)) (.cons (.const (.fn (py!"field_143"))) .nil))))
      (.cons (.call (py!"Field") (.cons (.const (.str (py!"MORA (22)"))) (.cons (.slice (.name (py!"r")) (some 90) (some 93)) (.cons (.const (.fn (py!"field_143"))) .nil))))
      (.cons (.call (py!"Field") (.cons (.const (.str (py!"MORA (23)"))) (.cons (.slice (.name (py!"r")) (some 93) (some 96)) (.cons (.const (.fn (py!"field_143"))) .nil))))
      (.cons (.call (py!"Field") (.cons (.const (.str (py!"MORA (24)"))) (.cons (.slice (.name (py!"r")) (some 96) (some 99)) (.cons (.const (.fn (py!"field_143"))) .nil))))
      (.cons (.call (py!"Field") (.cons (.const (.str (py!"MORA (25)"))) (.cons (.slice (.name (py!"r")) (some 99) (some 102)) (.cons (.const (.fn (py!"field_143"))) .nil))))
      (.cons (.call (py!"Field") (.cons (.const (.str (py!"MORA (26)"))) (.cons (.slice (.name (py!"r")) (some 102) (some 105)) (.cons (.const (.fn (py!"field_143"))) .nil))))
      (.cons (.call (py!"Field") (.cons (.const (.str (py!"MORA (27)"))) (.cons (.slice (.name (py!"r")) (some 105) (some 108)) (.cons (.const (.fn (py!"field_143"))) .nil))))
      (.cons (.call (py!"Field") (.cons (.const (.str (py!"MORA (28)"))) (.cons (.slice (.name (py!"r")) (some 108) (some 111)) (.cons (.const (.fn (py!"field_143"))) .nil))))
      (.cons (.call (py!"Field") (.cons (.const (.str (py!"MORA (29)"))) (.cons (.slice (.name (py!"r")) (some 111) (some 114)) (.cons (.const (.fn (py!"field_143"))) .nil))))
      (.cons (.call (py!"Field") (.cons (.const (.str (py!"MORA (30)"))) (.cons (.slice (.name (py!"r")) (some 114) (some 117)) (.cons (.const (.fn (py!"field_143"))) .nil))))
      (.cons (.call (py!"Field") (.cons (.const (.str (py!"MORA (31)"))) (.cons (.slice (.name (py!"r")) (some 117) (some 120)) (.cons (.const (.fn (py!"field_143"))) .nil))))
      (.cons (.call (py!"Field") (.cons (.const (.str (py!"File Record No"))) (.cons (.slice (.name (py!"r")) (some 123) (some 128)) (.cons (.const (.fn (py!"field_031"))) .nil))))
      (.cons (.call (py!"Field") (.cons (.const (.str (py!"Cycle Date"))) (.cons (.slice (.name (py!"r")) (some 128) (some 132)) (.cons (.const (.fn (py!"field_032"))) .nil))))
      .nil))))))))))))))))))))))))))))))))))))))⟩

/-- definitions/GridMORA.py:8-52, class `GridMORA` -/
def GridMORA : Class :=
  ⟨[],
   [(py!"read", GridMORA_read),
    (py!"read_primary", GridMORA_read_primary)]⟩

/-- definitions/VHFNavaid.py:24-25 -/
def VHFNavaid_application_type : Func := ⟨[py!"self", py!"line"], [],
  (.ret (.sub (.name (py!"line")) (.attr (.name (py!"self")) (py!"app_idx"))))⟩

/-- definitions/VHFNavaid.py:27-43 -/
def VHFNavaid_read : Func := ⟨[py!"self", py!"line", py!"primary"], [],
  (.seq (.ite (.name (py!"primary"))
    (.ret (.invoke (.name (py!"self")) (py!"read_primary") (.cons (.name (py!"line")) .nil)))
    .pass)
  (.seq (.assign (py!"application") (.sub (.name (py!"line")) (.attr (.name (py!"self")) (py!"app_idx"))))
  (.matchOn (.name (py!"application"))
    (.case (.str (py!"A")) (.ret (.invoke (.name (py!"self")) (py!"read_cont") (.cons (.name (py!"line")) .nil)))
    (.case (.str (py!"L")) (.ret (.invoke (.name (py!"self")) (py!"read_lim") (.cons (.name (py!"line")) .nil)))
    (.case (.str (py!"P")) (.ret (.invoke (.name (py!"self")) (py!"read_flight_plan0") (.cons (.name (py!"line")) .nil)))
    (.case (.str (py!"S")) (.ret (.invoke (.name (py!"self")) (py!"read_sim") (.cons (.name (py!"line")) .nil)))
    (.ret (.list .nil)))))))))⟩

/-- definitions/VHFNavaid.py:46-72 -/
def VHFNavaid_read_primary : Func := ⟨[py!"self", py!"r"], [],
  (.ret (.list (.cons (.call (py!"Field") (.cons (.const (.str (py!"Record Type"))) (.cons (.sub (.name (py!"r")) (.const (.int 0))) (.cons (.const (.fn (py!"field_002"))) .nil))))
      (.cons (.call (py!"Field") (.cons (.const (.str (py!"Customer / Area Code"))) (.cons (.slice (.name (py!"r")) (some 1) (some 4)) (.cons (.const (.fn (py!"field_003"))) .nil))))
      (.cons (.call (py!"Field") (.cons (.const (.str (py!"Section Code"))) (.cons (.slice (.name (py!"r")) (some 4) (some 6)) (.cons (.const (.fn (py!"field_004"))) .nil))))
      (.cons (.call (py!"Field") (.cons (.const (.str (py!"Airport ICAO Identifier"))) (.cons (.slice (.name (py!"r")) (some 6) (some 10)) (.cons (.const (.fn (py!"field_006"))) .nil))))
      (.cons (.call (py!"Field") (.cons (.const (.str (py!"ICAO Code"))) (.cons (.slice (.name (py!"r")) (some 10) (some 12)) (.cons (.const (.fn (py!"field_014"))) .nil))))
      (.cons (.call (py!"Field") (.cons (.const (.str (py!"VOR Identifier"))) (.cons (.slice (.name (py!"r")) (some 13) (some 17)) (.cons (.const (.fn (py!"field_033"))) .nil))))
      (.cons (.call (py!"Field") (.cons (.const (.str (py!"ICAO Code (2)"))) (.cons (.slice (.name (py!"r")) (some 19) (some 21)) (.cons (.const (.fn (py!"field_014"))) .nil))))
      (.cons (.call (py!"Field") (.cons (.const (.str (py!"Continuation Record No"))) (.cons (.sub (.name (py!"r")) (.const (.int 21))) (.cons (.const (.fn (py!"field_016"))) .nil))))
      (.cons (.call (py!"Field") (.cons (.const (.str (py!"Frequency"))) (.cons (.slice (.name (py!"r")) (some 22) (some 27)) (.cons (.const (.fn (py!"field_034"))) .nil))))
      (.cons (.call (py!"Field") (.cons (.const (.str (py!"Class"))) (.cons (.slice (.name (py!"r")) (some 27) (some 29)) (.cons (.const (.fn (py!"field_035"))) .nil))))
      (.cons (.call (py!"Field") (.cons (.const (.str (py!"VOR Latitude"))) (.cons (.slice (.name (py!"r")) (some 32) (some 41)) (.cons (.const (.fn (py!"field_036"))) .nil))))
      (.cons (.call (py!"Field") (.cons (.const (.str (py!"VOR Longitude"))) (.cons (.slice (.name (py!"r")) (some 41) (some 51)) (.cons (.const (.fn (py!"field_037"))) .nil))))
      (.cons (.call (py!"Field") (.cons (.const (.str (py!"DME Ident"))) (.cons (.slice (.name (py!"r")) (some 51) (some 55)) (.cons (.const (.fn (py!"field_038"))) .nil))))
      (.cons (.call (py!"Field") (.cons (.const (.str (py!"DME Latitude"))) (.cons (.slice (.name (py!"r")) (some 55) (some 64)) (.cons (.const (.fn (py!"field_036"))) .nil))))
      (.cons (.call (py!"Field") (.cons (.const (.str (py!"DME Longitude"))) (.cons (.slice (.name (py!"r")) (some 64) (some 74)) (.cons (.const (.fn (py!"field_037"))) .nil))))
      (.cons (.call (py!"Field") (.cons (.const (.str (py!"Station Declination"))) (.cons (.slice (.name (py!"r")) (some 74) (some 79)) (.cons (.const (.fn (py!"field_066"))) .nil))))
      (.cons (.call (py!"Field") (.cons (.const (.str (py!"DME Elevation"))) (.cons (.slice (.name (py!"r")) (some 79) (some 84)) (.cons (.const (.fn (py!"field_040"))) .nil))))
      (.cons (.call (py!"Field") (.cons (.const (.str (py!"Figure of Merit"))) (.cons (.sub (.name (py!"r")) (.const (.int 84))) (.cons (.const (.fn (py!"field_149"))) .nil))))
      (.cons (.call (py!"Field") (.cons (.const (.str (py!"ILS/DME Bias"))) (.cons (.slice (.name (py!"r")) (some 85) (some 87)) (.cons (.const (.fn (py!"field_090"))) .nil))))
      (.cons (.call (py!"Field") (.cons (.const (.str (py!"Frequency Protection"))) (.cons (.slice (.name (py!"r")) (some 87) (some 90)) (.cons (.const (.fn (py!"field_150"))) .nil))))
      (.cons (.call (py!"Field") (.cons (.const (.str (py!"Datum Code"))) (.cons (.slice (.name (py!"r")) (some 90) (some 93)) (.cons (.const (.fn (py!"field_197"))) .nil))))
      (.cons (.call (py!"Field") (.cons (.const (.str (py!"VOR Name"))) (.cons (.slice (.name (py!"r")) (some 93) (some 123)) (.cons (.const (.fn (py!"field_071"))) .nil))))
      (.cons (.call (py!"Field") (.cons (.const (.str (py!"File Record No"))) (.cons (.slice (.name (py!"r")) (some 123) (some 128)) (.cons (.const (.fn (py!"field_031"))) .nil))))
      (.cons (.call (py!"Field") (.cons (.const (.str (py!"Cycle Date"))) (.cons (.slice (.name (py!"r")) (some 128) (some 132)) (.cons (.const (.fn (py!"field_032"))) .nil))))
      .nil))))))))))))))))))))))))))⟩

/-- definitions/VHFNavaid.py:75-89 -/
def VHFNavaid_read_cont : Func := ⟨[py!"self", py!"r"], [],
  (.ret (.list (.cons (.call (py!"Field") (.cons (.const (.str (py!"Record Type"))) (.cons (.sub (.name (py!"r")) (.const (.int 0))) (.cons (.const (.fn (py!"field_002"))) .nil))))
      (.cons (.call (py!"Field") (.cons (.const (.str (py!"Customer / Area Code"))) (.cons (.slice (.name (py!"r")) (some 1) (some 4)) (.cons (.const (.fn (py!"field_003"))) .nil))))
      (.cons (.call (py!"Field") (.cons (.const (.str (py!"Section Code"))) (.cons (.slice (.name (py!"r")) (some 4) (some 6)) (.cons (.const (.fn (py!"field_004"))) .nil))))
      (.cons (.call (py!"Field") (.cons (.const (.str (py!"Airport ICAO Identifier"))) (.cons (.slice (.name (py!"r")) (some 6) (some 10)) (.cons (.const (.fn (py!"field_006"))) .nil))))
      (.cons (.call (py!"Field") (.cons (.const (.str (py!"ICAO Code"))) (.cons (.slice (.name (py!"r")) (some 10) (some 12)) (.cons (.const (.fn (py!"field_014"))) .nil))))
      (.cons (.call (py!"Field") (.cons (.const (.str (py!"VOR Identifier"))) (.cons (.slice (.name (py!"r")) (some 13) (some 17)) (.cons (.const (.fn (py!"field_033"))) .nil))))
      (.cons (.call (py!"Field") (.cons (.const (.str (py!"ICAO Code (2)"))) (.cons (.slice (.name (py!"r")) (some 19) (some 21)) (.cons (.const (.fn (py!"field_014"))) .nil))))
      (.cons (.call (py!"Field") (.cons (.const (.str (py!"Continuation Record No"))) (.cons (.sub (.name (py!"r")) (.const (.int 21))) (.cons (.const (.fn (py!"field_016"))) .nil))))
      (.cons (.call (py!"Field") (.cons (.const (.str (py!"Application Type"))) (.cons (.sub (.name (py!"r")) (.const (.int 22))) (.cons (.const (.fn (py!"field_091"))) .nil))))
      (.cons (.call (py!"Field") (.cons (.const (.str (py!"Notes"))) (.cons (.slice (.name (py!"r")) (some 23) (some 92)) (.cons (.const (.fn (py!"field_061"))) .nil))))
      (.cons (.call (py!"Field") (.cons (.const (.str (py!"File Record No"))) (.cons (.slice (.name (py!"r")) (some 123) (some 128)) (.cons (.const (.fn (py!"field_031"))) .nil))))
      (.cons (.call (py!"Field") (.cons (.const (.str (py!"Cycle Date"))) (.cons (.slice (.name (py!"r")) (some 128) (some 132)) (.cons (.const (.fn (py!"field_032"))) .nil))))
      .nil))))))))))))))⟩

/-- definitions/VHFNavaid.py:92-108 -/
def VHFNavaid_read_sim : Func := ⟨[py!"self", py!"r"], [],
  (.ret (.list (.cons (.call (py!"Field") (.cons (.const (.str (py!"Record Type"))) (.cons (.sub (.name (py!"r")) (.const (.int 0))) (.cons (.const (.fn (py!"field_002"))) .nil))))
      (.cons (.call (py!"Field") (.cons (.const (.str (py!"Customer / Area Code"))) (.cons (.slice (.name (py!"r")) (some 1) (some 4)) (.cons (.const (.fn (py!"field_003"))) .nil))))
      (.cons (.call (py!"Field") (.cons (.const (.str (py!"Section Code"))) (.cons (.slice (.name (py!"r")) (some 4) (some 6)) (.cons (.const (.fn (py!"field_004"))) .nil))))
      (.cons (.call (py!"Field") (.cons (.const (.str (py!"Airport ICAO Identifier"))) (.cons (.slice (.name (py!"r")) (some 6) (some 10)) (.cons (.const (.fn (py!"field_006"))) .nil))))
      (.cons (.call (py!"Field") (.cons (.const (.str (py!"ICAO Code"))) (.cons (.slice (.name (py!"r")) (some 10) (some 12)) (.cons (.const (.fn (py!"field_014"))) .nil))))
      (.cons (.call (py!"Field") (.cons (.const (.str (py!"VOR Identifier"))) (.cons (.slice (.name (py!"r")) (some 13) (some 17)) (.cons (.const (.fn (py!"field_033"))) .nil))))
      (.cons (.call (py!"Field") (.cons (.const (.str (py!"ICAO Code (2)"))) (.cons (.slice (.name (py!"r")) (some 19) (some 21)) (.cons (.const (.fn (py!"field_014"))) .nil))))
      (.cons (.call (py!"Field") (.cons (.const (.str (py!"Continuation Record No"))) (.cons (.sub (.name (py!"r")) (.const (.int 21))) (.cons (.const (.fn (py!"field_016"))) .nil))))
      (.cons (.call (py!"Field") (.cons (.const (.str (py!"Application Type"))) (.cons (.sub (.name (py!"r")) (.const (.int 22))) (.cons (.const (.fn (py!"field_091"))) .nil))))
      (.cons (.call (py!"Field") (.cons (.const (.str (py!"Facility Characteristics"))) (.cons (.slice (.name (py!"r")) (some 27) (some 32)) (.cons (.const (.fn (py!"field_093"))) .nil))))
      (.cons (.call (py!"Field") (.cons (.const (.str (py!"Magnetic Variation"))) (.cons (.slice (.name (py!"r")) (some 74) (some 79)) (.cons (.const (.fn (py!"field_039"))) .nil))))
      (.cons (.call (py!"Field") (.cons (.const (.str (py!"Facility Elevation"))) (.cons (.slice (.name (py!"r")) (some 79) (some 84)) (.cons (.const (.fn (py!"field_092"))) .nil))))
      (.cons (.call (py!"Field") (.cons (.const (.str (py!"File Record No"))) (.cons (.slice (.name (py!"r")) (some 123) (some 128)) (.cons (.const (.fn (py!"field_031"))) .nil))))
      (.cons (.call (py!"Field") (.cons (.const (.str (py!"Cycle Date"))) (.cons (.slice (.name (py!"r")) (some 128) (some 132)) (.cons (.const (.fn (py!"field_032"))) .nil))))
      .nil))))))))))))))))⟩

/-- definitions/VHFNavaid.py:111-128 -/
def VHFNavaid_read_flight_plan0 : Func := ⟨[py!"self", py!"r"], [],
  (.ret (.list (.cons (.call (py!"Field") (.cons (.const (.str (py!"Record Type"))) (.cons (.sub (.name (py!"r")) (.const (.int 0))) (.cons (.const (.fn (py!"field_002"))) .nil))))
      (.cons (.call (py!"Field") (.cons (.const (.str (py!"Customer / Area Code"))) (.cons (.slice (.name (py!"r")) (some 1) (some 4)) (.cons (.const (.fn (py!"field_003"))) .nil))))
      (.cons (.call (py!"Field") (.cons (.const (.str (py!"Section Code"))) (.cons (.slice (.name (py!"r")) (some 4) (some 6)) (.cons (.const (.fn (py!"field_004"))) .nil))))
      (.cons (.call (py!"Field") (.cons (.const (.str (py!"Airport ICAO Identifier"))) (.cons (.slice (.name (py!"r")) (some 6) (some 10)) (.cons (.const (.fn (py!"field_006"))) .nil))))
      (.cons (.call (py!"Field") (.cons (.const (.str (py!"ICAO Code"))) (.cons (.slice (.name (py!"r")) (some 10) (some 12)) (.cons (.const (.fn (py!"field_014"))) .nil))))
      (.cons (.call (py!"Field") (.cons (.const (.str (py!"VOR Identifier"))) (.cons (.slice (.name (py!"r")) (some 13) (some 17)) (.cons (.const (.fn (py!"field_033"))) .nil))))
      (.cons (.call (py!"Field") (.cons (.const (.str (py!"ICAO Code (2)"))) (.cons (.slice (.name (py!"r")) (some 19) (some 21)) (.cons (.const (.fn (py!"field_014"))) .nil))))
      (.cons (.call (py!"Field") (.cons (.const (.str (py!"Continuation Record No"))) (.cons (.sub (.name (py!"r")) (.const (.int 21))) (.cons (.const (.fn (py!"field_016"))) .nil))))
      (.cons (.call (py!"Field") (.cons (.const (.str (py!"Application Type"))) (.cons (.sub (.name (py!"r")) (.const (.int 22))) (.cons (.const (.fn (py!"field_091"))) .nil))))
      (.cons (.call (py!"Field") (.cons (.const (.str (py!"FIR Identifier"))) (.cons (.slice (.name (py!"r")) (some 23) (some 27)) (.cons (.const (.fn (py!"field_116"))) .nil))))
      (.cons (.call (py!"Field") (.cons (.const (.str (py!"UIR Identifier"))) (.cons (.slice (.name (py!"r")) (some 28) (some 31)) (.cons (.const (.fn (py!"field_116"))) .nil))))
      (.cons (.call (py!"Field") (.cons (.const (.str (py!"Start/End Indicator"))) (.cons (.sub (.name (py!"r")) (.const (.int 32))) (.cons (.const (.fn (py!"field_152"))) .nil))))
      (.cons (.call (py!"Field") (.cons (.const (.str (py!"Start/End Date"))) (.cons (.slice (.name (py!"r")) (some 32) (some 43)) (.cons (.const (.fn (py!"field_153"))) .nil))))
      (.cons (.call (py!"Field") (.cons (.const (.str (py!"File Record No"))) (.cons (.slice (.name (py!"r")) (some 123) (some 128)) (.cons (.const (.fn (py!"field_031"))) .nil))))
      (.cons (.call (py!"Field") (.cons (.const (.str (py!"Cycle Date"))) (.cons (.slice (.name (py!"r")) (some 128) (some 132)) (.cons (.const (.fn (py!"field_032"))) .nil))))
      .nil)))))))))))))))))⟩

/-- definitions/VHFNavaid.py:131-157 -/
def VHFNavaid_read_flight_plan1 : Func := ⟨[py!"self", py!"r"], [],
  (.ret (.list (.cons (.call (py!"Field") (.cons (.const (.str (py!"Record Type"))) (.cons (.sub (.name (py!"r")) (.const (.int 0))) (.cons (.const (.fn (py!"field_002"))) .nil))))
      (.cons (.call (py!"Field") (.cons (.const (.str (py!"Customer / Area Code"))) (.cons (.slice (.name (py!"r")) (some 1) (some 4)) (.cons (.const (.fn (py!"field_003"))) .nil))))
      (.cons (.call (py!"Field") (.cons (.const (.str (py!"Section Code"))) (.cons (.slice (.name (py!"r")) (some 4) (some 6)) (.cons (.const (.fn (py!"field_004"))) .nil))))
      (.cons (.call (py!"Field") (.cons (.const (.str (py!"Airport ICAO Identifier"))) (.cons (.slice (.name (py!"r")) (some 6) (some 10)) (.cons (.const (.fn (py!"field_006"))) .nil))))
      (.cons (.call (py!"Field") (.cons (.const (.str (py!"ICAO Code"))) (.cons (.slice (.name (py!"r")) (some 10) (some 12)) (.cons (.const (.fn (py!"field_014"))) .nil))))
      (.cons (.call (py!"Field") (.cons (.const (.str (py!"VOR Identifier"))) (.cons (.slice (.name (py!"r")) (some 13) (some 17)) (.cons (.const (.fn (py!"field_033"))) .nil))))
      (.cons (.call (py!"Field") (.cons (.const (.str (py!"ICAO Code (2)"))) (.cons (.slice (.name (py!"r")) (some 19) (some 21)) (.cons (.const (.fn (py!"field_014"))) .nil))))
      (.cons (.call (py!"Field") (.cons (.const (.str (py!"Continuation Record No"))) (.cons (.sub (.name (py!"r")) (.const (.int 21))) (.cons (.const (.fn (py!"field_016"))) .nil))))
      (.cons (.call (py!"Field") (.cons (.const (.str (py!"Frequency"))) (.cons (.slice (.name (py!"r")) (some 22) (some 27)) (.cons (.const (.fn (py!"field_034"))) .nil))))
      (.cons (.call (py!"Field") (.cons (.const (.str (py!"Class"))) (.cons (.slice (.name (py!"r")) (some 27) (some 29)) (.cons (.const (.fn (py!"field_035"))) .nil))))
      (.cons (.call (py!"Field") (.cons (.const (.str (py!"VOR Latitude"))) (.cons (.slice (.name (py!"r")) (some 32) (some 41)) (.cons (.const (.fn (py!"field_036"))) .nil))))
      (.cons (.call (py!"Field") (.cons (.const (.str (py!"VOR Longitude"))) (.cons (.slice (.name (py!"r")) (some 41) (some 51)) (.cons (.const (.fn (py!"field_037"))) .nil))))
      (.cons (.call (py!"Field") (.cons (.const (.str (py!"DME Ident"))) (.cons (.slice (.name (py!"r")) (some 51) (some 55)) (.cons (.const (.fn (py!"field_038"))) .nil))))
      (.cons (.call (py!"Field") (.cons (.const (.str (py!"DME Latitude"))) (.cons (.slice (.name (py!"r")) (some 55) (some 64)) (.cons (.const (.fn (py!"field_036"))) .nil))))
      (.cons (.call (py!"Field") (.cons (.const (.str (py!"DME Longitude"))) (.cons (.slice (.name (py!"r")) (some 64) (some 74)) (.cons (.const (.fn (py!"field_037"))) .nil))))
      (.cons (.call (py!"Field") (.cons (.const (.str (py!"Station Declination"))) (.cons (.slice (.name (py!"r")) (some 74) (some 79)) (.cons (.const (.fn (py!"field_066"))) .nil))))
      (.cons (.call (py!"Field") (.cons (.const (.str (py!"DME Elevation"))) (.cons (.slice (.name (py!"r")) (some 79) (some 84)) (.cons (.const (.fn (py!"field_040"))) .nil))))
      (.cons (.call (py!"Field") (.cons (.const (.str (py!"Figure of Merit"))) (.cons (.sub (.name (py!"r")) (.const (.int 84))) (.cons (.const (.fn (py!"field_149"))) .nil))))
      (.cons (.call (py!"Field") (.cons (.const (.str (py!"ILS/DME Bias"))) (.cons (.slice (.name (py!"r")) (some 85) (some 87)) (.cons (.const (.fn (py!"field_090"))) .nil))))
      (.cons (.call (py!"Field") (.cons (.const (.str (py!"Frequency Protection"))) (.cons (.slice (.name (py!"r")) (some 87) (some 90)) (.cons (.const (.fn (py!"field_150"))) .nil))))
      (.cons (.call (py!"Field") (.cons (.const (.str (py!"Datum Code"))) (.cons (.slice (.name (py!"r")) (some 90) (some 93)) (.cons (.const (.fn (py!"field_197"))) .nil))))
      (.cons (.call (py!"Field") (.cons (.const (.str (py!"VOR Name"))) (.cons (.slice (.name (py!"r")) (some 93) (some 123)) (.cons (.const (.fn (py!"field_071"))) .nil))))
      (.cons (.call (py!"Field") (.cons (.const (.str (py!"File Record No"))) (.cons (.slice (.name (py!"r")) (some 123) (some 128)) (.cons (.const (.fn (py!"field_031"))) .nil))))
      (.cons (.call (py!"Field") (.cons (.const (.str (py!"Cycle Date"))) (.cons (.slice (.name (py!"r")) (some 128) (some 132)) (.cons (.const (.fn (py!"field_032"))) .nil))))
      .nil))))))))))))))))))))))))))⟩

/-- definitions/VHFNavaid.py:160-202 -/
def VHFNavaid_read_lim : Func := ⟨[py!"self", py!"r"], [],
  (.ret (.list (.cons (.call (py!"Field") (.cons (.const (.str (py!"Record Type"))) (.cons (.sub (.name (py!"r")) (.const (.int 0))) (.cons (.const (.fn (py!"field_002"))) .nil))))
      (.cons (.call (py!"Field") (.cons (.const (.str (py!"Customer / Area Code"))) (.cons (.slice (.name (py!"r")) (some 1) (some 4)) (.cons (.const (.fn (py!"field_003"))) .nil))))
      (.cons (.call (py!"Field") (.cons (.const (.str (py!"Section Code"))) (.cons (.slice (.name (py!"r")) (some 4) (some 6)) (.cons (.const (.fn (py!"field_004"))) .nil))))
      (.cons (.call (py!"Field") (.cons (.const (.str (py!"Airport ICAO Identifier"))) (.cons (.slice (.name (py!"r")) (some 6) (some 10)) (.cons (.const (.fn (py!"field_006"))) .nil))))
      (.cons (.call (py!"Field") (.cons (.const (.str (py!"ICAO Code"))) (.cons (.slice (.name (py!"r")) (some 10) (some 12)) (.cons (.const (.fn (py!"field_014"))) .nil))))
      (.cons (.call (py!"Field") (.cons (.const (.str (py!"VOR Identifier"))) (.cons (.slice (.name (py!"r")) (some 13) (some 17)) (.cons (.const (.fn (py!"field_033"))) .nil))))
      (.cons (.call (py!"Field") (.cons (.const (.str (py!"ICAO Code (2)"))) (.cons (.slice (.name (py!"r")) (some 19) (some 21)) (.cons (.const (.fn (py!"field_014"))) .nil))))
      (.cons (.call (py!"Field") (.cons (.const (.str (py!"Continuation Record No"))) (.cons (.sub (.name (py!"r")) (.const (.int 21))) (.cons (.const (.fn (py!"field_016"))) .nil))))
      (.cons (.call (py!"Field") (.cons (.const (.str (py!"Application Type"))) (.cons (.sub (.name (py!"r")) (.const (.int 22))) (.cons (.const (.fn (py!"field_091"))) .nil))))
      (.cons (.call (py!"Field") (.cons (.const (.str (py!"Navaid Limitation Code"))) (.cons (.sub (.name (py!"r")) (.const (.int 23))) (.cons (.const (.fn (py!"field_205"))) .nil))))
      (.cons (.call (py!"Field") (.cons (.const (.str (py!"Component Affected Indicator"))) (.cons (.sub (.name (py!"r")) (.const (.int 24))) (.cons (.const (.fn (py!"field_206"))) .nil))))
      (.cons (.call (py!"Field") (.cons (.const (.str (py!"Sequence Number"))) (.cons (.slice (.name (py!"r")) (some 25) (some 27)) (.cons (.const (.fn (py!"field_012"))) .nil))))
      (.cons (.call (py!"Field") (.cons (.const (.str (py!"Sector From/Sector To"))) (.cons (.slice (.name (py!"r")) (some 27) (some 29)) (.cons (.const (.fn (py!"field_207"))) .nil))))
      (.cons (.call (py!"Field") (.cons (.const (.str (py!"Distance Description"))) (.cons (.sub (.name (py!"r")) (.const (.int 29))) (.cons (.const (.fn (py!"field_187"))) .nil))))
      (.cons (.call (py!"Field") (.cons (.const (.str (py!"Distance Limitation"))) (.cons (.slice (.name (py!"r")) (some 30) (some 36)) (.cons (.const (.fn (py!"field_208"))) .nil))))
      (.cons (.call (py!"Field") (.cons (.const (.str (py!"Altitude Description"))) (.cons (.sub (.name (py!"r")) (.const (.int 36))) (.cons (.const (.fn (py!"field_029"))) .nil))))
      (.cons (.call (py!"Field") (.cons (.const (.str (py!"Altitude Limitation"))) (.cons (.slice (.name (py!"r")) (some 37) (some 43)) (.cons (.const (.fn (py!"field_029"))) .nil))))
      (.cons (.call (py!"Field") (.cons (.const (.str (py!"Sector From/Sector To (2)"))) (.cons (.slice (.name (py!"r")) (some 43) (some 45)) (.cons (.const (.fn (py!"field_207"))) .nil))))
      (.cons (.call (py!"Field") (.cons (.const (.str (py!"Distance Description (2)"))) (.cons (.sub (.name (py!"r")) (.const (.int 45))) (.cons (.const (.fn (py!"field_187"))) .nil))))
      (.cons (.call (py!"Field") (.cons (.const (.str (py!"Distance Limitation (2)"))) (.cons (.slice (.name (py!"r")) (some 46) (some 52)) (.cons (.const (.fn (py!"field_208"))) .nil))))
      (.cons (.call (py!"Field") (.cons (.const (.str (py!"Altitude Description (2)"))) (.cons (.sub (.name (py!"r")) (.const (.int 52))) (.cons (.const (.fn (py!"field_029"))) .nil))))
      (.cons (.call (py!"Field") (.cons (.const (.str (py!"Altitude Limitation (2)"))) (.cons (.slice (.name (py!"r")) (some 53) (some 59)) (.cons (.const (.fn (py!"field_209"))) .nil))))
      (.cons (.call (py!"Field") (.cons (.const (.str (py!"Sector From/Sector To (3)"))) (.cons (.slice (.name (py!"r")) (some 59) (some 61)) (.cons (.const (.fn (py!"field_207"))) .nil))))
      (.cons (.call (py!"Field") (.cons (.const (.str (py!"Distance Description (3)"))) (.cons (.sub (.name (py!"r")) (.const (.int 61))) (.cons (.const (.fn (py!"field_187"))) .nil))))
      (.cons (.call (py!"Field") (.cons (.const (.str (py!"Distance Limitation (3)"))) (.cons (.slice (.name (py!"r")) (some 62) (some 68)) (.cons (.const (.fn (py!"field_208"))) .nil))))
      (.cons (.call (py!"Field") (.cons (.const (.str (py!"Altitude Description (3)"))) (.cons (.sub (.name (py!"r")) (.const (.int 68))) (.cons (.const (.fn (py!"field_029"))) .nil))))
      (.cons (.call (py!"Field") (.cons (.const (.str (py!"Altitude Limitation (3)"))) (.cons (.slice (.name (py!"r")) (some 69) (some 75)) (.cons (.const (.fn (py!"field_209"))) .nil))))
      (.cons (.call (py!"Field") (.cons (.const (.str (py!"Sector From/Sector To (4)"))) (.cons (.slice (.name (py!"r")) (some 75) (some 77)) (.cons (.const (.fn (py!"field_207"))) .nil))))
      (.cons (.call (py!"Field") (.cons (.const (.str (py!"Distance Description (4)"))) (.cons (.sub (.name (py!"r")) (.const (.int 77))) (.cons (.const (.fn (py!"field_187"))) .nil))))
      (.cons (.call (py!"Field") (.cons (.const (.str (py!"Distance Limitation (4)"))) (.cons (.slice (.name (py!"r")) (some 79) (some 84)) (.cons (.const (.fn (py!"field_208"))) .nil))))
      (.cons (.call (py!"Field") (.cons (.const (.str (py!"Altitude Description (4)"))) (.cons (.sub (.name (py!"r")) (.const (.int 84))) (.cons (.const (.fn (py!"field_029"))) .nil))))
      (.cons (.call (py!"Field") (.cons (.const (.str (py!"Altitude Limitation (4)"))) (.cons (.slice (.name (py!"r")) (some 85) (some 91)) (.cons (.const (.fn (py!"field_209"))) .nil))))
      (.cons (.call (py!"Field") (.cons (.const (.str (py!"Sector From/Sector To (5)"))) (.cons (.slice (.name (py!"r")) (some 91) (some 93)) (.cons (.const (.fn (py!"field_207"))) .nil))))
      (.cons (.call (py!"Field") (.cons (.const (.str (py!"Distance Description (5)"))) (.cons (.sub (.name (py!"r")) (.const (.int 93))) (.cons (.const (.fn (py!"field_187"))) .nil))))
      (.cons (.call (py!"Field") (.cons (.const (.str (py!"Distance Limitation (5)"))) (.cons (.slice (.name (py!"r")) (some 94) (some 100)) (.cons (.const (.fn (py!"field_208"))) .nil))))
      (.cons (.call (py!"Field") (.cons (.const (.str (py!"Altitude Description (5)"))) (.cons (.sub (.name (py!"r")) (.const (.int 101))) (.cons (.const (.fn (py!"field_029"))) .nil))))
      (.cons (.call (py!"Field") (.cons (.const (.str (py!"Altitude Limitation (5)"))) (.cons (.slice (.name (py!"r")) (some 101) (some 107)) (.cons (.const (.fn (py!"field_209"))) .nil))))
      (.cons (.call (py!"Field") (.cons (.const (.str (py!"Sequence End Indicator"))) (.cons (.sub (.name (py!"r")) (.const (.int 107))) (.cons (.const (.fn (py!"field_210"))) .nil))))
      (.cons (.call (py!"Field") (.cons (.const (.str (py!"File Record No"))) (.cons (.slice (.name (py!"r")) (some 123) (some 128)) (.cons (.const (.fn (py!"field_031"))) .nil))))
      (.cons (.call (py!"Field") (.cons (.const (.str (py!"Cycle Date"))) (.cons (.slice (.name (py!"r")) (some 128) (some 132)) (.cons (.const (.fn (py!"field_032"))) .nil))))
      .nil))))))))))))))))))))))))))))))))))))))))))⟩

/-- definitions/VHFNavaid.py:17-202, class `VHFNavaid` -/
def VHFNavaid : Class :=
  ⟨[(py!"cont_idx", (.int 21)), (py!"app_idx", (.int 22)), (py!"continuations", (.list [(.str (py!"A")), (.str (py!"L")), (.str (py!"P")), (.str (py!"S"))])), (py!"name", (.str (py!"VHF Navaid")))],
   [(py!"application_type", VHFNavaid_application_type),
    (py!"read", VHFNavaid_read),
    (py!"read_primary", VHFNavaid_read_primary),
    (py!"read_cont", VHFNavaid_read_cont),
    (py!"read_sim", VHFNavaid_read_sim),
    (py!"read_flight_plan0", VHFNavaid_read_flight_plan0),
    (py!"read_flight_plan1", VHFNavaid_read_flight_plan1),
    (py!"read_lim", VHFNavaid_read_lim)]⟩

/-- definitions/NDBNavaid.py:13-14 -/
def NDBNavaid_application_type : Func := ⟨[py!"self", py!"line"], [],
  (.ret (.sub (.name (py!"line")) (.attr (.name (py!"self")) (py!"app_idx"))))⟩

/-- definitions/NDBNavaid.py:16-32 -/
def NDBNavaid_read : Func := ⟨[py!"self", py!"line", py!"primary"], [],
  (.seq (.ite (.name (py!"primary"))
    (.ret (.invoke (.name (py!"self")) (py!"read_primary") (.cons (.name (py!"line")) .nil)))
    .pass)
  (.seq (.assign (py!"application") (.sub (.name (py!"line")) (.attr (.name (py!"self")) (py!"app_idx"))))
  (.matchOn (.name (py!"application"))
    (.case (.str (py!"A")) (.ret (.invoke (.name (py!"self")) (py!"read_cont") (.cons (.name (py!"line")) .nil)))
    (.case (.str (py!"P")) (.ret (.invoke (.name (py!"self")) (py!"read_flight_plan0") (.cons (.name (py!"line")) .nil)))
    (.case (.str (py!"Q")) (.ret (.invoke (.name (py!"self")) (py!"read_flight_plan1") (.cons (.name (py!"line")) .nil)))
    (.case (.str (py!"S")) (.ret (.invoke (.name (py!"self")) (py!"read_sim") (.cons (.name (py!"line")) .nil)))
    (.ret (.list .nil)))))))))⟩

/-- definitions/NDBNavaid.py:35-54 -/
def NDBNavaid_read_primary : Func := ⟨[py!"self", py!"r"], [],
  (.ret (.list (.cons (.call (py!"Field") (.cons (.const (.str (py!"Record Type"))) (.cons (.sub (.name (py!"r")) (.const (.int 0))) (.cons (.const (.fn (py!"field_002"))) .nil))))
      (.cons (.call (py!"Field") (.cons (.const (.str (py!"Customer / Area Code"))) (.cons (.slice (.name (py!"r")) (some 1) (some 4)) (.cons (.const (.fn (py!"field_003"))) .nil))))
      (.cons (.call (py!"Field") (.cons (.const (.str (py!"Section Code"))) (.cons (.slice (.name (py!"r")) (some 4) (some 6)) (.cons (.const (.fn (py!"field_004"))) .nil))))
      (.cons (.call (py!"Field") (.cons (.const (.str (py!"Airport ICAO Identifier"))) (.cons (.slice (.name (py!"r")) (some 6) (some 10)) (.cons (.const (.fn (py!"field_006"))) .nil))))
      (.cons (.call (py!"Field") (.cons (.const (.str (py!"ICAO Code"))) (.cons (.slice (.name (py!"r")) (some 10) (some 12)) (.cons (.const (.fn (py!"field_014"))) .nil))))
      (.cons (.call (py!"Field") (.cons (.const (.str (py!"NDB Identifier"))) (.cons (.slice (.name (py!"r")) (some 13) (some 17)) (.cons (.const (.fn (py!"field_033"))) .nil))))
      (.cons (.call (py!"Field") (.cons (.const (.str (py!"ICAO Code (2)"))) (.cons (.slice (.name (py!"r")) (some 19) (some 21)) (.cons (.const (.fn (py!"field_014"))) .nil))))
      (.cons (.call (py!"Field") (.cons (.const (.str (py!"Continuation Record No"))) (.cons (.sub (.name (py!"r")) (.const (.int 21))) (.cons (.const (.fn (py!"field_016"))) .nil))))
      (.cons (.call (py!"Field") (.cons (.const (.str (py!"NDB Frequency"))) (.cons (.slice (.name (py!"r")) (some 22) (some 27)) (.cons (.const (.fn (py!"field_034"))) .nil))))
      (.cons (.call (py!"Field") (.cons (.const (.str (py!"NDB Class"))) (.cons (.slice (.name (py!"r")) (some 27) (some 31)) (.cons (.const (.fn (py!"field_035"))) .nil))))
      (.cons (.call (py!"Field") (.cons (.const (.str (py!"NDB Latitude"))) (.cons (.slice (.name (py!"r")) (some 32) (some 41)) (.cons (.const (.fn (py!"field_036"))) .nil))))
      (.cons (.call (py!"Field") (.cons (.const (.str (py!"NDB Longitude"))) (.cons (.slice (.name (py!"r")) (some 41) (some 51)) (.cons (.const (.fn (py!"field_037"))) .nil))))
      (.cons (.call (py!"Field") (.cons (.const (.str (py!"Magnetic Variation"))) (.cons (.slice (.name (py!"r")) (some 74) (some 79)) (.cons (.const (.fn (py!"field_039"))) .nil))))
      (.cons (.call (py!"Field") (.cons (.const (.str (py!"Datum Code"))) (.cons (.slice (.name (py!"r")) (some 90) (some 93)) (.cons (.const (.fn (py!"field_197"))) .nil))))
      (.cons (.call (py!"Field") (.cons (.const (.str (py!"NDB Name"))) (.cons (.slice (.name (py!"r")) (some 93) (some 123)) (.cons (.const (.fn (py!"field_071"))) .nil))))
      (.cons (.call (py!"Field") (.cons (.const (.str (py!"File Record No"))) (.cons (.slice (.name (py!"r")) (some 123) (some 128)) (.cons (.const (.fn (py!"field_031"))) .nil))))
      (.cons (.call (py!"Field") (.cons (.const (.str (py!"Cycle Date"))) (.cons (.slice (.name (py!"r")) (some 128) (some 132)) (.cons (.const (.fn (py!"field_032"))) .nil))))
      .nil)))))))))))))))))))⟩

/-- definitions/NDBNavaid.py:57-71 -/
def NDBNavaid_read_cont : Func := ⟨[py!"self", py!"r"], [],
  (.ret (.list (.cons (.call (py!"Field") (.cons (.const (.str (py!"Record Type"))) (.cons (.sub (.name (py!"r")) (.const (.int 0))) (.cons (.const (.fn (py!"field_002"))) .nil))))
      (.cons (.call (py!"Field") (.cons (.const (.str (py!"Customer / Area Code"))) (.cons (.slice (.name (py!"r")) (some 1) (some 4)) (.cons (.const (.fn (py!"field_003"))) .nil))))
      (.cons (.call (py!"Field") (.cons (.const (.str (py!"Section Code"))) (.cons (.slice (.name (py!"r")) (some 4) (some 6)) (.cons (.const (.fn (py!"field_004"))) .nil))))
      (.cons (.call (py!"Field") (.cons (.const (.str (py!"Airport ICAO Identifier"))) (.cons (.slice (.name (py!"r")) (some 6) (some 10)) (.cons (.const (.fn (py!"field_006"))) .nil))))
      (.cons (.call (py!"Field") (.cons (.const (.str (py!"ICAO Code"))) (.cons (.slice (.name (py!"r")) (some 10) (some 12)) (.cons (.const (.fn (py!"field_014"))) .nil))))
      (.cons (.call (py!"Field") (.cons (.const (.str (py!"NDB Identifier"))) (.cons (.slice (.name (py!"r")) (some 13) (some 17)) (.cons (.const (.fn (py!"field_033"))) .nil))))
      (.cons (.call (py!"Field") (.cons (.const (.str (py!"ICAO Code (2)"))) (.cons (.slice (.name (py!"r")) (some 19) (some 21)) (.cons (.const (.fn (py!"field_014"))) .nil))))
      (.cons (.call (py!"Field") (.cons (.const (.str (py!"Continuation Record No"))) (.cons (.sub (.name (py!"r")) (.const (.int 21))) (.cons (.const (.fn (py!"field_016"))) .nil))))
      (.cons (.call (py!"Field") (.cons (.const (.str (py!"Application Type"))) (.cons (.sub (.name (py!"r")) (.const (.int 22))) (.cons (.const (.fn (py!"field_091"))) .nil))))
      (.cons (.call (py!"Field") (.cons (.const (.str (py!"Notes"))) (.cons (.slice (.name (py!"r")) (some 23) (some 92)) (.cons (.const (.fn (py!"field_061"))) .nil))))
      (.cons (.call (py!"Field") (.cons (.const (.str (py!"File Record No"))) (.cons (.slice (.name (py!"r")) (some 123) (some 128)) (.cons (.const (.fn (py!"field_031"))) .nil))))
      (.cons (.call (py!"Field") (.cons (.const (.str (py!"Cycle Date"))) (.cons (.slice (.name (py!"r")) (some 128) (some 132)) (.cons (.const (.fn (py!"field_032"))) .nil))))
      .nil))))))))))))))⟩

/-- definitions/NDBNavaid.py:74-89 -/
def NDBNavaid_read_sim : Func := ⟨[py!"self", py!"r"], [],
  (.ret (.list (.cons (.call (py!"Field") (.cons (.const (.str (py!"Record Type"))) (.cons (.sub (.name (py!"r")) (.const (.int 0))) (.cons (.const (.fn (py!"field_002"))) .nil))))
      (.cons (.call (py!"Field") (.cons (.const (.str (py!"Customer / Area Code"))) (.cons (.slice (.name (py!"r")) (some 1) (some 4)) (.cons (.const (.fn (py!"field_003"))) .nil))))
      (.cons (.call (py!"Field") (.cons (.const (.str (py!"Section Code"))) (.cons (.slice (.name (py!"r")) (some 4) (some 6)) (.cons (.const (.fn (py!"field_004"))) .nil))))
      (.cons (.call (py!"Field") (.cons (.const (.str (py!"Airport ICAO Identifier"))) (.cons (.slice (.name (py!"r")) (some 6) (some 10)) (.cons (.const (.fn (py!"field_006"))) .nil))))
      (.cons (.call (py!"Field") (.cons (.const (.str (py!"ICAO Code"))) (.cons (.slice (.name (py!"r")) (some 10) (some 12)) (.cons (.const (.fn (py!"field_014"))) .nil))))
      (.cons (.call (py!"Field") (.cons (.const (.str (py!"NDB Identifier"))) (.cons (.slice (.name (py!"r")) (some 13) (some 17)) (.cons (.const (.fn (py!"field_033"))) .nil))))
      (.cons (.call (py!"Field") (.cons (.const (.str (py!"ICAO Code (2)"))) (.cons (.slice (.name (py!"r")) (some 19) (some 21)) (.cons (.const (.fn (py!"field_014"))) .nil))))
      (.cons (.call (py!"Field") (.cons (.const (.str (py!"Continuation Record No"))) (.cons (.sub (.name (py!"r")) (.const (.int 21))) (.cons (.const (.fn (py!"field_016"))) .nil))))
      (.cons (.call (py!"Field") (.cons (.const (.str (py!"Application Type"))) (.cons (.sub (.name (py!"r")) (.const (.int 22))) (.cons (.const (.fn (py!"field_091"))) .nil))))
      (.cons (.call (py!"Field") (.cons (.const (.str (py!"Facility Characteristics"))) (.cons (.slice (.name (py!"r")) (some 27) (some 32)) (.cons (.const (.fn (py!"field_093"))) .nil))))
      (.cons (.call (py!"Field") (.cons (.const (.str (py!"Facility Elevation"))) (.cons (.slice (.name (py!"r")) (some 79) (some 84)) (.cons (.const (.fn (py!"field_092"))) .nil))))
      (.cons (.call (py!"Field") (.cons (.const (.str (py!"File Record No"))) (.cons (.slice (.name (py!"r")) (some 123) (some 128)) (.cons (.const (.fn (py!"field_031"))) .nil))))
      (.cons (.call (py!"Field") (.cons (.const (.str (py!"Cycle Date"))) (.cons (.slice (.name (py!"r")) (some 128) (some 132)) (.cons (.const (.fn (py!"field_032"))) .nil))))
      .nil)))))))))))))))⟩

/-- definitions/NDBNavaid.py:92-109 -/
def NDBNavaid_read_flight_plan0 : Func := ⟨[py!"self", py!"r"], [],
  (.ret (.list (.cons (.call (py!"Field") (.cons (.const (.str (py!"Record Type"))) (.cons (.sub (.name (py!"r")) (.const (.int 0))) (.cons (.const (.fn (py!"field_002"))) .nil))))
      (.cons (.call (py!"Field") (.cons (.const (.str (py!"Customer / Area Code"))) (.cons (.slice (.name (py!"r")) (some 1) (some 4)) (.cons (.const (.fn (py!"field_003"))) .nil))))
      (.cons (.call (py!"Field") (.cons (.const (.str (py!"Section Code"))) (.cons (.slice (.name (py!"r")) (some 4) (some 6)) (.cons (.const (.fn (py!"field_004"))) .nil))))
      (.cons (.call (py!"Field") (.cons (.const (.str (py!"Airport ICAO Identifier"))) (.cons (.slice (.name (py!"r")) (some 6) (some 10)) (.cons (.const (.fn (py!"field_006"))) .nil))))
      (.cons (.call (py!"Field") (.cons (.const (.str (py!"ICAO Code"))) (.cons (.slice (.name (py!"r")) (some 10) (some 12)) (.cons (.const (.fn (py!"field_014"))) .nil))))
      (.cons (.call (py!"Field") (.cons (.const (.str (py!"NDB Identifier"))) (.cons (.slice (.name (py!"r")) (some 13) (some 17)) (.cons (.const (.fn (py!"field_033"))) .nil))))
      (.cons (.call (py!"Field") (.cons (.const (.str (py!"ICAO Code (2)"))) (.cons (.slice (.name (py!"r")) (some 19) (some 21)) (.cons (.const (.fn (py!"field_014"))) .nil))))
      (.cons (.call (py!"Field") (.cons (.const (.str (py!"Continuation Record No"))) (.cons (.sub (.name (py!"r")) (.const (.int 21))) (.cons (.const (.fn (py!"field_016"))) .nil))))
      (.cons (.call (py!"Field") (.cons (.const (.str (py!"Application Type"))) (.cons (.sub (.name (py!"r")) (.const (.int 22))) (.cons (.const (.fn (py!"field_091"))) .nil))))
      (.cons (.call (py!"Field") (.cons (.const (.str (py!"FIR Identifier"))) (.cons (.slice (.name (py!"r")) (some 23) (some 27)) (.cons (.const (.fn (py!"field_116"))) .nil))))
      (.cons (.call (py!"Field") (.cons (.const (.str (py!"UIR Identifier"))) (.cons (.slice (.name (py!"r")) (some 28) (some 31)) (.cons (.const (.fn (py!"field_116"))) .nil))))
      (.cons (.call (py!"Field") (.cons (.const (.str (py!"Start/End Indicator"))) (.cons (.sub (.name (py!"r")) (.const (.int 32))) (.cons (.const (.fn (py!"field_152"))) .nil))))
      (.cons (.call (py!"Field") (.cons (.const (.str (py!"Start/End Date"))) (.cons (.slice (.name (py!"r")) (some 32) (some 43)) (.cons (.const (.fn (py!"field_153"))) .nil))))
      (.cons (.call (py!"Field") (.cons (.const (.str (py!"File Record No"))) (.cons (.slice (.name (py!"r")) (some 123) (some 128)) (.cons (.const (.fn (py!"field_031"))) .nil))))
      (.cons (.call (py!"Field") (.cons (.const (.str (py!"Cycle Date"))) (.cons (.slice (.name (py!"r")) (some 128) (some 132)) (.cons (.const (.fn (py!"field_032"))) .nil))))
      .nil)))))))))))))))))⟩

/-- definitions/NDBNavaid.py:112-131 -/
def NDBNavaid_read_flight_plan1 : Func := ⟨[py!"self", py!"r"], [],
  (.ret (.list (.cons (.call (py!"Field") (.cons (.const (.str (py!"Record Type"))) (.cons (.sub (.name (py!"r")) (.const (.int 0))) (.cons (.const (.fn (py!"field_002"))) .nil))))
      (.cons (.call (py!"Field") (.cons (.const (.str (py!"Customer / Area Code"))) (.cons (.slice (.name (py!"r")) (some 1) (some 4)) (.cons (.const (.fn (py!"field_003"))) .nil))))
      (.cons (.call (py!"Field") (.cons (.const (.str (py!"Section Code"))) (.cons (.slice (.name (py!"r")) (some 4) (some 6)) (.cons (.const (.fn (py!"field_004"))) .nil))))
      (.cons (.call (py!"Field") (.cons (.const (.str (py!"Airport ICAO Identifier"))) (.cons (.slice (.name (py!"r")) (some 6) (some 10)) (.cons (.const (.fn (py!"field_006"))) .nil))))
      (.cons (.call (py!"Field") (.cons (.const (.str (py!"ICAO Code"))) (.cons (.slice (.name (py!"r")) (some 10) (some 12)) (.cons (.const (.fn (py!"field_014"))) .nil))))
      (.cons (.call (py!"Field") (.cons (.const (.str (py!"NDB Identifier"))) (.cons (.slice (.name (py!"r")) (some 13) (some 17)) (.cons (.const (.fn (py!"field_033"))) .nil))))
      (.cons (.call (py!"Field") (.cons (.const (.str (py!"ICAO Code (2)"))) (.cons (.slice (.name (py!"r")) (some 19) (some 21)) (.cons (.const (.fn (py!"field_014"))) .nil))))
      (.cons (.call (py!"Field") (.cons (.const (.str (py!"Continuation Record No"))) (.cons (.sub (.name (py!"r")) (.const (.int 21))) (.cons (.const (.fn (py!"field_016"))) .nil))))
      (.cons (.call (py!"Field") (.cons (.const (.str (py!"NDB Frequency"))) (.cons (.slice (.name (py!"r")) (some 22) (some 27)) (.cons (.const (.fn (py!"field_034"))) .nil))))
      (.cons (.call (py!"Field") (.cons (.const (.str (py!"NDB Class"))) (.cons (.slice (.name (py!"r")) (some 27) (some 31)) (.cons (.const (.fn (py!"field_035"))) .nil))))
      (.cons (.call (py!"Field") (.cons (.const (.str (py!"NDB Latitude"))) (.cons (.slice (.name (py!"r")) (some 32) (some 41)) (.cons (.const (.fn (py!"field_036"))) .nil))))
      (.cons (.call (py!"Field") (.cons (.const (.str (py!"NDB Longitude"))) (.cons (.slice (.name (py!"r")) (some 41) (some 51)) (.cons (.const (.fn (py!"field_037"))) .nil))))
      (.cons (.call (py!"Field") (.cons (.const (.str (py!"Magnetic Variation"))) (.cons (.slice (.name (py!"r")) (some 74) (some 79)) (.cons (.const (.fn (py!"field_039"))) .nil))))
      (.cons (.call (py!"Field") (.cons (.const (.str (py!"Datum Code"))) (.cons (.slice (.name (py!"r")) (some 90) (some 93)) (.cons (.const (.fn (py!"field_197"))) .nil))))
      (.cons (.call (py!"Field") (.cons (.const (.str (py!"NDB Name"))) (.cons (.slice (.name (py!"r")) (some 93) (some 123)) (.cons (.const (.fn (py!"field_071"))) .nil))))
      (.cons (.call (py!"Field") (.cons (.const (.str (py!"File Record No"))) (.cons (.slice (.name (py!"r")) (some 123) (some 128)) (.cons (.const (.fn (py!"field_031"))) .nil))))
      (.cons (.call (py!"Field") (.cons (.const (.str (py!"Cycle Date"))) (.cons (.slice (.name (py!"r")) (some 128) (some 132)) (.cons (.const (.fn (py!"field_032"))) .nil))))
      .nil)))))))))))))))))))⟩

/-- definitions/NDBNavaid.py:6-131, class `NDBNavaid` -/
def NDBNavaid : Class :=
  ⟨[(py!"cont_idx", (.int 21)), (py!"app_idx", (.int 22)), (py!"continuations", (.list [(.str (py!"A")), (.str (py!"P")), (.str (py!"Q")), (.str (py!"S"))])), (py!"name", (.str (py!"NDB Navaid")))],
   [(py!"application_type", NDBNavaid_application_type),
    (py!"read", NDBNavaid_read),
    (py!"read_primary", NDBNavaid_read_primary),
    (py!"read_cont", NDBNavaid_read_cont),
    (py!"read_sim", NDBNavaid_read_sim),
    (py!"read_flight_plan0", NDBNavaid_read_flight_plan0),
    (py!"read_flight_plan1", NDBNavaid_read_flight_plan1)]⟩

/-- definitions/Waypoint.py:13-14 -/
def Waypoint_application_type : Func := ⟨[py!"self", py!"line"], [],
  (.ret (.sub (.name (py!"line")) (.attr (.name (py!"self")) (py!"app_idx"))))⟩

/-- definitions/Waypoint.py:16-17 -/
def Waypoint_init : Func := ⟨[py!"self", py!"enroute"], [],
  (.setAttr (py!"self") (py!"enroute") (.name (py!"enroute")))⟩

/-- definitions/Waypoint.py:19-33 -/
def Waypoint_read : Func := ⟨[py!"self", py!"line", py!"primary"], [],
  (.seq (.ite (.name (py!"primary"))
    (.ret (.invoke (.name (py!"self")) (py!"read_primary") (.cons (.name (py!"line")) .nil)))
    .pass)
  (.seq (.assign (py!"application") (.sub (.name (py!"line")) (.attr (.name (py!"self")) (py!"app_idx"))))
  (.matchOn (.name (py!"application"))
    (.case (.str (py!"A")) (.ret (.invoke (.name (py!"self")) (py!"read_cont") (.cons (.name (py!"line")) .nil)))
    (.case (.str (py!"P")) (.ret (.invoke (.name (py!"self")) (py!"read_flight_plan0") (.cons (.name (py!"line")) .nil)))
    (.case (.str (py!"Q")) (.ret (.invoke (.name (py!"self")) (py!"read_flight_plan1") (.cons (.name (py!"line")) .nil)))
    (.ret (.list .nil))))))))⟩

/-- definitions/Waypoint.py:36-57 -/
def Waypoint_read_primary : Func := ⟨[py!"self", py!"r"], [],
  (.ret (.list (.cons (.call (py!"Field") (.cons (.const (.str (py!"Record Type"))) (.cons (.sub (.name (py!"r")) (.const (.int 0))) (.cons (.const (.fn (py!"field_002"))) .nil))))
      (.cons (.call (py!"Field") (.cons (.const (.str (py!"Customer / Area Code"))) (.cons (.slice (.name (py!"r")) (some 1) (some 4)) (.cons (.const (.fn (py!"field_003"))) .nil))))
      (.cons (.call (py!"Field") (.cons (.const (.str (py!"Section Code"))) (.cons (.cond (.cmp .is (.attr (.name (py!"self")) (py!"enroute")) (.const (.bool true))) (.slice (.name (py!"r")) (some 4) (some 6)) (.bin .add (.sub (.name (py!"r")) (.const (.int 4))) (.sub (.name (py!"r")) (.const (.int 12))))) (.cons (.const (.fn (py!"field_004"))) .nil))))
      (.cons (.call (py!"Field") (.cons (.const (.str (py!"Region Code"))) (.cons (.slice (.name (py!"r")) (some 6) (some 10)) (.cons (.const (.fn (py!"field_041"))) .nil))))
      (.cons (.call (py!"Field") (.cons (.const (.str (py!"ICAO Code"))) (.cons (.slice (.name (py!"r")) (some 10) (some 12)) (.cons (.const (.fn (py!"field_014"))) .nil))))
      (.cons (.call (py!"Field") (.cons (.const (.str (py!"Waypoint Identifier"))) (.cons (.slice (.name (py!"r")) (some 13) (some 18)) (.cons (.const (.fn (py!"field_013"))) .nil))))
      (.cons (.call (py!"Field") (.cons (.const (.str (py!"ICAO Code (2)"))) (.cons (.slice (.name (py!"r")) (some 19) (some 21)) (.cons (.const (.fn (py!"field_014"))) .nil))))
      (.cons (.call (py!"Field") (.cons (.const (.str (py!"Continuation Record No"))) (.cons (.sub (.name (py!"r")) (.const (.int 21))) (.cons (.const (.fn (py!"field_016"))) .nil))))
      (.cons (.call (py!"Field") (.cons (.const (.str (py!"Waypoint Type"))) (.cons (.slice (.name (py!"r")) (some 26) (some 29)) (.cons (.const (.fn (py!"field_042"))) .nil))))
      (.cons (.call (py!"Field") (.cons (.const (.str (py!"Waypoint Usage"))) (.cons (.slice (.name (py!"r")) (some 29) (some 31)) (.cons (.const (.fn (py!"field_082"))) .nil))))
      (.cons (.call (py!"Field") (.cons (.const (.str (py!"Waypoint Latitude"))) (.cons (.slice (.name (py!"r")) (some 32) (some 41)) (.cons (.const (.fn (py!"field_036"))) .nil))))
      (.cons (.call (py!"Field") (.cons (.const (.str (py!"Waypoint Longitude"))) (.cons (.slice (.name (py!"r")) (some 41) (some 51)) (.cons (.const (.fn (py!"field_037"))) .nil))))
      (.cons (.call (py!"Field") (.cons (.const (.str (py!"Dynamic Mag. Variation"))) (.cons (.slice (.name (py!"r")) (some 74) (some 79)) (.cons (.const (.fn (py!"field_039"))) .nil))))
      (.cons (.call (py!"Field") (.cons (.const (.str (py!"Datum Code"))) (.cons (.slice (.name (py!"r")) (some 84) (some 87)) (.cons (.const (.fn (py!"field_197"))) .nil))))
      (.cons (.call (py!"Field") (.cons (.const (.str (py!"Name Format Indicator"))) (.cons (.slice (.name (py!"r")) (some 95) (some 98)) (.cons (.const (.fn (py!"field_196"))) .nil))))
      (.cons (.call (py!"Field") (.cons (.const (.str (py!"Waypoint Name / Desc"))) (.cons (.slice (.name (py!"r")) (some 98) (some 123)) (.cons (.const (.fn (py!"field_043"))) .nil))))
      (.cons (.call (py!"Field") (.cons (.const (.str (py!"File Record No"))) (.cons (.slice (.name (py!"r")) (some 123) (some 128)) (.cons (.const (.fn (py!"field_031"))) .nil))))
      (.cons (.call (py!"Field") (.cons (.const (.str (py!"Cycle Date"))) (.cons (.slice (.name (py!"r")) (some 128) (some 132)) (.cons (.const (.fn (py!"field_032"))) .nil))))
      .nil))))))))))))))))))))⟩

/-- definitions/Waypoint.py:60-75 -/
def Waypoint_read_cont : Func := ⟨[py!"self", py!"r"], [],
  (.ret (.list (.cons (.call (py!"Field") (.cons (.const (.str (py!"Record Type"))) (.cons (.sub (.name (py!"r")) (.const (.int 0))) (.cons (.const (.fn (py!"field_002"))) .nil))))
      (.cons (.call (py!"Field") (.cons (.const (.str (py!"Customer / Area Code"))) (.cons (.slice (.name (py!"r")) (some 1) (some 4)) (.cons (.const (.fn (py!"field_003"))) .nil))))
      (.cons (.call (py!"Field") (.cons (.const (.str (py!"Section Code"))) (.cons (.cond (.cmp .is (.attr (.name (py!"self")) (py!"enroute")) (.const (.bool true))) (.slice (.name (py!"r")) (some 4) (some 6)) (.bin .add (.sub (.name (py!"r")) (.const (.int 4))) (.sub (.name (py!"r")) (.const (.int 12))))) (.cons (.const (.fn (py!"field_004"))) .nil))))
      (.cons (.call (py!"Field") (.cons (.const (.str (py!"Region Code"))) (.cons (.slice (.name (py!"r")) (some 6) (some 10)) (.cons (.const (.fn (py!"field_041"))) .nil))))
      (.cons (.call (py!"Field") (.cons (.const (.str (py!"ICAO Code"))) (.cons (.slice (.name (py!"r")) (some 10) (some 12)) (.cons (.const (.fn (py!"field_014"))) .nil))))
      (.cons (.call (py!"Field") (.cons (.const (.str (py!"Waypoint Identifier"))) (.cons (.slice (.name (py!"r")) (some 13) (some 18)) (.cons (.const (.fn (py!"field_013"))) .nil))))
      (.cons (.call (py!"Field") (.cons (.const (.str (py!"ICAO Code (2)"))) (.cons (.slice (.name (py!"r")) (some 19) (some 21)) (.cons (.const (.fn (py!"field_014"))) .nil))))
      (.cons (.call (py!"Field") (.cons (.const (.str (py!"Continuation Record No"))) (.cons (.sub (.name (py!"r")) (.const (.int 21))) (.cons (.const (.fn (py!"field_016"))) .nil))))
      (.cons (.call (py!"Field") (.cons (.const (.str (py!"Application Type"))) (.cons (.sub (.name (py!"r")) (.const (.int 22))) (.cons (.const (.fn (py!"field_091"))) .nil))))
      (.cons (.call (py!"Field") (.cons (.const (.str (py!"Notes"))) (.cons (.slice (.name (py!"r")) (some 23) (some 123)) (.cons (.const (.fn (py!"field_061"))) .nil))))
      (.cons (.call (py!"Field") (.cons (.const (.str (py!"File Record No"))) (.cons (.slice (.name (py!"r")) (some 123) (some 128)) (.cons (.const (.fn (py!"field_031"))) .nil))))
      (.cons (.call (py!"Field") (.cons (.const (.str (py!"Cycle Date"))) (.cons (.slice (.name (py!"r")) (some 128) (some 132)) (.cons (.const (.fn (py!"field_032"))) .nil))))
      .nil))))))))))))))⟩

/-- definitions/Waypoint.py:78-96 -/
def Waypoint_read_flight_plan0 : Func := ⟨[py!"self", py!"r"], [],
  (.ret (.list (.cons (.call (py!"Field") (.cons (.const (.str (py!"Record Type"))) (.cons (.sub (.name (py!"r")) (.const (.int 0))) (.cons (.const (.fn (py!"field_002"))) .nil))))
      (.cons (.call (py!"Field") (.cons (.const (.str (py!"Customer / Area Code"))) (.cons (.slice (.name (py!"r")) (some 1) (some 4)) (.cons (.const (.fn (py!"field_003"))) .nil))))
      (.cons (.call (py!"Field") (.cons (.const (.str (py!"Section Code"))) (.cons (.cond (.cmp .is (.attr (.name (py!"self")) (py!"enroute")) (.const (.bool true))) (.slice (.name (py!"r")) (some 4) (some 6)) (.bin .add (.sub (.name (py!"r")) (.const (.int 4))) (.sub (.name (py!"r")) (.const (.int 12))))) (.cons (.const (.fn (py!"field_004"))) .nil))))
      (.cons (.call (py!"Field") (.cons (.const (.str (py!"Region Code"))) (.cons (.slice (.name (py!"r")) (some 6) (some 10)) (.cons (.const (.fn (py!"field_041"))) .nil))))
      (.cons (.call (py!"Field") (.cons (.const (.str (py!"ICAO Code"))) (.cons (.slice (.name (py!"r")) (some 10) (some 12)) (.cons (.const (.fn (py!"field_014"))) .nil))))
      (.cons (.call (py!"Field") (.cons (.const (.str (py!"Waypoint Identifier"))) (.cons (.slice (.name (py!"r")) (some 13) (some 18)) (.cons (.const (.fn (py!"field_013"))) .nil))))
      (.cons (.call (py!"Field") (.cons (.const (.str (py!"ICAO Code (2)"))) (.cons (.slice (.name (py!"r")) (some 19) (some 21)) (.cons (.const (.fn (py!"field_014"))) .nil))))
      (.cons (.call (py!"Field") (.cons (.const (.str (py!"Continuation Record No"))) (.cons (.sub (.name (py!"r")) (.const (.int 21))) (.cons (.const (.fn (py!"field_016"))) .nil))))
      (.cons (.call (py!"Field") (.cons (.const (.str (py!"Application Type"))) (.cons (.sub (.name (py!"r")) (.const (.int 22))) (.cons (.const (.fn (py!"field_091"))) .nil))))
      (.cons (.call (py!"Field") (.cons (.const (.str (py!"FIR Identifier"))) (.cons (.slice (.name (py!"r")) (some 23) (some 27)) (.cons (.const (.fn (py!"field_116"))) .nil))))
      (.cons (.call (py!"Field") (.cons (.const (.str (py!"UIR Identifier"))) (.cons (.slice (.name (py!"r")) (some 27) (some 31)) (.cons (.const (.fn (py!"field_116"))) .nil))))
      (.cons (.call (py!"Field") (.cons (.const (.str (py!"Start/End Indicator"))) (.cons (.sub (.name (py!"r")) (.const (.int 31))) (.cons (.const (.fn (py!"field_152"))) .nil))))
      (.cons (.call (py!"Field") (.cons (.const (.str (py!"Start/End Date"))) (.cons (.slice (.name (py!"r")) (some 32) (some 43)) (.cons (.const (.fn (py!"field_153"))) .nil))))
      (.cons (.call (py!"Field") (.cons (.const (.str (py!"File Record No"))) (.cons (.slice (.name (py!"r")) (some 123) (some 128)) (.cons (.const (.fn (py!"field_031"))) .nil))))
      (.cons (.call (py!"Field") (.cons (.const (.str (py!"Cycle Date"))) (.cons (.slice (.name (py!"r")) (some 128) (some 132)) (.cons (.const (.fn (py!"field_032"))) .nil))))
      .nil)))))))))))))))))⟩

/-- definitions/Waypoint.py:99-120 -/
def Waypoint_read_flight_plan1 : Func := ⟨[py!"self", py!"r"], [],
  (.ret (.list (.cons (.call (py!"Field") (.cons (.const (.str (py!"Record Type"))) (.cons (.sub (.name (py!"r")) (.const (.int 0))) (.cons (.const (.fn (py!"field_002"))) .nil))))
      (.cons (.call (py!"Field") (.cons (.const (.str (py!"Customer / Area Code"))) (.cons (.slice (.name (py!"r")) (some 1) (some 4)) (.cons (.const (.fn (py!"field_003"))) .nil))))
      (.cons (.call (py!"Field") (.cons (.const (.str (py!"Section Code"))) (.cons (.cond (.cmp .is (.attr (.name (py!"self")) (py!"enroute")) (.const (.bool true))) (.slice (.name (py!"r")) (some 4) (some 6)) (.bin .add (.sub (.name (py!"r")) (.const (.int 4))) (.sub (.name (py!"r")) (.const (.int 12))))) (.cons (.const (.fn (py!"field_004"))) .nil))))
      (.cons (.call (py!"Field") (.cons (.const (.str (py!"Region Code"))) (.cons (.slice (.name (py!"r")) (some 6) (some 10)) (.cons (.const (.fn (py!"field_041"))) .nil))))
      (.cons (.call (py!"Field") (.cons (.const (.str (py!"ICAO Code"))) (.cons (.slice (.name (py!"r")) (some 10) (some 12)) (.cons (.const (.fn (py!"field_014"))) .nil))))
      (.cons (.call (py!"Field") (.cons (.const (.str (py!"Waypoint Identifier"))) (.cons (.slice (.name (py!"r")) (some 13) (some 18)) (.cons (.const (.fn (py!"field_013"))) .nil))))
      (.cons (.call (py!"Field") (.cons (.const (.str (py!"ICAO Code (2)"))) (.cons (.slice (.name (py!"r")) (some 19) (some 21)) (.cons (.const (.fn (py!"field_014"))) .nil))))
      (.cons (.call (py!"Field") (.cons (.const (.str (py!"Continuation Record No"))) (.cons (.sub (.name (py!"r")) (.const (.int 21))) (.cons (.const (.fn (py!"field_016"))) .nil))))
      (.cons (.call (py!"Field") (.cons (.const (.str (py!"Waypoint Type"))) (.cons (.slice (.name (py!"r")) (some 26) (some 29)) (.cons (.const (.fn (py!"field_042"))) .nil))))
      (.cons (.call (py!"Field") (.cons (.const (.str (py!"Waypoint Usage"))) (.cons (.slice (.name (py!"r")) (some 29) (some 31)) (.cons (.const (.fn (py!"field_082"))) .nil))))
      (.cons (.call (py!"Field") (.cons (.const (.str (py!"Waypoint Latitude"))) (.cons (.slice (.name (py!"r")) (some 32) (some 41)) (.cons (.const (.fn (py!"field_036"))) .nil))))
      (.cons (.call (py!"Field") (.cons (.const (.str (py!"Waypoint Longitude"))) (.cons (.slice (.name (py!"r")) (some 41) (some 51)) (.cons (.const (.fn (py!"field_037"))) .nil))))
      (.cons (.call (py!"Field") (.cons (.const (.str (py!"Dynamic Mag. Variation"))) (.cons (.slice (.name (py!"r")) (some 74) (some 79)) (.cons (.const (.fn (py!"field_039"))) .nil))))
      (.cons (.call (py!"Field") (.cons (.const (.str (py!"Datum Code"))) (.cons (.slice (.name (py!"r")) (some 84) (some 87)) (.cons (.const (.fn (py!"field_197"))) .nil))))
      (.cons (.call (py!"Field") (.cons (.const (.str (py!"Name Format Indicator"))) (.cons (.slice (.name (py!"r")) (some 95) (some 98)) (.cons (.const (.fn (py!"field_196"))) .nil))))
      (.cons (.call (py!"Field") (.cons (.const (.str (py!"Waypoint Name / Desc"))) (.cons (.slice (.name (py!"r")) (some 98) (some 123)) (.cons (.const (.fn (py!"field_043"))) .nil))))
      (.cons (.call (py!"Field") (.cons (.const (.str (py!"File Record No"))) (.cons (.slice (.name (py!"r")) (some 123) (some 128)) (.cons (.const (.fn (py!"field_031"))) .nil))))
      (.cons (.call (py!"Field") (.cons (.const (.str (py!"Cycle Date"))) (.cons (.slice (.name (py!"r")) (some 128) (some 132)) (.cons (.const (.fn (py!"field_032"))) .nil))))
      .nil))))))))))))))))))))⟩

/-- definitions/Waypoint.py:6-120, class `Waypoint` -/
def Waypoint : Class :=
  ⟨[(py!"cont_idx", (.int 21)), (py!"app_idx", (.int 22)), (py!"continuations", (.list [(.str (py!"A")), (.str (py!"P")), (.str (py!"Q"))])), (py!"name", (.str (py!"Waypoint")))],
   [(py!"application_type", Waypoint_application_type),
    (py!"__init__", Waypoint_init),
    (py!"read", Waypoint_read),
    (py!"read_primary", Waypoint_read_primary),
    (py!"read_cont", Waypoint_read_cont),
    (py!"read_flight_plan0", Waypoint_read_flight_plan0),
    (py!"read_flight_plan1", Waypoint_read_flight_plan1)]⟩

/-- definitions/AirwaysMarker.py:13-14 -/
def AirwaysMarker_application_type : Func := ⟨[py!"self", py!"line"], [],
  (.ret (.sub (.name (py!"line")) (.attr (.name (py!"self")) (py!"app_idx"))))⟩

/-- definitions/AirwaysMarker.py:16-26 -/
def AirwaysMarker_read : Func := ⟨[py!"self", py!"line", py!"primary"], [],
  (.seq (.ite (.name (py!"primary"))
    (.ret (.invoke (.name (py!"self")) (py!"read_primary") (.cons (.name (py!"line")) .nil)))
    .pass)
  (.seq (.assign (py!"application") (.sub (.name (py!"line")) (.attr (.name (py!"self")) (py!"app_idx"))))
  (.matchOn (.name (py!"application"))
    (.case (.str (py!"A")) (.ret (.invoke (.name (py!"self")) (py!"read_cont") (.cons (.name (py!"line")) .nil)))
    (.ret (.list .nil))))))⟩

/-- definitions/AirwaysMarker.py:29-49 -/
def AirwaysMarker_read_primary : Func := ⟨[py!"self", py!"r"], [],
  (.ret (.list (.cons (.call (py!"Field") (.cons (.const (.str (py!"Record Type"))) (.cons (.sub (.name (py!"r")) (.const (.int 0))) (.cons (.const (.fn (py!"field_002"))) .nil))))
      (.cons (.call (py!"Field") (.cons (.const (.str (py!"Customer / Area Code"))) (.cons (.slice (.name (py!"r")) (some 1) (some 4)) (.cons (.const (.fn (py!"field_003"))) .nil))))
      (.cons (.call (py!"Field") (.cons (.const (.str (py!"Section Code"))) (.cons (.slice (.name (py!"r")) (some 4) (some 6)) (.cons (.const (.fn (py!"field_004"))) .nil))))
      (.cons (.call (py!"Field") (.cons (.const (.str (py!"Marker Identifier"))) (.cons (.slice (.name (py!"r")) (some 13) (some 17)) (.cons (.const (.fn (py!"field_110"))) .nil))))
      (.cons (.call (py!"Field") (.cons (.const (.str (py!"ICAO Code"))) (.cons (.slice (.name (py!"r")) (some 19) (some 21)) (.cons (.const (.fn (py!"field_014"))) .nil))))
      (.cons (.call (py!"Field") (.cons (.const (.str (py!"Continuation Record No"))) (.cons (.sub (.name (py!"r")) (.const (.int 21))) (.cons (.const (.fn (py!"field_016"))) .nil))))
      (.cons (.call (py!"Field") (.cons (.const (.str (py!"Marker Code"))) (.cons (.slice (.name (py!"r")) (some 22) (some 26)) (.cons (.const (.fn (py!"field_111"))) .nil))))
      (.cons (.call (py!"Field") (.cons (.const (.str (py!"Marker Shape"))) (.cons (.sub (.name (py!"r")) (.const (.int 27))) (.cons (.const (.fn (py!"field_112"))) .nil))))
      (.cons (.call (py!"Field") (.cons (.const (.str (py!"Marker Power"))) (.cons (.sub (.name (py!"r")) (.const (.int 28))) (.cons (.const (.fn (py!"field_113"))) .nil))))
      (.cons (.call (py!"Field") (.cons (.const (.str (py!"Marker Latitude"))) (.cons (.slice (.name (py!"r")) (some 32) (some 41)) (.cons (.const (.fn (py!"field_036"))) .nil))))
      (.cons (.call (py!"Field") (.cons (.const (.str (py!"Marker Longitude"))) (.cons (.slice (.name (py!"r")) (some 41) (some 51)) (.cons (.const (.fn (py!"field_037"))) .nil))))
      (.cons (.call (py!"Field") (.cons (.const (.str (py!"Minor Axis"))) (.cons (.slice (.name (py!"r")) (some 51) (some 55)) (.cons (.const (.fn (py!"field_100"))) .nil))))
      (.cons (.call (py!"Field") (.cons (.const (.str (py!"Magnetic Variation"))) (.cons (.slice (.name (py!"r")) (some 74) (some 79)) (.cons (.const (.fn (py!"field_039"))) .nil))))
      (.cons (.call (py!"Field") (.cons (.const (.str (py!"Facility Elevation"))) (.cons (.slice (.name (py!"r")) (some 79) (some 84)) (.cons (.const (.fn (py!"field_092"))) .nil))))
      (.cons (.call (py!"Field") (.cons (.const (.str (py!"Datum Code"))) (.cons (.slice (.name (py!"r")) (some 84) (some 87)) (.cons (.const (.fn (py!"field_197"))) .nil))))
      (.cons (.call (py!"Field") (.cons (.const (.str (py!"Marker Name"))) (.cons (.slice (.name (py!"r")) (some 93) (some 123)) (.cons (.const (.fn (py!"field_071"))) .nil))))
      (.cons (.call (py!"Field") (.cons (.const (.str (py!"File Record No"))) (.cons (.slice (.name (py!"r")) (some 123) (some 128)) (.cons (.const (.fn (py!"field_031"))) .nil))))
      (.cons (.call (py!"Field") (.cons (.const (.str (py!"Cycle Date"))) (.cons (.slice (.name (py!"r")) (some 128) (some 132)) (.cons (.const (.fn (py!"field_032"))) .nil))))
      .nil))))))))))))))))))))⟩

/-- definitions/AirwaysMarker.py:52-63 -/
def AirwaysMarker_read_cont : Func := ⟨[py!"self", py!"r"], [],
  (.ret (.list (.cons (.call (py!"Field") (.cons (.const (.str (py!"Record Type"))) (.cons (.sub (.name (py!"r")) (.const (.int 0))) (.cons (.const (.fn (py!"field_002"))) .nil))))
      (.cons (.call (py!"Field") (.cons (.const (.str (py!"Customer / Area Code"))) (.cons (.slice (.name (py!"r")) (some 1) (some 4)) (.cons (.const (.fn (py!"field_003"))) .nil))))
      (.cons (.call (py!"Field") (.cons (.const (.str (py!"Section Code"))) (.cons (.slice (.name (py!"r")) (some 4) (some 6)) (.cons (.const (.fn (py!"field_004"))) .nil))))
      (.cons (.call (py!"Field") (.cons (.const (.str (py!"Marker Identifier"))) (.cons (.slice (.name (py!"r")) (some 13) (some 17)) (.cons (.const (.fn (py!"field_110"))) .nil))))
      (.cons (.call (py!"Field") (.cons (.const (.str (py!"ICAO Code"))) (.cons (.slice (.name (py!"r")) (some 19) (some 21)) (.cons (.const (.fn (py!"field_014"))) .nil))))
      (.cons (.call (py!"Field") (.cons (.const (.str (py!"Continuation Record No"))) (.cons (.sub (.name (py!"r")) (.const (.int 21))) (.cons (.const (.fn (py!"field_016"))) .nil))))
      (.cons (.call (py!"Field") (.cons (.const (.str (py!"Application Type"))) (.cons (.sub (.name (py!"r")) (.const (.int 22))) (.cons (.const (.fn (py!"field_091"))) .nil))))
      (.cons (.call (py!"Field") (.cons (.const (.str (py!"File Record No"))) (.cons (.slice (.name (py!"r")) (some 123) (some 128)) (.cons (.const (.fn (py!"field_031"))) .nil))))
      (.cons (.call (py!"Field") (.cons (.const (.str (py!"Cycle Date"))) (.cons (.slice (.name (py!"r")) (some 128) (some 132)) (.cons (.const (.fn (py!"field_032"))) .nil))))
      .nil)))))))))))⟩

/-- definitions/AirwaysMarker.py:6-63, class `AirwaysMarker` -/
def AirwaysMarker : Class :=
  ⟨[(py!"cont_idx", (.int 21)), (py!"app_idx", (.int 22)), (py!"continuations", (.list [(.str (py!"A"))])), (py!"name", (.str (py!"Airways Marker")))],
   [(py!"application_type", AirwaysMarker_application_type),
    (py!"read", AirwaysMarker_read),
    (py!"read_primary", AirwaysMarker_read_primary),
    (py!"read_cont", AirwaysMarker_read_cont)]⟩

/-- definitions/HoldingPattern.py:13-14 -/
def HoldingPattern_application_type : Func := ⟨[py!"self", py!"line"], [],
  (.ret (.sub (.name (py!"line")) (.attr (.name (py!"self")) (py!"app_idx"))))⟩

/-- definitions/HoldingPattern.py:16-26 -/
def HoldingPattern_read : Func := ⟨[py!"self", py!"line", py!"primary"], [],
  (.seq (.ite (.name (py!"primary"))
    (.ret (.invoke (.name (py!"self")) (py!"read_primary") (.cons (.name (py!"line")) .nil)))
    .pass)
  (.seq (.assign (py!"application") (.sub (.name (py!"line")) (.attr (.name (py!"self")) (py!"app_idx"))))
  (.matchOn (.name (py!"application"))
    (.case (.str (py!"A")) (.ret (.invoke (.name (py!"self")) (py!"read_cont") (.cons (.name (py!"line")) .nil)))
    (.ret (.list .nil))))))⟩

/-- definitions/HoldingPattern.py:41-65 -/
def HoldingPattern_read_primary : Func := ⟨[py!"self", py!"r"], [],
  (.ret (.list (.cons (.call (py!"Field") (.cons (.const (.str (py!"Record Type"))) (.cons (.sub (.name (py!"r")) (.const (.int 0))) (.cons (.const (.fn (py!"field_002"))) .nil))))
      (.cons (.call (py!"Field") (.cons (.const (.str (py!"Customer / Area Code"))) (.cons (.slice (.name (py!"r")) (some 1) (some 4)) (.cons (.const (.fn (py!"field_003"))) .nil))))
      (.cons (.call (py!"Field") (.cons (.const (.str (py!"Section Code"))) (.cons (.slice (.name (py!"r")) (some 4) (some 6)) (.cons (.const (.fn (py!"field_004"))) .nil))))
      (.cons (.call (py!"Field") (.cons (.const (.str (py!"Region Code"))) (.cons (.slice (.name (py!"r")) (some 6) (some 10)) (.cons (.const (.fn (py!"field_041"))) .nil))))
      (.cons (.call (py!"Field") (.cons (.const (.str (py!"ICAO Code"))) (.cons (.slice (.name (py!"r")) (some 10) (some 12)) (.cons (.const (.fn (py!"field_014"))) .nil))))
      (.cons (.call (py!"Field") (.cons (.const (.str (py!"Duplicate Identifier"))) (.cons (.slice (.name (py!"r")) (some 27) (some 29)) (.cons (.const (.fn (py!"field_114"))) .nil))))
      (.cons (.call (py!"Field") (.cons (.const (.str (py!"Fix Identifier"))) (.cons (.slice (.name (py!"r")) (some 29) (some 34)) (.cons (.const (.fn (py!"field_013"))) .nil))))
      (.cons (.call (py!"Field") (.cons (.const (.str (py!"ICAO Code (2)"))) (.cons (.slice (.name (py!"r")) (some 34) (some 36)) (.cons (.const (.fn (py!"field_014"))) .nil))))
      (.cons (.call (py!"Field") (.cons (.const (.str (py!"Section Code (2)"))) (.cons (.slice (.name (py!"r")) (some 36) (some 38)) (.cons (.const (.fn (py!"field_004"))) .nil))))
      (.cons (.call (py!"Field") (.cons (.const (.str (py!"Continuation Record No"))) (.cons (.sub (.name (py!"r")) (.const (.int 38))) (.cons (.const (.fn (py!"field_016"))) .nil))))
      (.cons (.call (py!"Field") (.cons (.const (.str (py!"Inbound Holding Course"))) (.cons (.slice (.name (py!"r")) (some 39) (some 43)) (.cons (.const (.fn (py!"field_062"))) .nil))))
      (.cons (.call (py!"Field") (.cons (.const (.str (py!"Turn Direction"))) (.cons (.sub (.name (py!"r")) (.const (.int 43))) (.cons (.const (.fn (py!"field_063"))) .nil))))
      (.cons (.call (py!"Field") (.cons (.const (.str (py!"Leg Length"))) (.cons (.slice (.name (py!"r")) (some 44) (some 47)) (.cons (.const (.fn (py!"field_064"))) .nil))))
      (.cons (.call (py!"Field") (.cons (.const (.str (py!"Leg Time"))) (.cons (.slice (.name (py!"r")) (some 47) (some 49)) (.cons (.const (.fn (py!"field_065"))) .nil))))
      (.cons (.call (py!"Field") (.cons (.const (.str (py!"Minimum Altitude"))) (.cons (.slice (.name (py!"r")) (some 49) (some 54)) (.cons (.const (.fn (py!"field_030"))) .nil))))
      (.cons (.call (py!"Field") (.cons (.const (.str (py!"Maximum Altitude"))) (.cons (.slice (.name (py!"r")) (some 54) (some 59)) (.cons (.const (.fn (py!"field_127"))) .nil))))
      (.cons (.call (py!"Field") (.cons (.const (.str (py!"Holding Speed"))) (.cons (.slice (.name (py!"r")) (some 59) (some 62)) (.cons (.const (.fn (py!"field_175"))) .nil))))
      (.cons (.call (py!"Field") (.cons (.const (.str (py!"RNP"))) (.cons (.slice (.name (py!"r")) (some 62) (some 65)) (.cons (.const (.fn (py!"field_211"))) .nil))))
      (.cons (.call (py!"Field") (.cons (.const (.str (py!"Arc Radius"))) (.cons (.slice (.name (py!"r")) (some 65) (some 71)) (.cons (.const (.fn (py!"field_204"))) .nil))))
      (.cons (.call (py!"Field") (.cons (.const (.str (py!"Name"))) (.cons (.slice (.name (py!"r")) (some 98) (some 123)) (.cons (.const (.fn (py!"field_060"))) .nil))))
      (.cons (.call (py!"Field") (.cons (.const (.str (py!"File Record No"))) (.cons (.slice (.name (py!"r")) (some 123) (some 128)) (.cons (.const (.fn (py!"field_031"))) .nil))))
      (.cons (.call (py!"Field") (.cons (.const (.str (py!"Cycle Date"))) (.cons (.slice (.name (py!"r")) (some 128) (some 132)) (.cons (.const (.fn (py!"field_032"))) .nil))))
      .nil))))))))))))))))))))))))⟩

/-- definitions/HoldingPattern.py:68-84 -/
def HoldingPattern_read_cont : Func := ⟨[py!"self", py!"r"], [],
  (.ret (.list (.cons (.call (py!"Field") (.cons (.const (.str (py!"Record Type"))) (.cons (.sub (.name (py!"r")) (.const (.int 0))) (.cons (.const (.fn (py!"field_002"))) .nil))))
      (.cons (.call (py!"Field") (.cons (.const (.str (py!"Customer / Area Code"))) (.cons (.slice (.name (py!"r")) (some 1) (some 4)) (.cons (.const (.fn (py!"field_003"))) .nil))))
      (.cons (.call (py!"Field") (.cons (.const (.str (py!"Section Code"))) (.cons (.slice (.name (py!"r")) (some 4) (some 6)) (.cons (.const (.fn (py!"field_004"))) .nil))))
      (.cons (.call (py!"Field") (.cons (.const (.str (py!"Region Code"))) (.cons (.slice (.name (py!"r")) (some 6) (some 10)) (.cons (.const (.fn (py!"field_041"))) .nil))))
      (.cons (.call (py!"Field") (.cons (.const (.str (py!"ICAO Code"))) (.cons (.slice (.name (py!"r")) (some 10) (some 12)) (.cons (.const (.fn (py!"field_014"))) .nil))))
      (.cons (.call (py!"Field") (.cons (.const (.str (py!"Duplicate Identifier"))) (.cons (.slice (.name (py!"r")) (some 27) (some 29)) (.cons (.const (.fn (py!"field_114"))) .nil))))
      (.cons (.call (py!"Field") (.cons (.const (.str (py!"Fix Identifier"))) (.cons (.slice (.name (py!"r")) (some 29) (some 34)) (.cons (.const (.fn (py!"field_013"))) .nil))))
      (.cons (.call (py!"Field") (.cons (.const (.str (py!"ICAO Code (2)"))) (.cons (.slice (.name (py!"r")) (some 34) (some 36)) (.cons (.const (.fn (py!"field_014"))) .nil))))
      (.cons (.call (py!"Field") (.cons (.const (.str (py!"Section Code (2)"))) (.cons (.slice (.name (py!"r")) (some 36) (some 38)) (.cons (.const (.fn (py!"field_004"))) .nil))))
      (.cons (.call (py!"Field") (.cons (.const (.str (py!"Continuation Record No"))) (.cons (.sub (.name (py!"r")) (.const (.int 38))) (.cons (.const (.fn (py!"field_016"))) .nil))))
      (.cons (.call (py!"Field") (.cons (.const (.str (py!"Application Type"))) (.cons (.sub (.name (py!"r")) (.const (.int 40))) (.cons (.const (.fn (py!"field_091"))) .nil))))
      (.cons (.call (py!"Field") (.cons (.const (.str (py!"Notes"))) (.cons (.slice (.name (py!"r")) (some 40) (some 109)) (.cons (.const (.fn (py!"field_061"))) .nil))))
      (.cons (.call (py!"Field") (.cons (.const (.str (py!"File Record No"))) (.cons (.slice (.name (py!"r")) (some 123) (some 128)) (.cons (.const (.fn (py!"field_031"))) .nil))))
      (.cons (.call (py!"Field") (.cons (.const (.str (py!"Cycle Date"))) (.cons (.slice (.name (py!"r")) (some 128) (some 132)) (.cons (.const (.fn (py!"field_032"))) .nil))))
      .nil))))))))))))))))⟩

/-- definitions/HoldingPattern.py:6-84, class `HoldingPattern` -/
def HoldingPattern : Class :=
  ⟨[(py!"cont_idx", (.int 38)), (py!"app_idx", (.int 39)), (py!"continuations", (.list [(.str (py!"A"))])), (py!"name", (.str (py!"Holding Pattern")))],
   [(py!"application_type", HoldingPattern_application_type),
    (py!"read", HoldingPattern_read),
    (py!"read_primary", HoldingPattern_read_primary),
    (py!"read_cont", HoldingPattern_read_cont)]⟩

/-- definitions/PreferredRoute.py:17-18 -/
def PreferredRoute_application_type : Func := ⟨[py!"self", py!"line"], [],
  (.ret (.sub (.name (py!"line")) (.attr (.name (py!"self")) (py!"app_idx"))))⟩

/-- definitions/PreferredRoute.py:20-32 -/
def PreferredRoute_read : Func := ⟨[py!"self", py!"line", py!"primary"], [],
  (.seq (.ite (.name (py!"primary"))
    (.ret (.invoke (.name (py!"self")) (py!"read_primary") (.cons (.name (py!"line")) .nil)))
    .pass)
  (.seq (.assign (py!"application") (.sub (.name (py!"line")) (.attr (.name (py!"self")) (py!"app_idx"))))
  (.matchOn (.name (py!"application"))
    (.case (.str (py!"A")) (.ret (.invoke (.name (py!"self")) (py!"read_cont") (.cons (.name (py!"line")) .nil)))
    (.case (.str (py!"T")) (.ret (.invoke (.name (py!"self")) (py!"read_timeop") (.cons (.name (py!"line")) .nil)))
    (.ret (.list .nil)))))))⟩

/-- definitions/PreferredRoute.py:35-68 -/
def PreferredRoute_read_primary : Func := ⟨[py!"self", py!"r"], [],
  (.ret (.list (.cons (.call (py!"Field") (.cons (.const (.str (py!"Record Type"))) (.cons (.sub (.name (py!"r")) (.const (.int 0))) (.cons (.const (.fn (py!"field_002"))) .nil))))
      (.cons (.call (py!"Field") (.cons (.const (.str (py!"Customer / Area Code"))) (.cons (.slice (.name (py!"r")) (some 1) (some 4)) (.cons (.const (.fn (py!"field_003"))) .nil))))
      (.cons (.call (py!"Field") (.cons (.const (.str (py!"Section Code"))) (.cons (.slice (.name (py!"r")) (some 4) (some 6)) (.cons (.const (.fn (py!"field_004"))) .nil))))
      (.cons (.call (py!"Field") (.cons (.const (.str (py!"Route Identifier"))) (.cons (.slice (.name (py!"r")) (some 13) (some 23)) (.cons (.const (.fn (py!"field_008"))) .nil))))
      (.cons (.call (py!"Field") (.cons (.const (.str (py!"Preferred Route Use Ind"))) (.cons (.slice (.name (py!"r")) (some 23) (some 25)) (.cons (.const (.fn (py!"field_220"))) .nil))))
      (.cons (.call (py!"Field") (.cons (.const (.str (py!"Sequence Number"))) (.cons (.slice (.name (py!"r")) (some 25) (some 29)) (.cons (.const (.fn (py!"field_012"))) .nil))))
      (.cons (.call (py!"Field") (.cons (.const (.str (py!"Continuation Record No"))) (.cons (.sub (.name (py!"r")) (.const (.int 38))) (.cons (.const (.fn (py!"field_016"))) .nil))))
      (.cons (.call (py!"Field") (.cons (.const (.str (py!"To Fix Identifier"))) (.cons (.slice (.name (py!"r")) (some 39) (some 44)) (.cons (.const (.fn (py!"field_083"))) .nil))))
      (.cons (.call (py!"Field") (.cons (.const (.str (py!"ICAO Code"))) (.cons (.slice (.name (py!"r")) (some 44) (some 46)) (.cons (.const (.fn (py!"field_014"))) .nil))))
      (.cons (.call (py!"Field") (.cons (.const (.str (py!"Section Code (2)"))) (.cons (.slice (.name (py!"r")) (some 46) (some 48)) (.cons (.const (.fn (py!"field_004"))) .nil))))
      (.cons (.call (py!"Field") (.cons (.const (.str (py!"VIA Code"))) (.cons (.slice (.name (py!"r")) (some 48) (some 51)) (.cons (.const (.fn (py!"field_077"))) .nil))))
      (.cons (.call (py!"Field") (.cons (.const (.str (py!"SID/STAR/AWY Ident"))) (.cons (.slice (.name (py!"r")) (some 51) (some 57)) (.cons (.const (.fn (py!"field_078"))) .nil))))
      (.cons (.call (py!"Field") (.cons (.const (.str (py!"AREA Code"))) (.cons (.slice (.name (py!"r")) (some 57) (some 60)) (.cons (.const (.fn (py!"field_003"))) .nil))))
      (.cons (.call (py!"Field") (.cons (.const (.str (py!"Level"))) (.cons (.sub (.name (py!"r")) (.const (.int 60))) (.cons (.const (.fn (py!"field_019"))) .nil))))
      (.cons (.call (py!"Field") (.cons (.const (.str (py!"Route Type"))) (.cons (.sub (.name (py!"r")) (.const (.int 61))) (.cons (.const (.fn (py!"field_007"))) .nil))))
      (.cons (.call (py!"Field") (.cons (.const (.str (py!"Initial Airport/Fix"))) (.cons (.slice (.name (py!"r")) (some 62) (some 67)) (.cons (.const (.fn (py!"field_194"))) .nil))))
      (.cons (.call (py!"Field") (.cons (.const (.str (py!"ICAO Code"))) (.cons (.slice (.name (py!"r")) (some 67) (some 69)) (.cons (.const (.fn (py!"field_014"))) .nil))))
      (.cons (.call (py!"Field") (.cons (.const (.str (py!"Section Code"))) (.cons (.slice (.name (py!"r")) (some 69) (some 71)) (.cons (.const (.fn (py!"field_004"))) .nil))))
      (.cons (.call (py!"Field") (.cons (.const (.str (py!"Terminus Airport/Fix"))) (.cons (.slice (.name (py!"r")) (some 71) (some 76)) (.cons (.const (.fn (py!"field_194"))) .nil))))
      (.cons (.call (py!"Field") (.cons (.const (.str (py!"ICAO Code"))) (.cons (.slice (.name (py!"r")) (some 76) (some 78)) (.cons (.const (.fn (py!"field_014"))) .nil))))
      (.cons (.call (py!"Field") (.cons (.const (.str (py!"Section Code"))) (.cons (.slice (.name (py!"r")) (some 78) (some 80)) (.cons (.const (.fn (py!"field_004"))) .nil))))
      (.cons (.call (py!"Field") (.cons (.const (.str (py!"Minimum Altitude"))) (.cons (.slice (.name (py!"r")) (some 80) (some 85)) (.cons (.const (.fn (py!"field_030"))) .nil))))
      (.cons (.call (py!"Field") (.cons (.const (.str (py!"Maximum Altitude"))) (.cons (.slice (.name (py!"r")) (some 85) (some 90)) (.cons (.const (.fn (py!"field_127"))) .nil))))
      (.cons (.call (py!"Field") (.cons (.const (.str (py!"Time Code"))) (.cons (.sub (.name (py!"r")) (.const (.int 90))) (.cons (.const (.fn (py!"field_131"))) .nil))))
      (.cons (.call (py!"Field") (.cons (.const (.str (py!"Aircraft Use Group"))) (.cons (.slice (.name (py!"r")) (some 91) (some 93)) (.cons (.const (.fn (py!"field_221"))) .nil))))
      (.cons (.call (py!"Field") (.cons (.const (.str (py!"Direction Restriction"))) (.cons (.sub (.name (py!"r")) (.const (.int 93))) (.cons (.const (.fn (py!"field_115"))) .nil))))
      (.cons (.call (py!"Field") (.cons (.const (.str (py!"Altitude Description"))) (.cons (.sub (.name (py!"r")) (.const (.int 94))) (.cons (.const (.fn (py!"field_029"))) .nil))))
      (.cons (.call (py!"Field") (.cons (.const (.str (py!"Altitude One"))) (.cons (.slice (.name (py!"r")) (some 95) (some 100)) (.cons (.const (.fn (py!"field_030"))) .nil))))
      (.cons (.call (py!"Field") (.cons (.const (.str (py!"Altitude Two"))) (.cons (.slice (.name (py!"r")) (some 100) (some 105)) (.cons (.const (.fn (py!"field_030"))) .nil))))
      (.cons (.call (py!"Field") (.cons (.const (.str (py!"File Record No"))) (.cons (.slice (.name (py!"r")) (some 123) (some 128)) (.cons (.const (.fn (py!"field_031"))) .nil))))
      (.cons (.call (py!"Field") (.cons (.const (.str (py!"Cycle Date"))) (.cons (.slice (.name (py!"r")) (some 128) (some 132)) (.cons (.const (.fn (py!"field_032"))) .nil))))
      .nil)))))))))))))))))))))))))))))))))⟩

/-- definitions/PreferredRoute.py:71-92 -/
def PreferredRoute_read_timeop : Func := ⟨[py!"self", py!"r"], [],
  (.ret (.list (.cons (.call (py!"Field") (.cons (.const (.str (py!"Record Type"))) (.cons (.sub (.name (py!"r")) (.const (.int 0))) (.cons (.const (.fn (py!"field_002"))) .nil))))
      (.cons (.call (py!"Field") (.cons (.const (.str (py!"Customer / Area Code"))) (.cons (.slice (.name (py!"r")) (some 1) (some 4)) (.cons (.const (.fn (py!"field_003"))) .nil))))
      (.cons (.call (py!"Field") (.cons (.const (.str (py!"Section Code"))) (.cons (.slice (.name (py!"r")) (some 4) (some 6)) (.cons (.const (.fn (py!"field_004"))) .nil))))
      (.cons (.call (py!"Field") (.cons (.const (.str (py!"Route Identifier"))) (.cons (.slice (.name (py!"r")) (some 13) (some 23)) (.cons (.const (.fn (py!"field_008"))) .nil))))
      (.cons (.call (py!"Field") (.cons (.const (.str (py!"Preferred Route Use Ind"))) (.cons (.slice (.name (py!"r")) (some 23) (some 25)) (.cons (.const (.fn (py!"field_220"))) .nil))))
      (.cons (.call (py!"Field") (.cons (.const (.str (py!"Sequence Number"))) (.cons (.slice (.name (py!"r")) (some 25) (some 29)) (.cons (.const (.fn (py!"field_012"))) .nil))))
      (.cons (.call (py!"Field") (.cons (.const (.str (py!"Continuation Record No"))) (.cons (.sub (.name (py!"r")) (.const (.int 38))) (.cons (.const (.fn (py!"field_016"))) .nil))))
      (.cons (.call (py!"Field") (.cons (.const (.str (py!"Application Type"))) (.cons (.sub (.name (py!"r")) (.const (.int 39))) (.cons (.const (.fn (py!"field_091"))) .nil))))
      (.cons (.call (py!"Field") (.cons (.const (.str (py!"Time Code"))) (.cons (.sub (.name (py!"r")) (.const (.int 40))) (.cons (.const (.fn (py!"field_131"))) .nil))))
      (.cons (.call (py!"Field") (.cons (.const (.str (py!"Time Indicator"))) (.cons (.sub (.name (py!"r")) (.const (.int 41))) (.cons (.const (.fn (py!"field_138"))) .nil))))
      (.cons (.call (py!"Field") (.cons (.const (.str (py!"Time of Operation"))) (.cons (.slice (.name (py!"r")) (some 42) (some 52)) (.cons (.const (.fn (py!"field_195"))) .nil))))
      (.cons (.call (py!"Field") (.cons (.const (.str (py!"Time of Operation (2)"))) (.cons (.slice (.name (py!"r")) (some 52) (some 62)) (.cons (.const (.fn (py!"field_195"))) .nil))))
      (.cons (.call (py!"Field") (.cons (.const (.str (py!"Time of Operation (3)"))) (.cons (.slice (.name (py!"r")) (some 62) (some 72)) (.cons (.const (.fn (py!"field_195"))) .nil))))
      (.cons (.call (py!"Field") (.cons (.const (.str (py!"Time of Operation (4)"))) (.cons (.slice (.name (py!"r")) (some 72) (some 82)) (.cons (.const (.fn (py!"field_195"))) .nil))))
      (.cons (.call (py!"Field") (.cons (.const (.str (py!"Time of Operation (5)"))) (.cons (.slice (.name (py!"r")) (some 82) (some 92)) (.cons (.const (.fn (py!"field_195"))) .nil))))
      (.cons (.call (py!"Field") (.cons (.const (.str (py!"Time of Operation (6)"))) (.cons (.slice (.name (py!"r")) (some 92) (some 102)) (.cons (.const (.fn (py!"field_195"))) .nil))))
      (.cons (.call (py!"Field") (.cons (.const (.str (py!"Time of Operation (7)"))) (.cons (.slice (.name (py!"r")) (some 102) (some 112)) (.cons (.const (.fn (py!"field_195"))) .nil))))
      (.cons (.call (py!"Field") (.cons (.const (.str (py!"File Record No"))) (.cons (.slice (.name (py!"r")) (some 123) (some 128)) (.cons (.const (.fn (py!"field_031"))) .nil))))
      (.cons (.call (py!"Field") (.cons (.const (.str (py!"Cycle Date"))) (.cons (.slice (.name (py!"r")) (some 128) (some 132)) (.cons (.const (.fn (py!"field_032"))) .nil))))
      .nil)))))))))))))))))))))⟩

/-- definitions/PreferredRoute.py:95-108 -/
def PreferredRoute_read_cont : Func := ⟨[py!"self", py!"r"], [],
  (.ret (.list (.cons (.call (py!"Field") (.cons (.const (.str (py!"Record Type"))) (.cons (.sub (.name (py!"r")) (.const (.int 0))) (.cons (.const (.fn (py!"field_002"))) .nil))))
      (.cons (.call (py!"Field") (.cons (.const (.str (py!"Customer / Area Code"))) (.cons (.slice (.name (py!"r")) (some 1) (some 4)) (.cons (.const (.fn (py!"field_003"))) .nil))))
      (.cons (.call (py!"Field") (.cons (.const (.str (py!"Section Code"))) (.cons (.slice (.name (py!"r")) (some 4) (some 6)) (.cons (.const (.fn (py!"field_004"))) .nil))))
      (.cons (.call (py!"Field") (.cons (.const (.str (py!"Route Identifier"))) (.cons (.slice (.name (py!"r")) (some 13) (some 23)) (.cons (.const (.fn (py!"field_008"))) .nil))))
      (.cons (.call (py!"Field") (.cons (.const (.str (py!"Preferred Route Use Ind"))) (.cons (.slice (.name (py!"r")) (some 23) (some 25)) (.cons (.const (.fn (py!"field_220"))) .nil))))
      (.cons (.call (py!"Field") (.cons (.const (.str (py!"Sequence Number"))) (.cons (.slice (.name (py!"r")) (some 25) (some 29)) (.cons (.const (.fn (py!"field_012"))) .nil))))
      (.cons (.call (py!"Field") (.cons (.const (.str (py!"Continuation Record No"))) (.cons (.sub (.name (py!"r")) (.const (.int 38))) (.cons (.const (.fn (py!"field_016"))) .nil))))
      (.cons (.call (py!"Field") (.cons (.const (.str (py!"Application Type"))) (.cons (.sub (.name (py!"r")) (.const (.int 39))) (.cons (.const (.fn (py!"field_091"))) .nil))))
      (.cons (.call (py!"Field") (.cons (.const (.str (py!"Notes"))) (.cons (.slice (.name (py!"r")) (some 40) (some 109)) (.cons (.const (.fn (py!"field_061"))) .nil))))
      (.cons (.call (py!"Field") (.cons (.const (.str (py!"File Record No"))) (.cons (.slice (.name (py!"r")) (some 123) (some 128)) (.cons (.const (.fn (py!"field_031"))) .nil))))
      (.cons (.call (py!"Field") (.cons (.const (.str (py!"Cycle Date"))) (.cons (.slice (.name (py!"r")) (some 128) (some 132)) (.cons (.const (.fn (py!"field_032"))) .nil))))
      .nil)))))))))))))⟩

/-- definitions/PreferredRoute.py:10-108, class `PreferredRoute` -/
def PreferredRoute : Class :=
  ⟨[(py!"cont_idx", (.int 38)), (py!"app_idx", (.int 39)), (py!"continuations", (.list [(.str (py!"A")), (.str (py!"T"))])), (py!"name", (.str (py!"Preferred Route")))],
   [(py!"application_type", PreferredRoute_application_type),
    (py!"read", PreferredRoute_read),
    (py!"read_primary", PreferredRoute_read_primary),
    (py!"read_timeop", PreferredRoute_read_timeop),
    (py!"read_cont", PreferredRoute_read_cont)]⟩

/-- definitions/EnrouteAirways.py:13-14 -/
def EnrouteAirways_application_type : Func := ⟨[py!"self", py!"line"], [],
  (.ret (.sub (.name (py!"line")) (.attr (.name (py!"self")) (py!"app_idx"))))⟩

/-- definitions/EnrouteAirways.py:16-30 -/
def EnrouteAirways_read : Func := ⟨[py!"self", py!"line", py!"primary"], [],
  (.seq (.ite (.name (py!"primary"))
    (.ret (.invoke (.name (py!"self")) (py!"read_primary") (.cons (.name (py!"line")) .nil)))
    .pass)
  (.seq (.assign (py!"application") (.sub (.name (py!"line")) (.attr (.name (py!"self")) (py!"app_idx"))))
  (.matchOn (.name (py!"application"))
    (.case (.str (py!"A")) (.ret (.invoke (.name (py!"self")) (py!"read_cont") (.cons (.name (py!"line")) .nil)))
    (.case (.str (py!"P")) (.ret (.invoke (.name (py!"self")) (py!"read_flight_plan0") (.cons (.name (py!"line")) .nil)))
    (.case (.str (py!"Q")) (.ret (.invoke (.name (py!"self")) (py!"read_flight_plan1") (.cons (.name (py!"line")) .nil)))
    (.raise (.cons (.const (.str (py!"Unknown Application Type"))) .nil))))))))⟩

/-- definitions/EnrouteAirways.py:33-65 -/
def EnrouteAirways_read_primary : Func := ⟨[py!"self", py!"r"], [],
  (.ret (.list (.cons (.call (py!"Field") (.cons (.const (.str (py!"Record Type"))) (.cons (.sub (.name (py!"r")) (.const (.int 0))) (.cons (.const (.fn (py!"field_002"))) .nil))))
      (.cons (.call (py!"Field") (.cons (.const (.str (py!"Customer / Area Code"))) (.cons (.slice (.name (py!"r")) (some 1) (some 4)) (.cons (.const (.fn (py!"field_003"))) .nil))))
      (.cons (.call (py!"Field") (.cons (.const (.str (py!"Section Code"))) (.cons (.slice (.name (py!"r")) (some 4) (some 6)) (.cons (.const (.fn (py!"field_004"))) .nil))))
      (.cons (.call (py!"Field") (.cons (.const (.str (py!"Route Identifier"))) (.cons (.slice (.name (py!"r")) (some 13) (some 18)) (.cons (.const (.fn (py!"field_008"))) .nil))))
      (.cons (.call (py!"Field") (.cons (.const (.str (py!"Sequence Number"))) (.cons (.slice (.name (py!"r")) (some 25) (some 29)) (.cons (.const (.fn (py!"field_012"))) .nil))))
      (.cons (.call (py!"Field") (.cons (.const (.str (py!"Fix Identifier"))) (.cons (.slice (.name (py!"r")) (some 29) (some 34)) (.cons (.const (.fn (py!"field_013"))) .nil))))
      (.cons (.call (py!"Field") (.cons (.const (.str (py!"ICAO Code"))) (.cons (.slice (.name (py!"r")) (some 34) (some 36)) (.cons (.const (.fn (py!"field_014"))) .nil))))
      (.cons (.call (py!"Field") (.cons (.const (.str (py!"Section Code (2)"))) (.cons (.slice (.name (py!"r")) (some 36) (some 38)) (.cons (.const (.fn (py!"field_004"))) .nil))))
      (.cons (.call (py!"Field") (.cons (.const (.str (py!"Continuation Record No"))) (.cons (.sub (.name (py!"r")) (.const (.int 38))) (.cons (.const (.fn (py!"field_016"))) .nil))))
      (.cons (.call (py!"Field") (.cons (.const (.str (py!"Waypoint Desc Code"))) (.cons (.slice (.name (py!"r")) (some 39) (some 43)) (.cons (.const (.fn (py!"field_017"))) .nil))))
      (.cons (.call (py!"Field") (.cons (.const (.str (py!"Boundary Code"))) (.cons (.sub (.name (py!"r")) (.const (.int 43))) (.cons (.const (.fn (py!"field_018"))) .nil))))
      (.cons (.call (py!"Field") (.cons (.const (.str (py!"Route Type"))) (.cons (.sub (.name (py!"r")) (.const (.int 44))) (.cons (.const (.fn (py!"field_007"))) .nil))))
      (.cons (.call (py!"Field") (.cons (.const (.str (py!"Level"))) (.cons (.sub (.name (py!"r")) (.const (.int 45))) (.cons (.const (.fn (py!"field_019"))) .nil))))
      (.cons (.call (py!"Field") (.cons (.const (.str (py!"Direction Restriction"))) (.cons (.sub (.name (py!"r")) (.const (.int 46))) (.cons (.const (.fn (py!"field_115"))) .nil))))
      (.cons (.call (py!"Field") (.cons (.const (.str (py!"Cruise Table Indicator"))) (.cons (.slice (.name (py!"r")) (some 47) (some 49)) (.cons (.const (.fn (py!"field_134"))) .nil))))
      (.cons (.call (py!"Field") (.cons (.const (.str (py!"EU Indicator"))) (.cons (.sub (.name (py!"r")) (.const (.int 49))) (.cons (.const (.fn (py!"field_164"))) .nil))))
      (.cons (.call (py!"Field") (.cons (.const (.str (py!"Recommended NAVAID"))) (.cons (.slice (.name (py!"r")) (some 50) (some 54)) (.cons (.const (.fn (py!"field_023"))) .nil))))
      (.cons (.call (py!"Field") (.cons (.const (.str (py!"ICAO Code (2)"))) (.cons (.slice (.name (py!"r")) (some 54) (some 56)) (.cons (.const (.fn (py!"field_014"))) .nil))))
      (.cons (.call (py!"Field") (.cons (.const (.str (py!"RNP"))) (.cons (.slice (.name (py!"r")) (some 56) (some 59)) (.cons (.const (.fn (py!"field_211"))) .nil))))
      (.cons (.call (py!"Field") (.cons (.const (.str (py!"Theta"))) (.cons (.slice (.name (py!"r")) (some 62) (some 66)) (.cons (.const (.fn (py!"field_024"))) .nil))))
      (.cons (.call (py!"Field") (.cons (.const (.str (py!"Rho"))) (.cons (.slice (.name (py!"r")) (some 66) (some 70)) (.cons (.const (.fn (py!"field_025"))) .nil))))
      (.cons (.call (py!"Field") (.cons (.const (.str (py!"Outbound Magnetic Course"))) (.cons (.slice (.name (py!"r")) (some 70) (some 74)) (.cons (.const (.fn (py!"field_026"))) .nil))))
      (.cons (.call (py!"Field") (.cons (.const (.str (py!"Route Distance From"))) (.cons (.slice (.name (py!"r")) (some 74) (some 78)) (.cons (.const (.fn (py!"field_027"))) .nil))))
      (.cons (.call (py!"Field") (.cons (.const (.str (py!"Inbound Magnetic Course"))) (.cons (.slice (.name (py!"r")) (some 78) (some 82)) (.cons (.const (.fn (py!"field_028"))) .nil))))
      (.cons (.call (py!"Field") (.cons (.const (.str (py!"Minimum Altitude"))) (.cons (.slice (.name (py!"r")) (some 83) (some 88)) (.cons (.const (.fn (py!"field_030"))) .nil))))
      (.cons (.call (py!"Field") (.cons (.const (.str (py!"Minimum Altitude (2)"))) (.cons (.slice (.name (py!"r")) (some 88) (some 93)) (.cons (.const (.fn (py!"field_030"))) .nil))))
      (.cons (.call (py!"Field") (.cons (.const (.str (py!"Maximum Altitude"))) (.cons (.slice (.name (py!"r")) (some 93) (some 98)) (.cons (.const (.fn (py!"field_127"))) .nil))))
      (.cons (.call (py!"Field") (.cons (.const (.str (py!"Fix Radius Transition Indicator"))) (.cons (.slice (.name (py!"r")) (some 98) (some 101)) (.cons (.const (.fn (py!"field_254"))) .nil))))
      (.cons (.call (py!"Field") (.cons (.const (.str (py!"File Record No"))) (.cons (.slice (.name (py!"r")) (some 123) (some 128)) (.cons (.const (.fn (py!"field_031"))) .nil))))
      (.cons (.call (py!"Field") (.cons (.const (.str (py!"Cycle Date"))) (.cons (.slice (.name (py!"r")) (some 128) (some 132)) (.cons (.const (.fn (py!"field_032"))) .nil))))
      .nil))))))))))))))))))))))))))))))))⟩

/-- definitions/EnrouteAirways.py:68-83 -/
def EnrouteAirways_read_cont : Func := ⟨[py!"self", py!"r"], [],
  (.ret (.list (.cons (.call (py!"Field") (.cons (.const (.str (py!"Record Type"))) (.cons (.sub (.name (py!"r")) (.const (.int 0))) (.cons (.const (.fn (py!"field_002"))) .nil))))
      (.cons (.call (py!"Field") (.cons (.const (.str (py!"Customer / Area Code"))) (.cons (.slice (.name (py!"r")) (some 1) (some 4)) (.cons (.const (.fn (py!"field_003"))) .nil))))
      (.cons (.call (py!"Field") (.cons (.const (.str (py!"Section Code"))) (.cons (.slice (.name (py!"r")) (some 4) (some 6)) (.cons (.const (.fn (py!"field_004"))) .nil))))
      (.cons (.call (py!"Field") (.cons (.const (.str (py!"Route Identifier"))) (.cons (.slice (.name (py!"r")) (some 13) (some 18)) (.cons (.const (.fn (py!"field_008"))) .nil))))
      (.cons (.call (py!"Field") (.cons (.const (.str (py!"Sequence Number"))) (.cons (.slice (.name (py!"r")) (some 25) (some 29)) (.cons (.const (.fn (py!"field_012"))) .nil))))
      (.cons (.call (py!"Field") (.cons (.const (.str (py!"Fix Identifier"))) (.cons (.slice (.name (py!"r")) (some 29) (some 34)) (.cons (.const (.fn (py!"field_013"))) .nil))))
      (.cons (.call (py!"Field") (.cons (.const (.str (py!"ICAO Code"))) (.cons (.slice (.name (py!"r")) (some 34) (some 36)) (.cons (.const (.fn (py!"field_014"))) .nil))))
      (.cons (.call (py!"Field") (.cons (.const (.str (py!"Section Code (2)"))) (.cons (.slice (.name (py!"r")) (some 36) (some 38)) (.cons (.const (.fn (py!"field_004"))) .nil))))
      (.cons (.call (py!"Field") (.cons (.const (.str (py!"Continuation Record No"))) (.cons (.sub (.name (py!"r")) (.const (.int 38))) (.cons (.const (.fn (py!"field_016"))) .nil))))
      (.cons (.call (py!"Field") (.cons (.const (.str (py!"Application Type"))) (.cons (.sub (.name (py!"r")) (.const (.int 39))) (.cons (.const (.fn (py!"field_091"))) .nil))))
      (.cons (.call (py!"Field") (.cons (.const (.str (py!"Notes"))) (.cons (.slice (.name (py!"r")) (some 40) (some 109)) (.cons (.const (.fn (py!"field_061"))) .nil))))
      (.cons (.call (py!"Field") (.cons (.const (.str (py!"File Record No"))) (.cons (.slice (.name (py!"r")) (some 123) (some 128)) (.cons (.const (.fn (py!"field_031"))) .nil))))
      (.cons (.call (py!"Field") (.cons (.const (.str (py!"Cycle Date"))) (.cons (.slice (.name (py!"r")) (some 128) (some 132)) (.cons (.const (.fn (py!"field_032"))) .nil))))
      .nil)))))))))))))))⟩

/-- definitions/EnrouteAirways.py:86-118 -/
def EnrouteAirways_read_flight_plan0 : Func := ⟨[py!"self", py!"r"], [],
  (.ret (.list (.cons (.call (py!"Field") (.cons (.const (.str (py!"Record Type"))) (.cons (.sub (.name (py!"r")) (.const (.int 0))) (.cons (.const (.fn (py!"field_002"))) .nil))))
      (.cons (.call (py!"Field") (.cons (.const (.str (py!"Customer / Area Code"))) (.cons (.slice (.name (py!"r")) (some 1) (some 4)) (.cons (.const (.fn (py!"field_003"))) .nil))))
      (.cons (.call (py!"Field") (.cons (.const (.str (py!"Section Code"))) (.cons (.slice (.name (py!"r")) (some 4) (some 6)) (.cons (.const (.fn (py!"field_004"))) .nil))))
      (.cons (.call (py!"Field") (.cons (.const (.str (py!"Route Identifier"))) (.cons (.slice (.name (py!"r")) (some 13) (some 18)) (.cons (.const (.fn (py!"field_008"))) .nil))))
      (.cons (.call (py!"Field") (.cons (.const (.str (py!"Sequence Number"))) (.cons (.slice (.name (py!"r")) (some 25) (some 29)) (.cons (.const (.fn (py!"field_012"))) .nil))))
      (.cons (.call (py!"Field") (.cons (.const (.str (py!"Fix Identifier"))) (.cons (.slice (.name (py!"r")) (some 29) (some 34)) (.cons (.const (.fn (py!"field_013"))) .nil))))
      (.cons (.call (py!"Field") (.cons (.const (.str (py!"ICAO Code"))) (.cons (.slice (.name (py!"r")) (some 34) (some 36)) (.cons (.const (.fn (py!"field_014"))) .nil))))
      (.cons (.call (py!"Field") (.cons (.const (.str (py!"Section Code (2)"))) (.cons (.slice (.name (py!"r")) (some 36) (some 38)) (.cons (.const (.fn (py!"field_004"))) .nil))))
      (.cons (.call (py!"Field") (.cons (.const (.str (py!"Continuation Record No"))) (.cons (.sub (.name (py!"r")) (.const (.int 38))) (.cons (.const (.fn (py!"field_016"))) .nil))))
      (.cons (.call (py!"Field") (.cons (.const (.str (py!"Application Type"))) (.cons (.sub (.name (py!"r")) (.const (.int 39))) (.cons (.const (.fn (py!"field_091"))) .nil))))
      (.cons (.call (py!"Field") (.cons (.const (.str (py!"Start/End Indicator"))) (.cons (.sub (.name (py!"r")) (.const (.int 40))) (.cons (.const (.fn (py!"field_152"))) .nil))))
      (.cons (.call (py!"Field") (.cons (.const (.str (py!"Start/End Date"))) (.cons (.slice (.name (py!"r")) (some 41) (some 52)) (.cons (.const (.fn (py!"field_153"))) .nil))))
      (.cons (.call (py!"Field") (.cons (.const (.str (py!"Restr. Air ICAO Code"))) (.cons (.slice (.name (py!"r")) (some 66) (some 68)) (.cons (.const (.fn (py!"field_014"))) .nil))))
      (.cons (.call (py!"Field") (.cons (.const (.str (py!"Restr. Air Type"))) (.cons (.sub (.name (py!"r")) (.const (.int 68))) (.cons (.const (.fn (py!"field_128"))) .nil))))
      (.cons (.call (py!"Field") (.cons (.const (.str (py!"Restr. Air Designation"))) (.cons (.slice (.name (py!"r")) (some 69) (some 79)) (.cons (.const (.fn (py!"field_129"))) .nil))))
      (.cons (.call (py!"Field") (.cons (.const (.str (py!"Restr. Air Multiple Code"))) (.cons (.sub (.name (py!"r")) (.const (.int 79))) (.cons (.const (.fn (py!"field_130"))) .nil))))
      (.cons (.call (py!"Field") (.cons (.const (.str (py!"Restr. Air ICAO Code (2)"))) (.cons (.slice (.name (py!"r")) (some 80) (some 82)) (.cons (.const (.fn (py!"field_014"))) .nil))))
      (.cons (.call (py!"Field") (.cons (.const (.str (py!"Restr. Air Type (2)"))) (.cons (.sub (.name (py!"r")) (.const (.int 82))) (.cons (.const (.fn (py!"field_012"))) .nil))))
      (.cons (.call (py!"Field") (.cons (.const (.str (py!"Restr. Air Designation (2)"))) (.cons (.slice (.name (py!"r")) (some 83) (some 93)) (.cons (.const (.fn (py!"field_129"))) .nil))))
      (.cons (.call (py!"Field") (.cons (.const (.str (py!"Restr. Air Multiple Code (2)"))) (.cons (.sub (.name (py!"r")) (.const (.int 93))) (.cons (.const (.fn (py!"field_130"))) .nil))))
      (.cons (.call (py!"Field") (.cons (.const (.str (py!"Restr. Air ICAO Code (3)"))) (.cons (.slice (.name (py!"r")) (some 94) (some 96)) (.cons (.const (.fn (py!"field_014"))) .nil))))
      (.cons (.call (py!"Field") (.cons (.const (.str (py!"Restr. Air Type (3)"))) (.cons (.sub (.name (py!"r")) (.const (.int 96))) (.cons (.const (.fn (py!"field_012"))) .nil))))
      (.cons (.call (py!"Field") (.cons (.const (.str (py!"Restr. Air Designation (3)"))) (.cons (.slice (.name (py!"r")) (some 97) (some 107)) (.cons (.const (.fn (py!"field_129"))) .nil))))
      (.cons (.call (py!"Field") (.cons (.const (.str (py!"Restr. Air Multiple Code (3)"))) (.cons (.sub (.name (py!"r")) (.const (.int 107))) (.cons (.const (.fn (py!"field_130"))) .nil))))
      (.cons (.call (py!"Field") (.cons (.const (.str (py!"Restr. Air ICAO Code (4)"))) (.cons (.slice (.name (py!"r")) (some 108) (some 110)) (.cons (.const (.fn (py!"field_014"))) .nil))))
      (.cons (.call (py!"Field") (.cons (.const (.str (py!"Restr. Air Type (4)"))) (.cons (.sub (.name (py!"r")) (.const (.int 110))) (.cons (.const (.fn (py!"field_012"))) .nil))))
      (.cons (.call (py!"Field") (.cons (.const (.str (py!"Restr. Air Designation (4)"))) (.cons (.slice (.name (py!"r")) (some 111) (some 121)) (.cons (.const (.fn (py!"field_129"))) .nil))))
      (.cons (.call (py!"Field") (.cons (.const (.str (py!"Restr. Air Link Continuation"))) (.cons (.sub (.name (py!"r")) (.const (.int 122))) (.cons (.const (.fn (py!"field_174"))) .nil))))
      (.cons (.call (py!"Field") (.cons (.const (.str (py!"File Record No"))) (.cons (.slice (.name (py!"r")) (some 123) (some 128)) (.cons (.const (.fn (py!"field_031"))) .nil))))
      (.cons (.call (py!"Field") (.cons (.const (.str (py!"Cycle Date"))) (.cons (.slice (.name (py!"r")) (some 128) (some 132)) (.cons (.const (.fn (py!"field_032"))) .nil))))
      .nil))))))))))))))))))))))))))))))))⟩

/-- definitions/EnrouteAirways.py:121-153 -/
def EnrouteAirways_read_flight_plan1 : Func := ⟨[py!"self", py!"r"], [],
  (.ret (.list (.cons (.call (py!"Field") (.cons (.const (.str (py!"Record Type"))) (.cons (.sub (.name (py!"r")) (.const (.int 0))) (.cons (.const (.fn (py!"field_002"))) .nil))))
      (.cons (.call (py!"Field") (.cons (.const (.str (py!"Customer / Area Code"))) (.cons (.slice (.name (py!"r")) (some 1) (some 4)) (.cons (.const (.fn (py!"field_003"))) .nil))))
      (.cons (.call (py!"Field") (.cons (.const (.str (py!"Section Code"))) (.cons (.slice (.name (py!"r")) (some 4) (some 6)) (.cons (.const (.fn (py!"field_004"))) .nil))))
      (.cons (.call (py!"Field") (.cons (.const (.str (py!"Route Identifier"))) (.cons (.slice (.name (py!"r")) (some 13) (some 18)) (.cons (.const (.fn (py!"field_008"))) .nil))))
      (.cons (.call (py!"Field") (.cons (.const (.str (py!"Sequence Number"))) (.cons (.slice (.name (py!"r")) (some 25) (some 29)) (.cons (.const (.fn (py!"field_012"))) .nil))))
      (.cons (.call (py!"Field") (.cons (.const (.str (py!"Fix Identifier"))) (.cons (.slice (.name (py!"r")) (some 29) (some 34)) (.cons (.const (.fn (py!"field_013"))) .nil))))
      (.cons (.call (py!"Field") (.cons (.const (.str (py!"ICAO Code"))) (.cons (.slice (.name (py!"r")) (some 34) (some 36)) (.cons (.const (.fn (py!"field_014"))) .nil))))
      (.cons (.call (py!"Field") (.cons (.const (.str (py!"Section Code (2)"))) (.cons (.slice (.name (py!"r")) (some 36) (some 38)) (.cons (.const (.fn (py!"field_004"))) .nil))))
      (.cons (.call (py!"Field") (.cons (.const (.str (py!"Continuation Record No"))) (.cons (.sub (.name (py!"r")) (.const (.int 38))) (.cons (.const (.fn (py!"field_016"))) .nil))))
      (.cons (.call (py!"Field") (.cons (.const (.str (py!"Waypoint Desc Code"))) (.cons (.slice (.name (py!"r")) (some 39) (some 43)) (.cons (.const (.fn (py!"field_017"))) .nil))))
      (.cons (.call (py!"Field") (.cons (.const (.str (py!"Boundary Code"))) (.cons (.sub (.name (py!"r")) (.const (.int 43))) (.cons (.const (.fn (py!"field_018"))) .nil))))
      (.cons (.call (py!"Field") (.cons (.const (.str (py!"Route Type"))) (.cons (.sub (.name (py!"r")) (.const (.int 44))) (.cons (.const (.fn (py!"field_007"))) .nil))))
      (.cons (.call (py!"Field") (.cons (.const (.str (py!"Level"))) (.cons (.sub (.name (py!"r")) (.const (.int 45))) (.cons (.const (.fn (py!"field_019"))) .nil))))
      (.cons (.call (py!"Field") (.cons (.const (.str (py!"Direction Restriction"))) (.cons (.sub (.name (py!"r")) (.const (.int 46))) (.cons (.const (.fn (py!"field_115"))) .nil))))
      (.cons (.call (py!"Field") (.cons (.const (.str (py!"Cruise Table Indicator"))) (.cons (.slice (.name (py!"r")) (some 47) (some 49)) (.cons (.const (.fn (py!"field_134"))) .nil))))
      (.cons (.call (py!"Field") (.cons (.const (.str (py!"EU Indicator"))) (.cons (.sub (.name (py!"r")) (.const (.int 49))) (.cons (.const (.fn (py!"field_164"))) .nil))))
      (.cons (.call (py!"Field") (.cons (.const (.str (py!"Recommended NAVAID"))) (.cons (.slice (.name (py!"r")) (some 50) (some 54)) (.cons (.const (.fn (py!"field_023"))) .nil))))
      (.cons (.call (py!"Field") (.cons (.const (.str (py!"ICAO Code (2)"))) (.cons (.slice (.name (py!"r")) (some 54) (some 56)) (.cons (.const (.fn (py!"field_014"))) .nil))))
      (.cons (.call (py!"Field") (.cons (.const (.str (py!"RNP"))) (.cons (.slice (.name (py!"r")) (some 56) (some 59)) (.cons (.const (.fn (py!"field_211"))) .nil))))
      (.cons (.call (py!"Field") (.cons (.const (.str (py!"Theta"))) (.cons (.slice (.name (py!"r")) (some 62) (some 66)) (.cons (.const (.fn (py!"field_024"))) .nil))))
      (.cons (.call (py!"Field") (.cons (.const (.str (py!"Rho"))) (.cons (.slice (.name (py!"r")) (some 66) (some 70)) (.cons (.const (.fn (py!"field_025"))) .nil))))
      (.cons (.call (py!"Field") (.cons (.const (.str (py!"Outbound Magnetic Course"))) (.cons (.slice (.name (py!"r")) (some 70) (some 74)) (.cons (.const (.fn (py!"field_026"))) .nil))))
      (.cons (.call (py!"Field") (.cons (.const (.str (py!"Route Distance From"))) (.cons (.slice (.name (py!"r")) (some 74) (some 78)) (.cons (.const (.fn (py!"field_027"))) .nil))))
      (.cons (.call (py!"Field") (.cons (.const (.str (py!"Inbound Magnetic Course"))) (.cons (.slice (.name (py!"r")) (some 78) (some 82)) (.cons (.const (.fn (py!"field_028"))) .nil))))
      (.cons (.call (py!"Field") (.cons (.const (.str (py!"Minimum Altitude"))) (.cons (.slice (.name (py!"r")) (some 83) (some 88)) (.cons (.const (.fn (py!"field_030"))) .nil))))
      (.cons (.call (py!"Field") (.cons (.const (.str (py!"Minimum Altitude (2)"))) (.cons (.slice (.name (py!"r")) (some 88) (some 93)) (.cons (.const (.fn (py!"field_030"))) .nil))))
      (.cons (.call (py!"Field") (.cons (.const (.str (py!"Maximum Altitude"))) (.cons (.slice (.name (py!"r")) (some 93) (some 98)) (.cons (.const (.fn (py!"field_127"))) .nil))))
      (.cons (.call (py!"Field") (.cons (.const (.str (py!"Fix Radius Transition Indicator"))) (.cons (.slice (.name (py!"r")) (some 98) (some 101)) (.cons (.const (.fn (py!"field_254"))) .nil))))
      (.cons (.call (py!"Field") (.cons (.const (.str (py!"File Record No"))) (.cons (.slice (.name (py!"r")) (some 123) (some 128)) (.cons (.const (.fn (py!"field_031"))) .nil))))
      (.cons (.call (py!"Field") (.cons (.const (.str (py!"Cycle Date"))) (.cons (.slice (.name (py!"r")) (some 128) (some 132)) (.cons (.const (.fn (py!"field_032"))) .nil))))
      .nil))))))))))))))))))))))))))))))))⟩

/-- definitions/EnrouteAirways.py:6-153, class `EnrouteAirways` -/
def EnrouteAirways : Class :=
  ⟨[(py!"cont_idx", (.int 38)), (py!"app_idx", (.int 39)), (py!"continuations", (.list [(.str (py!"A")), (.str (py!"P")), (.str (py!"Q"))])), (py!"name", (.str (py!"Enroute Airways")))],
   [(py!"application_type", EnrouteAirways_application_type),
    (py!"read", EnrouteAirways_read),
    (py!"read_primary", EnrouteAirways_read_primary),
    (py!"read_cont", EnrouteAirways_read_cont),
    (py!"read_flight_plan0", EnrouteAirways_read_flight_plan0),
    (py!"read_flight_plan1", EnrouteAirways_read_flight_plan1)]⟩

/-- definitions/EnrouteAirwaysRestriction.py:11-12 -/
def EnrouteAirwaysRestriction_application_type : Func := ⟨[py!"self", py!"line"], [],
  (.ret (.slice (.name (py!"line")) (some 15) (some 17)))⟩

/-- definitions/EnrouteAirwaysRestriction.py:14-39 -/
def EnrouteAirwaysRestriction_read : Func := ⟨[py!"self", py!"line", py!"primary"], [],
  (.seq (.assign (py!"application") (.invoke (.name (py!"self")) (py!"application_type") (.cons (.name (py!"line")) .nil)))
  (.ite (.name (py!"primary"))
    (.matchOn (.name (py!"application"))
      (.case (.str (py!"AE")) (.ret (.invoke (.name (py!"self")) (py!"primary_altitude_exclude") (.cons (.name (py!"line")) .nil)))
      (.case (.str (py!"TC")) (.ret (.invoke (.name (py!"self")) (py!"primary_cruise_table") (.cons (.name (py!"line")) .nil)))
      (.case (.str (py!"SC")) (.ret (.invoke (.name (py!"self")) (py!"primary_seasonal_closure") (.cons (.name (py!"line")) .nil)))
      (.case (.str (py!"NR")) (.ret (.invoke (.name (py!"self")) (py!"primary_note_restriction") (.cons (.name (py!"line")) .nil)))
      (.raise (.cons (.const (.str (py!"Unknown Restricted Airway Type"))) .nil)))))))
    (.matchOn (.name (py!"application"))
      (.case (.str (py!"AE")) (.ret (.invoke (.name (py!"self")) (py!"cont_altitude_exclude") (.cons (.name (py!"line")) .nil)))
      (.case (.str (py!"TC")) (.ret (.invoke (.name (py!"self")) (py!"cont_cruise_table") (.cons (.name (py!"line")) .nil)))
      (.case (.str (py!"NR")) (.ret (.invoke (.name (py!"self")) (py!"cont_note_restriction") (.cons (.name (py!"line")) .nil)))
      (.raise (.cons (.const (.str (py!"Unknown Restricted Airway Type"))) .nil))))))))⟩

/-- definitions/EnrouteAirwaysRestriction.py:48-89 -/
def EnrouteAirwaysRestriction_primary_altitude_exclude : Func := ⟨[py!"self", py!"r"], [],
  (.ret (.list (.cons (.call (py!"Field") (.cons (.const (.str (py!"Record Type"))) (.cons (.sub (.name (py!"r")) (.const (.int 0))) (.cons (.const (.fn (py!"field_002"))) .nil))))
      (.cons (.call (py!"Field") (.cons (.const (.str (py!"Customer / Area Code"))) (.cons (.slice (.name (py!"r")) (some 1) (some 4)) (.cons (.const (.fn (py!"field_003"))) .nil))))
      (.cons (.call (py!"Field") (.cons (.const (.str (py!"Section Code"))) (.cons (.slice (.name (py!"r")) (some 4) (some 6)) (.cons (.const (.fn (py!"field_004"))) .nil))))
      (.cons (.call (py!"Field") (.cons (.const (.str (py!"Route Identifier"))) (.cons (.slice (.name (py!"r")) (some 6) (some 11)) (.cons (.const (.fn (py!"field_008"))) .nil))))
      (.cons (.call (py!"Field") (.cons (.const (.str (py!"Restriction Identifier"))) (.cons (.slice (.name (py!"r")) (some 12) (some 15)) (.cons (.const (.fn (py!"field_154"))) .nil))))
      (.cons (.call (py!"Field") (.cons (.const (.str (py!"Restriction Type"))) (.cons (.slice (.name (py!"r")) (some 15) (some 17)) (.cons (.const (.fn (py!"field_201"))) .nil))))
      (.cons (.call (py!"Field") (.cons (.const (.str (py!"Continuation Record No"))) (.cons (.sub (.name (py!"r")) (.const (.int 17))) (.cons (.const (.fn (py!"field_016"))) .nil))))
      (.cons (.call (py!"Field") (.cons (.const (.str (py!"Start Fix Identifier"))) (.cons (.slice (.name (py!"r")) (some 18) (some 23)) (.cons (.const (.fn (py!"field_013"))) .nil))))
      (.cons (.call (py!"Field") (.cons (.const (.str (py!"Start Fix ICAO Code"))) (.cons (.slice (.name (py!"r")) (some 23) (some 25)) (.cons (.const (.fn (py!"field_014"))) .nil))))
      (.cons (.call (py!"Field") (.cons (.const (.str (py!"Start Fix Section Code"))) (.cons (.slice (.name (py!"r")) (some 25) (some 27)) (.cons (.const (.fn (py!"field_004"))) .nil))))
      (.cons (.call (py!"Field") (.cons (.const (.str (py!"End Fix Identifier"))) (.cons (.slice (.name (py!"r")) (some 27) (some 32)) (.cons (.const (.fn (py!"field_013"))) .nil))))
      (.cons (.call (py!"Field") (.cons (.const (.str (py!"End Fix ICAO Code"))) (.cons (.slice (.name (py!"r")) (some 32) (some 34)) (.cons (.const (.fn (py!"field_014"))) .nil))))
      (.cons (.call (py!"Field") (.cons (.const (.str (py!"End Fix Section Code"))) (.cons (.slice (.name (py!"r")) (some 34) (some 36)) (.cons (.const (.fn (py!"field_004"))) .nil))))
      (.cons (.call (py!"Field") (.cons (.const (.str (py!"Start Date"))) (.cons (.slice (.name (py!"r")) (some 37) (some 44)) (.cons (.const (.fn (py!"field_157"))) .nil))))
      (.cons (.call (py!"Field") (.cons (.const (.str (py!"End Date"))) (.cons (.slice (.name (py!"r")) (some 44) (some 51)) (.cons (.const (.fn (py!"field_157"))) .nil))))
      (.cons (.call (py!"Field") (.cons (.const (.str (py!"Time Code"))) (.cons (.sub (.name (py!"r")) (.const (.int 51))) (.cons (.const (.fn (py!"field_131"))) .nil))))
      (.cons (.call (py!"Field") (.cons (.const (.str (py!"Time Indicator"))) (.cons (.sub (.name (py!"r")) (.const (.int 52))) (.cons (.const (.fn (py!"field_138"))) .nil))))
      (.cons (.call (py!"Field") (.cons (.const (.str (py!"Time of Operation"))) (.cons (.slice (.name (py!"r")) (some 53) (some 63)) (.cons (.const (.fn (py!"field_195"))) .nil))))
      (.cons (.call (py!"Field") (.cons (.const (.str (py!"Time of Operation"))) (.cons (.slice (.name (py!"r")) (some 63) (some 73)) (.cons (.const (.fn (py!"field_195"))) .nil))))
      (.cons (.call (py!"Field") (.cons (.const (.str (py!"Time of Operation"))) (.cons (.slice (.name (py!"r")) (some 73) (some 83)) (.cons (.const (.fn (py!"field_195"))) .nil))))
      (.cons (.call (py!"Field") (.cons (.const (.str (py!"Time of Operation"))) (.cons (.slice (.name (py!"r")) (some 83) (some 93)) (.cons (.const (.fn (py!"field_195"))) .nil))))
      (.cons (.call (py!"Field") (.cons (.const (.str (py!"Exclusion Indicator"))) (.cons (.sub (.name (py!"r")) (.const (.int 93))) (.cons (.const (.fn (py!"field_202"))) .nil))))
      (.cons (.call (py!"Field") (.cons (.const (.str (py!"Units of Altitude"))) (.cons (.sub (.name (py!"r")) (.const (.int 94))) (.cons (.const (.fn (py!"field_160"))) .nil))))
      (.cons (.call (py!"Field") (.cons (.const (.str (py!"Restriction Altitude"))) (.cons (.slice (.name (py!"r")) (some 95) (some 98)) (.cons (.const (.fn (py!"field_161"))) .nil))))
      (.cons (.call (py!"Field") (.cons (.const (.str (py!"Block Indicator"))) (.cons (.sub (.name (py!"r")) (.const (.int 98))) (.cons (.const (.fn (py!"field_203"))) .nil))))
      (.cons (.call (py!"Field") (.cons (.const (.str (py!"Restriction Altitude"))) (.cons (.slice (.name (py!"r")) (some 99) (some 102)) (.cons (.const (.fn (py!"field_161"))) .nil))))
      (.cons (.call (py!"Field") (.cons (.const (.str (py!"Block Indicator"))) (.cons (.sub (.name (py!"r")) (.const (.int 102))) (.cons (.const (.fn (py!"field_203"))) .nil))))
      (.cons (.call (py!"Field") (.cons (.const (.str (py!"Restriction Altitude"))) (.cons (.slice (.name (py!"r")) (some 103) (some 106)) (.cons (.const (.fn (py!"field_161"))) .nil))))
      (.cons (.call (py!"Field") (.cons (.const (.str (py!"Block Indicator"))) (.cons (.sub (.name (py!"r")) (.const (.int 106))) (.cons (.const (.fn (py!"field_203"))) .nil))))
      (.cons (.call (py!"Field") (.cons (.const (.str (py!"Restriction Altitude"))) (.cons (.slice (.name (py!"r")) (some 107) (some 110)) (.cons (.const (.fn (py!"field_161"))) .nil))))
      (.cons (.call (py!"Field") (.cons (.const (.str (py!"Block Indicator"))) (.cons (.sub (.name (py!"r")) (.const (.int 110))) (.cons (.const (.fn (py!"field_203"))) .nil))))
      (.cons (.call (py!"Field") (.cons (.const (.str (py!"Restriction Altitude"))) (.cons (.slice (.name (py!"r")) (some 111) (some 114)) (.cons (.const (.fn (py!"field_161"))) .nil))))
      (.cons (.call (py!"Field") (.cons (.const (.str (py!"Block Indicator"))) (.cons (.sub (.name (py!"r")) (.const (.int 114))) (.cons (.const (.fn (py!"field_203"))) .nil))))
      (.cons (.call (py!"Field") (.cons (.const (.str (py!"Restriction Altitude"))) (.cons (.slice (.name (py!"r")) (some 115) (some 118)) (.cons (.const (.fn (py!"field_161"))) .nil))))
      (.cons (.call (py!"Field") (.cons (.const (.str (py!"Block Indicator"))) (.cons (.sub (.name (py!"r")) (.const (.int 118))) (.cons (.const (.fn (py!"field_203"))) .nil))))
      (.cons (.call (py!"Field") (.cons (.const (.str (py!"Restriction Altitude"))) (.cons (.slice (.name (py!"r")) (some 119) (some 122)) (.cons (.const (.fn (py!"field_161"))) .nil))))
      (.cons (.call (py!"Field") (.cons (.const (.str (py!"Block Indicator"))) (.cons (.sub (.name (py!"r")) (.const (.int 122))) (.cons (.const (.fn (py!"field_203"))) .nil))))
      (.cons (.call (py!"Field") (.cons (.const (.str (py!"File Record No"))) (.cons (.slice (.name (py!"r")) (some 123) (some 128)) (.cons (.const (.fn (py!"field_031"))) .nil))))
      (.cons (.call (py!"Field") (.cons (.const (.str (py!"Cycle Date"))) (.cons (.slice (.name (py!"r")) (some 128) (some 132)) (.cons (.const (.fn (py!"field_032"))) .nil))))
      .nil)))))))))))))))))))))))))))))))))))))))))⟩

/-- definitions/EnrouteAirwaysRestriction.py:91-125 -/
def EnrouteAirwaysRestriction_cont_altitude_exclude : Func := ⟨[py!"self", py!"r"], [],
  (.ret (.list (.cons (.call (py!"Field") (.cons (.const (.str (py!"Record Type"))) (.cons (.sub (.name (py!"r")) (.const (.int 0))) (.cons (.const (.fn (py!"field_002"))) .nil))))
      (.cons (.call (py!"Field") (.cons (.const (.str (py!"Customer / Area Code"))) (.cons (.slice (.name (py!"r")) (some 1) (some 4)) (.cons (.const (.fn (py!"field_003"))) .nil))))
      (.cons (.call (py!"Field") (.cons (.const (.str (py!"Section Code"))) (.cons (.slice (.name (py!"r")) (some 4) (some 6)) (.cons (.const (.fn (py!"field_004"))) .nil))))
      (.cons (.call (py!"Field") (.cons (.const (.str (py!"Route Identifier"))) (.cons (.slice (.name (py!"r")) (some 6) (some 11)) (.cons (.const (.fn (py!"field_008"))) .nil))))
      (.cons (.call (py!"Field") (.cons (.const (.str (py!"Restriction Identifier"))) (.cons (.slice (.name (py!"r")) (some 12) (some 15)) (.cons (.const (.fn (py!"field_154"))) .nil))))
      (.cons (.call (py!"Field") (.cons (.const (.str (py!"Restriction Type"))) (.cons (.slice (.name (py!"r")) (some 15) (some 17)) (.cons (.const (.fn (py!"field_201"))) .nil))))
      (.cons (.call (py!"Field") (.cons (.const (.str (py!"Continuation Record No"))) (.cons (.sub (.name (py!"r")) (.const (.int 17))) (.cons (.const (.fn (py!"field_016"))) .nil))))
      (.cons (.call (py!"Field") (.cons (.const (.str (py!"Application Type"))) (.cons (.sub (.name (py!"r")) (.const (.int 18))) (.cons (.const (.fn (py!"field_091"))) .nil))))
      (.cons (.call (py!"Field") (.cons (.const (.str (py!"Time Code"))) (.cons (.sub (.name (py!"r")) (.const (.int 51))) (.cons (.const (.fn (py!"field_131"))) .nil))))
      (.cons (.call (py!"Field") (.cons (.const (.str (py!"Time Indicator"))) (.cons (.sub (.name (py!"r")) (.const (.int 52))) (.cons (.const (.fn (py!"field_138"))) .nil))))
      (.cons (.call (py!"Field") (.cons (.const (.str (py!"Time of Operation"))) (.cons (.slice (.name (py!"r")) (some 53) (some 63)) (.cons (.const (.fn (py!"field_195"))) .nil))))
      (.cons (.call (py!"Field") (.cons (.const (.str (py!"Time of Operation (2)"))) (.cons (.slice (.name (py!"r")) (some 63) (some 73)) (.cons (.const (.fn (py!"field_195"))) .nil))))
      (.cons (.call (py!"Field") (.cons (.const (.str (py!"Time of Operation (3)"))) (.cons (.slice (.name (py!"r")) (some 73) (some 83)) (.cons (.const (.fn (py!"field_195"))) .nil))))
      (.cons (.call (py!"Field") (.cons (.const (.str (py!"Time of Operation (4)"))) (.cons (.slice (.name (py!"r")) (some 83) (some 93)) (.cons (.const (.fn (py!"field_195"))) .nil))))
      (.cons (.call (py!"Field") (.cons (.const (.str (py!"Exclusion Operator"))) (.cons (.sub (.name (py!"r")) (.const (.int 93))) (.cons (.const (.fn (py!"field_202"))) .nil))))
      (.cons (.call (py!"Field") (.cons (.const (.str (py!"Units of Altitude"))) (.cons (.sub (.name (py!"r")) (.const (.int 94))) (.cons (.const (.fn (py!"field_160"))) .nil))))
      (.cons (.call (py!"Field") (.cons (.const (.str (py!"Restriction Altitude"))) (.cons (.slice (.name (py!"r")) (some 95) (some 98)) (.cons (.const (.fn (py!"field_161"))) .nil))))
      (.cons (.call (py!"Field") (.cons (.const (.str (py!"Block Indicator"))) (.cons (.sub (.name (py!"r")) (.const (.int 98))) (.cons (.const (.fn (py!"field_203"))) .nil))))
      (.cons (.call (py!"Field") (.cons (.const (.str (py!"Restriction Altitude (2)"))) (.cons (.slice (.name (py!"r")) (some 99) (some 102)) (.cons (.const (.fn (py!"field_161"))) .nil))))
      (.cons (.call (py!"Field") (.cons (.const (.str (py!"Block Indicator (2)"))) (.cons (.sub (.name (py!"r")) (.const (.int 102))) (.cons (.const (.fn (py!"field_203"))) .nil))))
      (.cons (.call (py!"Field") (.cons (.const (.str (py!"Restriction Altitude (3)"))) (.cons (.slice (.name (py!"r")) (some 103) (some 106)) (.cons (.const (.fn (py!"field_161"))) .nil))))
      (.cons (.call (py!"Field") (.cons (.const (.str (py!"Block Indicator (3)"))) (.cons (.sub (.name (py!"r")) (.const (.int 106))) (.cons (.const (.fn (py!"field_203"))) .nil))))
      (.cons (.call (py!"Field") (.cons (.const (.str (py!"Restriction Altitude (4)"))) (.cons (.slice (.name (py!"r")) (some 107) (some 110)) (.cons (.const (.fn (py!"field_161"))) .nil))))
      (.cons (.call (py!"Field") (.cons (.const (.str (py!"Block Indicator (4)"))) (.cons (.sub (.name (py!"r")) (.const (.int 110))) (.cons (.const (.fn (py!"field_203"))) .nil))))
      (.cons (.call (py!"Field") (.cons (.const (.str (py!"Restriction Altitude (5)"))) (.cons (.slice (.name (py!"r")) (some 111) (some 114)) (.cons (.const (.fn (py!"field_161"))) .nil))))
      (.cons (.call (py!"Field") (.cons (.const (.str (py!"Block Indicator (5)"))) (.cons (.sub (.name (py!"r")) (.const (.int 114))) (.cons (.const (.fn (py!"field_203"))) .nil))))
      (.cons (.call (py!"Field") (.cons (.const (.str (py!"Restriction Altitude (6)"))) (.cons (.slice (.name (py!"r")) (some 115) (some 118)) (.cons (.const (.fn (py!"field_161"))) .nil))))
      (.cons (.call (py!"Field") (.cons (.const (.str (py!"Block Indicator (6)"))) (.cons (.sub (.name (py!"r")) (.const (.int 118))) (.cons (.const (.fn (py!"field_203"))) .nil))))
      (.cons (.call (py!"Field") (.cons (.const (.str (py!"Restriction Altitude (7)"))) (.cons (.slice (.name (py!"r")) (some 119) (some 122)) (.cons (.const (.fn (py!"field_161"))) .nil))))
      (.cons (.call (py!"Field") (.cons (.const (.str (py!"Block Indicator (7)"))) (.cons (.sub (.name (py!"r")) (.const (.int 122))) (.cons (.const (.fn (py!"field_203"))) .nil))))
      (.cons (.call (py!"Field") (.cons (.const (.str (py!"File Record No"))) (.cons (.slice (.name (py!"r")) (some 123) (some 128)) (.cons (.const (.fn (py!"field_031"))) .nil))))
      (.cons (.call (py!"Field") (.cons (.const (.str (py!"Cycle Date"))) (.cons (.slice (.name (py!"r")) (some 128) (some 132)) (.cons (.const (.fn (py!"field_032"))) .nil))))
      .nil))))))))))))))))))))))))))))))))))⟩

/-- definitions/EnrouteAirwaysRestriction.py:134-154 -/
def EnrouteAirwaysRestriction_primary_note_restriction : Func := ⟨[py!"self", py!"r"], [],
  (.ret (.list (.cons (.call (py!"Field") (.cons (.const (.str (py!"Record Type"))) (.cons (.sub (.name (py!"r")) (.const (.int 0))) (.cons (.const (.fn (py!"field_002"))) .nil))))
      (.cons (.call (py!"Field") (.cons (.const (.str (py!"Customer / Area Code"))) (.cons (.slice (.name (py!"r")) (some 1) (some 4)) (.cons (.const (.fn (py!"field_003"))) .nil))))
      (.cons (.call (py!"Field") (.cons (.const (.str (py!"Section Code"))) (.cons (.slice (.name (py!"r")) (some 4) (some 6)) (.cons (.const (.fn (py!"field_004"))) .nil))))
      (.cons (.call (py!"Field") (.cons (.const (.str (py!"Route Identifier"))) (.cons (.slice (.name (py!"r")) (some 7) (some 11)) (.cons (.const (.fn (py!"field_008"))) .nil))))
      (.cons (.call (py!"Field") (.cons (.const (.str (py!"Restriction Identifier"))) (.cons (.slice (.name (py!"r")) (some 12) (some 15)) (.cons (.const (.fn (py!"field_154"))) .nil))))
      (.cons (.call (py!"Field") (.cons (.const (.str (py!"Restriction Type"))) (.cons (.slice (.name (py!"r")) (some 15) (some 17)) (.cons (.const (.fn (py!"field_201"))) .nil))))
      (.cons (.call (py!"Field") (.cons (.const (.str (py!"Continuation Record No"))) (.cons (.sub (.name (py!"r")) (.const (.int 17))) (.cons (.const (.fn (py!"field_016"))) .nil))))
      (.cons (.call (py!"Field") (.cons (.const (.str (py!"Start Fix Identifier"))) (.cons (.slice (.name (py!"r")) (some 18) (some 23)) (.cons (.const (.fn (py!"field_013"))) .nil))))
      (.cons (.call (py!"Field") (.cons (.const (.str (py!"Start Fix ICAO Code"))) (.cons (.slice (.name (py!"r")) (some 23) (some 25)) (.cons (.const (.fn (py!"field_014"))) .nil))))
      (.cons (.call (py!"Field") (.cons (.const (.str (py!"Start Fix Section Code"))) (.cons (.sub (.name (py!"r")) (.const (.int 25))) (.cons (.const (.fn (py!"field_004"))) .nil))))
      (.cons (.call (py!"Field") (.cons (.const (.str (py!"End Fix Identifier"))) (.cons (.slice (.name (py!"r")) (some 27) (some 32)) (.cons (.const (.fn (py!"field_013"))) .nil))))
      (.cons (.call (py!"Field") (.cons (.const (.str (py!"End Fix ICAO Code"))) (.cons (.slice (.name (py!"r")) (some 32) (some 34)) (.cons (.const (.fn (py!"field_014"))) .nil))))
      (.cons (.call (py!"Field") (.cons (.const (.str (py!"End Fix Section Code"))) (.cons (.slice (.name (py!"r")) (some 34) (some 36)) (.cons (.const (.fn (py!"field_004"))) .nil))))
      (.cons (.call (py!"Field") (.cons (.const (.str (py!"Start Date"))) (.cons (.slice (.name (py!"r")) (some 37) (some 44)) (.cons (.const (.fn (py!"field_157"))) .nil))))
      (.cons (.call (py!"Field") (.cons (.const (.str (py!"End Date"))) (.cons (.slice (.name (py!"r")) (some 44) (some 51)) (.cons (.const (.fn (py!"field_157"))) .nil))))
      (.cons (.call (py!"Field") (.cons (.const (.str (py!"Restriction Notes"))) (.cons (.slice (.name (py!"r")) (some 51) (some 120)) (.cons (.const (.fn (py!"field_163"))) .nil))))
      (.cons (.call (py!"Field") (.cons (.const (.str (py!"File Record No"))) (.cons (.slice (.name (py!"r")) (some 123) (some 128)) (.cons (.const (.fn (py!"field_031"))) .nil))))
      (.cons (.call (py!"Field") (.cons (.const (.str (py!"Cycle Date"))) (.cons (.slice (.name (py!"r")) (some 128) (some 132)) (.cons (.const (.fn (py!"field_032"))) .nil))))
      .nil))))))))))))))))))))⟩

/-- definitions/EnrouteAirwaysRestriction.py:157-170 -/
def EnrouteAirwaysRestriction_cont_note_restriction : Func := ⟨[py!"self", py!"r"], [],
  (.ret (.list (.cons (.call (py!"Field") (.cons (.const (.str (py!"Record Type"))) (.cons (.sub (.name (py!"r")) (.const (.int 0))) (.cons (.const (.fn (py!"field_002"))) .nil))))
      (.cons (.call (py!"Field") (.cons (.const (.str (py!"Customer / Area Code"))) (.cons (.slice (.name (py!"r")) (some 1) (some 4)) (.cons (.const (.fn (py!"field_003"))) .nil))))
      (.cons (.call (py!"Field") (.cons (.const (.str (py!"Section Code"))) (.cons (.slice (.name (py!"r")) (some 4) (some 6)) (.cons (.const (.fn (py!"field_004"))) .nil))))
      (.cons (.call (py!"Field") (.cons (.const (.str (py!"Route Identifier"))) (.cons (.slice (.name (py!"r")) (some 7) (some 11)) (.cons (.const (.fn (py!"field_008"))) .nil))))
      (.cons (.call (py!"Field") (.cons (.const (.str (py!"Restriction Identifier"))) (.cons (.slice (.name (py!"r")) (some 12) (some 15)) (.cons (.const (.fn (py!"field_154"))) .nil))))
      (.cons (.call (py!"Field") (.cons (.const (.str (py!"Restriction Type"))) (.cons (.slice (.name (py!"r")) (some 15) (some 17)) (.cons (.const (.fn (py!"field_201"))) .nil))))
      (.cons (.call (py!"Field") (.cons (.const (.str (py!"Continuation Record No"))) (.cons (.sub (.name (py!"r")) (.const (.int 17))) (.cons (.const (.fn (py!"field_016"))) .nil))))
      (.cons (.call (py!"Field") (.cons (.const (.str (py!"Application Type"))) (.cons (.sub (.name (py!"r")) (.const (.int 18))) (.cons (.const (.fn (py!"field_091"))) .nil))))
      (.cons (.call (py!"Field") (.cons (.const (.str (py!"Restriction Notes"))) (.cons (.slice (.name (py!"r")) (some 51) (some 120)) (.cons (.const (.fn (py!"field_163"))) .nil))))
      (.cons (.call (py!"Field") (.cons (.const (.str (py!"File Record No"))) (.cons (.slice (.name (py!"r")) (some 123) (some 128)) (.cons (.const (.fn (py!"field_031"))) .nil))))
      (.cons (.call (py!"Field") (.cons (.const (.str (py!"Cycle Date"))) (.cons (.slice (.name (py!"r")) (some 128) (some 132)) (.cons (.const (.fn (py!"field_032"))) .nil))))
      .nil)))))))))))))⟩

/-- definitions/EnrouteAirwaysRestriction.py:179-205 -/
def EnrouteAirwaysRestriction_primary_seasonal_closure : Func := ⟨[py!"self", py!"r"], [],
  (.ret (.list (.cons (.call (py!"Field") (.cons (.const (.str (py!"Record Type"))) (.cons (.sub (.name (py!"r")) (.const (.int 0))) (.cons (.const (.fn (py!"field_002"))) .nil))))
      (.cons (.call (py!"Field") (.cons (.const (.str (py!"Customer / Area Code"))) (.cons (.slice (.name (py!"r")) (some 1) (some 4)) (.cons (.const (.fn (py!"field_003"))) .nil))))
      (.cons (.call (py!"Field") (.cons (.const (.str (py!"Section Code"))) (.cons (.slice (.name (py!"r")) (some 4) (some 6)) (.cons (.const (.fn (py!"field_004"))) .nil))))
      (.cons (.call (py!"Field") (.cons (.const (.str (py!"Route Identifier"))) (.cons (.slice (.name (py!"r")) (some 6) (some 11)) (.cons (.const (.fn (py!"field_008"))) .nil))))
      (.cons (.call (py!"Field") (.cons (.const (.str (py!"Restriction Identifier"))) (.cons (.slice (.name (py!"r")) (some 12) (some 15)) (.cons (.const (.fn (py!"field_154"))) .nil))))
      (.cons (.call (py!"Field") (.cons (.const (.str (py!"Restriction Type"))) (.cons (.slice (.name (py!"r")) (some 15) (some 17)) (.cons (.const (.fn (py!"field_201"))) .nil))))
      (.cons (.call (py!"Field") (.cons (.const (.str (py!"Continuation Record No"))) (.cons (.sub (.name (py!"r")) (.const (.int 17))) (.cons (.const (.fn (py!"field_016"))) .nil))))
      (.cons (.call (py!"Field") (.cons (.const (.str (py!"Start Fix Identifier"))) (.cons (.slice (.name (py!"r")) (some 18) (some 23)) (.cons (.const (.fn (py!"field_013"))) .nil))))
      (.cons (.call (py!"Field") (.cons (.const (.str (py!"Start Fix ICAO Code"))) (.cons (.slice (.name (py!"r")) (some 23) (some 25)) (.cons (.const (.fn (py!"field_014"))) .nil))))
      (.cons (.call (py!"Field") (.cons (.const (.str (py!"Start Fix Section Code"))) (.cons (.slice (.name (py!"r")) (some 25) (some 27)) (.cons (.const (.fn (py!"field_004"))) .nil))))
      (.cons (.call (py!"Field") (.cons (.const (.str (py!"End Fix Identifier"))) (.cons (.slice (.name (py!"r")) (some 27) (some 32)) (.cons (.const (.fn (py!"field_013"))) .nil))))
      (.cons (.call (py!"Field") (.cons (.const (.str (py!"End Fix ICAO Code"))) (.cons (.slice (.name (py!"r")) (some 32) (some 34)) (.cons (.const (.fn (py!"field_014"))) .nil))))
      (.cons (.call (py!"Field") (.cons (.const (.str (py!"End Fix Section Code"))) (.cons (.slice (.name (py!"r")) (some 34) (some 36)) (.cons (.const (.fn (py!"field_004"))) .nil))))
      (.cons (.call (py!"Field") (.cons (.const (.str (py!"Start Date"))) (.cons (.slice (.name (py!"r")) (some 37) (some 44)) (.cons (.const (.fn (py!"field_157"))) .nil))))
      (.cons (.call (py!"Field") (.cons (.const (.str (py!"End Date"))) (.cons (.slice (.name (py!"r")) (some 44) (some 51)) (.cons (.const (.fn (py!"field_157"))) .nil))))
      (.cons (.call (py!"Field") (.cons (.const (.str (py!"Time Code"))) (.cons (.sub (.name (py!"r")) (.const (.int 51))) (.cons (.const (.fn (py!"field_131"))) .nil))))
      (.cons (.call (py!"Field") (.cons (.const (.str (py!"Time Indicator"))) (.cons (.sub (.name (py!"r")) (.const (.int 52))) (.cons (.const (.fn (py!"field_138"))) .nil))))
      (.cons (.call (py!"Field") (.cons (.const (.str (py!"Time of Operation"))) (.cons (.slice (.name (py!"r")) (some 53) (some 63)) (.cons (.const (.fn (py!"field_195"))) .nil))))
      (.cons (.call (py!"Field") (.cons (.const (.str (py!"Time of Operation (2)"))) (.cons (.slice (.name (py!"r")) (some 63) (some 73)) (.cons (.const (.fn (py!"field_195"))) .nil))))
      (.cons (.call (py!"Field") (.cons (.const (.str (py!"Time of Operation (3)"))) (.cons (.slice (.name (py!"r")) (some 73) (some 83)) (.cons (.const (.fn (py!"field_195"))) .nil))))
      (.cons (.call (py!"Field") (.cons (.const (.str (py!"Time of Operation (4)"))) (.cons (.slice (.name (py!"r")) (some 83) (some 93)) (.cons (.const (.fn (py!"field_195"))) .nil))))
      (.cons (.call (py!"Field") (.cons (.const (.str (py!"Cruise Table Ident"))) (.cons (.slice (.name (py!"r")) (some 93) (some 95)) (.cons (.const (.fn (py!"field_134"))) .nil))))
      (.cons (.call (py!"Field") (.cons (.const (.str (py!"File Record No"))) (.cons (.slice (.name (py!"r")) (some 123) (some 128)) (.cons (.const (.fn (py!"field_031"))) .nil))))
      (.cons (.call (py!"Field") (.cons (.const (.str (py!"Cycle Date"))) (.cons (.slice (.name (py!"r")) (some 128) (some 132)) (.cons (.const (.fn (py!"field_032"))) .nil))))
      .nil))))))))))))))))))))))))))⟩

/-- definitions/EnrouteAirwaysRestriction.py:214-240 -/
def EnrouteAirwaysRestriction_primary_cruise_table : Func := ⟨[py!"self", py!"r"], [],
  (.ret (.list (.cons (.call (py!"Field") (.cons (.const (.str (py!"Record Type"))) (.cons (.sub (.name (py!"r")) (.const (.int 0))) (.cons (.const (.fn (py!"field_002"))) .nil))))
      (.cons (.call (py!"Field") (.cons (.const (.str (py!"Customer / Area Code"))) (.cons (.slice (.name (py!"r")) (some 1) (some 4)) (.cons (.const (.fn (py!"field_003"))) .nil))))
      (.cons (.call (py!"Field") (.cons (.const (.str (py!"Section Code"))) (.cons (.slice (.name (py!"r")) (some 4) (some 6)) (.cons (.const (.fn (py!"field_004"))) .nil))))
      (.cons (.call (py!"Field") (.cons (.const (.str (py!"Route Identifier"))) (.cons (.slice (.name (py!"r")) (some 6) (some 11)) (.cons (.const (.fn (py!"field_008"))) .nil))))
      (.cons (.call (py!"Field") (.cons (.const (.str (py!"Restriction Identifier"))) (.cons (.slice (.name (py!"r")) (some 12) (some 15)) (.cons (.const (.fn (py!"field_154"))) .nil))))
      (.cons (.call (py!"Field") (.cons (.const (.str (py!"Restriction Type"))) (.cons (.slice (.name (py!"r")) (some 15) (some 17)) (.cons (.const (.fn (py!"field_201"))) .nil))))
      (.cons (.call (py!"Field") (.cons (.const (.str (py!"Continuation Record No"))) (.cons (.sub (.name (py!"r")) (.const (.int 17))) (.cons (.const (.fn (py!"field_016"))) .nil))))
      (.cons (.call (py!"Field") (.cons (.const (.str (py!"Start Fix Identifier"))) (.cons (.slice (.name (py!"r")) (some 18) (some 23)) (.cons (.const (.fn (py!"field_013"))) .nil))))
      (.cons (.call (py!"Field") (.cons (.const (.str (py!"Start Fix ICAO Code"))) (.cons (.slice (.name (py!"r")) (some 23) (some 25)) (.cons (.const (.fn (py!"field_014"))) .nil))))
      (.cons (.call (py!"Field") (.cons (.const (.str (py!"Start Fix Section Code"))) (.cons (.slice (.name (py!"r")) (some 25) (some 27)) (.cons (.const (.fn (py!"field_004"))) .nil))))
      (.cons (.call (py!"Field") (.cons (.const (.str (py!"End Fix Identifier"))) (.cons (.slice (.name (py!"r")) (some 27) (some 32)) (.cons (.const (.fn (py!"field_013"))) .nil))))
      (.cons (.call (py!"Field") (.cons (.const (.str (py!"End Fix ICAO Code"))) (.cons (.slice (.name (py!"r")) (some 32) (some 34)) (.cons (.const (.fn (py!"field_014"))) .nil))))
      (.cons (.call (py!"Field") (.cons (.const (.str (py!"End Fix Section Code"))) (.cons (.slice (.name (py!"r")) (some 34) (some 36)) (.cons (.const (.fn (py!"field_004"))) .nil))))
      (.cons (.call (py!"Field") (.cons (.const (.str (py!"Start Date"))) (.cons (.slice (.name (py!"r")) (some 37) (some 44)) (.cons (.const (.fn (py!"field_157"))) .nil))))
      (.cons (.call (py!"Field") (.cons (.const (.str (py!"End Date"))) (.cons (.slice (.name (py!"r")) (some 44) (some 51)) (.cons (.const (.fn (py!"field_157"))) .nil))))
      (.cons (.call (py!"Field") (.cons (.const (.str (py!"Time Code"))) (.cons (.sub (.name (py!"r")) (.const (.int 51))) (.cons (.const (.fn (py!"field_131"))) .nil))))
      (.cons (.call (py!"Field") (.cons (.const (.str (py!"Time Indicator"))) (.cons (.sub (.name (py!"r")) (.const (.int 52))) (.cons (.const (.fn (py!"field_138"))) .nil))))
      (.cons (.call (py!"Field") (.cons (.const (.str (py!"Time of Operation"))) (.cons (.slice (.name (py!"r")) (some 53) (some 63)) (.cons (.const (.fn (py!"field_195"))) .nil))))
      (.cons (.call (py!"Field") (.cons (.const (.str (py!"Time of Operation (2)"))) (.cons (.slice (.name (py!"r")) (some 63) (some 73)) (.cons (.const (.fn (py!"field_195"))) .nil))))
      (.cons (.call (py!"Field") (.cons (.const (.str (py!"Time of Operation (3)"))) (.cons (.slice (.name (py!"r")) (some 73) (some 83)) (.cons (.const (.fn (py!"field_195"))) .nil))))
      (.cons (.call (py!"Field") (.cons (.const (.str (py!"Time of Operation (4)"))) (.cons (.slice (.name (py!"r")) (some 83) (some 93)) (.cons (.const (.fn (py!"field_195"))) .nil))))
      (.cons (.call (py!"Field") (.cons (.const (.str (py!"Cruise Table Ident"))) (.cons (.slice (.name (py!"r")) (some 93) (some 95)) (.cons (.const (.fn (py!"field_134"))) .nil))))
      (.cons (.call (py!"Field") (.cons (.const (.str (py!"File Record No"))) (.cons (.slice (.name (py!"r")) (some 123) (some 128)) (.cons (.const (.fn (py!"field_031"))) .nil))))
      (.cons (.call (py!"Field") (.cons (.const (.str (py!"Cycle Date"))) (.cons (.slice (.name (py!"r")) (some 128) (some 132)) (.cons (.const (.fn (py!"field_032"))) .nil))))
      .nil))))))))))))))))))))))))))⟩

/-- definitions/EnrouteAirwaysRestriction.py:243-262 -/
def EnrouteAirwaysRestriction_cont_cruise_table : Func := ⟨[py!"self", py!"r"], [],
  (.ret (.list (.cons (.call (py!"Field") (.cons (.const (.str (py!"Record Type"))) (.cons (.sub (.name (py!"r")) (.const (.int 0))) (.cons (.const (.fn (py!"field_002"))) .nil))))
      (.cons (.call (py!"Field") (.cons (.const (.str (py!"Customer / Area Code"))) (.cons (.slice (.name (py!"r")) (some 1) (some 4)) (.cons (.const (.fn (py!"field_003"))) .nil))))
      (.cons (.call (py!"Field") (.cons (.const (.str (py!"Section Code"))) (.cons (.slice (.name (py!"r")) (some 4) (some 6)) (.cons (.const (.fn (py!"field_004"))) .nil))))
      (.cons (.call (py!"Field") (.cons (.const (.str (py!"Route Identifier"))) (.cons (.slice (.name (py!"r")) (some 6) (some 11)) (.cons (.const (.fn (py!"field_008"))) .nil))))
      (.cons (.call (py!"Field") (.cons (.const (.str (py!"Restriction Identifier"))) (.cons (.slice (.name (py!"r")) (some 12) (some 15)) (.cons (.const (.fn (py!"field_154"))) .nil))))
      (.cons (.call (py!"Field") (.cons (.const (.str (py!"Restriction Type"))) (.cons (.slice (.name (py!"r")) (some 15) (some 17)) (.cons (.const (.fn (py!"field_201"))) .nil))))
      (.cons (.call (py!"Field") (.cons (.const (.str (py!"Continuation Record No"))) (.cons (.sub (.name (py!"r")) (.const (.int 17))) (.cons (.const (.fn (py!"field_016"))) .nil))))
      (.cons (.call (py!"Field") (.cons (.const (.str (py!"Application Type"))) (.cons (.sub (.name (py!"r")) (.const (.int 18))) (.cons (.const (.fn (py!"field_091"))) .nil))))
      (.cons (.call (py!"Field") (.cons (.const (.str (py!"Time Code"))) (.cons (.sub (.name (py!"r")) (.const (.int 51))) (.cons (.const (.fn (py!"field_131"))) .nil))))
      (.cons (.call (py!"Field") (.cons (.const (.str (py!"Time Indicator"))) (.cons (.sub (.name (py!"r")) (.const (.int 52))) (.cons (.const (.fn (py!"field_138"))) .nil))))
      (.cons (.call (py!"Field") (.cons (.const (.str (py!"Time of Operation"))) (.cons (.slice (.name (py!"r")) (some 53) (some 63)) (.cons (.const (.fn (py!"field_195"))) .nil))))
      (.cons (.call (py!"Field") (.cons (.const (.str (py!"Time of Operation (2)"))) (.cons (.slice (.name (py!"r")) (some 63) (some 73)) (.cons (.const (.fn (py!"field_195"))) .nil))))
      (.cons (.call (py!"Field") (.cons (.const (.str (py!"Time of Operation (3)"))) (.cons (.slice (.name (py!"r")) (some 73) (some 83)) (.cons (.const (.fn (py!"field_195"))) .nil))))
      (.cons (.call (py!"Field") (.cons (.const (.str (py!"Time of Operation (4)"))) (.cons (.slice (.name (py!"r")) (some 83) (some 93)) (.cons (.const (.fn (py!"field_195"))) .nil))))
      (.cons (.call (py!"Field") (.cons (.const (.str (py!"Cruise Table Ident"))) (.cons (.slice (.name (py!"r")) (some 93) (some 95)) (.cons (.const (.fn (py!"field_134"))) .nil))))
      (.cons (.call (py!"Field") (.cons (.const (.str (py!"File Record No"))) (.cons (.slice (.name (py!"r")) (some 123) (some 128)) (.cons (.const (.fn (py!"field_031"))) .nil))))
      (.cons (.call (py!"Field") (.cons (.const (.str (py!"Cycle Date"))) (.cons (.slice (.name (py!"r")) (some 128) (some 132)) (.cons (.const (.fn (py!"field_032"))) .nil))))
      .nil)))))))))))))))))))⟩

/-- definitions/EnrouteAirwaysRestriction.py:6-262, class `EnrouteAirwaysRestriction` -/
def EnrouteAirwaysRestriction : Class :=
  ⟨[(py!"continuations", (.list [(.str (py!"AE")), (.str (py!"TC")), (.str (py!"NR"))])), (py!"name", (.str (py!"Enroute Airways")))],
   [(py!"application_type", EnrouteAirwaysRestriction_application_type),
    (py!"read", EnrouteAirwaysRestriction_read),
    (py!"primary_altitude_exclude", EnrouteAirwaysRestriction_primary_altitude_exclude),
    (py!"cont_altitude_exclude", EnrouteAirwaysRestriction_cont_altitude_exclude),
    (py!"primary_note_restriction", EnrouteAirwaysRestriction_primary_note_restriction),
    (py!"cont_note_restriction", EnrouteAirwaysRestriction_cont_note_restriction),
    (py!"primary_seasonal_closure", EnrouteAirwaysRestriction_primary_seasonal_closure),
    (py!"primary_cruise_table", EnrouteAirwaysRestriction_primary_cruise_table),
    (py!"cont_cruise_table", EnrouteAirwaysRestriction_cont_cruise_table)]⟩

/-- definitions/EnrouteCommunications.py:13-14 -/
def EnrouteCommunications_application_type : Func := ⟨[py!"self", py!"line"], [],
  (.ret (.sub (.name (py!"line")) (.attr (.name (py!"self")) (py!"app_idx"))))⟩

/-- definitions/EnrouteCommunications.py:16-28 -/
def EnrouteCommunications_read : Func := ⟨[py!"self", py!"line", py!"primary"], [],
  (.seq (.ite (.name (py!"primary"))
    (.ret (.invoke (.name (py!"self")) (py!"read_primary") (.cons (.name (py!"line")) .nil)))
    .pass)
  (.seq (.assign (py!"application") (.sub (.name (py!"line")) (.attr (.name (py!"self")) (py!"app_idx"))))
  (.matchOn (.name (py!"application"))
    (.case (.str (py!" ")) (.ret (.invoke (.name (py!"self")) (py!"read_cont") (.cons (.name (py!"line")) .nil)))
    (.case (.str (py!"T")) (.ret (.invoke (.name (py!"self")) (py!"read_timeop") (.cons (.name (py!"line")) .nil)))
    (.raise (.cons (.join (.cons (.fmt .plain (.const (.str (py!"Unknown Application")))) (.cons (.const (.str (py!"\n"))) (.cons (.fmt .plain (.name (py!"application"))) (.cons (.const (.str (py!"\n"))) (.cons (.fmt .plain (.name (py!"line"))) .nil)))))) .nil)))))))⟩

/-- definitions/EnrouteCommunications.py:31-62 -/
def EnrouteCommunications_read_primary : Func := ⟨[py!"self", py!"r"], [],
  (.ret (.list (.cons (.call (py!"Field") (.cons (.const (.str (py!"Record Type"))) (.cons (.sub (.name (py!"r")) (.const (.int 0))) (.cons (.const (.fn (py!"field_002"))) .nil))))
      (.cons (.call (py!"Field") (.cons (.const (.str (py!"Customer / Area Code"))) (.cons (.slice (.name (py!"r")) (some 1) (some 4)) (.cons (.const (.fn (py!"field_003"))) .nil))))
      (.cons (.call (py!"Field") (.cons (.const (.str (py!"Section Code"))) (.cons (.slice (.name (py!"r")) (some 4) (some 6)) (.cons (.const (.fn (py!"field_004"))) .nil))))
      (.cons (.call (py!"Field") (.cons (.const (.str (py!"FIR/RDO Ident"))) (.cons (.slice (.name (py!"r")) (some 6) (some 10)) (.cons (.const (.fn (py!"field_190"))) .nil))))
      (.cons (.call (py!"Field") (.cons (.const (.str (py!"FIR/UIR Address"))) (.cons (.slice (.name (py!"r")) (some 10) (some 14)) (.cons (.const (.fn (py!"field_151"))) .nil))))
      (.cons (.call (py!"Field") (.cons (.const (.str (py!"Indicator"))) (.cons (.sub (.name (py!"r")) (.const (.int 14))) (.cons (.const (.fn (py!"field_117"))) .nil))))
      (.cons (.call (py!"Field") (.cons (.const (.str (py!"Remote Name"))) (.cons (.slice (.name (py!"r")) (some 18) (some 43)) (.cons (.const (.fn (py!"field_189"))) .nil))))
      (.cons (.call (py!"Field") (.cons (.const (.str (py!"Communications Type"))) (.cons (.slice (.name (py!"r")) (some 43) (some 46)) (.cons (.const (.fn (py!"field_101"))) .nil))))
      (.cons (.call (py!"Field") (.cons (.const (.str (py!"Comm Frequency"))) (.cons (.slice (.name (py!"r")) (some 46) (some 53)) (.cons (.const (.fn (py!"field_103"))) .nil))))
      (.cons (.call (py!"Field") (.cons (.const (.str (py!"Guard/Transmit"))) (.cons (.sub (.name (py!"r")) (.const (.int 53))) (.cons (.const (.fn (py!"field_182"))) .nil))))
      (.cons (.call (py!"Field") (.cons (.const (.str (py!"Frequency Units"))) (.cons (.sub (.name (py!"r")) (.const (.int 54))) (.cons (.const (.fn (py!"field_104"))) .nil))))
      (.cons (.call (py!"Field") (.cons (.const (.str (py!"Continuation Record No"))) (.cons (.sub (.name (py!"r")) (.const (.int 55))) (.cons (.const (.fn (py!"field_016"))) .nil))))
      (.cons (.call (py!"Field") (.cons (.const (.str (py!"Service Indicator"))) (.cons (.slice (.name (py!"r")) (some 56) (some 59)) (.cons (.const (.fn (py!"field_106"))) .nil))))
      (.cons (.call (py!"Field") (.cons (.const (.str (py!"Radar Service"))) (.cons (.sub (.name (py!"r")) (.const (.int 59))) (.cons (.const (.fn (py!"field_102"))) .nil))))
      (.cons (.call (py!"Field") (.cons (.const (.str (py!"Modulation"))) (.cons (.sub (.name (py!"r")) (.const (.int 60))) (.cons (.const (.fn (py!"field_198"))) .nil))))
      (.cons (.call (py!"Field") (.cons (.const (.str (py!"Signal Emission"))) (.cons (.sub (.name (py!"r")) (.const (.int 61))) (.cons (.const (.fn (py!"field_199"))) .nil))))
      (.cons (.call (py!"Field") (.cons (.const (.str (py!"Latitude"))) (.cons (.slice (.name (py!"r")) (some 62) (some 71)) (.cons (.const (.fn (py!"field_036"))) .nil))))
      (.cons (.call (py!"Field") (.cons (.const (.str (py!"Longitude"))) (.cons (.slice (.name (py!"r")) (some 71) (some 81)) (.cons (.const (.fn (py!"field_037"))) .nil))))
      (.cons (.call (py!"Field") (.cons (.const (.str (py!"Magnetic Variation"))) (.cons (.slice (.name (py!"r")) (some 81) (some 86)) (.cons (.const (.fn (py!"field_039"))) .nil))))
      (.cons (.call (py!"Field") (.cons (.const (.str (py!"Facility Elevation"))) (.cons (.slice (.name (py!"r")) (some 86) (some 91)) (.cons (.const (.fn (py!"field_092"))) .nil))))
      (.cons (.call (py!"Field") (.cons (.const (.str (py!"H24 Indicator"))) (.cons (.sub (.name (py!"r")) (.const (.int 91))) (.cons (.const (.fn (py!"field_181"))) .nil))))
      (.cons (.call (py!"Field") (.cons (.const (.str (py!"Altitude Description"))) (.cons (.sub (.name (py!"r")) (.const (.int 92))) (.cons (.const (.fn (py!"field_029"))) .nil))))
      (.cons (.call (py!"Field") (.cons (.const (.str (py!"Communication Altitude"))) (.cons (.slice (.name (py!"r")) (some 93) (some 98)) (.cons (.const (.fn (py!"field_184"))) .nil))))
      (.cons (.call (py!"Field") (.cons (.const (.str (py!"Communication Altitude (2)"))) (.cons (.slice (.name (py!"r")) (some 98) (some 103)) (.cons (.const (.fn (py!"field_184"))) .nil))))
      (.cons (.call (py!"Field") (.cons (.const (.str (py!"Remote Facility"))) (.cons (.slice (.name (py!"r")) (some 103) (some 107)) (.cons (.const (.fn (py!"field_200"))) .nil))))
      (.cons (.call (py!"Field") (.cons (.const (.str (py!"ICAO Code"))) (.cons (.slice (.name (py!"r")) (some 107) (some 109)) (.cons (.const (.fn (py!"field_014"))) .nil))))
      (.cons (.call (py!"Field") (.cons (.const (.str (py!"Section Code (2)"))) (.cons (.slice (.name (py!"r")) (some 109) (some 111)) (.cons (.const (.fn (py!"field_004"))) .nil))))
      (.cons (.call (py!"Field") (.cons (.const (.str (py!"File Record No"))) (.cons (.slice (.name (py!"r")) (some 123) (some 128)) (.cons (.const (.fn (py!"field_031"))) .nil))))
      (.cons (.call (py!"Field") (.cons (.const (.str (py!"Cycle Date"))) (.cons (.slice (.name (py!"r")) (some 128) (some 132)) (.cons (.const (.fn (py!"field_032"))) .nil))))
      .nil)))))))))))))))))))))))))))))))⟩

/-- definitions/EnrouteCommunications.py:65-87 -/
def EnrouteCommunications_read_cont : Func := ⟨[py!"self", py!"r"], [],
  (.ret (.list (.cons (.call (py!"Field") (.cons (.const (.str (py!"Record Type"))) (.cons (.sub (.name (py!"r")) (.const (.int 0))) (.cons (.const (.fn (py!"field_002"))) .nil))))
      (.cons (.call (py!"Field") (.cons (.const (.str (py!"Customer / Area Code"))) (.cons (.slice (.name (py!"r")) (some 1) (some 4)) (.cons (.const (.fn (py!"field_003"))) .nil))))
      (.cons (.call (py!"Field") (.cons (.const (.str (py!"Section Code"))) (.cons (.slice (.name (py!"r")) (some 4) (some 6)) (.cons (.const (.fn (py!"field_004"))) .nil))))
      (.cons (.call (py!"Field") (.cons (.const (.str (py!"FIR/RDO Ident"))) (.cons (.slice (.name (py!"r")) (some 6) (some 10)) (.cons (.const (.fn (py!"field_190"))) .nil))))
      (.cons (.call (py!"Field") (.cons (.const (.str (py!"FIR/UIR Address"))) (.cons (.slice (.name (py!"r")) (some 10) (some 14)) (.cons (.const (.fn (py!"field_151"))) .nil))))
      (.cons (.call (py!"Field") (.cons (.const (.str (py!"Indicator"))) (.cons (.sub (.name (py!"r")) (.const (.int 14))) (.cons (.const (.fn (py!"field_117"))) .nil))))
      (.cons (.call (py!"Field") (.cons (.const (.str (py!"Remote Name"))) (.cons (.slice (.name (py!"r")) (some 18) (some 43)) (.cons (.const (.fn (py!"field_189"))) .nil))))
      (.cons (.call (py!"Field") (.cons (.const (.str (py!"Communications Type"))) (.cons (.slice (.name (py!"r")) (some 43) (some 46)) (.cons (.const (.fn (py!"field_101"))) .nil))))
      (.cons (.call (py!"Field") (.cons (.const (.str (py!"Comm Frequency"))) (.cons (.slice (.name (py!"r")) (some 46) (some 53)) (.cons (.const (.fn (py!"field_103"))) .nil))))
      (.cons (.call (py!"Field") (.cons (.const (.str (py!"Guard/Transmit"))) (.cons (.sub (.name (py!"r")) (.const (.int 53))) (.cons (.const (.fn (py!"field_182"))) .nil))))
      (.cons (.call (py!"Field") (.cons (.const (.str (py!"Frequency Units"))) (.cons (.sub (.name (py!"r")) (.const (.int 54))) (.cons (.const (.fn (py!"field_104"))) .nil))))
      (.cons (.call (py!"Field") (.cons (.const (.str (py!"Continuation Record No"))) (.cons (.sub (.name (py!"r")) (.const (.int 55))) (.cons (.const (.fn (py!"field_016"))) .nil))))
      (.cons (.call (py!"Field") (.cons (.const (.str (py!"Application Type"))) (.cons (.sub (.name (py!"r")) (.const (.int 56))) (.cons (.const (.fn (py!"field_091"))) .nil))))
      (.cons (.call (py!"Field") (.cons (.const (.str (py!"Time Code"))) (.cons (.sub (.name (py!"r")) (.const (.int 57))) (.cons (.const (.fn (py!"field_131"))) .nil))))
      (.cons (.call (py!"Field") (.cons (.const (.str (py!"NOTAM"))) (.cons (.sub (.name (py!"r")) (.const (.int 58))) (.cons (.const (.fn (py!"field_132"))) .nil))))
      (.cons (.call (py!"Field") (.cons (.const (.str (py!"Time Indicator"))) (.cons (.sub (.name (py!"r")) (.const (.int 59))) (.cons (.const (.fn (py!"field_138"))) .nil))))
      (.cons (.call (py!"Field") (.cons (.const (.str (py!"Time of Operation"))) (.cons (.slice (.name (py!"r")) (some 60) (some 70)) (.cons (.const (.fn (py!"field_195"))) .nil))))
      (.cons (.call (py!"Field") (.cons (.const (.str (py!"Call Sign"))) (.cons (.slice (.name (py!"r")) (some 93) (some 123)) (.cons (.const (.fn (py!"field_105"))) .nil))))
      (.cons (.call (py!"Field") (.cons (.const (.str (py!"File Record No"))) (.cons (.slice (.name (py!"r")) (some 123) (some 128)) (.cons (.const (.fn (py!"field_031"))) .nil))))
      (.cons (.call (py!"Field") (.cons (.const (.str (py!"Cycle Date"))) (.cons (.slice (.name (py!"r")) (some 128) (some 132)) (.cons (.const (.fn (py!"field_032"))) .nil))))
      .nil))))))))))))))))))))))⟩

/-- definitions/EnrouteCommunications.py:90-113 -/
def EnrouteCommunications_read_timeop : Func := ⟨[py!"self", py!"r"], [],
  (.ret (.list (.cons (.call (py!"Field") (.cons (.const (.str (py!"Record Type"))) (.cons (.sub (.name (py!"r")) (.const (.int 0))) (.cons (.const (.fn (py!"field_002"))) .nil))))
      (.cons (.call (py!"Field") (.cons (.const (.str (py!"Customer / Area Code"))) (.cons (.slice (.name (py!"r")) (some 1) (some 4)) (.cons (.const (.fn (py!"field_003"))) .nil))))
      (.cons (.call (py!"Field") (.cons (.const (.str (py!"Section Code"))) (.cons (.slice (.name (py!"r")) (some 4) (some 6)) (.cons (.const (.fn (py!"field_004"))) .nil))))
      (.cons (.call (py!"Field") (.cons (.const (.str (py!"FIR/RDO Ident"))) (.cons (.slice (.name (py!"r")) (some 6) (some 10)) (.cons (.const (.fn (py!"field_190"))) .nil))))
      (.cons (.call (py!"Field") (.cons (.const (.str (py!"FIR/UIR Address"))) (.cons (.slice (.name (py!"r")) (some 10) (some 14)) (.cons (.const (.fn (py!"field_151"))) .nil))))
      (.cons (.call (py!"Field") (.cons (.const (.str (py!"Indicator"))) (.cons (.sub (.name (py!"r")) (.const (.int 14))) (.cons (.const (.fn (py!"field_117"))) .nil))))
      (.cons (.call (py!"Field") (.cons (.const (.str (py!"Remote Name"))) (.cons (.slice (.name (py!"r")) (some 18) (some 43)) (.cons (.const (.fn (py!"field_189"))) .nil))))
      (.cons (.call (py!"Field") (.cons (.const (.str (py!"Communications Type"))) (.cons (.slice (.name (py!"r")) (some 43) (some 46)) (.cons (.const (.fn (py!"field_101"))) .nil))))
      (.cons (.call (py!"Field") (.cons (.const (.str (py!"Comm Frequency"))) (.cons (.slice (.name (py!"r")) (some 46) (some 53)) (.cons (.const (.fn (py!"field_103"))) .nil))))
      (.cons (.call (py!"Field") (.cons (.const (.str (py!"Guard/Transmit"))) (.cons (.sub (.name (py!"r")) (.const (.int 53))) (.cons (.const (.fn (py!"field_182"))) .nil))))
      (.cons (.call (py!"Field") (.cons (.const (.str (py!"Frequency Units"))) (.cons (.sub (.name (py!"r")) (.const (.int 54))) (.cons (.const (.fn (py!"field_104"))) .nil))))
      (.cons (.call (py!"Field") (.cons (.const (.str (py!"Continuation Record No"))) (.cons (.sub (.name (py!"r")) (.const (.int 55))) (.cons (.const (.fn (py!"field_016"))) .nil))))
      (.cons (.call (py!"Field") (.cons (.const (.str (py!"Application Type"))) (.cons (.sub (.name (py!"r")) (.const (.int 56))) (.cons (.const (.fn (py!"field_091"))) .nil))))
      (.cons (.call (py!"Field") (.cons (.const (.str (py!"Time of Operation"))) (.cons (.slice (.name (py!"r")) (some 60) (some 70)) (.cons (.const (.fn (py!"field_195"))) .nil))))
      (.cons (.call (py!"Field") (.cons (.const (.str (py!"Time of Operation (2)"))) (.cons (.slice (.name (py!"r")) (some 70) (some 80)) (.cons (.const (.fn (py!"field_195"))) .nil))))
      (.cons (.call (py!"Field") (.cons (.const (.str (py!"Time of Operation (3)"))) (.cons (.slice (.name (py!"r")) (some 80) (some 90)) (.cons (.const (.fn (py!"field_195"))) .nil))))
      (.cons (.call (py!"Field") (.cons (.const (.str (py!"Time of Operation (4)"))) (.cons (.slice (.name (py!"r")) (some 90) (some 100)) (.cons (.const (.fn (py!"field_195"))) .nil))))
      (.cons (.call (py!"Field") (.cons (.const (.str (py!"Time of Operation (5)"))) (.cons (.slice (.name (py!"r")) (some 100) (some 110)) (.cons (.const (.fn (py!"field_195"))) .nil))))
      (.cons (.call (py!"Field") (.cons (.const (.str (py!"Time of Operation (6)"))) (.cons (.slice (.name (py!"r")) (some 110) (some 120)) (.cons (.const (.fn (py!"field_195"))) .nil))))
      (.cons (.call (py!"Field") (.cons (.const (.str (py!"File Record No"))) (.cons (.slice (.name (py!"r")) (some 123) (some 128)) (.cons (.const (.fn (py!"field_031"))) .nil))))
      (.cons (.call (py!"Field") (.cons (.const (.str (py!"Cycle Date"))) (.cons (.slice (.name (py!"r")) (some 128) (some 132)) (.cons (.const (.fn (py!"field_032"))) .nil))))
      .nil)))))))))))))))))))))))⟩

/-- definitions/EnrouteCommunications.py:6-113, class `EnrouteCommunications` -/
def EnrouteCommunications : Class :=
  ⟨[(py!"cont_idx", (.int 55)), (py!"app_idx", (.int 56)), (py!"continuations", (.list [(.str (py!" ")), (.str (py!"T"))])), (py!"name", (.str (py!"Enroute Communications")))],
   [(py!"application_type", EnrouteCommunications_application_type),
    (py!"read", EnrouteCommunications_read),
    (py!"read_primary", EnrouteCommunications_read_primary),
    (py!"read_cont", EnrouteCommunications_read_cont),
    (py!"read_timeop", EnrouteCommunications_read_timeop)]⟩

/-- definitions/Heliport.py:13-14 -/
def Heliport_application_type : Func := ⟨[py!"self", py!"line"], [],
  (.ret (.sub (.name (py!"line")) (.attr (.name (py!"self")) (py!"app_idx"))))⟩

/-- definitions/Heliport.py:16-30 -/
def Heliport_read : Func := ⟨[py!"self", py!"line", py!"primary"], [],
  (.seq (.ite (.name (py!"primary"))
    (.ret (.invoke (.name (py!"self")) (py!"read_primary") (.cons (.name (py!"line")) .nil)))
    .pass)
  (.seq (.assign (py!"application") (.sub (.name (py!"line")) (.attr (.name (py!"self")) (py!"app_idx"))))
  (.matchOn (.name (py!"application"))
    (.case (.str (py!"A")) (.ret (.invoke (.name (py!"self")) (py!"read_cont") (.cons (.name (py!"line")) .nil)))
    (.case (.str (py!"P")) (.ret (.invoke (.name (py!"self")) (py!"read_flight0") (.cons (.name (py!"line")) .nil)))
    (.case (.str (py!"Q")) (.ret (.invoke (.name (py!"self")) (py!"read_flight1") (.cons (.name (py!"line")) .nil)))
    (.ret (.list .nil))))))))⟩

/-- definitions/Heliport.py:33-63 -/
def Heliport_read_primary : Func := ⟨[py!"self", py!"r"], [],
  (.ret (.list (.cons (.call (py!"Field") (.cons (.const (.str (py!"Record Type"))) (.cons (.sub (.name (py!"r")) (.const (.int 0))) (.cons (.const (.fn (py!"field_002"))) .nil))))
      (.cons (.call (py!"Field") (.cons (.const (.str (py!"Customer / Area Code"))) (.cons (.slice (.name (py!"r")) (some 1) (some 4)) (.cons (.const (.fn (py!"field_003"))) .nil))))
      (.cons (.call (py!"Field") (.cons (.const (.str (py!"Section Code"))) (.cons (.bin .add (.sub (.name (py!"r")) (.const (.int 4))) (.sub (.name (py!"r")) (.const (.int 12)))) (.cons (.const (.fn (py!"field_004"))) .nil))))
      (.cons (.call (py!"Field") (.cons (.const (.str (py!"Heliport Identifier"))) (.cons (.slice (.name (py!"r")) (some 6) (some 10)) (.cons (.const (.fn (py!"field_006"))) .nil))))
      (.cons (.call (py!"Field") (.cons (.const (.str (py!"ICAO Code"))) (.cons (.slice (.name (py!"r")) (some 10) (some 12)) (.cons (.const (.fn (py!"field_014"))) .nil))))
      (.cons (.call (py!"Field") (.cons (.const (.str (py!"ATA/IATA Designator"))) (.cons (.slice (.name (py!"r")) (some 13) (some 16)) (.cons (.const (.fn (py!"field_107"))) .nil))))
      (.cons (.call (py!"Field") (.cons (.const (.str (py!"PAD Identifier"))) (.cons (.slice (.name (py!"r")) (some 16) (some 21)) (.cons (.const (.fn (py!"field_180"))) .nil))))
      (.cons (.call (py!"Field") (.cons (.const (.str (py!"Continuation Record No"))) (.cons (.sub (.name (py!"r")) (.const (.int 21))) (.cons (.const (.fn (py!"field_016"))) .nil))))
      (.cons (.call (py!"Field") (.cons (.const (.str (py!"Speed Limit Altitude"))) (.cons (.slice (.name (py!"r")) (some 22) (some 27)) (.cons (.const (.fn (py!"field_073"))) .nil))))
      (.cons (.call (py!"Field") (.cons (.const (.str (py!"Datum Code"))) (.cons (.slice (.name (py!"r")) (some 27) (some 30)) (.cons (.const (.fn (py!"field_197"))) .nil))))
      (.cons (.call (py!"Field") (.cons (.const (.str (py!"IFR Indicator"))) (.cons (.sub (.name (py!"r")) (.const (.int 30))) (.cons (.const (.fn (py!"field_108"))) .nil))))
      (.cons (.call (py!"Field") (.cons (.const (.str (py!"Latitude"))) (.cons (.slice (.name (py!"r")) (some 32) (some 41)) (.cons (.const (.fn (py!"field_036"))) .nil))))
      (.cons (.call (py!"Field") (.cons (.const (.str (py!"Longitude"))) (.cons (.slice (.name (py!"r")) (some 41) (some 51)) (.cons (.const (.fn (py!"field_037"))) .nil))))
      (.cons (.call (py!"Field") (.cons (.const (.str (py!"Magnetic Variation"))) (.cons (.slice (.name (py!"r")) (some 51) (some 56)) (.cons (.const (.fn (py!"field_039"))) .nil))))
      (.cons (.call (py!"Field") (.cons (.const (.str (py!"Heliport Elevation"))) (.cons (.slice (.name (py!"r")) (some 56) (some 61)) (.cons (.const (.fn (py!"field_055"))) .nil))))
      (.cons (.call (py!"Field") (.cons (.const (.str (py!"Speed Limit"))) (.cons (.slice (.name (py!"r")) (some 61) (some 64)) (.cons (.const (.fn (py!"field_072"))) .nil))))
      (.cons (.call (py!"Field") (.cons (.const (.str (py!"Recommended VHF Navaid"))) (.cons (.slice (.name (py!"r")) (some 64) (some 68)) (.cons (.const (.fn (py!"field_023"))) .nil))))
      (.cons (.call (py!"Field") (.cons (.const (.str (py!"ICAO Code (2)"))) (.cons (.slice (.name (py!"r")) (some 68) (some 70)) (.cons (.const (.fn (py!"field_014"))) .nil))))
      (.cons (.call (py!"Field") (.cons (.const (.str (py!"Transition Altitude"))) (.cons (.slice (.name (py!"r")) (some 70) (some 75)) (.cons (.const (.fn (py!"field_053"))) .nil))))
      (.cons (.call (py!"Field") (.cons (.const (.str (py!"Transition Level"))) (.cons (.slice (.name (py!"r")) (some 75) (some 80)) (.cons (.const (.fn (py!"field_053"))) .nil))))
      (.cons (.call (py!"Field") (.cons (.const (.str (py!"Public Military Indicator"))) (.cons (.sub (.name (py!"r")) (.const (.int 80))) (.cons (.const (.fn (py!"field_177"))) .nil))))
      (.cons (.call (py!"Field") (.cons (.const (.str (py!"Time Zone"))) (.cons (.slice (.name (py!"r")) (some 81) (some 84)) (.cons (.const (.fn (py!"field_178"))) .nil))))
      (.cons (.call (py!"Field") (.cons (.const (.str (py!"Daylight Indicator"))) (.cons (.sub (.name (py!"r")) (.const (.int 84))) (.cons (.const (.fn (py!"field_179"))) .nil))))
      (.cons (.call (py!"Field") (.cons (.const (.str (py!"Pad Dimensions"))) (.cons (.slice (.name (py!"r")) (some 85) (some 91)) (.cons (.const (.fn (py!"field_176"))) .nil))))
      (.cons (.call (py!"Field") (.cons (.const (.str (py!"Magnetic/True Indicator"))) (.cons (.sub (.name (py!"r")) (.const (.int 91))) (.cons (.const (.fn (py!"field_165"))) .nil))))
      (.cons (.call (py!"Field") (.cons (.const (.str (py!"Heliport Name"))) (.cons (.slice (.name (py!"r")) (some 93) (some 123)) (.cons (.const (.fn (py!"field_071"))) .nil))))
      (.cons (.call (py!"Field") (.cons (.const (.str (py!"File Record No"))) (.cons (.slice (.name (py!"r")) (some 123) (some 128)) (.cons (.const (.fn (py!"field_031"))) .nil))))
      (.cons (.call (py!"Field") (.cons (.const (.str (py!"Cycle Date"))) (.cons (.slice (.name (py!"r")) (some 128) (some 132)) (.cons (.const (.fn (py!"field_032"))) .nil))))
      .nil))))))))))))))))))))))))))))))⟩

/-- definitions/Heliport.py:66-80 -/
def Heliport_read_cont : Func := ⟨[py!"self", py!"r"], [],
  (.ret (.list (.cons (.call (py!"Field") (.cons (.const (.str (py!"Record Type"))) (.cons (.sub (.name (py!"r")) (.const (.int 0))) (.cons (.const (.fn (py!"field_002"))) .nil))))
      (.cons (.call (py!"Field") (.cons (.const (.str (py!"Customer / Area Code"))) (.cons (.slice (.name (py!"r")) (some 1) (some 4)) (.cons (.const (.fn (py!"field_003"))) .nil))))
      (.cons (.call (py!"Field") (.cons (.const (.str (py!"Section Code"))) (.cons (.bin .add (.sub (.name (py!"r")) (.const (.int 4))) (.sub (.name (py!"r")) (.const (.int 12)))) (.cons (.const (.fn (py!"field_004"))) .nil))))
      (.cons (.call (py!"Field") (.cons (.const (.str (py!"Heliport Identifier"))) (.cons (.slice (.name (py!"r")) (some 6) (some 10)) (.cons (.const (.fn (py!"field_006"))) .nil))))
      (.cons (.call (py!"Field") (.cons (.const (.str (py!"ICAO Code"))) (.cons (.slice (.name (py!"r")) (some 10) (some 12)) (.cons (.const (.fn (py!"field_014"))) .nil))))
      (.cons (.call (py!"Field") (.cons (.const (.str (py!"ATA/IATA Designator"))) (.cons (.slice (.name (py!"r")) (some 13) (some 16)) (.cons (.const (.fn (py!"field_107"))) .nil))))
      (.cons (.call (py!"Field") (.cons (.const (.str (py!"PAD Identifier"))) (.cons (.slice (.name (py!"r")) (some 16) (some 21)) (.cons (.const (.fn (py!"field_180"))) .nil))))
      (.cons (.call (py!"Field") (.cons (.const (.str (py!"Continuation Record No"))) (.cons (.sub (.name (py!"r")) (.const (.int 21))) (.cons (.const (.fn (py!"field_016"))) .nil))))
      (.cons (.call (py!"Field") (.cons (.const (.str (py!"Application Type"))) (.cons (.sub (.name (py!"r")) (.const (.int 22))) (.cons (.const (.fn (py!"field_091"))) .nil))))
      (.cons (.call (py!"Field") (.cons (.const (.str (py!"Notes"))) (.cons (.slice (.name (py!"r")) (some 23) (some 92)) (.cons (.const (.fn (py!"field_061"))) .nil))))
      (.cons (.call (py!"Field") (.cons (.const (.str (py!"File Record No"))) (.cons (.slice (.name (py!"r")) (some 123) (some 128)) (.cons (.const (.fn (py!"field_031"))) .nil))))
      (.cons (.call (py!"Field") (.cons (.const (.str (py!"Cycle Date"))) (.cons (.slice (.name (py!"r")) (some 128) (some 132)) (.cons (.const (.fn (py!"field_032"))) .nil))))
      .nil))))))))))))))⟩

/-- definitions/Heliport.py:83-103 -/
def Heliport_read_flight0 : Func := ⟨[py!"self", py!"r"], [],
  (.ret (.list (.cons (.call (py!"Field") (.cons (.const (.str (py!"Record Type"))) (.cons (.sub (.name (py!"r")) (.const (.int 0))) (.cons (.const (.fn (py!"field_002"))) .nil))))
      (.cons (.call (py!"Field") (.cons (.const (.str (py!"Customer / Area Code"))) (.cons (.slice (.name (py!"r")) (some 1) (some 4)) (.cons (.const (.fn (py!"field_003"))) .nil))))
      (.cons (.call (py!"Field") (.cons (.const (.str (py!"Section Code"))) (.cons (.bin .add (.sub (.name (py!"r")) (.const (.int 4))) (.sub (.name (py!"r")) (.const (.int 12)))) (.cons (.const (.fn (py!"field_004"))) .nil))))
      (.cons (.call (py!"Field") (.cons (.const (.str (py!"Heliport Identifier"))) (.cons (.slice (.name (py!"r")) (some 6) (some 10)) (.cons (.const (.fn (py!"field_006"))) .nil))))
      (.cons (.call (py!"Field") (.cons (.const (.str (py!"ICAO Code"))) (.cons (.slice (.name (py!"r")) (some 10) (some 12)) (.cons (.const (.fn (py!"field_014"))) .nil))))
      (.cons (.call (py!"Field") (.cons (.const (.str (py!"ATA/IATA Designator"))) (.cons (.slice (.name (py!"r")) (some 13) (some 16)) (.cons (.const (.fn (py!"field_107"))) .nil))))
      (.cons (.call (py!"Field") (.cons (.const (.str (py!"PAD Identifier"))) (.cons (.slice (.name (py!"r")) (some 16) (some 21)) (.cons (.const (.fn (py!"field_180"))) .nil))))
      (.cons (.call (py!"Field") (.cons (.const (.str (py!"Continuation Record No"))) (.cons (.sub (.name (py!"r")) (.const (.int 21))) (.cons (.const (.fn (py!"field_016"))) .nil))))
      (.cons (.call (py!"Field") (.cons (.const (.str (py!"Application Type"))) (.cons (.sub (.name (py!"r")) (.const (.int 22))) (.cons (.const (.fn (py!"field_091"))) .nil))))
      (.cons (.call (py!"Field") (.cons (.const (.str (py!"FIR Identifier"))) (.cons (.slice (.name (py!"r")) (some 23) (some 27)) (.cons (.const (.fn (py!"field_116"))) .nil))))
      (.cons (.call (py!"Field") (.cons (.const (.str (py!"UIR Identifier"))) (.cons (.slice (.name (py!"r")) (some 27) (some 31)) (.cons (.const (.fn (py!"field_116"))) .nil))))
      (.cons (.call (py!"Field") (.cons (.const (.str (py!"Start/End Indicator"))) (.cons (.sub (.name (py!"r")) (.const (.int 31))) (.cons (.const (.fn (py!"field_152"))) .nil))))
      (.cons (.call (py!"Field") (.cons (.const (.str (py!"Start/End Date/Time"))) (.cons (.slice (.name (py!"r")) (some 32) (some 43)) (.cons (.const (.fn (py!"field_153"))) .nil))))
      (.cons (.call (py!"Field") (.cons (.const (.str (py!"Controlled A/S Indicator"))) (.cons (.sub (.name (py!"r")) (.const (.int 66))) (.cons (.const (.fn (py!"field_217"))) .nil))))
      (.cons (.call (py!"Field") (.cons (.const (.str (py!"Controlled A/S Airport Indentifier"))) (.cons (.slice (.name (py!"r")) (some 67) (some 71)) (.cons (.const (.fn (py!"field_006"))) .nil))))
      (.cons (.call (py!"Field") (.cons (.const (.str (py!"Controlled A/S Airport ICAO"))) (.cons (.slice (.name (py!"r")) (some 71) (some 73)) (.cons (.const (.fn (py!"field_014"))) .nil))))
      (.cons (.call (py!"Field") (.cons (.const (.str (py!"File Record No"))) (.cons (.slice (.name (py!"r")) (some 123) (some 128)) (.cons (.const (.fn (py!"field_031"))) .nil))))
      (.cons (.call (py!"Field") (.cons (.const (.str (py!"Cycle Date"))) (.cons (.slice (.name (py!"r")) (some 128) (some 132)) (.cons (.const (.fn (py!"field_032"))) .nil))))
      .nil))))))))))))))))))))⟩

/-- definitions/Heliport.py:106-120 -/
def Heliport_read_flight1 : Func := ⟨[py!"self", py!"r"], [],
  (.ret (.list (.cons (.call (py!"Field") (.cons (.const (.str (py!"Record Type"))) (.cons (.sub (.name (py!"r")) (.const (.int 0))) (.cons (.const (.fn (py!"field_002"))) .nil))))
      (.cons (.call (py!"Field") (.cons (.const (.str (py!"Customer / Area Code"))) (.cons (.slice (.name (py!"r")) (some 1) (some 4)) (.cons (.const (.fn (py!"field_003"))) .nil))))
      (.cons (.call (py!"Field") (.cons (.const (.str (py!"Section Code"))) (.cons (.bin .add (.sub (.name (py!"r")) (.const (.int 4))) (.sub (.name (py!"r")) (.const (.int 12)))) (.cons (.const (.fn (py!"field_004"))) .nil))))
      (.cons (.call (py!"Field") (.cons (.const (.str (py!"Heliport Identifier"))) (.cons (.slice (.name (py!"r")) (some 6) (some 10)) (.cons (.const (.fn (py!"field_006"))) .nil))))
      (.cons (.call (py!"Field") (.cons (.const (.str (py!"ICAO Code"))) (.cons (.slice (.name (py!"r")) (some 10) (some 12)) (.cons (.const (.fn (py!"field_014"))) .nil))))
      (.cons (.call (py!"Field") (.cons (.const (.str (py!"ATA/IATA Designator"))) (.cons (.slice (.name (py!"r")) (some 13) (some 16)) (.cons (.const (.fn (py!"field_107"))) .nil))))
      (.cons (.call (py!"Field") (.cons (.const (.str (py!"PAD Identifier"))) (.cons (.slice (.name (py!"r")) (some 16) (some 21)) (.cons (.const (.fn (py!"field_180"))) .nil))))
      (.cons (.call (py!"Field") (.cons (.const (.str (py!"Continuation Record No"))) (.cons (.sub (.name (py!"r")) (.const (.int 21))) (.cons (.const (.fn (py!"field_016"))) .nil))))
      (.cons (.call (py!"Field") (.cons (.const (.str (py!"Application Type"))) (.cons (.sub (.name (py!"r")) (.const (.int 22))) (.cons (.const (.fn (py!"field_091"))) .nil))))
      (.cons (.call (py!"Field") (.cons (.const (.str (py!"Notes"))) (.cons (.slice (.name (py!"r")) (some 23) (some 92)) (.cons (.const (.fn (py!"field_061"))) .nil))))
      (.cons (.call (py!"Field") (.cons (.const (.str (py!"File Record No"))) (.cons (.slice (.name (py!"r")) (some 123) (some 128)) (.cons (.const (.fn (py!"field_031"))) .nil))))
      (.cons (.call (py!"Field") (.cons (.const (.str (py!"Cycle Date"))) (.cons (.slice (.name (py!"r")) (some 128) (some 132)) (.cons (.const (.fn (py!"field_032"))) .nil))))
      .nil))))))))))))))⟩

/-- definitions/Heliport.py:6-120, class `Heliport` -/
def Heliport : Class :=
  ⟨[(py!"cont_idx", (.int 21)), (py!"app_idx", (.int 22)), (py!"continuations", (.list [(.str (py!"A")), (.str (py!"P")), (.str (py!"Q"))])), (py!"name", (.str (py!"Heliport")))],
   [(py!"application_type", Heliport_application_type),
    (py!"read", Heliport_read),
    (py!"read_primary", Heliport_read_primary),
    (py!"read_cont", Heliport_read_cont),
    (py!"read_flight0", Heliport_read_flight0),
    (py!"read_flight1", Heliport_read_flight1)]⟩

/-- definitions/HeliportTerminalWaypoint.py:13-14 -/
def HeliportTerminalWaypoint_application_type : Func := ⟨[py!"self", py!"line"], [],
  (.ret (.sub (.name (py!"line")) (.attr (.name (py!"self")) (py!"app_idx"))))⟩

/-- definitions/HeliportTerminalWaypoint.py:16-29 -/
def HeliportTerminalWaypoint_read : Func := ⟨[py!"self", py!"line", py!"primary"], [],
  (.seq (.ite (.name (py!"primary"))
    (.ret (.invoke (.name (py!"self")) (py!"read_primary") (.cons (.name (py!"line")) .nil)))
    .pass)
  (.seq (.assign (py!"application") (.sub (.name (py!"line")) (.attr (.name (py!"self")) (py!"app_idx"))))
  (.matchOn (.name (py!"application"))
    (.case (.str (py!"A")) (.ret (.invoke (.name (py!"self")) (py!"read_cont") (.cons (.name (py!"line")) .nil)))
    (.case (.str (py!"P")) (.ret (.invoke (.name (py!"self")) (py!"read_flight0") (.cons (.name (py!"line")) .nil)))
    (.ret (.invoke (.name (py!"self")) (py!"read_flight1") (.cons (.name (py!"line")) .nil))))))))⟩

/-- definitions/HeliportTerminalWaypoint.py:32-52 -/
def HeliportTerminalWaypoint_read_primary : Func := ⟨[py!"self", py!"r"], [],
  (.ret (.list (.cons (.call (py!"Field") (.cons (.const (.str (py!"Record Type"))) (.cons (.sub (.name (py!"r")) (.const (.int 0))) (.cons (.const (.fn (py!"field_002"))) .nil))))
      (.cons (.call (py!"Field") (.cons (.const (.str (py!"Customer / Area Code"))) (.cons (.slice (.name (py!"r")) (some 1) (some 4)) (.cons (.const (.fn (py!"field_003"))) .nil))))
      (.cons (.call (py!"Field") (.cons (.const (.str (py!"Section Code"))) (.cons (.bin .add (.sub (.name (py!"r")) (.const (.int 4))) (.sub (.name (py!"r")) (.const (.int 12)))) (.cons (.const (.fn (py!"field_004"))) .nil))))
      (.cons (.call (py!"Field") (.cons (.const (.str (py!"Heliport Identifier"))) (.cons (.slice (.name (py!"r")) (some 6) (some 10)) (.cons (.const (.fn (py!"field_006"))) .nil))))
      (.cons (.call (py!"Field") (.cons (.const (.str (py!"ICAO Code"))) (.cons (.slice (.name (py!"r")) (some 10) (some 12)) (.cons (.const (.fn (py!"field_014"))) .nil))))
      (.cons (.call (py!"Field") (.cons (.const (.str (py!"Waypoint Identifier"))) (.cons (.slice (.name (py!"r")) (some 13) (some 18)) (.cons (.const (.fn (py!"field_013"))) .nil))))
      (.cons (.call (py!"Field") (.cons (.const (.str (py!"ICAO Code (2)"))) (.cons (.slice (.name (py!"r")) (some 19) (some 21)) (.cons (.const (.fn (py!"field_014"))) .nil))))
      (.cons (.call (py!"Field") (.cons (.const (.str (py!"Continuation Record No"))) (.cons (.sub (.name (py!"r")) (.const (.int 21))) (.cons (.const (.fn (py!"field_016"))) .nil))))
      (.cons (.call (py!"Field") (.cons (.const (.str (py!"Waypoint Type"))) (.cons (.slice (.name (py!"r")) (some 26) (some 29)) (.cons (.const (.fn (py!"field_042"))) .nil))))
      (.cons (.call (py!"Field") (.cons (.const (.str (py!"Waypoint Usage"))) (.cons (.slice (.name (py!"r")) (some 29) (some 31)) (.cons (.const (.fn (py!"field_082"))) .nil))))
      (.cons (.call (py!"Field") (.cons (.const (.str (py!"Waypoint Latitude"))) (.cons (.slice (.name (py!"r")) (some 32) (some 41)) (.cons (.const (.fn (py!"field_036"))) .nil))))
      (.cons (.call (py!"Field") (.cons (.const (.str (py!"Waypoint Longitude"))) (.cons (.slice (.name (py!"r")) (some 41) (some 51)) (.cons (.const (.fn (py!"field_037"))) .nil))))
      (.cons (.call (py!"Field") (.cons (.const (.str (py!"Dynamic Magnetic Variation"))) (.cons (.slice (.name (py!"r")) (some 74) (some 79)) (.cons (.const (.fn (py!"field_039"))) .nil))))
      (.cons (.call (py!"Field") (.cons (.const (.str (py!"Datum Code"))) (.cons (.slice (.name (py!"r")) (some 84) (some 87)) (.cons (.const (.fn (py!"field_197"))) .nil))))
      (.cons (.call (py!"Field") (.cons (.const (.str (py!"Name Format Indicator"))) (.cons (.slice (.name (py!"r")) (some 95) (some 98)) (.cons (.const (.fn (py!"field_196"))) .nil))))
      (.cons (.call (py!"Field") (.cons (.const (.str (py!"Waypoint Name/Description"))) (.cons (.slice (.name (py!"r")) (some 98) (some 123)) (.cons (.const (.fn (py!"field_043"))) .nil))))
      (.cons (.call (py!"Field") (.cons (.const (.str (py!"File Record No"))) (.cons (.slice (.name (py!"r")) (some 123) (some 128)) (.cons (.const (.fn (py!"field_031"))) .nil))))
      (.cons (.call (py!"Field") (.cons (.const (.str (py!"Cycle Date"))) (.cons (.slice (.name (py!"r")) (some 128) (some 132)) (.cons (.const (.fn (py!"field_032"))) .nil))))
      .nil))))))))))))))))))))⟩

/-- definitions/HeliportTerminalWaypoint.py:55-69 -/
def HeliportTerminalWaypoint_read_cont : Func := ⟨[py!"self", py!"r"], [],
  (.ret (.list (.cons (.call (py!"Field") (.cons (.const (.str (py!"Record Type"))) (.cons (.sub (.name (py!"r")) (.const (.int 0))) (.cons (.const (.fn (py!"field_002"))) .nil))))
      (.cons (.call (py!"Field") (.cons (.const (.str (py!"Customer / Area Code"))) (.cons (.slice (.name (py!"r")) (some 1) (some 4)) (.cons (.const (.fn (py!"field_003"))) .nil))))
      (.cons (.call (py!"Field") (.cons (.const (.str (py!"Section Code"))) (.cons (.bin .add (.sub (.name (py!"r")) (.const (.int 4))) (.sub (.name (py!"r")) (.const (.int 12)))) (.cons (.const (.fn (py!"field_004"))) .nil))))
      (.cons (.call (py!"Field") (.cons (.const (.str (py!"Heliport Identifier"))) (.cons (.slice (.name (py!"r")) (some 6) (some 10)) (.cons (.const (.fn (py!"field_006"))) .nil))))
      (.cons (.call (py!"Field") (.cons (.const (.str (py!"ICAO Code"))) (.cons (.slice (.name (py!"r")) (some 10) (some 12)) (.cons (.const (.fn (py!"field_014"))) .nil))))
      (.cons (.call (py!"Field") (.cons (.const (.str (py!"Waypoint Identifier"))) (.cons (.slice (.name (py!"r")) (some 13) (some 18)) (.cons (.const (.fn (py!"field_013"))) .nil))))
      (.cons (.call (py!"Field") (.cons (.const (.str (py!"ICAO Code (2)"))) (.cons (.slice (.name (py!"r")) (some 19) (some 21)) (.cons (.const (.fn (py!"field_014"))) .nil))))
      (.cons (.call (py!"Field") (.cons (.const (.str (py!"Continuation Record No"))) (.cons (.sub (.name (py!"r")) (.const (.int 21))) (.cons (.const (.fn (py!"field_016"))) .nil))))
      (.cons (.call (py!"Field") (.cons (.const (.str (py!"Application Type"))) (.cons (.sub (.name (py!"r")) (.const (.int 22))) (.cons (.const (.fn (py!"field_091"))) .nil))))
      (.cons (.call (py!"Field") (.cons (.const (.str (py!"Notes"))) (.cons (.slice (.name (py!"r")) (some 23) (some 92)) (.cons (.const (.fn (py!"field_061"))) .nil))))
      (.cons (.call (py!"Field") (.cons (.const (.str (py!"File Record No"))) (.cons (.slice (.name (py!"r")) (some 123) (some 128)) (.cons (.const (.fn (py!"field_031"))) .nil))))
      (.cons (.call (py!"Field") (.cons (.const (.str (py!"Cycle Date"))) (.cons (.slice (.name (py!"r")) (some 128) (some 132)) (.cons (.const (.fn (py!"field_032"))) .nil))))
      .nil))))))))))))))⟩

/-- definitions/HeliportTerminalWaypoint.py:72-89 -/
def HeliportTerminalWaypoint_read_flight0 : Func := ⟨[py!"self", py!"r"], [],
  (.ret (.list (.cons (.call (py!"Field") (.cons (.const (.str (py!"Record Type"))) (.cons (.sub (.name (py!"r")) (.const (.int 0))) (.cons (.const (.fn (py!"field_002"))) .nil))))
      (.cons (.call (py!"Field") (.cons (.const (.str (py!"Customer / Area Code"))) (.cons (.slice (.name (py!"r")) (some 1) (some 4)) (.cons (.const (.fn (py!"field_003"))) .nil))))
      (.cons (.call (py!"Field") (.cons (.const (.str (py!"Section Code"))) (.cons (.bin .add (.sub (.name (py!"r")) (.const (.int 4))) (.sub (.name (py!"r")) (.const (.int 12)))) (.cons (.const (.fn (py!"field_004"))) .nil))))
      (.cons (.call (py!"Field") (.cons (.const (.str (py!"Heliport Identifier"))) (.cons (.slice (.name (py!"r")) (some 6) (some 10)) (.cons (.const (.fn (py!"field_006"))) .nil))))
      (.cons (.call (py!"Field") (.cons (.const (.str (py!"ICAO Code"))) (.cons (.slice (.name (py!"r")) (some 10) (some 12)) (.cons (.const (.fn (py!"field_014"))) .nil))))
      (.cons (.call (py!"Field") (.cons (.const (.str (py!"Waypoint Identifier"))) (.cons (.slice (.name (py!"r")) (some 13) (some 18)) (.cons (.const (.fn (py!"field_013"))) .nil))))
      (.cons (.call (py!"Field") (.cons (.const (.str (py!"ICAO Code (2)"))) (.cons (.slice (.name (py!"r")) (some 19) (some 21)) (.cons (.const (.fn (py!"field_014"))) .nil))))
      (.cons (.call (py!"Field") (.cons (.const (.str (py!"Continuation Record No"))) (.cons (.sub (.name (py!"r")) (.const (.int 21))) (.cons (.const (.fn (py!"field_016"))) .nil))))
      (.cons (.call (py!"Field") (.cons (.const (.str (py!"Application Type"))) (.cons (.sub (.name (py!"r")) (.const (.int 22))) (.cons (.const (.fn (py!"field_091"))) .nil))))
      (.cons (.call (py!"Field") (.cons (.const (.str (py!"FIR Identifier"))) (.cons (.slice (.name (py!"r")) (some 23) (some 27)) (.cons (.const (.fn (py!"field_116"))) .nil))))
      (.cons (.call (py!"Field") (.cons (.const (.str (py!"UIR Identifier"))) (.cons (.slice (.name (py!"r")) (some 27) (some 31)) (.cons (.const (.fn (py!"field_116"))) .nil))))
      (.cons (.call (py!"Field") (.cons (.const (.str (py!"Start/End Indicator"))) (.cons (.sub (.name (py!"r")) (.const (.int 31))) (.cons (.const (.fn (py!"field_152"))) .nil))))
      (.cons (.call (py!"Field") (.cons (.const (.str (py!"Start/End Date"))) (.cons (.slice (.name (py!"r")) (some 32) (some 43)) (.cons (.const (.fn (py!"field_153"))) .nil))))
      (.cons (.call (py!"Field") (.cons (.const (.str (py!"File Record No"))) (.cons (.slice (.name (py!"r")) (some 123) (some 128)) (.cons (.const (.fn (py!"field_031"))) .nil))))
      (.cons (.call (py!"Field") (.cons (.const (.str (py!"Cycle Date"))) (.cons (.slice (.name (py!"r")) (some 128) (some 132)) (.cons (.const (.fn (py!"field_032"))) .nil))))
      .nil)))))))))))))))))⟩

/-- definitions/HeliportTerminalWaypoint.py:92-112 -/
def HeliportTerminalWaypoint_read_flight1 : Func := ⟨[py!"self", py!"r"], [],
  (.ret (.list (.cons (.call (py!"Field") (.cons (.const (.str (py!"Record Type"))) (.cons (.sub (.name (py!"r")) (.const (.int 0))) (.cons (.const (.fn (py!"field_002"))) .nil))))
      (.cons (.call (py!"Field") (.cons (.const (.str (py!"Customer / Area Code"))) (.cons (.slice (.name (py!"r")) (some 1) (some 4)) (.cons (.const (.fn (py!"field_003"))) .nil))))
      (.cons (.call (py!"Field") (.cons (.const (.str (py!"Section Code"))) (.cons (.bin .add (.sub (.name (py!"r")) (.const (.int 4))) (.sub (.name (py!"r")) (.const (.int 12)))) (.cons (.const (.fn (py!"field_004"))) .nil))))
      (.cons (.call (py!"Field") (.cons (.const (.str (py!"Heliport Identifier"))) (.cons (.slice (.name (py!"r")) (some 6) (some 10)) (.cons (.const (.fn (py!"field_006"))) .nil))))
      (.cons (.call (py!"Field") (.cons (.const (.str (py!"ICAO Code"))) (.cons (.slice (.name (py!"r")) (some 10) (some 12)) (.cons (.const (.fn (py!"field_014"))) .nil))))
      (.cons (.call (py!"Field") (.cons (.const (.str (py!"Waypoint Identifier"))) (.cons (.slice (.name (py!"r")) (some 13) (some 18)) (.cons (.const (.fn (py!"field_013"))) .nil))))
      (.cons (.call (py!"Field") (.cons (.const (.str (py!"ICAO Code (2)"))) (.cons (.slice (.name (py!"r")) (some 19) (some 21)) (.cons (.const (.fn (py!"field_014"))) .nil))))
      (.cons (.call (py!"Field") (.cons (.const (.str (py!"Continuation Record No"))) (.cons (.sub (.name (py!"r")) (.const (.int 21))) (.cons (.const (.fn (py!"field_016"))) .nil))))
      (.cons (.call (py!"Field") (.cons (.const (.str (py!"Waypoint Type"))) (.cons (.slice (.name (py!"r")) (some 26) (some 29)) (.cons (.const (.fn (py!"field_042"))) .nil))))
      (.cons (.call (py!"Field") (.cons (.const (.str (py!"Waypoint Usage"))) (.cons (.slice (.name (py!"r")) (some 29) (some 31)) (.cons (.const (.fn (py!"field_082"))) .nil))))
      (.cons (.call (py!"Field") (.cons (.const (.str (py!"Waypoint Latitude"))) (.cons (.slice (.name (py!"r")) (some 32) (some 41)) (.cons (.const (.fn (py!"field_036"))) .nil))))
      (.cons (.call (py!"Field") (.cons (.const (.str (py!"Waypoint Longitude"))) (.cons (.slice (.name (py!"r")) (some 41) (some 51)) (.cons (.const (.fn (py!"field_037"))) .nil))))
      (.cons (.call (py!"Field") (.cons (.const (.str (py!"Dynamic Magnetic Variation"))) (.cons (.slice (.name (py!"r")) (some 74) (some 79)) (.cons (.const (.fn (py!"field_039"))) .nil))))
      (.cons (.call (py!"Field") (.cons (.const (.str (py!"Datum Code"))) (.cons (.slice (.name (py!"r")) (some 84) (some 87)) (.cons (.const (.fn (py!"field_197"))) .nil))))
      (.cons (.call (py!"Field") (.cons (.const (.str (py!"Name Format Indicator"))) (.cons (.slice (.name (py!"r")) (some 95) (some 98)) (.cons (.const (.fn (py!"field_196"))) .nil))))
      (.cons (.call (py!"Field") (.cons (.const (.str (py!"Waypoint Name/Description"))) (.cons (.slice (.name (py!"r")) (some 98) (some 123)) (.cons (.const (.fn (py!"field_043"))) .nil))))
      (.cons (.call (py!"Field") (.cons (.const (.str (py!"File Record No"))) (.cons (.slice (.name (py!"r")) (some 123) (some 128)) (.cons (.const (.fn (py!"field_031"))) .nil))))
      (.cons (.call (py!"Field") (.cons (.const (.str (py!"Cycle Date"))) (.cons (.slice (.name (py!"r")) (some 128) (some 132)) (.cons (.const (.fn (py!"field_032"))) .nil))))
      .nil))))))))))))))))))))⟩

/-- definitions/HeliportTerminalWaypoint.py:6-112, class `HeliportTerminalWaypoint` -/
def HeliportTerminalWaypoint : Class :=
  ⟨[(py!"cont_idx", (.int 21)), (py!"app_idx", (.int 22)), (py!"continuations", (.list [(.str (py!"A")), (.str (py!"P"))])), (py!"name", (.str (py!"Heliport Terminal Waypoint")))],
   [(py!"application_type", HeliportTerminalWaypoint_application_type),
    (py!"read", HeliportTerminalWaypoint_read),
    (py!"read_primary", HeliportTerminalWaypoint_read_primary),
    (py!"read_cont", HeliportTerminalWaypoint_read_cont),
    (py!"read_flight0", HeliportTerminalWaypoint_read_flight0),
    (py!"read_flight1", HeliportTerminalWaypoint_read_flight1)]⟩

/-- definitions/SIDSTARApproach.py:13-14 -/
def SIDSTARApproach_application_type : Func := ⟨[py!"self", py!"line"], [],
  (.ret (.sub (.name (py!"line")) (.attr (.name (py!"self")) (py!"app_idx"))))⟩

/-- definitions/SIDSTARApproach.py:16-30 -/
def SIDSTARApproach_read : Func := ⟨[py!"self", py!"line", py!"primary"], [],
  (.seq (.ite (.name (py!"primary"))
    (.ret (.invoke (.name (py!"self")) (py!"read_primary") (.cons (.name (py!"line")) .nil)))
    .pass)
  (.seq (.assign (py!"application") (.sub (.name (py!"line")) (.attr (.name (py!"self")) (py!"app_idx"))))
  (.matchOn (.name (py!"application"))
    (.case (.str (py!"E")) (.ret (.invoke (.name (py!"self")) (py!"read_ext") (.cons (.name (py!"line")) .nil)))
    (.case (.str (py!"P")) (.ret (.invoke (.name (py!"self")) (py!"read_flight0") (.cons (.name (py!"line")) .nil)))
    (.case (.str (py!"W")) (.ret (.invoke (.name (py!"self")) (py!"read_data") (.cons (.name (py!"line")) .nil)))
    (.ret (.list .nil))))))))⟩

/-- definitions/SIDSTARApproach.py:34-79 -/
def SIDSTARApproach_read_primary : Func := ⟨[py!"self", py!"r"], [],
  (.ret (.list (.cons (.call (py!"Field") (.cons (.const (.str (py!"Record Type"))) (.cons (.sub (.name (py!"r")) (.const (.int 0))) (.cons (.const (.fn (py!"field_002"))) .nil))))
      (.cons (.call (py!"Field") (.cons (.const (.str (py!"Customer / Area Code"))) (.cons (.slice (.name (py!"r")) (some 1) (some 4)) (.cons (.const (.fn (py!"field_003"))) .nil))))
      (.cons (.call (py!"Field") (.cons (.const (.str (py!"Section Code"))) (.cons (.bin .add (.sub (.name (py!"r")) (.const (.int 4))) (.sub (.name (py!"r")) (.const (.int 12)))) (.cons (.const (.fn (py!"field_004"))) .nil))))
      (.cons (.call (py!"Field") (.cons (.const (.str (py!"Airport Identifier"))) (.cons (.slice (.name (py!"r")) (some 6) (some 10)) (.cons (.const (.fn (py!"field_006"))) .nil))))
      (.cons (.call (py!"Field") (.cons (.const (.str (py!"ICAO Code"))) (.cons (.slice (.name (py!"r")) (some 10) (some 12)) (.cons (.const (.fn (py!"field_014"))) .nil))))
      (.cons (.call (py!"Field") (.cons (.const (.str (py!"SID/STAR/Approach Identifier"))) (.cons (.slice (.name (py!"r")) (some 13) (some 19)) (.cons (.const (.fn (py!"field_009"))) .nil))))
      (.cons (.call (py!"Field") (.cons (.const (.str (py!"Route Type"))) (.cons (.sub (.name (py!"r")) (.const (.int 19))) (.cons (.const (.fn (py!"field_007"))) .nil))))
      (.cons (.call (py!"Field") (.cons (.const (.str (py!"Transition Identifier"))) (.cons (.slice (.name (py!"r")) (some 20) (some 25)) (.cons (.const (.fn (py!"field_011"))) .nil))))
      (.cons (.call (py!"Field") (.cons (.const (.str (py!"Sequence Number"))) (.cons (.slice (.name (py!"r")) (some 26) (some 29)) (.cons (.const (.fn (py!"field_012"))) .nil))))
      (.cons (.call (py!"Field") (.cons (.const (.str (py!"Fix Identifier"))) (.cons (.slice (.name (py!"r")) (some 29) (some 34)) (.cons (.const (.fn (py!"field_013"))) .nil))))
      (.cons (.call (py!"Field") (.cons (.const (.str (py!"ICAO Code (2)"))) (.cons (.slice (.name (py!"r")) (some 34) (some 36)) (.cons (.const (.fn (py!"field_014"))) .nil))))
      (.cons (.call (py!"Field") (.cons (.const (.str (py!"Section Code (2)"))) (.cons (.slice (.name (py!"r")) (some 36) (some 38)) (.cons (.const (.fn (py!"field_004"))) .nil))))
      (.cons (.call (py!"Field") (.cons (.const (.str (py!"Continuation Record No"))) (.cons (.sub (.name (py!"r")) (.const (.int 38))) (.cons (.const (.fn (py!"field_016"))) .nil))))
      (.cons (.call (py!"Field") (.cons (.const (.str (py!"Waypoint Description Code"))) (.cons (.slice (.name (py!"r")) (some 39) (some 43)) (.cons (.const (.fn (py!"field_017"))) .nil))))
      (.cons (.call (py!"Field") (.cons (.const (.str (py!"Turn Direction"))) (.cons (.sub (.name (py!"r")) (.const (.int 43))) (.cons (.const (.fn (py!"field_020"))) .nil))))
      (.cons (.call (py!"Field") (.cons (.const (.str (py!"RNP"))) (.cons (.slice (.name (py!"r")) (some 44) (some 47)) (.cons (.const (.fn (py!"field_211"))) .nil))))
      (.cons (.call (py!"Field") (.cons (.const (.str (py!"Path and Termination"))) (.cons (.slice (.name (py!"r")) (some 47) (some 49)) (.cons (.const (.fn (py!"field_021"))) .nil))))
      (.cons (.call (py!"Field") (.cons (.const (.str (py!"Turn Direction Valid"))) (.cons (.sub (.name (py!"r")) (.const (.int 49))) (.cons (.const (.fn (py!"field_022"))) .nil))))
      (.cons (.call (py!"Field") (.cons (.const (.str (py!"Recommended Navaid"))) (.cons (.slice (.name (py!"r")) (some 50) (some 54)) (.cons (.const (.fn (py!"field_023"))) .nil))))
      (.cons (.call (py!"Field") (.cons (.const (.str (py!"ICAO Code (3)"))) (.cons (.slice (.name (py!"r")) (some 54) (some 56)) (.cons (.const (.fn (py!"field_014"))) .nil))))
      (.cons (.call (py!"Field") (.cons (.const (.str (py!"Arc Radius"))) (.cons (.slice (.name (py!"r")) (some 56) (some 62)) (.cons (.const (.fn (py!"field_204"))) .nil))))
      (.cons (.call (py!"Field") (.cons (.const (.str (py!"Theta"))) (.cons (.slice (.name (py!"r")) (some 62) (some 66)) (.cons (.const (.fn (py!"field_024"))) .nil))))
      (.cons (.call (py!"Field") (.cons (.const (.str (py!"Rho"))) (.cons (.slice (.name (py!"r")) (some 66) (some 70)) (.cons (.const (.fn (py!"field_025"))) .nil))))
      (.cons (.call (py!"Field") (.cons (.const (.str (py!"Magnetic Course"))) (.cons (.slice (.name (py!"r")) (some 70) (some 74)) (.cons (.const (.fn (py!"field_026"))) .nil))))
      (.cons (.call (py!"Field") (.cons (.const (.str (py!"Route / Holding Distance or Time"))) (.cons (.slice (.name (py!"r")) (some 74) (some 78)) (.cons (.const (.fn (py!"field_027"))) .nil))))
      (.cons (.call (py!"Field") (.cons (.const (.str (py!"Recommended Navaid (2)"))) (.cons (.slice (.name (py!"r")) (some 78) (some 80)) (.cons (.const (.fn (py!"field_004"))) .nil))))
      (.cons (.call (py!"Field") (.cons (.const (.str (py!"Altitude Description"))) (.cons (.sub (.name (py!"r")) (.const (.int 82))) (.cons (.const (.fn (py!"field_029"))) .nil))))
      (.cons (.call (py!"Field") (.cons (.const (.str (py!"ATC Indicator"))) (.cons (.sub (.name (py!"r")) (.const (.int 83))) (.cons (.const (.fn (py!"field_081"))) .nil))))
      (.cons (.call (py!"Field") (.cons (.const (.str (py!"Altitude"))) (.cons (.slice (.name (py!"r")) (some 84) (some 89)) (.cons (.const (.fn (py!"field_030"))) .nil))))
      (.cons (.call (py!"Field") (.cons (.const (.str (py!"Altitude (2)"))) (.cons (.slice (.name (py!"r")) (some 89) (some 94)) (.cons (.const (.fn (py!"field_030"))) .nil))))
      (.cons (.call (py!"Field") (.cons (.const (.str (py!"Transition Altitude"))) (.cons (.slice (.name (py!"r")) (some 94) (some 99)) (.cons (.const (.fn (py!"field_053"))) .nil))))
      (.cons (.call (py!"Field") (.cons (.const (.str (py!"Speed Limit"))) (.cons (.slice (.name (py!"r")) (some 99) (some 102)) (.cons (.const (.fn (py!"field_072"))) .nil))))
      (.cons (.call (py!"Field") (.cons (.const (.str (py!"Vertical Angle"))) (.cons (.slice (.name (py!"r")) (some 102) (some 106)) (.cons (.const (.fn (py!"field_070"))) .nil))))
      (.cons (.call (py!"Field") (.cons (.const (.str (py!"Center Fix or TAA Procedure Turn Indicator"))) (.cons (.slice (.name (py!"r")) (some 106) (some 111)) (.cons (.const (.fn (py!"field_144"))) .nil))))
      (.cons (.call (py!"Field") (.cons (.const (.str (py!"Multiple Code or TAA Sector Identifier"))) (.cons (.sub (.name (py!"r")) (.const (.int 111))) (.cons (.const (.fn (py!"field_130"))) .nil))))
      (.cons (.call (py!"Field") (.cons (.const (.str (py!"ICAO Code (4)"))) (.cons (.slice (.name (py!"r")) (some 112) (some 113)) (.cons (.const (.fn (py!"field_014"))) .nil))))
      (.cons (.call (py!"Field") (.cons (.const (.str (py!"Section Code (3)"))) (.cons (.slice (.name (py!"r")) (some 114) (some 116)) (.cons (.const (.fn (py!"field_004"))) .nil))))
      (.cons (.call (py!"Field") (.cons (.const (.str (py!"GNSS/FMS Indication"))) (.cons (.sub (.name (py!"r")) (.const (.int 116))) (.cons (.const (.fn (py!"field_222"))) .nil))))
      (.cons (.call (py!"Field") (.cons (.const (.str (py!"Speed Limit Description"))) (.cons (.sub (.name (py!"r")) (.const (.int 117))) (.cons (.const (.fn (py!"field_261"))) .nil))))
      (.cons (.call (py!"Field") (.cons (.const (.str (py!"Apch Route Qualifier 1"))) (.cons (.sub (.name (py!"r")) (.const (.int 118))) (.cons (.const (.fn (py!"field_007"))) .nil))))
      (.cons (.call (py!"Field") (.cons (.const (.str (py!"Apch Route Qualifier 2"))) (.cons (.sub (.name (py!"r")) (.const (.int 119))) (.cons (.const (.fn (py!"field_007"))) .nil))))
      (.cons (.call (py!"Field") (.cons (.const (.str (py!"File Record No"))) (.cons (.slice (.name (py!"r")) (some 123) (some 128)) (.cons (.const (.fn (py!"field_031"))) .nil))))
      (.cons (.call (py!"Field") (.cons (.const (.str (py!"Cycle Date"))) (.cons (.slice (.name (py!"r")) (some 128) (some 132)) (.cons (.const (.fn (py!"field_032"))) .nil))))
      .nil)))))))))))))))))))))))))))))))))))))))))))))⟩

/-- definitions/SIDSTARApproach.py:83-116 -/
def SIDSTARApproach_read_ext : Func := ⟨[py!"self", py!"r"], [],
  (.ret (.list (.cons (.call (py!"Field") (.cons (.const (.str (py!"Record Type"))) (.cons (.sub (.name (py!"r")) (.const (.int 0))) (.cons (.const (.fn (py!"field_002"))) .nil))))
      (.cons (.call (py!"Field") (.cons (.const (.str (py!"Customer / Area Code"))) (.cons (.slice (.name (py!"r")) (some 1) (some 4)) (.cons (.const (.fn (py!"field_003"))) .nil))))
      (.cons (.call (py!"Field") (.cons (.const (.str (py!"Section Code"))) (.cons (.bin .add (.sub (.name (py!"r")) (.const (.int 4))) (.sub (.name (py!"r")) (.const (.int 12)))) (.cons (.const (.fn (py!"field_004"))) .nil))))
      (.cons (.call (py!"Field") (.cons (.const (.str (py!"Airport Identifier"))) (.cons (.slice (.name (py!"r")) (some 6) (some 10)) (.cons (.const (.fn (py!"field_006"))) .nil))))
      (.cons (.call (py!"Field") (.cons (.const (.str (py!"ICAO Code"))) (.cons (.slice (.name (py!"r")) (some 10) (some 12)) (.cons (.const (.fn (py!"field_014"))) .nil))))
      (.cons (.call (py!"Field") (.cons (.const (.str (py!"SID/STAR/Approach Identifier"))) (.cons (.slice (.name (py!"r")) (some 13) (some 19)) (.cons (.const (.fn (py!"field_009"))) .nil))))
      (.cons (.call (py!"Field") (.cons (.const (.str (py!"Route Type"))) (.cons (.sub (.name (py!"r")) (.const (.int 19))) (.cons (.const (.fn (py!"field_007"))) .nil))))
      (.cons (.call (py!"Field") (.cons (.const (.str (py!"Transition Identifier"))) (.cons (.slice (.name (py!"r")) (some 20) (some 25)) (.cons (.const (.fn (py!"field_011"))) .nil))))
      (.cons (.call (py!"Field") (.cons (.const (.str (py!"Sequence Number"))) (.cons (.slice (.name (py!"r")) (some 26) (some 29)) (.cons (.const (.fn (py!"field_012"))) .nil))))
      (.cons (.call (py!"Field") (.cons (.const (.str (py!"Fix Identifier"))) (.cons (.slice (.name (py!"r")) (some 29) (some 34)) (.cons (.const (.fn (py!"field_013"))) .nil))))
      (.cons (.call (py!"Field") (.cons (.const (.str (py!"ICAO Code (2)"))) (.cons (.slice (.name (py!"r")) (some 34) (some 36)) (.cons (.const (.fn (py!"field_014"))) .nil))))
      (.cons (.call (py!"Field") (.cons (.const (.str (py!"Section Code (2)"))) (.cons (.slice (.name (py!"r")) (some 36) (some 38)) (.cons (.const (.fn (py!"field_004"))) .nil))))
      (.cons (.call (py!"Field") (.cons (.const (.str (py!"Continuation Record No"))) (.cons (.sub (.name (py!"r")) (.const (.int 38))) (.cons (.const (.fn (py!"field_016"))) .nil))))
      (.cons (.call (py!"Field") (.cons (.const (.str (py!"Application Type"))) (.cons (.sub (.name (py!"r")) (.const (.int 39))) (.cons (.const (.fn (py!"field_091"))) .nil))))
      (.cons (.call (py!"Field") (.cons (.const (.str (py!"CAT A Decision Height"))) (.cons (.slice (.name (py!"r")) (some 40) (some 44)) (.cons (.const (.fn (py!"field_170"))) .nil))))
      (.cons (.call (py!"Field") (.cons (.const (.str (py!"CAT B Decision Height"))) (.cons (.slice (.name (py!"r")) (some 44) (some 48)) (.cons (.const (.fn (py!"field_170"))) .nil))))
      (.cons (.call (py!"Field") (.cons (.const (.str (py!"CAT C Decision Height"))) (.cons (.slice (.name (py!"r")) (some 48) (some 52)) (.cons (.const (.fn (py!"field_170"))) .nil))))
      (.cons (.call (py!"Field") (.cons (.const (.str (py!"CAT D Decision Height"))) (.cons (.slice (.name (py!"r")) (some 52) (some 56)) (.cons (.const (.fn (py!"field_170"))) .nil))))
      (.cons (.call (py!"Field") (.cons (.const (.str (py!"CAT A Minimum Descent Altitude"))) (.cons (.slice (.name (py!"r")) (some 56) (some 60)) (.cons (.const (.fn (py!"field_171"))) .nil))))
      (.cons (.call (py!"Field") (.cons (.const (.str (py!"CAT B Minimum Descent Altitude"))) (.cons (.slice (.name (py!"r")) (some 60) (some 64)) (.cons (.const (.fn (py!"field_171"))) .nil))))
      (.cons (.call (py!"Field") (.cons (.const (.str (py!"CAT C Minimum Descent Altitude"))) (.cons (.slice (.name (py!"r")) (some 64) (some 68)) (.cons (.const (.fn (py!"field_171"))) .nil))))
      (.cons (.call (py!"Field") (.cons (.const (.str (py!"CAT D Minimum Descent Altitude"))) (.cons (.slice (.name (py!"r")) (some 68) (some 72)) (.cons (.const (.fn (py!"field_171"))) .nil))))
      (.cons (.call (py!"Field") (.cons (.const (.str (py!"Procedure TCH"))) (.cons (.slice (.name (py!"r")) (some 72) (some 75)) (.cons (.const (.fn (py!"field_067"))) .nil))))
      (.cons (.call (py!"Field") (.cons (.const (.str (py!"Localizer Only Altitude Desc"))) (.cons (.sub (.name (py!"r")) (.const (.int 75))) (.cons (.const (.fn (py!"field_029"))) .nil))))
      (.cons (.call (py!"Field") (.cons (.const (.str (py!"Localizer Only Altitude"))) (.cons (.slice (.name (py!"r")) (some 76) (some 81)) (.cons (.const (.fn (py!"field_030"))) .nil))))
      (.cons (.call (py!"Field") (.cons (.const (.str (py!"Localizer Only Vertical Angle"))) (.cons (.slice (.name (py!"r")) (some 81) (some 85)) (.cons (.const (.fn (py!"field_070"))) .nil))))
      (.cons (.call (py!"Field") (.cons (.const (.str (py!"RNP"))) (.cons (.slice (.name (py!"r")) (some 89) (some 92)) (.cons (.const (.fn (py!"field_211"))) .nil))))
      (.cons (.call (py!"Field") (.cons (.const (.str (py!"Apch Route Qualifier 1"))) (.cons (.sub (.name (py!"r")) (.const (.int 118))) (.cons (.const (.fn (py!"field_007"))) .nil))))
      (.cons (.call (py!"Field") (.cons (.const (.str (py!"Apch Route Qualifier 2"))) (.cons (.sub (.name (py!"r")) (.const (.int 119))) (.cons (.const (.fn (py!"field_007"))) .nil))))
      (.cons (.call (py!"Field") (.cons (.const (.str (py!"File Record No"))) (.cons (.slice (.name (py!"r")) (some 123) (some 128)) (.cons (.const (.fn (py!"field_031"))) .nil))))
      (.cons (.call (py!"Field") (.cons (.const (.str (py!"Cycle Date"))) (.cons (.slice (.name (py!"r")) (some 128) (some 132)) (.cons (.const (.fn (py!"field_032"))) .nil))))
      .nil)))))))))))))))))))))))))))))))))⟩

/-- definitions/SIDSTARApproach.py:120-141 -/
def SIDSTARApproach_read_flight0 : Func := ⟨[py!"self", py!"r"], [],
  (.ret (.list (.cons (.call (py!"Field") (.cons (.const (.str (py!"Record Type"))) (.cons (.sub (.name (py!"r")) (.const (.int 0))) (.cons (.const (.fn (py!"field_002"))) .nil))))
      (.cons (.call (py!"Field") (.cons (.const (.str (py!"Customer / Area Code"))) (.cons (.slice (.name (py!"r")) (some 1) (some 4)) (.cons (.const (.fn (py!"field_003"))) .nil))))
      (.cons (.call (py!"Field") (.cons (.const (.str (py!"Section Code"))) (.cons (.bin .add (.sub (.name (py!"r")) (.const (.int 4))) (.sub (.name (py!"r")) (.const (.int 12)))) (.cons (.const (.fn (py!"field_004"))) .nil))))
      (.cons (.call (py!"Field") (.cons (.const (.str (py!"Airport Identifier"))) (.cons (.slice (.name (py!"r")) (some 6) (some 10)) (.cons (.const (.fn (py!"field_006"))) .nil))))
      (.cons (.call (py!"Field") (.cons (.const (.str (py!"ICAO Code"))) (.cons (.slice (.name (py!"r")) (some 10) (some 12)) (.cons (.const (.fn (py!"field_014"))) .nil))))
      (.cons (.call (py!"Field") (.cons (.const (.str (py!"SID/STAR/Approach Identifier"))) (.cons (.slice (.name (py!"r")) (some 13) (some 19)) (.cons (.const (.fn (py!"field_009"))) .nil))))
      (.cons (.call (py!"Field") (.cons (.const (.str (py!"Route Type"))) (.cons (.sub (.name (py!"r")) (.const (.int 19))) (.cons (.const (.fn (py!"field_007"))) .nil))))
      (.cons (.call (py!"Field") (.cons (.const (.str (py!"Transition Identifier"))) (.cons (.slice (.name (py!"r")) (some 20) (some 25)) (.cons (.const (.fn (py!"field_011"))) .nil))))
      (.cons (.call (py!"Field") (.cons (.const (.str (py!"Sequence Number"))) (.cons (.slice (.name (py!"r")) (some 26) (some 29)) (.cons (.const (.fn (py!"field_012"))) .nil))))
      (.cons (.call (py!"Field") (.cons (.const (.str (py!"Fix Identifier"))) (.cons (.slice (.name (py!"r")) (some 29) (some 34)) (.cons (.const (.fn (py!"field_013"))) .nil))))
      (.cons (.call (py!"Field") (.cons (.const (.str (py!"ICAO Code (2)"))) (.cons (.slice (.name (py!"r")) (some 34) (some 36)) (.cons (.const (.fn (py!"field_014"))) .nil))))
      (.cons (.call (py!"Field") (.cons (.const (.str (py!"Section Code (2)"))) (.cons (.slice (.name (py!"r")) (some 36) (some 38)) (.cons (.const (.fn (py!"field_004"))) .nil))))
      (.cons (.call (py!"Field") (.cons (.const (.str (py!"Continuation Record No"))) (.cons (.sub (.name (py!"r")) (.const (.int 38))) (.cons (.const (.fn (py!"field_016"))) .nil))))
      (.cons (.call (py!"Field") (.cons (.const (.str (py!"Application Type"))) (.cons (.sub (.name (py!"r")) (.const (.int 39))) (.cons (.const (.fn (py!"field_091"))) .nil))))
      (.cons (.call (py!"Field") (.cons (.const (.str (py!"Start/End Indicator"))) (.cons (.sub (.name (py!"r")) (.const (.int 40))) (.cons (.const (.fn (py!"field_152"))) .nil))))
      (.cons (.call (py!"Field") (.cons (.const (.str (py!"Start/End Date"))) (.cons (.slice (.name (py!"r")) (some 41) (some 45)) (.cons (.const (.fn (py!"field_153"))) .nil))))
      (.cons (.call (py!"Field") (.cons (.const (.str (py!"Leg Distance"))) (.cons (.slice (.name (py!"r")) (some 74) (some 78)) (.cons (.const (.fn (py!"field_260"))) .nil))))
      (.cons (.call (py!"Field") (.cons (.const (.str (py!"File Record No"))) (.cons (.slice (.name (py!"r")) (some 123) (some 128)) (.cons (.const (.fn (py!"field_031"))) .nil))))
      (.cons (.call (py!"Field") (.cons (.const (.str (py!"Cycle Date"))) (.cons (.slice (.name (py!"r")) (some 128) (some 132)) (.cons (.const (.fn (py!"field_032"))) .nil))))
      .nil)))))))))))))))))))))⟩

/-- definitions/SIDSTARApproach.py:145-171 -/
def SIDSTARApproach_read_data : Func := ⟨[py!"self", py!"r"], [],
  (.ret (.list (.cons (.call (py!"Field") (.cons (.const (.str (py!"Record Type"))) (.cons (.sub (.name (py!"r")) (.const (.int 0))) (.cons (.const (.fn (py!"field_002"))) .nil))))
      (.cons (.call (py!"Field") (.cons (.const (.str (py!"Customer / Area Code"))) (.cons (.slice (.name (py!"r")) (some 1) (some 4)) (.cons (.const (.fn (py!"field_003"))) .nil))))
      (.cons (.call (py!"Field") (.cons (.const (.str (py!"Section Code"))) (.cons (.bin .add (.sub (.name (py!"r")) (.const (.int 4))) (.sub (.name (py!"r")) (.const (.int 12)))) (.cons (.const (.fn (py!"field_004"))) .nil))))
      (.cons (.call (py!"Field") (.cons (.const (.str (py!"Airport Identifier"))) (.cons (.slice (.name (py!"r")) (some 6) (some 10)) (.cons (.const (.fn (py!"field_006"))) .nil))))
      (.cons (.call (py!"Field") (.cons (.const (.str (py!"ICAO Code"))) (.cons (.slice (.name (py!"r")) (some 10) (some 12)) (.cons (.const (.fn (py!"field_014"))) .nil))))
      (.cons (.call (py!"Field") (.cons (.const (.str (py!"SID/STAR/Approach Identifier"))) (.cons (.slice (.name (py!"r")) (some 13) (some 19)) (.cons (.const (.fn (py!"field_009"))) .nil))))
      (.cons (.call (py!"Field") (.cons (.const (.str (py!"Route Type"))) (.cons (.sub (.name (py!"r")) (.const (.int 19))) (.cons (.const (.fn (py!"field_007"))) .nil))))
      (.cons (.call (py!"Field") (.cons (.const (.str (py!"Transition Identifier"))) (.cons (.slice (.name (py!"r")) (some 20) (some 25)) (.cons (.const (.fn (py!"field_011"))) .nil))))
      (.cons (.call (py!"Field") (.cons (.const (.str (py!"Sequence Number"))) (.cons (.slice (.name (py!"r")) (some 26) (some 29)) (.cons (.const (.fn (py!"field_012"))) .nil))))
      (.cons (.call (py!"Field") (.cons (.const (.str (py!"Fix Identifier"))) (.cons (.slice (.name (py!"r")) (some 29) (some 34)) (.cons (.const (.fn (py!"field_013"))) .nil))))
      (.cons (.call (py!"Field") (.cons (.const (.str (py!"ICAO Code (2)"))) (.cons (.slice (.name (py!"r")) (some 34) (some 36)) (.cons (.const (.fn (py!"field_014"))) .nil))))
      (.cons (.call (py!"Field") (.cons (.const (.str (py!"Section Code (2)"))) (.cons (.slice (.name (py!"r")) (some 36) (some 38)) (.cons (.const (.fn (py!"field_004"))) .nil))))
      (.cons (.call (py!"Field") (.cons (.const (.str (py!"Continuation Record No"))) (.cons (.sub (.name (py!"r")) (.const (.int 38))) (.cons (.const (.fn (py!"field_016"))) .nil))))
      (.cons (.call (py!"Field") (.cons (.const (.str (py!"Application Type"))) (.cons (.sub (.name (py!"r")) (.const (.int 39))) (.cons (.const (.fn (py!"field_091"))) .nil))))
      (.cons (.call (py!"Field") (.cons (.const (.str (py!"FAS Block Provided"))) (.cons (.sub (.name (py!"r")) (.const (.int 40))) (.cons (.const (.fn (py!"field_276"))) .nil))))
      (.cons (.call (py!"Field") (.cons (.const (.str (py!"FAS Block Provided Level of Service Name"))) (.cons (.slice (.name (py!"r")) (some 41) (some 51)) (.cons (.const (.fn (py!"field_275"))) .nil))))
      (.cons (.call (py!"Field") (.cons (.const (.str (py!"LNAV/VNAV Authorized for SBAS"))) (.cons (.sub (.name (py!"r")) (.const (.int 51))) (.cons (.const (.fn (py!"field_276"))) .nil))))
      (.cons (.call (py!"Field") (.cons (.const (.str (py!"LNAV/VNAV Level of Service Name"))) (.cons (.slice (.name (py!"r")) (some 52) (some 62)) (.cons (.const (.fn (py!"field_275"))) .nil))))
      (.cons (.call (py!"Field") (.cons (.const (.str (py!"LNAV Authorized for SBAS"))) (.cons (.sub (.name (py!"r")) (.const (.int 62))) (.cons (.const (.fn (py!"field_276"))) .nil))))
      (.cons (.call (py!"Field") (.cons (.const (.str (py!"LNAV Level of Service Name"))) (.cons (.slice (.name (py!"r")) (some 63) (some 73)) (.cons (.const (.fn (py!"field_275"))) .nil))))
      (.cons (.call (py!"Field") (.cons (.const (.str (py!"Apch Route Qualifier 1"))) (.cons (.sub (.name (py!"r")) (.const (.int 118))) (.cons (.const (.fn (py!"field_007"))) .nil))))
      (.cons (.call (py!"Field") (.cons (.const (.str (py!"Apch Route Qualifier 2"))) (.cons (.sub (.name (py!"r")) (.const (.int 119))) (.cons (.const (.fn (py!"field_007"))) .nil))))
      (.cons (.call (py!"Field") (.cons (.const (.str (py!"File Record No"))) (.cons (.slice (.name (py!"r")) (some 123) (some 128)) (.cons (.const (.fn (py!"field_031"))) .nil))))
      (.cons (.call (py!"Field") (.cons (.const (.str (py!"Cycle Date"))) (.cons (.slice (.name (py!"r")) (some 128) (some 132)) (.cons (.const (.fn (py!"field_032"))) .nil))))
      .nil))))))))))))))))))))))))))⟩

/-- definitions/SIDSTARApproach.py:6-171, class `SIDSTARApproach` -/
def SIDSTARApproach : Class :=
  ⟨[(py!"cont_idx", (.int 38)), (py!"app_idx", (.int 39)), (py!"continuations", (.list [(.str (py!"E")), (.str (py!"P")), (.str (py!"W"))])), (py!"name", (.str (py!"SID/STAR/Approach")))],
   [(py!"application_type", SIDSTARApproach_application_type),
    (py!"read", SIDSTARApproach_read),
    (py!"read_primary", SIDSTARApproach_read_primary),
    (py!"read_ext", SIDSTARApproach_read_ext),
    (py!"read_flight0", SIDSTARApproach_read_flight0),
    (py!"read_data", SIDSTARApproach_read_data)]⟩

/-- definitions/TAA.py:15-16 -/
def TAA_application_type : Func := ⟨[py!"self", py!"line"], [],
  (.ret (.sub (.name (py!"line")) (.attr (.name (py!"self")) (py!"app_idx"))))⟩

/-- definitions/TAA.py:18-23 -/
def TAA_init : Func := ⟨[py!"self", py!"heliport"], [(py!"heliport", (.bool false))],
  (.seq (.setAttr (py!"self") (py!"heliport") (.name (py!"heliport")))
  (.ite (.cmp .is (.attr (.name (py!"self")) (py!"heliport")) (.const (.bool false)))
    (.setAttr (py!"self") (py!"id_name") (.const (.str (py!"Airport Identifier"))))
    (.setAttr (py!"self") (py!"id_name") (.const (.str (py!"Heliport Identifier"))))))⟩

/-- definitions/TAA.py:25-35 -/
def TAA_read : Func := ⟨[py!"self", py!"line", py!"primary"], [],
  (.seq (.ite (.name (py!"primary"))
    (.ret (.invoke (.name (py!"self")) (py!"read_primary") (.cons (.name (py!"line")) .nil)))
    .pass)
  (.seq (.assign (py!"application") (.sub (.name (py!"line")) (.attr (.name (py!"self")) (py!"app_idx"))))
  (.matchOn (.name (py!"application"))
    (.case (.str (py!"A")) (.ret (.invoke (.name (py!"self")) (py!"read_cont") (.cons (.name (py!"line")) .nil)))
    (.ret (.list .nil))))))⟩

/-- definitions/TAA.py:38-73 -/
def TAA_read_primary : Func := ⟨[py!"self", py!"r"], [],
  (.ret (.list (.cons (.call (py!"Field") (.cons (.const (.str (py!"Record Type"))) (.cons (.sub (.name (py!"r")) (.const (.int 0))) (.cons (.const (.fn (py!"field_002"))) .nil))))
      (.cons (.call (py!"Field") (.cons (.const (.str (py!"Customer / Area Code"))) (.cons (.slice (.name (py!"r")) (some 1) (some 4)) (.cons (.const (.fn (py!"field_003"))) .nil))))
      (.cons (.call (py!"Field") (.cons (.const (.str (py!"Section Code"))) (.cons (.bin .add (.sub (.name (py!"r")) (.const (.int 4))) (.sub (.name (py!"r")) (.const (.int 12)))) (.cons (.const (.fn (py!"field_004"))) .nil))))
      (.cons (.call (py!"Field") (.cons (.attr (.name (py!"self")) (py!"id_name")) (.cons (.slice (.name (py!"r")) (some 6) (some 10)) (.cons (.const (.fn (py!"field_006"))) .nil))))
      (.cons (.call (py!"Field") (.cons (.const (.str (py!"ICAO Code"))) (.cons (.slice (.name (py!"r")) (some 10) (some 12)) (.cons (.const (.fn (py!"field_014"))) .nil))))
      (.cons (.call (py!"Field") (.cons (.const (.str (py!"Approach Identifier"))) (.cons (.slice (.name (py!"r")) (some 13) (some 19)) (.cons (.const (.fn (py!"field_010"))) .nil))))
      (.cons (.call (py!"Field") (.cons (.const (.str (py!"TAA Waypoint"))) (.cons (.slice (.name (py!"r")) (some 19) (some 24)) (.cons (.const (.fn (py!"field_273"))) .nil))))
      (.cons (.call (py!"Field") (.cons (.const (.str (py!"TAA Procedure Turn"))) (.cons (.slice (.name (py!"r")) (some 20) (some 24)) (.cons (.const (.fn (py!"field_271"))) .nil))))
      (.cons (.call (py!"Field") (.cons (.const (.str (py!"ICAO Code (2)"))) (.cons (.slice (.name (py!"r")) (some 24) (some 26)) (.cons (.const (.fn (py!"field_014"))) .nil))))
      (.cons (.call (py!"Field") (.cons (.const (.str (py!"Section Code (2)"))) (.cons (.slice (.name (py!"r")) (some 26) (some 28)) (.cons (.const (.fn (py!"field_004"))) .nil))))
      (.cons (.call (py!"Field") (.cons (.const (.str (py!"TAA Fix Position Indicator"))) (.cons (.sub (.name (py!"r")) (.const (.int 28))) (.cons (.const (.fn (py!"field_272"))) .nil))))
      (.cons (.call (py!"Field") (.cons (.const (.str (py!"Continuation Record No"))) (.cons (.sub (.name (py!"r")) (.const (.int 29))) (.cons (.const (.fn (py!"field_016"))) .nil))))
      (.cons (.call (py!"Field") (.cons (.const (.str (py!"Mag/True Indicator"))) (.cons (.sub (.name (py!"r")) (.const (.int 40))) (.cons (.const (.fn (py!"field_165"))) .nil))))
      (.cons (.call (py!"Field") (.cons (.const (.str (py!"Sector Radius"))) (.cons (.slice (.name (py!"r")) (some 41) (some 45)) (.cons (.const (.fn (py!"field_274"))) .nil))))
      (.cons (.call (py!"Field") (.cons (.const (.str (py!"Sector Bearing"))) (.cons (.slice (.name (py!"r")) (some 45) (some 51)) (.cons (.const (.fn (py!"field_146"))) .nil))))
      (.cons (.call (py!"Field") (.cons (.const (.str (py!"Sector Minimum Altitude"))) (.cons (.slice (.name (py!"r")) (some 51) (some 54)) (.cons (.const (.fn (py!"field_147"))) .nil))))
      (.cons (.call (py!"Field") (.cons (.const (.str (py!"Sector Radius (2)"))) (.cons (.slice (.name (py!"r")) (some 54) (some 58)) (.cons (.const (.fn (py!"field_274"))) .nil))))
      (.cons (.call (py!"Field") (.cons (.const (.str (py!"Sector Bearing (2)"))) (.cons (.slice (.name (py!"r")) (some 58) (some 64)) (.cons (.const (.fn (py!"field_146"))) .nil))))
      (.cons (.call (py!"Field") (.cons (.const (.str (py!"Sector Minimum Altitude (2)"))) (.cons (.slice (.name (py!"r")) (some 64) (some 67)) (.cons (.const (.fn (py!"field_147"))) .nil))))
      (.cons (.call (py!"Field") (.cons (.const (.str (py!"Sector Radius (3)"))) (.cons (.slice (.name (py!"r")) (some 67) (some 71)) (.cons (.const (.fn (py!"field_274"))) .nil))))
      (.cons (.call (py!"Field") (.cons (.const (.str (py!"Sector Bearing (3)"))) (.cons (.slice (.name (py!"r")) (some 71) (some 77)) (.cons (.const (.fn (py!"field_146"))) .nil))))
      (.cons (.call (py!"Field") (.cons (.const (.str (py!"Sector Minimum Altitude (3)"))) (.cons (.slice (.name (py!"r")) (some 77) (some 80)) (.cons (.const (.fn (py!"field_147"))) .nil))))
      (.cons (.call (py!"Field") (.cons (.const (.str (py!"Sector Radius (4)"))) (.cons (.slice (.name (py!"r")) (some 80) (some 84)) (.cons (.const (.fn (py!"field_274"))) .nil))))
      (.cons (.call (py!"Field") (.cons (.const (.str (py!"Sector Bearing (4)"))) (.cons (.slice (.name (py!"r")) (some 84) (some 90)) (.cons (.const (.fn (py!"field_146"))) .nil))))
      (.cons (.call (py!"Field") (.cons (.const (.str (py!"Sector Minimum Altitude (4)"))) (.cons (.slice (.name (py!"r")) (some 90) (some 93)) (.cons (.const (.fn (py!"field_147"))) .nil))))
      (.cons (.call (py!"Field") (.cons (.const (.str (py!"Sector Radius (5)"))) (.cons (.slice (.name (py!"r")) (some 93) (some 97)) (.cons (.const (.fn (py!"field_274"))) .nil))))
      (.cons (.call (py!"Field") (.cons (.const (.str (py!"Sector Bearing (5)"))) (.cons (.slice (.name (py!"r")) (some 97) (some 103)) (.cons (.const (.fn (py!"field_146"))) .nil))))
      (.cons (.call (py!"Field") (.cons (.const (.str (py!"Sector Minimum Altitude (5)"))) (.cons (.slice (.name (py!"r")) (some 103) (some 106)) (.cons (.const (.fn (py!"field_147"))) .nil))))
      (.cons (.call (py!"Field") (.cons (.const (.str (py!"Sector Radius (6)"))) (.cons (.slice (.name (py!"r")) (some 106) (some 110)) (.cons (.const (.fn (py!"field_274"))) .nil))))
      (.cons (.call (py!"Field") (.cons (.const (.str (py!"Sector Bearing (6)"))) (.cons (.slice (.name (py!"r")) (some 110) (some 116)) (.cons (.const (.fn (py!"field_146"))) .nil))))
      (.cons (.call (py!"Field") (.cons (.const (.str (py!"Sector Minimum Altitude (6)"))) (.cons (.slice (.name (py!"r")) (some 116) (some 119)) (.cons (.const (.fn (py!"field_147"))) .nil))))
      (.cons (.call (py!"Field") (.cons (.const (.str (py!"File Record No"))) (.cons (.slice (.name (py!"r")) (some 123) (some 128)) (.cons (.const (.fn (py!"field_031"))) .nil))))
      (.cons (.call (py!"Field") (.cons (.const (.str (py!"Cycle Date"))) (.cons (.slice (.name (py!"r")) (some 128) (some 132)) (.cons (.const (.fn (py!"field_032"))) .nil))))
      .nil)))))))))))))))))))))))))))))))))))⟩

/-- definitions/TAA.py:76-94 -/
def TAA_read_cont : Func := ⟨[py!"self", py!"r"], [],
  (.ret (.list (.cons (.call (py!"Field") (.cons (.const (.str (py!"Record Type"))) (.cons (.sub (.name (py!"r")) (.const (.int 0))) (.cons (.const (.fn (py!"field_002"))) .nil))))
      (.cons (.call (py!"Field") (.cons (.const (.str (py!"Customer / Area Code"))) (.cons (.slice (.name (py!"r")) (some 1) (some 4)) (.cons (.const (.fn (py!"field_003"))) .nil))))
      (.cons (.call (py!"Field") (.cons (.const (.str (py!"Section Code"))) (.cons (.bin .add (.sub (.name (py!"r")) (.const (.int 4))) (.sub (.name (py!"r")) (.const (.int 12)))) (.cons (.const (.fn (py!"field_004"))) .nil))))
      (.cons (.call (py!"Field") (.cons (.attr (.name (py!"self")) (py!"id_name")) (.cons (.slice (.name (py!"r")) (some 6) (some 10)) (.cons (.const (.fn (py!"field_006"))) .nil))))
      (.cons (.call (py!"Field") (.cons (.const (.str (py!"ICAO Code"))) (.cons (.slice (.name (py!"r")) (some 10) (some 12)) (.cons (.const (.fn (py!"field_014"))) .nil))))
      (.cons (.call (py!"Field") (.cons (.const (.str (py!"Approach Identifier"))) (.cons (.slice (.name (py!"r")) (some 13) (some 19)) (.cons (.const (.fn (py!"field_010"))) .nil))))
      (.cons (.call (py!"Field") (.cons (.const (.str (py!"TAA Sector Identifier"))) (.cons (.sub (.name (py!"r")) (.const (.int 19))) (.cons (.const (.fn (py!"field_272"))) .nil))))
      (.cons (.call (py!"Field") (.cons (.const (.str (py!"TAA Procedure Turn"))) (.cons (.slice (.name (py!"r")) (some 20) (some 24)) (.cons (.const (.fn (py!"field_271"))) .nil))))
      (.cons (.call (py!"Field") (.cons (.const (.str (py!"TAA IAF Waypoint"))) (.cons (.slice (.name (py!"r")) (some 29) (some 34)) (.cons (.const (.fn (py!"field_273"))) .nil))))
      (.cons (.call (py!"Field") (.cons (.const (.str (py!"ICAO Code (2)"))) (.cons (.slice (.name (py!"r")) (some 10) (some 12)) (.cons (.const (.fn (py!"field_014"))) .nil))))
      (.cons (.call (py!"Field") (.cons (.const (.str (py!"Section Code (2)"))) (.cons (.slice (.name (py!"r")) (some 36) (some 38)) (.cons (.const (.fn (py!"field_004"))) .nil))))
      (.cons (.call (py!"Field") (.cons (.const (.str (py!"Continuation Record No"))) (.cons (.sub (.name (py!"r")) (.const (.int 38))) (.cons (.const (.fn (py!"field_016"))) .nil))))
      (.cons (.call (py!"Field") (.cons (.const (.str (py!"Application Notes"))) (.cons (.sub (.name (py!"r")) (.const (.int 39))) (.cons (.const (.fn (py!"field_091"))) .nil))))
      (.cons (.call (py!"Field") (.cons (.const (.str (py!"Notes"))) (.cons (.slice (.name (py!"r")) (some 50) (some 109)) (.cons (.const (.fn (py!"field_061"))) .nil))))
      (.cons (.call (py!"Field") (.cons (.const (.str (py!"File Record No"))) (.cons (.slice (.name (py!"r")) (some 123) (some 128)) (.cons (.const (.fn (py!"field_031"))) .nil))))
      (.cons (.call (py!"Field") (.cons (.const (.str (py!"Cycle Date"))) (.cons (.slice (.name (py!"r")) (some 128) (some 132)) (.cons (.const (.fn (py!"field_032"))) .nil))))
      .nil))))))))))))))))))⟩

/-- definitions/TAA.py:6-94, class `TAA` -/
def TAA : Class :=
  ⟨[(py!"cont_idx", (.int 29)), (py!"app_idx", (.int 30)), (py!"continuations", (.list [(.str (py!"A"))])), (py!"name", (.str (py!"TAA")))],
   [(py!"application_type", TAA_application_type),
    (py!"__init__", TAA_init),
    (py!"read", TAA_read),
    (py!"read_primary", TAA_read_primary),
    (py!"read_cont", TAA_read_cont)]⟩

/-- definitions/MSA.py:12-13 -/
def MSA_application_type : Func := ⟨[py!"self", py!"line"], [],
  (.ret (.sub (.name (py!"line")) (.attr (.name (py!"self")) (py!"app_idx"))))⟩

/-- definitions/MSA.py:15-20 -/
def MSA_init : Func := ⟨[py!"self", py!"heliport"], [],
  (.seq (.setAttr (py!"self") (py!"heliport") (.name (py!"heliport")))
  (.ite (.cmp .is (.attr (.name (py!"self")) (py!"heliport")) (.const (.bool false)))
    (.setAttr (py!"self") (py!"id_name") (.const (.str (py!"Airport Identifier"))))
    (.setAttr (py!"self") (py!"id_name") (.const (.str (py!"Heliport Identifier"))))))⟩

/-- definitions/MSA.py:22-32 -/
def MSA_read : Func := ⟨[py!"self", py!"line", py!"primary"], [],
  (.seq (.ite (.name (py!"primary"))
    (.ret (.invoke (.name (py!"self")) (py!"read_primary") (.cons (.name (py!"line")) .nil)))
    .pass)
  (.seq (.assign (py!"application") (.sub (.name (py!"line")) (.attr (.name (py!"self")) (py!"app_idx"))))
  (.matchOn (.name (py!"application"))
    (.case (.str (py!"A")) (.ret (.invoke (.name (py!"self")) (py!"read_cont") (.cons (.name (py!"line")) .nil)))
    (.ret (.list .nil))))))⟩

/-- definitions/MSA.py:34-70 -/
def MSA_read_primary : Func := ⟨[py!"self", py!"r"], [],
  (.ret (.list (.cons (.call (py!"Field") (.cons (.const (.str (py!"Record Type"))) (.cons (.sub (.name (py!"r")) (.const (.int 0))) (.cons (.const (.fn (py!"field_002"))) .nil))))
      (.cons (.call (py!"Field") (.cons (.const (.str (py!"Customer / Area Code"))) (.cons (.slice (.name (py!"r")) (some 1) (some 4)) (.cons (.const (.fn (py!"field_003"))) .nil))))
      (.cons (.call (py!"Field") (.cons (.const (.str (py!"Section Code"))) (.cons (.bin .add (.sub (.name (py!"r")) (.const (.int 4))) (.sub (.name (py!"r")) (.const (.int 12)))) (.cons (.const (.fn (py!"field_004"))) .nil))))
      (.cons (.call (py!"Field") (.cons (.attr (.name (py!"self")) (py!"id_name")) (.cons (.slice (.name (py!"r")) (some 6) (some 10)) (.cons (.const (.fn (py!"field_006"))) .nil))))
      (.cons (.call (py!"Field") (.cons (.const (.str (py!"ICAO Code"))) (.cons (.slice (.name (py!"r")) (some 10) (some 12)) (.cons (.const (.fn (py!"field_014"))) .nil))))
      (.cons (.call (py!"Field") (.cons (.const (.str (py!"MSA Center"))) (.cons (.slice (.name (py!"r")) (some 13) (some 17)) (.cons (.const (.fn (py!"field_144"))) .nil))))
      (.cons (.call (py!"Field") (.cons (.const (.str (py!"ICAO Code (2)"))) (.cons (.slice (.name (py!"r")) (some 18) (some 20)) (.cons (.const (.fn (py!"field_014"))) .nil))))
      (.cons (.call (py!"Field") (.cons (.const (.str (py!"Section Code (2)"))) (.cons (.slice (.name (py!"r")) (some 20) (some 22)) (.cons (.const (.fn (py!"field_004"))) .nil))))
      (.cons (.call (py!"Field") (.cons (.const (.str (py!"Multiple Code"))) (.cons (.sub (.name (py!"r")) (.const (.int 22))) (.cons (.const (.fn (py!"field_130"))) .nil))))
      (.cons (.call (py!"Field") (.cons (.const (.str (py!"Continuation Record No"))) (.cons (.sub (.name (py!"r")) (.const (.int 38))) (.cons (.const (.fn (py!"field_016"))) .nil))))
      (.cons (.call (py!"Field") (.cons (.const (.str (py!"Sector Bearing"))) (.cons (.slice (.name (py!"r")) (some 42) (some 48)) (.cons (.const (.fn (py!"field_146"))) .nil))))
      (.cons (.call (py!"Field") (.cons (.const (.str (py!"Sector Altitude"))) (.cons (.slice (.name (py!"r")) (some 48) (some 51)) (.cons (.const (.fn (py!"field_147"))) .nil))))
      (.cons (.call (py!"Field") (.cons (.const (.str (py!"Sector Radius"))) (.cons (.slice (.name (py!"r")) (some 51) (some 53)) (.cons (.const (.fn (py!"field_145"))) .nil))))
      (.cons (.call (py!"Field") (.cons (.const (.str (py!"Sector Bearing (2)"))) (.cons (.slice (.name (py!"r")) (some 53) (some 59)) (.cons (.const (.fn (py!"field_146"))) .nil))))
      (.cons (.call (py!"Field") (.cons (.const (.str (py!"Sector Altitude (2)"))) (.cons (.slice (.name (py!"r")) (some 59) (some 62)) (.cons (.const (.fn (py!"field_147"))) .nil))))
      (.cons (.call (py!"Field") (.cons (.const (.str (py!"Sector Radius (2)"))) (.cons (.slice (.name (py!"r")) (some 62) (some 64)) (.cons (.const (.fn (py!"field_145"))) .nil))))
      (.cons (.call (py!"Field") (.cons (.const (.str (py!"Sector Bearing (3)"))) (.cons (.slice (.name (py!"r")) (some 64) (some 70)) (.cons (.const (.fn (py!"field_146"))) .nil))))
      (.cons (.call (py!"Field") (.cons (.const (.str (py!"Sector Altitude (3)"))) (.cons (.slice (.name (py!"r")) (some 70) (some 73)) (.cons (.const (.fn (py!"field_147"))) .nil))))
      (.cons (.call (py!"Field") (.cons (.const (.str (py!"Sector Radius (3)"))) (.cons (.slice (.name (py!"r")) (some 73) (some 75)) (.cons (.const (.fn (py!"field_145"))) .nil))))
      (.cons (.call (py!"Field") (.cons (.const (.str (py!"Sector Bearing (4)"))) (.cons (.slice (.name (py!"r")) (some 75) (some 81)) (.cons (.const (.fn (py!"field_146"))) .nil))))
      (.cons (.call (py!"Field") (.cons (.const (.str (py!"Sector Altitude (4)"))) (.cons (.slice (.name (py!"r")) (some 81) (some 84)) (.cons (.const (.fn (py!"field_147"))) .nil))))
      (.cons (.call (py!"Field") (.cons (.const (.str (py!"Sector Radius (4)"))) (.cons (.slice (.name (py!"r")) (some 84) (some 86)) (.cons (.const (.fn (py!"field_145"))) .nil))))
      (.cons (.call (py!"Field") (.cons (.const (.str (py!"Sector Bearing (5)"))) (.cons (.slice (.name (py!"r")) (some 86) (some 92)) (.cons (.const (.fn (py!"field_146"))) .nil))))
      (.cons (.call (py!"Field") (.cons (.const (.str (py!"Sector Altitude (5)"))) (.cons (.slice (.name (py!"r")) (some 92) (some 95)) (.cons (.const (.fn (py!"field_147"))) .nil))))
      (.cons (.call (py!"Field") (.cons (.const (.str (py!"Sector Radius (5)"))) (.cons (.slice (.name (py!"r")) (some 95) (some 97)) (.cons (.const (.fn (py!"field_145"))) .nil))))
      (.cons (.call (py!"Field") (.cons (.const (.str (py!"Sector Bearing (6)"))) (.cons (.slice (.name (py!"r")) (some 97) (some 103)) (.cons (.const (.fn (py!"field_146"))) .nil))))
      (.cons (.call (py!"Field") (.cons (.const (.str (py!"Sector Altitude (6)"))) (.cons (.slice (.name (py!"r")) (some 103) (some 106)) (.cons (.const (.fn (py!"field_147"))) .nil))))
      (.cons (.call (py!"Field") (.cons (.const (.str (py!"Sector Radius (6)"))) (.cons (.slice (.name (py!"r")) (some 106) (some 108)) (.cons (.const (.fn (py!"field_145"))) .nil))))
      (.cons (.call (py!"Field") (.cons (.const (.str (py!"Sector Bearing (7)"))) (.cons (.slice (.name (py!"r")) (some 108) (some 114)) (.cons (.const (.fn (py!"field_146"))) .nil))))
      (.cons (.call (py!"Field") (.cons (.const (.str (py!"Sector Altitude (7)"))) (.cons (.slice (.name (py!"r")) (some 114) (some 117)) (.cons (.const (.fn (py!"field_147"))) .nil))))
      (.cons (.call (py!"Field") (.cons (.const (.str (py!"Sector Radius (7)"))) (.cons (.slice (.name (py!"r")) (some 117) (some 119)) (.cons (.const (.fn (py!"field_145"))) .nil))))
      (.cons (.call (py!"Field") (.cons (.const (.str (py!"Magnetic/True Bearing"))) (.cons (.sub (.name (py!"r")) (.const (.int 119))) (.cons (.const (.fn (py!"field_165"))) .nil))))
      (.cons (.call (py!"Field") (.cons (.const (.str (py!"File Record No"))) (.cons (.slice (.name (py!"r")) (some 123) (some 128)) (.cons (.const (.fn (py!"field_031"))) .nil))))
      (.cons (.call (py!"Field") (.cons (.const (.str (py!"Cycle Date"))) (.cons (.slice (.name (py!"r")) (some 128) (some 132)) (.cons (.const (.fn (py!"field_032"))) .nil))))
      .nil))))))))))))))))))))))))))))))))))))⟩

/-- definitions/MSA.py:72-88 -/
def MSA_read_cont : Func := ⟨[py!"self", py!"r"], [],
  (.ret (.list (.cons (.call (py!"Field") (.cons (.const (.str (py!"Record Type"))) (.cons (.sub (.name (py!"r")) (.const (.int 0))) (.cons (.const (.fn (py!"field_002"))) .nil))))
      (.cons (.call (py!"Field") (.cons (.const (.str (py!"Customer / Area Code"))) (.cons (.slice (.name (py!"r")) (some 1) (some 4)) (.cons (.const (.fn (py!"field_003"))) .nil))))
      (.cons (.call (py!"Field") (.cons (.const (.str (py!"Section Code"))) (.cons (.bin .add (.sub (.name (py!"r")) (.const (.int 4))) (.sub (.name (py!"r")) (.const (.int 12)))) (.cons (.const (.fn (py!"field_004"))) .nil))))
      (.cons (.call (py!"Field") (.cons (.attr (.name (py!"self")) (py!"id_name")) (.cons (.slice (.name (py!"r")) (some 6) (some 10)) (.cons (.const (.fn (py!"field_006"))) .nil))))
      (.cons (.call (py!"Field") (.cons (.const (.str (py!"ICAO Code"))) (.cons (.slice (.name (py!"r")) (some 10) (some 12)) (.cons (.const (.fn (py!"field_014"))) .nil))))
      (.cons (.call (py!"Field") (.cons (.const (.str (py!"MSA Center"))) (.cons (.slice (.name (py!"r")) (some 13) (some 17)) (.cons (.const (.fn (py!"field_144"))) .nil))))
      (.cons (.call (py!"Field") (.cons (.const (.str (py!"ICAO Code (2)"))) (.cons (.slice (.name (py!"r")) (some 18) (some 20)) (.cons (.const (.fn (py!"field_014"))) .nil))))
      (.cons (.call (py!"Field") (.cons (.const (.str (py!"Section Code (2)"))) (.cons (.slice (.name (py!"r")) (some 20) (some 22)) (.cons (.const (.fn (py!"field_004"))) .nil))))
      (.cons (.call (py!"Field") (.cons (.const (.str (py!"Multiple Code"))) (.cons (.sub (.name (py!"r")) (.const (.int 22))) (.cons (.const (.fn (py!"field_130"))) .nil))))
      (.cons (.call (py!"Field") (.cons (.const (.str (py!"Continuation Record No"))) (.cons (.sub (.name (py!"r")) (.const (.int 38))) (.cons (.const (.fn (py!"field_016"))) .nil))))
      (.cons (.call (py!"Field") (.cons (.const (.str (py!"Application Type"))) (.cons (.sub (.name (py!"r")) (.const (.int 39))) (.cons (.const (.fn (py!"field_091"))) .nil))))
      (.cons (.call (py!"Field") (.cons (.const (.str (py!"Notes"))) (.cons (.slice (.name (py!"r")) (some 40) (some 109)) (.cons (.const (.fn (py!"field_061"))) .nil))))
      (.cons (.call (py!"Field") (.cons (.const (.str (py!"File Record No"))) (.cons (.slice (.name (py!"r")) (some 123) (some 128)) (.cons (.const (.fn (py!"field_031"))) .nil))))
      (.cons (.call (py!"Field") (.cons (.const (.str (py!"Cycle Date"))) (.cons (.slice (.name (py!"r")) (some 128) (some 132)) (.cons (.const (.fn (py!"field_032"))) .nil))))
      .nil))))))))))))))))⟩

/-- definitions/MSA.py:5-88, class `MSA` -/
def MSA : Class :=
  ⟨[(py!"cont_idx", (.int 38)), (py!"app_idx", (.int 39)), (py!"continuations", (.list [(.str (py!"A"))])), (py!"name", (.str (py!"MSA")))],
   [(py!"application_type", MSA_application_type),
    (py!"__init__", MSA_init),
    (py!"read", MSA_read),
    (py!"read_primary", MSA_read_primary),
    (py!"read_cont", MSA_read_cont)]⟩

/-- definitions/HeliportCommunications.py:13-14 -/
def HeliportCommunications_application_type : Func := ⟨[py!"self", py!"line"], [],
  (.ret (.sub (.name (py!"line")) (.attr (.name (py!"self")) (py!"app_idx"))))⟩

/-- definitions/HeliportCommunications.py:16-28 -/
def HeliportCommunications_read : Func := ⟨[py!"self", py!"line", py!"primary"], [],
  (.seq (.ite (.name (py!"primary"))
    (.ret (.invoke (.name (py!"self")) (py!"read_primary") (.cons (.name (py!"line")) .nil)))
    .pass)
  (.seq (.assign (py!"application") (.sub (.name (py!"line")) (.attr (.name (py!"self")) (py!"app_idx"))))
  (.matchOn (.name (py!"application"))
    (.case (.str (py!"A")) (.ret (.invoke (.name (py!"self")) (py!"read_cont") (.cons (.name (py!"line")) .nil)))
    (.case (.str (py!"T")) (.ret (.invoke (.name (py!"self")) (py!"read_timeop") (.cons (.name (py!"line")) .nil)))
    (.raise (.cons (.const (.str (py!"Unknown Application Type"))) .nil)))))))⟩

/-- definitions/HeliportCommunications.py:31-67 -/
def HeliportCommunications_read_primary : Func := ⟨[py!"self", py!"r"], [],
  (.ret (.list (.cons (.call (py!"Field") (.cons (.const (.str (py!"Record Type"))) (.cons (.sub (.name (py!"r")) (.const (.int 0))) (.cons (.const (.fn (py!"field_002"))) .nil))))
      (.cons (.call (py!"Field") (.cons (.const (.str (py!"Customer / Area Code"))) (.cons (.slice (.name (py!"r")) (some 1) (some 4)) (.cons (.const (.fn (py!"field_003"))) .nil))))
      (.cons (.call (py!"Field") (.cons (.const (.str (py!"Section Code"))) (.cons (.bin .add (.sub (.name (py!"r")) (.const (.int 4))) (.sub (.name (py!"r")) (.const (.int 12)))) (.cons (.const (.fn (py!"field_004"))) .nil))))
      (.cons (.call (py!"Field") (.cons (.const (.str (py!"Heliport Identifier"))) (.cons (.slice (.name (py!"r")) (some 6) (some 10)) (.cons (.const (.fn (py!"field_006"))) .nil))))
      (.cons (.call (py!"Field") (.cons (.const (.str (py!"ICAO Code"))) (.cons (.slice (.name (py!"r")) (some 10) (some 12)) (.cons (.const (.fn (py!"field_014"))) .nil))))
      (.cons (.call (py!"Field") (.cons (.const (.str (py!"Communications Type"))) (.cons (.slice (.name (py!"r")) (some 13) (some 16)) (.cons (.const (.fn (py!"field_101"))) .nil))))
      (.cons (.call (py!"Field") (.cons (.const (.str (py!"Communications Freq"))) (.cons (.slice (.name (py!"r")) (some 16) (some 23)) (.cons (.const (.fn (py!"field_103"))) .nil))))
      (.cons (.call (py!"Field") (.cons (.const (.str (py!"Guard/Transmit"))) (.cons (.sub (.name (py!"r")) (.const (.int 23))) (.cons (.const (.fn (py!"field_182"))) .nil))))
      (.cons (.call (py!"Field") (.cons (.const (.str (py!"Frequency Units"))) (.cons (.sub (.name (py!"r")) (.const (.int 24))) (.cons (.const (.fn (py!"field_104"))) .nil))))
      (.cons (.call (py!"Field") (.cons (.const (.str (py!"Continuation Record No"))) (.cons (.sub (.name (py!"r")) (.const (.int 25))) (.cons (.const (.fn (py!"field_016"))) .nil))))
      (.cons (.call (py!"Field") (.cons (.const (.str (py!"Service Indicator"))) (.cons (.slice (.name (py!"r")) (some 26) (some 29)) (.cons (.const (.fn (py!"field_106"))) .nil))))
      (.cons (.call (py!"Field") (.cons (.const (.str (py!"Radar Service"))) (.cons (.sub (.name (py!"r")) (.const (.int 29))) (.cons (.const (.fn (py!"field_102"))) .nil))))
      (.cons (.call (py!"Field") (.cons (.const (.str (py!"Modulation"))) (.cons (.sub (.name (py!"r")) (.const (.int 30))) (.cons (.const (.fn (py!"field_198"))) .nil))))
      (.cons (.call (py!"Field") (.cons (.const (.str (py!"Signal Emission"))) (.cons (.sub (.name (py!"r")) (.const (.int 31))) (.cons (.const (.fn (py!"field_199"))) .nil))))
      (.cons (.call (py!"Field") (.cons (.const (.str (py!"Latitude"))) (.cons (.slice (.name (py!"r")) (some 32) (some 41)) (.cons (.const (.fn (py!"field_036"))) .nil))))
      (.cons (.call (py!"Field") (.cons (.const (.str (py!"Longitude"))) (.cons (.slice (.name (py!"r")) (some 41) (some 51)) (.cons (.const (.fn (py!"field_036"))) .nil))))
      (.cons (.call (py!"Field") (.cons (.const (.str (py!"Magnetic Variation"))) (.cons (.slice (.name (py!"r")) (some 51) (some 56)) (.cons (.const (.fn (py!"field_039"))) .nil))))
      (.cons (.call (py!"Field") (.cons (.const (.str (py!"Facility Elevation"))) (.cons (.slice (.name (py!"r")) (some 56) (some 61)) (.cons (.const (.fn (py!"field_092"))) .nil))))
      (.cons (.call (py!"Field") (.cons (.const (.str (py!"H24 Indicator"))) (.cons (.sub (.name (py!"r")) (.const (.int 61))) (.cons (.const (.fn (py!"field_181"))) .nil))))
      (.cons (.call (py!"Field") (.cons (.const (.str (py!"Sectorization"))) (.cons (.slice (.name (py!"r")) (some 62) (some 68)) (.cons (.const (.fn (py!"field_183"))) .nil))))
      (.cons (.call (py!"Field") (.cons (.const (.str (py!"Altitude Description"))) (.cons (.sub (.name (py!"r")) (.const (.int 68))) (.cons (.const (.fn (py!"field_029"))) .nil))))
      (.cons (.call (py!"Field") (.cons (.const (.str (py!"Communication Altitude"))) (.cons (.slice (.name (py!"r")) (some 69) (some 74)) (.cons (.const (.fn (py!"field_184"))) .nil))))
      (.cons (.call (py!"Field") (.cons (.const (.str (py!"Communication Altitude (2)"))) (.cons (.slice (.name (py!"r")) (some 74) (some 79)) (.cons (.const (.fn (py!"field_184"))) .nil))))
      (.cons (.call (py!"Field") (.cons (.const (.str (py!"Sector Facility"))) (.cons (.slice (.name (py!"r")) (some 79) (some 83)) (.cons (.const (.fn (py!"field_185"))) .nil))))
      (.cons (.call (py!"Field") (.cons (.const (.str (py!"ICAO Code (2)"))) (.cons (.slice (.name (py!"r")) (some 83) (some 85)) (.cons (.const (.fn (py!"field_014"))) .nil))))
      (.cons (.call (py!"Field") (.cons (.const (.str (py!"Section Code (2)"))) (.cons (.slice (.name (py!"r")) (some 85) (some 87)) (.cons (.const (.fn (py!"field_004"))) .nil))))
      (.cons (.call (py!"Field") (.cons (.const (.str (py!"Distance Description"))) (.cons (.sub (.name (py!"r")) (.const (.int 87))) (.cons (.const (.fn (py!"field_187"))) .nil))))
      (.cons (.call (py!"Field") (.cons (.const (.str (py!"Communications Distance"))) (.cons (.slice (.name (py!"r")) (some 88) (some 90)) (.cons (.const (.fn (py!"field_188"))) .nil))))
      (.cons (.call (py!"Field") (.cons (.const (.str (py!"Remote Facility"))) (.cons (.slice (.name (py!"r")) (some 90) (some 94)) (.cons (.const (.fn (py!"field_200"))) .nil))))
      (.cons (.call (py!"Field") (.cons (.const (.str (py!"ICAO Code (3)"))) (.cons (.slice (.name (py!"r")) (some 94) (some 96)) (.cons (.const (.fn (py!"field_014"))) .nil))))
      (.cons (.call (py!"Field") (.cons (.const (.str (py!"Section Code (3)"))) (.cons (.slice (.name (py!"r")) (some 96) (some 98)) (.cons (.const (.fn (py!"field_004"))) .nil))))
      (.cons (.call (py!"Field") (.cons (.const (.str (py!"Call Sign"))) (.cons (.slice (.name (py!"r")) (some 98) (some 123)) (.cons (.const (.fn (py!"field_105"))) .nil))))
      (.cons (.call (py!"Field") (.cons (.const (.str (py!"File Record No"))) (.cons (.slice (.name (py!"r")) (some 123) (some 128)) (.cons (.const (.fn (py!"field_031"))) .nil))))
      (.cons (.call (py!"Field") (.cons (.const (.str (py!"Cycle Date"))) (.cons (.slice (.name (py!"r")) (some 128) (some 132)) (.cons (.const (.fn (py!"field_032"))) .nil))))
      .nil))))))))))))))))))))))))))))))))))))⟩

/-- definitions/HeliportCommunications.py:70-86 -/
def HeliportCommunications_read_cont : Func := ⟨[py!"self", py!"r"], [],
  (.ret (.list (.cons (.call (py!"Field") (.cons (.const (.str (py!"Record Type"))) (.cons (.sub (.name (py!"r")) (.const (.int 0))) (.cons (.const (.fn (py!"field_002"))) .nil))))
      (.cons (.call (py!"Field") (.cons (.const (.str (py!"Customer / Area Code"))) (.cons (.slice (.name (py!"r")) (some 1) (some 4)) (.cons (.const (.fn (py!"field_003"))) .nil))))
      (.cons (.call (py!"Field") (.cons (.const (.str (py!"Section Code"))) (.cons (.bin .add (.sub (.name (py!"r")) (.const (.int 4))) (.sub (.name (py!"r")) (.const (.int 12)))) (.cons (.const (.fn (py!"field_004"))) .nil))))
      (.cons (.call (py!"Field") (.cons (.const (.str (py!"Heliport Identifier"))) (.cons (.slice (.name (py!"r")) (some 6) (some 10)) (.cons (.const (.fn (py!"field_006"))) .nil))))
      (.cons (.call (py!"Field") (.cons (.const (.str (py!"ICAO Code"))) (.cons (.slice (.name (py!"r")) (some 10) (some 12)) (.cons (.const (.fn (py!"field_014"))) .nil))))
      (.cons (.call (py!"Field") (.cons (.const (.str (py!"Communications Type"))) (.cons (.slice (.name (py!"r")) (some 13) (some 16)) (.cons (.const (.fn (py!"field_101"))) .nil))))
      (.cons (.call (py!"Field") (.cons (.const (.str (py!"Communications Freq"))) (.cons (.slice (.name (py!"r")) (some 16) (some 23)) (.cons (.const (.fn (py!"field_103"))) .nil))))
      (.cons (.call (py!"Field") (.cons (.const (.str (py!"Guard/Transmit"))) (.cons (.sub (.name (py!"r")) (.const (.int 23))) (.cons (.const (.fn (py!"field_182"))) .nil))))
      (.cons (.call (py!"Field") (.cons (.const (.str (py!"Frequency Units"))) (.cons (.sub (.name (py!"r")) (.const (.int 24))) (.cons (.const (.fn (py!"field_104"))) .nil))))
      (.cons (.call (py!"Field") (.cons (.const (.str (py!"Continuation Record No"))) (.cons (.sub (.name (py!"r")) (.const (.int 25))) (.cons (.const (.fn (py!"field_016"))) .nil))))
      (.cons (.call (py!"Field") (.cons (.const (.str (py!"Application Type"))) (.cons (.sub (.name (py!"r")) (.const (.int 26))) (.cons (.const (.fn (py!"field_091"))) .nil))))
      (.cons (.call (py!"Field") (.cons (.const (.str (py!"Narrative"))) (.cons (.slice (.name (py!"r")) (some 27) (some 87)) (.cons (.const (.fn (py!"field_186"))) .nil))))
      (.cons (.call (py!"Field") (.cons (.const (.str (py!"File Record No"))) (.cons (.slice (.name (py!"r")) (some 123) (some 128)) (.cons (.const (.fn (py!"field_031"))) .nil))))
      (.cons (.call (py!"Field") (.cons (.const (.str (py!"Cycle Date"))) (.cons (.slice (.name (py!"r")) (some 128) (some 132)) (.cons (.const (.fn (py!"field_032"))) .nil))))
      .nil))))))))))))))))⟩

/-- definitions/HeliportCommunications.py:89-114 -/
def HeliportCommunications_read_timeop : Func := ⟨[py!"self", py!"r"], [],
  (.ret (.list (.cons (.call (py!"Field") (.cons (.const (.str (py!"Record Type"))) (.cons (.sub (.name (py!"r")) (.const (.int 0))) (.cons (.const (.fn (py!"field_002"))) .nil))))
      (.cons (.call (py!"Field") (.cons (.const (.str (py!"Customer / Area Code"))) (.cons (.slice (.name (py!"r")) (some 1) (some 4)) (.cons (.const (.fn (py!"field_003"))) .nil))))
      (.cons (.call (py!"Field") (.cons (.const (.str (py!"Section Code"))) (.cons (.bin .add (.sub (.name (py!"r")) (.const (.int 4))) (.sub (.name (py!"r")) (.const (.int 12)))) (.cons (.const (.fn (py!"field_004"))) .nil))))
      (.cons (.call (py!"Field") (.cons (.const (.str (py!"Heliport Identifier"))) (.cons (.slice (.name (py!"r")) (some 6) (some 10)) (.cons (.const (.fn (py!"field_006"))) .nil))))
      (.cons (.call (py!"Field") (.cons (.const (.str (py!"ICAO Code"))) (.cons (.slice (.name (py!"r")) (some 10) (some 12)) (.cons (.const (.fn (py!"field_014"))) .nil))))
      (.cons (.call (py!"Field") (.cons (.const (.str (py!"Communications Type"))) (.cons (.slice (.name (py!"r")) (some 13) (some 16)) (.cons (.const (.fn (py!"field_101"))) .nil))))
      (.cons (.call (py!"Field") (.cons (.const (.str (py!"Communications Freq"))) (.cons (.slice (.name (py!"r")) (some 16) (some 23)) (.cons (.const (.fn (py!"field_103"))) .nil))))
      (.cons (.call (py!"Field") (.cons (.const (.str (py!"Guard/Transmit"))) (.cons (.sub (.name (py!"r")) (.const (.int 23))) (.cons (.const (.fn (py!"field_182"))) .nil))))
      (.cons (.call (py!"Field") (.cons (.const (.str (py!"Frequency Units"))) (.cons (.sub (.name (py!"r")) (.const (.int 24))) (.cons (.const (.fn (py!"field_104"))) .nil))))
      (.cons (.call (py!"Field") (.cons (.const (.str (py!"Continuation Record No"))) (.cons (.sub (.name (py!"r")) (.const (.int 25))) (.cons (.const (.fn (py!"field_016"))) .nil))))
      (.cons (.call (py!"Field") (.cons (.const (.str (py!"Application Type"))) (.cons (.sub (.name (py!"r")) (.const (.int 26))) (.cons (.const (.fn (py!"field_091"))) .nil))))
      (.cons (.call (py!"Field") (.cons (.const (.str (py!"Time Code"))) (.cons (.sub (.name (py!"r")) (.const (.int 27))) (.cons (.const (.fn (py!"field_131"))) .nil))))
      (.cons (.call (py!"Field") (.cons (.const (.str (py!"NOTAM"))) (.cons (.sub (.name (py!"r")) (.const (.int 28))) (.cons (.const (.fn (py!"field_132"))) .nil))))
      (.cons (.call (py!"Field") (.cons (.const (.str (py!"Time Indicator"))) (.cons (.sub (.name (py!"r")) (.const (.int 29))) (.cons (.const (.fn (py!"field_138"))) .nil))))
      (.cons (.call (py!"Field") (.cons (.const (.str (py!"Time of Operation"))) (.cons (.slice (.name (py!"r")) (some 30) (some 40)) (.cons (.const (.fn (py!"field_195"))) .nil))))
      (.cons (.call (py!"Field") (.cons (.const (.str (py!"Time of Operation (2)"))) (.cons (.slice (.name (py!"r")) (some 40) (some 50)) (.cons (.const (.fn (py!"field_195"))) .nil))))
      (.cons (.call (py!"Field") (.cons (.const (.str (py!"Time of Operation (3)"))) (.cons (.slice (.name (py!"r")) (some 50) (some 60)) (.cons (.const (.fn (py!"field_195"))) .nil))))
      (.cons (.call (py!"Field") (.cons (.const (.str (py!"Time of Operation (4)"))) (.cons (.slice (.name (py!"r")) (some 60) (some 70)) (.cons (.const (.fn (py!"field_195"))) .nil))))
      (.cons (.call (py!"Field") (.cons (.const (.str (py!"Time of Operation (5)"))) (.cons (.slice (.name (py!"r")) (some 70) (some 80)) (.cons (.const (.fn (py!"field_195"))) .nil))))
      (.cons (.call (py!"Field") (.cons (.const (.str (py!"Time of Operation (6)"))) (.cons (.slice (.name (py!"r")) (some 80) (some 90)) (.cons (.const (.fn (py!"field_195"))) .nil))))
      (.cons (.call (py!"Field") (.cons (.const (.str (py!"Time of Operation (7)"))) (.cons (.slice (.name (py!"r")) (some 90) (some 100)) (.cons (.const (.fn (py!"field_195"))) .nil))))
      (.cons (.call (py!"Field") (.cons (.const (.str (py!"File Record No"))) (.cons (.slice (.name (py!"r")) (some 123) (some 128)) (.cons (.const (.fn (py!"field_031"))) .nil))))
      (.cons (.call (py!"Field") (.cons (.const (.str (py!"Cycle Date"))) (.cons (.slice (.name (py!"r")) (some 128) (some 132)) (.cons (.const (.fn (py!"field_032"))) .nil))))
      .nil)))))))))))))))))))))))))⟩

/-- definitions/HeliportCommunications.py:6-114, class `HeliportCommunications` -/
def HeliportCommunications : Class :=
  ⟨[(py!"cont_idx", (.int 25)), (py!"app_idx", (.int 26)), (py!"continuations", (.list [(.str (py!"A")), (.str (py!"T"))])), (py!"name", (.str (py!"Heliport Communications")))],
   [(py!"application_type", HeliportCommunications_application_type),
    (py!"read", HeliportCommunications_read),
    (py!"read_primary", HeliportCommunications_read_primary),
    (py!"read_cont", HeliportCommunications_read_cont),
    (py!"read_timeop", HeliportCommunications_read_timeop)]⟩

/-- definitions/Airport.py:13-14 -/
def Airport_application_type : Func := ⟨[py!"self", py!"line"], [],
  (.ret (.sub (.name (py!"line")) (.attr (.name (py!"self")) (py!"app_idx"))))⟩

/-- definitions/Airport.py:16-30 -/
def Airport_read : Func := ⟨[py!"self", py!"line", py!"primary"], [],
  (.seq (.ite (.name (py!"primary"))
    (.ret (.invoke (.name (py!"self")) (py!"read_primary") (.cons (.name (py!"line")) .nil)))
    .pass)
  (.seq (.assign (py!"application") (.sub (.name (py!"line")) (.attr (.name (py!"self")) (py!"app_idx"))))
  (.matchOn (.name (py!"application"))
    (.case (.str (py!"A")) (.ret (.invoke (.name (py!"self")) (py!"read_cont") (.cons (.name (py!"line")) .nil)))
    (.case (.str (py!"P")) (.ret (.invoke (.name (py!"self")) (py!"read_flight0") (.cons (.name (py!"line")) .nil)))
    (.case (.str (py!"Q")) (.ret (.invoke (.name (py!"self")) (py!"read_flight1") (.cons (.name (py!"line")) .nil)))
    (.ret (.list .nil))))))))⟩

/-- definitions/Airport.py:33-63 -/
def Airport_read_primary : Func := ⟨[py!"self", py!"r"], [],
  (.ret (.list (.cons (.call (py!"Field") (.cons (.const (.str (py!"Record Type"))) (.cons (.sub (.name (py!"r")) (.const (.int 0))) (.cons (.const (.fn (py!"field_002"))) .nil))))
      (.cons (.call (py!"Field") (.cons (.const (.str (py!"Customer / Area Code"))) (.cons (.slice (.name (py!"r")) (some 1) (some 4)) (.cons (.const (.fn (py!"field_003"))) .nil))))
      (.cons (.call (py!"Field") (.cons (.const (.str (py!"Section Code"))) (.cons (.bin .add (.sub (.name (py!"r")) (.const (.int 4))) (.sub (.name (py!"r")) (.const (.int 12)))) (.cons (.const (.fn (py!"field_004"))) .nil))))
      (.cons (.call (py!"Field") (.cons (.const (.str (py!"Airport ICAO Identifier"))) (.cons (.slice (.name (py!"r")) (some 6) (some 10)) (.cons (.const (.fn (py!"field_006"))) .nil))))
      (.cons (.call (py!"Field") (.cons (.const (.str (py!"ICAO Code"))) (.cons (.slice (.name (py!"r")) (some 10) (some 12)) (.cons (.const (.fn (py!"field_014"))) .nil))))
      (.cons (.call (py!"Field") (.cons (.const (.str (py!"ATA/IATA Designator"))) (.cons (.slice (.name (py!"r")) (some 13) (some 16)) (.cons (.const (.fn (py!"field_107"))) .nil))))
      (.cons (.call (py!"Field") (.cons (.const (.str (py!"Continuation Record No"))) (.cons (.sub (.name (py!"r")) (.const (.int 21))) (.cons (.const (.fn (py!"field_016"))) .nil))))
      (.cons (.call (py!"Field") (.cons (.const (.str (py!"Speed Limit Altitude"))) (.cons (.slice (.name (py!"r")) (some 22) (some 27)) (.cons (.const (.fn (py!"field_073"))) .nil))))
      (.cons (.call (py!"Field") (.cons (.const (.str (py!"Longest Runway"))) (.cons (.slice (.name (py!"r")) (some 27) (some 30)) (.cons (.const (.fn (py!"field_054"))) .nil))))
      (.cons (.call (py!"Field") (.cons (.const (.str (py!"IFR Capability"))) (.cons (.sub (.name (py!"r")) (.const (.int 30))) (.cons (.const (.fn (py!"field_108"))) .nil))))
      (.cons (.call (py!"Field") (.cons (.const (.str (py!"Longest Runway Surface Code"))) (.cons (.sub (.name (py!"r")) (.const (.int 31))) (.cons (.const (.fn (py!"field_249"))) .nil))))
      (.cons (.call (py!"Field") (.cons (.const (.str (py!"Airport Reference Pt. Latitude"))) (.cons (.slice (.name (py!"r")) (some 32) (some 41)) (.cons (.const (.fn (py!"field_036"))) .nil))))
      (.cons (.call (py!"Field") (.cons (.const (.str (py!"Airport Reference Pt. Longitude"))) (.cons (.slice (.name (py!"r")) (some 41) (some 51)) (.cons (.const (.fn (py!"field_037"))) .nil))))
      (.cons (.call (py!"Field") (.cons (.const (.str (py!"Magnetic Variation"))) (.cons (.slice (.name (py!"r")) (some 51) (some 56)) (.cons (.const (.fn (py!"field_039"))) .nil))))
      (.cons (.call (py!"Field") (.cons (.const (.str (py!"Airport Elevation"))) (.cons (.slice (.name (py!"r")) (some 56) (some 61)) (.cons (.const (.fn (py!"field_055"))) .nil))))
      (.cons (.call (py!"Field") (.cons (.const (.str (py!"Speed Limit"))) (.cons (.slice (.name (py!"r")) (some 61) (some 64)) (.cons (.const (.fn (py!"field_072"))) .nil))))
      (.cons (.call (py!"Field") (.cons (.const (.str (py!"Recommended Navaid"))) (.cons (.slice (.name (py!"r")) (some 64) (some 68)) (.cons (.const (.fn (py!"field_023"))) .nil))))
      (.cons (.call (py!"Field") (.cons (.const (.str (py!"ICAO Code (2)"))) (.cons (.slice (.name (py!"r")) (some 68) (some 70)) (.cons (.const (.fn (py!"field_014"))) .nil))))
      (.cons (.call (py!"Field") (.cons (.const (.str (py!"Transition Altitude"))) (.cons (.slice (.name (py!"r")) (some 70) (some 75)) (.cons (.const (.fn (py!"field_053"))) .nil))))
      (.cons (.call (py!"Field") (.cons (.const (.str (py!"Transition Level"))) (.cons (.slice (.name (py!"r")) (some 75) (some 80)) (.cons (.const (.fn (py!"field_053"))) .nil))))
      (.cons (.call (py!"Field") (.cons (.const (.str (py!"Public Military Indicator"))) (.cons (.sub (.name (py!"r")) (.const (.int 80))) (.cons (.const (.fn (py!"field_177"))) .nil))))
      (.cons (.call (py!"Field") (.cons (.const (.str (py!"Time Zone"))) (.cons (.slice (.name (py!"r")) (some 81) (some 84)) (.cons (.const (.fn (py!"field_178"))) .nil))))
      (.cons (.call (py!"Field") (.cons (.const (.str (py!"Daylight Indicator"))) (.cons (.sub (.name (py!"r")) (.const (.int 84))) (.cons (.const (.fn (py!"field_179"))) .nil))))
      (.cons (.call (py!"Field") (.cons (.const (.str (py!"Magnetic/True Indicator"))) (.cons (.sub (.name (py!"r")) (.const (.int 85))) (.cons (.const (.fn (py!"field_165"))) .nil))))
      (.cons (.call (py!"Field") (.cons (.const (.str (py!"Datum Code"))) (.cons (.slice (.name (py!"r")) (some 86) (some 89)) (.cons (.const (.fn (py!"field_197"))) .nil))))
      (.cons (.call (py!"Field") (.cons (.const (.str (py!"Airport Name"))) (.cons (.slice (.name (py!"r")) (some 93) (some 123)) (.cons (.const (.fn (py!"field_071"))) .nil))))
      (.cons (.call (py!"Field") (.cons (.const (.str (py!"File Record No"))) (.cons (.slice (.name (py!"r")) (some 123) (some 128)) (.cons (.const (.fn (py!"field_031"))) .nil))))
      (.cons (.call (py!"Field") (.cons (.const (.str (py!"Cycle Date"))) (.cons (.slice (.name (py!"r")) (some 128) (some 132)) (.cons (.const (.fn (py!"field_032"))) .nil))))
      .nil))))))))))))))))))))))))))))))⟩

/-- definitions/Airport.py:66-79 -/
def Airport_read_cont : Func := ⟨[py!"self", py!"r"], [],
  (.ret (.list (.cons (.call (py!"Field") (.cons (.const (.str (py!"Record Type"))) (.cons (.sub (.name (py!"r")) (.const (.int 0))) (.cons (.const (.fn (py!"field_002"))) .nil))))
      (.cons (.call (py!"Field") (.cons (.const (.str (py!"Customer / Area Code"))) (.cons (.slice (.name (py!"r")) (some 1) (some 4)) (.cons (.const (.fn (py!"field_003"))) .nil))))
      (.cons (.call (py!"Field") (.cons (.const (.str (py!"Section Code"))) (.cons (.bin .add (.sub (.name (py!"r")) (.const (.int 4))) (.sub (.name (py!"r")) (.const (.int 12)))) (.cons (.const (.fn (py!"field_004"))) .nil))))
      (.cons (.call (py!"Field") (.cons (.const (.str (py!"Airport ICAO Identifier"))) (.cons (.slice (.name (py!"r")) (some 6) (some 10)) (.cons (.const (.fn (py!"field_006"))) .nil))))
      (.cons (.call (py!"Field") (.cons (.const (.str (py!"ICAO Code"))) (.cons (.slice (.name (py!"r")) (some 10) (some 12)) (.cons (.const (.fn (py!"field_014"))) .nil))))
      (.cons (.call (py!"Field") (.cons (.const (.str (py!"ATA/IATA Designator"))) (.cons (.slice (.name (py!"r")) (some 13) (some 16)) (.cons (.const (.fn (py!"field_107"))) .nil))))
      (.cons (.call (py!"Field") (.cons (.const (.str (py!"Continuation Record No"))) (.cons (.sub (.name (py!"r")) (.const (.int 21))) (.cons (.const (.fn (py!"field_016"))) .nil))))
      (.cons (.call (py!"Field") (.cons (.const (.str (py!"Application Type"))) (.cons (.sub (.name (py!"r")) (.const (.int 22))) (.cons (.const (.fn (py!"field_091"))) .nil))))
      (.cons (.call (py!"Field") (.cons (.const (.str (py!"Notes"))) (.cons (.slice (.name (py!"r")) (some 23) (some 92)) (.cons (.const (.fn (py!"field_061"))) .nil))))
      (.cons (.call (py!"Field") (.cons (.const (.str (py!"File Record No"))) (.cons (.slice (.name (py!"r")) (some 123) (some 128)) (.cons (.const (.fn (py!"field_031"))) .nil))))
      (.cons (.call (py!"Field") (.cons (.const (.str (py!"Cycle Date"))) (.cons (.slice (.name (py!"r")) (some 128) (some 132)) (.cons (.const (.fn (py!"field_032"))) .nil))))
      .nil)))))))))))))⟩

/-- definitions/Airport.py:87-106 -/
def Airport_read_flight0 : Func := ⟨[py!"self", py!"r"], [],
  (.ret (.list (.cons (.call (py!"Field") (.cons (.const (.str (py!"Record Type"))) (.cons (.sub (.name (py!"r")) (.const (.int 0))) (.cons (.const (.fn (py!"field_002"))) .nil))))
      (.cons (.call (py!"Field") (.cons (.const (.str (py!"Customer / Area Code"))) (.cons (.slice (.name (py!"r")) (some 1) (some 4)) (.cons (.const (.fn (py!"field_003"))) .nil))))
      (.cons (.call (py!"Field") (.cons (.const (.str (py!"Section Code"))) (.cons (.bin .add (.sub (.name (py!"r")) (.const (.int 4))) (.sub (.name (py!"r")) (.const (.int 12)))) (.cons (.const (.fn (py!"field_004"))) .nil))))
      (.cons (.call (py!"Field") (.cons (.const (.str (py!"Heliport Identifier"))) (.cons (.slice (.name (py!"r")) (some 6) (some 10)) (.cons (.const (.fn (py!"field_006"))) .nil))))
      (.cons (.call (py!"Field") (.cons (.const (.str (py!"ICAO Code"))) (.cons (.slice (.name (py!"r")) (some 10) (some 12)) (.cons (.const (.fn (py!"field_014"))) .nil))))
      (.cons (.call (py!"Field") (.cons (.const (.str (py!"ATA/IATA Designator"))) (.cons (.slice (.name (py!"r")) (some 13) (some 16)) (.cons (.const (.fn (py!"field_107"))) .nil))))
      (.cons (.call (py!"Field") (.cons (.const (.str (py!"Continuation Record No"))) (.cons (.sub (.name (py!"r")) (.const (.int 21))) (.cons (.const (.fn (py!"field_016"))) .nil))))
      (.cons (.call (py!"Field") (.cons (.const (.str (py!"Application Type"))) (.cons (.sub (.name (py!"r")) (.const (.int 22))) (.cons (.const (.fn (py!"field_091"))) .nil))))
      (.cons (.call (py!"Field") (.cons (.const (.str (py!"FIR Identifier"))) (.cons (.slice (.name (py!"r")) (some 23) (some 27)) (.cons (.const (.fn (py!"field_116"))) .nil))))
      (.cons (.call (py!"Field") (.cons (.const (.str (py!"UIR Identifier"))) (.cons (.slice (.name (py!"r")) (some 27) (some 31)) (.cons (.const (.fn (py!"field_116"))) .nil))))
      (.cons (.call (py!"Field") (.cons (.const (.str (py!"Start/End Indicator"))) (.cons (.sub (.name (py!"r")) (.const (.int 31))) (.cons (.const (.fn (py!"field_152"))) .nil))))
      (.cons (.call (py!"Field") (.cons (.const (.str (py!"Start/End Date/Time"))) (.cons (.slice (.name (py!"r")) (some 32) (some 43)) (.cons (.const (.fn (py!"field_153"))) .nil))))
      (.cons (.call (py!"Field") (.cons (.const (.str (py!"Controlled A/S Indicator"))) (.cons (.sub (.name (py!"r")) (.const (.int 66))) (.cons (.const (.fn (py!"field_217"))) .nil))))
      (.cons (.call (py!"Field") (.cons (.const (.str (py!"Controlled A/S Airport Ident"))) (.cons (.slice (.name (py!"r")) (some 67) (some 71)) (.cons (.const (.fn (py!"field_006"))) .nil))))
      (.cons (.call (py!"Field") (.cons (.const (.str (py!"Controlled A/S Airport ICAO"))) (.cons (.slice (.name (py!"r")) (some 71) (some 73)) (.cons (.const (.fn (py!"field_014"))) .nil))))
      (.cons (.call (py!"Field") (.cons (.const (.str (py!"File Record No"))) (.cons (.slice (.name (py!"r")) (some 123) (some 128)) (.cons (.const (.fn (py!"field_031"))) .nil))))
      (.cons (.call (py!"Field") (.cons (.const (.str (py!"Cycle Date"))) (.cons (.slice (.name (py!"r")) (some 128) (some 132)) (.cons (.const (.fn (py!"field_032"))) .nil))))
      .nil)))))))))))))))))))⟩

/-- definitions/Airport.py:118-148 -/
def Airport_read_flight1 : Func := ⟨[py!"self", py!"r"], [],
  (.ret (.list (.cons (.call (py!"Field") (.cons (.const (.str (py!"Record Type"))) (.cons (.sub (.name (py!"r")) (.const (.int 0))) (.cons (.const (.fn (py!"field_002"))) .nil))))
      (.cons (.call (py!"Field") (.cons (.const (.str (py!"Customer / Area Code"))) (.cons (.slice (.name (py!"r")) (some 1) (some 4)) (.cons (.const (.fn (py!"field_003"))) .nil))))
      (.cons (.call (py!"Field") (.cons (.const (.str (py!"Section Code"))) (.cons (.bin .add (.sub (.name (py!"r")) (.const (.int 4))) (.sub (.name (py!"r")) (.const (.int 12)))) (.cons (.const (.fn (py!"field_004"))) .nil))))
      (.cons (.call (py!"Field") (.cons (.const (.str (py!"Airport ICAO Identifier"))) (.cons (.slice (.name (py!"r")) (some 6) (some 10)) (.cons (.const (.fn (py!"field_006"))) .nil))))
      (.cons (.call (py!"Field") (.cons (.const (.str (py!"ICAO Code"))) (.cons (.slice (.name (py!"r")) (some 10) (some 12)) (.cons (.const (.fn (py!"field_014"))) .nil))))
      (.cons (.call (py!"Field") (.cons (.const (.str (py!"ATA/IATA Designator"))) (.cons (.slice (.name (py!"r")) (some 13) (some 16)) (.cons (.const (.fn (py!"field_107"))) .nil))))
      (.cons (.call (py!"Field") (.cons (.const (.str (py!"Continuation Record No"))) (.cons (.sub (.name (py!"r")) (.const (.int 21))) (.cons (.const (.fn (py!"field_016"))) .nil))))
      (.cons (.call (py!"Field") (.cons (.const (.str (py!"Speed Limit Altitude"))) (.cons (.slice (.name (py!"r")) (some 22) (some 27)) (.cons (.const (.fn (py!"field_073"))) .nil))))
      (.cons (.call (py!"Field") (.cons (.const (.str (py!"Longest Runway"))) (.cons (.slice (.name (py!"r")) (some 27) (some 30)) (.cons (.const (.fn (py!"field_054"))) .nil))))
      (.cons (.call (py!"Field") (.cons (.const (.str (py!"IFR Capability"))) (.cons (.sub (.name (py!"r")) (.const (.int 30))) (.cons (.const (.fn (py!"field_108"))) .nil))))
      (.cons (.call (py!"Field") (.cons (.const (.str (py!"Longest Runway Surface Code"))) (.cons (.sub (.name (py!"r")) (.const (.int 31))) (.cons (.const (.fn (py!"field_249"))) .nil))))
      (.cons (.call (py!"Field") (.cons (.const (.str (py!"Airport Reference Pt. Latitude"))) (.cons (.slice (.name (py!"r")) (some 32) (some 41)) (.cons (.const (.fn (py!"field_036"))) .nil))))
      (.cons (.call (py!"Field") (.cons (.const (.str (py!"Airport Reference Pt. Longitude"))) (.cons (.slice (.name (py!"r")) (some 41) (some 51)) (.cons (.const (.fn (py!"field_037"))) .nil))))
      (.cons (.call (py!"Field") (.cons (.const (.str (py!"Magnetic Variation"))) (.cons (.slice (.name (py!"r")) (some 51) (some 56)) (.cons (.const (.fn (py!"field_039"))) .nil))))
      (.cons (.call (py!"Field") (.cons (.const (.str (py!"Airport Elevation"))) (.cons (.slice (.name (py!"r")) (some 56) (some 61)) (.cons (.const (.fn (py!"field_055"))) .nil))))
      (.cons (.call (py!"Field") (.cons (.const (.str (py!"Speed Limit"))) (.cons (.slice (.name (py!"r")) (some 61) (some 64)) (.cons (.const (.fn (py!"field_072"))) .nil))))
      (.cons (.call (py!"Field") (.cons (.const (.str (py!"Recommended Navaid"))) (.cons (.slice (.name (py!"r")) (some 64) (some 68)) (.cons (.const (.fn (py!"field_023"))) .nil))))
      (.cons (.call (py!"Field") (.cons (.const (.str (py!"ICAO Code (2)"))) (.cons (.slice (.name (py!"r")) (some 68) (some 70)) (.cons (.const (.fn (py!"field_014"))) .nil))))
      (.cons (.call (py!"Field") (.cons (.const (.str (py!"Transition Altitude"))) (.cons (.slice (.name (py!"r")) (some 70) (some 75)) (.cons (.const (.fn (py!"field_053"))) .nil))))
      (.cons (.call (py!"Field") (.cons (.const (.str (py!"Transition Level"))) (.cons (.slice (.name (py!"r")) (some 75) (some 80)) (.cons (.const (.fn (py!"field_053"))) .nil))))
      (.cons (.call (py!"Field") (.cons (.const (.str (py!"Public Military Indicator"))) (.cons (.sub (.name (py!"r")) (.const (.int 80))) (.cons (.const (.fn (py!"field_177"))) .nil))))
      (.cons (.call (py!"Field") (.cons (.const (.str (py!"Time Zone"))) (.cons (.slice (.name (py!"r")) (some 81) (some 84)) (.cons (.const (.fn (py!"field_178"))) .nil))))
      (.cons (.call (py!"Field") (.cons (.const (.str (py!"Daylight Indicator"))) (.cons (.sub (.name (py!"r")) (.const (.int 84))) (.cons (.const (.fn (py!"field_179"))) .nil))))
      (.cons (.call (py!"Field") (.cons (.const (.str (py!"Magnetic/True Indicator"))) (.cons (.sub (.name (py!"r")) (.const (.int 85))) (.cons (.const (.fn (py!"field_165"))) .nil))))
      (.cons (.call (py!"Field") (.cons (.const (.str (py!"Datum Code"))) (.cons (.slice (.name (py!"r")) (some 86) (some 89)) (.cons (.const (.fn (py!"field_197"))) .nil))))
      (.cons (.call (py!"Field") (.cons (.const (.str (py!"Airport Name"))) (.cons (.slice (.name (py!"r")) (some 93) (some 123)) (.cons (.const (.fn (py!"field_071"))) .nil))))
      (.cons (.call (py!"Field") (.cons (.const (.str (py!"File Record No"))) (.cons (.slice (.name (py!"r")) (some 123) (some 128)) (.cons (.const (.fn (py!"field_031"))) .nil))))
      (.cons (.call (py!"Field") (.cons (.const (.str (py!"Cycle Date"))) (.cons (.slice (.name (py!"r")) (some 128) (some 132)) (.cons (.const (.fn (py!"field_032"))) .nil))))
      .nil))))))))))))))))))))))))))))))⟩

/-- definitions/Airport.py:6-148, class `Airport` -/
def Airport : Class :=
  ⟨[(py!"cont_idx", (.int 21)), (py!"app_idx", (.int 22)), (py!"continuations", (.list [(.str (py!"A")), (.str (py!"P")), (.str (py!"Q"))])), (py!"name", (.str (py!"Airport")))],
   [(py!"application_type", Airport_application_type),
    (py!"read", Airport_read),
    (py!"read_primary", Airport_read_primary),
    (py!"read_cont", Airport_read_cont),
    (py!"read_flight0", Airport_read_flight0),
    (py!"read_flight1", Airport_read_flight1)]⟩

/-- definitions/AirportGate.py:13-14 -/
def AirportGate_application_type : Func := ⟨[py!"self", py!"line"], [],
  (.ret (.sub (.name (py!"line")) (.attr (.name (py!"self")) (py!"app_idx"))))⟩

/-- definitions/AirportGate.py:16-26 -/
def AirportGate_read : Func := ⟨[py!"self", py!"line", py!"primary"], [],
  (.seq (.ite (.name (py!"primary"))
    (.ret (.invoke (.name (py!"self")) (py!"read_primary") (.cons (.name (py!"line")) .nil)))
    .pass)
  (.seq (.assign (py!"application") (.sub (.name (py!"line")) (.attr (.name (py!"self")) (py!"app_idx"))))
  (.matchOn (.name (py!"application"))
    (.case (.str (py!"A")) (.ret (.invoke (.name (py!"self")) (py!"read_cont") (.cons (.name (py!"line")) .nil)))
    (.ret (.list .nil))))))⟩

/-- definitions/AirportGate.py:29-43 -/
def AirportGate_read_primary : Func := ⟨[py!"self", py!"r"], [],
  (.ret (.list (.cons (.call (py!"Field") (.cons (.const (.str (py!"Record Type"))) (.cons (.sub (.name (py!"r")) (.const (.int 0))) (.cons (.const (.fn (py!"field_002"))) .nil))))
      (.cons (.call (py!"Field") (.cons (.const (.str (py!"Customer / Area Code"))) (.cons (.slice (.name (py!"r")) (some 1) (some 4)) (.cons (.const (.fn (py!"field_003"))) .nil))))
      (.cons (.call (py!"Field") (.cons (.const (.str (py!"Section Code"))) (.cons (.bin .add (.sub (.name (py!"r")) (.const (.int 4))) (.sub (.name (py!"r")) (.const (.int 12)))) (.cons (.const (.fn (py!"field_004"))) .nil))))
      (.cons (.call (py!"Field") (.cons (.const (.str (py!"Airport ICAO Identifier"))) (.cons (.slice (.name (py!"r")) (some 6) (some 10)) (.cons (.const (.fn (py!"field_006"))) .nil))))
      (.cons (.call (py!"Field") (.cons (.const (.str (py!"ICAO Code"))) (.cons (.slice (.name (py!"r")) (some 10) (some 12)) (.cons (.const (.fn (py!"field_014"))) .nil))))
      (.cons (.call (py!"Field") (.cons (.const (.str (py!"Gate Identifier"))) (.cons (.slice (.name (py!"r")) (some 13) (some 18)) (.cons (.const (.fn (py!"field_056"))) .nil))))
      (.cons (.call (py!"Field") (.cons (.const (.str (py!"Continuation Record No"))) (.cons (.sub (.name (py!"r")) (.const (.int 21))) (.cons (.const (.fn (py!"field_016"))) .nil))))
      (.cons (.call (py!"Field") (.cons (.const (.str (py!"Gate Latitude"))) (.cons (.slice (.name (py!"r")) (some 32) (some 41)) (.cons (.const (.fn (py!"field_036"))) .nil))))
      (.cons (.call (py!"Field") (.cons (.const (.str (py!"Gate Longitude"))) (.cons (.slice (.name (py!"r")) (some 41) (some 51)) (.cons (.const (.fn (py!"field_037"))) .nil))))
      (.cons (.call (py!"Field") (.cons (.const (.str (py!"Name"))) (.cons (.slice (.name (py!"r")) (some 98) (some 123)) (.cons (.const (.fn (py!"field_060"))) .nil))))
      (.cons (.call (py!"Field") (.cons (.const (.str (py!"File Record No"))) (.cons (.slice (.name (py!"r")) (some 123) (some 128)) (.cons (.const (.fn (py!"field_031"))) .nil))))
      (.cons (.call (py!"Field") (.cons (.const (.str (py!"Cycle Date"))) (.cons (.slice (.name (py!"r")) (some 128) (some 132)) (.cons (.const (.fn (py!"field_032"))) .nil))))
      .nil))))))))))))))⟩

/-- definitions/AirportGate.py:46-59 -/
def AirportGate_read_cont : Func := ⟨[py!"self", py!"r"], [],
  (.ret (.list (.cons (.call (py!"Field") (.cons (.const (.str (py!"Record Type"))) (.cons (.sub (.name (py!"r")) (.const (.int 0))) (.cons (.const (.fn (py!"field_002"))) .nil))))
      (.cons (.call (py!"Field") (.cons (.const (.str (py!"Customer / Area Code"))) (.cons (.slice (.name (py!"r")) (some 1) (some 4)) (.cons (.const (.fn (py!"field_003"))) .nil))))
      (.cons (.call (py!"Field") (.cons (.const (.str (py!"Section Code"))) (.cons (.bin .add (.sub (.name (py!"r")) (.const (.int 4))) (.sub (.name (py!"r")) (.const (.int 12)))) (.cons (.const (.fn (py!"field_004"))) .nil))))
      (.cons (.call (py!"Field") (.cons (.const (.str (py!"Airport ICAO Identifier"))) (.cons (.slice (.name (py!"r")) (some 6) (some 10)) (.cons (.const (.fn (py!"field_006"))) .nil))))
      (.cons (.call (py!"Field") (.cons (.const (.str (py!"ICAO Code"))) (.cons (.slice (.name (py!"r")) (some 10) (some 12)) (.cons (.const (.fn (py!"field_014"))) .nil))))
      (.cons (.call (py!"Field") (.cons (.const (.str (py!"Gate Identifier"))) (.cons (.slice (.name (py!"r")) (some 13) (some 18)) (.cons (.const (.fn (py!"field_056"))) .nil))))
      (.cons (.call (py!"Field") (.cons (.const (.str (py!"Continuation Record No"))) (.cons (.sub (.name (py!"r")) (.const (.int 21))) (.cons (.const (.fn (py!"field_016"))) .nil))))
      (.cons (.call (py!"Field") (.cons (.const (.str (py!"Application Notes"))) (.cons (.sub (.name (py!"r")) (.const (.int 22))) (.cons (.const (.fn (py!"field_091"))) .nil))))
      (.cons (.call (py!"Field") (.cons (.const (.str (py!"Notes"))) (.cons (.slice (.name (py!"r")) (some 23) (some 92)) (.cons (.const (.fn (py!"field_061"))) .nil))))
      (.cons (.call (py!"Field") (.cons (.const (.str (py!"File Record No"))) (.cons (.slice (.name (py!"r")) (some 123) (some 128)) (.cons (.const (.fn (py!"field_031"))) .nil))))
      (.cons (.call (py!"Field") (.cons (.const (.str (py!"Cycle Date"))) (.cons (.slice (.name (py!"r")) (some 128) (some 132)) (.cons (.const (.fn (py!"field_032"))) .nil))))
      .nil)))))))))))))⟩

/-- definitions/AirportGate.py:6-59, class `AirportGate` -/
def AirportGate : Class :=
  ⟨[(py!"cont_idx", (.int 21)), (py!"app_idx", (.int 22)), (py!"continuations", (.list [(.str (py!"A"))])), (py!"name", (.str (py!"Airport Gate")))],
   [(py!"application_type", AirportGate_application_type),
    (py!"read", AirportGate_read),
    (py!"read_primary", AirportGate_read_primary),
    (py!"read_cont", AirportGate_read_cont)]⟩

/-- definitions/Runway.py:13-14 -/
def Runway_application_type : Func := ⟨[py!"self", py!"line"], [],
  (.ret (.sub (.name (py!"line")) (.attr (.name (py!"self")) (py!"app_idx"))))⟩

/-- definitions/Runway.py:16-28 -/
def Runway_read : Func := ⟨[py!"self", py!"line", py!"primary"], [],
  (.seq (.ite (.name (py!"primary"))
    (.ret (.invoke (.name (py!"self")) (py!"read_primary") (.cons (.name (py!"line")) .nil)))
    .pass)
  (.seq (.assign (py!"application") (.sub (.name (py!"line")) (.attr (.name (py!"self")) (py!"app_idx"))))
  (.matchOn (.name (py!"application"))
    (.case (.str (py!"A")) (.ret (.invoke (.name (py!"self")) (py!"read_cont") (.cons (.name (py!"line")) .nil)))
    (.case (.str (py!"S")) (.ret (.invoke (.name (py!"self")) (py!"read_sim") (.cons (.name (py!"line")) .nil)))
    (.ret (.list .nil)))))))⟩

/-- definitions/Runway.py:30-58 -/
def Runway_read_primary : Func := ⟨[py!"self", py!"r"], [],
  (.ret (.list (.cons (.call (py!"Field") (.cons (.const (.str (py!"Record Type"))) (.cons (.sub (.name (py!"r")) (.const (.int 0))) (.cons (.const (.fn (py!"field_002"))) .nil))))
      (.cons (.call (py!"Field") (.cons (.const (.str (py!"Customer / Area Code"))) (.cons (.slice (.name (py!"r")) (some 1) (some 4)) (.cons (.const (.fn (py!"field_003"))) .nil))))
      (.cons (.call (py!"Field") (.cons (.const (.str (py!"Section Code"))) (.cons (.bin .add (.sub (.name (py!"r")) (.const (.int 4))) (.sub (.name (py!"r")) (.const (.int 12)))) (.cons (.const (.fn (py!"field_004"))) .nil))))
      (.cons (.call (py!"Field") (.cons (.const (.str (py!"Airport ICAO Identifier"))) (.cons (.slice (.name (py!"r")) (some 6) (some 10)) (.cons (.const (.fn (py!"field_006"))) .nil))))
      (.cons (.call (py!"Field") (.cons (.const (.str (py!"ICAO Code"))) (.cons (.slice (.name (py!"r")) (some 10) (some 12)) (.cons (.const (.fn (py!"field_014"))) .nil))))
      (.cons (.call (py!"Field") (.cons (.const (.str (py!"Runway Identifier"))) (.cons (.slice (.name (py!"r")) (some 13) (some 18)) (.cons (.const (.fn (py!"field_046"))) .nil))))
      (.cons (.call (py!"Field") (.cons (.const (.str (py!"Continuation Record No"))) (.cons (.sub (.name (py!"r")) (.const (.int 21))) (.cons (.const (.fn (py!"field_016"))) .nil))))
      (.cons (.call (py!"Field") (.cons (.const (.str (py!"Runway Length"))) (.cons (.slice (.name (py!"r")) (some 22) (some 27)) (.cons (.const (.fn (py!"field_057"))) .nil))))
      (.cons (.call (py!"Field") (.cons (.const (.str (py!"Runway Magnetic Bearing"))) (.cons (.slice (.name (py!"r")) (some 27) (some 31)) (.cons (.const (.fn (py!"field_058"))) .nil))))
      (.cons (.call (py!"Field") (.cons (.const (.str (py!"Runway Latitude"))) (.cons (.slice (.name (py!"r")) (some 32) (some 41)) (.cons (.const (.fn (py!"field_036"))) .nil))))
      (.cons (.call (py!"Field") (.cons (.const (.str (py!"Runway Longitude"))) (.cons (.slice (.name (py!"r")) (some 41) (some 51)) (.cons (.const (.fn (py!"field_037"))) .nil))))
      (.cons (.call (py!"Field") (.cons (.const (.str (py!"Runway Gradient"))) (.cons (.slice (.name (py!"r")) (some 51) (some 56)) (.cons (.const (.fn (py!"field_212"))) .nil))))
      (.cons (.call (py!"Field") (.cons (.const (.str (py!"(LTP) Ellipsoid Height"))) (.cons (.slice (.name (py!"r")) (some 60) (some 66)) (.cons (.const (.fn (py!"field_225"))) .nil))))
      (.cons (.call (py!"Field") (.cons (.const (.str (py!"Landing Threshold Elevation"))) (.cons (.slice (.name (py!"r")) (some 66) (some 71)) (.cons (.const (.fn (py!"field_068"))) .nil))))
      (.cons (.call (py!"Field") (.cons (.const (.str (py!"Displaced Threshold Dist"))) (.cons (.slice (.name (py!"r")) (some 71) (some 75)) (.cons (.const (.fn (py!"field_069"))) .nil))))
      (.cons (.call (py!"Field") (.cons (.const (.str (py!"Threshold Crossing Height"))) (.cons (.slice (.name (py!"r")) (some 75) (some 77)) (.cons (.const (.fn (py!"field_067"))) .nil))))
      (.cons (.call (py!"Field") (.cons (.const (.str (py!"Runway Width"))) (.cons (.slice (.name (py!"r")) (some 77) (some 80)) (.cons (.const (.fn (py!"field_109"))) .nil))))
      (.cons (.call (py!"Field") (.cons (.const (.str (py!"TCH Value Indicator"))) (.cons (.sub (.name (py!"r")) (.const (.int 80))) (.cons (.const (.fn (py!"field_270"))) .nil))))
      (.cons (.call (py!"Field") (.cons (.const (.str (py!"Localizer/MLS/GLS Ref Path Ident"))) (.cons (.slice (.name (py!"r")) (some 81) (some 85)) (.cons (.const (.fn (py!"field_044"))) .nil))))
      (.cons (.call (py!"Field") (.cons (.const (.str (py!"Localizer/MLS/GLS Category/Class"))) (.cons (.sub (.name (py!"r")) (.const (.int 85))) (.cons (.const (.fn (py!"field_080"))) .nil))))
      (.cons (.call (py!"Field") (.cons (.const (.str (py!"Stopway"))) (.cons (.slice (.name (py!"r")) (some 86) (some 90)) (.cons (.const (.fn (py!"field_079"))) .nil))))
      (.cons (.call (py!"Field") (.cons (.const (.str (py!"Localizer/MLS/GLS Ref Path Ident (2)"))) (.cons (.slice (.name (py!"r")) (some 90) (some 94)) (.cons (.const (.fn (py!"field_044"))) .nil))))
      (.cons (.call (py!"Field") (.cons (.const (.str (py!"Localizer/MLS/GLS Category/Class (2)"))) (.cons (.sub (.name (py!"r")) (.const (.int 94))) (.cons (.const (.fn (py!"field_080"))) .nil))))
      (.cons (.call (py!"Field") (.cons (.const (.str (py!"Runway Description"))) (.cons (.slice (.name (py!"r")) (some 101) (some 123)) (.cons (.const (.fn (py!"field_059"))) .nil))))
      (.cons (.call (py!"Field") (.cons (.const (.str (py!"File Record No"))) (.cons (.slice (.name (py!"r")) (some 123) (some 128)) (.cons (.const (.fn (py!"field_031"))) .nil))))
      (.cons (.call (py!"Field") (.cons (.const (.str (py!"Cycle Date"))) (.cons (.slice (.name (py!"r")) (some 128) (some 132)) (.cons (.const (.fn (py!"field_032"))) .nil))))
      .nil))))))))))))))))))))))))))))⟩

/-- definitions/Runway.py:60-72 -/
def Runway_read_cont : Func := ⟨[py!"self", py!"r"], [],
  (.ret (.list (.cons (.call (py!"Field") (.cons (.const (.str (py!"Record Type"))) (.cons (.sub (.name (py!"r")) (.const (.int 0))) (.cons (.const (.fn (py!"field_002"))) .nil))))
      (.cons (.call (py!"Field") (.cons (.const (.str (py!"Customer / Area Code"))) (.cons (.slice (.name (py!"r")) (some 1) (some 4)) (.cons (.const (.fn (py!"field_003"))) .nil))))
      (.cons (.call (py!"Field") (.cons (.const (.str (py!"Section Code"))) (.cons (.bin .add (.sub (.name (py!"r")) (.const (.int 4))) (.sub (.name (py!"r")) (.const (.int 12)))) (.cons (.const (.fn (py!"field_004"))) .nil))))
      (.cons (.call (py!"Field") (.cons (.const (.str (py!"Airport ICAO Identifier"))) (.cons (.slice (.name (py!"r")) (some 6) (some 10)) (.cons (.const (.fn (py!"field_006"))) .nil))))
      (.cons (.call (py!"Field") (.cons (.const (.str (py!"ICAO Code"))) (.cons (.slice (.name (py!"r")) (some 10) (some 12)) (.cons (.const (.fn (py!"field_014"))) .nil))))
      (.cons (.call (py!"Field") (.cons (.const (.str (py!"Runway Identifier"))) (.cons (.slice (.name (py!"r")) (some 13) (some 18)) (.cons (.const (.fn (py!"field_046"))) .nil))))
      (.cons (.call (py!"Field") (.cons (.const (.str (py!"Continuation Record No"))) (.cons (.sub (.name (py!"r")) (.const (.int 21))) (.cons (.const (.fn (py!"field_016"))) .nil))))
      (.cons (.call (py!"Field") (.cons (.const (.str (py!"Notes"))) (.cons (.slice (.name (py!"r")) (some 23) (some 92)) (.cons (.const (.fn (py!"field_061"))) .nil))))
      (.cons (.call (py!"Field") (.cons (.const (.str (py!"File Record No"))) (.cons (.slice (.name (py!"r")) (some 123) (some 128)) (.cons (.const (.fn (py!"field_031"))) .nil))))
      (.cons (.call (py!"Field") (.cons (.const (.str (py!"Cycle Date"))) (.cons (.slice (.name (py!"r")) (some 128) (some 132)) (.cons (.const (.fn (py!"field_032"))) .nil))))
      .nil))))))))))))⟩

/-- definitions/Runway.py:74-90 -/
def Runway_read_sim : Func := ⟨[py!"self", py!"r"], [],
  (.ret (.list (.cons (.call (py!"Field") (.cons (.const (.str (py!"Record Type"))) (.cons (.sub (.name (py!"r")) (.const (.int 0))) (.cons (.const (.fn (py!"field_002"))) .nil))))
      (.cons (.call (py!"Field") (.cons (.const (.str (py!"Customer / Area Code"))) (.cons (.slice (.name (py!"r")) (some 1) (some 4)) (.cons (.const (.fn (py!"field_003"))) .nil))))
      (.cons (.call (py!"Field") (.cons (.const (.str (py!"Section Code"))) (.cons (.bin .add (.sub (.name (py!"r")) (.const (.int 4))) (.sub (.name (py!"r")) (.const (.int 12)))) (.cons (.const (.fn (py!"field_004"))) .nil))))
      (.cons (.call (py!"Field") (.cons (.const (.str (py!"Airport ICAO Identifier"))) (.cons (.slice (.name (py!"r")) (some 6) (some 10)) (.cons (.const (.fn (py!"field_006"))) .nil))))
      (.cons (.call (py!"Field") (.cons (.const (.str (py!"ICAO Code"))) (.cons (.slice (.name (py!"r")) (some 10) (some 12)) (.cons (.const (.fn (py!"field_014"))) .nil))))
      (.cons (.call (py!"Field") (.cons (.const (.str (py!"Runway Identifier"))) (.cons (.slice (.name (py!"r")) (some 13) (some 18)) (.cons (.const (.fn (py!"field_046"))) .nil))))
      (.cons (.call (py!"Field") (.cons (.const (.str (py!"Continuation Record No"))) (.cons (.sub (.name (py!"r")) (.const (.int 21))) (.cons (.const (.fn (py!"field_016"))) .nil))))
      (.cons (.call (py!"Field") (.cons (.const (.str (py!"Application Type"))) (.cons (.sub (.name (py!"r")) (.const (.int 22))) (.cons (.const (.fn (py!"field_091"))) .nil))))
      (.cons (.call (py!"Field") (.cons (.const (.str (py!"Runway True Bearing"))) (.cons (.slice (.name (py!"r")) (some 51) (some 56)) (.cons (.const (.fn (py!"field_094"))) .nil))))
      (.cons (.call (py!"Field") (.cons (.const (.str (py!"True Bearing Source"))) (.cons (.sub (.name (py!"r")) (.const (.int 56))) (.cons (.const (.fn (py!"field_095"))) .nil))))
      (.cons (.call (py!"Field") (.cons (.const (.str (py!"TDZE Location"))) (.cons (.sub (.name (py!"r")) (.const (.int 65))) (.cons (.const (.fn (py!"field_098"))) .nil))))
      (.cons (.call (py!"Field") (.cons (.const (.str (py!"Touchdown Zone Elevation"))) (.cons (.slice (.name (py!"r")) (some 66) (some 71)) (.cons (.const (.fn (py!"field_097"))) .nil))))
      (.cons (.call (py!"Field") (.cons (.const (.str (py!"File Record No"))) (.cons (.slice (.name (py!"r")) (some 123) (some 128)) (.cons (.const (.fn (py!"field_031"))) .nil))))
      (.cons (.call (py!"Field") (.cons (.const (.str (py!"Cycle Date"))) (.cons (.slice (.name (py!"r")) (some 128) (some 132)) (.cons (.const (.fn (py!"field_032"))) .nil))))
      .nil))))))))))))))))⟩

/-- definitions/Runway.py:6-90, class `Runway` -/
def Runway : Class :=
  ⟨[(py!"cont_idx", (.int 21)), (py!"app_idx", (.int 22)), (py!"continuations", (.list [(.str (py!"A")), (.str (py!"S"))])), (py!"name", (.str (py!"Runway")))],
   [(py!"application_type", Runway_application_type),
    (py!"read", Runway_read),
    (py!"read_primary", Runway_read_primary),
    (py!"read_cont", Runway_read_cont),
    (py!"read_sim", Runway_read_sim)]⟩

/-- definitions/LocalizerGlideslope.py:13-14 -/
def LocalizerGlideslope_application_type : Func := ⟨[py!"self", py!"line"], [],
  (.ret (.sub (.name (py!"line")) (.attr (.name (py!"self")) (py!"app_idx"))))⟩

/-- definitions/LocalizerGlideslope.py:16-28 -/
def LocalizerGlideslope_read : Func := ⟨[py!"self", py!"line", py!"primary"], [],
  (.seq (.ite (.name (py!"primary"))
    (.ret (.invoke (.name (py!"self")) (py!"read_primary") (.cons (.name (py!"line")) .nil)))
    .pass)
  (.seq (.assign (py!"application") (.sub (.name (py!"line")) (.attr (.name (py!"self")) (py!"app_idx"))))
  (.matchOn (.name (py!"application"))
    (.case (.str (py!"A")) (.ret (.invoke (.name (py!"self")) (py!"read_cont") (.cons (.name (py!"line")) .nil)))
    (.case (.str (py!"S")) (.ret (.invoke (.name (py!"self")) (py!"read_sim") (.cons (.name (py!"line")) .nil)))
    (.ret (.list .nil)))))))⟩

/-- definitions/LocalizerGlideslope.py:31-61 -/
def LocalizerGlideslope_read_primary : Func := ⟨[py!"self", py!"r"], [],
  (.ret (.list (.cons (.call (py!"Field") (.cons (.const (.str (py!"Record Type"))) (.cons (.sub (.name (py!"r")) (.const (.int 0))) (.cons (.const (.fn (py!"field_002"))) .nil))))
      (.cons (.call (py!"Field") (.cons (.const (.str (py!"Customer / Area Code"))) (.cons (.slice (.name (py!"r")) (some 1) (some 4)) (.cons (.const (.fn (py!"field_003"))) .nil))))
      (.cons (.call (py!"Field") (.cons (.const (.str (py!"Section Code"))) (.cons (.bin .add (.sub (.name (py!"r")) (.const (.int 4))) (.sub (.name (py!"r")) (.const (.int 12)))) (.cons (.const (.fn (py!"field_004"))) .nil))))
      (.cons (.call (py!"Field") (.cons (.const (.str (py!"Airport Identifier"))) (.cons (.slice (.name (py!"r")) (some 6) (some 10)) (.cons (.const (.fn (py!"field_006"))) .nil))))
      (.cons (.call (py!"Field") (.cons (.const (.str (py!"ICAO Code"))) (.cons (.slice (.name (py!"r")) (some 10) (some 12)) (.cons (.const (.fn (py!"field_014"))) .nil))))
      (.cons (.call (py!"Field") (.cons (.const (.str (py!"Localizer Identifier"))) (.cons (.slice (.name (py!"r")) (some 13) (some 17)) (.cons (.const (.fn (py!"field_044"))) .nil))))
      (.cons (.call (py!"Field") (.cons (.const (.str (py!"ILS Category"))) (.cons (.sub (.name (py!"r")) (.const (.int 17))) (.cons (.const (.fn (py!"field_080"))) .nil))))
      (.cons (.call (py!"Field") (.cons (.const (.str (py!"Continuation Record No"))) (.cons (.sub (.name (py!"r")) (.const (.int 21))) (.cons (.const (.fn (py!"field_016"))) .nil))))
      (.cons (.call (py!"Field") (.cons (.const (.str (py!"Localizer Frequency"))) (.cons (.slice (.name (py!"r")) (some 22) (some 27)) (.cons (.const (.fn (py!"field_045"))) .nil))))
      (.cons (.call (py!"Field") (.cons (.const (.str (py!"Runway Identifier"))) (.cons (.slice (.name (py!"r")) (some 27) (some 32)) (.cons (.const (.fn (py!"field_046"))) .nil))))
      (.cons (.call (py!"Field") (.cons (.const (.str (py!"Localizer Latitude"))) (.cons (.slice (.name (py!"r")) (some 32) (some 41)) (.cons (.const (.fn (py!"field_036"))) .nil))))
      (.cons (.call (py!"Field") (.cons (.const (.str (py!"Localizer Longitude"))) (.cons (.slice (.name (py!"r")) (some 41) (some 51)) (.cons (.const (.fn (py!"field_037"))) .nil))))
      (.cons (.call (py!"Field") (.cons (.const (.str (py!"Localizer Bearing"))) (.cons (.slice (.name (py!"r")) (some 51) (some 55)) (.cons (.const (.fn (py!"field_047"))) .nil))))
      (.cons (.call (py!"Field") (.cons (.const (.str (py!"Glide Slope Latitude"))) (.cons (.slice (.name (py!"r")) (some 55) (some 64)) (.cons (.const (.fn (py!"field_036"))) .nil))))
      (.cons (.call (py!"Field") (.cons (.const (.str (py!"Glide Slope Longitude"))) (.cons (.slice (.name (py!"r")) (some 64) (some 74)) (.cons (.const (.fn (py!"field_037"))) .nil))))
      (.cons (.call (py!"Field") (.cons (.const (.str (py!"Localizer Position"))) (.cons (.slice (.name (py!"r")) (some 74) (some 78)) (.cons (.const (.fn (py!"field_048"))) .nil))))
      (.cons (.call (py!"Field") (.cons (.const (.str (py!"Localizer Position Reference"))) (.cons (.sub (.name (py!"r")) (.const (.int 78))) (.cons (.const (.fn (py!"field_049"))) .nil))))
      (.cons (.call (py!"Field") (.cons (.const (.str (py!"Glide Slope Position"))) (.cons (.slice (.name (py!"r")) (some 79) (some 83)) (.cons (.const (.fn (py!"field_050"))) .nil))))
      (.cons (.call (py!"Field") (.cons (.const (.str (py!"Localizer Width"))) (.cons (.slice (.name (py!"r")) (some 83) (some 87)) (.cons (.const (.fn (py!"field_051"))) .nil))))
      (.cons (.call (py!"Field") (.cons (.const (.str (py!"Glide Slope Angle"))) (.cons (.slice (.name (py!"r")) (some 87) (some 90)) (.cons (.const (.fn (py!"field_052"))) .nil))))
      (.cons (.call (py!"Field") (.cons (.const (.str (py!"Station Declination"))) (.cons (.slice (.name (py!"r")) (some 90) (some 95)) (.cons (.const (.fn (py!"field_066"))) .nil))))
      (.cons (.call (py!"Field") (.cons (.const (.str (py!"Glide Slope Height at Landing Threshold"))) (.cons (.slice (.name (py!"r")) (some 95) (some 97)) (.cons (.const (.fn (py!"field_067"))) .nil))))
      (.cons (.call (py!"Field") (.cons (.const (.str (py!"Glide Slope Elevation"))) (.cons (.slice (.name (py!"r")) (some 97) (some 102)) (.cons (.const (.fn (py!"field_074"))) .nil))))
      (.cons (.call (py!"Field") (.cons (.const (.str (py!"Supporting Facility ID Note 1"))) (.cons (.slice (.name (py!"r")) (some 102) (some 106)) (.cons (.const (.fn (py!"field_033"))) .nil))))
      (.cons (.call (py!"Field") (.cons (.const (.str (py!"Supporting Facility ICAO Code Note 1"))) (.cons (.slice (.name (py!"r")) (some 106) (some 108)) (.cons (.const (.fn (py!"field_014"))) .nil))))
      (.cons (.call (py!"Field") (.cons (.const (.str (py!"Supporting Facility Section Code Note 1"))) (.cons (.slice (.name (py!"r")) (some 108) (some 110)) (.cons (.const (.fn (py!"field_004"))) .nil))))
      (.cons (.call (py!"Field") (.cons (.const (.str (py!"File Record No"))) (.cons (.slice (.name (py!"r")) (some 123) (some 128)) (.cons (.const (.fn (py!"field_031"))) .nil))))
      (.cons (.call (py!"Field") (.cons (.const (.str (py!"Cycle Date"))) (.cons (.slice (.name (py!"r")) (some 128) (some 132)) (.cons (.const (.fn (py!"field_032"))) .nil))))
      .nil))))))))))))))))))))))))))))))⟩

/-- definitions/LocalizerGlideslope.py:64-77 -/
def LocalizerGlideslope_read_cont : Func := ⟨[py!"self", py!"r"], [],
  (.ret (.list (.cons (.call (py!"Field") (.cons (.const (.str (py!"Record Type"))) (.cons (.sub (.name (py!"r")) (.const (.int 0))) (.cons (.const (.fn (py!"field_002"))) .nil))))
      (.cons (.call (py!"Field") (.cons (.const (.str (py!"Customer / Area Code"))) (.cons (.slice (.name (py!"r")) (some 1) (some 4)) (.cons (.const (.fn (py!"field_003"))) .nil))))
      (.cons (.call (py!"Field") (.cons (.const (.str (py!"Section Code"))) (.cons (.bin .add (.sub (.name (py!"r")) (.const (.int 4))) (.sub (.name (py!"r")) (.const (.int 12)))) (.cons (.const (.fn (py!"field_004"))) .nil))))
      (.cons (.call (py!"Field") (.cons (.const (.str (py!"Airport Identifier"))) (.cons (.slice (.name (py!"r")) (some 6) (some 10)) (.cons (.const (.fn (py!"field_006"))) .nil))))
      (.cons (.call (py!"Field") (.cons (.const (.str (py!"ICAO Code"))) (.cons (.slice (.name (py!"r")) (some 10) (some 12)) (.cons (.const (.fn (py!"field_014"))) .nil))))
      (.cons (.call (py!"Field") (.cons (.const (.str (py!"Localizer Identifier"))) (.cons (.slice (.name (py!"r")) (some 13) (some 17)) (.cons (.const (.fn (py!"field_044"))) .nil))))
      (.cons (.call (py!"Field") (.cons (.const (.str (py!"ILS Category"))) (.cons (.sub (.name (py!"r")) (.const (.int 17))) (.cons (.const (.fn (py!"field_080"))) .nil))))
      (.cons (.call (py!"Field") (.cons (.const (.str (py!"Continuation Record No"))) (.cons (.sub (.name (py!"r")) (.const (.int 21))) (.cons (.const (.fn (py!"field_016"))) .nil))))
      (.cons (.call (py!"Field") (.cons (.const (.str (py!"Notes"))) (.cons (.slice (.name (py!"r")) (some 23) (some 92)) (.cons (.const (.fn (py!"field_061"))) .nil))))
      (.cons (.call (py!"Field") (.cons (.const (.str (py!"File Record No"))) (.cons (.slice (.name (py!"r")) (some 123) (some 128)) (.cons (.const (.fn (py!"field_031"))) .nil))))
      (.cons (.call (py!"Field") (.cons (.const (.str (py!"Cycle Date"))) (.cons (.slice (.name (py!"r")) (some 128) (some 132)) (.cons (.const (.fn (py!"field_032"))) .nil))))
      .nil)))))))))))))⟩

/-- definitions/LocalizerGlideslope.py:80-103 -/
def LocalizerGlideslope_read_sim : Func := ⟨[py!"self", py!"r"], [],
  (.ret (.list (.cons (.call (py!"Field") (.cons (.const (.str (py!"Record Type"))) (.cons (.sub (.name (py!"r")) (.const (.int 0))) (.cons (.const (.fn (py!"field_002"))) .nil))))
      (.cons (.call (py!"Field") (.cons (.const (.str (py!"Customer / Area Code"))) (.cons (.slice (.name (py!"r")) (some 1) (some 4)) (.cons (.const (.fn (py!"field_003"))) .nil))))
      (.cons (.call (py!"Field") (.cons (.const (.str (py!"Section Code"))) (.cons (.bin .add (.sub (.name (py!"r")) (.const (.int 4))) (.sub (.name (py!"r")) (.const (.int 12)))) (.cons (.const (.fn (py!"field_004"))) .nil))))
      (.cons (.call (py!"Field") (.cons (.const (.str (py!"Airport Identifier"))) (.cons (.slice (.name (py!"r")) (some 6) (some 10)) (.cons (.const (.fn (py!"field_006"))) .nil))))
      (.cons (.call (py!"Field") (.cons (.const (.str (py!"ICAO Code"))) (.cons (.slice (.name (py!"r")) (some 10) (some 12)) (.cons (.const (.fn (py!"field_014"))) .nil))))
      (.cons (.call (py!"Field") (.cons (.const (.str (py!"Localizer Identifier"))) (.cons (.slice (.name (py!"r")) (some 13) (some 17)) (.cons (.const (.fn (py!"field_044"))) .nil))))
      (.cons (.call (py!"Field") (.cons (.const (.str (py!"ILS Category"))) (.cons (.sub (.name (py!"r")) (.const (.int 17))) (.cons (.const (.fn (py!"field_080"))) .nil))))
      (.cons (.call (py!"Field") (.cons (.const (.str (py!"Continuation Record No"))) (.cons (.sub (.name (py!"r")) (.const (.int 21))) (.cons (.const (.fn (py!"field_016"))) .nil))))
      (.cons (.call (py!"Field") (.cons (.const (.str (py!"Application Type"))) (.cons (.sub (.name (py!"r")) (.const (.int 22))) (.cons (.const (.fn (py!"field_091"))) .nil))))
      (.cons (.call (py!"Field") (.cons (.const (.str (py!"Facility Characteristics"))) (.cons (.slice (.name (py!"r")) (some 27) (some 32)) (.cons (.const (.fn (py!"field_093"))) .nil))))
      (.cons (.call (py!"Field") (.cons (.const (.str (py!"Localizer True Bearing"))) (.cons (.slice (.name (py!"r")) (some 51) (some 56)) (.cons (.const (.fn (py!"field_094"))) .nil))))
      (.cons (.call (py!"Field") (.cons (.const (.str (py!"Localizer Bearing Source"))) (.cons (.sub (.name (py!"r")) (.const (.int 56))) (.cons (.const (.fn (py!"field_095"))) .nil))))
      (.cons (.call (py!"Field") (.cons (.const (.str (py!"Glide Slope Beam Width"))) (.cons (.slice (.name (py!"r")) (some 87) (some 90)) (.cons (.const (.fn (py!"field_096"))) .nil))))
      (.cons (.call (py!"Field") (.cons (.const (.str (py!"Approach Route Ident"))) (.cons (.slice (.name (py!"r")) (some 90) (some 96)) (.cons (.const (.fn (py!"field_010"))) .nil))))
      (.cons (.call (py!"Field") (.cons (.const (.str (py!"Approach Route Ident (2)"))) (.cons (.slice (.name (py!"r")) (some 96) (some 102)) (.cons (.const (.fn (py!"field_010"))) .nil))))
      (.cons (.call (py!"Field") (.cons (.const (.str (py!"Approach Route Ident (3)"))) (.cons (.slice (.name (py!"r")) (some 102) (some 108)) (.cons (.const (.fn (py!"field_010"))) .nil))))
      (.cons (.call (py!"Field") (.cons (.const (.str (py!"Approach Route Ident (4)"))) (.cons (.slice (.name (py!"r")) (some 108) (some 114)) (.cons (.const (.fn (py!"field_010"))) .nil))))
      (.cons (.call (py!"Field") (.cons (.const (.str (py!"Approach Route Ident (5)"))) (.cons (.slice (.name (py!"r")) (some 114) (some 120)) (.cons (.const (.fn (py!"field_010"))) .nil))))
      (.cons (.call (py!"Field") (.cons (.const (.str (py!"File Record No"))) (.cons (.slice (.name (py!"r")) (some 123) (some 128)) (.cons (.const (.fn (py!"field_031"))) .nil))))
      (.cons (.call (py!"Field") (.cons (.const (.str (py!"Cycle Date"))) (.cons (.slice (.name (py!"r")) (some 128) (some 132)) (.cons (.const (.fn (py!"field_032"))) .nil))))
      .nil))))))))))))))))))))))⟩

/-- definitions/LocalizerGlideslope.py:6-103, class `LocalizerGlideslope` -/
def LocalizerGlideslope : Class :=
  ⟨[(py!"cont_idx", (.int 21)), (py!"app_idx", (.int 22)), (py!"continuations", (.list [(.str (py!"A")), (.str (py!"S"))])), (py!"name", (.str (py!"Localizer and Glide Slope")))],
   [(py!"application_type", LocalizerGlideslope_application_type),
    (py!"read", LocalizerGlideslope_read),
    (py!"read_primary", LocalizerGlideslope_read_primary),
    (py!"read_cont", LocalizerGlideslope_read_cont),
    (py!"read_sim", LocalizerGlideslope_read_sim)]⟩

/-- definitions/LocalizerMarker.py:13-14 -/
def LocalizerMarker_application_type : Func := ⟨[py!"self", py!"line"], [],
  (.ret (.sub (.name (py!"line")) (.attr (.name (py!"self")) (py!"app_idx"))))⟩

/-- definitions/LocalizerMarker.py:16-26 -/
def LocalizerMarker_read : Func := ⟨[py!"self", py!"line", py!"primary"], [],
  (.seq (.ite (.name (py!"primary"))
    (.ret (.invoke (.name (py!"self")) (py!"read_primary") (.cons (.name (py!"line")) .nil)))
    .pass)
  (.seq (.assign (py!"application") (.sub (.name (py!"line")) (.attr (.name (py!"self")) (py!"app_idx"))))
  (.matchOn (.name (py!"application"))
    (.case (.str (py!"A")) (.ret (.invoke (.name (py!"self")) (py!"read_cont") (.cons (.name (py!"line")) .nil)))
    (.ret (.list .nil))))))⟩

/-- definitions/LocalizerMarker.py:29-53 -/
def LocalizerMarker_read_primary : Func := ⟨[py!"self", py!"r"], [],
  (.ret (.list (.cons (.call (py!"Field") (.cons (.const (.str (py!"Record Type"))) (.cons (.sub (.name (py!"r")) (.const (.int 0))) (.cons (.const (.fn (py!"field_002"))) .nil))))
      (.cons (.call (py!"Field") (.cons (.const (.str (py!"Customer / Area Code"))) (.cons (.slice (.name (py!"r")) (some 1) (some 4)) (.cons (.const (.fn (py!"field_003"))) .nil))))
      (.cons (.call (py!"Field") (.cons (.const (.str (py!"Section Code"))) (.cons (.bin .add (.sub (.name (py!"r")) (.const (.int 4))) (.sub (.name (py!"r")) (.const (.int 12)))) (.cons (.const (.fn (py!"field_004"))) .nil))))
      (.cons (.call (py!"Field") (.cons (.const (.str (py!"Airport Identifier"))) (.cons (.slice (.name (py!"r")) (some 6) (some 10)) (.cons (.const (.fn (py!"field_006"))) .nil))))
      (.cons (.call (py!"Field") (.cons (.const (.str (py!"ICAO Code"))) (.cons (.slice (.name (py!"r")) (some 10) (some 12)) (.cons (.const (.fn (py!"field_014"))) .nil))))
      (.cons (.call (py!"Field") (.cons (.const (.str (py!"Localizer Identifier"))) (.cons (.slice (.name (py!"r")) (some 13) (some 17)) (.cons (.const (.fn (py!"field_044"))) .nil))))
      (.cons (.call (py!"Field") (.cons (.const (.str (py!"Marker Type"))) (.cons (.slice (.name (py!"r")) (some 17) (some 20)) (.cons (.const (.fn (py!"field_099"))) .nil))))
      (.cons (.call (py!"Field") (.cons (.const (.str (py!"Continuation Record No"))) (.cons (.sub (.name (py!"r")) (.const (.int 21))) (.cons (.const (.fn (py!"field_016"))) .nil))))
      (.cons (.call (py!"Field") (.cons (.const (.str (py!"Locator Frequency"))) (.cons (.slice (.name (py!"r")) (some 22) (some 27)) (.cons (.const (.fn (py!"field_034"))) .nil))))
      (.cons (.call (py!"Field") (.cons (.const (.str (py!"Runway Identifier"))) (.cons (.slice (.name (py!"r")) (some 27) (some 32)) (.cons (.const (.fn (py!"field_046"))) .nil))))
      (.cons (.call (py!"Field") (.cons (.const (.str (py!"Marker Latitude"))) (.cons (.slice (.name (py!"r")) (some 32) (some 41)) (.cons (.const (.fn (py!"field_036"))) .nil))))
      (.cons (.call (py!"Field") (.cons (.const (.str (py!"Marker Longitude"))) (.cons (.slice (.name (py!"r")) (some 41) (some 51)) (.cons (.const (.fn (py!"field_037"))) .nil))))
      (.cons (.call (py!"Field") (.cons (.const (.str (py!"Minor Axis Bearing"))) (.cons (.slice (.name (py!"r")) (some 51) (some 55)) (.cons (.const (.fn (py!"field_100"))) .nil))))
      (.cons (.call (py!"Field") (.cons (.const (.str (py!"Locator Latitude"))) (.cons (.slice (.name (py!"r")) (some 55) (some 64)) (.cons (.const (.fn (py!"field_036"))) .nil))))
      (.cons (.call (py!"Field") (.cons (.const (.str (py!"Locator Longitude"))) (.cons (.slice (.name (py!"r")) (some 64) (some 74)) (.cons (.const (.fn (py!"field_037"))) .nil))))
      (.cons (.call (py!"Field") (.cons (.const (.str (py!"Localizer Class"))) (.cons (.slice (.name (py!"r")) (some 74) (some 79)) (.cons (.const (.fn (py!"field_035"))) .nil))))
      (.cons (.call (py!"Field") (.cons (.const (.str (py!"Localizer Facility Characteristics"))) (.cons (.slice (.name (py!"r")) (some 79) (some 83)) (.cons (.const (.fn (py!"field_093"))) .nil))))
      (.cons (.call (py!"Field") (.cons (.const (.str (py!"Localizer Identifier (2)"))) (.cons (.slice (.name (py!"r")) (some 84) (some 88)) (.cons (.const (.fn (py!"field_033"))) .nil))))
      (.cons (.call (py!"Field") (.cons (.const (.str (py!"Magnetic Variation"))) (.cons (.slice (.name (py!"r")) (some 90) (some 95)) (.cons (.const (.fn (py!"field_039"))) .nil))))
      (.cons (.call (py!"Field") (.cons (.const (.str (py!"Facility Elevation"))) (.cons (.slice (.name (py!"r")) (some 97) (some 102)) (.cons (.const (.fn (py!"field_092"))) .nil))))
      (.cons (.call (py!"Field") (.cons (.const (.str (py!"File Record No"))) (.cons (.slice (.name (py!"r")) (some 123) (some 128)) (.cons (.const (.fn (py!"field_031"))) .nil))))
      (.cons (.call (py!"Field") (.cons (.const (.str (py!"Cycle Date"))) (.cons (.slice (.name (py!"r")) (some 128) (some 132)) (.cons (.const (.fn (py!"field_032"))) .nil))))
      .nil))))))))))))))))))))))))⟩

/-- definitions/LocalizerMarker.py:56-69 -/
def LocalizerMarker_read_cont : Func := ⟨[py!"self", py!"r"], [],
  (.ret (.list (.cons (.call (py!"Field") (.cons (.const (.str (py!"Record Type"))) (.cons (.sub (.name (py!"r")) (.const (.int 0))) (.cons (.const (.fn (py!"field_002"))) .nil))))
      (.cons (.call (py!"Field") (.cons (.const (.str (py!"Customer / Area Code"))) (.cons (.slice (.name (py!"r")) (some 1) (some 4)) (.cons (.const (.fn (py!"field_003"))) .nil))))
      (.cons (.call (py!"Field") (.cons (.const (.str (py!"Section Code"))) (.cons (.bin .add (.sub (.name (py!"r")) (.const (.int 4))) (.sub (.name (py!"r")) (.const (.int 12)))) (.cons (.const (.fn (py!"field_004"))) .nil))))
      (.cons (.call (py!"Field") (.cons (.const (.str (py!"Airport Identifier"))) (.cons (.slice (.name (py!"r")) (some 6) (some 10)) (.cons (.const (.fn (py!"field_006"))) .nil))))
      (.cons (.call (py!"Field") (.cons (.const (.str (py!"ICAO Code"))) (.cons (.slice (.name (py!"r")) (some 10) (some 12)) (.cons (.const (.fn (py!"field_014"))) .nil))))
      (.cons (.call (py!"Field") (.cons (.const (.str (py!"Localizer Identifier"))) (.cons (.slice (.name (py!"r")) (some 13) (some 17)) (.cons (.const (.fn (py!"field_044"))) .nil))))
      (.cons (.call (py!"Field") (.cons (.const (.str (py!"Marker Type"))) (.cons (.slice (.name (py!"r")) (some 17) (some 20)) (.cons (.const (.fn (py!"field_099"))) .nil))))
      (.cons (.call (py!"Field") (.cons (.const (.str (py!"Continuation Record No"))) (.cons (.sub (.name (py!"r")) (.const (.int 21))) (.cons (.const (.fn (py!"field_016"))) .nil))))
      (.cons (.call (py!"Field") (.cons (.const (.str (py!"Application Type"))) (.cons (.sub (.name (py!"r")) (.const (.int 22))) (.cons (.const (.fn (py!"field_091"))) .nil))))
      (.cons (.call (py!"Field") (.cons (.const (.str (py!"File Record No"))) (.cons (.slice (.name (py!"r")) (some 123) (some 128)) (.cons (.const (.fn (py!"field_031"))) .nil))))
      (.cons (.call (py!"Field") (.cons (.const (.str (py!"Cycle Date"))) (.cons (.slice (.name (py!"r")) (some 128) (some 132)) (.cons (.const (.fn (py!"field_032"))) .nil))))
      .nil)))))))))))))⟩

/-- definitions/LocalizerMarker.py:6-69, class `LocalizerMarker` -/
def LocalizerMarker : Class :=
  ⟨[(py!"cont_idx", (.int 21)), (py!"app_idx", (.int 22)), (py!"continuations", (.list [(.str (py!"A"))])), (py!"name", (.str (py!"Localizer Marker")))],
   [(py!"application_type", LocalizerMarker_application_type),
    (py!"read", LocalizerMarker_read),
    (py!"read_primary", LocalizerMarker_read_primary),
    (py!"read_cont", LocalizerMarker_read_cont)]⟩

/-- definitions/PathPoint.py:13-14 -/
def PathPoint_application_type : Func := ⟨[py!"self", py!"line"], [],
  (.ret (.sub (.name (py!"line")) (.attr (.name (py!"self")) (py!"app_idx"))))⟩

/-- definitions/PathPoint.py:16-26 -/
def PathPoint_read : Func := ⟨[py!"self", py!"line", py!"primary"], [],
  (.seq (.ite (.name (py!"primary"))
    (.ret (.invoke (.name (py!"self")) (py!"read_primary") (.cons (.name (py!"line")) .nil)))
    .pass)
  (.seq (.assign (py!"application") (.sub (.name (py!"line")) (.attr (.name (py!"self")) (py!"app_idx"))))
  (.matchOn (.name (py!"application"))
    (.case (.str (py!"E")) (.ret (.invoke (.name (py!"self")) (py!"read_cont") (.cons (.name (py!"line")) .nil)))
    (.raise (.cons (.const (.str (py!"bad path point"))) (.cons (.sub (.name (py!"line")) (.attr (.name (py!"self")) (py!"app_idx"))) .nil)))))))⟩

/-- definitions/PathPoint.py:29-60 -/
def PathPoint_read_primary : Func := ⟨[py!"self", py!"r"], [],
  (.ret (.list (.cons (.call (py!"Field") (.cons (.const (.str (py!"Record Type"))) (.cons (.sub (.name (py!"r")) (.const (.int 0))) (.cons (.const (.fn (py!"field_002"))) .nil))))
      (.cons (.call (py!"Field") (.cons (.const (.str (py!"Customer / Area Code"))) (.cons (.slice (.name (py!"r")) (some 1) (some 4)) (.cons (.const (.fn (py!"field_003"))) .nil))))
      (.cons (.call (py!"Field") (.cons (.const (.str (py!"Section Code"))) (.cons (.bin .add (.sub (.name (py!"r")) (.const (.int 4))) (.sub (.name (py!"r")) (.const (.int 12)))) (.cons (.const (.fn (py!"field_004"))) .nil))))
      (.cons (.call (py!"Field") (.cons (.const (.str (py!"Airport Identifier"))) (.cons (.slice (.name (py!"r")) (some 6) (some 10)) (.cons (.const (.fn (py!"field_006"))) .nil))))
      (.cons (.call (py!"Field") (.cons (.const (.str (py!"ICAO Code"))) (.cons (.slice (.name (py!"r")) (some 10) (some 12)) (.cons (.const (.fn (py!"field_014"))) .nil))))
      (.cons (.call (py!"Field") (.cons (.const (.str (py!"Approach Procedure Ident"))) (.cons (.slice (.name (py!"r")) (some 13) (some 19)) (.cons (.const (.fn (py!"field_010"))) .nil))))
      (.cons (.call (py!"Field") (.cons (.const (.str (py!"Runway or Helipad Ident"))) (.cons (.slice (.name (py!"r")) (some 19) (some 24)) (.cons (.const (.fn (py!"field_046"))) .nil))))
      (.cons (.call (py!"Field") (.cons (.const (.str (py!"Operation Type"))) (.cons (.slice (.name (py!"r")) (some 24) (some 26)) (.cons (.const (.fn (py!"field_223"))) .nil))))
      (.cons (.call (py!"Field") (.cons (.const (.str (py!"Continuation Record No"))) (.cons (.sub (.name (py!"r")) (.const (.int 26))) (.cons (.const (.fn (py!"field_016"))) .nil))))
      (.cons (.call (py!"Field") (.cons (.const (.str (py!"Route Identifier"))) (.cons (.sub (.name (py!"r")) (.const (.int 27))) (.cons (.const (.fn (py!"field_224"))) .nil))))
      (.cons (.call (py!"Field") (.cons (.const (.str (py!"SBAS Service Provider Ident"))) (.cons (.slice (.name (py!"r")) (some 28) (some 30)) (.cons (.const (.fn (py!"field_255"))) .nil))))
      (.cons (.call (py!"Field") (.cons (.const (.str (py!"Reference Path Data Selector"))) (.cons (.slice (.name (py!"r")) (some 30) (some 32)) (.cons (.const (.fn (py!"field_256"))) .nil))))
      (.cons (.call (py!"Field") (.cons (.const (.str (py!"Reference Path Identifier"))) (.cons (.slice (.name (py!"r")) (some 32) (some 36)) (.cons (.const (.fn (py!"field_257"))) .nil))))
      (.cons (.call (py!"Field") (.cons (.const (.str (py!"Approach Performance Designator"))) (.cons (.sub (.name (py!"r")) (.const (.int 36))) (.cons (.const (.fn (py!"field_258"))) .nil))))
      (.cons (.call (py!"Field") (.cons (.const (.str (py!"Landing Threshold Point Latitude"))) (.cons (.slice (.name (py!"r")) (some 37) (some 48)) (.cons (.const (.fn (py!"field_267"))) .nil))))
      (.cons (.call (py!"Field") (.cons (.const (.str (py!"Landing Threshold Point Longitude"))) (.cons (.slice (.name (py!"r")) (some 48) (some 60)) (.cons (.const (.fn (py!"field_268"))) .nil))))
      (.cons (.call (py!"Field") (.cons (.const (.str (py!"(LTP) Ellipsoid Height"))) (.cons (.slice (.name (py!"r")) (some 60) (some 66)) (.cons (.const (.fn (py!"field_225"))) .nil))))
      (.cons (.call (py!"Field") (.cons (.const (.str (py!"Glide Path Angle"))) (.cons (.slice (.name (py!"r")) (some 66) (some 70)) (.cons (.const (.fn (py!"field_226"))) .nil))))
      (.cons (.call (py!"Field") (.cons (.const (.str (py!"Flight Path Alignment Point Latitude"))) (.cons (.slice (.name (py!"r")) (some 70) (some 81)) (.cons (.const (.fn (py!"field_267"))) .nil))))
      (.cons (.call (py!"Field") (.cons (.const (.str (py!"Flight Path Alignment Point Longitude"))) (.cons (.slice (.name (py!"r")) (some 81) (some 93)) (.cons (.const (.fn (py!"field_268"))) .nil))))
      (.cons (.call (py!"Field") (.cons (.const (.str (py!"Course Width at Threshold Note 4"))) (.cons (.slice (.name (py!"r")) (some 93) (some 98)) (.cons (.const (.fn (py!"field_228"))) .nil))))
      (.cons (.call (py!"Field") (.cons (.const (.str (py!"Length Offset"))) (.cons (.slice (.name (py!"r")) (some 98) (some 102)) (.cons (.const (.fn (py!"field_259"))) .nil))))
      (.cons (.call (py!"Field") (.cons (.const (.str (py!"Path Point TCH"))) (.cons (.slice (.name (py!"r")) (some 102) (some 108)) (.cons (.const (.fn (py!"field_265"))) .nil))))
      (.cons (.call (py!"Field") (.cons (.const (.str (py!"TCH Units Indicator"))) (.cons (.sub (.name (py!"r")) (.const (.int 108))) (.cons (.const (.fn (py!"field_266"))) .nil))))
      (.cons (.call (py!"Field") (.cons (.const (.str (py!"HAL"))) (.cons (.slice (.name (py!"r")) (some 109) (some 112)) (.cons (.const (.fn (py!"field_263"))) .nil))))
      (.cons (.call (py!"Field") (.cons (.const (.str (py!"VAL"))) (.cons (.slice (.name (py!"r")) (some 112) (some 115)) (.cons (.const (.fn (py!"field_264"))) .nil))))
      (.cons (.call (py!"Field") (.cons (.const (.str (py!"SBAS FAS Data CRC Remainder"))) (.cons (.slice (.name (py!"r")) (some 115) (some 123)) (.cons (.const (.fn (py!"field_229"))) .nil))))
      (.cons (.call (py!"Field") (.cons (.const (.str (py!"File Record No"))) (.cons (.slice (.name (py!"r")) (some 123) (some 128)) (.cons (.const (.fn (py!"field_031"))) .nil))))
      (.cons (.call (py!"Field") (.cons (.const (.str (py!"Cycle Date"))) (.cons (.slice (.name (py!"r")) (some 128) (some 132)) (.cons (.const (.fn (py!"field_032"))) .nil))))
      .nil)))))))))))))))))))))))))))))))⟩

/-- definitions/PathPoint.py:63-83 -/
def PathPoint_read_cont : Func := ⟨[py!"self", py!"r"], [],
  (.ret (.list (.cons (.call (py!"Field") (.cons (.const (.str (py!"Record Type"))) (.cons (.sub (.name (py!"r")) (.const (.int 0))) (.cons (.const (.fn (py!"field_002"))) .nil))))
      (.cons (.call (py!"Field") (.cons (.const (.str (py!"Customer / Area Code"))) (.cons (.slice (.name (py!"r")) (some 1) (some 4)) (.cons (.const (.fn (py!"field_003"))) .nil))))
      (.cons (.call (py!"Field") (.cons (.const (.str (py!"Section Code"))) (.cons (.bin .add (.sub (.name (py!"r")) (.const (.int 4))) (.sub (.name (py!"r")) (.const (.int 12)))) (.cons (.const (.fn (py!"field_004"))) .nil))))
      (.cons (.call (py!"Field") (.cons (.const (.str (py!"Airport Identifier"))) (.cons (.slice (.name (py!"r")) (some 6) (some 10)) (.cons (.const (.fn (py!"field_006"))) .nil))))
      (.cons (.call (py!"Field") (.cons (.const (.str (py!"ICAO Code"))) (.cons (.slice (.name (py!"r")) (some 10) (some 12)) (.cons (.const (.fn (py!"field_014"))) .nil))))
      (.cons (.call (py!"Field") (.cons (.const (.str (py!"Approach Procedure Ident"))) (.cons (.slice (.name (py!"r")) (some 13) (some 19)) (.cons (.const (.fn (py!"field_010"))) .nil))))
      (.cons (.call (py!"Field") (.cons (.const (.str (py!"Runway or Helipad Ident"))) (.cons (.slice (.name (py!"r")) (some 19) (some 24)) (.cons (.const (.fn (py!"field_046"))) .nil))))
      (.cons (.call (py!"Field") (.cons (.const (.str (py!"Operation Type"))) (.cons (.slice (.name (py!"r")) (some 24) (some 26)) (.cons (.const (.fn (py!"field_223"))) .nil))))
      (.cons (.call (py!"Field") (.cons (.const (.str (py!"Continuation Record No"))) (.cons (.sub (.name (py!"r")) (.const (.int 26))) (.cons (.const (.fn (py!"field_016"))) .nil))))
      (.cons (.call (py!"Field") (.cons (.const (.str (py!"Application Type"))) (.cons (.sub (.name (py!"r")) (.const (.int 27))) (.cons (.const (.fn (py!"field_091"))) .nil))))
      (.cons (.call (py!"Field") (.cons (.const (.str (py!"(FPAP) Ellipsoid Height"))) (.cons (.slice (.name (py!"r")) (some 28) (some 34)) (.cons (.const (.fn (py!"field_225"))) .nil))))
      (.cons (.call (py!"Field") (.cons (.const (.str (py!"(FPAP) Orthometric Height"))) (.cons (.slice (.name (py!"r")) (some 34) (some 40)) (.cons (.const (.fn (py!"field_227"))) .nil))))
      (.cons (.call (py!"Field") (.cons (.const (.str (py!"(LTP) Orthometric Height"))) (.cons (.slice (.name (py!"r")) (some 40) (some 46)) (.cons (.const (.fn (py!"field_227"))) .nil))))
      (.cons (.call (py!"Field") (.cons (.const (.str (py!"Approach Type Identifier"))) (.cons (.slice (.name (py!"r")) (some 46) (some 56)) (.cons (.const (.fn (py!"field_262"))) .nil))))
      (.cons (.call (py!"Field") (.cons (.const (.str (py!"GNSS Channel Number"))) (.cons (.slice (.name (py!"r")) (some 56) (some 61)) (.cons (.const (.fn (py!"field_244"))) .nil))))
      (.cons (.call (py!"Field") (.cons (.const (.str (py!"Helicopter Procedure Course"))) (.cons (.slice (.name (py!"r")) (some 71) (some 74)) (.cons (.const (.fn (py!"field_269"))) .nil))))
      (.cons (.call (py!"Field") (.cons (.const (.str (py!"File Record No"))) (.cons (.slice (.name (py!"r")) (some 123) (some 128)) (.cons (.const (.fn (py!"field_031"))) .nil))))
      (.cons (.call (py!"Field") (.cons (.const (.str (py!"Cycle Date"))) (.cons (.slice (.name (py!"r")) (some 128) (some 132)) (.cons (.const (.fn (py!"field_032"))) .nil))))
      .nil))))))))))))))))))))⟩

/-- definitions/PathPoint.py:6-83, class `PathPoint` -/
def PathPoint : Class :=
  ⟨[(py!"cont_idx", (.int 26)), (py!"app_idx", (.int 27)), (py!"continuations", (.list [(.str (py!"E"))])), (py!"name", (.str (py!"Path Point")))],
   [(py!"application_type", PathPoint_application_type),
    (py!"read", PathPoint_read),
    (py!"read_primary", PathPoint_read_primary),
    (py!"read_cont", PathPoint_read_cont)]⟩

/-- definitions/FlightPlanning.py:13-14 -/
def FlightPlanning_application_type : Func := ⟨[py!"self", py!"line"], [],
  (.ret (.sub (.name (py!"line")) (.attr (.name (py!"self")) (py!"app_idx"))))⟩

/-- definitions/FlightPlanning.py:16-28 -/
def FlightPlanning_read : Func := ⟨[py!"self", py!"line", py!"primary"], [],
  (.seq (.ite (.name (py!"primary"))
    (.ret (.invoke (.name (py!"self")) (py!"read_primary") (.cons (.name (py!"line")) .nil)))
    .pass)
  (.seq (.assign (py!"application") (.sub (.name (py!"line")) (.attr (.name (py!"self")) (py!"app_idx"))))
  (.matchOn (.name (py!"application"))
    (.case (.str (py!"A")) (.ret (.invoke (.name (py!"self")) (py!"read_cont") (.cons (.name (py!"line")) .nil)))
    (.case (.str (py!"T")) (.ret (.invoke (.name (py!"self")) (py!"read_timeop") (.cons (.name (py!"line")) .nil)))
    (.ret (.list .nil)))))))⟩

/-- definitions/FlightPlanning.py:31-74 -/
def FlightPlanning_read_primary : Func := ⟨[py!"self", py!"r"], [],
  (.ret (.list (.cons (.call (py!"Field") (.cons (.const (.str (py!"Record Type"))) (.cons (.sub (.name (py!"r")) (.const (.int 0))) (.cons (.const (.fn (py!"field_002"))) .nil))))
      (.cons (.call (py!"Field") (.cons (.const (.str (py!"Customer / Area Code"))) (.cons (.slice (.name (py!"r")) (some 1) (some 4)) (.cons (.const (.fn (py!"field_003"))) .nil))))
      (.cons (.call (py!"Field") (.cons (.const (.str (py!"Section Code"))) (.cons (.bin .add (.sub (.name (py!"r")) (.const (.int 4))) (.sub (.name (py!"r")) (.const (.int 12)))) (.cons (.const (.fn (py!"field_004"))) .nil))))
      (.cons (.call (py!"Field") (.cons (.const (.str (py!"Airport Identifier"))) (.cons (.slice (.name (py!"r")) (some 6) (some 10)) (.cons (.const (.fn (py!"field_006"))) .nil))))
      (.cons (.call (py!"Field") (.cons (.const (.str (py!"ICAO Code"))) (.cons (.slice (.name (py!"r")) (some 10) (some 12)) (.cons (.const (.fn (py!"field_014"))) .nil))))
      (.cons (.call (py!"Field") (.cons (.const (.str (py!"SID/STAR/Approach Identifier"))) (.cons (.slice (.name (py!"r")) (some 13) (some 19)) (.cons (.const (.fn (py!"field_009"))) .nil))))
      (.cons (.call (py!"Field") (.cons (.const (.str (py!"Procedure Type"))) (.cons (.sub (.name (py!"r")) (.const (.int 19))) (.cons (.const (.fn (py!"field_230"))) .nil))))
      (.cons (.call (py!"Field") (.cons (.const (.str (py!"Runway Transition Identifier"))) (.cons (.slice (.name (py!"r")) (some 20) (some 25)) (.cons (.const (.fn (py!"field_011"))) .nil))))
      (.cons (.call (py!"Field") (.cons (.const (.str (py!"Runway Transition Fix"))) (.cons (.slice (.name (py!"r")) (some 25) (some 30)) (.cons (.const (.fn (py!"field_013"))) .nil))))
      (.cons (.call (py!"Field") (.cons (.const (.str (py!"ICAO Code (2)"))) (.cons (.slice (.name (py!"r")) (some 30) (some 32)) (.cons (.const (.fn (py!"field_014"))) .nil))))
      (.cons (.call (py!"Field") (.cons (.const (.str (py!"Section Code (2)"))) (.cons (.slice (.name (py!"r")) (some 32) (some 34)) (.cons (.const (.fn (py!"field_004"))) .nil))))
      (.cons (.call (py!"Field") (.cons (.const (.str (py!"Runway Transition Along Track Dist"))) (.cons (.slice (.name (py!"r")) (some 34) (some 37)) (.cons (.const (.fn (py!"field_231"))) .nil))))
      (.cons (.call (py!"Field") (.cons (.const (.str (py!"Common Segment Transition Fix"))) (.cons (.slice (.name (py!"r")) (some 37) (some 42)) (.cons (.const (.fn (py!"field_013"))) .nil))))
      (.cons (.call (py!"Field") (.cons (.const (.str (py!"ICAO Code (3)"))) (.cons (.slice (.name (py!"r")) (some 42) (some 44)) (.cons (.const (.fn (py!"field_014"))) .nil))))
      (.cons (.call (py!"Field") (.cons (.const (.str (py!"Section Code (3)"))) (.cons (.slice (.name (py!"r")) (some 44) (some 46)) (.cons (.const (.fn (py!"field_004"))) .nil))))
      (.cons (.call (py!"Field") (.cons (.const (.str (py!"Common Segment Along Track Dist"))) (.cons (.slice (.name (py!"r")) (some 46) (some 49)) (.cons (.const (.fn (py!"field_231"))) .nil))))
      (.cons (.call (py!"Field") (.cons (.const (.str (py!"Enroute Transition Identifier"))) (.cons (.slice (.name (py!"r")) (some 49) (some 54)) (.cons (.const (.fn (py!"field_011"))) .nil))))
      (.cons (.call (py!"Field") (.cons (.const (.str (py!"Enroute Transition Fix"))) (.cons (.slice (.name (py!"r")) (some 54) (some 59)) (.cons (.const (.fn (py!"field_013"))) .nil))))
      (.cons (.call (py!"Field") (.cons (.const (.str (py!"ICAO Code (4)"))) (.cons (.slice (.name (py!"r")) (some 59) (some 61)) (.cons (.const (.fn (py!"field_014"))) .nil))))
      (.cons (.call (py!"Field") (.cons (.const (.str (py!"Section Code (4)"))) (.cons (.slice (.name (py!"r")) (some 61) (some 63)) (.cons (.const (.fn (py!"field_004"))) .nil))))
      (.cons (.call (py!"Field") (.cons (.const (.str (py!"Enroute Transition Along Track Dist"))) (.cons (.slice (.name (py!"r")) (some 63) (some 66)) (.cons (.const (.fn (py!"field_231"))) .nil))))
      (.cons (.call (py!"Field") (.cons (.const (.str (py!"Sequence Number"))) (.cons (.slice (.name (py!"r")) (some 66) (some 69)) (.cons (.const (.fn (py!"field_012"))) .nil))))
      (.cons (.call (py!"Field") (.cons (.const (.str (py!"Continuation Number"))) (.cons (.sub (.name (py!"r")) (.const (.int 69))) (.cons (.const (.fn (py!"field_016"))) .nil))))
      (.cons (.call (py!"Field") (.cons (.const (.str (py!"Number of Engines"))) (.cons (.slice (.name (py!"r")) (some 70) (some 74)) (.cons (.const (.fn (py!"field_232"))) .nil))))
      (.cons (.call (py!"Field") (.cons (.const (.str (py!"Turboprop/Jet Indicator"))) (.cons (.sub (.name (py!"r")) (.const (.int 74))) (.cons (.const (.fn (py!"field_233"))) .nil))))
      (.cons (.call (py!"Field") (.cons (.const (.str (py!"RNAV Flag"))) (.cons (.sub (.name (py!"r")) (.const (.int 75))) (.cons (.const (.fn (py!"field_234"))) .nil))))
      (.cons (.call (py!"Field") (.cons (.const (.str (py!"ATC Weight Category"))) (.cons (.sub (.name (py!"r")) (.const (.int 76))) (.cons (.const (.fn (py!"field_235"))) .nil))))
      (.cons (.call (py!"Field") (.cons (.const (.str (py!"ATC Identifier"))) (.cons (.slice (.name (py!"r")) (some 77) (some 84)) (.cons (.const (.fn (py!"field_236"))) .nil))))
      (.cons (.call (py!"Field") (.cons (.const (.str (py!"Time Code"))) (.cons (.sub (.name (py!"r")) (.const (.int 84))) (.cons (.const (.fn (py!"field_131"))) .nil))))
      (.cons (.call (py!"Field") (.cons (.const (.str (py!"Procedure Description"))) (.cons (.slice (.name (py!"r")) (some 85) (some 100)) (.cons (.const (.fn (py!"field_237"))) .nil))))
      (.cons (.call (py!"Field") (.cons (.const (.str (py!"Leg Type Code"))) (.cons (.slice (.name (py!"r")) (some 100) (some 102)) (.cons (.const (.fn (py!"field_238"))) .nil))))
      (.cons (.call (py!"Field") (.cons (.const (.str (py!"Reporting Code"))) (.cons (.sub (.name (py!"r")) (.const (.int 102))) (.cons (.const (.fn (py!"field_239"))) .nil))))
      (.cons (.call (py!"Field") (.cons (.const (.str (py!"Initial Departure Magnetic Course"))) (.cons (.slice (.name (py!"r")) (some 103) (some 107)) (.cons (.const (.fn (py!"field_026"))) .nil))))
      (.cons (.call (py!"Field") (.cons (.const (.str (py!"Altitude Description"))) (.cons (.sub (.name (py!"r")) (.const (.int 107))) (.cons (.const (.fn (py!"field_029"))) .nil))))
      (.cons (.call (py!"Field") (.cons (.const (.str (py!"Altitude"))) (.cons (.slice (.name (py!"r")) (some 108) (some 111)) (.cons (.const (.fn (py!"field_240"))) .nil))))
      (.cons (.call (py!"Field") (.cons (.const (.str (py!"Altitude (2)"))) (.cons (.slice (.name (py!"r")) (some 111) (some 114)) (.cons (.const (.fn (py!"field_240"))) .nil))))
      (.cons (.call (py!"Field") (.cons (.const (.str (py!"Speed Limit"))) (.cons (.slice (.name (py!"r")) (some 114) (some 117)) (.cons (.const (.fn (py!"field_072"))) .nil))))
      (.cons (.call (py!"Field") (.cons (.const (.str (py!"Initial Cruise Table"))) (.cons (.slice (.name (py!"r")) (some 117) (some 119)) (.cons (.const (.fn (py!"field_134"))) .nil))))
      (.cons (.call (py!"Field") (.cons (.const (.str (py!"Speed Limit Description"))) (.cons (.sub (.name (py!"r")) (.const (.int 119))) (.cons (.const (.fn (py!"field_261"))) .nil))))
      (.cons (.call (py!"Field") (.cons (.const (.str (py!"File Record No"))) (.cons (.slice (.name (py!"r")) (some 123) (some 128)) (.cons (.const (.fn (py!"field_031"))) .nil))))
      (.cons (.call (py!"Field") (.cons (.const (.str (py!"Cycle Date"))) (.cons (.slice (.name (py!"r")) (some 128) (some 132)) (.cons (.const (.fn (py!"field_032"))) .nil))))
      .nil)))))))))))))))))))))))))))))))))))))))))))⟩

/-- definitions/FlightPlanning.py:77-115 -/
def FlightPlanning_read_cont : Func := ⟨[py!"self", py!"r"], [],
  (.ret (.list (.cons (.call (py!"Field") (.cons (.const (.str (py!"Record Type"))) (.cons (.sub (.name (py!"r")) (.const (.int 0))) (.cons (.const (.fn (py!"field_002"))) .nil))))
      (.cons (.call (py!"Field") (.cons (.const (.str (py!"Customer / Area Code"))) (.cons (.slice (.name (py!"r")) (some 1) (some 4)) (.cons (.const (.fn (py!"field_003"))) .nil))))
      (.cons (.call (py!"Field") (.cons (.const (.str (py!"Section Code"))) (.cons (.bin .add (.sub (.name (py!"r")) (.const (.int 4))) (.sub (.name (py!"r")) (.const (.int 12)))) (.cons (.const (.fn (py!"field_004"))) .nil))))
      (.cons (.call (py!"Field") (.cons (.const (.str (py!"Airport Identifier"))) (.cons (.slice (.name (py!"r")) (some 6) (some 10)) (.cons (.const (.fn (py!"field_006"))) .nil))))
      (.cons (.call (py!"Field") (.cons (.const (.str (py!"ICAO Code"))) (.cons (.slice (.name (py!"r")) (some 10) (some 12)) (.cons (.const (.fn (py!"field_014"))) .nil))))
      (.cons (.call (py!"Field") (.cons (.const (.str (py!"SID/STAR/Approach Identifier"))) (.cons (.slice (.name (py!"r")) (some 13) (some 19)) (.cons (.const (.fn (py!"field_009"))) .nil))))
      (.cons (.call (py!"Field") (.cons (.const (.str (py!"Procedure Type"))) (.cons (.sub (.name (py!"r")) (.const (.int 19))) (.cons (.const (.fn (py!"field_230"))) .nil))))
      (.cons (.call (py!"Field") (.cons (.const (.str (py!"Runway Transition Identifier"))) (.cons (.slice (.name (py!"r")) (some 20) (some 25)) (.cons (.const (.fn (py!"field_011"))) .nil))))
      (.cons (.call (py!"Field") (.cons (.const (.str (py!"Runway Transition Fix"))) (.cons (.slice (.name (py!"r")) (some 25) (some 30)) (.cons (.const (.fn (py!"field_013"))) .nil))))
      (.cons (.call (py!"Field") (.cons (.const (.str (py!"ICAO Code (2)"))) (.cons (.slice (.name (py!"r")) (some 30) (some 32)) (.cons (.const (.fn (py!"field_014"))) .nil))))
      (.cons (.call (py!"Field") (.cons (.const (.str (py!"Section Code (2)"))) (.cons (.slice (.name (py!"r")) (some 32) (some 34)) (.cons (.const (.fn (py!"field_004"))) .nil))))
      (.cons (.call (py!"Field") (.cons (.const (.str (py!"Runway Transition Along Track Dist"))) (.cons (.slice (.name (py!"r")) (some 34) (some 37)) (.cons (.const (.fn (py!"field_231"))) .nil))))
      (.cons (.call (py!"Field") (.cons (.const (.str (py!"Common Segment Transition Fix"))) (.cons (.slice (.name (py!"r")) (some 37) (some 42)) (.cons (.const (.fn (py!"field_013"))) .nil))))
      (.cons (.call (py!"Field") (.cons (.const (.str (py!"ICAO Code (3)"))) (.cons (.slice (.name (py!"r")) (some 42) (some 44)) (.cons (.const (.fn (py!"field_014"))) .nil))))
      (.cons (.call (py!"Field") (.cons (.const (.str (py!"Section Code (3)"))) (.cons (.slice (.name (py!"r")) (some 44) (some 46)) (.cons (.const (.fn (py!"field_004"))) .nil))))
      (.cons (.call (py!"Field") (.cons (.const (.str (py!"Common Segment Along Track Dist"))) (.cons (.slice (.name (py!"r")) (some 46) (some 49)) (.cons (.const (.fn (py!"field_231"))) .nil))))
      (.cons (.call (py!"Field") (.cons (.const (.str (py!"Enroute Transition Identifier"))) (.cons (.slice (.name (py!"r")) (some 49) (some 54)) (.cons (.const (.fn (py!"field_011"))) .nil))))
      (.cons (.call (py!"Field") (.cons (.const (.str (py!"Enroute Transition Fix"))) (.cons (.slice (.name (py!"r")) (some 54) (some 59)) (.cons (.const (.fn (py!"field_013"))) .nil))))
      (.cons (.call (py!"Field") (.cons (.const (.str (py!"ICAO Code (4)"))) (.cons (.slice (.name (py!"r")) (some 59) (some 61)) (.cons (.const (.fn (py!"field_014"))) .nil))))
      (.cons (.call (py!"Field") (.cons (.const (.str (py!"Section Code (4)"))) (.cons (.slice (.name (py!"r")) (some 61) (some 63)) (.cons (.const (.fn (py!"field_004"))) .nil))))
      (.cons (.call (py!"Field") (.cons (.const (.str (py!"Enroute Transition Along Track Dist"))) (.cons (.slice (.name (py!"r")) (some 63) (some 66)) (.cons (.const (.fn (py!"field_231"))) .nil))))
      (.cons (.call (py!"Field") (.cons (.const (.str (py!"Sequence Number"))) (.cons (.slice (.name (py!"r")) (some 66) (some 69)) (.cons (.const (.fn (py!"field_012"))) .nil))))
      (.cons (.call (py!"Field") (.cons (.const (.str (py!"Continuation Number"))) (.cons (.sub (.name (py!"r")) (.const (.int 69))) (.cons (.const (.fn (py!"field_016"))) .nil))))
      (.cons (.call (py!"Field") (.cons (.const (.str (py!"Application Type"))) (.cons (.sub (.name (py!"r")) (.const (.int 70))) (.cons (.const (.fn (py!"field_091"))) .nil))))
      (.cons (.call (py!"Field") (.cons (.const (.str (py!"Intermediate Fix Identifier"))) (.cons (.slice (.name (py!"r")) (some 71) (some 76)) (.cons (.const (.fn (py!"field_013"))) .nil))))
      (.cons (.call (py!"Field") (.cons (.const (.str (py!"ICAO Code (5)"))) (.cons (.slice (.name (py!"r")) (some 76) (some 78)) (.cons (.const (.fn (py!"field_014"))) .nil))))
      (.cons (.call (py!"Field") (.cons (.const (.str (py!"Section Code (5)"))) (.cons (.slice (.name (py!"r")) (some 91) (some 93)) (.cons (.const (.fn (py!"field_004"))) .nil))))
      (.cons (.call (py!"Field") (.cons (.const (.str (py!"Intermediate Distance"))) (.cons (.slice (.name (py!"r")) (some 106) (some 109)) (.cons (.const (.fn (py!"field_231"))) .nil))))
      (.cons (.call (py!"Field") (.cons (.const (.str (py!"Fix Related Transition Code"))) (.cons (.sub (.name (py!"r")) (.const (.int 109))) (.cons (.const (.fn (py!"field_241"))) .nil))))
      (.cons (.call (py!"Field") (.cons (.const (.str (py!"Intermediate Fix Identifier"))) (.cons (.slice (.name (py!"r")) (some 110) (some 115)) (.cons (.const (.fn (py!"field_013"))) .nil))))
      (.cons (.call (py!"Field") (.cons (.const (.str (py!"ICAO Code (6)"))) (.cons (.slice (.name (py!"r")) (some 115) (some 117)) (.cons (.const (.fn (py!"field_014"))) .nil))))
      (.cons (.call (py!"Field") (.cons (.const (.str (py!"Section Code (6)"))) (.cons (.sub (.name (py!"r")) (.const (.int 118))) (.cons (.const (.fn (py!"field_004"))) .nil))))
      (.cons (.call (py!"Field") (.cons (.const (.str (py!"Intermediate Distance"))) (.cons (.slice (.name (py!"r")) (some 119) (some 122)) (.cons (.const (.fn (py!"field_231"))) .nil))))
      (.cons (.call (py!"Field") (.cons (.const (.str (py!"Fix Related Transition Code"))) (.cons (.sub (.name (py!"r")) (.const (.int 122))) (.cons (.const (.fn (py!"field_241"))) .nil))))
      (.cons (.call (py!"Field") (.cons (.const (.str (py!"File Record No"))) (.cons (.slice (.name (py!"r")) (some 123) (some 128)) (.cons (.const (.fn (py!"field_031"))) .nil))))
      (.cons (.call (py!"Field") (.cons (.const (.str (py!"Cycle Date"))) (.cons (.slice (.name (py!"r")) (some 128) (some 132)) (.cons (.const (.fn (py!"field_032"))) .nil))))
      .nil))))))))))))))))))))))))))))))))))))))⟩

/-- definitions/FlightPlanning.py:118-153 -/
def FlightPlanning_read_timeop : Func := ⟨[py!"self", py!"r"], [],
  (.ret (.list (.cons (.call (py!"Field") (.cons (.const (.str (py!"Record Type"))) (.cons (.sub (.name (py!"r")) (.const (.int 0))) (.cons (.const (.fn (py!"field_002"))) .nil))))
      (.cons (.call (py!"Field") (.cons (.const (.str (py!"Customer / Area Code"))) (.cons (.slice (.name (py!"r")) (some 1) (some 4)) (.cons (.const (.fn (py!"field_003"))) .nil))))
      (.cons (.call (py!"Field") (.cons (.const (.str (py!"Section Code"))) (.cons (.bin .add (.sub (.name (py!"r")) (.const (.int 4))) (.sub (.name (py!"r")) (.const (.int 12)))) (.cons (.const (.fn (py!"field_004"))) .nil))))
      (.cons (.call (py!"Field") (.cons (.const (.str (py!"Airport Identifier"))) (.cons (.slice (.name (py!"r")) (some 6) (some 10)) (.cons (.const (.fn (py!"field_006"))) .nil))))
      (.cons (.call (py!"Field") (.cons (.const (.str (py!"ICAO Code"))) (.cons (.slice (.name (py!"r")) (some 10) (some 12)) (.cons (.const (.fn (py!"field_014"))) .nil))))
      (.cons (.call (py!"Field") (.cons (.const (.str (py!"SID/STAR/Approach Identifier"))) (.cons (.slice (.name (py!"r")) (some 13) (some 19)) (.cons (.const (.fn (py!"field_009"))) .nil))))
      (.cons (.call (py!"Field") (.cons (.const (.str (py!"Procedure Type"))) (.cons (.sub (.name (py!"r")) (.const (.int 19))) (.cons (.const (.fn (py!"field_230"))) .nil))))
      (.cons (.call (py!"Field") (.cons (.const (.str (py!"Runway Transition Identifier"))) (.cons (.slice (.name (py!"r")) (some 20) (some 25)) (.cons (.const (.fn (py!"field_011"))) .nil))))
      (.cons (.call (py!"Field") (.cons (.const (.str (py!"Runway Transition Fix"))) (.cons (.slice (.name (py!"r")) (some 25) (some 30)) (.cons (.const (.fn (py!"field_013"))) .nil))))
      (.cons (.call (py!"Field") (.cons (.const (.str (py!"ICAO Code (2)"))) (.cons (.slice (.name (py!"r")) (some 30) (some 32)) (.cons (.const (.fn (py!"field_014"))) .nil))))
      (.cons (.call (py!"Field") (.cons (.const (.str (py!"Section Code (2)"))) (.cons (.slice (.name (py!"r")) (some 32) (some 34)) (.cons (.const (.fn (py!"field_004"))) .nil))))
      (.cons (.call (py!"Field") (.cons (.const (.str (py!"Runway Transition Along Track Dist"))) (.cons (.slice (.name (py!"r")) (some 34) (some 37)) (.cons (.const (.fn (py!"field_231"))) .nil))))
      (.cons (.call (py!"Field") (.cons (.const (.str (py!"Common Segment Transition Fix"))) (.cons (.slice (.name (py!"r")) (some 37) (some 42)) (.cons (.const (.fn (py!"field_013"))) .nil))))
      (.cons (.call (py!"Field") (.cons (.const (.str (py!"ICAO Code (3)"))) (.cons (.slice (.name (py!"r")) (some 42) (some 44)) (.cons (.const (.fn (py!"field_014"))) .nil))))
      (.cons (.call (py!"Field") (.cons (.const (.str (py!"Section Code (3)"))) (.cons (.slice (.name (py!"r")) (some 44) (some 46)) (.cons (.const (.fn (py!"field_004"))) .nil))))
      (.cons (.call (py!"Field") (.cons (.const (.str (py!"Common Segment Along Track Dist"))) (.cons (.slice (.name (py!"r")) (some 46) (some 49)) (.cons (.const (.fn (py!"field_231"))) .nil))))
      (.cons (.call (py!"Field") (.cons (.const (.str (py!"Enroute Transition Identifier"))) (.cons (.slice (.name (py!"r")) (some 49) (some 54)) (.cons (.const (.fn (py!"field_011"))) .nil))))
      (.cons (.call (py!"Field") (.cons (.const (.str (py!"Enroute Transition Fix"))) (.cons (.slice (.name (py!"r")) (some 54) (some 59)) (.cons (.const (.fn (py!"field_013"))) .nil))))
      (.cons (.call (py!"Field") (.cons (.const (.str (py!"ICAO Code (4)"))) (.cons (.slice (.name (py!"r")) (some 59) (some 61)) (.cons (.const (.fn (py!"field_014"))) .nil))))
      (.cons (.call (py!"Field") (.cons (.const (.str (py!"Section Code (4)"))) (.cons (.slice (.name (py!"r")) (some 61) (some 63)) (.cons (.const (.fn (py!"field_004"))) .nil))))
      (.cons (.call (py!"Field") (.cons (.const (.str (py!"Enroute Transition Along Track Dist"))) (.cons (.slice (.name (py!"r")) (some 63) (some 66)) (.cons (.const (.fn (py!"field_231"))) .nil))))
      (.cons (.call (py!"Field") (.cons (.const (.str (py!"Sequence Number"))) (.cons (.slice (.name (py!"r")) (some 66) (some 69)) (.cons (.const (.fn (py!"field_012"))) .nil))))
      (.cons (.call (py!"Field") (.cons (.const (.str (py!"Continuation Number"))) (.cons (.sub (.name (py!"r")) (.const (.int 69))) (.cons (.const (.fn (py!"field_016"))) .nil))))
      (.cons (.call (py!"Field") (.cons (.const (.str (py!"Application Type"))) (.cons (.sub (.name (py!"r")) (.const (.int 70))) (.cons (.const (.fn (py!"field_091"))) .nil))))
      (.cons (.call (py!"Field") (.cons (.const (.str (py!"Time Code"))) (.cons (.sub (.name (py!"r")) (.const (.int 71))) (.cons (.const (.fn (py!"field_131"))) .nil))))
      (.cons (.call (py!"Field") (.cons (.const (.str (py!"Time Indicator"))) (.cons (.sub (.name (py!"r")) (.const (.int 72))) (.cons (.const (.fn (py!"field_138"))) .nil))))
      (.cons (.call (py!"Field") (.cons (.const (.str (py!"Time of Operation"))) (.cons (.slice (.name (py!"r")) (some 73) (some 83)) (.cons (.const (.fn (py!"field_195"))) .nil))))
      (.cons (.call (py!"Field") (.cons (.const (.str (py!"Time of Operation (1)"))) (.cons (.slice (.name (py!"r")) (some 83) (some 93)) (.cons (.const (.fn (py!"field_195"))) .nil))))
      (.cons (.call (py!"Field") (.cons (.const (.str (py!"Time of Operation (2)"))) (.cons (.slice (.name (py!"r")) (some 93) (some 103)) (.cons (.const (.fn (py!"field_195"))) .nil))))
      (.cons (.call (py!"Field") (.cons (.const (.str (py!"Time of Operation (3)"))) (.cons (.slice (.name (py!"r")) (some 103) (some 113)) (.cons (.const (.fn (py!"field_195"))) .nil))))
      (.cons (.call (py!"Field") (.cons (.const (.str (py!"Time of Operation (4)"))) (.cons (.slice (.name (py!"r")) (some 113) (some 123)) (.cons (.const (.fn (py!"field_195"))) .nil))))
      (.cons (.call (py!"Field") (.cons (.const (.str (py!"File Record No"))) (.cons (.slice (.name (py!"r")) (some 123) (some 128)) (.cons (.const (.fn (py!"field_031"))) .nil))))
      (.cons (.call (py!"Field") (.cons (.const (.str (py!"Cycle Date"))) (.cons (.slice (.name (py!"r")) (some 128) (some 132)) (.cons (.const (.fn (py!"field_032"))) .nil))))
      .nil)))))))))))))))))))))))))))))))))))⟩

/-- definitions/FlightPlanning.py:6-153, class `FlightPlanning` -/
def FlightPlanning : Class :=
  ⟨[(py!"cont_idx", (.int 69)), (py!"app_idx", (.int 70)), (py!"continuations", (.list [(.str (py!"A")), (.str (py!"T"))])), (py!"name", (.str (py!"Flight Planning Arrival/Departure")))],
   [(py!"application_type", FlightPlanning_application_type),
    (py!"read", FlightPlanning_read),
    (py!"read_primary", FlightPlanning_read_primary),
    (py!"read_cont", FlightPlanning_read_cont),
    (py!"read_timeop", FlightPlanning_read_timeop)]⟩

/-- definitions/GLS.py:13-14 -/
def GLS_application_type : Func := ⟨[py!"self", py!"line"], [],
  (.ret (.sub (.name (py!"line")) (.attr (.name (py!"self")) (py!"app_idx"))))⟩

/-- definitions/GLS.py:16-26 -/
def GLS_read : Func := ⟨[py!"self", py!"line", py!"primary"], [],
  (.seq (.ite (.name (py!"primary"))
    (.ret (.invoke (.name (py!"self")) (py!"read_primary") (.cons (.name (py!"line")) .nil)))
    .pass)
  (.seq (.assign (py!"application") (.sub (.name (py!"line")) (.attr (.name (py!"self")) (py!"app_idx"))))
  (.matchOn (.name (py!"application"))
    (.case (.str (py!"A")) (.ret (.invoke (.name (py!"self")) (py!"read_cont") (.cons (.name (py!"line")) .nil)))
    (.ret (.list .nil))))))⟩

/-- definitions/GLS.py:29-55 -/
def GLS_read_primary : Func := ⟨[py!"self", py!"r"], [],
  (.ret (.list (.cons (.call (py!"Field") (.cons (.const (.str (py!"Record Type"))) (.cons (.sub (.name (py!"r")) (.const (.int 0))) (.cons (.const (.fn (py!"field_002"))) .nil))))
      (.cons (.call (py!"Field") (.cons (.const (.str (py!"Customer / Area Code"))) (.cons (.slice (.name (py!"r")) (some 1) (some 4)) (.cons (.const (.fn (py!"field_003"))) .nil))))
      (.cons (.call (py!"Field") (.cons (.const (.str (py!"Section Code"))) (.cons (.bin .add (.sub (.name (py!"r")) (.const (.int 4))) (.sub (.name (py!"r")) (.const (.int 12)))) (.cons (.const (.fn (py!"field_004"))) .nil))))
      (.cons (.call (py!"Field") (.cons (.const (.str (py!"Airport and Heliport Identifier"))) (.cons (.slice (.name (py!"r")) (some 6) (some 10)) (.cons (.const (.fn (py!"field_006"))) .nil))))
      (.cons (.call (py!"Field") (.cons (.const (.str (py!"ICAO Code"))) (.cons (.slice (.name (py!"r")) (some 10) (some 12)) (.cons (.const (.fn (py!"field_014"))) .nil))))
      (.cons (.call (py!"Field") (.cons (.const (.str (py!"GLS Ref Path Identifier"))) (.cons (.slice (.name (py!"r")) (some 13) (some 17)) (.cons (.const (.fn (py!"field_044"))) .nil))))
      (.cons (.call (py!"Field") (.cons (.const (.str (py!"GLS Category"))) (.cons (.sub (.name (py!"r")) (.const (.int 17))) (.cons (.const (.fn (py!"field_080"))) .nil))))
      (.cons (.call (py!"Field") (.cons (.const (.str (py!"Continuation Record No"))) (.cons (.slice (.name (py!"r")) (some 18) (some 21)) (.cons (.const (.fn (py!"field_016"))) .nil))))
      (.cons (.call (py!"Field") (.cons (.const (.str (py!"GLS Channel"))) (.cons (.slice (.name (py!"r")) (some 22) (some 27)) (.cons (.const (.fn (py!"field_244"))) .nil))))
      (.cons (.call (py!"Field") (.cons (.const (.str (py!"Runway Identifier"))) (.cons (.slice (.name (py!"r")) (some 27) (some 32)) (.cons (.const (.fn (py!"field_046"))) .nil))))
      (.cons (.call (py!"Field") (.cons (.const (.str (py!"GLS Approach Bearing"))) (.cons (.slice (.name (py!"r")) (some 51) (some 55)) (.cons (.const (.fn (py!"field_047"))) .nil))))
      (.cons (.call (py!"Field") (.cons (.const (.str (py!"Station Latitude"))) (.cons (.slice (.name (py!"r")) (some 55) (some 64)) (.cons (.const (.fn (py!"field_036"))) .nil))))
      (.cons (.call (py!"Field") (.cons (.const (.str (py!"Station Longitude"))) (.cons (.slice (.name (py!"r")) (some 64) (some 74)) (.cons (.const (.fn (py!"field_037"))) .nil))))
      (.cons (.call (py!"Field") (.cons (.const (.str (py!"GLS Station Ident"))) (.cons (.slice (.name (py!"r")) (some 74) (some 78)) (.cons (.const (.fn (py!"field_243"))) .nil))))
      (.cons (.call (py!"Field") (.cons (.const (.str (py!"Service Volume Radius"))) (.cons (.slice (.name (py!"r")) (some 83) (some 85)) (.cons (.const (.fn (py!"field_245"))) .nil))))
      (.cons (.call (py!"Field") (.cons (.const (.str (py!"TDMA Slots"))) (.cons (.slice (.name (py!"r")) (some 85) (some 87)) (.cons (.const (.fn (py!"field_246"))) .nil))))
      (.cons (.call (py!"Field") (.cons (.const (.str (py!"GLS Approach Slope"))) (.cons (.slice (.name (py!"r")) (some 87) (some 90)) (.cons (.const (.fn (py!"field_052"))) .nil))))
      (.cons (.call (py!"Field") (.cons (.const (.str (py!"Magnetic Variation"))) (.cons (.slice (.name (py!"r")) (some 90) (some 95)) (.cons (.const (.fn (py!"field_039"))) .nil))))
      (.cons (.call (py!"Field") (.cons (.const (.str (py!"Station Elevation"))) (.cons (.slice (.name (py!"r")) (some 97) (some 102)) (.cons (.const (.fn (py!"field_074"))) .nil))))
      (.cons (.call (py!"Field") (.cons (.const (.str (py!"Datum Code"))) (.cons (.slice (.name (py!"r")) (some 102) (some 105)) (.cons (.const (.fn (py!"field_197"))) .nil))))
      (.cons (.call (py!"Field") (.cons (.const (.str (py!"Station Type"))) (.cons (.slice (.name (py!"r")) (some 105) (some 108)) (.cons (.const (.fn (py!"field_247"))) .nil))))
      (.cons (.call (py!"Field") (.cons (.const (.str (py!"Station Elevation WGS"))) (.cons (.slice (.name (py!"r")) (some 110) (some 115)) (.cons (.const (.fn (py!"field_248"))) .nil))))
      (.cons (.call (py!"Field") (.cons (.const (.str (py!"File Record No"))) (.cons (.slice (.name (py!"r")) (some 123) (some 128)) (.cons (.const (.fn (py!"field_031"))) .nil))))
      (.cons (.call (py!"Field") (.cons (.const (.str (py!"Cycle Date"))) (.cons (.slice (.name (py!"r")) (some 128) (some 132)) (.cons (.const (.fn (py!"field_032"))) .nil))))
      .nil))))))))))))))))))))))))))⟩

/-- definitions/GLS.py:58-71 -/
def GLS_read_cont : Func := ⟨[py!"self", py!"r"], [],
  (.ret (.list (.cons (.call (py!"Field") (.cons (.const (.str (py!"Record Type"))) (.cons (.sub (.name (py!"r")) (.const (.int 0))) (.cons (.const (.fn (py!"field_002"))) .nil))))
      (.cons (.call (py!"Field") (.cons (.const (.str (py!"Customer / Area Code"))) (.cons (.slice (.name (py!"r")) (some 1) (some 4)) (.cons (.const (.fn (py!"field_003"))) .nil))))
      (.cons (.call (py!"Field") (.cons (.const (.str (py!"Section Code"))) (.cons (.bin .add (.sub (.name (py!"r")) (.const (.int 4))) (.sub (.name (py!"r")) (.const (.int 12)))) (.cons (.const (.fn (py!"field_004"))) .nil))))
      (.cons (.call (py!"Field") (.cons (.const (.str (py!"Airport and Heliport Identifier"))) (.cons (.slice (.name (py!"r")) (some 6) (some 10)) (.cons (.const (.fn (py!"field_006"))) .nil))))
      (.cons (.call (py!"Field") (.cons (.const (.str (py!"ICAO Code"))) (.cons (.slice (.name (py!"r")) (some 10) (some 12)) (.cons (.const (.fn (py!"field_014"))) .nil))))
      (.cons (.call (py!"Field") (.cons (.const (.str (py!"GLS Ref Path Identifier"))) (.cons (.slice (.name (py!"r")) (some 13) (some 17)) (.cons (.const (.fn (py!"field_044"))) .nil))))
      (.cons (.call (py!"Field") (.cons (.const (.str (py!"GLS Category"))) (.cons (.sub (.name (py!"r")) (.const (.int 17))) (.cons (.const (.fn (py!"field_080"))) .nil))))
      (.cons (.call (py!"Field") (.cons (.const (.str (py!"Continuation Record No"))) (.cons (.slice (.name (py!"r")) (some 18) (some 21)) (.cons (.const (.fn (py!"field_016"))) .nil))))
      (.cons (.call (py!"Field") (.cons (.const (.str (py!"Application Type"))) (.cons (.sub (.name (py!"r")) (.const (.int 22))) (.cons (.const (.fn (py!"field_091"))) .nil))))
      (.cons (.call (py!"Field") (.cons (.const (.str (py!"File Record No"))) (.cons (.slice (.name (py!"r")) (some 123) (some 128)) (.cons (.const (.fn (py!"field_031"))) .nil))))
      (.cons (.call (py!"Field") (.cons (.const (.str (py!"Cycle Date"))) (.cons (.slice (.name (py!"r")) (some 128) (some 132)) (.cons (.const (.fn (py!"field_032"))) .nil))))
      .nil)))))))))))))⟩

/-- definitions/GLS.py:6-71, class `GLS` -/
def GLS : Class :=
  ⟨[(py!"cont_idx", (.int 21)), (py!"app_idx", (.int 22)), (py!"continuations", (.list [(.str (py!"A"))])), (py!"name", (.str (py!"GLS")))],
   [(py!"application_type", GLS_application_type),
    (py!"read", GLS_read),
    (py!"read_primary", GLS_read_primary),
    (py!"read_cont", GLS_read_cont)]⟩

/-- definitions/AirportCommunication.py:13-14 -/
def AirportCommunication_application_type : Func := ⟨[py!"self", py!"line"], [],
  (.ret (.sub (.name (py!"line")) (.attr (.name (py!"self")) (py!"app_idx"))))⟩

/-- definitions/AirportCommunication.py:16-29 -/
def AirportCommunication_read : Func := ⟨[py!"self", py!"line", py!"primary"], [],
  (.seq (.ite (.name (py!"primary"))
    (.ret (.invoke (.name (py!"self")) (py!"read_primary") (.cons (.name (py!"line")) .nil)))
    .pass)
  (.seq (.assign (py!"application") (.sub (.name (py!"line")) (.attr (.name (py!"self")) (py!"app_idx"))))
  (.matchOn (.name (py!"application"))
    (.case (.str (py!"N")) (.ret (.invoke (.name (py!"self")) (py!"read_cont_narr") (.cons (.name (py!"line")) .nil)))
    (.ret (.list .nil))))))⟩

/-- definitions/AirportCommunication.py:32-68 -/
def AirportCommunication_read_primary : Func := ⟨[py!"self", py!"r"], [],
  (.ret (.list (.cons (.call (py!"Field") (.cons (.const (.str (py!"Record Type"))) (.cons (.sub (.name (py!"r")) (.const (.int 0))) (.cons (.const (.fn (py!"field_002"))) .nil))))
      (.cons (.call (py!"Field") (.cons (.const (.str (py!"Customer / Area Code"))) (.cons (.slice (.name (py!"r")) (some 1) (some 4)) (.cons (.const (.fn (py!"field_003"))) .nil))))
      (.cons (.call (py!"Field") (.cons (.const (.str (py!"Section Code"))) (.cons (.bin .add (.sub (.name (py!"r")) (.const (.int 4))) (.sub (.name (py!"r")) (.const (.int 12)))) (.cons (.const (.fn (py!"field_004"))) .nil))))
      (.cons (.call (py!"Field") (.cons (.const (.str (py!"Airport Identifier"))) (.cons (.slice (.name (py!"r")) (some 6) (some 10)) (.cons (.const (.fn (py!"field_006"))) .nil))))
      (.cons (.call (py!"Field") (.cons (.const (.str (py!"ICAO Code"))) (.cons (.slice (.name (py!"r")) (some 10) (some 12)) (.cons (.const (.fn (py!"field_014"))) .nil))))
      (.cons (.call (py!"Field") (.cons (.const (.str (py!"Communications Type"))) (.cons (.slice (.name (py!"r")) (some 13) (some 16)) (.cons (.const (.fn (py!"field_101"))) .nil))))
      (.cons (.call (py!"Field") (.cons (.const (.str (py!"Communications Freq"))) (.cons (.slice (.name (py!"r")) (some 16) (some 23)) (.cons (.const (.fn (py!"field_103"))) .nil))))
      (.cons (.call (py!"Field") (.cons (.const (.str (py!"Guard/Transmit"))) (.cons (.sub (.name (py!"r")) (.const (.int 23))) (.cons (.const (.fn (py!"field_182"))) .nil))))
      (.cons (.call (py!"Field") (.cons (.const (.str (py!"Frequency Units"))) (.cons (.sub (.name (py!"r")) (.const (.int 24))) (.cons (.const (.fn (py!"field_104"))) .nil))))
      (.cons (.call (py!"Field") (.cons (.const (.str (py!"Continuation Record No"))) (.cons (.sub (.name (py!"r")) (.const (.int 25))) (.cons (.const (.fn (py!"field_016"))) .nil))))
      (.cons (.call (py!"Field") (.cons (.const (.str (py!"Service Indicator"))) (.cons (.slice (.name (py!"r")) (some 26) (some 29)) (.cons (.const (.fn (py!"field_106"))) .nil))))
      (.cons (.call (py!"Field") (.cons (.const (.str (py!"Radar Service"))) (.cons (.sub (.name (py!"r")) (.const (.int 29))) (.cons (.const (.fn (py!"field_102"))) .nil))))
      (.cons (.call (py!"Field") (.cons (.const (.str (py!"Modulation"))) (.cons (.sub (.name (py!"r")) (.const (.int 30))) (.cons (.const (.fn (py!"field_198"))) .nil))))
      (.cons (.call (py!"Field") (.cons (.const (.str (py!"Signal Emission"))) (.cons (.sub (.name (py!"r")) (.const (.int 31))) (.cons (.const (.fn (py!"field_199"))) .nil))))
      (.cons (.call (py!"Field") (.cons (.const (.str (py!"Latitude"))) (.cons (.slice (.name (py!"r")) (some 32) (some 41)) (.cons (.const (.fn (py!"field_036"))) .nil))))
      (.cons (.call (py!"Field") (.cons (.const (.str (py!"Longitude"))) (.cons (.slice (.name (py!"r")) (some 41) (some 51)) (.cons (.const (.fn (py!"field_037"))) .nil))))
      (.cons (.call (py!"Field") (.cons (.const (.str (py!"Magnetic Variation"))) (.cons (.slice (.name (py!"r")) (some 51) (some 56)) (.cons (.const (.fn (py!"field_039"))) .nil))))
      (.cons (.call (py!"Field") (.cons (.const (.str (py!"Facility Elevation"))) (.cons (.slice (.name (py!"r")) (some 56) (some 61)) (.cons (.const (.fn (py!"field_092"))) .nil))))
      (.cons (.call (py!"Field") (.cons (.const (.str (py!"H24 Indicator"))) (.cons (.sub (.name (py!"r")) (.const (.int 61))) (.cons (.const (.fn (py!"field_181"))) .nil))))
      (.cons (.call (py!"Field") (.cons (.const (.str (py!"Sectorization"))) (.cons (.slice (.name (py!"r")) (some 62) (some 68)) (.cons (.const (.fn (py!"field_183"))) .nil))))
      (.cons (.call (py!"Field") (.cons (.const (.str (py!"Altitude Description"))) (.cons (.sub (.name (py!"r")) (.const (.int 68))) (.cons (.const (.fn (py!"field_029"))) .nil))))
      (.cons (.call (py!"Field") (.cons (.const (.str (py!"Communication Altitude"))) (.cons (.slice (.name (py!"r")) (some 69) (some 74)) (.cons (.const (.fn (py!"field_184"))) .nil))))
      (.cons (.call (py!"Field") (.cons (.const (.str (py!"Communication Altitude (2)"))) (.cons (.slice (.name (py!"r")) (some 74) (some 79)) (.cons (.const (.fn (py!"field_184"))) .nil))))
      (.cons (.call (py!"Field") (.cons (.const (.str (py!"Sector Facility"))) (.cons (.slice (.name (py!"r")) (some 79) (some 83)) (.cons (.const (.fn (py!"field_185"))) .nil))))
      (.cons (.call (py!"Field") (.cons (.const (.str (py!"ICAO Code (2)"))) (.cons (.slice (.name (py!"r")) (some 83) (some 85)) (.cons (.const (.fn (py!"field_014"))) .nil))))
      (.cons (.call (py!"Field") (.cons (.const (.str (py!"Section (2)"))) (.cons (.slice (.name (py!"r")) (some 85) (some 87)) (.cons (.const (.fn (py!"field_004"))) .nil))))
      (.cons (.call (py!"Field") (.cons (.const (.str (py!"Distance Description"))) (.cons (.sub (.name (py!"r")) (.const (.int 87))) (.cons (.const (.fn (py!"field_187"))) .nil))))
      (.cons (.call (py!"Field") (.cons (.const (.str (py!"Communications Distance"))) (.cons (.slice (.name (py!"r")) (some 88) (some 90)) (.cons (.const (.fn (py!"field_188"))) .nil))))
      (.cons (.call (py!"Field") (.cons (.const (.str (py!"Remote Facility"))) (.cons (.slice (.name (py!"r")) (some 90) (some 94)) (.cons (.const (.fn (py!"field_200"))) .nil))))
      (.cons (.call (py!"Field") (.cons (.const (.str (py!"ICAO Code (3)"))) (.cons (.slice (.name (py!"r")) (some 94) (some 96)) (.cons (.const (.fn (py!"field_014"))) .nil))))
      (.cons (.call (py!"Field") (.cons (.const (.str (py!"Section (3)"))) (.cons (.slice (.name (py!"r")) (some 96) (some 98)) (.cons (.const (.fn (py!"field_004"))) .nil))))
      (.cons (.call (py!"Field") (.cons (.const (.str (py!"Call Sign"))) (.cons (.slice (.name (py!"r")) (some 98) (some 123)) (.cons (.const (.fn (py!"field_105"))) .nil))))
      (.cons (.call (py!"Field") (.cons (.const (.str (py!"File Record No"))) (.cons (.slice (.name (py!"r")) (some 123) (some 128)) (.cons (.const (.fn (py!"field_031"))) .nil))))
      (.cons (.call (py!"Field") (.cons (.const (.str (py!"Cycle Date"))) (.cons (.slice (.name (py!"r")) (some 128) (some 132)) (.cons (.const (.fn (py!"field_032"))) .nil))))
      .nil))))))))))))))))))))))))))))))))))))⟩

/-- definitions/AirportCommunication.py:71-87 -/
def AirportCommunication_read_cont_narr : Func := ⟨[py!"self", py!"r"], [],
  (.ret (.list (.cons (.call (py!"Field") (.cons (.const (.str (py!"Record Type"))) (.cons (.sub (.name (py!"r")) (.const (.int 0))) (.cons (.const (.fn (py!"field_002"))) .nil))))
      (.cons (.call (py!"Field") (.cons (.const (.str (py!"Customer / Area Code"))) (.cons (.slice (.name (py!"r")) (some 1) (some 4)) (.cons (.const (.fn (py!"field_003"))) .nil))))
      (.cons (.call (py!"Field") (.cons (.const (.str (py!"Section Code"))) (.cons (.bin .add (.sub (.name (py!"r")) (.const (.int 4))) (.sub (.name (py!"r")) (.const (.int 12)))) (.cons (.const (.fn (py!"field_004"))) .nil))))
      (.cons (.call (py!"Field") (.cons (.const (.str (py!"Airport Identifier"))) (.cons (.slice (.name (py!"r")) (some 6) (some 10)) (.cons (.const (.fn (py!"field_006"))) .nil))))
      (.cons (.call (py!"Field") (.cons (.const (.str (py!"ICAO Code"))) (.cons (.slice (.name (py!"r")) (some 10) (some 12)) (.cons (.const (.fn (py!"field_014"))) .nil))))
      (.cons (.call (py!"Field") (.cons (.const (.str (py!"Communications Type"))) (.cons (.slice (.name (py!"r")) (some 13) (some 16)) (.cons (.const (.fn (py!"field_101"))) .nil))))
      (.cons (.call (py!"Field") (.cons (.const (.str (py!"Communications Freq"))) (.cons (.slice (.name (py!"r")) (some 16) (some 23)) (.cons (.const (.fn (py!"field_103"))) .nil))))
      (.cons (.call (py!"Field") (.cons (.const (.str (py!"Guard/Transmit"))) (.cons (.sub (.name (py!"r")) (.const (.int 23))) (.cons (.const (.fn (py!"field_182"))) .nil))))
      (.cons (.call (py!"Field") (.cons (.const (.str (py!"Frequency Units"))) (.cons (.sub (.name (py!"r")) (.const (.int 24))) (.cons (.const (.fn (py!"field_104"))) .nil))))
      (.cons (.call (py!"Field") (.cons (.const (.str (py!"Continuation Record No"))) (.cons (.sub (.name (py!"r")) (.const (.int 25))) (.cons (.const (.fn (py!"field_016"))) .nil))))
      (.cons (.call (py!"Field") (.cons (.const (.str (py!"Application Type"))) (.cons (.sub (.name (py!"r")) (.const (.int 26))) (.cons (.const (.fn (py!"field_091"))) .nil))))
      (.cons (.call (py!"Field") (.cons (.const (.str (py!"Narrative"))) (.cons (.slice (.name (py!"r")) (some 27) (some 87)) (.cons (.const (.fn (py!"field_186"))) .nil))))
      (.cons (.call (py!"Field") (.cons (.const (.str (py!"File Record No"))) (.cons (.slice (.name (py!"r")) (some 123) (some 128)) (.cons (.const (.fn (py!"field_031"))) .nil))))
      (.cons (.call (py!"Field") (.cons (.const (.str (py!"Cycle Date"))) (.cons (.slice (.name (py!"r")) (some 128) (some 132)) (.cons (.const (.fn (py!"field_032"))) .nil))))
      .nil))))))))))))))))⟩

/-- definitions/AirportCommunication.py:90-115 -/
def AirportCommunication_read_time : Func := ⟨[py!"self", py!"r"], [],
  (.ret (.list (.cons (.call (py!"Field") (.cons (.const (.str (py!"Record Type"))) (.cons (.sub (.name (py!"r")) (.const (.int 0))) (.cons (.const (.fn (py!"field_002"))) .nil))))
      (.cons (.call (py!"Field") (.cons (.const (.str (py!"Customer / Area Code"))) (.cons (.slice (.name (py!"r")) (some 1) (some 4)) (.cons (.const (.fn (py!"field_003"))) .nil))))
      (.cons (.call (py!"Field") (.cons (.const (.str (py!"Section Code"))) (.cons (.bin .add (.sub (.name (py!"r")) (.const (.int 4))) (.sub (.name (py!"r")) (.const (.int 12)))) (.cons (.const (.fn (py!"field_004"))) .nil))))
      (.cons (.call (py!"Field") (.cons (.const (.str (py!"Airport Identifier"))) (.cons (.slice (.name (py!"r")) (some 6) (some 10)) (.cons (.const (.fn (py!"field_006"))) .nil))))
      (.cons (.call (py!"Field") (.cons (.const (.str (py!"ICAO Code"))) (.cons (.slice (.name (py!"r")) (some 10) (some 12)) (.cons (.const (.fn (py!"field_014"))) .nil))))
      (.cons (.call (py!"Field") (.cons (.const (.str (py!"Communications Type"))) (.cons (.slice (.name (py!"r")) (some 13) (some 16)) (.cons (.const (.fn (py!"field_101"))) .nil))))
      (.cons (.call (py!"Field") (.cons (.const (.str (py!"Communications Freq"))) (.cons (.slice (.name (py!"r")) (some 16) (some 23)) (.cons (.const (.fn (py!"field_103"))) .nil))))
      (.cons (.call (py!"Field") (.cons (.const (.str (py!"Guard/Transmit"))) (.cons (.sub (.name (py!"r")) (.const (.int 23))) (.cons (.const (.fn (py!"field_182"))) .nil))))
      (.cons (.call (py!"Field") (.cons (.const (.str (py!"Frequency Units"))) (.cons (.sub (.name (py!"r")) (.const (.int 24))) (.cons (.const (.fn (py!"field_104"))) .nil))))
      (.cons (.call (py!"Field") (.cons (.const (.str (py!"Continuation Record No"))) (.cons (.sub (.name (py!"r")) (.const (.int 25))) (.cons (.const (.fn (py!"field_016"))) .nil))))
      (.cons (.call (py!"Field") (.cons (.const (.str (py!"Application Type"))) (.cons (.sub (.name (py!"r")) (.const (.int 26))) (.cons (.const (.fn (py!"field_091"))) .nil))))
      (.cons (.call (py!"Field") (.cons (.const (.str (py!"Time Code"))) (.cons (.sub (.name (py!"r")) (.const (.int 27))) (.cons (.const (.fn (py!"field_131"))) .nil))))
      (.cons (.call (py!"Field") (.cons (.const (.str (py!"NOTAM"))) (.cons (.sub (.name (py!"r")) (.const (.int 28))) (.cons (.const (.fn (py!"field_132"))) .nil))))
      (.cons (.call (py!"Field") (.cons (.const (.str (py!"Time Indicator"))) (.cons (.sub (.name (py!"r")) (.const (.int 29))) (.cons (.const (.fn (py!"field_138"))) .nil))))
      (.cons (.call (py!"Field") (.cons (.const (.str (py!"Time of Operaion"))) (.cons (.slice (.name (py!"r")) (some 30) (some 40)) (.cons (.const (.fn (py!"field_195"))) .nil))))
      (.cons (.call (py!"Field") (.cons (.const (.str (py!"Time of Operaion (2)"))) (.cons (.slice (.name (py!"r")) (some 40) (some 50)) (.cons (.const (.fn (py!"field_195"))) .nil))))
      (.cons (.call (py!"Field") (.cons (.const (.str (py!"Time of Operaion (2)"))) (.cons (.slice (.name (py!"r")) (some 50) (some 60)) (.cons (.const (.fn (py!"field_195"))) .nil))))
      (.cons (.call (py!"Field") (.cons (.const (.str (py!"Time of Operaion (3)"))) (.cons (.slice (.name (py!"r")) (some 60) (some 70)) (.cons (.const (.fn (py!"field_195"))) .nil))))
      (.cons (.call (py!"Field") (.cons (.const (.str (py!"Time of Operaion (4)"))) (.cons (.slice (.name (py!"r")) (some 70) (some 80)) (.cons (.const (.fn (py!"field_195"))) .nil))))
      (.cons (.call (py!"Field") (.cons (.const (.str (py!"Time of Operaion (5)"))) (.cons (.slice (.name (py!"r")) (some 80) (some 90)) (.cons (.const (.fn (py!"field_195"))) .nil))))
      (.cons (.call (py!"Field") (.cons (.const (.str (py!"Time of Operaion (6)"))) (.cons (.slice (.name (py!"r")) (some 90) (some 100)) (.cons (.const (.fn (py!"field_195"))) .nil))))
      (.cons (.call (py!"Field") (.cons (.const (.str (py!"File Record No"))) (.cons (.slice (.name (py!"r")) (some 123) (some 128)) (.cons (.const (.fn (py!"field_031"))) .nil))))
      (.cons (.call (py!"Field") (.cons (.const (.str (py!"Cycle Date"))) (.cons (.slice (.name (py!"r")) (some 128) (some 132)) (.cons (.const (.fn (py!"field_032"))) .nil))))
      .nil)))))))))))))))))))))))))⟩

/-- definitions/AirportCommunication.py:6-115, class `AirportCommunication` -/
def AirportCommunication : Class :=
  ⟨[(py!"cont_idx", (.int 25)), (py!"app_idx", (.int 26)), (py!"continuations", (.list [(.str (py!"N"))])), (py!"name", (.str (py!"Airport Communications")))],
   [(py!"application_type", AirportCommunication_application_type),
    (py!"read", AirportCommunication_read),
    (py!"read_primary", AirportCommunication_read_primary),
    (py!"read_cont_narr", AirportCommunication_read_cont_narr),
    (py!"read_time", AirportCommunication_read_time)]⟩

/-- definitions/CompanyRoute.py:12-42 -/
def CompanyRoute_read : Func := ⟨[py!"self", py!"r", py!"primary"], [],
  (.ret (.list (.cons (.call (py!"Field") (.cons (.const (.str (py!"Record Type"))) (.cons (.sub (.name (py!"r")) (.const (.int 0))) (.cons (.const (.fn (py!"field_002"))) .nil))))
      (.cons (.call (py!"Field") (.cons (.const (.str (py!"Customer"))) (.cons (.slice (.name (py!"r")) (some 1) (some 4)) (.cons (.const (.fn (py!"field_003"))) .nil))))
      (.cons (.call (py!"Field") (.cons (.const (.str (py!"Section Code"))) (.cons (.slice (.name (py!"r")) (some 4) (some 6)) (.cons (.const (.fn (py!"field_004"))) .nil))))
      (.cons (.call (py!"Field") (.cons (.const (.str (py!"From Airport/Fix"))) (.cons (.slice (.name (py!"r")) (some 6) (some 11)) (.cons (.const (.fn (py!"field_075"))) .nil))))
      (.cons (.call (py!"Field") (.cons (.const (.str (py!"ICAO Code"))) (.cons (.slice (.name (py!"r")) (some 12) (some 14)) (.cons (.const (.fn (py!"field_014"))) .nil))))
      (.cons (.call (py!"Field") (.cons (.const (.str (py!"Airspace Center"))) (.cons (.slice (.name (py!"r")) (some 9) (some 14)) (.cons (.const (.fn (py!"field_214"))) .nil))))
      (.cons (.call (py!"Field") (.cons (.const (.str (py!"Section Code (2)"))) (.cons (.slice (.name (py!"r")) (some 14) (some 16)) (.cons (.const (.fn (py!"field_004"))) .nil))))
      (.cons (.call (py!"Field") (.cons (.const (.str (py!"To Airport/Fix"))) (.cons (.slice (.name (py!"r")) (some 16) (some 21)) (.cons (.const (.fn (py!"field_075"))) .nil))))
      (.cons (.call (py!"Field") (.cons (.const (.str (py!"ICAO Code (2)"))) (.cons (.slice (.name (py!"r")) (some 22) (some 24)) (.cons (.const (.fn (py!"field_014"))) .nil))))
      (.cons (.call (py!"Field") (.cons (.const (.str (py!"Section Code (3)"))) (.cons (.slice (.name (py!"r")) (some 24) (some 26)) (.cons (.const (.fn (py!"field_004"))) .nil))))
      (.cons (.call (py!"Field") (.cons (.const (.str (py!"Company Route ID"))) (.cons (.slice (.name (py!"r")) (some 26) (some 36)) (.cons (.const (.fn (py!"field_076"))) .nil))))
      (.cons (.call (py!"Field") (.cons (.const (.str (py!"Sequence Number"))) (.cons (.slice (.name (py!"r")) (some 36) (some 39)) (.cons (.const (.fn (py!"field_012"))) .nil))))
      (.cons (.call (py!"Field") (.cons (.const (.str (py!"VIA"))) (.cons (.slice (.name (py!"r")) (some 39) (some 42)) (.cons (.const (.fn (py!"field_077"))) .nil))))
      (.cons (.call (py!"Field") (.cons (.const (.str (py!"SID/STAR/App/Awy"))) (.cons (.slice (.name (py!"r")) (some 42) (some 48)) (.cons (.const (.fn (py!"field_078"))) .nil))))
      (.cons (.call (py!"Field") (.cons (.const (.str (py!"Area Code"))) (.cons (.slice (.name (py!"r")) (some 48) (some 51)) (.cons (.const (.fn (py!"field_003"))) .nil))))
      (.cons (.call (py!"Field") (.cons (.const (.str (py!"To Fix"))) (.cons (.slice (.name (py!"r")) (some 51) (some 57)) (.cons (.const (.fn (py!"field_132"))) .nil))))
      (.cons (.call (py!"Field") (.cons (.const (.str (py!"ICAO Code"))) (.cons (.slice (.name (py!"r")) (some 57) (some 59)) (.cons (.const (.fn (py!"field_118"))) .nil))))
      (.cons (.call (py!"Field") (.cons (.const (.str (py!"Section Code (4)"))) (.cons (.sub (.name (py!"r")) (.const (.int 59))) (.cons (.const (.fn (py!"field_036"))) .nil))))
      (.cons (.call (py!"Field") (.cons (.const (.str (py!"RUnway Trans"))) (.cons (.slice (.name (py!"r")) (some 61) (some 66)) (.cons (.const (.fn (py!"field_037"))) .nil))))
      (.cons (.call (py!"Field") (.cons (.const (.str (py!"ENRT Trans"))) (.cons (.slice (.name (py!"r")) (some 66) (some 71)) (.cons (.const (.fn (py!"field_036"))) .nil))))
      (.cons (.call (py!"Field") (.cons (.const (.str (py!"Cruise Altitude"))) (.cons (.slice (.name (py!"r")) (some 72) (some 77)) (.cons (.const (.fn (py!"field_037"))) .nil))))
      (.cons (.call (py!"Field") (.cons (.const (.str (py!"Terminal/Alternate Airport"))) (.cons (.slice (.name (py!"r")) (some 77) (some 81)) (.cons (.const (.fn (py!"field_119"))) .nil))))
      (.cons (.call (py!"Field") (.cons (.const (.str (py!"ICAO Code"))) (.cons (.slice (.name (py!"r")) (some 81) (some 83)) (.cons (.const (.fn (py!"field_120"))) .nil))))
      (.cons (.call (py!"Field") (.cons (.const (.str (py!"Alternate Distance"))) (.cons (.slice (.name (py!"r")) (some 83) (some 87)) (.cons (.const (.fn (py!"field_211"))) .nil))))
      (.cons (.call (py!"Field") (.cons (.const (.str (py!"Cost Index"))) (.cons (.slice (.name (py!"r")) (some 87) (some 90)) (.cons (.const (.fn (py!"field_121"))) .nil))))
      (.cons (.call (py!"Field") (.cons (.const (.str (py!"Enroute Alternate Airport"))) (.cons (.slice (.name (py!"r")) (some 90) (some 94)) (.cons (.const (.fn (py!"field_133"))) .nil))))
      (.cons (.call (py!"Field") (.cons (.const (.str (py!"File Record No"))) (.cons (.slice (.name (py!"r")) (some 123) (some 128)) (.cons (.const (.fn (py!"field_031"))) .nil))))
      (.cons (.call (py!"Field") (.cons (.const (.str (py!"Cycle Date"))) (.cons (.slice (.name (py!"r")) (some 128) (some 132)) (.cons (.const (.fn (py!"field_032"))) .nil))))
      .nil))))))))))))))))))))))))))))))⟩

/-- definitions/CompanyRoute.py:9-42, class `CompanyRoute` -/
def CompanyRoute : Class :=
  ⟨[],
   [(py!"read", CompanyRoute_read)]⟩

/-- definitions/Alternate.py:9-38 -/
def Alternate_read : Func := ⟨[py!"self", py!"r", py!"primary"], [],
  (.ret (.list (.cons (.call (py!"Field") (.cons (.const (.str (py!"Record Type"))) (.cons (.sub (.name (py!"r")) (.const (.int 0))) (.cons (.const (.fn (py!"field_002"))) .nil))))
      (.cons (.call (py!"Field") (.cons (.const (.str (py!"Customer / Area Code"))) (.cons (.slice (.name (py!"r")) (some 1) (some 4)) (.cons (.const (.fn (py!"field_003"))) .nil))))
      (.cons (.call (py!"Field") (.cons (.const (.str (py!"Section Code"))) (.cons (.slice (.name (py!"r")) (some 4) (some 6)) (.cons (.const (.fn (py!"field_004"))) .nil))))
      (.cons (.call (py!"Field") (.cons (.const (.str (py!"Alternate Related Airport to Fix"))) (.cons (.slice (.name (py!"r")) (some 6) (some 11)) (.cons (.const (.fn (py!"field_075"))) .nil))))
      (.cons (.call (py!"Field") (.cons (.const (.str (py!"Alternate Related ICAO Code"))) (.cons (.slice (.name (py!"r")) (some 11) (some 13)) (.cons (.const (.fn (py!"field_014"))) .nil))))
      (.cons (.call (py!"Field") (.cons (.const (.str (py!"Alternate Section"))) (.cons (.slice (.name (py!"r")) (some 13) (some 15)) (.cons (.const (.fn (py!"field_004"))) .nil))))
      (.cons (.call (py!"Field") (.cons (.const (.str (py!"Alternate Record Type"))) (.cons (.slice (.name (py!"r")) (some 15) (some 17)) (.cons (.const (.fn (py!"field_250"))) .nil))))
      (.cons (.call (py!"Field") (.cons (.const (.str (py!"Distance to Alternate"))) (.cons (.slice (.name (py!"r")) (some 19) (some 22)) (.cons (.const (.fn (py!"field_251"))) .nil))))
      (.cons (.call (py!"Field") (.cons (.const (.str (py!"Alternate Type"))) (.cons (.sub (.name (py!"r")) (.const (.int 22))) (.cons (.const (.fn (py!"field_252"))) .nil))))
      (.cons (.call (py!"Field") (.cons (.const (.str (py!"Primary Alternate Identifier"))) (.cons (.slice (.name (py!"r")) (some 23) (some 33)) (.cons (.const (.fn (py!"field_253"))) .nil))))
      (.cons (.call (py!"Field") (.cons (.const (.str (py!"Distance to Alternate (2)"))) (.cons (.slice (.name (py!"r")) (some 35) (some 38)) (.cons (.const (.fn (py!"field_251"))) .nil))))
      (.cons (.call (py!"Field") (.cons (.const (.str (py!"Alternate Type (2)"))) (.cons (.sub (.name (py!"r")) (.const (.int 38))) (.cons (.const (.fn (py!"field_252"))) .nil))))
      (.cons (.call (py!"Field") (.cons (.const (.str (py!"Additional Alternate Identifier One"))) (.cons (.slice (.name (py!"r")) (some 39) (some 49)) (.cons (.const (.fn (py!"field_253"))) .nil))))
      (.cons (.call (py!"Field") (.cons (.const (.str (py!"Distance to Alternate (3)"))) (.cons (.slice (.name (py!"r")) (some 51) (some 54)) (.cons (.const (.fn (py!"field_251"))) .nil))))
      (.cons (.call (py!"Field") (.cons (.const (.str (py!"Alternate Type (3)"))) (.cons (.sub (.name (py!"r")) (.const (.int 54))) (.cons (.const (.fn (py!"field_252"))) .nil))))
      (.cons (.call (py!"Field") (.cons (.const (.str (py!"Additional Alternate Identifier Two"))) (.cons (.slice (.name (py!"r")) (some 55) (some 65)) (.cons (.const (.fn (py!"field_253"))) .nil))))
      (.cons (.call (py!"Field") (.cons (.const (.str (py!"Distance to Alternate (3)"))) (.cons (.slice (.name (py!"r")) (some 67) (some 70)) (.cons (.const (.fn (py!"field_251"))) .nil))))
      (.cons (.call (py!"Field") (.cons (.const (.str (py!"Alternate Type (3)"))) (.cons (.sub (.name (py!"r")) (.const (.int 70))) (.cons (.const (.fn (py!"field_252"))) .nil))))
      (.cons (.call (py!"Field") (.cons (.const (.str (py!"Additional Alternate Identifier (3))"))) (.cons (.slice (.name (py!"r")) (some 71) (some 81)) (.cons (.const (.fn (py!"field_253"))) .nil))))
      (.cons (.call (py!"Field") (.cons (.const (.str (py!"Distance to Alternate (4)"))) (.cons (.slice (.name (py!"r")) (some 83) (some 86)) (.cons (.const (.fn (py!"field_251"))) .nil))))
      (.cons (.call (py!"Field") (.cons (.const (.str (py!"Alternate Type (4)"))) (.cons (.sub (.name (py!"r")) (.const (.int 86))) (.cons (.const (.fn (py!"field_252"))) .nil))))
      (.cons (.call (py!"Field") (.cons (.const (.str (py!"Additional Alternate Identifier (4)"))) (.cons (.slice (.name (py!"r")) (some 87) (some 97)) (.cons (.const (.fn (py!"field_253"))) .nil))))
      (.cons (.call (py!"Field") (.cons (.const (.str (py!"Distance to Alternate (5)"))) (.cons (.slice (.name (py!"r")) (some 99) (some 102)) (.cons (.const (.fn (py!"field_251"))) .nil))))
      (.cons (.call (py!"Field") (.cons (.const (.str (py!"Alternate Type (5)"))) (.cons (.sub (.name (py!"r")) (.const (.int 102))) (.cons (.const (.fn (py!"field_252"))) .nil))))
      (.cons (.call (py!"Field") (.cons (.const (.str (py!"Additional Alternate Identifier (5)"))) (.cons (.slice (.name (py!"r")) (some 103) (some 113)) (.cons (.const (.fn (py!"field_253"))) .nil))))
      (.cons (.call (py!"Field") (.cons (.const (.str (py!"File Record No"))) (.cons (.slice (.name (py!"r")) (some 123) (some 128)) (.cons (.const (.fn (py!"field_031"))) .nil))))
      (.cons (.call (py!"Field") (.cons (.const (.str (py!"Cycle Date"))) (.cons (.slice (.name (py!"r")) (some 128) (some 132)) (.cons (.const (.fn (py!"field_032"))) .nil))))
      .nil)))))))))))))))))))))))))))))⟩

/-- definitions/Alternate.py:6-38, class `Alternate` -/
def Alternate : Class :=
  ⟨[],
   [(py!"read", Alternate_read)]⟩

/-- definitions/CruisingTables.py:8-9 -/
def CruisingTables_read : Func := ⟨[py!"self", py!"line", py!"primary"], [],
  (.ret (.invoke (.name (py!"self")) (py!"read_primary") (.cons (.name (py!"line")) .nil)))⟩

/-- definitions/CruisingTables.py:12-35 -/
def CruisingTables_read_primary : Func := ⟨[py!"self", py!"r"], [],
  (.ret (.list (.cons (.call (py!"Field") (.cons (.const (.str (py!"Record Type"))) (.cons (.sub (.name (py!"r")) (.const (.int 0))) (.cons (.const (.fn (py!"field_002"))) .nil))))
      (.cons (.call (py!"Field") (.cons (.const (.str (py!"Section Code"))) (.cons (.slice (.name (py!"r")) (some 4) (some 6)) (.cons (.const (.fn (py!"field_004"))) .nil))))
      (.cons (.call (py!"Field") (.cons (.const (.str (py!"Cruise Table Identifier"))) (.cons (.slice (.name (py!"r")) (some 6) (some 8)) (.cons (.const (.fn (py!"field_134"))) .nil))))
      (.cons (.call (py!"Field") (.cons (.const (.str (py!"Sequence Number"))) (.cons (.sub (.name (py!"r")) (.const (.int 8))) (.cons (.const (.fn (py!"field_012"))) .nil))))
      (.cons (.call (py!"Field") (.cons (.const (.str (py!"Course From"))) (.cons (.slice (.name (py!"r")) (some 28) (some 32)) (.cons (.const (.fn (py!"field_135"))) .nil))))
      (.cons (.call (py!"Field") (.cons (.const (.str (py!"Course To"))) (.cons (.slice (.name (py!"r")) (some 32) (some 36)) (.cons (.const (.fn (py!"field_135"))) .nil))))
      (.cons (.call (py!"Field") (.cons (.const (.str (py!"Mag/True"))) (.cons (.sub (.name (py!"r")) (.const (.int 36))) (.cons (.const (.fn (py!"field_165"))) .nil))))
      (.cons (.call (py!"Field") (.cons (.const (.str (py!"Cruise Level From"))) (.cons (.slice (.name (py!"r")) (some 39) (some 44)) (.cons (.const (.fn (py!"field_136"))) .nil))))
      (.cons (.call (py!"Field") (.cons (.const (.str (py!"Vertical Separation"))) (.cons (.slice (.name (py!"r")) (some 44) (some 49)) (.cons (.const (.fn (py!"field_137"))) .nil))))
      (.cons (.call (py!"Field") (.cons (.const (.str (py!"Cruise Level To "))) (.cons (.slice (.name (py!"r")) (some 49) (some 54)) (.cons (.const (.fn (py!"field_136"))) .nil))))
      (.cons (.call (py!"Field") (.cons (.const (.str (py!"Cruise Level From (2)"))) (.cons (.slice (.name (py!"r")) (some 54) (some 59)) (.cons (.const (.fn (py!"field_136"))) .nil))))
      (.cons (.call (py!"Field") (.cons (.const (.str (py!"Vertical Separation (2)"))) (.cons (.slice (.name (py!"r")) (some 59) (some 64)) (.cons (.const (.fn (py!"field_137"))) .nil))))
      (.cons (.call (py!"Field") (.cons (.const (.str (py!"Cruise Level To (2)"))) (.cons (.slice (.name (py!"r")) (some 64) (some 69)) (.cons (.const (.fn (py!"field_136"))) .nil))))
      (.cons (.call (py!"Field") (.cons (.const (.str (py!"Cruise Level From (3)"))) (.cons (.slice (.name (py!"r")) (some 69) (some 74)) (.cons (.const (.fn (py!"field_136"))) .nil))))
      (.cons (.call (py!"Field") (.cons (.const (.str (py!"Vertical Separation (3)"))) (.cons (.slice (.name (py!"r")) (some 74) (some 79)) (.cons (.const (.fn (py!"field_137"))) .nil))))
      (.cons (.call (py!"Field") (.cons (.const (.str (py!"Cruise Level To (3)"))) (.cons (.slice (.name (py!"r")) (some 79) (some 84)) (.cons (.const (.fn (py!"field_136"))) .nil))))
      (.cons (.call (py!"Field") (.cons (.const (.str (py!"Cruise Level From (4)"))) (.cons (.slice (.name (py!"r")) (some 84) (some 89)) (.cons (.const (.fn (py!"field_136"))) .nil))))
      (.cons (.call (py!"Field") (.cons (.const (.str (py!"Vertical Separation (4)"))) (.cons (.slice (.name (py!"r")) (some 89) (some 94)) (.cons (.const (.fn (py!"field_137"))) .nil))))
      (.cons (.call (py!"Field") (.cons (.const (.str (py!"Cruise Level To (4)"))) (.cons (.slice (.name (py!"r")) (some 94) (some 99)) (.cons (.const (.fn (py!"field_136"))) .nil))))
      (.cons (.call (py!"Field") (.cons (.const (.str (py!"File Record No"))) (.cons (.slice (.name (py!"r")) (some 123) (some 128)) (.cons (.const (.fn (py!"field_031"))) .nil))))
      (.cons (.call (py!"Field") (.cons (.const (.str (py!"Cycle Date"))) (.cons (.slice (.name (py!"r")) (some 128) (some 132)) (.cons (.const (.fn (py!"field_032"))) .nil))))
      .nil)))))))))))))))))))))))⟩

/-- definitions/CruisingTables.py:6-35, class `CruisingTables` -/
def CruisingTables : Class :=
  ⟨[],
   [(py!"read", CruisingTables_read),
    (py!"read_primary", CruisingTables_read_primary)]⟩

/-- definitions/GeoReferenceTable.py:23-24 -/
def GeoReferenceTable_application_type : Func := ⟨[py!"self", py!"line"], [],
  (.ret (.sub (.name (py!"line")) (.attr (.name (py!"self")) (py!"app_idx"))))⟩

/-- definitions/GeoReferenceTable.py:26-36 -/
def GeoReferenceTable_read : Func := ⟨[py!"self", py!"line", py!"primary"], [],
  (.seq (.ite (.name (py!"primary"))
    (.ret (.invoke (.name (py!"self")) (py!"read_primary") (.cons (.name (py!"line")) .nil)))
    .pass)
  (.seq (.assign (py!"application") (.sub (.name (py!"line")) (.attr (.name (py!"self")) (py!"app_idx"))))
  (.matchOn (.name (py!"application"))
    (.case (.str (py!"A")) (.ret (.invoke (.name (py!"self")) (py!"read_cont") (.cons (.name (py!"line")) .nil)))
    (.ret (.list .nil))))))⟩

/-- definitions/GeoReferenceTable.py:39-62 -/
def GeoReferenceTable_read_primary : Func := ⟨[py!"self", py!"r"], [],
  (.ret (.list (.cons (.call (py!"Field") (.cons (.const (.str (py!"Record Type"))) (.cons (.sub (.name (py!"r")) (.const (.int 0))) (.cons (.const (.fn (py!"field_002"))) .nil))))
      (.cons (.call (py!"Field") (.cons (.const (.str (py!"Customer / Area Code"))) (.cons (.slice (.name (py!"r")) (some 1) (some 4)) (.cons (.const (.fn (py!"field_003"))) .nil))))
      (.cons (.call (py!"Field") (.cons (.const (.str (py!"Section Code"))) (.cons (.slice (.name (py!"r")) (some 4) (some 6)) (.cons (.const (.fn (py!"field_004"))) .nil))))
      (.cons (.call (py!"Field") (.cons (.const (.str (py!"Geographical Ref Table ID"))) (.cons (.slice (.name (py!"r")) (some 6) (some 8)) (.cons (.const (.fn (py!"field_218"))) .nil))))
      (.cons (.call (py!"Field") (.cons (.const (.str (py!"Sequence Number"))) (.cons (.sub (.name (py!"r")) (.const (.int 8))) (.cons (.const (.fn (py!"field_012"))) .nil))))
      (.cons (.call (py!"Field") (.cons (.const (.str (py!"Geographical Entity"))) (.cons (.slice (.name (py!"r")) (some 9) (some 38)) (.cons (.const (.fn (py!"field_219"))) .nil))))
      (.cons (.call (py!"Field") (.cons (.const (.str (py!"Continuation Record No"))) (.cons (.sub (.name (py!"r")) (.const (.int 38))) (.cons (.const (.fn (py!"field_016"))) .nil))))
      (.cons (.call (py!"Field") (.cons (.const (.str (py!"Preferred Route Ident"))) (.cons (.slice (.name (py!"r")) (some 40) (some 50)) (.cons (.const (.fn (py!"field_008"))) .nil))))
      (.cons (.call (py!"Field") (.cons (.const (.str (py!"Preferred Route Use Ind"))) (.cons (.slice (.name (py!"r")) (some 50) (some 52)) (.cons (.const (.fn (py!"field_220"))) .nil))))
      (.cons (.call (py!"Field") (.cons (.const (.str (py!"Preferred Route Ident (2)"))) (.cons (.slice (.name (py!"r")) (some 52) (some 62)) (.cons (.const (.fn (py!"field_008"))) .nil))))
      (.cons (.call (py!"Field") (.cons (.const (.str (py!"Preferred Route Use Ind (2)"))) (.cons (.slice (.name (py!"r")) (some 62) (some 64)) (.cons (.const (.fn (py!"field_220"))) .nil))))
      (.cons (.call (py!"Field") (.cons (.const (.str (py!"Preferred Route Ident (3)"))) (.cons (.slice (.name (py!"r")) (some 64) (some 74)) (.cons (.const (.fn (py!"field_008"))) .nil))))
      (.cons (.call (py!"Field") (.cons (.const (.str (py!"Preferred Route Use Ind (3)"))) (.cons (.slice (.name (py!"r")) (some 74) (some 76)) (.cons (.const (.fn (py!"field_220"))) .nil))))
      (.cons (.call (py!"Field") (.cons (.const (.str (py!"Preferred Route Ident (4)"))) (.cons (.slice (.name (py!"r")) (some 76) (some 86)) (.cons (.const (.fn (py!"field_008"))) .nil))))
      (.cons (.call (py!"Field") (.cons (.const (.str (py!"Preferred Route Use Ind (4)"))) (.cons (.slice (.name (py!"r")) (some 86) (some 88)) (.cons (.const (.fn (py!"field_220"))) .nil))))
      (.cons (.call (py!"Field") (.cons (.const (.str (py!"Preferred Route Ident (4)"))) (.cons (.slice (.name (py!"r")) (some 88) (some 98)) (.cons (.const (.fn (py!"field_008"))) .nil))))
      (.cons (.call (py!"Field") (.cons (.const (.str (py!"Preferred Route Use Ind (4)"))) (.cons (.slice (.name (py!"r")) (some 98) (some 100)) (.cons (.const (.fn (py!"field_220"))) .nil))))
      (.cons (.call (py!"Field") (.cons (.const (.str (py!"Preferred Route Ident (5)"))) (.cons (.slice (.name (py!"r")) (some 100) (some 110)) (.cons (.const (.fn (py!"field_008"))) .nil))))
      (.cons (.call (py!"Field") (.cons (.const (.str (py!"Preferred Route Use Ind (5)"))) (.cons (.slice (.name (py!"r")) (some 110) (some 112)) (.cons (.const (.fn (py!"field_220"))) .nil))))
      (.cons (.call (py!"Field") (.cons (.const (.str (py!"File Record No"))) (.cons (.slice (.name (py!"r")) (some 123) (some 128)) (.cons (.const (.fn (py!"field_031"))) .nil))))
      (.cons (.call (py!"Field") (.cons (.const (.str (py!"Cycle Date"))) (.cons (.slice (.name (py!"r")) (some 128) (some 132)) (.cons (.const (.fn (py!"field_032"))) .nil))))
      .nil)))))))))))))))))))))))⟩

/-- definitions/GeoReferenceTable.py:65-77 -/
def GeoReferenceTable_read_cont : Func := ⟨[py!"self", py!"r"], [],
  (.ret (.list (.cons (.call (py!"Field") (.cons (.const (.str (py!"Record Type"))) (.cons (.sub (.name (py!"r")) (.const (.int 0))) (.cons (.const (.fn (py!"field_002"))) .nil))))
      (.cons (.call (py!"Field") (.cons (.const (.str (py!"Customer / Area Code"))) (.cons (.slice (.name (py!"r")) (some 1) (some 4)) (.cons (.const (.fn (py!"field_003"))) .nil))))
      (.cons (.call (py!"Field") (.cons (.const (.str (py!"Section Code"))) (.cons (.slice (.name (py!"r")) (some 4) (some 6)) (.cons (.const (.fn (py!"field_004"))) .nil))))
      (.cons (.call (py!"Field") (.cons (.const (.str (py!"Geographical Ref Table ID"))) (.cons (.slice (.name (py!"r")) (some 6) (some 8)) (.cons (.const (.fn (py!"field_218"))) .nil))))
      (.cons (.call (py!"Field") (.cons (.const (.str (py!"Sequence Number"))) (.cons (.sub (.name (py!"r")) (.const (.int 8))) (.cons (.const (.fn (py!"field_012"))) .nil))))
      (.cons (.call (py!"Field") (.cons (.const (.str (py!"Geographical Entity"))) (.cons (.slice (.name (py!"r")) (some 9) (some 38)) (.cons (.const (.fn (py!"field_219"))) .nil))))
      (.cons (.call (py!"Field") (.cons (.const (.str (py!"Continuation Record No"))) (.cons (.sub (.name (py!"r")) (.const (.int 38))) (.cons (.const (.fn (py!"field_016"))) .nil))))
      (.cons (.call (py!"Field") (.cons (.const (.str (py!"Application Type"))) (.cons (.sub (.name (py!"r")) (.const (.int 39))) (.cons (.const (.fn (py!"field_091"))) .nil))))
      (.cons (.call (py!"Field") (.cons (.const (.str (py!"File Record No"))) (.cons (.slice (.name (py!"r")) (some 123) (some 128)) (.cons (.const (.fn (py!"field_031"))) .nil))))
      (.cons (.call (py!"Field") (.cons (.const (.str (py!"Cycle Date"))) (.cons (.slice (.name (py!"r")) (some 128) (some 132)) (.cons (.const (.fn (py!"field_032"))) .nil))))
      .nil))))))))))))⟩

/-- definitions/GeoReferenceTable.py:16-77, class `GeoReferenceTable` -/
def GeoReferenceTable : Class :=
  ⟨[(py!"cont_idx", (.int 38)), (py!"app_idx", (.int 39)), (py!"continuations", (.list [(.str (py!"A"))])), (py!"name", (.str (py!"Geographical Reference Table")))],
   [(py!"application_type", GeoReferenceTable_application_type),
    (py!"read", GeoReferenceTable_read),
    (py!"read_primary", GeoReferenceTable_read_primary),
    (py!"read_cont", GeoReferenceTable_read_cont)]⟩

/-- definitions/ControlledAirspace.py:20-21 -/
def ControlledAirspace_application_type : Func := ⟨[py!"self", py!"line"], [],
  (.ret (.sub (.name (py!"line")) (.attr (.name (py!"self")) (py!"app_idx"))))⟩

/-- definitions/ControlledAirspace.py:23-33 -/
def ControlledAirspace_read : Func := ⟨[py!"self", py!"line", py!"primary"], [],
  (.seq (.ite (.name (py!"primary"))
    (.ret (.invoke (.name (py!"self")) (py!"read_primary") (.cons (.name (py!"line")) .nil)))
    .pass)
  (.seq (.assign (py!"application") (.sub (.name (py!"line")) (.attr (.name (py!"self")) (py!"app_idx"))))
  (.matchOn (.name (py!"application"))
    (.case (.str (py!"A")) (.ret (.invoke (.name (py!"self")) (py!"read_cont") (.cons (.name (py!"line")) .nil)))
    (.ret (.list .nil))))))⟩

/-- definitions/ControlledAirspace.py:36-67 -/
def ControlledAirspace_read_primary : Func := ⟨[py!"self", py!"r"], [],
  (.ret (.list (.cons (.call (py!"Field") (.cons (.const (.str (py!"Record Type"))) (.cons (.sub (.name (py!"r")) (.const (.int 0))) (.cons (.const (.fn (py!"field_002"))) .nil))))
      (.cons (.call (py!"Field") (.cons (.const (.str (py!"Customer / Area Code"))) (.cons (.slice (.name (py!"r")) (some 1) (some 4)) (.cons (.const (.fn (py!"field_003"))) .nil))))
      (.cons (.call (py!"Field") (.cons (.const (.str (py!"Section Code"))) (.cons (.slice (.name (py!"r")) (some 4) (some 6)) (.cons (.const (.fn (py!"field_004"))) .nil))))
      (.cons (.call (py!"Field") (.cons (.const (.str (py!"ICAO Code"))) (.cons (.slice (.name (py!"r")) (some 6) (some 8)) (.cons (.const (.fn (py!"field_014"))) .nil))))
      (.cons (.call (py!"Field") (.cons (.const (.str (py!"Airspace Type"))) (.cons (.sub (.name (py!"r")) (.const (.int 9))) (.cons (.const (.fn (py!"field_213"))) .nil))))
      (.cons (.call (py!"Field") (.cons (.const (.str (py!"Airspace Center"))) (.cons (.slice (.name (py!"r")) (some 9) (some 14)) (.cons (.const (.fn (py!"field_214"))) .nil))))
      (.cons (.call (py!"Field") (.cons (.const (.str (py!"Section Code (2)"))) (.cons (.slice (.name (py!"r")) (some 14) (some 16)) (.cons (.const (.fn (py!"field_004"))) .nil))))
      (.cons (.call (py!"Field") (.cons (.const (.str (py!"Airspace Classification"))) (.cons (.sub (.name (py!"r")) (.const (.int 16))) (.cons (.const (.fn (py!"field_215"))) .nil))))
      (.cons (.call (py!"Field") (.cons (.const (.str (py!"Multiple Code"))) (.cons (.sub (.name (py!"r")) (.const (.int 19))) (.cons (.const (.fn (py!"field_130"))) .nil))))
      (.cons (.call (py!"Field") (.cons (.const (.str (py!"Sequence Number"))) (.cons (.slice (.name (py!"r")) (some 20) (some 24)) (.cons (.const (.fn (py!"field_012"))) .nil))))
      (.cons (.call (py!"Field") (.cons (.const (.str (py!"Continuation Record No"))) (.cons (.sub (.name (py!"r")) (.const (.int 24))) (.cons (.const (.fn (py!"field_016"))) .nil))))
      (.cons (.call (py!"Field") (.cons (.const (.str (py!"Level"))) (.cons (.sub (.name (py!"r")) (.const (.int 25))) (.cons (.const (.fn (py!"field_019"))) .nil))))
      (.cons (.call (py!"Field") (.cons (.const (.str (py!"Time Code"))) (.cons (.sub (.name (py!"r")) (.const (.int 26))) (.cons (.const (.fn (py!"field_131"))) .nil))))
      (.cons (.call (py!"Field") (.cons (.const (.str (py!"NOTAM"))) (.cons (.sub (.name (py!"r")) (.const (.int 27))) (.cons (.const (.fn (py!"field_132"))) .nil))))
      (.cons (.call (py!"Field") (.cons (.const (.str (py!"Boundary Via"))) (.cons (.slice (.name (py!"r")) (some 30) (some 32)) (.cons (.const (.fn (py!"field_118"))) .nil))))
      (.cons (.call (py!"Field") (.cons (.const (.str (py!"Latitude"))) (.cons (.slice (.name (py!"r")) (some 32) (some 41)) (.cons (.const (.fn (py!"field_036"))) .nil))))
      (.cons (.call (py!"Field") (.cons (.const (.str (py!"Longitude"))) (.cons (.slice (.name (py!"r")) (some 41) (some 51)) (.cons (.const (.fn (py!"field_037"))) .nil))))
      (.cons (.call (py!"Field") (.cons (.const (.str (py!"Arc Origin Latitude"))) (.cons (.slice (.name (py!"r")) (some 51) (some 60)) (.cons (.const (.fn (py!"field_036"))) .nil))))
      (.cons (.call (py!"Field") (.cons (.const (.str (py!"Arc Origin Longitude"))) (.cons (.slice (.name (py!"r")) (some 60) (some 70)) (.cons (.const (.fn (py!"field_037"))) .nil))))
      (.cons (.call (py!"Field") (.cons (.const (.str (py!"Arc Distance"))) (.cons (.slice (.name (py!"r")) (some 70) (some 74)) (.cons (.const (.fn (py!"field_119"))) .nil))))
      (.cons (.call (py!"Field") (.cons (.const (.str (py!"Arc Bearing"))) (.cons (.slice (.name (py!"r")) (some 74) (some 78)) (.cons (.const (.fn (py!"field_120"))) .nil))))
      (.cons (.call (py!"Field") (.cons (.const (.str (py!"RNP"))) (.cons (.slice (.name (py!"r")) (some 78) (some 81)) (.cons (.const (.fn (py!"field_211"))) .nil))))
      (.cons (.call (py!"Field") (.cons (.const (.str (py!"Lower Limit"))) (.cons (.slice (.name (py!"r")) (some 81) (some 86)) (.cons (.const (.fn (py!"field_121"))) .nil))))
      (.cons (.call (py!"Field") (.cons (.const (.str (py!"Unit Indicator"))) (.cons (.sub (.name (py!"r")) (.const (.int 86))) (.cons (.const (.fn (py!"field_133"))) .nil))))
      (.cons (.call (py!"Field") (.cons (.const (.str (py!"Upper Limit"))) (.cons (.slice (.name (py!"r")) (some 87) (some 92)) (.cons (.const (.fn (py!"field_121"))) .nil))))
      (.cons (.call (py!"Field") (.cons (.const (.str (py!"Unit Indicator (2)"))) (.cons (.sub (.name (py!"r")) (.const (.int 92))) (.cons (.const (.fn (py!"field_133"))) .nil))))
      (.cons (.call (py!"Field") (.cons (.const (.str (py!"Controlled Airspace Name"))) (.cons (.slice (.name (py!"r")) (some 93) (some 123)) (.cons (.const (.fn (py!"field_216"))) .nil))))
      (.cons (.call (py!"Field") (.cons (.const (.str (py!"File Record No"))) (.cons (.slice (.name (py!"r")) (some 123) (some 128)) (.cons (.const (.fn (py!"field_031"))) .nil))))
      (.cons (.call (py!"Field") (.cons (.const (.str (py!"Cycle Date"))) (.cons (.slice (.name (py!"r")) (some 128) (some 132)) (.cons (.const (.fn (py!"field_032"))) .nil))))
      .nil)))))))))))))))))))))))))))))))⟩

/-- definitions/ControlledAirspace.py:70-97 -/
def ControlledAirspace_read_cont : Func := ⟨[py!"self", py!"r"], [],
  (.ret (.list (.cons (.call (py!"Field") (.cons (.const (.str (py!"Record Type"))) (.cons (.sub (.name (py!"r")) (.const (.int 0))) (.cons (.const (.fn (py!"field_002"))) .nil))))
      (.cons (.call (py!"Field") (.cons (.const (.str (py!"Customer / Area Code"))) (.cons (.slice (.name (py!"r")) (some 1) (some 4)) (.cons (.const (.fn (py!"field_003"))) .nil))))
      (.cons (.call (py!"Field") (.cons (.const (.str (py!"Section Code"))) (.cons (.slice (.name (py!"r")) (some 4) (some 6)) (.cons (.const (.fn (py!"field_004"))) .nil))))
      (.cons (.call (py!"Field") (.cons (.const (.str (py!"ICAO Code"))) (.cons (.slice (.name (py!"r")) (some 6) (some 8)) (.cons (.const (.fn (py!"field_014"))) .nil))))
      (.cons (.call (py!"Field") (.cons (.const (.str (py!"Airspace Type"))) (.cons (.sub (.name (py!"r")) (.const (.int 9))) (.cons (.const (.fn (py!"field_213"))) .nil))))
      (.cons (.call (py!"Field") (.cons (.const (.str (py!"Airspace Center"))) (.cons (.slice (.name (py!"r")) (some 9) (some 14)) (.cons (.const (.fn (py!"field_214"))) .nil))))
      (.cons (.call (py!"Field") (.cons (.const (.str (py!"Section Code (2)"))) (.cons (.slice (.name (py!"r")) (some 14) (some 16)) (.cons (.const (.fn (py!"field_004"))) .nil))))
      (.cons (.call (py!"Field") (.cons (.const (.str (py!"Airspace Classification"))) (.cons (.sub (.name (py!"r")) (.const (.int 16))) (.cons (.const (.fn (py!"field_215"))) .nil))))
      (.cons (.call (py!"Field") (.cons (.const (.str (py!"Multiple Code"))) (.cons (.sub (.name (py!"r")) (.const (.int 19))) (.cons (.const (.fn (py!"field_130"))) .nil))))
      (.cons (.call (py!"Field") (.cons (.const (.str (py!"Sequence Number"))) (.cons (.slice (.name (py!"r")) (some 20) (some 24)) (.cons (.const (.fn (py!"field_012"))) .nil))))
      (.cons (.call (py!"Field") (.cons (.const (.str (py!"Continuation Record No"))) (.cons (.sub (.name (py!"r")) (.const (.int 24))) (.cons (.const (.fn (py!"field_016"))) .nil))))
      (.cons (.call (py!"Field") (.cons (.const (.str (py!"Application Type"))) (.cons (.sub (.name (py!"r")) (.const (.int 25))) (.cons (.const (.fn (py!"field_091"))) .nil))))
      (.cons (.call (py!"Field") (.cons (.const (.str (py!"Time Code"))) (.cons (.sub (.name (py!"r")) (.const (.int 26))) (.cons (.const (.fn (py!"field_131"))) .nil))))
      (.cons (.call (py!"Field") (.cons (.const (.str (py!"NOTAM"))) (.cons (.sub (.name (py!"r")) (.const (.int 27))) (.cons (.const (.fn (py!"field_132"))) .nil))))
      (.cons (.call (py!"Field") (.cons (.const (.str (py!"Time Indicator"))) (.cons (.sub (.name (py!"r")) (.const (.int 28))) (.cons (.const (.fn (py!"field_138"))) .nil))))
      (.cons (.call (py!"Field") (.cons (.const (.str (py!"Time of Operations"))) (.cons (.slice (.name (py!"r")) (some 29) (some 39)) (.cons (.const (.fn (py!"field_195"))) .nil))))
      (.cons (.call (py!"Field") (.cons (.const (.str (py!"Time of Operations (2)"))) (.cons (.slice (.name (py!"r")) (some 39) (some 49)) (.cons (.const (.fn (py!"field_195"))) .nil))))
      (.cons (.call (py!"Field") (.cons (.const (.str (py!"Time of Operations (3)"))) (.cons (.slice (.name (py!"r")) (some 49) (some 59)) (.cons (.const (.fn (py!"field_195"))) .nil))))
      (.cons (.call (py!"Field") (.cons (.const (.str (py!"Time of Operations (4)"))) (.cons (.slice (.name (py!"r")) (some 59) (some 69)) (.cons (.const (.fn (py!"field_195"))) .nil))))
      (.cons (.call (py!"Field") (.cons (.const (.str (py!"Time of Operations (5)"))) (.cons (.slice (.name (py!"r")) (some 69) (some 79)) (.cons (.const (.fn (py!"field_195"))) .nil))))
      (.cons (.call (py!"Field") (.cons (.const (.str (py!"Time of Operations (6)"))) (.cons (.slice (.name (py!"r")) (some 79) (some 89)) (.cons (.const (.fn (py!"field_195"))) .nil))))
      (.cons (.call (py!"Field") (.cons (.const (.str (py!"Time of Operations (7)"))) (.cons (.slice (.name (py!"r")) (some 89) (some 99)) (.cons (.const (.fn (py!"field_195"))) .nil))))
      (.cons (.call (py!"Field") (.cons (.const (.str (py!"Controlling Agency"))) (.cons (.slice (.name (py!"r")) (some 99) (some 123)) (.cons (.const (.fn (py!"field_140"))) .nil))))
      (.cons (.call (py!"Field") (.cons (.const (.str (py!"File Record No"))) (.cons (.slice (.name (py!"r")) (some 123) (some 128)) (.cons (.const (.fn (py!"field_031"))) .nil))))
      (.cons (.call (py!"Field") (.cons (.const (.str (py!"Cycle Date"))) (.cons (.slice (.name (py!"r")) (some 128) (some 132)) (.cons (.const (.fn (py!"field_032"))) .nil))))
      .nil)))))))))))))))))))))))))))⟩

/-- definitions/ControlledAirspace.py:13-97, class `ControlledAirspace` -/
def ControlledAirspace : Class :=
  ⟨[(py!"cont_idx", (.int 24)), (py!"app_idx", (.int 25)), (py!"continuations", (.list [(.str (py!"A"))])), (py!"name", (.str (py!"Controlled Airspace")))],
   [(py!"application_type", ControlledAirspace_application_type),
    (py!"read", ControlledAirspace_read),
    (py!"read_primary", ControlledAirspace_read_primary),
    (py!"read_cont", ControlledAirspace_read_cont)]⟩

/-- definitions/FIRUIR.py:13-14 -/
def FIRUIR_application_type : Func := ⟨[py!"self", py!"line"], [],
  (.ret (.sub (.name (py!"line")) (.attr (.name (py!"self")) (py!"app_idx"))))⟩

/-- definitions/FIRUIR.py:16-26 -/
def FIRUIR_read : Func := ⟨[py!"self", py!"line", py!"primary"], [],
  (.seq (.ite (.name (py!"primary"))
    (.ret (.invoke (.name (py!"self")) (py!"read_primary") (.cons (.name (py!"line")) .nil)))
    .pass)
  (.seq (.assign (py!"application") (.sub (.name (py!"line")) (.attr (.name (py!"self")) (py!"app_idx"))))
  (.matchOn (.name (py!"application"))
    (.case (.str (py!"A")) (.ret (.invoke (.name (py!"self")) (py!"read_cont") (.cons (.name (py!"line")) .nil)))
    (.ret (.list .nil))))))⟩

/-- definitions/FIRUIR.py:29-58 -/
def FIRUIR_read_primary : Func := ⟨[py!"self", py!"r"], [],
  (.ret (.list (.cons (.call (py!"Field") (.cons (.const (.str (py!"Record Type"))) (.cons (.sub (.name (py!"r")) (.const (.int 0))) (.cons (.const (.fn (py!"field_002"))) .nil))))
      (.cons (.call (py!"Field") (.cons (.const (.str (py!"Customer / Area Code"))) (.cons (.slice (.name (py!"r")) (some 1) (some 4)) (.cons (.const (.fn (py!"field_003"))) .nil))))
      (.cons (.call (py!"Field") (.cons (.const (.str (py!"Section Code"))) (.cons (.slice (.name (py!"r")) (some 4) (some 6)) (.cons (.const (.fn (py!"field_004"))) .nil))))
      (.cons (.call (py!"Field") (.cons (.const (.str (py!"FIR/UIR Identifier"))) (.cons (.slice (.name (py!"r")) (some 6) (some 10)) (.cons (.const (.fn (py!"field_116"))) .nil))))
      (.cons (.call (py!"Field") (.cons (.const (.str (py!"FIR/UIR Address"))) (.cons (.slice (.name (py!"r")) (some 10) (some 14)) (.cons (.const (.fn (py!"field_151"))) .nil))))
      (.cons (.call (py!"Field") (.cons (.const (.str (py!"FIR/UIR Indicator"))) (.cons (.sub (.name (py!"r")) (.const (.int 14))) (.cons (.const (.fn (py!"field_117"))) .nil))))
      (.cons (.call (py!"Field") (.cons (.const (.str (py!"Sequence Number"))) (.cons (.slice (.name (py!"r")) (some 15) (some 19)) (.cons (.const (.fn (py!"field_012"))) .nil))))
      (.cons (.call (py!"Field") (.cons (.const (.str (py!"Continuation Record No"))) (.cons (.sub (.name (py!"r")) (.const (.int 19))) (.cons (.const (.fn (py!"field_016"))) .nil))))
      (.cons (.call (py!"Field") (.cons (.const (.str (py!"Adjacent FIR Identifier"))) (.cons (.slice (.name (py!"r")) (some 20) (some 24)) (.cons (.const (.fn (py!"field_116"))) .nil))))
      (.cons (.call (py!"Field") (.cons (.const (.str (py!"Adjacent UIR Identifier"))) (.cons (.slice (.name (py!"r")) (some 24) (some 28)) (.cons (.const (.fn (py!"field_116"))) .nil))))
      (.cons (.call (py!"Field") (.cons (.const (.str (py!"Reporting Units Speed"))) (.cons (.sub (.name (py!"r")) (.const (.int 28))) (.cons (.const (.fn (py!"field_122"))) .nil))))
      (.cons (.call (py!"Field") (.cons (.const (.str (py!"Reporting Units Altitude"))) (.cons (.sub (.name (py!"r")) (.const (.int 29))) (.cons (.const (.fn (py!"field_123"))) .nil))))
      (.cons (.call (py!"Field") (.cons (.const (.str (py!"Entry Report"))) (.cons (.sub (.name (py!"r")) (.const (.int 30))) (.cons (.const (.fn (py!"field_124"))) .nil))))
      (.cons (.call (py!"Field") (.cons (.const (.str (py!"Boundary Via"))) (.cons (.slice (.name (py!"r")) (some 32) (some 34)) (.cons (.const (.fn (py!"field_118"))) .nil))))
      (.cons (.call (py!"Field") (.cons (.const (.str (py!"FIR/UIR Latitude"))) (.cons (.slice (.name (py!"r")) (some 34) (some 43)) (.cons (.const (.fn (py!"field_036"))) .nil))))
      (.cons (.call (py!"Field") (.cons (.const (.str (py!"FIR/UIR Longitude"))) (.cons (.slice (.name (py!"r")) (some 43) (some 53)) (.cons (.const (.fn (py!"field_037"))) .nil))))
      (.cons (.call (py!"Field") (.cons (.const (.str (py!"Arc Origin Latitude"))) (.cons (.slice (.name (py!"r")) (some 53) (some 62)) (.cons (.const (.fn (py!"field_036"))) .nil))))
      (.cons (.call (py!"Field") (.cons (.const (.str (py!"Arc Origin Longitude"))) (.cons (.slice (.name (py!"r")) (some 62) (some 72)) (.cons (.const (.fn (py!"field_037"))) .nil))))
      (.cons (.call (py!"Field") (.cons (.const (.str (py!"Arc Distance"))) (.cons (.slice (.name (py!"r")) (some 72) (some 76)) (.cons (.const (.fn (py!"field_119"))) .nil))))
      (.cons (.call (py!"Field") (.cons (.const (.str (py!"Arc Bearing"))) (.cons (.slice (.name (py!"r")) (some 76) (some 80)) (.cons (.const (.fn (py!"field_120"))) .nil))))
      (.cons (.call (py!"Field") (.cons (.const (.str (py!"FIR Upper Limit"))) (.cons (.slice (.name (py!"r")) (some 80) (some 85)) (.cons (.const (.fn (py!"field_121"))) .nil))))
      (.cons (.call (py!"Field") (.cons (.const (.str (py!"UIR Lower Limit"))) (.cons (.slice (.name (py!"r")) (some 85) (some 90)) (.cons (.const (.fn (py!"field_121"))) .nil))))
      (.cons (.call (py!"Field") (.cons (.const (.str (py!"UIR Upper Limit"))) (.cons (.slice (.name (py!"r")) (some 90) (some 95)) (.cons (.const (.fn (py!"field_121"))) .nil))))
      (.cons (.call (py!"Field") (.cons (.const (.str (py!"Cruise Table Ind"))) (.cons (.slice (.name (py!"r")) (some 95) (some 97)) (.cons (.const (.fn (py!"field_134"))) .nil))))
      (.cons (.call (py!"Field") (.cons (.const (.str (py!"FIR/UIR Name"))) (.cons (.slice (.name (py!"r")) (some 98) (some 123)) (.cons (.const (.fn (py!"field_125"))) .nil))))
      (.cons (.call (py!"Field") (.cons (.const (.str (py!"File Record No"))) (.cons (.slice (.name (py!"r")) (some 123) (some 128)) (.cons (.const (.fn (py!"field_031"))) .nil))))
      (.cons (.call (py!"Field") (.cons (.const (.str (py!"Cycle Date"))) (.cons (.slice (.name (py!"r")) (some 128) (some 132)) (.cons (.const (.fn (py!"field_032"))) .nil))))
      .nil)))))))))))))))))))))))))))))⟩

/-- definitions/FIRUIR.py:61-74 -/
def FIRUIR_read_cont : Func := ⟨[py!"self", py!"r"], [],
  (.ret (.list (.cons (.call (py!"Field") (.cons (.const (.str (py!"Record Type"))) (.cons (.sub (.name (py!"r")) (.const (.int 0))) (.cons (.const (.fn (py!"field_002"))) .nil))))
      (.cons (.call (py!"Field") (.cons (.const (.str (py!"Customer / Area Code"))) (.cons (.slice (.name (py!"r")) (some 1) (some 4)) (.cons (.const (.fn (py!"field_003"))) .nil))))
      (.cons (.call (py!"Field") (.cons (.const (.str (py!"Section Code"))) (.cons (.slice (.name (py!"r")) (some 4) (some 6)) (.cons (.const (.fn (py!"field_004"))) .nil))))
      (.cons (.call (py!"Field") (.cons (.const (.str (py!"FIR/UIR Identifier"))) (.cons (.slice (.name (py!"r")) (some 6) (some 10)) (.cons (.const (.fn (py!"field_116"))) .nil))))
      (.cons (.call (py!"Field") (.cons (.const (.str (py!"FIR/UIR Address"))) (.cons (.slice (.name (py!"r")) (some 10) (some 14)) (.cons (.const (.fn (py!"field_151"))) .nil))))
      (.cons (.call (py!"Field") (.cons (.const (.str (py!"FIR/UIR Indicator"))) (.cons (.sub (.name (py!"r")) (.const (.int 14))) (.cons (.const (.fn (py!"field_117"))) .nil))))
      (.cons (.call (py!"Field") (.cons (.const (.str (py!"Sequence Number"))) (.cons (.slice (.name (py!"r")) (some 15) (some 19)) (.cons (.const (.fn (py!"field_012"))) .nil))))
      (.cons (.call (py!"Field") (.cons (.const (.str (py!"Continuation Record No"))) (.cons (.sub (.name (py!"r")) (.const (.int 19))) (.cons (.const (.fn (py!"field_016"))) .nil))))
      (.cons (.call (py!"Field") (.cons (.const (.str (py!"Application Type"))) (.cons (.sub (.name (py!"r")) (.const (.int 20))) (.cons (.const (.fn (py!"field_091"))) .nil))))
      (.cons (.call (py!"Field") (.cons (.const (.str (py!"File Record No"))) (.cons (.slice (.name (py!"r")) (some 123) (some 128)) (.cons (.const (.fn (py!"field_031"))) .nil))))
      (.cons (.call (py!"Field") (.cons (.const (.str (py!"Cycle Date"))) (.cons (.slice (.name (py!"r")) (some 128) (some 132)) (.cons (.const (.fn (py!"field_032"))) .nil))))
      .nil)))))))))))))⟩

/-- definitions/FIRUIR.py:6-74, class `FIRUIR` -/
def FIRUIR : Class :=
  ⟨[(py!"cont_idx", (.int 19)), (py!"app_idx", (.int 20)), (py!"continuations", (.list [(.str (py!"A"))])), (py!"name", (.str (py!"FIR/UIR")))],
   [(py!"application_type", FIRUIR_application_type),
    (py!"read", FIRUIR_read),
    (py!"read_primary", FIRUIR_read_primary),
    (py!"read_cont", FIRUIR_read_cont)]⟩

/-- definitions/RestrictiveAirspace.py:13-14 -/
def RestrictiveAirspace_application_type : Func := ⟨[py!"self", py!"line"], [],
  (.ret (.sub (.name (py!"line")) (.attr (.name (py!"self")) (py!"app_idx"))))⟩

/-- definitions/RestrictiveAirspace.py:16-30 -/
def RestrictiveAirspace_read : Func := ⟨[py!"self", py!"line", py!"primary"], [],
  (.seq (.ite (.name (py!"primary"))
    (.ret (.invoke (.name (py!"self")) (py!"read_primary") (.cons (.name (py!"line")) .nil)))
    .pass)
  (.seq (.assign (py!"application") (.sub (.name (py!"line")) (.attr (.name (py!"self")) (py!"app_idx"))))
  (.matchOn (.name (py!"application"))
    (.case (.str (py!"T")) (.ret (.invoke (.name (py!"self")) (py!"read_time") (.cons (.name (py!"line")) .nil)))
    (.case (.str (py!"P")) (.ret (.invoke (.name (py!"self")) (py!"read_flight0") (.cons (.name (py!"line")) .nil)))
    (.case (.str (py!"C")) (.ret (.invoke (.name (py!"self")) (py!"read_callsign") (.cons (.name (py!"line")) .nil)))
    (.ret (.list .nil))))))))⟩

/-- definitions/RestrictiveAirspace.py:33-61 -/
def RestrictiveAirspace_read_primary : Func := ⟨[py!"self", py!"r"], [],
  (.ret (.list (.cons (.call (py!"Field") (.cons (.const (.str (py!"Record Type"))) (.cons (.sub (.name (py!"r")) (.const (.int 0))) (.cons (.const (.fn (py!"field_002"))) .nil))))
      (.cons (.call (py!"Field") (.cons (.const (.str (py!"Customer / Area Code"))) (.cons (.slice (.name (py!"r")) (some 1) (some 4)) (.cons (.const (.fn (py!"field_003"))) .nil))))
      (.cons (.call (py!"Field") (.cons (.const (.str (py!"Section Code"))) (.cons (.slice (.name (py!"r")) (some 4) (some 6)) (.cons (.const (.fn (py!"field_004"))) .nil))))
      (.cons (.call (py!"Field") (.cons (.const (.str (py!"ICAO Code"))) (.cons (.slice (.name (py!"r")) (some 6) (some 8)) (.cons (.const (.fn (py!"field_014"))) .nil))))
      (.cons (.call (py!"Field") (.cons (.const (.str (py!"Restrictive Type"))) (.cons (.sub (.name (py!"r")) (.const (.int 8))) (.cons (.const (.fn (py!"field_128"))) .nil))))
      (.cons (.call (py!"Field") (.cons (.const (.str (py!"Restrictive Airspace Designation"))) (.cons (.slice (.name (py!"r")) (some 9) (some 19)) (.cons (.const (.fn (py!"field_129"))) .nil))))
      (.cons (.call (py!"Field") (.cons (.const (.str (py!"Multiple Code"))) (.cons (.sub (.name (py!"r")) (.const (.int 19))) (.cons (.const (.fn (py!"field_130"))) .nil))))
      (.cons (.call (py!"Field") (.cons (.const (.str (py!"Sequence Number"))) (.cons (.slice (.name (py!"r")) (some 20) (some 24)) (.cons (.const (.fn (py!"field_012"))) .nil))))
      (.cons (.call (py!"Field") (.cons (.const (.str (py!"Continuation Record No"))) (.cons (.sub (.name (py!"r")) (.const (.int 24))) (.cons (.const (.fn (py!"field_016"))) .nil))))
      (.cons (.call (py!"Field") (.cons (.const (.str (py!"Level"))) (.cons (.sub (.name (py!"r")) (.const (.int 25))) (.cons (.const (.fn (py!"field_019"))) .nil))))
      (.cons (.call (py!"Field") (.cons (.const (.str (py!"Time Code"))) (.cons (.sub (.name (py!"r")) (.const (.int 26))) (.cons (.const (.fn (py!"field_131"))) .nil))))
      (.cons (.call (py!"Field") (.cons (.const (.str (py!"NOTAM"))) (.cons (.sub (.name (py!"r")) (.const (.int 27))) (.cons (.const (.fn (py!"field_132"))) .nil))))
      (.cons (.call (py!"Field") (.cons (.const (.str (py!"Boundary Via"))) (.cons (.slice (.name (py!"r")) (some 30) (some 32)) (.cons (.const (.fn (py!"field_118"))) .nil))))
      (.cons (.call (py!"Field") (.cons (.const (.str (py!"Latitude"))) (.cons (.slice (.name (py!"r")) (some 32) (some 41)) (.cons (.const (.fn (py!"field_036"))) .nil))))
      (.cons (.call (py!"Field") (.cons (.const (.str (py!"Longitude"))) (.cons (.slice (.name (py!"r")) (some 41) (some 51)) (.cons (.const (.fn (py!"field_037"))) .nil))))
      (.cons (.call (py!"Field") (.cons (.const (.str (py!"Arc Origin Latitude"))) (.cons (.slice (.name (py!"r")) (some 51) (some 60)) (.cons (.const (.fn (py!"field_036"))) .nil))))
      (.cons (.call (py!"Field") (.cons (.const (.str (py!"Arc Origin Longitude"))) (.cons (.slice (.name (py!"r")) (some 60) (some 70)) (.cons (.const (.fn (py!"field_037"))) .nil))))
      (.cons (.call (py!"Field") (.cons (.const (.str (py!"Arc Distance"))) (.cons (.slice (.name (py!"r")) (some 70) (some 74)) (.cons (.const (.fn (py!"field_119"))) .nil))))
      (.cons (.call (py!"Field") (.cons (.const (.str (py!"Arc Bearing"))) (.cons (.slice (.name (py!"r")) (some 74) (some 78)) (.cons (.const (.fn (py!"field_120"))) .nil))))
      (.cons (.call (py!"Field") (.cons (.const (.str (py!"Lower Limit"))) (.cons (.slice (.name (py!"r")) (some 82) (some 86)) (.cons (.const (.fn (py!"field_121"))) .nil))))
      (.cons (.call (py!"Field") (.cons (.const (.str (py!"Unit Indicator"))) (.cons (.sub (.name (py!"r")) (.const (.int 86))) (.cons (.const (.fn (py!"field_133"))) .nil))))
      (.cons (.call (py!"Field") (.cons (.const (.str (py!"Upper Limit"))) (.cons (.slice (.name (py!"r")) (some 87) (some 92)) (.cons (.const (.fn (py!"field_121"))) .nil))))
      (.cons (.call (py!"Field") (.cons (.const (.str (py!"Unit Indicator (2)"))) (.cons (.sub (.name (py!"r")) (.const (.int 92))) (.cons (.const (.fn (py!"field_133"))) .nil))))
      (.cons (.call (py!"Field") (.cons (.const (.str (py!"Restrictive Airspace Name"))) (.cons (.slice (.name (py!"r")) (some 93) (some 123)) (.cons (.const (.fn (py!"field_126"))) .nil))))
      (.cons (.call (py!"Field") (.cons (.const (.str (py!"File Record No"))) (.cons (.slice (.name (py!"r")) (some 123) (some 128)) (.cons (.const (.fn (py!"field_031"))) .nil))))
      (.cons (.call (py!"Field") (.cons (.const (.str (py!"Cycle Date"))) (.cons (.slice (.name (py!"r")) (some 128) (some 132)) (.cons (.const (.fn (py!"field_032"))) .nil))))
      .nil))))))))))))))))))))))))))))⟩

/-- definitions/RestrictiveAirspace.py:64-89 -/
def RestrictiveAirspace_read_time : Func := ⟨[py!"self", py!"r"], [],
  (.ret (.list (.cons (.call (py!"Field") (.cons (.const (.str (py!"Record Type"))) (.cons (.sub (.name (py!"r")) (.const (.int 0))) (.cons (.const (.fn (py!"field_002"))) .nil))))
      (.cons (.call (py!"Field") (.cons (.const (.str (py!"Customer / Area Code"))) (.cons (.slice (.name (py!"r")) (some 1) (some 4)) (.cons (.const (.fn (py!"field_003"))) .nil))))
      (.cons (.call (py!"Field") (.cons (.const (.str (py!"Section Code"))) (.cons (.slice (.name (py!"r")) (some 4) (some 6)) (.cons (.const (.fn (py!"field_004"))) .nil))))
      (.cons (.call (py!"Field") (.cons (.const (.str (py!"ICAO Code"))) (.cons (.slice (.name (py!"r")) (some 6) (some 8)) (.cons (.const (.fn (py!"field_014"))) .nil))))
      (.cons (.call (py!"Field") (.cons (.const (.str (py!"Restrictive Type"))) (.cons (.sub (.name (py!"r")) (.const (.int 8))) (.cons (.const (.fn (py!"field_128"))) .nil))))
      (.cons (.call (py!"Field") (.cons (.const (.str (py!"Restrictive Airspace Designation"))) (.cons (.slice (.name (py!"r")) (some 9) (some 19)) (.cons (.const (.fn (py!"field_129"))) .nil))))
      (.cons (.call (py!"Field") (.cons (.const (.str (py!"Multiple Code"))) (.cons (.sub (.name (py!"r")) (.const (.int 19))) (.cons (.const (.fn (py!"field_130"))) .nil))))
      (.cons (.call (py!"Field") (.cons (.const (.str (py!"Sequence Number"))) (.cons (.slice (.name (py!"r")) (some 20) (some 24)) (.cons (.const (.fn (py!"field_012"))) .nil))))
      (.cons (.call (py!"Field") (.cons (.const (.str (py!"Continuation Record No"))) (.cons (.sub (.name (py!"r")) (.const (.int 24))) (.cons (.const (.fn (py!"field_016"))) .nil))))
      (.cons (.call (py!"Field") (.cons (.const (.str (py!"Application Type"))) (.cons (.sub (.name (py!"r")) (.const (.int 25))) (.cons (.const (.fn (py!"field_091"))) .nil))))
      (.cons (.call (py!"Field") (.cons (.const (.str (py!"Time Code"))) (.cons (.sub (.name (py!"r")) (.const (.int 26))) (.cons (.const (.fn (py!"field_131"))) .nil))))
      (.cons (.call (py!"Field") (.cons (.const (.str (py!"NOTAM"))) (.cons (.sub (.name (py!"r")) (.const (.int 27))) (.cons (.const (.fn (py!"field_132"))) .nil))))
      (.cons (.call (py!"Field") (.cons (.const (.str (py!"Time Indicator"))) (.cons (.sub (.name (py!"r")) (.const (.int 27))) (.cons (.const (.fn (py!"field_138"))) .nil))))
      (.cons (.call (py!"Field") (.cons (.const (.str (py!"Time of Operations"))) (.cons (.slice (.name (py!"r")) (some 29) (some 39)) (.cons (.const (.fn (py!"field_195"))) .nil))))
      (.cons (.call (py!"Field") (.cons (.const (.str (py!"Time of Operations (2)"))) (.cons (.slice (.name (py!"r")) (some 39) (some 49)) (.cons (.const (.fn (py!"field_195"))) .nil))))
      (.cons (.call (py!"Field") (.cons (.const (.str (py!"Time of Operations (3)"))) (.cons (.slice (.name (py!"r")) (some 49) (some 59)) (.cons (.const (.fn (py!"field_195"))) .nil))))
      (.cons (.call (py!"Field") (.cons (.const (.str (py!"Time of Operations (4)"))) (.cons (.slice (.name (py!"r")) (some 59) (some 69)) (.cons (.const (.fn (py!"field_195"))) .nil))))
      (.cons (.call (py!"Field") (.cons (.const (.str (py!"Time of Operations (5)"))) (.cons (.slice (.name (py!"r")) (some 69) (some 79)) (.cons (.const (.fn (py!"field_195"))) .nil))))
      (.cons (.call (py!"Field") (.cons (.const (.str (py!"Time of Operations (6)"))) (.cons (.slice (.name (py!"r")) (some 79) (some 89)) (.cons (.const (.fn (py!"field_195"))) .nil))))
      (.cons (.call (py!"Field") (.cons (.const (.str (py!"Time of Operations (7)"))) (.cons (.slice (.name (py!"r")) (some 89) (some 99)) (.cons (.const (.fn (py!"field_195"))) .nil))))
      (.cons (.call (py!"Field") (.cons (.const (.str (py!"Controlling Agency"))) (.cons (.slice (.name (py!"r")) (some 99) (some 123)) (.cons (.const (.fn (py!"field_140"))) .nil))))
      (.cons (.call (py!"Field") (.cons (.const (.str (py!"File Record No"))) (.cons (.slice (.name (py!"r")) (some 123) (some 128)) (.cons (.const (.fn (py!"field_031"))) .nil))))
      (.cons (.call (py!"Field") (.cons (.const (.str (py!"Cycle Date"))) (.cons (.slice (.name (py!"r")) (some 128) (some 132)) (.cons (.const (.fn (py!"field_032"))) .nil))))
      .nil)))))))))))))))))))))))))⟩

/-- definitions/RestrictiveAirspace.py:92-108 -/
def RestrictiveAirspace_read_flight0 : Func := ⟨[py!"self", py!"r"], [],
  (.ret (.list (.cons (.call (py!"Field") (.cons (.const (.str (py!"Record Type"))) (.cons (.sub (.name (py!"r")) (.const (.int 0))) (.cons (.const (.fn (py!"field_002"))) .nil))))
      (.cons (.call (py!"Field") (.cons (.const (.str (py!"Customer / Area Code"))) (.cons (.slice (.name (py!"r")) (some 1) (some 4)) (.cons (.const (.fn (py!"field_003"))) .nil))))
      (.cons (.call (py!"Field") (.cons (.const (.str (py!"Section Code"))) (.cons (.slice (.name (py!"r")) (some 4) (some 6)) (.cons (.const (.fn (py!"field_004"))) .nil))))
      (.cons (.call (py!"Field") (.cons (.const (.str (py!"ICAO Code"))) (.cons (.slice (.name (py!"r")) (some 6) (some 8)) (.cons (.const (.fn (py!"field_014"))) .nil))))
      (.cons (.call (py!"Field") (.cons (.const (.str (py!"Restrictive Type"))) (.cons (.sub (.name (py!"r")) (.const (.int 8))) (.cons (.const (.fn (py!"field_128"))) .nil))))
      (.cons (.call (py!"Field") (.cons (.const (.str (py!"Restrictive Airspace Designation"))) (.cons (.slice (.name (py!"r")) (some 9) (some 19)) (.cons (.const (.fn (py!"field_129"))) .nil))))
      (.cons (.call (py!"Field") (.cons (.const (.str (py!"Multiple Code"))) (.cons (.sub (.name (py!"r")) (.const (.int 19))) (.cons (.const (.fn (py!"field_130"))) .nil))))
      (.cons (.call (py!"Field") (.cons (.const (.str (py!"Sequence Number"))) (.cons (.slice (.name (py!"r")) (some 20) (some 24)) (.cons (.const (.fn (py!"field_012"))) .nil))))
      (.cons (.call (py!"Field") (.cons (.const (.str (py!"Continuation Record No"))) (.cons (.sub (.name (py!"r")) (.const (.int 24))) (.cons (.const (.fn (py!"field_016"))) .nil))))
      (.cons (.call (py!"Field") (.cons (.const (.str (py!"Application Type"))) (.cons (.sub (.name (py!"r")) (.const (.int 25))) (.cons (.const (.fn (py!"field_091"))) .nil))))
      (.cons (.call (py!"Field") (.cons (.const (.str (py!"Start/End Indicator"))) (.cons (.sub (.name (py!"r")) (.const (.int 29))) (.cons (.const (.fn (py!"field_152"))) .nil))))
      (.cons (.call (py!"Field") (.cons (.const (.str (py!"Start/End Date"))) (.cons (.slice (.name (py!"r")) (some 30) (some 41)) (.cons (.const (.fn (py!"field_153"))) .nil))))
      (.cons (.call (py!"Field") (.cons (.const (.str (py!"File Record No"))) (.cons (.slice (.name (py!"r")) (some 123) (some 128)) (.cons (.const (.fn (py!"field_031"))) .nil))))
      (.cons (.call (py!"Field") (.cons (.const (.str (py!"Cycle Date"))) (.cons (.slice (.name (py!"r")) (some 128) (some 132)) (.cons (.const (.fn (py!"field_032"))) .nil))))
      .nil))))))))))))))))⟩

/-- definitions/RestrictiveAirspace.py:113-138 -/
def RestrictiveAirspace_read_callsign : Func := ⟨[py!"self", py!"r"], [],
  (.ret (.list (.cons (.call (py!"Field") (.cons (.const (.str (py!"Record Type"))) (.cons (.sub (.name (py!"r")) (.const (.int 0))) (.cons (.const (.fn (py!"field_002"))) .nil))))
      (.cons (.call (py!"Field") (.cons (.const (.str (py!"Customer / Area Code"))) (.cons (.slice (.name (py!"r")) (some 1) (some 4)) (.cons (.const (.fn (py!"field_003"))) .nil))))
      (.cons (.call (py!"Field") (.cons (.const (.str (py!"Section Code"))) (.cons (.slice (.name (py!"r")) (some 4) (some 6)) (.cons (.const (.fn (py!"field_004"))) .nil))))
      (.cons (.call (py!"Field") (.cons (.const (.str (py!"ICAO Code"))) (.cons (.slice (.name (py!"r")) (some 6) (some 8)) (.cons (.const (.fn (py!"field_014"))) .nil))))
      (.cons (.call (py!"Field") (.cons (.const (.str (py!"Restrictive Type"))) (.cons (.sub (.name (py!"r")) (.const (.int 8))) (.cons (.const (.fn (py!"field_128"))) .nil))))
      (.cons (.call (py!"Field") (.cons (.const (.str (py!"Restrictive Airspace Designation"))) (.cons (.slice (.name (py!"r")) (some 9) (some 19)) (.cons (.const (.fn (py!"field_129"))) .nil))))
      (.cons (.call (py!"Field") (.cons (.const (.str (py!"Multiple Code"))) (.cons (.sub (.name (py!"r")) (.const (.int 19))) (.cons (.const (.fn (py!"field_130"))) .nil))))
      (.cons (.call (py!"Field") (.cons (.const (.str (py!"Sequence Number"))) (.cons (.slice (.name (py!"r")) (some 20) (some 24)) (.cons (.const (.fn (py!"field_012"))) .nil))))
      (.cons (.call (py!"Field") (.cons (.const (.str (py!"Continuation Record No"))) (.cons (.sub (.name (py!"r")) (.const (.int 24))) (.cons (.const (.fn (py!"field_016"))) .nil))))
      (.cons (.call (py!"Field") (.cons (.const (.str (py!"Application Type"))) (.cons (.sub (.name (py!"r")) (.const (.int 25))) (.cons (.const (.fn (py!"field_091"))) .nil))))
      (.cons (.call (py!"Field") (.cons (.const (.str (py!"Time Code"))) (.cons (.sub (.name (py!"r")) (.const (.int 26))) (.cons (.const (.fn (py!"field_131"))) .nil))))
      (.cons (.call (py!"Field") (.cons (.const (.str (py!"NOTAM"))) (.cons (.sub (.name (py!"r")) (.const (.int 27))) (.cons (.const (.fn (py!"field_132"))) .nil))))
      (.cons (.call (py!"Field") (.cons (.const (.str (py!"Time Indicator"))) (.cons (.sub (.name (py!"r")) (.const (.int 27))) (.cons (.const (.fn (py!"field_138"))) .nil))))
      (.cons (.call (py!"Field") (.cons (.const (.str (py!"Time of Operations"))) (.cons (.slice (.name (py!"r")) (some 29) (some 39)) (.cons (.const (.fn (py!"field_195"))) .nil))))
      (.cons (.call (py!"Field") (.cons (.const (.str (py!"Time of Operations (2)"))) (.cons (.slice (.name (py!"r")) (some 39) (some 49)) (.cons (.const (.fn (py!"field_195"))) .nil))))
      (.cons (.call (py!"Field") (.cons (.const (.str (py!"Time of Operations (3)"))) (.cons (.slice (.name (py!"r")) (some 49) (some 59)) (.cons (.const (.fn (py!"field_195"))) .nil))))
      (.cons (.call (py!"Field") (.cons (.const (.str (py!"Time of Operations (4)"))) (.cons (.slice (.name (py!"r")) (some 59) (some 69)) (.cons (.const (.fn (py!"field_195"))) .nil))))
      (.cons (.call (py!"Field") (.cons (.const (.str (py!"Time of Operations (5)"))) (.cons (.slice (.name (py!"r")) (some 69) (some 79)) (.cons (.const (.fn (py!"field_195"))) .nil))))
      (.cons (.call (py!"Field") (.cons (.const (.str (py!"Time of Operations (6)"))) (.cons (.slice (.name (py!"r")) (some 79) (some 89)) (.cons (.const (.fn (py!"field_195"))) .nil))))
      (.cons (.call (py!"Field") (.cons (.const (.str (py!"Time of Operations (7)"))) (.cons (.slice (.name (py!"r")) (some 89) (some 99)) (.cons (.const (.fn (py!"field_195"))) .nil))))
      (.cons (.call (py!"Field") (.cons (.const (.str (py!"Controlling Agency"))) (.cons (.slice (.name (py!"r")) (some 99) (some 123)) (.cons (.const (.fn (py!"field_140"))) .nil))))
      (.cons (.call (py!"Field") (.cons (.const (.str (py!"File Record No"))) (.cons (.slice (.name (py!"r")) (some 123) (some 128)) (.cons (.const (.fn (py!"field_031"))) .nil))))
      (.cons (.call (py!"Field") (.cons (.const (.str (py!"Cycle Date"))) (.cons (.slice (.name (py!"r")) (some 128) (some 132)) (.cons (.const (.fn (py!"field_032"))) .nil))))
      .nil)))))))))))))))))))))))))⟩

/-- definitions/RestrictiveAirspace.py:6-138, class `RestrictiveAirspace` -/
def RestrictiveAirspace : Class :=
  ⟨[(py!"cont_idx", (.int 24)), (py!"app_idx", (.int 25)), (py!"continuations", (.list [(.str (py!"T")), (.str (py!"P")), (.str (py!"C"))])), (py!"name", (.str (py!"Restrictive Airspace")))],
   [(py!"application_type", RestrictiveAirspace_application_type),
    (py!"read", RestrictiveAirspace_read),
    (py!"read_primary", RestrictiveAirspace_read_primary),
    (py!"read_time", RestrictiveAirspace_read_time),
    (py!"read_flight0", RestrictiveAirspace_read_flight0),
    (py!"read_callsign", RestrictiveAirspace_read_callsign)]⟩

/-- definitions/MLS.py:14-15 -/
def MLS_application_type : Func := ⟨[py!"self", py!"line"], [],
  (.ret (.sub (.name (py!"line")) (.attr (.name (py!"self")) (py!"app_idx"))))⟩

/-- definitions/MLS.py:17-27 -/
def MLS_read : Func := ⟨[py!"self", py!"line", py!"primary"], [],
  (.seq (.ite (.name (py!"primary"))
    (.ret (.invoke (.name (py!"self")) (py!"read_primary") (.cons (.name (py!"line")) .nil)))
    .pass)
  (.seq (.assign (py!"application") (.sub (.name (py!"line")) (.attr (.name (py!"self")) (py!"app_idx"))))
  (.matchOn (.name (py!"application"))
    (.case (.str (py!"A")) (.ret (.invoke (.name (py!"self")) (py!"read_cont") (.cons (.name (py!"line")) .nil)))
    (.ret (.list .nil))))))⟩

/-- definitions/MLS.py:30-64 -/
def MLS_read_primary : Func := ⟨[py!"self", py!"r"], [],
  (.ret (.list (.cons (.call (py!"Field") (.cons (.const (.str (py!"Record Type"))) (.cons (.sub (.name (py!"r")) (.const (.int 0))) (.cons (.const (.fn (py!"field_002"))) .nil))))
      (.cons (.call (py!"Field") (.cons (.const (.str (py!"Customer / Area Code"))) (.cons (.slice (.name (py!"r")) (some 1) (some 4)) (.cons (.const (.fn (py!"field_003"))) .nil))))
      (.cons (.call (py!"Field") (.cons (.const (.str (py!"Section Code"))) (.cons (.bin .add (.sub (.name (py!"r")) (.const (.int 4))) (.sub (.name (py!"r")) (.const (.int 12)))) (.cons (.const (.fn (py!"field_004"))) .nil))))
      (.cons (.call (py!"Field") (.cons (.const (.str (py!"Airport Identifier"))) (.cons (.slice (.name (py!"r")) (some 6) (some 10)) (.cons (.const (.fn (py!"field_006"))) .nil))))
      (.cons (.call (py!"Field") (.cons (.const (.str (py!"ICAO Code"))) (.cons (.slice (.name (py!"r")) (some 10) (some 12)) (.cons (.const (.fn (py!"field_014"))) .nil))))
      (.cons (.call (py!"Field") (.cons (.const (.str (py!"MLS Identifier"))) (.cons (.slice (.name (py!"r")) (some 13) (some 17)) (.cons (.const (.fn (py!"field_044"))) .nil))))
      (.cons (.call (py!"Field") (.cons (.const (.str (py!"MLS Category"))) (.cons (.sub (.name (py!"r")) (.const (.int 17))) (.cons (.const (.fn (py!"field_080"))) .nil))))
      (.cons (.call (py!"Field") (.cons (.const (.str (py!"Continuation Record No"))) (.cons (.sub (.name (py!"r")) (.const (.int 21))) (.cons (.const (.fn (py!"field_016"))) .nil))))
      (.cons (.call (py!"Field") (.cons (.const (.str (py!"Channel"))) (.cons (.slice (.name (py!"r")) (some 22) (some 25)) (.cons (.const (.fn (py!"field_166"))) .nil))))
      (.cons (.call (py!"Field") (.cons (.const (.str (py!"Runway Identifier"))) (.cons (.slice (.name (py!"r")) (some 27) (some 32)) (.cons (.const (.fn (py!"field_046"))) .nil))))
      (.cons (.call (py!"Field") (.cons (.const (.str (py!"Azimuth Latitude"))) (.cons (.slice (.name (py!"r")) (some 32) (some 41)) (.cons (.const (.fn (py!"field_036"))) .nil))))
      (.cons (.call (py!"Field") (.cons (.const (.str (py!"Azimuth Longitude"))) (.cons (.slice (.name (py!"r")) (some 41) (some 51)) (.cons (.const (.fn (py!"field_037"))) .nil))))
      (.cons (.call (py!"Field") (.cons (.const (.str (py!"Azimuth Bearing"))) (.cons (.slice (.name (py!"r")) (some 51) (some 55)) (.cons (.const (.fn (py!"field_167"))) .nil))))
      (.cons (.call (py!"Field") (.cons (.const (.str (py!"Elevation Latitude"))) (.cons (.slice (.name (py!"r")) (some 55) (some 64)) (.cons (.const (.fn (py!"field_036"))) .nil))))
      (.cons (.call (py!"Field") (.cons (.const (.str (py!"Elevation Longitude"))) (.cons (.slice (.name (py!"r")) (some 64) (some 74)) (.cons (.const (.fn (py!"field_037"))) .nil))))
      (.cons (.call (py!"Field") (.cons (.const (.str (py!"Azimuth Position"))) (.cons (.slice (.name (py!"r")) (some 74) (some 78)) (.cons (.const (.fn (py!"field_048"))) .nil))))
      (.cons (.call (py!"Field") (.cons (.const (.str (py!"Azimuth Position Reference"))) (.cons (.sub (.name (py!"r")) (.const (.int 78))) (.cons (.const (.fn (py!"field_049"))) .nil))))
      (.cons (.call (py!"Field") (.cons (.const (.str (py!"Elevation Position"))) (.cons (.slice (.name (py!"r")) (some 79) (some 83)) (.cons (.const (.fn (py!"field_050"))) .nil))))
      (.cons (.call (py!"Field") (.cons (.const (.str (py!"Azimuth Proportional Angle Right"))) (.cons (.slice (.name (py!"r")) (some 83) (some 86)) (.cons (.const (.fn (py!"field_168"))) .nil))))
      (.cons (.call (py!"Field") (.cons (.const (.str (py!"Azimuth Proportional Angle Left"))) (.cons (.slice (.name (py!"r")) (some 86) (some 89)) (.cons (.const (.fn (py!"field_168"))) .nil))))
      (.cons (.call (py!"Field") (.cons (.const (.str (py!"Azimuth Coverage Right"))) (.cons (.slice (.name (py!"r")) (some 89) (some 92)) (.cons (.const (.fn (py!"field_172"))) .nil))))
      (.cons (.call (py!"Field") (.cons (.const (.str (py!"Azimuth Coverage Left"))) (.cons (.slice (.name (py!"r")) (some 92) (some 95)) (.cons (.const (.fn (py!"field_172"))) .nil))))
      (.cons (.call (py!"Field") (.cons (.const (.str (py!"Elevation Angle Span"))) (.cons (.slice (.name (py!"r")) (some 95) (some 98)) (.cons (.const (.fn (py!"field_169"))) .nil))))
      (.cons (.call (py!"Field") (.cons (.const (.str (py!"Magnetic Variation"))) (.cons (.slice (.name (py!"r")) (some 98) (some 103)) (.cons (.const (.fn (py!"field_039"))) .nil))))
      (.cons (.call (py!"Field") (.cons (.const (.str (py!"EL Elevation"))) (.cons (.slice (.name (py!"r")) (some 103) (some 108)) (.cons (.const (.fn (py!"field_074"))) .nil))))
      (.cons (.call (py!"Field") (.cons (.const (.str (py!"Nominal Elevation Angle"))) (.cons (.slice (.name (py!"r")) (some 108) (some 112)) (.cons (.const (.fn (py!"field_173"))) .nil))))
      (.cons (.call (py!"Field") (.cons (.const (.str (py!"Minimum Glide Path Angle"))) (.cons (.slice (.name (py!"r")) (some 112) (some 115)) (.cons (.const (.fn (py!"field_052"))) .nil))))
      (.cons (.call (py!"Field") (.cons (.const (.str (py!"Supporting Facility Identifier"))) (.cons (.slice (.name (py!"r")) (some 115) (some 119)) (.cons (.const (.fn (py!"field_033"))) .nil))))
      (.cons (.call (py!"Field") (.cons (.const (.str (py!"Supporting Facility ICAO Code"))) (.cons (.slice (.name (py!"r")) (some 119) (some 121)) (.cons (.const (.fn (py!"field_014"))) .nil))))
      (.cons (.call (py!"Field") (.cons (.const (.str (py!"Supporting Facility Section"))) (.cons (.slice (.name (py!"r")) (some 121) (some 123)) (.cons (.const (.fn (py!"field_004"))) .nil))))
      (.cons (.call (py!"Field") (.cons (.const (.str (py!"File Record No"))) (.cons (.slice (.name (py!"r")) (some 123) (some 128)) (.cons (.const (.fn (py!"field_031"))) .nil))))
      (.cons (.call (py!"Field") (.cons (.const (.str (py!"Cycle Date"))) (.cons (.slice (.name (py!"r")) (some 128) (some 132)) (.cons (.const (.fn (py!"field_032"))) .nil))))
      .nil))))))))))))))))))))))))))))))))))⟩

/-- definitions/MLS.py:67-97 -/
def MLS_read_cont : Func := ⟨[py!"self", py!"r"], [],
  (.ret (.list (.cons (.call (py!"Field") (.cons (.const (.str (py!"Record Type"))) (.cons (.sub (.name (py!"r")) (.const (.int 0))) (.cons (.const (.fn (py!"field_002"))) .nil))))
      (.cons (.call (py!"Field") (.cons (.const (.str (py!"Customer / Area Code"))) (.cons (.slice (.name (py!"r")) (some 1) (some 4)) (.cons (.const (.fn (py!"field_003"))) .nil))))
      (.cons (.call (py!"Field") (.cons (.const (.str (py!"Section Code"))) (.cons (.bin .add (.sub (.name (py!"r")) (.const (.int 4))) (.sub (.name (py!"r")) (.const (.int 12)))) (.cons (.const (.fn (py!"field_004"))) .nil))))
      (.cons (.call (py!"Field") (.cons (.const (.str (py!"Airport Identifier"))) (.cons (.slice (.name (py!"r")) (some 6) (some 10)) (.cons (.const (.fn (py!"field_006"))) .nil))))
      (.cons (.call (py!"Field") (.cons (.const (.str (py!"ICAO Code"))) (.cons (.slice (.name (py!"r")) (some 10) (some 12)) (.cons (.const (.fn (py!"field_014"))) .nil))))
      (.cons (.call (py!"Field") (.cons (.const (.str (py!"MLS Identifier"))) (.cons (.slice (.name (py!"r")) (some 13) (some 17)) (.cons (.const (.fn (py!"field_044"))) .nil))))
      (.cons (.call (py!"Field") (.cons (.const (.str (py!"MLS Category"))) (.cons (.sub (.name (py!"r")) (.const (.int 17))) (.cons (.const (.fn (py!"field_080"))) .nil))))
      (.cons (.call (py!"Field") (.cons (.const (.str (py!"Continuation Record No"))) (.cons (.sub (.name (py!"r")) (.const (.int 21))) (.cons (.const (.fn (py!"field_016"))) .nil))))
      (.cons (.call (py!"Field") (.cons (.const (.str (py!"Application Type"))) (.cons (.sub (.name (py!"r")) (.const (.int 22))) (.cons (.const (.fn (py!"field_091"))) .nil))))
      (.cons (.call (py!"Field") (.cons (.const (.str (py!"Facility Characteristics"))) (.cons (.slice (.name (py!"r")) (some 27) (some 32)) (.cons (.const (.fn (py!"field_093"))) .nil))))
      (.cons (.call (py!"Field") (.cons (.const (.str (py!"Back Azimuth Latitude"))) (.cons (.slice (.name (py!"r")) (some 32) (some 41)) (.cons (.const (.fn (py!"field_036"))) .nil))))
      (.cons (.call (py!"Field") (.cons (.const (.str (py!"Back Azimuth Longitude"))) (.cons (.slice (.name (py!"r")) (some 41) (some 51)) (.cons (.const (.fn (py!"field_037"))) .nil))))
      (.cons (.call (py!"Field") (.cons (.const (.str (py!"Back Azimuth Bearing"))) (.cons (.slice (.name (py!"r")) (some 51) (some 55)) (.cons (.const (.fn (py!"field_167"))) .nil))))
      (.cons (.call (py!"Field") (.cons (.const (.str (py!"MLS Datum Point Latitude"))) (.cons (.slice (.name (py!"r")) (some 55) (some 64)) (.cons (.const (.fn (py!"field_036"))) .nil))))
      (.cons (.call (py!"Field") (.cons (.const (.str (py!"MLS Datum Point Longitude"))) (.cons (.slice (.name (py!"r")) (some 64) (some 74)) (.cons (.const (.fn (py!"field_037"))) .nil))))
      (.cons (.call (py!"Field") (.cons (.const (.str (py!"Back Azimuth Position"))) (.cons (.slice (.name (py!"r")) (some 74) (some 78)) (.cons (.const (.fn (py!"field_048"))) .nil))))
      (.cons (.call (py!"Field") (.cons (.const (.str (py!"Back Azimuth Position Reference"))) (.cons (.sub (.name (py!"r")) (.const (.int 78))) (.cons (.const (.fn (py!"field_049"))) .nil))))
      (.cons (.call (py!"Field") (.cons (.const (.str (py!"Back Azimuth Proportional Angle Right"))) (.cons (.slice (.name (py!"r")) (some 83) (some 86)) (.cons (.const (.fn (py!"field_168"))) .nil))))
      (.cons (.call (py!"Field") (.cons (.const (.str (py!"Back Azimuth Proportional Angle Left"))) (.cons (.slice (.name (py!"r")) (some 86) (some 89)) (.cons (.const (.fn (py!"field_168"))) .nil))))
      (.cons (.call (py!"Field") (.cons (.const (.str (py!"Back Azimuth Coverage Right"))) (.cons (.slice (.name (py!"r")) (some 89) (some 92)) (.cons (.const (.fn (py!"field_172"))) .nil))))
      (.cons (.call (py!"Field") (.cons (.const (.str (py!"Back Azimuth Coverage Left"))) (.cons (.slice (.name (py!"r")) (some 92) (some 95)) (.cons (.const (.fn (py!"field_172"))) .nil))))
      (.cons (.call (py!"Field") (.cons (.const (.str (py!"Back Azimuth True Bearing"))) (.cons (.slice (.name (py!"r")) (some 95) (some 98)) (.cons (.const (.fn (py!"field_094"))) .nil))))
      (.cons (.call (py!"Field") (.cons (.const (.str (py!"Back Azimuth Bearing Source"))) (.cons (.sub (.name (py!"r")) (.const (.int 100))) (.cons (.const (.fn (py!"field_095"))) .nil))))
      (.cons (.call (py!"Field") (.cons (.const (.str (py!"Azimuth True Bearing"))) (.cons (.slice (.name (py!"r")) (some 101) (some 106)) (.cons (.const (.fn (py!"field_094"))) .nil))))
      (.cons (.call (py!"Field") (.cons (.const (.str (py!"Azimuth Bearing Source"))) (.cons (.sub (.name (py!"r")) (.const (.int 106))) (.cons (.const (.fn (py!"field_095"))) .nil))))
      (.cons (.call (py!"Field") (.cons (.const (.str (py!"Glide Path Height at Landing Threshold"))) (.cons (.slice (.name (py!"r")) (some 107) (some 109)) (.cons (.const (.fn (py!"field_067"))) .nil))))
      (.cons (.call (py!"Field") (.cons (.const (.str (py!"File Record No"))) (.cons (.slice (.name (py!"r")) (some 123) (some 128)) (.cons (.const (.fn (py!"field_031"))) .nil))))
      (.cons (.call (py!"Field") (.cons (.const (.str (py!"Cycle Date"))) (.cons (.slice (.name (py!"r")) (some 128) (some 132)) (.cons (.const (.fn (py!"field_032"))) .nil))))
      .nil))))))))))))))))))))))))))))))⟩

/-- definitions/MLS.py:7-97, class `MLS` -/
def MLS : Class :=
  ⟨[(py!"cont_idx", (.int 21)), (py!"app_idx", (.int 22)), (py!"continuations", (.list [(.str (py!"A"))])), (py!"name", (.str (py!"MLS")))],
   [(py!"application_type", MLS_application_type),
    (py!"read", MLS_read),
    (py!"read_primary", MLS_read_primary),
    (py!"read_cont", MLS_read_cont)]⟩

/-- the classes of definitions/*.py -/
def definitionClasses : List (Str × Class) := [
  (py!"GridMORA", GridMORA),
  (py!"VHFNavaid", VHFNavaid),
  (py!"NDBNavaid", NDBNavaid),
  (py!"Waypoint", Waypoint),
  (py!"AirwaysMarker", AirwaysMarker),
  (py!"HoldingPattern", HoldingPattern),
  (py!"PreferredRoute", PreferredRoute),
  (py!"EnrouteAirways", EnrouteAirways),
  (py!"EnrouteAirwaysRestriction", EnrouteAirwaysRestriction),
  (py!"EnrouteCommunications", EnrouteCommunications),
  (py!"Heliport", Heliport),
  (py!"HeliportTerminalWaypoint", HeliportTerminalWaypoint),
  (py!"SIDSTARApproach", SIDSTARApproach),
  (py!"TAA", TAA),
  (py!"MSA", MSA),
  (py!"HeliportCommunications", HeliportCommunications),
  (py!"Airport", Airport),
  (py!"AirportGate", AirportGate),
  (py!"Runway", Runway),
  (py!"LocalizerGlideslope", LocalizerGlideslope),
  (py!"LocalizerMarker", LocalizerMarker),
  (py!"PathPoint", PathPoint),
  (py!"FlightPlanning", FlightPlanning),
  (py!"GLS", GLS),
  (py!"AirportCommunication", AirportCommunication),
  (py!"CompanyRoute", CompanyRoute),
  (py!"Alternate", Alternate),
  (py!"CruisingTables", CruisingTables),
  (py!"GeoReferenceTable", GeoReferenceTable),
  (py!"ControlledAirspace", ControlledAirspace),
  (py!"FIRUIR", FIRUIR),
  (py!"RestrictiveAirspace", RestrictiveAirspace),
  (py!"MLS", MLS)]

end Arinc.Lang.Src
