import Verif.Model.Source
import Verif.Model.SourceDefs
/-!
# Source of record.py and __init__.py (GENERATED by tools/source.py)

The syntax trees of /repo/src/arinc424/record.py and /repo/src/arinc424/__init__.py.
-/
namespace Arinc.Lang.Src
open Py

/-- record.py:44-86, the statements of the module -/
def recordModule : Stmt :=
  (.seq (.assign (py!"records") (.const (.dict (.bool false) [])))
  (.seq (.setItem (py!"records") (.const (.str (py!"AS"))) (.call (py!"GridMORA") .nil))
  (.seq (.setItem (py!"records") (.const (.str (py!"D "))) (.call (py!"VHFNavaid") .nil))
  (.seq (.setItem (py!"records") (.const (.str (py!"DB"))) (.call (py!"NDBNavaid") .nil))
  (.seq (.setItem (py!"records") (.const (.str (py!"EA"))) (.call (py!"Waypoint") (.cons (.const (.bool true)) .nil)))
  (.seq (.setItem (py!"records") (.const (.str (py!"EM"))) (.call (py!"AirwaysMarker") .nil))
  (.seq (.setItem (py!"records") (.const (.str (py!"EP"))) (.call (py!"HoldingPattern") .nil))
  (.seq (.setItem (py!"records") (.const (.str (py!"ER"))) (.call (py!"EnrouteAirways") .nil))
  (.seq (.setItem (py!"records") (.const (.str (py!"ET"))) (.call (py!"PreferredRoute") .nil))
  (.seq (.setItem (py!"records") (.const (.str (py!"EU"))) (.call (py!"EnrouteAirwaysRestriction") .nil))
  (.seq (.setItem (py!"records") (.const (.str (py!"EV"))) (.call (py!"EnrouteCommunications") .nil))
  (.seq (.setItem (py!"records") (.const (.str (py!"HA"))) (.call (py!"Heliport") .nil))
  (.seq (.setItem (py!"records") (.const (.str (py!"HC"))) (.call (py!"HeliportTerminalWaypoint") .nil))
  (.seq (.setItem (py!"records") (.const (.str (py!"HD"))) (.call (py!"SIDSTARApproach") .nil))
  (.seq (.setItem (py!"records") (.const (.str (py!"HE"))) (.call (py!"SIDSTARApproach") .nil))
  (.seq (.setItem (py!"records") (.const (.str (py!"HF"))) (.call (py!"SIDSTARApproach") .nil))
  (.seq (.setItem (py!"records") (.const (.str (py!"HK"))) (.call (py!"TAA") (.cons (.const (.bool true)) .nil)))
  (.seq (.setItem (py!"records") (.const (.str (py!"HS"))) (.call (py!"MSA") (.cons (.const (.bool true)) .nil)))
  (.seq (.setItem (py!"records") (.const (.str (py!"HV"))) (.call (py!"HeliportCommunications") .nil))
  (.seq (.setItem (py!"records") (.const (.str (py!"PA"))) (.call (py!"Airport") .nil))
  (.seq (.setItem (py!"records") (.const (.str (py!"PB"))) (.call (py!"AirportGate") .nil))
  (.seq (.setItem (py!"records") (.const (.str (py!"PC"))) (.call (py!"Waypoint") (.cons (.const (.bool false)) .nil)))
  (.seq (.setItem (py!"records") (.const (.str (py!"PD"))) (.call (py!"SIDSTARApproach") .nil))
  (.seq (.setItem (py!"records") (.const (.str (py!"PE"))) (.call (py!"SIDSTARApproach") .nil))
  (.seq (.setItem (py!"records") (.const (.str (py!"PF"))) (.call (py!"SIDSTARApproach") .nil))
  (.seq (.setItem (py!"records") (.const (.str (py!"PG"))) (.call (py!"Runway") .nil))
  (.seq (.setItem (py!"records") (.const (.str (py!"PI"))) (.call (py!"LocalizerGlideslope") .nil))
  (.seq (.setItem (py!"records") (.const (.str (py!"PK"))) (.call (py!"TAA") .nil))
  (.seq (.setItem (py!"records") (.const (.str (py!"PL"))) (.call (py!"MLS") .nil))
  (.seq (.setItem (py!"records") (.const (.str (py!"PM"))) (.call (py!"LocalizerMarker") .nil))
  (.seq (.setItem (py!"records") (.const (.str (py!"PN"))) (.call (py!"NDBNavaid") .nil))
  (.seq (.setItem (py!"records") (.const (.str (py!"PP"))) (.call (py!"PathPoint") .nil))
  (.seq (.setItem (py!"records") (.const (.str (py!"PR"))) (.call (py!"FlightPlanning") .nil))
  (.seq (.setItem (py!"records") (.const (.str (py!"PS"))) (.call (py!"MSA") (.cons (.const (.bool false)) .nil)))
  (.seq (.setItem (py!"records") (.const (.str (py!"PT"))) (.call (py!"GLS") .nil))
  (.seq (.setItem (py!"records") (.const (.str (py!"PV"))) (.call (py!"AirportCommunication") .nil))
  (.seq (.setItem (py!"records") (.const (.str (py!"R "))) (.call (py!"CompanyRoute") .nil))
  (.seq (.setItem (py!"records") (.const (.str (py!"RA"))) (.call (py!"Alternate") .nil))
  (.seq (.setItem (py!"records") (.const (.str (py!"TC"))) (.call (py!"CruisingTables") .nil))
  (.seq (.setItem (py!"records") (.const (.str (py!"TG"))) (.call (py!"GeoReferenceTable") .nil))
  (.seq (.setItem (py!"records") (.const (.str (py!"UC"))) (.call (py!"ControlledAirspace") .nil))
  (.seq (.setItem (py!"records") (.const (.str (py!"UF"))) (.call (py!"FIRUIR") .nil))
  (.setItem (py!"records") (.const (.str (py!"UR"))) (.call (py!"RestrictiveAirspace") .nil))))))))))))))))))))))))))))))))))))))))))))

/-- record.py:91-96 -/
def Record_init : Func := ⟨[py!"self"], [],
  (.seq (.setAttr (py!"self") (py!"ident") (.const (.str (py!""))))
  (.seq (.setAttr (py!"self") (py!"raw") (.const (.str (py!""))))
  (.seq (.setAttr (py!"self") (py!"continuation") (.const (.str (py!""))))
  (.seq (.setAttr (py!"self") (py!"fields") (.list .nil))
  (.setAttr (py!"self") (py!"definition") (.const (.int (-1))))))))⟩

/-- record.py:98-101 -/
def Record_primary : Func := ⟨[py!"self"], [],
  (.seq (.ite (.cmp .eq (.attr (.name (py!"self")) (py!"definition")) (.const (.int (-1))))
    (.ret (.const (.bool false)))
    .pass)
  (.ret (.or (.cmp .eq (.attr (.name (py!"self")) (py!"continuation")) (.const (.str (py!"0")))) (.cmp .eq (.attr (.name (py!"self")) (py!"continuation")) (.const (.str (py!"1")))))))⟩

/-- record.py:103-106 -/
def Record_hasCont : Func := ⟨[py!"self"], [],
  (.seq (.ite (.cmp .is (.invoke (.name (py!"self")) (py!"primary") .nil) (.const (.bool false)))
    (.ret (.const (.bool false)))
    .pass)
  (.ret (.cmp .eq (.attr (.name (py!"self")) (py!"continuation")) (.const (.str (py!"1"))))))⟩

/-- record.py:108-116 -/
def Record_validate : Func := ⟨[py!"self", py!"line"], [],
  (.seq (.assign (py!"line") (.method (.name (py!"line")) .strip .nil))
  (.seq (.ite (.cmp .is (.method (.name (py!"line")) .startswith (.cons (.list (.cons (.const (.str (py!"S"))) (.cons (.const (.str (py!"T"))) .nil))) .nil)) (.const (.bool false)))
    (.ret (.const (.bool false)))
    .pass)
  (.seq (.ite (.cmp .ne (.prim .len (.cons (.name (py!"line")) .nil)) (.const (.int 132)))
    (.ret (.const (.bool false)))
    .pass)
  (.seq (.ite (.cmp .is (.method (.slice (.name (py!"line")) (some (-9)) none) .isnumeric .nil) (.const (.bool false)))
    (.ret (.const (.bool false)))
    .pass)
  (.ret (.const (.bool true)))))))⟩

/-- record.py:118-164 -/
def Record_read : Func := ⟨[py!"self", py!"line"], [],
  (.seq (.ite (.cmp .is (.invoke (.name (py!"self")) (py!"validate") (.cons (.name (py!"line")) .nil)) (.const (.bool false)))
    (.ret (.const (.bool false)))
    .pass)
  (.seq (.setAttr (py!"self") (py!"raw") (.method (.name (py!"line")) .strip .nil))
  (.seq (.assign (py!"identifier_1") (.slice (.name (py!"line")) (some 4) (some 6)))
  (.seq (.assign (py!"identifier_2") (.bin .add (.sub (.name (py!"line")) (.const (.int 4))) (.sub (.name (py!"line")) (.const (.int 12)))))
  (.seq (.ite (.cmp .in (.name (py!"identifier_1")) (.name (py!"records")))
    (.setAttr (py!"self") (py!"ident") (.name (py!"identifier_1")))
    (.ite (.cmp .in (.name (py!"identifier_2")) (.name (py!"records")))
      (.setAttr (py!"self") (py!"ident") (.name (py!"identifier_2")))
      (.ret (.const (.bool false)))))
  (.seq (.setAttr (py!"self") (py!"definition") (.sub (.name (py!"records")) (.attr (.name (py!"self")) (py!"ident"))))
  (.seq (.ite (.prim .hasattr (.cons (.attr (.name (py!"self")) (py!"definition")) (.cons (.const (.str (py!"cont_idx"))) .nil)))
    (.seq (.setAttr (py!"self") (py!"continuation") (.sub (.attr (.name (py!"self")) (py!"raw")) (.attr (.attr (.name (py!"self")) (py!"definition")) (py!"cont_idx"))))
    (.seq (.ite (.cmp .eq (.method (.attr (.name (py!"self")) (py!"continuation")) .isalnum .nil) (.const (.bool false)))
      (.seq (.expr (.prim .print (.cons (.join (.cons (.const (.str (py!"Unsupported "))) (.cons (.fmt .plain (.attr (.attr (.name (py!"self")) (py!"definition")) (py!"name"))) (.cons (.const (.str (py!" Continuation Record Number: \""))) (.cons (.fmt .plain (.attr (.name (py!"self")) (py!"continuation"))) (.cons (.const (.str (py!"\""))) .nil)))))) .nil)))
      (.seq (.expr (.prim .print (.cons (.const (.str (py!"Valid Continuation Record Numbers are 0, 1, 2 (through 9) A, B, C (through Z)"))) .nil)))
      (.seq (.expr (.prim .print (.cons (.join (.cons (.const (.str (py!"Record: "))) (.cons (.fmt .plain (.attr (.name (py!"self")) (py!"raw"))) .nil))) .nil)))
      (.ret (.const (.bool false))))))
      .pass)
    (.ite (.cmp .is (.invoke (.name (py!"self")) (py!"primary") .nil) (.const (.bool false)))
      (.ite (.prim .hasattr (.cons (.attr (.name (py!"self")) (py!"definition")) (.cons (.const (.str (py!"app_idx"))) .nil)))
        (.seq (.assign (py!"application_type") (.invoke (.attr (.name (py!"self")) (py!"definition")) (py!"application_type") (.cons (.attr (.name (py!"self")) (py!"raw")) .nil)))
        (.ite (.and (.cmp .notIn (.name (py!"application_type")) (.attr (.attr (.name (py!"self")) (py!"definition")) (py!"continuations"))) (.not (.const (.str (py!"J")))))
          (.seq (.expr (.prim .print (.cons (.join (.cons (.const (.str (py!"Unsupported "))) (.cons (.fmt .plain (.attr (.attr (.name (py!"self")) (py!"definition")) (py!"name"))) (.cons (.const (.str (py!" Application Type: \""))) (.cons (.fmt .plain (.name (py!"application_type"))) (.cons (.const (.str (py!"\""))) .nil)))))) .nil)))
          (.seq (.expr (.prim .print (.cons (.join (.cons (.const (.str (py!"Supported application types for "))) (.cons (.fmt .plain (.attr (.attr (.name (py!"self")) (py!"definition")) (py!"name"))) (.cons (.const (.str (py!" are: "))) (.cons (.fmt .plain (.attr (.attr (.name (py!"self")) (py!"definition")) (py!"continuations"))) .nil))))) .nil)))
          (.seq (.expr (.prim .print (.cons (.join (.cons (.const (.str (py!"Record: "))) (.cons (.fmt .plain (.attr (.name (py!"self")) (py!"raw"))) .nil))) .nil)))
          (.ret (.const (.bool false))))))
          .pass))
        (.raise (.cons (.const (.str (py!"no hasattr(self.definition, 'app_idx')"))) .nil)))
      .pass)))
    .pass)
  (.seq (.setAttr (py!"self") (py!"fields") (.invoke (.attr (.name (py!"self")) (py!"definition")) (py!"read") (.cons (.name (py!"line")) (.cons (.invoke (.name (py!"self")) (py!"primary") .nil) .nil))))
  (.seq (.ite (.not (.attr (.name (py!"self")) (py!"fields")))
    (.ret (.const (.bool false)))
    .pass)
  (.ret (.const (.bool true))))))))))))⟩

/-- record.py:166-173 -/
def Record_decode : Func := ⟨[py!"self", py!"output"], [(py!"output", (.bool true))],
  (.seq (.assign (py!"table") (.prim .prettyTable (.cons (.list (.cons (.const (.str (py!"Field"))) (.cons (.const (.str (py!"Value"))) (.cons (.const (.str (py!"Decoded"))) .nil)))) .nil)))
  (.seq .pass
  (.seq (.forIn (py!"field") (.attr (.name (py!"self")) (py!"fields"))
    (.expr (.method (.name (py!"table")) .addRow (.cons (.list (.cons (.attr (.name (py!"field")) (py!"name")) (.cons (.join (.cons (.const (.str (py!"'"))) (.cons (.fmt .plain (.attr (.name (py!"field")) (py!"value"))) (.cons (.const (.str (py!"'"))) .nil)))) (.cons (.invoke (.name (py!"field")) (py!"decode") (.cons (.name (py!"self")) .nil)) .nil)))) .nil))))
  (.seq (.ite (.cmp .is (.name (py!"output")) (.const (.bool true)))
    (.expr (.prim .print (.cons (.name (py!"table")) .nil)))
    .pass)
  (.ret (.method (.name (py!"table")) .getString .nil))))))⟩

/-- record.py:175-187 -/
def Record_json : Func := ⟨[py!"self", py!"output", py!"single_line"], [(py!"output", (.bool true)), (py!"single_line", (.bool true))],
  (.seq (.assign (py!"d") (.const (.dict .none [])))
  (.seq (.forIn (py!"field") (.attr (.name (py!"self")) (py!"fields"))
    (.expr (.method (.name (py!"d")) .update (.cons (.pair (.attr (.name (py!"field")) (py!"name")) (.attr (.name (py!"field")) (py!"value"))) .nil))))
  (.seq (.ite (.name (py!"single_line"))
    (.assign (py!"data") (.prim .dumps (.cons (.name (py!"d")) .nil)))
    (.assign (py!"data") (.prim .dumpsPretty (.cons (.name (py!"d")) .nil))))
  (.seq (.ite (.cmp .is (.name (py!"output")) (.const (.bool true)))
    (.expr (.prim .print (.cons (.name (py!"data")) .nil)))
    .pass)
  (.ret (.name (py!"data")))))))⟩

/-- record.py:89-187, class `Record` -/
def Record : Class :=
  ⟨[],
   [(py!"__init__", Record_init),
    (py!"primary", Record_primary),
    (py!"hasCont", Record_hasCont),
    (py!"validate", Record_validate),
    (py!"read", Record_read),
    (py!"decode", Record_decode),
    (py!"json", Record_json)]⟩

/-- __init__.py:6-15 -/
def parse : Func := ⟨[py!"line", py!"output"], [(py!"output", (.bool true))],
  (.seq (.assign (py!"r") (.call (py!"Record") .nil))
  (.seq (.ite (.invoke (.name (py!"r")) (py!"read") (.cons (.name (py!"line")) .nil))
    (.seq (.expr (.invoke (.name (py!"r")) (py!"decode") (.cons (.name (py!"output")) .nil)))
    (.ret (.const (.bool true))))
    .pass)
  (.ret (.const (.bool false)))))⟩

/-- __init__.py:18-37 -/
def search : Func := ⟨[py!"file", py!"filters"], [],
  (.withOpen (.name (py!"file")) (py!"f")
    (.seq (.assign (py!"count") (.const (.int 0)))
    (.seq (.forIn (py!"line") (.method (.name (py!"f")) .readlines .nil)
      (.seq (.assign (py!"r") (.call (py!"Record") .nil))
      (.seq (.ite (.cmp .is (.invoke (.name (py!"r")) (py!"read") (.cons (.name (py!"line")) .nil)) (.const (.bool false)))
        .continue
        .pass)
      (.seq (.ite (.prim .isStr (.cons (.name (py!"filters")) .nil))
        (.ite (.cmp .notIn (.name (py!"filters")) (.attr (.name (py!"r")) (py!"raw")))
          .continue
          .pass)
        (.ite (.prim .isList (.cons (.name (py!"filters")) .nil))
          (.ite (.cmp .is (.prim .allIn (.cons (.attr (.name (py!"r")) (py!"raw")) (.cons (.name (py!"filters")) .nil))) (.const (.bool false)))
            .continue
            .pass)
          .pass))
      (.seq (.expr (.prim .print (.cons (.attr (.name (py!"r")) (py!"raw")) .nil)))
      (.assign (py!"count") (.bin .add (.name (py!"count")) (.const (.int 1)))))))))
    (.expr (.prim .print (.cons (.prim .colored (.cons (.join (.cons (.const (.str (py!"Found "))) (.cons (.fmt .plain (.name (py!"count"))) (.cons (.const (.str (py!" records that contain "))) (.cons (.fmt .plain (.name (py!"filters"))) .nil))))) (.cons (.cond (.name (py!"count")) (.const (.str (py!"green"))) (.const (.str (py!"red")))) .nil))) .nil))))))⟩

/-- __init__.py:40-46 -/
def read_file : Func := ⟨[py!"path", py!"output"], [(py!"output", (.bool true))],
  (.withOpen (.name (py!"path")) (py!"f")
    (.forIn (py!"line") (.method (.name (py!"f")) .readlines .nil)
      (.expr (.call (py!"parse") (.cons (.name (py!"line")) (.cons (.name (py!"output")) .nil))))))⟩

/-- __init__.py:49-54 -/
def read_folder : Func := ⟨[py!"path"], [],
  (.forIn (py!"file") (.prim .scandir (.cons (.name (py!"path")) .nil))
    (.expr (.call (py!"read_file") (.cons (.prim .joinPath (.cons (.name (py!"path")) (.cons (.attr (.name (py!"file")) (py!"name")) .nil))) .nil))))⟩

/-- the library -/
def library : Prog :=
  ⟨[(py!"parse", parse), (py!"search", search), (py!"read_file", read_file), (py!"read_folder", read_folder)] ++ decoderFuncs,
   (py!"Field", Field) :: (py!"Record", Record) :: definitionClasses⟩

end Arinc.Lang.Src
