import Verif.Model.Lang
/-!
# Source of decoder.py (GENERATED by tools/source.py)

The syntax trees of the functions of /repo/src/arinc424/decoder.py.
-/
namespace Arinc.Lang.Src
open Py

/-- decoder.py:25-31 -/
def field_002 : Func := ⟨[py!"value", py!"record"], [],
  (.ite (.cmp .eq (.name (py!"value")) (.const (.str (py!"S"))))
    (.ret (.const (.str (py!"Standard"))))
    (.ite (.cmp .eq (.name (py!"value")) (.const (.str (py!"T"))))
      (.ret (.const (.str (py!"Tailored"))))
      (.raise (.cons (.const (.str (py!"Invalid Record Type"))) (.cons (.name (py!"value")) .nil)))))⟩

/-- decoder.py:35-58 -/
def field_003 : Func := ⟨[py!"value", py!"record"], [],
  (.matchOn (.name (py!"value"))
    (.case (.str (py!"USA")) (.ret (.const (.str (py!"United States of America"))))
    (.case (.str (py!"AFR")) (.ret (.const (.str (py!"Africa"))))
    (.case (.str (py!"CAN")) (.ret (.const (.str (py!"Canada"))))
    (.case (.str (py!"EEU")) (.ret (.const (.str (py!"Eastern Europe and Asia"))))
    (.case (.str (py!"EUR")) (.ret (.const (.str (py!"Europe"))))
    (.case (.str (py!"LAM")) (.ret (.const (.str (py!"Latin America"))))
    (.case (.str (py!"MES")) (.ret (.const (.str (py!"Middle East"))))
    (.case (.str (py!"PAC")) (.ret (.const (.str (py!"Pacific"))))
    (.case (.str (py!"SAM")) (.ret (.const (.str (py!"Southern America"))))
    (.case (.str (py!"SPA")) (.ret (.const (.str (py!"South Pacific"))))
    (.ret (.const (.str (py!"<UNKNOWN>")))))))))))))))⟩

/-- decoder.py:62-109 -/
def field_004 : Func := ⟨[py!"value", py!"record"], [],
  (.seq (.ite (.cmp .eq (.method (.name (py!"value")) .strip .nil) (.const (.str (py!""))))
    (.ret (.name (py!"value")))
    .pass)
  (.seq (.assign (py!"sections") (.const (.dict (.str (py!"<UNKNOWN>")) [])))
  (.seq (.setItem (py!"sections") (.const (.str (py!"AS"))) (.const (.str (py!"Grid MORA"))))
  (.seq (.setItem (py!"sections") (.const (.str (py!"D "))) (.const (.str (py!"VHF Navaid"))))
  (.seq (.setItem (py!"sections") (.const (.str (py!"DB"))) (.const (.str (py!"NDB Navaid"))))
  (.seq (.setItem (py!"sections") (.const (.str (py!"EA"))) (.const (.str (py!"Waypoint"))))
  (.seq (.setItem (py!"sections") (.const (.str (py!"EM"))) (.const (.str (py!"Airways Marker"))))
  (.seq (.setItem (py!"sections") (.const (.str (py!"EP"))) (.const (.str (py!"Holding Pattern"))))
  (.seq (.setItem (py!"sections") (.const (.str (py!"ER"))) (.const (.str (py!"Airways and Route"))))
  (.seq (.setItem (py!"sections") (.const (.str (py!"ET"))) (.const (.str (py!"Preferred Route"))))
  (.seq (.setItem (py!"sections") (.const (.str (py!"EU"))) (.const (.str (py!"Airway Restrictions"))))
  (.seq (.setItem (py!"sections") (.const (.str (py!"EV"))) (.const (.str (py!"Enroute Communication"))))
  (.seq (.setItem (py!"sections") (.const (.str (py!"HA"))) (.const (.str (py!"Heliport Pads"))))
  (.seq (.setItem (py!"sections") (.const (.str (py!"HC"))) (.const (.str (py!"Heliport Terminal Waypoint"))))
  (.seq (.setItem (py!"sections") (.const (.str (py!"HD"))) (.const (.str (py!"Heliport SID"))))
  (.seq (.setItem (py!"sections") (.const (.str (py!"HE"))) (.const (.str (py!"Heliport STAR"))))
  (.seq (.setItem (py!"sections") (.const (.str (py!"HF"))) (.const (.str (py!"Heliport Approach Procedure"))))
  (.seq (.setItem (py!"sections") (.const (.str (py!"HK"))) (.const (.str (py!"Heliport TAA"))))
  (.seq (.setItem (py!"sections") (.const (.str (py!"HS"))) (.const (.str (py!"Heliport MSA"))))
  (.seq (.setItem (py!"sections") (.const (.str (py!"HV"))) (.const (.str (py!"Heliport Communication"))))
  (.seq (.setItem (py!"sections") (.const (.str (py!"PA"))) (.const (.str (py!"Airport Reference Point"))))
  (.seq (.setItem (py!"sections") (.const (.str (py!"PB"))) (.const (.str (py!"Airport Gates"))))
  (.seq (.setItem (py!"sections") (.const (.str (py!"PC"))) (.const (.str (py!"Airport Terminal Waypoint"))))
  (.seq (.setItem (py!"sections") (.const (.str (py!"PD"))) (.const (.str (py!"Airport SID"))))
  (.seq (.setItem (py!"sections") (.const (.str (py!"PE"))) (.const (.str (py!"Airport STAR"))))
  (.seq (.setItem (py!"sections") (.const (.str (py!"PF"))) (.const (.str (py!"Airport Approach Procedure"))))
  (.seq (.setItem (py!"sections") (.const (.str (py!"PG"))) (.const (.str (py!"Airport Runway"))))
  (.seq (.setItem (py!"sections") (.const (.str (py!"PI"))) (.const (.str (py!"Airport Localizer/Glideslope"))))
  (.seq (.setItem (py!"sections") (.const (.str (py!"PK"))) (.const (.str (py!"Airport TAA"))))
  (.seq (.setItem (py!"sections") (.const (.str (py!"PL"))) (.const (.str (py!"Airport MLS"))))
  (.seq (.setItem (py!"sections") (.const (.str (py!"PM"))) (.const (.str (py!"Airport Localizer Marker"))))
  (.seq (.setItem (py!"sections") (.const (.str (py!"PN"))) (.const (.str (py!"Airport Terminal"))))
  (.seq (.setItem (py!"sections") (.const (.str (py!"PP"))) (.const (.str (py!"Airport Path"))))
  (.seq (.setItem (py!"sections") (.const (.str (py!"PR"))) (.const (.str (py!"Airport Flt Planning ARR/DEP"))))
  (.seq (.setItem (py!"sections") (.const (.str (py!"PS"))) (.const (.str (py!"Airport MSA"))))
  (.seq (.setItem (py!"sections") (.const (.str (py!"PT"))) (.const (.str (py!"Airport GLS Station"))))
  (.seq (.setItem (py!"sections") (.const (.str (py!"PV"))) (.const (.str (py!"Airport Communication"))))
  (.seq (.setItem (py!"sections") (.const (.str (py!"R "))) (.const (.str (py!"Company Route"))))
  (.seq (.setItem (py!"sections") (.const (.str (py!"RA"))) (.const (.str (py!"Alternate Record"))))
  (.seq (.setItem (py!"sections") (.const (.str (py!"TC"))) (.const (.str (py!"Cruising Table"))))
  (.seq (.setItem (py!"sections") (.const (.str (py!"TG"))) (.const (.str (py!"Geographical Reference"))))
  (.seq (.setItem (py!"sections") (.const (.str (py!"TN"))) (.const (.str (py!"RNAV Name Table"))))
  (.seq (.setItem (py!"sections") (.const (.str (py!"UC"))) (.const (.str (py!"Controller Airspace"))))
  (.seq (.setItem (py!"sections") (.const (.str (py!"UF"))) (.const (.str (py!"Airspace FIR/UIR"))))
  (.seq (.setItem (py!"sections") (.const (.str (py!"UR"))) (.const (.str (py!"Restrictive Airspace"))))
  (.ret (.sub (.name (py!"sections")) (.name (py!"value")))))))))))))))))))))))))))))))))))))))))))))))))⟩

/-- decoder.py:118-194 -/
def field_007 : Func := ⟨[py!"value", py!"record"], [],
  (.seq (.assign (py!"d") (.const (.dict (.str (py!"<UNKNOWN>")) [])))
  (.seq (.ite (.cmp .eq (.attr (.name (py!"record")) (py!"ident")) (.const (.str (py!"ER"))))
    (.seq (.setItem (py!"d") (.const (.str (py!"A"))) (.const (.str (py!"Airline Airway (Tailored Data)"))))
    (.seq (.setItem (py!"d") (.const (.str (py!"C"))) (.const (.str (py!"Control"))))
    (.seq (.setItem (py!"d") (.const (.str (py!"D"))) (.const (.str (py!"Direct Route"))))
    (.seq (.setItem (py!"d") (.const (.str (py!"H"))) (.const (.str (py!"Helicopter Airways"))))
    (.seq (.setItem (py!"d") (.const (.str (py!"O"))) (.const (.str (py!"Officially Designated Airways"))))
    (.seq (.setItem (py!"d") (.const (.str (py!"R"))) (.const (.str (py!"RNAV Airways"))))
    (.setItem (py!"d") (.const (.str (py!"S"))) (.const (.str (py!"Undesignated ATS Route"))))))))))
    (.ite (.cmp .eq (.attr (.name (py!"record")) (py!"ident")) (.const (.str (py!"ET"))))
      (.seq (.setItem (py!"d") (.const (.str (py!"C"))) (.const (.str (py!"North American Routes for North Atlantic Traffic Common Portion"))))
      (.seq (.setItem (py!"d") (.const (.str (py!"D"))) (.const (.str (py!"Preferential Routes"))))
      (.seq (.setItem (py!"d") (.const (.str (py!"J"))) (.const (.str (py!"Pacific Oceanic Transition Routes (PACOTS)"))))
      (.seq (.setItem (py!"d") (.const (.str (py!"M"))) (.const (.str (py!"RNAV Airways"))))
      (.setItem (py!"d") (.const (.str (py!"N"))) (.const (.str (py!"Undesignated ATS Route"))))))))
      (.ite (.or (.cmp .eq (.attr (.name (py!"record")) (py!"ident")) (.const (.str (py!"PD")))) (.cmp .eq (.attr (.name (py!"record")) (py!"ident")) (.const (.str (py!"HD")))))
        (.seq (.setItem (py!"d") (.const (.str (py!"0"))) (.const (.str (py!"Engine Out SID"))))
        (.seq (.setItem (py!"d") (.const (.str (py!"1"))) (.const (.str (py!"SID Runway Transition"))))
        (.seq (.setItem (py!"d") (.const (.str (py!"2"))) (.const (.str (py!"SID or SID Common Route"))))
        (.seq (.setItem (py!"d") (.const (.str (py!"3"))) (.const (.str (py!"SID Enroute Transition"))))
        (.seq (.setItem (py!"d") (.const (.str (py!"4"))) (.const (.str (py!"RNAV SID Runway Transition"))))
        (.seq (.setItem (py!"d") (.const (.str (py!"5"))) (.const (.str (py!"RNAV SID or SID Common Route"))))
        (.seq (.setItem (py!"d") (.const (.str (py!"6"))) (.const (.str (py!"RNAV SID Enroute Transition"))))
        (.seq (.setItem (py!"d") (.const (.str (py!"F"))) (.const (.str (py!"FMS SID Runway Transition"))))
        (.seq (.setItem (py!"d") (.const (.str (py!"M"))) (.const (.str (py!"FMS SID or SID Common Route"))))
        (.seq (.setItem (py!"d") (.const (.str (py!"S"))) (.const (.str (py!"FMS SID Enroute Transition"))))
        (.seq (.setItem (py!"d") (.const (.str (py!"R"))) (.const (.str (py!"RNP SID Runway Transition"))))
        (.seq (.setItem (py!"d") (.const (.str (py!"N"))) (.const (.str (py!"RNP SID or SID Common Route"))))
        (.seq (.setItem (py!"d") (.const (.str (py!"P"))) (.const (.str (py!"RNP SID Enroute Transition"))))
        (.seq (.setItem (py!"d") (.const (.str (py!"T"))) (.const (.str (py!"Vector SID Runway Transition"))))
        (.setItem (py!"d") (.const (.str (py!"V"))) (.const (.str (py!"Vector SID Enroute Transition"))))))))))))))))))
        (.ite (.or (.cmp .eq (.attr (.name (py!"record")) (py!"ident")) (.const (.str (py!"PE")))) (.cmp .eq (.attr (.name (py!"record")) (py!"ident")) (.const (.str (py!"HE")))))
          (.seq (.setItem (py!"d") (.const (.str (py!"1"))) (.const (.str (py!"STAR Enroute Transition"))))
          (.seq (.setItem (py!"d") (.const (.str (py!"2"))) (.const (.str (py!"STAR or STAR Common Route"))))
          (.seq (.setItem (py!"d") (.const (.str (py!"3"))) (.const (.str (py!"STAR Runway Transition"))))
          (.seq (.setItem (py!"d") (.const (.str (py!"4"))) (.const (.str (py!"RNAV STAR Enroute Transition"))))
          (.seq (.setItem (py!"d") (.const (.str (py!"5"))) (.const (.str (py!"RNAV STAR or STAR Common Route"))))
          (.seq (.setItem (py!"d") (.const (.str (py!"6"))) (.const (.str (py!"RNAV STAR Runway Transition"))))
          (.seq (.setItem (py!"d") (.const (.str (py!"7"))) (.const (.str (py!"Profile Descent Enroute Transition"))))
          (.seq (.setItem (py!"d") (.const (.str (py!"8"))) (.const (.str (py!"Profile Descent Common Route"))))
          (.seq (.setItem (py!"d") (.const (.str (py!"9"))) (.const (.str (py!"Profile Descent Runway Transition"))))
          (.seq (.setItem (py!"d") (.const (.str (py!"F"))) (.const (.str (py!"FMS STAR Enroute Transition"))))
          (.seq (.setItem (py!"d") (.const (.str (py!"M"))) (.const (.str (py!"FMS STAR or STAR Common Route"))))
          (.seq (.setItem (py!"d") (.const (.str (py!"S"))) (.const (.str (py!"FMS STAR Runway Transition"))))
          (.seq (.setItem (py!"d") (.const (.str (py!"R"))) (.const (.str (py!"RNP STAR Enroute Transition"))))
          (.seq (.setItem (py!"d") (.const (.str (py!"N"))) (.const (.str (py!"RNP STAR or STAR Common Route"))))
          (.setItem (py!"d") (.const (.str (py!"P"))) (.const (.str (py!"RNP STAR Runway Transition"))))))))))))))))))
          (.ite (.or (.cmp .eq (.attr (.name (py!"record")) (py!"ident")) (.const (.str (py!"PF")))) (.cmp .eq (.attr (.name (py!"record")) (py!"ident")) (.const (.str (py!"HF")))))
            (.seq (.setItem (py!"d") (.const (.str (py!"A"))) (.const (.str (py!"Approach Transition"))))
            (.seq (.setItem (py!"d") (.const (.str (py!"B"))) (.const (.str (py!"Localizer/Backcourse Approach"))))
            (.seq (.setItem (py!"d") (.const (.str (py!"D"))) (.const (.str (py!"VORDME Approach"))))
            (.seq (.setItem (py!"d") (.const (.str (py!"F"))) (.const (.str (py!"Flight Management System (FMS) Approach"))))
            (.seq (.setItem (py!"d") (.const (.str (py!"G"))) (.const (.str (py!"Instrument Guidance System (IGS) Approach"))))
            (.seq (.setItem (py!"d") (.const (.str (py!"H"))) (.const (.str (py!"Area Navigation (RNAV) Approach with Required Navigation Performance (RNP) Approach"))))
            (.seq (.setItem (py!"d") (.const (.str (py!"I"))) (.const (.str (py!"Instrument Landing System (ILS) Approach"))))
            (.seq (.setItem (py!"d") (.const (.str (py!"J"))) (.const (.str (py!"GNSS Landing System (GLS) Approach"))))
            (.seq (.setItem (py!"d") (.const (.str (py!"L"))) (.const (.str (py!"Localizer Only (LOC) Approach"))))
            (.seq (.setItem (py!"d") (.const (.str (py!"M"))) (.const (.str (py!"Microwave Landing System (MLS) Approach"))))
            (.seq (.setItem (py!"d") (.const (.str (py!"N"))) (.const (.str (py!"Non-Directional Beacon (NDB) Approach"))))
            (.seq (.setItem (py!"d") (.const (.str (py!"P"))) (.const (.str (py!"Global Position System (GPS) Approach"))))
            (.seq (.setItem (py!"d") (.const (.str (py!"Q"))) (.const (.str (py!"Non-Directional Beacon + DME (NDB+DME) Approach"))))
            (.seq (.setItem (py!"d") (.const (.str (py!"R"))) (.const (.str (py!"Area Navigation (RNAV) Approach (Note 1)"))))
            (.seq (.setItem (py!"d") (.const (.str (py!"S"))) (.const (.str (py!"VOR Approach using VORDME/VORTAC"))))
            (.seq (.setItem (py!"d") (.const (.str (py!"T"))) (.const (.str (py!"TACAN Approach"))))
            (.seq (.setItem (py!"d") (.const (.str (py!"U"))) (.const (.str (py!"Simplified Directional Facility (SDF) Approach"))))
            (.seq (.setItem (py!"d") (.const (.str (py!"V"))) (.const (.str (py!"VOR Approach"))))
            (.seq (.setItem (py!"d") (.const (.str (py!"W"))) (.const (.str (py!"Microwave Landing System (MLS), Type A Approach"))))
            (.seq (.setItem (py!"d") (.const (.str (py!"X"))) (.const (.str (py!"Localizer Directional Aid (LDA) Approach"))))
            (.seq (.setItem (py!"d") (.const (.str (py!"Y"))) (.const (.str (py!"Microwave Landing System (MLS), Type B and C Approach"))))
            (.setItem (py!"d") (.const (.str (py!"Z"))) (.const (.str (py!"Missed Approach")))))))))))))))))))))))))
            .pass)))))
  (.ret (.cond (.cmp .ne (.sub (.name (py!"d")) (.name (py!"value"))) (.const (.str (py!"bad value")))) (.sub (.name (py!"d")) (.name (py!"value"))) (.bin .add (.name (py!"value")) (.const (.str (py!" - BAD VALUE"))))))))⟩

/-- decoder.py:198-202 -/
def field_008 : Func := ⟨[py!"value", py!"record"], [],
  (.ite (.method (.method (.name (py!"value")) .strip .nil) .isalnum .nil)
    (.ret (.name (py!"value")))
    (.raise (.cons (.const (.str (py!"Route Identifier not alphanumeric"))) (.cons (.name (py!"value")) .nil))))⟩

/-- decoder.py:206-208 -/
def field_009 : Func := ⟨[py!"value", py!"record"], [],
  (.ite (.method (.method (.name (py!"value")) .strip .nil) .isalnum .nil)
    (.ret (.name (py!"value")))
    .pass)⟩

/-- decoder.py:212-213 -/
def field_010 : Func := ⟨[py!"value", py!"record"], [],
  (.ret (.join (.cons (.const (.str (py!"Approach: "))) (.cons (.fmt .plain (.sub (.name (py!"value")) (.const (.int 0)))) (.cons (.const (.str (py!", Runway: "))) (.cons (.fmt .plain (.slice (.name (py!"value")) (some 1) (some 4))) .nil))))))⟩

/-- decoder.py:222-233 -/
def field_012 : Func := ⟨[py!"value", py!"record"], [],
  (.matchOn (.prim .len (.cons (.method (.name (py!"value")) .strip .nil) .nil))
    (.case (.int 1) (.ret (.join (.cons (.const (.str (py!"MSA Table, TAA Table, Cruise Table - Sequence No. "))) (.cons (.fmt .plain (.name (py!"value"))) .nil))))
    (.case (.int 2) (.ret (.join (.cons (.const (.str (py!"VHF Navaid Limitation Continuation Records - Sequence No. "))) (.cons (.fmt .plain (.name (py!"value"))) .nil))))
    (.case (.int 3) (.ret (.join (.cons (.const (.str (py!"SID/STAR/Approach and Company Routes - Sequence No. "))) (.cons (.fmt .plain (.name (py!"value"))) .nil))))
    (.case (.int 4) (.ret (.join (.cons (.const (.str (py!"Enroute Airways, Preferred Routes, FIR/UIR, and Restrictive Airspace - Sequence No. "))) (.cons (.fmt .plain (.name (py!"value"))) .nil))))
    (.ret (.name (py!"value"))))))))⟩

/-- decoder.py:246-253 -/
def field_016 : Func := ⟨[py!"value", py!"record"], [],
  (.matchOn (.name (py!"value"))
    (.case (.str (py!"0")) (.ret (.const (.str (py!"Primary Record"))))
    (.case (.str (py!"1")) (.ret (.const (.str (py!"Primary Record (with Cont.)"))))
    (.ret (.bin .add (.prim .str (.cons (.name (py!"value")) .nil)) (.const (.str (py!" - Continuation"))))))))⟩

/-- decoder.py:257-329 -/
def field_017 : Func := ⟨[py!"value", py!"record"], [],
  (.seq (.assign (py!"s") (.prim .stringIO .nil))
  (.seq (.matchOn (.sub (.name (py!"value")) (.const (.int 0)))
    (.case (.str (py!"A")) (.expr (.method (.name (py!"s")) .write (.cons (.const (.str (py!"Airport as Waypoint\n"))) .nil)))
    (.case (.str (py!"E")) (.expr (.method (.name (py!"s")) .write (.cons (.const (.str (py!"Essential Waypoint\n"))) .nil)))
    (.case (.str (py!"F")) (.expr (.method (.name (py!"s")) .write (.cons (.const (.str (py!"Off Airway Waypoint\n"))) .nil)))
    (.case (.str (py!"G")) (.expr (.method (.name (py!"s")) .write (.cons (.const (.str (py!"Runway/Helipad as Waypoint\n"))) .nil)))
    (.case (.str (py!"H")) (.expr (.method (.name (py!"s")) .write (.cons (.const (.str (py!"Heliport as Waypoint\n"))) .nil)))
    (.case (.str (py!"N")) (.expr (.method (.name (py!"s")) .write (.cons (.const (.str (py!"NDB Navaid as Waypoint\n"))) .nil)))
    (.case (.str (py!"P")) (.expr (.method (.name (py!"s")) .write (.cons (.const (.str (py!"Phantom Waypoint\n"))) .nil)))
    (.case (.str (py!"R")) (.expr (.method (.name (py!"s")) .write (.cons (.const (.str (py!"Non-Essential Waypoint\n"))) .nil)))
    (.case (.str (py!"T")) (.expr (.method (.name (py!"s")) .write (.cons (.const (.str (py!"Transition Essential Waypoint\n"))) .nil)))
    (.case (.str (py!"V")) (.expr (.method (.name (py!"s")) .write (.cons (.const (.str (py!"VHF Navaid as Waypoint\n"))) .nil)))
    .pass)))))))))))
  (.seq (.matchOn (.sub (.name (py!"value")) (.const (.int 1)))
    (.case (.str (py!"B")) (.expr (.method (.name (py!"s")) .write (.cons (.const (.str (py!"Flyover Waypoint: End of SID/STAR Route Type, APCH Transition or Final Approach\n"))) .nil)))
    (.case (.str (py!"E")) (.expr (.method (.name (py!"s")) .write (.cons (.const (.str (py!"End of Enroute Airway or Terminal Procedure Route Type\n"))) .nil)))
    (.case (.str (py!"U")) (.expr (.method (.name (py!"s")) .write (.cons (.const (.str (py!"Uncharted Airway Intersection\n"))) .nil)))
    (.case (.str (py!"Y")) (.expr (.method (.name (py!"s")) .write (.cons (.const (.str (py!"Fly-Over Waypoint\n"))) .nil)))
    .pass)))))
  (.seq (.matchOn (.sub (.name (py!"value")) (.const (.int 2)))
    (.case (.str (py!"A")) (.expr (.method (.name (py!"s")) .write (.cons (.const (.str (py!"Unnamed Stepdown Fix After Final Approach Fix\n"))) .nil)))
    (.case (.str (py!"B")) (.expr (.method (.name (py!"s")) .write (.cons (.const (.str (py!"Unnamed Stepdown Fix Before Final Approach Fix\n"))) .nil)))
    (.case (.str (py!"C")) (.expr (.method (.name (py!"s")) .write (.cons (.const (.str (py!"ATC Compulsory Waypoint\n"))) .nil)))
    (.case (.str (py!"G")) (.expr (.method (.name (py!"s")) .write (.cons (.const (.str (py!"Oceanic Gateway Waypoint\n"))) .nil)))
    (.case (.str (py!"M")) (.expr (.method (.name (py!"s")) .write (.cons (.const (.str (py!"First Leg of Missed Approach Procedure\n"))) .nil)))
    (.case (.str (py!"P")) (.expr (.method (.name (py!"s")) .write (.cons (.const (.str (py!"Path Point Fix\n"))) .nil)))
    (.case (.str (py!"R")) (.expr (.method (.name (py!"s")) .write (.cons (.const (.str (py!"Fix used for turning final approach\n"))) .nil)))
    (.case (.str (py!"S")) (.expr (.method (.name (py!"s")) .write (.cons (.const (.str (py!"Named Stepdown Fix\n"))) .nil)))
    .pass)))))))))
  (.seq (.matchOn (.sub (.name (py!"value")) (.const (.int 3)))
    (.case (.str (py!"A")) (.expr (.method (.name (py!"s")) .write (.cons (.const (.str (py!"Initial Approach Fix\n"))) .nil)))
    (.case (.str (py!"B")) (.expr (.method (.name (py!"s")) .write (.cons (.const (.str (py!"Intermediate Approach Fix\n"))) .nil)))
    (.case (.str (py!"C")) (.expr (.method (.name (py!"s")) .write (.cons (.const (.str (py!"Initial Approach Fix with Holding\n"))) .nil)))
    (.case (.str (py!"D")) (.expr (.method (.name (py!"s")) .write (.cons (.const (.str (py!"Initial Approach Fix with Final Approach Course Fix\n"))) .nil)))
    (.case (.str (py!"E")) (.expr (.method (.name (py!"s")) .write (.cons (.const (.str (py!"Final End Point Fix\n"))) .nil)))
    (.case (.str (py!"F")) (.expr (.method (.name (py!"s")) .write (.cons (.const (.str (py!"Published Final Approach Fix or Database Final Approach Fix\n"))) .nil)))
    (.case (.str (py!"H")) (.expr (.method (.name (py!"s")) .write (.cons (.const (.str (py!"Holding Fix\n"))) .nil)))
    (.case (.str (py!"I")) (.expr (.method (.name (py!"s")) .write (.cons (.const (.str (py!"Final Approach Course Fix\n"))) .nil)))
    (.case (.str (py!"M")) (.expr (.method (.name (py!"s")) .write (.cons (.const (.str (py!"Published Missed Approach Point Fix\n"))) .nil)))
    .pass))))))))))
  (.ret (.method (.method (.name (py!"s")) .getvalue .nil) .strip .nil)))))))⟩

/-- decoder.py:343-352 -/
def field_020 : Func := ⟨[py!"value", py!"record"], [],
  (.ite (.cmp .eq (.name (py!"value")) (.const (.str (py!"R"))))
    (.ret (.const (.str (py!"Right"))))
    (.ite (.cmp .eq (.name (py!"value")) (.const (.str (py!"L"))))
      (.ret (.const (.str (py!"Left"))))
      (.ite (.or (.cmp .eq (.name (py!"value")) (.const (.str (py!"E")))) (.cmp .eq (.name (py!"value")) (.const (.str (py!" ")))))
        (.ret (.const (.str (py!"Either"))))
        (.raise (.cons (.const (.str (py!"Invalid Turn Direction:"))) (.cons (.name (py!"value")) .nil))))))⟩

/-- decoder.py:381-389 -/
def field_021 : Func := ⟨[py!"value", py!"record"], [],
  (.seq (.assign (py!"value") (.method (.name (py!"value")) .strip .nil))
  (.seq (.ite (.cmp .eq (.prim .len (.cons (.name (py!"value")) .nil)) (.const (.int 0)))
    (.ret (.name (py!"value")))
    .pass)
  (.seq (.ite (.not (.method (.name (py!"value")) .isalpha .nil))
    (.raise (.cons (.const (.str (py!"Invalid Path and Termination:"))) (.cons (.name (py!"value")) .nil)))
    .pass)
  (.ret (.sub (.name (py!"LegTypeDesc")) (.name (py!"value")))))))⟩

/-- decoder.py:393-398 -/
def field_022 : Func := ⟨[py!"value", py!"record"], [],
  (.seq (.assign (py!"value") (.method (.name (py!"value")) .strip .nil))
  (.seq (.ite (.cmp .gt (.prim .len (.cons (.name (py!"value")) .nil)) (.const (.int 0)))
    (.ite (.cmp .is (.method (.name (py!"value")) .isalpha .nil) (.const (.bool false)))
      (.raise (.cons (.const (.str (py!"Invalid Turn Direction Valid (TDV):"))) (.cons (.name (py!"value")) .nil)))
      .pass)
    .pass)
  (.ret (.name (py!"value")))))⟩

/-- decoder.py:402-407 -/
def field_023 : Func := ⟨[py!"value", py!"record"], [],
  (.seq (.assign (py!"value") (.method (.name (py!"value")) .strip .nil))
  (.seq (.ite (.cmp .gt (.prim .len (.cons (.name (py!"value")) .nil)) (.const (.int 0)))
    (.ite (.or (.cmp .is (.method (.name (py!"value")) .isalnum .nil) (.const (.bool false))) (.cmp .gt (.prim .len (.cons (.name (py!"value")) .nil)) (.const (.int 4))))
      (.raise (.cons (.const (.str (py!"Invalid Recommended NAVAID (RECD NAV):"))) (.cons (.name (py!"value")) .nil)))
      .pass)
    .pass)
  (.ret (.name (py!"value")))))⟩

/-- decoder.py:411-416 -/
def field_024 : Func := ⟨[py!"value", py!"record"], [],
  (.seq (.assign (py!"value") (.method (.name (py!"value")) .strip .nil))
  (.seq (.ite (.cmp .gt (.prim .len (.cons (.name (py!"value")) .nil)) (.const (.int 0)))
    (.ite (.or (.cmp .is (.method (.name (py!"value")) .isalnum .nil) (.const (.bool false))) (.cmp .gt (.prim .len (.cons (.name (py!"value")) .nil)) (.const (.int 4))))
      (.raise (.cons (.const (.str (py!"Invalid Theta:"))) (.cons (.name (py!"value")) .nil)))
      .pass)
    .pass)
  (.ret (.name (py!"value")))))⟩

/-- decoder.py:420-425 -/
def field_025 : Func := ⟨[py!"value", py!"record"], [],
  (.seq (.assign (py!"value") (.method (.name (py!"value")) .strip .nil))
  (.seq (.ite (.cmp .gt (.prim .len (.cons (.name (py!"value")) .nil)) (.const (.int 0)))
    (.ite (.or (.cmp .is (.method (.name (py!"value")) .isalnum .nil) (.const (.bool false))) (.cmp .gt (.prim .len (.cons (.name (py!"value")) .nil)) (.const (.int 4))))
      (.raise (.cons (.const (.str (py!"Invalid Rho:"))) (.cons (.name (py!"value")) .nil)))
      .pass)
    .pass)
  (.ret (.name (py!"value")))))⟩

/-- decoder.py:429-443 -/
def field_026 : Func := ⟨[py!"value", py!"record"], [],
  (.seq (.assign (py!"value") (.method (.name (py!"value")) .strip .nil))
  (.seq (.ite (.cmp .eq (.prim .len (.cons (.name (py!"value")) .nil)) (.const (.int 0)))
    (.ret (.name (py!"value")))
    .pass)
  (.seq (.ite (.or (.cmp .is (.method (.name (py!"value")) .isalnum .nil) (.const (.bool false))) (.cmp .gt (.prim .len (.cons (.name (py!"value")) .nil)) (.const (.int 4))))
    (.raise (.cons (.const (.str (py!"Invalid Outbound Magnetic Course"))) (.cons (.name (py!"value")) .nil)))
    .pass)
  (.ite (.method (.name (py!"value")) .endswith (.cons (.const (.str (py!"T"))) .nil))
    (.ret (.name (py!"value")))
    (.ret (.join (.cons (.fmt (.fixed 1) (.bin .div (.prim .float (.cons (.name (py!"value")) .nil)) (.const (.int 10)))) .nil)))))))⟩

/-- decoder.py:447-456 -/
def field_027 : Func := ⟨[py!"value", py!"record"], [],
  (.seq (.assign (py!"value") (.method (.name (py!"value")) .strip .nil))
  (.seq (.ite (.cmp .gt (.prim .len (.cons (.name (py!"value")) .nil)) (.const (.int 0)))
    (.ite (.cmp .eq (.sub (.name (py!"value")) (.const (.int 0))) (.const (.str (py!"T"))))
      (.ret (.join (.cons (.fmt (.fixed 1) (.bin .div (.prim .float (.cons (.slice (.name (py!"value")) (some 1) none) .nil)) (.const (.int 10)))) (.cons (.const (.str (py!" min"))) .nil))))
      (.ret (.join (.cons (.fmt (.fixed 1) (.bin .div (.prim .float (.cons (.name (py!"value")) .nil)) (.const (.int 10)))) (.cons (.const (.str (py!" nm"))) .nil)))))
    .pass)
  (.ret (.name (py!"value")))))⟩

/-- decoder.py:465-466 -/
def field_029 : Func := ⟨[py!"value", py!"record"], [],
  (.ret (.cond (.method (.name (py!"value")) .isnumeric .nil) (.bin .add (.method (.name (py!"value")) .lstrip (.cons (.const (.str (py!"0"))) .nil)) (.const (.str (py!" ft")))) (.name (py!"value"))))⟩

/-- decoder.py:470-471 -/
def field_030 : Func := ⟨[py!"value", py!"record"], [],
  (.ret (.cond (.method (.name (py!"value")) .isnumeric .nil) (.bin .add (.method (.name (py!"value")) .lstrip (.cons (.const (.str (py!"0"))) .nil)) (.const (.str (py!" ft")))) (.name (py!"value"))))⟩

/-- decoder.py:480-482 -/
def field_032 : Func := ⟨[py!"value", py!"record"], [],
  (.seq (.assign (py!"year") (.cond (.cmp .gt (.prim .int (.cons (.slice (.name (py!"value")) none (some 2)) .nil)) (.const (.int 50))) (.bin .add (.const (.str (py!"19"))) (.slice (.name (py!"value")) none (some 2))) (.bin .add (.const (.str (py!"20"))) (.slice (.name (py!"value")) none (some 2)))))
  (.ret (.join (.cons (.fmt .plain (.name (py!"year"))) (.cons (.const (.str (py!", Release "))) (.cons (.fmt .plain (.slice (.name (py!"value")) (some 2) none)) .nil))))))⟩

/-- decoder.py:491-500 -/
def field_034 : Func := ⟨[py!"value", py!"record"], [],
  (.seq (.assign (py!"value") (.method (.name (py!"value")) .strip .nil))
  (.seq (.ite (.cmp .gt (.prim .len (.cons (.name (py!"value")) .nil)) (.const (.int 0)))
    (.ite (.cmp .is (.method (.name (py!"value")) .isnumeric .nil) (.const (.bool false)))
      (.seq (.expr (.prim .print (.cons (.join (.cons (.const (.str (py!"Unsupported VOR/NDB Frequency: \""))) (.cons (.fmt .plain (.name (py!"value"))) (.cons (.const (.str (py!"\""))) .nil)))) .nil)))
      (.seq (.expr (.prim .print (.cons (.join (.cons (.const (.str (py!"from record type \""))) (.cons (.fmt .plain (.attr (.name (py!"record")) (py!"ident"))) (.cons (.const (.str (py!"\": \""))) (.cons (.fmt .plain (.attr (.name (py!"record")) (py!"raw"))) (.cons (.const (.str (py!"\""))) .nil)))))) .nil)))
      (.expr (.prim .exit .nil))))
      (.ret (.join (.cons (.fmt (.fixed 2) (.bin .div (.prim .float (.cons (.name (py!"value")) .nil)) (.const (.int 100)))) .nil))))
    .pass)
  (.ret (.name (py!"value")))))⟩

/-- decoder.py:554-555 -/
def field_039 : Func := ⟨[py!"value", py!"record"], [],
  (.ret (.cond (.cmp .eq (.method (.name (py!"value")) .strip .nil) (.const (.str (py!"")))) (.name (py!"value")) (.join (.cons (.fmt .pad3 (.prim .int (.cons (.slice (.name (py!"value")) (some 1) none) .nil))) (.cons (.const (.str (py!" "))) (.cons (.fmt .plain (.sub (.name (py!"value")) (.const (.int 0)))) .nil))))))⟩

/-- decoder.py:569-621 -/
def field_042 : Func := ⟨[py!"value", py!"record"], [],
  (.seq (.matchOn (.sub (.name (py!"value")) (.const (.int 0)))
    (.case (.str (py!"C")) (.ret (.const (.str (py!"Combined Named Intersection and RNAV"))))
    (.case (.str (py!"I")) (.ret (.const (.str (py!"Unnamed, Charted Intersection"))))
    (.case (.str (py!"N")) (.ret (.bin .add (.const (.str (py!"NDB Navaid as Waypoint"))) (.slice (.name (py!"value")) (some 1) none)))
    (.case (.str (py!"R")) (.ret (.const (.str (py!"Named Intersection"))))
    (.case (.str (py!"U")) (.ret (.const (.str (py!"Uncharted Airway Intersection"))))
    (.case (.str (py!"V")) (.ret (.const (.str (py!"VFR Waypoint"))))
    (.case (.str (py!"W")) (.ret (.const (.str (py!"RNAV Waypoint"))))
    .pass))))))))
  (.matchOn (.sub (.name (py!"value")) (.const (.int 1)))
    (.case (.str (py!"A")) (.ret (.const (.str (py!"Final Approach Fix"))))
    (.case (.str (py!"B")) (.ret (.const (.str (py!"Initial and Final Approach Fix"))))
    (.case (.str (py!"C")) (.ret (.const (.str (py!"Final Approach Course Fix"))))
    (.case (.str (py!"D")) (.ret (.const (.str (py!"Intermediate Approach Fix"))))
    (.case (.str (py!"E")) (.ret (.const (.str (py!"Off-Route intersection in FAA National Reference System"))))
    (.case (.str (py!"F")) (.ret (.const (.str (py!"Off-Route Intersection"))))
    (.case (.str (py!"I")) (.ret (.const (.str (py!"Initial Approach Fix"))))
    (.case (.str (py!"K")) (.ret (.const (.str (py!"Final Approach Course Fix at Initial Approach Fix"))))
    (.case (.str (py!"L")) (.ret (.const (.str (py!"Final Approach Course Fix at Intermediate Approach Fix"))))
    (.case (.str (py!"M")) (.ret (.const (.str (py!"Missed Approach Fix"))))
    (.case (.str (py!"N")) (.ret (.const (.str (py!"Initial Approach Fix and Missed Approach Fix"))))
    (.case (.str (py!"O")) (.ret (.const (.str (py!"Oceanic Entry/Exit Waypoint"))))
    (.case (.str (py!"P")) (.ret (.const (.str (py!"Pitch and Catch Point in the FAA High Altitude Redesign"))))
    (.case (.str (py!"S")) (.ret (.const (.str (py!"AACAA and SUA Waypoints in the FAA High Altitude Redesign"))))
    (.case (.str (py!"U")) (.ret (.const (.str (py!"FIR/UIR or Controlled Airspace Intersection"))))
    (.case (.str (py!"V")) (.ret (.const (.str (py!"Latitude/Longitude Intersection, Full Degree of Latitude"))))
    (.case (.str (py!"W")) (.ret (.const (.str (py!"Latitude/Longitude Intersection, Half Degree of Latitude"))))
    (.ret (.const (.str (py!"Unknown Waypoint Type")))))))))))))))))))))))⟩

/-- decoder.py:625-626 -/
def field_043 : Func := ⟨[py!"value", py!"record"], [],
  (.ret (.method (.name (py!"value")) .strip .nil))⟩

/-- decoder.py:635-639 -/
def field_045 : Func := ⟨[py!"value", py!"record"], [],
  (.ite (.method (.name (py!"value")) .isnumeric .nil)
    (.ret (.join (.cons (.fmt (.fixed 2) (.bin .div (.prim .float (.cons (.name (py!"value")) .nil)) (.const (.int 100)))) .nil)))
    (.ret (.const (.str (py!"BAD VALUE")))))⟩

/-- decoder.py:653-654 -/
def field_048 : Func := ⟨[py!"value", py!"record"], [],
  (.ret (.cond (.method (.name (py!"value")) .isnumeric .nil) (.bin .add (.method (.name (py!"value")) .lstrip (.cons (.const (.str (py!"0"))) .nil)) (.const (.str (py!" ft")))) (.name (py!"value"))))⟩

/-- decoder.py:658-667 -/
def field_049 : Func := ⟨[py!"value", py!"record"], [],
  (.matchOn (.name (py!"value"))
    (.case (.str (py!"@")) (.ret (.const (.str (py!"Beyond stop end of runway"))))
    (.case (.str (py!"+")) (.ret (.const (.str (py!"Ahead of approach end of runway"))))
    (.case (.str (py!"-")) (.ret (.const (.str (py!"To the side of runway"))))
    (.ret (.name (py!"value")))))))⟩

/-- decoder.py:672-673 -/
def field_050 : Func := ⟨[py!"value", py!"record"], [],
  (.ret (.cond (.method (.name (py!"value")) .isnumeric .nil) (.bin .add (.method (.name (py!"value")) .lstrip (.cons (.const (.str (py!"0"))) .nil)) (.const (.str (py!" ft")))) (.name (py!"value"))))⟩

/-- decoder.py:687-688 -/
def field_053 : Func := ⟨[py!"value", py!"record"], [],
  (.ret (.cond (.method (.name (py!"value")) .isnumeric .nil) (.bin .add (.method (.name (py!"value")) .lstrip (.cons (.const (.str (py!"0"))) .nil)) (.const (.str (py!" ft")))) (.name (py!"value"))))⟩

/-- decoder.py:692-696 -/
def field_054 : Func := ⟨[py!"value", py!"record"], [],
  (.ite (.method (.name (py!"value")) .isnumeric .nil)
    (.ret (.bin .add (.bin .add (.method (.name (py!"value")) .lstrip (.cons (.const (.str (py!"0"))) .nil)) (.const (.str (py!"00")))) (.const (.str (py!" ft")))))
    (.ret (.name (py!"value"))))⟩

/-- decoder.py:735-739 -/
def field_062 : Func := ⟨[py!"value", py!"record"], [],
  (.ite (.method (.name (py!"value")) .isnumeric .nil)
    (.ret (.bin .div (.prim .float (.cons (.name (py!"value")) .nil)) (.const (.int 10))))
    (.ret (.const (.str (py!"BAD VALUE")))))⟩

/-- decoder.py:753-761 -/
def field_065 : Func := ⟨[py!"value", py!"record"], [],
  (.seq (.ite (.cmp .eq (.method (.name (py!"value")) .strip .nil) (.const (.str (py!""))))
    (.ret (.const .none))
    .pass)
  (.tryExcept (.ret (.join (.cons (.fmt .plain (.prim .int (.cons (.sub (.name (py!"value")) (.const (.int 0))) .nil))) (.cons (.const (.str (py!"m "))) (.cons (.fmt .plain (.bin .mul (.prim .int (.cons (.sub (.name (py!"value")) (.const (.int 1))) .nil)) (.const (.int 6)))) (.cons (.const (.str (py!"s"))) .nil)))))) [.valueError, .indexError] (py!"e")
    (.seq (.expr (.prim .print (.cons (.join (.cons (.const (.str (py!"Error: Invalid value passed to format_time. Value: \""))) (.cons (.fmt .plain (.name (py!"value"))) (.cons (.const (.str (py!"\". Error: "))) (.cons (.fmt .plain (.prim .str (.cons (.name (py!"e")) .nil))) .nil))))) .nil)))
    (.ret (.join (.cons (.const (.str (py!"Invalid Value: \""))) (.cons (.fmt .plain (.name (py!"value"))) (.cons (.const (.str (py!"\""))) .nil))))))))⟩

/-- decoder.py:795-801 -/
def field_072 : Func := ⟨[py!"value", py!"record"], [],
  (.ite (.method (.name (py!"value")) .isnumeric .nil)
    (.ret (.bin .add (.name (py!"value")) (.const (.str (py!" knots (IAS)")))))
    (.ite (.cmp .eq (.method (.name (py!"value")) .strip .nil) (.const (.str (py!""))))
      (.ret (.name (py!"value")))
      (.raise (.cons (.bin .add (.const (.str (py!"Invalid speed"))) (.name (py!"value"))) .nil))))⟩

/-- decoder.py:805-806 -/
def field_073 : Func := ⟨[py!"value", py!"record"], [],
  (.ret (.cond (.method (.name (py!"value")) .isnumeric .nil) (.bin .add (.method (.name (py!"value")) .lstrip (.cons (.const (.str (py!"0"))) .nil)) (.const (.str (py!" ft")))) (.name (py!"value"))))⟩

/-- decoder.py:850-864 -/
def field_082 : Func := ⟨[py!"value", py!"record"], [],
  (.seq (.assign (py!"wp") (.const (.str (py!""))))
  (.seq (.ite (.cmp .eq (.sub (.name (py!"value")) (.const (.int 1))) (.const (.str (py!"B"))))
    (.assign (py!"wp") (.bin .add (.name (py!"wp")) (.const (.str (py!"HI and LO Altitude")))))
    (.ite (.cmp .eq (.sub (.name (py!"value")) (.const (.int 1))) (.const (.str (py!"H"))))
      (.assign (py!"wp") (.bin .add (.name (py!"wp")) (.const (.str (py!"HI Altitude")))))
      (.ite (.cmp .eq (.sub (.name (py!"value")) (.const (.int 1))) (.const (.str (py!"L"))))
        (.assign (py!"wp") (.bin .add (.name (py!"wp")) (.const (.str (py!"LO Altitude")))))
        (.ite (.cmp .eq (.sub (.name (py!"value")) (.const (.int 1))) (.const (.str (py!" "))))
          (.assign (py!"wp") (.bin .add (.name (py!"wp")) (.const (.str (py!"Terminal Use Only")))))
          (.ite (.cmp .eq (.sub (.name (py!"value")) (.const (.int 0))) (.const (.str (py!"R"))))
            (.assign (py!"wp") (.bin .add (.name (py!"wp")) (.const (.str (py!"RNAV")))))
            (.raise (.cons (.join (.cons (.const (.str (py!"Invalid Waypoint Usage: '"))) (.cons (.fmt .plain (.name (py!"value"))) (.cons (.const (.str (py!"'"))) .nil)))) .nil)))))))
  (.ret (.name (py!"wp")))))⟩

/-- decoder.py:883-884 -/
def field_086 : Func := ⟨[py!"value", py!"record"], [],
  (.ret (.cond (.method (.name (py!"value")) .isnumeric .nil) (.bin .add (.method (.name (py!"value")) .lstrip (.cons (.const (.str (py!"0"))) .nil)) (.const (.str (py!" ft")))) (.name (py!"value"))))⟩

/-- decoder.py:908-937 -/
def field_091 : Func := ⟨[py!"value", py!"record"], [],
  (.matchOn (.name (py!"value"))
    (.case (.str (py!"A")) (.ret (.const (.str (py!"Standard ARINC Continuation containing notes or other formatted data"))))
    (.case (.str (py!"B")) (.ret (.const (.str (py!"Combined Controlling Agency/Call Sign and formatted Time of Operation"))))
    (.case (.str (py!"C")) (.ret (.const (.str (py!"Call Sign/Controlling Agency Continuation"))))
    (.case (.str (py!"E")) (.ret (.const (.str (py!"Primary Record Extension"))))
    (.case (.str (py!"L")) (.ret (.const (.str (py!"VHF Navaid Limitation Continuation"))))
    (.case (.str (py!"N")) (.ret (.const (.str (py!"Sector Narrative Continuation"))))
    (.case (.str (py!"T")) (.ret (.const (.str (py!"Time of Operations Continuation \"formatted time data\""))))
    (.case (.str (py!"U")) (.ret (.const (.str (py!"Time of Operations Continuation \"Narrative time data\""))))
    (.case (.str (py!"V")) (.ret (.const (.str (py!"Time of Operations Continuation, Start/End Date"))))
    (.case (.str (py!"P")) (.ret (.const (.str (py!"Flight Planning Application Continuation"))))
    (.case (.str (py!"Q")) (.ret (.const (.str (py!"Flight Planning Application Primary Data Continuation"))))
    (.case (.str (py!"S")) (.ret (.const (.str (py!"Simulation Application Continuation"))))
    (.case (.str (py!"W")) (.ret (.const (.str (py!"Airport or Heliport Procedure Data Continuation with SBAS use authorization information"))))
    (.ret (.bin .add (.const (.str (py!"Unknown Application Type: "))) (.prim .str (.cons (.name (py!"value")) .nil))))))))))))))))))⟩

/-- decoder.py:941-942 -/
def field_092 : Func := ⟨[py!"value", py!"record"], [],
  (.ret (.cond (.method (.name (py!"value")) .isnumeric .nil) (.bin .add (.method (.name (py!"value")) .lstrip (.cons (.const (.str (py!"0"))) .nil)) (.const (.str (py!" ft")))) (.name (py!"value"))))⟩

/-- decoder.py:986-1030 -/
def field_101 : Func := ⟨[py!"value", py!"record"], [],
  (.seq (.assign (py!"d") (.const (.dict (.str (py!"<UNKNOWN>")) [])))
  (.seq (.setItem (py!"d") (.const (.str (py!"ACC"))) (.const (.str (py!"Area Control Center"))))
  (.seq (.setItem (py!"d") (.const (.str (py!"ACP"))) (.const (.str (py!"Airlift Command Post"))))
  (.seq (.setItem (py!"d") (.const (.str (py!"AIR"))) (.const (.str (py!"Air to Air"))))
  (.seq (.setItem (py!"d") (.const (.str (py!"APP"))) (.const (.str (py!"Approach Control"))))
  (.seq (.setItem (py!"d") (.const (.str (py!"ARR"))) (.const (.str (py!"Arrival Control"))))
  (.seq (.setItem (py!"d") (.const (.str (py!"ASO"))) (.const (.str (py!"Automatic Surface Observing System (ASOS)"))))
  (.seq (.setItem (py!"d") (.const (.str (py!"ATI"))) (.const (.str (py!"Automatic Terminal Info Service (ATIS)"))))
  (.seq (.setItem (py!"d") (.const (.str (py!"AWI"))) (.const (.str (py!"Airport Weather Information Broadcast (AWIB)"))))
  (.seq (.setItem (py!"d") (.const (.str (py!"AWO"))) (.const (.str (py!"Automatic Weather Observing Service (AWOS)"))))
  (.seq (.setItem (py!"d") (.const (.str (py!"AWS"))) (.const (.str (py!"Aerodrome Weather Information Services (AWIS)"))))
  (.seq (.setItem (py!"d") (.const (.str (py!"CLD"))) (.const (.str (py!"Clearance Delivery"))))
  (.seq (.setItem (py!"d") (.const (.str (py!"CPT"))) (.const (.str (py!"Clearance, Pre-Taxi"))))
  (.seq (.setItem (py!"d") (.const (.str (py!"CTA"))) (.const (.str (py!"Control Area (Terminal)"))))
  (.seq (.setItem (py!"d") (.const (.str (py!"CTL"))) (.const (.str (py!"Control"))))
  (.seq (.setItem (py!"d") (.const (.str (py!"DEP"))) (.const (.str (py!"Departure Control"))))
  (.seq (.setItem (py!"d") (.const (.str (py!"DIR"))) (.const (.str (py!"Director (Approach Control Radar)"))))
  (.seq (.setItem (py!"d") (.const (.str (py!"EFS"))) (.const (.str (py!"Enroute Flight Advisory Service (EFAS)"))))
  (.seq (.setItem (py!"d") (.const (.str (py!"EMR"))) (.const (.str (py!"Emergency"))))
  (.seq (.setItem (py!"d") (.const (.str (py!"FSS"))) (.const (.str (py!"Flight Service Station"))))
  (.seq (.setItem (py!"d") (.const (.str (py!"GCO"))) (.const (.str (py!"Ground Comm Outlet"))))
  (.seq (.setItem (py!"d") (.const (.str (py!"GND"))) (.const (.str (py!"Ground Control"))))
  (.seq (.setItem (py!"d") (.const (.str (py!"GTE"))) (.const (.str (py!"Gate Control"))))
  (.seq (.setItem (py!"d") (.const (.str (py!"HEL"))) (.const (.str (py!"Helicopter Frequency"))))
  (.seq (.setItem (py!"d") (.const (.str (py!"INF"))) (.const (.str (py!"Information"))))
  (.seq (.setItem (py!"d") (.const (.str (py!"MIL"))) (.const (.str (py!"Military Frequency"))))
  (.seq (.setItem (py!"d") (.const (.str (py!"MUL"))) (.const (.str (py!"Multicom"))))
  (.seq (.setItem (py!"d") (.const (.str (py!"OPS"))) (.const (.str (py!"Operations"))))
  (.seq (.setItem (py!"d") (.const (.str (py!"PAL"))) (.const (.str (py!"Pilot Activated Lighting (Note 1)"))))
  (.seq (.setItem (py!"d") (.const (.str (py!"RDO"))) (.const (.str (py!"Radio"))))
  (.seq (.setItem (py!"d") (.const (.str (py!"RDR"))) (.const (.str (py!"Radar"))))
  (.seq (.setItem (py!"d") (.const (.str (py!"RFS"))) (.const (.str (py!"Remote Flight Service Station (RFSS)"))))
  (.seq (.setItem (py!"d") (.const (.str (py!"RMP"))) (.const (.str (py!"Ramp/Taxi Control"))))
  (.seq (.setItem (py!"d") (.const (.str (py!"RSA"))) (.const (.str (py!"Airport Radar Service Area (ARSA)"))))
  (.seq (.setItem (py!"d") (.const (.str (py!"TCA"))) (.const (.str (py!"Terminal Control Area"))))
  (.seq (.setItem (py!"d") (.const (.str (py!"TMA"))) (.const (.str (py!"Terminal Control Area"))))
  (.seq (.setItem (py!"d") (.const (.str (py!"TML"))) (.const (.str (py!"Terminal"))))
  (.seq (.setItem (py!"d") (.const (.str (py!"TRS"))) (.const (.str (py!"Terminal Radar Service Area (TRSA)"))))
  (.seq (.setItem (py!"d") (.const (.str (py!"TWE"))) (.const (.str (py!"Transcribe Weather Broadcast (TWEB)"))))
  (.seq (.setItem (py!"d") (.const (.str (py!"TWR"))) (.const (.str (py!"Tower, Air Traffic Control"))))
  (.seq (.setItem (py!"d") (.const (.str (py!"UAC"))) (.const (.str (py!"Upper Area Control"))))
  (.seq (.setItem (py!"d") (.const (.str (py!"UNI"))) (.const (.str (py!"Unicom"))))
  (.seq (.setItem (py!"d") (.const (.str (py!"VOL"))) (.const (.str (py!"Volmet"))))
  (.ret (.cond (.cmp .ne (.sub (.name (py!"d")) (.name (py!"value"))) (.const (.str (py!"bad value")))) (.sub (.name (py!"d")) (.name (py!"value"))) (.bin .add (.name (py!"value")) (.const (.str (py!"BAD VALUE")))))))))))))))))))))))))))))))))))))))))))))))))⟩

/-- decoder.py:1034-1041 -/
def field_102 : Func := ⟨[py!"value", py!"record"], [],
  (.matchOn (.name (py!"value"))
    (.case (.str (py!"R")) (.ret (.const (.str (py!"Radar Capabilities"))))
    (.case (.str (py!"N")) (.ret (.const (.str (py!"No Radar Capabilities"))))
    (.ret (.name (py!"value"))))))⟩

/-- decoder.py:1045-1049 -/
def field_103 : Func := ⟨[py!"value", py!"record"], [],
  (.ite (.method (.name (py!"value")) .isnumeric .nil)
    (.ret (.join (.cons (.fmt (.fixed 2) (.bin .div (.prim .float (.cons (.name (py!"value")) .nil)) (.const (.int 100)))) .nil)))
    (.ret (.const (.str (py!"BAD VALUE")))))⟩

/-- decoder.py:1053-1059 -/
def field_104 : Func := ⟨[py!"value", py!"record"], [],
  (.seq (.assign (py!"d") (.const (.dict (.str (py!"<UNKNOWN>")) [])))
  (.seq (.setItem (py!"d") (.const (.str (py!"H"))) (.const (.str (py!"High Frequency (3000 kHz - 30,000 kHz)"))))
  (.seq (.setItem (py!"d") (.const (.str (py!"V"))) (.const (.str (py!"Very High Frequency (30,000 kHz - 200 MHz)"))))
  (.seq (.setItem (py!"d") (.const (.str (py!"U"))) (.const (.str (py!"Ultra High Frequency (200 MHz - 3000 MHz)"))))
  (.seq (.setItem (py!"d") (.const (.str (py!"C"))) (.const (.str (py!"Communication Channel for 8.33 kHz spacing"))))
  (.ret (.cond (.cmp .ne (.sub (.name (py!"d")) (.name (py!"value"))) (.const (.str (py!"bad value")))) (.sub (.name (py!"d")) (.name (py!"value"))) (.bin .add (.name (py!"value")) (.const (.str (py!"BAD VALUE")))))))))))⟩

/-- decoder.py:1068-1093 -/
def field_106 : Func := ⟨[py!"value", py!"record"], [],
  (.seq (.ite (.cmp .eq (.method (.name (py!"value")) .strip .nil) (.const (.str (py!""))))
    (.ret (.name (py!"value")))
    .pass)
  (.seq (.assign (py!"sections") (.const (.dict (.str (py!"<UNKNOWN>")) [])))
  (.seq (.setItem (py!"sections") (.const (.str (py!"A  "))) (.const (.str (py!"Airport Advisory Serivce (AAS)"))))
  (.seq (.setItem (py!"sections") (.const (.str (py!"C  "))) (.const (.str (py!"Community Aerodrome Radio Station (CARS)"))))
  (.seq (.setItem (py!"sections") (.const (.str (py!"D  "))) (.const (.str (py!"Departure Service (Other than Departure Control Unit)"))))
  (.seq (.setItem (py!"sections") (.const (.str (py!"F  "))) (.const (.str (py!"Flight Information Serivce (FIS)"))))
  (.seq (.setItem (py!"sections") (.const (.str (py!"I  "))) (.const (.str (py!"Initial Contact (IC)"))))
  (.seq (.setItem (py!"sections") (.const (.str (py!"L  "))) (.const (.str (py!"Arrival Service (Other than Arrival Control Unit)"))))
  (.seq (.setItem (py!"sections") (.const (.str (py!"P  "))) (.const (.str (py!"Pre-Departure Clearance (Data Link Service)"))))
  (.seq (.setItem (py!"sections") (.const (.str (py!"S  "))) (.const (.str (py!"Aerodrome Flight Information Service (AFIS)"))))
  (.seq (.setItem (py!"sections") (.const (.str (py!"T  "))) (.const (.str (py!"Terminal Area Control (Other than dedicated Terminal Control Unit)"))))
  (.seq (.setItem (py!"sections") (.const (.str (py!" A "))) (.const (.str (py!"Aerodrome Traffic Frequency (ATF)"))))
  (.seq (.setItem (py!"sections") (.const (.str (py!" C "))) (.const (.str (py!"Common Traffic Advisory Frequency (CTAF)"))))
  (.seq (.setItem (py!"sections") (.const (.str (py!" M "))) (.const (.str (py!"Mandatory Frequency (MF) "))))
  (.seq (.setItem (py!"sections") (.const (.str (py!" R "))) (.const (.str (py!"Air/Air"))))
  (.seq (.setItem (py!"sections") (.const (.str (py!" S "))) (.const (.str (py!"Secondary Frequency"))))
  (.seq (.setItem (py!"sections") (.const (.str (py!"  A"))) (.const (.str (py!"Air/Ground"))))
  (.seq (.setItem (py!"sections") (.const (.str (py!"  D"))) (.const (.str (py!"VHF Direction Finding Service (VDF)"))))
  (.seq (.setItem (py!"sections") (.const (.str (py!"  G"))) (.const (.str (py!"Remote Communications Air to Ground (RCAG)"))))
  (.seq (.setItem (py!"sections") (.const (.str (py!"  L"))) (.const (.str (py!"Language other than English"))))
  (.seq (.setItem (py!"sections") (.const (.str (py!"  M"))) (.const (.str (py!"Military Use Frequency"))))
  (.seq (.setItem (py!"sections") (.const (.str (py!"  P"))) (.const (.str (py!"Pilot Controlled Light (PCL)"))))
  (.seq (.setItem (py!"sections") (.const (.str (py!"  R"))) (.const (.str (py!"Remote Communications Outlet (RCO)"))))
  (.ret (.sub (.name (py!"sections")) (.name (py!"value")))))))))))))))))))))))))))⟩

/-- decoder.py:1102-1109 -/
def field_108 : Func := ⟨[py!"value", py!"record"], [],
  (.matchOn (.name (py!"value"))
    (.case (.str (py!"Y")) (.ret (.const (.str (py!"Official"))))
    (.case (.str (py!"N")) (.ret (.const (.str (py!"Non-official"))))
    (.raise (.cons (.const (.str (py!"Invalid IFR Capability"))) .nil)))))⟩

/-- decoder.py:1128-1135 -/
def field_112 : Func := ⟨[py!"value", py!"record"], [],
  (.matchOn (.name (py!"value"))
    (.case (.str (py!"E")) (.ret (.const (.str (py!"Elliptical"))))
    (.case (.str (py!"B")) (.ret (.const (.str (py!"Bone"))))
    (.ret (.name (py!"value"))))))⟩

/-- decoder.py:1139-1146 -/
def field_113 : Func := ⟨[py!"value", py!"record"], [],
  (.matchOn (.name (py!"value"))
    (.case (.str (py!"H")) (.ret (.const (.str (py!"High Power (general use)"))))
    (.case (.str (py!"L")) (.ret (.const (.str (py!"Low Power (low altitude use)"))))
    (.ret (.name (py!"value"))))))⟩

/-- decoder.py:1165-1173 -/
def field_117 : Func := ⟨[py!"value", py!"record"], [],
  (.ite (.cmp .eq (.name (py!"value")) (.const (.str (py!"F"))))
    (.ret (.const (.str (py!"FIR"))))
    (.ite (.cmp .eq (.name (py!"value")) (.const (.str (py!"U"))))
      (.ret (.const (.str (py!"UIR"))))
      (.ite (.cmp .eq (.name (py!"value")) (.const (.str (py!"B"))))
        (.ret (.const (.str (py!"Combined FIR/UIR"))))
        (.ret (.name (py!"value"))))))⟩

/-- decoder.py:1177-1197 -/
def field_118 : Func := ⟨[py!"value", py!"record"], [],
  (.seq (.assign (py!"s") (.const (.str (py!""))))
  (.seq (.matchOn (.sub (.name (py!"value")) (.const (.int 0)))
    (.case (.str (py!"C")) (.aug (py!"s") (.const (.str (py!"Circle"))))
    (.case (.str (py!"G")) (.aug (py!"s") (.const (.str (py!"Great Circle"))))
    (.case (.str (py!"H")) (.aug (py!"s") (.const (.str (py!"Rhumb Line"))))
    (.case (.str (py!"L")) (.aug (py!"s") (.const (.str (py!"Counter Clockwise ARC"))))
    (.case (.str (py!"R")) (.aug (py!"s") (.const (.str (py!"Clockwise ARC"))))
    (.seq (.expr (.prim .print (.cons (.join (.cons (.const (.str (py!"Unsupported Boundary Via: \""))) (.cons (.fmt .plain (.name (py!"value"))) (.cons (.const (.str (py!"\""))) .nil)))) .nil)))
    (.ret (.join (.cons (.const (.str (py!"Unsupported Value: \""))) (.cons (.fmt .plain (.name (py!"value"))) (.cons (.const (.str (py!"\""))) .nil))))))))))))
  (.seq (.ite (.cmp .eq (.sub (.name (py!"value")) (.const (.int 1))) (.const (.str (py!"E"))))
    (.aug (py!"s") (.const (.str (py!", End of description, return to origin point"))))
    .pass)
  (.ret (.name (py!"s"))))))⟩

/-- decoder.py:1221-1222 -/
def field_123 : Func := ⟨[py!"value", py!"record"], [],
  (.ret (.cond (.method (.name (py!"value")) .isnumeric .nil) (.bin .add (.method (.name (py!"value")) .lstrip (.cons (.const (.str (py!"0"))) .nil)) (.const (.str (py!" ft")))) (.name (py!"value"))))⟩

/-- decoder.py:1241-1242 -/
def field_127 : Func := ⟨[py!"value", py!"record"], [],
  (.ret (.cond (.method (.name (py!"value")) .isnumeric .nil) (.bin .add (.method (.name (py!"value")) .lstrip (.cons (.const (.str (py!"0"))) .nil)) (.const (.str (py!" ft")))) (.name (py!"value"))))⟩

/-- decoder.py:1281-1285 -/
def field_135 : Func := ⟨[py!"value", py!"record"], [],
  (.ite (.method (.name (py!"value")) .isnumeric .nil)
    (.ret (.bin .div (.prim .float (.cons (.name (py!"value")) .nil)) (.const (.int 10))))
    (.ret (.const (.str (py!"BAD VALUE")))))⟩

/-- decoder.py:1344-1345 -/
def field_147 : Func := ⟨[py!"value", py!"record"], [],
  (.ret (.cond (.method (.name (py!"value")) .isnumeric .nil) (.bin .add (.method (.name (py!"value")) .lstrip (.cons (.const (.str (py!"0"))) .nil)) (.const (.str (py!" ft")))) (.name (py!"value"))))⟩

/-- decoder.py:1414-1415 -/
def field_161 : Func := ⟨[py!"value", py!"record"], [],
  (.ret (.cond (.method (.name (py!"value")) .isnumeric .nil) (.bin .add (.method (.name (py!"value")) .lstrip (.cons (.const (.str (py!"0"))) .nil)) (.const (.str (py!" ft")))) (.name (py!"value"))))⟩

/-- decoder.py:1434-1440 -/
def field_165 : Func := ⟨[py!"value", py!"record"], [],
  (.ite (.cmp .eq (.name (py!"value")) (.const (.str (py!"M"))))
    (.ret (.const (.str (py!"Magnetic"))))
    (.ite (.cmp .eq (.name (py!"value")) (.const (.str (py!"T"))))
      (.ret (.const (.str (py!"True"))))
      (.ret (.name (py!"value")))))⟩

/-- decoder.py:1500-1509 -/
def field_177 : Func := ⟨[py!"value", py!"record"], [],
  (.matchOn (.name (py!"value"))
    (.case (.str (py!"C")) (.ret (.const (.str (py!"Public / Civil"))))
    (.case (.str (py!"M")) (.ret (.const (.str (py!"Military"))))
    (.case (.str (py!"P")) (.ret (.const (.str (py!"Private (not open to public)"))))
    (.ret (.join (.cons (.const (.str (py!"Unsupported Value: \""))) (.cons (.fmt .plain (.name (py!"value"))) (.cons (.const (.str (py!"\""))) .nil)))))))))⟩

/-- decoder.py:1513-1519 -/
def field_178 : Func := ⟨[py!"value", py!"record"], [],
  (.ite (.and (.method (.sub (.name (py!"value")) (.const (.int 0))) .isalpha .nil) (.method (.slice (.name (py!"value")) (some 1) none) .isnumeric .nil))
    (.seq (.assign (py!"x") (.bin .sub (.prim .upperIndex (.cons (.sub (.name (py!"value")) (.const (.int 0))) .nil)) (.const (.int 12))))
    (.seq (.assign (py!"y") (.cond (.cmp .ge (.name (py!"x")) (.const (.int 0))) (.bin .add (.const (.str (py!"GMT +"))) (.prim .str (.cons (.name (py!"x")) .nil))) (.bin .add (.const (.str (py!"GMT -"))) (.prim .str (.cons (.name (py!"x")) .nil)))))
    (.ret (.bin .add (.bin .add (.name (py!"y")) (.const (.str (py!":")))) (.prim .str (.cons (.slice (.name (py!"value")) (some 1) none) .nil))))))
    (.ret (.join (.cons (.const (.str (py!"Unsupported Value: \""))) (.cons (.fmt .plain (.name (py!"value"))) (.cons (.const (.str (py!"\""))) .nil))))))⟩

/-- decoder.py:1523-1530 -/
def field_179 : Func := ⟨[py!"value", py!"record"], [],
  (.matchOn (.name (py!"value"))
    (.case (.str (py!"Y")) (.ret (.const (.str (py!"Yes"))))
    (.case (.str (py!"N")) (.ret (.const (.str (py!"No"))))
    (.ret (.join (.cons (.const (.str (py!"Unsupported Value: \""))) (.cons (.fmt .plain (.name (py!"value"))) (.cons (.const (.str (py!"\""))) .nil))))))))⟩

/-- decoder.py:1539-1543 -/
def field_181 : Func := ⟨[py!"value", py!"record"], [],
  (.seq (.assign (py!"d") (.const (.dict (.str (py!"<UNKNOWN>")) [])))
  (.seq (.setItem (py!"d") (.const (.str (py!"Y"))) (.const (.str (py!"24-Hour Availability"))))
  (.seq (.setItem (py!"d") (.const (.str (py!"N"))) (.const (.str (py!"Part-time Availability"))))
  (.ret (.cond (.cmp .ne (.sub (.name (py!"d")) (.name (py!"value"))) (.const (.str (py!"bad value")))) (.sub (.name (py!"d")) (.name (py!"value"))) (.bin .add (.name (py!"value")) (.const (.str (py!"BAD VALUE")))))))))⟩

/-- decoder.py:1547-1556 -/
def field_182 : Func := ⟨[py!"value", py!"record"], [],
  (.matchOn (.name (py!"value"))
    (.case (.str (py!"G")) (.ret (.const (.str (py!"Guard (radio receives on this freq)"))))
    (.case (.str (py!"T")) (.ret (.const (.str (py!"Transmit (radio transmits on this freq)"))))
    (.case (.str (py!" ")) (.ret (.const (.str (py!"Guards and Transmits"))))
    (.raise (.cons (.const (.str (py!"bad guard/transmit"))) .nil))))))⟩

/-- decoder.py:1565-1566 -/
def field_184 : Func := ⟨[py!"value", py!"record"], [],
  (.ret (.cond (.method (.name (py!"value")) .isnumeric .nil) (.bin .add (.method (.name (py!"value")) .lstrip (.cons (.const (.str (py!"0"))) .nil)) (.const (.str (py!" ft")))) (.name (py!"value"))))⟩

/-- decoder.py:1625-1661 -/
def field_196 : Func := ⟨[py!"value", py!"record"], [],
  (.seq (.matchOn (.sub (.name (py!"value")) (.const (.int 0)))
    (.case (.str (py!"A")) (.ret (.const (.str (py!"Abeam Fix"))))
    (.case (.str (py!"B")) (.ret (.const (.str (py!"Bearing and Distance Fix "))))
    (.case (.str (py!"D")) (.ret (.const (.str (py!"Airport Name as Fix"))))
    (.case (.str (py!"F")) (.ret (.const (.str (py!"FIR Fix"))))
    (.case (.str (py!"H")) (.ret (.const (.str (py!"Phonetic Letter Name Fix"))))
    (.case (.str (py!"I")) (.ret (.const (.str (py!"Airport Ident as Fix"))))
    (.case (.str (py!"L")) (.ret (.const (.str (py!"Latitude/Longitude Fix "))))
    (.case (.str (py!"M")) (.ret (.const (.str (py!"Multiple Word Name Fix"))))
    (.case (.str (py!"N")) (.ret (.const (.str (py!"Navaid Ident as Fix"))))
    (.case (.str (py!"P")) (.ret (.const (.str (py!"Published Five - Letter - Name - Fix"))))
    (.case (.str (py!"Q")) (.ret (.const (.str (py!"Published Name Fix, less than five letters"))))
    (.case (.str (py!"R")) (.ret (.const (.str (py!"Published Name Fix, more than five letters"))))
    (.case (.str (py!"T")) (.ret (.const (.str (py!"Airport/Rwy Related Fix (Note 2)"))))
    (.case (.str (py!"U")) (.ret (.const (.str (py!"UIR Fix"))))
    .pass)))))))))))))))
  (.matchOn (.sub (.name (py!"value")) (.const (.int 1)))
    (.case (.str (py!"O")) (.ret (.const (.str (py!"Localizer Marker with officially published five - letter identifier"))))
    (.case (.str (py!"M")) (.ret (.const (.str (py!"Localizer Marker without officially published five - letter identifier"))))
    (.ret (.const (.str (py!"Unknown Name Format Indicator"))))))))⟩

/-- decoder.py:1670-1674 -/
def field_198 : Func := ⟨[py!"value", py!"record"], [],
  (.seq (.assign (py!"d") (.const (.dict (.str (py!"<UNKNOWN>")) [])))
  (.seq (.setItem (py!"d") (.const (.str (py!"A"))) (.const (.str (py!"Amplitude Modulated"))))
  (.seq (.setItem (py!"d") (.const (.str (py!"F"))) (.const (.str (py!"Frequency Modulated"))))
  (.ret (.cond (.cmp .ne (.sub (.name (py!"d")) (.name (py!"value"))) (.const (.str (py!"bad value")))) (.sub (.name (py!"d")) (.name (py!"value"))) (.bin .add (.name (py!"value")) (.const (.str (py!"BAD VALUE")))))))))⟩

/-- decoder.py:1678-1689 -/
def field_199 : Func := ⟨[py!"value", py!"record"], [],
  (.seq (.ite (.cmp .eq (.method (.name (py!"value")) .strip .nil) (.const (.str (py!""))))
    (.ret (.name (py!"value")))
    .pass)
  (.seq (.assign (py!"d") (.const (.dict (.str (py!"<UNKNOWN>")) [])))
  (.seq (.setItem (py!"d") (.const (.str (py!"3"))) (.const (.str (py!"Double Sideband (A3) "))))
  (.seq (.setItem (py!"d") (.const (.str (py!"A"))) (.const (.str (py!"Single sideband, reduced carrier (A3A) "))))
  (.seq (.setItem (py!"d") (.const (.str (py!"B"))) (.const (.str (py!"Two Independent sidebands (A3B)"))))
  (.seq (.setItem (py!"d") (.const (.str (py!"H"))) (.const (.str (py!"Single sideband, full carrier (A3H) "))))
  (.seq (.setItem (py!"d") (.const (.str (py!"J"))) (.const (.str (py!"Single sideband, suppressed carrier (A3J)"))))
  (.seq (.setItem (py!"d") (.const (.str (py!"L"))) (.const (.str (py!"Lower (single) sideband, carrier unknown"))))
  (.seq (.setItem (py!"d") (.const (.str (py!"U"))) (.const (.str (py!"Upper (single) sideband, carrier unknown"))))
  (.ret (.cond (.cmp .ne (.sub (.name (py!"d")) (.name (py!"value"))) (.const (.str (py!"bad value")))) (.sub (.name (py!"d")) (.name (py!"value"))) (.bin .add (.name (py!"value")) (.const (.str (py!"BAD VALUE")))))))))))))))⟩

/-- decoder.py:1738-1739 -/
def field_209 : Func := ⟨[py!"value", py!"record"], [],
  (.ret (.cond (.method (.name (py!"value")) .isnumeric .nil) (.bin .add (.method (.name (py!"value")) .lstrip (.cons (.const (.str (py!"0"))) .nil)) (.const (.str (py!" ft")))) (.name (py!"value"))))⟩

/-- decoder.py:1893-1894 -/
def field_240 : Func := ⟨[py!"value", py!"record"], [],
  (.ret (.cond (.method (.name (py!"value")) .isnumeric .nil) (.bin .add (.method (.name (py!"value")) .lstrip (.cons (.const (.str (py!"0"))) .nil)) (.const (.str (py!" ft")))) (.name (py!"value"))))⟩

/-- decoder.py:2038-2041 -/
def field_269 : Func := ⟨[py!"value", py!"record"], [],
  (.seq (.ite (.cmp .ne (.method (.name (py!"value")) .strip .nil) (.const (.str (py!""))))
    (.ret (.bin .div (.prim .float (.cons (.name (py!"value")) .nil)) (.const (.int 10))))
    .pass)
  (.ret (.name (py!"value"))))⟩

/-- decoder.py:2045-2058 -/
def field_270 : Func := ⟨[py!"value", py!"record"], [],
  (.matchOn (.name (py!"value"))
    (.case (.str (py!"I")) (.ret (.const (.str (py!"ILS or MLS Glideslope"))))
    (.case (.str (py!"R")) (.ret (.const (.str (py!"RNAV Procedure"))))
    (.case (.str (py!"V")) (.ret (.const (.str (py!"Visual Glideslope Indicator (VGSI)"))))
    (.case (.str (py!"D")) (.ret (.const (.str (py!"Default Value (40 or 50 feet)"))))
    (.case (.str (py!" ")) (.ret (.name (py!"value")))
    (.raise (.cons (.join (.cons (.const (.str (py!"Bad TCH Value Indicator: "))) (.cons (.fmt .plain (.name (py!"value"))) .nil))) .nil))))))))⟩

/-- the body of decoder.py:113-114 and the others that are the same -/
def same : Func := ⟨[py!"value", py!"record"], [],
  (.ret (.name (py!"value")))⟩

/-- the functions of decoder.py -/
def decoderFuncs : List (Str × Func) := [
  (py!"field_002", field_002),
  (py!"field_003", field_003),
  (py!"field_004", field_004),
  (py!"field_006", same),
  (py!"field_007", field_007),
  (py!"field_008", field_008),
  (py!"field_009", field_009),
  (py!"field_010", field_010),
  (py!"field_011", same),
  (py!"field_012", field_012),
  (py!"field_013", same),
  (py!"field_014", same),
  (py!"field_016", field_016),
  (py!"field_017", field_017),
  (py!"field_018", same),
  (py!"field_019", same),
  (py!"field_020", field_020),
  (py!"field_021", field_021),
  (py!"field_022", field_022),
  (py!"field_023", field_023),
  (py!"field_024", field_024),
  (py!"field_025", field_025),
  (py!"field_026", field_026),
  (py!"field_027", field_027),
  (py!"field_028", same),
  (py!"field_029", field_029),
  (py!"field_030", field_030),
  (py!"field_031", same),
  (py!"field_032", field_032),
  (py!"field_033", same),
  (py!"field_034", field_034),
  (py!"field_035", same),
  (py!"field_036", same),
  (py!"field_037", same),
  (py!"field_038", same),
  (py!"field_039", field_039),
  (py!"field_040", same),
  (py!"field_041", same),
  (py!"field_042", field_042),
  (py!"field_043", field_043),
  (py!"field_044", same),
  (py!"field_045", field_045),
  (py!"field_046", same),
  (py!"field_047", same),
  (py!"field_048", field_048),
  (py!"field_049", field_049),
  (py!"field_050", field_050),
  (py!"field_051", same),
  (py!"field_052", same),
  (py!"field_053", field_053),
  (py!"field_054", field_054),
  (py!"field_055", same),
  (py!"field_056", same),
  (py!"field_057", same),
  (py!"field_058", same),
  (py!"field_059", same),
  (py!"field_060", same),
  (py!"field_061", same),
  (py!"field_062", field_062),
  (py!"field_063", same),
  (py!"field_064", same),
  (py!"field_065", field_065),
  (py!"field_066", same),
  (py!"field_067", same),
  (py!"field_068", same),
  (py!"field_069", same),
  (py!"field_070", same),
  (py!"field_071", same),
  (py!"field_072", field_072),
  (py!"field_073", field_073),
  (py!"field_074", same),
  (py!"field_075", same),
  (py!"field_076", same),
  (py!"field_077", same),
  (py!"field_078", same),
  (py!"field_079", same),
  (py!"field_080", same),
  (py!"field_081", same),
  (py!"field_082", field_082),
  (py!"field_083", same),
  (py!"field_084", same),
  (py!"field_085", same),
  (py!"field_086", field_086),
  (py!"field_087", same),
  (py!"field_088", same),
  (py!"field_089", same),
  (py!"field_090", same),
  (py!"field_091", field_091),
  (py!"field_092", field_092),
  (py!"field_093", same),
  (py!"field_094", same),
  (py!"field_095", same),
  (py!"field_096", same),
  (py!"field_097", same),
  (py!"field_098", same),
  (py!"field_099", same),
  (py!"field_100", same),
  (py!"field_101", field_101),
  (py!"field_102", field_102),
  (py!"field_103", field_103),
  (py!"field_104", field_104),
  (py!"field_105", same),
  (py!"field_106", field_106),
  (py!"field_107", same),
  (py!"field_108", field_108),
  (py!"field_109", same),
  (py!"field_110", same),
  (py!"field_111", same),
  (py!"field_112", field_112),
  (py!"field_113", field_113),
  (py!"field_114", same),
  (py!"field_115", same),
  (py!"field_116", same),
  (py!"field_117", field_117),
  (py!"field_118", field_118),
  (py!"field_119", same),
  (py!"field_120", same),
  (py!"field_121", same),
  (py!"field_122", same),
  (py!"field_123", field_123),
  (py!"field_124", same),
  (py!"field_125", same),
  (py!"field_126", same),
  (py!"field_127", field_127),
  (py!"field_128", same),
  (py!"field_129", same),
  (py!"field_130", same),
  (py!"field_131", same),
  (py!"field_132", same),
  (py!"field_133", same),
  (py!"field_134", same),
  (py!"field_135", field_135),
  (py!"field_136", same),
  (py!"field_137", same),
  (py!"field_138", same),
  (py!"field_139", same),
  (py!"field_140", same),
  (py!"field_141", same),
  (py!"field_142", same),
  (py!"field_143", same),
  (py!"field_144", same),
  (py!"field_145", same),
  (py!"field_146", same),
  (py!"field_147", field_147),
  (py!"field_148", same),
  (py!"field_149", same),
  (py!"field_150", same),
  (py!"field_151", same),
  (py!"field_152", same),
  (py!"field_153", same),
  (py!"field_154", same),
  (py!"field_155", same),
  (py!"field_156", same),
  (py!"field_157", same),
  (py!"field_158", same),
  (py!"field_159", same),
  (py!"field_160", same),
  (py!"field_161", field_161),
  (py!"field_162", same),
  (py!"field_163", same),
  (py!"field_164", same),
  (py!"field_165", field_165),
  (py!"field_166", same),
  (py!"field_167", same),
  (py!"field_168", same),
  (py!"field_169", same),
  (py!"field_170", same),
  (py!"field_171", same),
  (py!"field_172", same),
  (py!"field_173", same),
  (py!"field_174", same),
  (py!"field_175", same),
  (py!"field_176", same),
  (py!"field_177", field_177),
  (py!"field_178", field_178),
  (py!"field_179", field_179),
  (py!"field_180", same),
  (py!"field_181", field_181),
  (py!"field_182", field_182),
  (py!"field_183", same),
  (py!"field_184", field_184),
  (py!"field_185", same),
  (py!"field_186", same),
  (py!"field_187", same),
  (py!"field_188", same),
  (py!"field_189", same),
  (py!"field_190", same),
  (py!"field_191", same),
  (py!"field_192", same),
  (py!"field_193", same),
  (py!"field_194", same),
  (py!"field_195", same),
  (py!"field_196", field_196),
  (py!"field_197", same),
  (py!"field_198", field_198),
  (py!"field_199", field_199),
  (py!"field_200", same),
  (py!"field_201", same),
  (py!"field_202", same),
  (py!"field_203", same),
  (py!"field_204", same),
  (py!"field_205", same),
  (py!"field_206", same),
  (py!"field_207", same),
  (py!"field_208", same),
  (py!"field_209", field_209),
  (py!"field_210", same),
  (py!"field_211", same),
  (py!"field_212", same),
  (py!"field_213", same),
  (py!"field_214", same),
  (py!"field_215", same),
  (py!"field_216", same),
  (py!"field_217", same),
  (py!"field_218", same),
  (py!"field_219", same),
  (py!"field_220", same),
  (py!"field_221", same),
  (py!"field_222", same),
  (py!"field_223", same),
  (py!"field_224", same),
  (py!"field_225", same),
  (py!"field_226", same),
  (py!"field_227", same),
  (py!"field_228", same),
  (py!"field_229", same),
  (py!"field_230", same),
  (py!"field_231", same),
  (py!"field_232", same),
  (py!"field_233", same),
  (py!"field_234", same),
  (py!"field_235", same),
  (py!"field_236", same),
  (py!"field_237", same),
  (py!"field_238", same),
  (py!"field_239", same),
  (py!"field_240", field_240),
  (py!"field_241", same),
  (py!"field_242", same),
  (py!"field_243", same),
  (py!"field_244", same),
  (py!"field_245", same),
  (py!"field_246", same),
  (py!"field_247", same),
  (py!"field_248", same),
  (py!"field_249", same),
  (py!"field_250", same),
  (py!"field_251", same),
  (py!"field_252", same),
  (py!"field_253", same),
  (py!"field_254", same),
  (py!"field_255", same),
  (py!"field_256", same),
  (py!"field_257", same),
  (py!"field_258", same),
  (py!"field_259", same),
  (py!"field_260", same),
  (py!"field_261", same),
  (py!"field_262", same),
  (py!"field_263", same),
  (py!"field_264", same),
  (py!"field_265", same),
  (py!"field_266", same),
  (py!"field_267", same),
  (py!"field_268", same),
  (py!"field_269", field_269),
  (py!"field_270", field_270),
  (py!"field_271", same),
  (py!"field_272", same),
  (py!"field_273", same),
  (py!"field_274", same),
  (py!"field_275", same),
  (py!"field_276", same)]

/-- decoder.py:356-379, the statements of the module -/
def decoderModule : Stmt :=
  (.seq (.assign (py!"LegTypeDesc") (.const (.dict (.str (py!"<UNKNOWN>")) [])))
  (.seq (.setItem (py!"LegTypeDesc") (.const (.str (py!"IF"))) (.const (.str (py!"Initial Fix or IF Leg."))))
  (.seq (.setItem (py!"LegTypeDesc") (.const (.str (py!"TF"))) (.const (.str (py!"Track to a Fix or TF Leg."))))
  (.seq (.setItem (py!"LegTypeDesc") (.const (.str (py!"CF"))) (.const (.str (py!"Course to a Fix or CF Leg."))))
  (.seq (.setItem (py!"LegTypeDesc") (.const (.str (py!"DF"))) (.const (.str (py!"Direct to a Fix or DF Leg."))))
  (.seq (.setItem (py!"LegTypeDesc") (.const (.str (py!"FA"))) (.const (.str (py!"Fix to an Altitude or FA Leg."))))
  (.seq (.setItem (py!"LegTypeDesc") (.const (.str (py!"FC"))) (.const (.str (py!"Track from a Fix for a Distance or FC Leg."))))
  (.seq (.setItem (py!"LegTypeDesc") (.const (.str (py!"FD"))) (.const (.str (py!"Track from a Fix to a DME Distance or FD Leg."))))
  (.seq (.setItem (py!"LegTypeDesc") (.const (.str (py!"FM"))) (.const (.str (py!"From a Fix to a Manual termination or FM Leg."))))
  (.seq (.setItem (py!"LegTypeDesc") (.const (.str (py!"CA"))) (.const (.str (py!"Course to an Altitude or CA Leg."))))
  (.seq (.setItem (py!"LegTypeDesc") (.const (.str (py!"CD"))) (.const (.str (py!"Course to a DME Distance or CD Leg."))))
  (.seq (.setItem (py!"LegTypeDesc") (.const (.str (py!"CI"))) (.const (.str (py!"Course to an Intercept or CI Leg."))))
  (.seq (.setItem (py!"LegTypeDesc") (.const (.str (py!"CR"))) (.const (.str (py!"Course to a Radial termination or CR Leg."))))
  (.seq (.setItem (py!"LegTypeDesc") (.const (.str (py!"RF"))) (.const (.str (py!"Constant Radius Arc or RF Leg."))))
  (.seq (.setItem (py!"LegTypeDesc") (.const (.str (py!"AF"))) (.const (.str (py!"Arc to a Fix or AF Leg."))))
  (.seq (.setItem (py!"LegTypeDesc") (.const (.str (py!"VA"))) (.const (.str (py!"Heading to an Altitude termination or VA Leg."))))
  (.seq (.setItem (py!"LegTypeDesc") (.const (.str (py!"VD"))) (.const (.str (py!"Heading to a DME Distance termination or VD Leg."))))
  (.seq (.setItem (py!"LegTypeDesc") (.const (.str (py!"VI"))) (.const (.str (py!"Heading to an Intercept or VI Leg."))))
  (.seq (.setItem (py!"LegTypeDesc") (.const (.str (py!"VM"))) (.const (.str (py!"Heading to a Manual termination or VM Leg."))))
  (.seq (.setItem (py!"LegTypeDesc") (.const (.str (py!"VR"))) (.const (.str (py!"Heading to a Radial termination or VR Leg."))))
  (.seq (.setItem (py!"LegTypeDesc") (.const (.str (py!"PI"))) (.const (.str (py!"045/180 Procedure Turn or PI Leg."))))
  (.seq (.setItem (py!"LegTypeDesc") (.const (.str (py!"HA"))) (.const (.str (py!"Holding pattern (Altitude Termination)"))))
  (.seq (.setItem (py!"LegTypeDesc") (.const (.str (py!"HF"))) (.const (.str (py!"Holding pattern (Single circuit terminating at the fix)"))))
  (.setItem (py!"LegTypeDesc") (.const (.str (py!"HM"))) (.const (.str (py!"Holding pattern (Manual Termination)")))))))))))))))))))))))))))

/-- decoder.py:8-11 -/
def Field_init : Func := ⟨[py!"self", py!"name", py!"value", py!"decode_fn"], [],
  (.seq (.setAttr (py!"self") (py!"name") (.name (py!"name")))
  (.seq (.setAttr (py!"self") (py!"value") (.name (py!"value")))
  (.setAttr (py!"self") (py!"decode_fn") (.name (py!"decode_fn")))))⟩

/-- decoder.py:13-14 -/
def Field_decode : Func := ⟨[py!"self", py!"record"], [],
  (.ret (.invoke (.name (py!"self")) (py!"decode_fn") (.cons (.attr (.name (py!"self")) (py!"value")) (.cons (.name (py!"record")) .nil))))⟩

/-- decoder.py:6-14, class `Field` -/
def Field : Class := ⟨[], [(py!"__init__", Field_init), (py!"decode", Field_decode)]⟩

/-- the functions and the class of decoder.py -/
def decoder : Prog := ⟨decoderFuncs, [(py!"Field", Field)]⟩

end Arinc.Lang.Src
