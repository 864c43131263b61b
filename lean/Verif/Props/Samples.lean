import Verif.Spec.Shape
import Verif.Model.Api
import Verif.Model.Json
import Verif.Py.Cpython311
/-!
Sample lines (from /repo/data/ARINC-424-18, or edited from them) used by the
non-vacuity examples. Not part of the model.
-/
namespace Sample
open Py

/-- data/ARINC-424-18/airport -/
def airport : Str := py!"SUSAP KSEAK1ASEA     110000119Y N47265700W122182910E019900429250SEA K11800018000CU00Y NAS    SEATTLE-TACOMA INTL           045698808"
/-- the same with continuation number 2 and application type A: a notes record -/
def airportCont : Str := py!"SUSAP KSEAK1ASEA     2A0000119Y N47265700W122182910E019900429250SEA K11800018000CU00Y NAS    SEATTLE-TACOMA INTL           045698808"
/-- the same with continuation number 2 and the unsupported application type Z -/
def airportContZ : Str := py!"SUSAP KSEAK1ASEA     2Z0000119Y N47265700W122182910E019900429250SEA K11800018000CU00Y NAS    SEATTLE-TACOMA INTL           045698808"
/-- the same with a blank continuation number -/
def airportBadCont : Str := py!"SUSAP KSEAK1ASEA      10000119Y N47265700W122182910E019900429250SEA K11800018000CU00Y NAS    SEATTLE-TACOMA INTL           045698808"
/-- the same with section P, subsection Z -/
def noSection : Str := py!"SUSAP KSEAK1ZSEA     110000119Y N47265700W122182910E019900429250SEA K11800018000CU00Y NAS    SEATTLE-TACOMA INTL           045698808"
/-- data/ARINC-424-18/navaid_vhf -/
def vhf : Str := py!"SUSAD        ACV   K2111020VDTA N40585370W124062570    N40585370W124062570E0170001910  256NASARCATA                        015638502"
/-- the same with a letter in the frequency -/
def vhfBadFreq : Str := py!"SUSAD        ACV   K2111O20VDTA N40585370W124062570    N40585370W124062570E0170001910  256NASARCATA                        015638502"
/-- data/ARINC-424-18/navaid_ndb -/
def ndb : Str := py!"SUSADB       ARU   K2102150H MW N41281600W120332500                       E0180           NASALTURAS                       019768110"
/-- a terminal NDB (PN): the NDB line with section P, airport ident and subsection N -/
def terminalNdb : Str := py!"SUSAP KSEAK1NARU   K2102150H MW N41281600W120332500                       E0180           NASALTURAS                       019768110"
/-- data/ARINC-424-18/enroute_airway -/
def airway : Str := py!"SUSAER       C1415       0010F0T  K2D 0V    CB AA                   252012400000 UNKNN     FL450                           030308803"
/-- the same as a continuation record with unsupported application type Z -/
def airwayContZ : Str := py!"SUSAER       C1415       0010F0T  K2D 2Z    CB AA                   252012400000 UNKNN     FL450                           030308803"
/-- data/ARINC-424-18/enroute_airway_restricted: a primary record (continuation number 0) -/
def restriction : Str := py!"SUSAEUJ20   001TC0YKM  K1D SEA  K1D 31JAN9031MAR90CS1707001700                              A0                             031918913"
/-- the same with restriction type SC -/
def restrictionSC : Str := py!"SUSAEUJ20   001SC0YKM  K1D SEA  K1D 31JAN9031MAR90CS1707001700                              A0                             031918913"
/-- data/ARINC-424-18/mora -/
def mora : Str := py!"S   AS       N36W120          105168135095143104104116112105122117107139155116111073052046046034030033037035038030027023   000018708"
/-- data/ARINC-424-18/cruising_tables -/
def cruise : Str := py!"S   TCA01                   36001790M  0200002000280002800003000310003100004000UNLTD                                       000358706"
/-- data/ARINC-424-18/sids -/
def sid : Str := py!"SUSAP KSEAK1DMOUNT12ALL   010ELN  K1D 1VE     IF                                         18000                             045968507"
/-- a heliport terminal waypoint continuation record with application type Z -/
def heliWaypointContZ : Str := py!"SUSAH KSEAK1CANVIL K12Z   RCF   N47370820W122183010                       E0201                P   ANVIL                   045728804"
/-- data/ARINC-424-18/fir_uir -/
def fir : Str := py!"SUSAUFKZSEZQZXF00100CZVR    13N G N48200000W128000000                           17999          AA SEATTLE                  059648809"
/-- data/ARINC-424-18/gates -/
def gate : Str := py!"TXYZP KSEAK1BABCDE   0          N47263000W122180600                                               CENTER CONCOURSE 8737-300064158813"
/-- data/ARINC-424-18/enroute_holding -/
def holding : Str := py!"SUSAEPENRT                 10AVE  K2D 01300R   1518000FL450                                       AVENAL                   030038904"
/-- a MORA line that, shifted by one column, is a waypoint line -/
def shifty : Str := py!"S  EAS       N36W120 0        105168135095143104104116112105122117107139155116111073052046046034030033037035038030027023   000018708"
/-- the same with an undocumented path terminator -/
def sidBadLeg : Str := py!"SUSAP KSEAK1DMOUNT12ALL   010ELN  K1D 1VE     XX                                         18000                             045968507"

/-- a company route -/
def route : Str := py!"SUSAR KSEA  K1PAKLAX  K2PASEALAX01  010AWYJ1       BTG   K1                  KSFOK20300                                    012348801"

/-- a holding pattern continuation record -/
def holdingCont : Str := py!"SUSAEPENRT                 10AVE  K2D 2AHOLD EAST ONLY                                                                     000018804"
/-- a terminal arrival altitude (PK) record -/
def taa : Str := py!"SUSAP KSEAK1KR16R  ANVILK1PCC1          M0030360090020                                                                     000018804"
/-- its continuation record -/
def taaCont : Str := py!"SUSAP KSEAK1KR16R  ANVILK1PCC2A        SOME NOTES                                                                          000018804"
/-- a GLS record -/
def gls : Str := py!"SUSAP KSEAK1TG16R  1 112345                                                                                                000018804"
/-- an airport flight planning continuation record -/
def airportContP : Str := py!"SUSAP KSEAK1ASEA     2PKZSE                                                                                                000018804"

/-- no record, but with a blank in front a VHF navaid -/
def shiftyVhf : Str := py!"SUSD        ACV   K2111020VDTA N40585370W124062570    N40585370W124062570E0170001910  256NASARCATA                         015638502"

/-- the airport with a blank IFR capability and transition altitude -/
def airportBlank : Str := py!"SUSAP KSEAK1ASEA     110000119  N47265700W122182910E019900429250SEA K1     18000CU00Y NAS    SEATTLE-TACOMA INTL           045698808"

/-- A line of section `k`, primary or continuation, with application type `a`; all columns that do not
    decide how it is read have different characters. -/
def lineOf (k : Str) (primary : Bool) (a : Str) : Str :=
  let split := k.head? = some 80 || k.head? = some 72
  (List.range 132).map fun i =>
    if i = 0 then 83
    else if i = 4 then k.headD 32
    else if i = 5 then (if split then 32 else k.getD 1 32)
    else if i = 12 && split then k.getD 1 32
    else if Spec.contColumn k = some i then (if primary then 48 else 50)
    else match (Spec.appColumns k).idxOf? i with
      | some j => a.getD j 32
      | none => if 123 ≤ i then 48 + (i - 123) else 256 + i

end Sample
