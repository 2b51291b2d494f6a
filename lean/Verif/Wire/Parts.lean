import Verif.Wire.Time
import Verif.Stp.Model
/-
Model of the parts shared by several messages: schedules, point-to-point services, data plane and connection states.
/repo/opennsa/protocols/nsi2/bindings/nsiconnection.py:7-26, 115-137, 476-494; bindings/p2pservices.py:7-106.
-/
namespace OpenNSA.Wire
open Py

/-- The parser of the less common date formats of dateutil: a parameter of everything that reads times (see Time.lean). -/
abbrev Uncommon := Str → Except WireErr ((Int × Int × Int) × Str)

/-- `int(x)` of a text that may be missing. -/
def intOf : Option Str → Except WireErr Int
  | none => .error .typeError
  | some s => match pyInt s with
    | some n => .ok n
    | none => .error .valueError

/-- `int(element.findtext(tag)) if element.find(tag) is not None else None`, as in nsiconnection.py:192-193. -/
def optIntOf : Option Str → Except WireErr (Option Int)
  | none => .ok none
  | some s => match pyInt s with
    | some n => .ok (some n)
    | none => .error .valueError

/-- `'true' if x else 'false'`, nsiconnection.py:23. -/
def boolText (b : Bool) : Str := if b then "true".toList else "false".toList

/-- `str(x)` of an optional integer. -/
def strOfInt : Option Int → Str
  | none => "None".toList
  | some n => showInt n

/-! ### Schedules -/

/-- `nsa.Schedule`, nsa.py:361-371. -/
structure Sched where
  start : Option Int
  end_ : Option Int
  deriving DecidableEq, Repr

/-- `ScheduleType.xml`, nsiconnection.py:488-494, of `createXMLTime` of both times (queryhelper.py:72-74, providerclient.py:73-76). -/
def Sched.xml (s : Sched) (tag : String) : Elem :=
  .mk tag [] none (optLeaf "startTime" (s.start.map createXMLTime) ++ optLeaf "endTime" (s.end_.map createXMLTime))

/-- `parseXMLTimestamp(x) if x is not None else None`, queryhelper.py:112. -/
def optTime (u : Uncommon) : Option Str → Except WireErr (Option Int)
  | none => .ok none
  | some x => match parseXMLTimestamp u x with
    | .ok t => .ok (some t)
    | .error e => .error e

/-- `ScheduleType.build`, nsiconnection.py:482-486, then `buildSchedule`, queryhelper.py:110-114 (the same lines are in
providerservice.py:96-98 and requesterservice.py:73-75). The argument is the result of `element.find('schedule')`. -/
def readSched (u : Uncommon) : Option Elem → Except WireErr Sched
  | none => .error .attributeError
  | some e => match optTime u (e.findtext "startTime") with
    | .error x => .error x
    | .ok s => match optTime u (e.findtext "endTime") with
      | .error x => .error x
      | .ok t => .ok ⟨s, t⟩

/-! ### Data plane and connection states -/

/-- The data plane status `(active, version, consistent)`, a tuple in /repo. -/
structure DPS where
  active : Bool
  version : Option Int
  consistent : Bool
  deriving DecidableEq, Repr

/-- `DataPlaneStatusType.xml`, nsiconnection.py:21-26. -/
def DPS.xml (d : DPS) (tag : String) : Elem :=
  .mk tag [] none [leaf "active" (some (boolText d.active)), leaf "version" (some (strOfInt d.version)),
    leaf "versionConsistent" (some (boolText d.consistent))]

/-- `DataPlaneStatusType.build`, nsiconnection.py:14-19. -/
def readDPS : Option Elem → Except WireErr DPS
  | none => .error .attributeError
  | some e => match intOf (e.findtext "version") with
    | .error x => .error x
    | .ok v => .ok ⟨e.findtext "active" = some "true".toList, some v, e.findtext "versionConsistent" = some "true".toList⟩

/-- The states `(reservation, provision, lifecycle, data plane)`, a tuple in /repo (queryhelper.py:33, 138). -/
structure ConnStates where
  rsm : Option Str
  psm : Option Str
  lsm : Option Str
  dps : DPS
  deriving DecidableEq, Repr

/-- `buildConnectionStatesType`, queryhelper.py:32-36, and `ConnectionStatesType.xml`, nsiconnection.py:131-137. -/
def ConnStates.xml (c : ConnStates) (tag : String) : Elem :=
  .mk tag [] none [leaf "reservationState" c.rsm, leaf "provisionState" c.psm, leaf "lifecycleState" c.lsm, c.dps.xml "dataPlaneStatus"]

/-- `ConnectionStatesType.build`, nsiconnection.py:122-129, and `buildConnectionStates`, queryhelper.py:134-139. -/
def readStates : Option Elem → Except WireErr ConnStates
  | none => .error .attributeError
  | some e => match readDPS (e.find "dataPlaneStatus") with
    | .error x => .error x
    | .ok d => .ok ⟨e.findtext "reservationState", e.findtext "provisionState", e.findtext "lifecycleState", d⟩

/-! ### Point-to-point services -/

/-- `nsa.Point2PointService`, nsa.py:379-392. Parameters are pairs of type and value. -/
structure P2P where
  source : STP
  dest : STP
  capacity : Int
  directionality : Option Str
  symmetric : Option Bool
  ero : Option (List STP)
  parameters : Option (List (Option Str × Option Str))
  deriving DecidableEq, Repr

/-- `str(p2pservices.p2ps)`, p2pservices.py:82-84. -/
def p2psTag : String := "{http://schemas.ogf.org/nsi/2013/12/services/point2point}p2ps"
/-- `str(p2pservices.parameter)`, p2pservices.py:86. -/
def p2pParameterTag : String := "{http://schemas.ogf.org/nsi/2013/12/services/point2point}parameter"

/-- The elements of an ERO: `OrderedStpType.xml`, p2pservices.py:19-22, 74-75. -/
def eroXml : List STP → Nat → List Elem
  | [], _ => []
  | s :: ss, i => .mk "orderedSTP" [("order", showNat i)] none [leaf "stp" (some s.urn)] :: eroXml ss (i + 1)

/-- p2pservices.py:73-75. -/
def eroElem : Option (List STP) → List Elem
  | none => []
  | some l => [.mk "ero" [] none (eroXml l 0)]

/-- p2pservices.py:76-78. A parameter without type makes ElementTree fail at the sender; it is modelled as the empty type. -/
def paramElems : Option (List (Option Str × Option Str)) → List Elem
  | none => []
  | some l => l.map fun p => .mk "parameter" [("type", p.1.getD [])] p.2 []

/-- p2pservices.py:69-70. -/
def symElem : Option Bool → List Elem
  | none => []
  | some b => [leaf "symmetricPath" (some (boolText b))]

/-- `P2PServiceBaseType.xml`, p2pservices.py:65-79, of the given ERO and parameters. -/
def P2P.xml (p : P2P) (ero : Option (List STP)) (params : Option (List (Option Str × Option Str))) (tag : String) : Elem :=
  .mk tag [] none
    ([leaf "capacity" (some (showInt p.capacity)), leaf "directionality" p.directionality] ++ symElem p.symmetric ++
     [leaf "sourceSTP" (some p.source.urn), leaf "destSTP" (some p.dest.urn)] ++ eroElem ero ++ paramElems params)

/-- The object `P2PServiceBaseType` at the receiver, p2pservices.py:44-51. -/
structure P2PIn where
  capacity : Int
  directionality : Option Str
  symmetric : Option Bool
  source : Option Str
  dest : Option Str
  ero : Option (List (Option Str × Option Str))
  parameter : Option (List (Option Str × Option Str))
  deriving DecidableEq, Repr

/-- p2pservices.py:58. -/
def readSym : Option Str → Option Bool
  | none => none
  | some x => some (x = "true".toList)

/-- p2pservices.py:62. -/
def readParams (e : Elem) : Option (List (Option Str × Option Str)) :=
  match e.findall "parameter" with
  | [] => none
  | p :: ps => some ((p :: ps).map fun x => (x.get "type", x.text))

/-- `P2PServiceBaseType.build`, p2pservices.py:54-63. -/
def buildP2P (e : Elem) : Except WireErr P2PIn :=
  match intOf (e.findtext "capacity") with
  | .error x => .error x
  | .ok c => .ok
    { capacity := c, directionality := e.findtext "directionality", symmetric := readSym (e.findtext "symmetricPath"),
      source := e.findtext "sourceSTP", dest := e.findtext "destSTP",
      ero := (e.find "ero").map fun x => x.kids.map fun o => (o.get "order", o.findtext "stp"),              -- line 61
      parameter := readParams e }

/-- What `parseElement`, p2pservices.py:95-106, gives: a service or a single parameter. -/
inductive SvcDef
  | p2p (p : P2PIn)
  | parameter
  deriving DecidableEq, Repr

/-- `p2pservices.parseElement`, p2pservices.py:95-106. -/
def parseSvcDef (e : Elem) : Except WireErr SvcDef :=
  if e.tag = p2psTag then match buildP2P e with
    | .ok p => .ok (.p2p p)
    | .error x => .error x
  else if e.tag = p2pParameterTag then .ok .parameter
  else .error .valueError

/-- `service_defs[0]` of the elements that have none of the tags `skip` (nsiconnection.py:152, 157; 558, 564; 731, 737). All of
them are parsed. -/
def readSvcDef (skip : List String) (e : Elem) : Except WireErr SvcDef :=
  match (e.kids.filter fun k => k.tag ∉ skip).mapM parseSvcDef with
  | .error x => .error x
  | .ok [] => .error .indexError
  | .ok (d :: _) => .ok d

/-- `helper.createSTP` of a text that may be missing. -/
def readSTP : Option Str → Except WireErr STP
  | none => .error .attributeError
  | some s => match createSTP s with
    | .ok x => .ok x
    | .error .payload => .error .payloadError
    | .error _ => .error .valueError

/-- `helper.createSTP` of both ends and the service built of them without ERO: queryhelper.py:125-127, requesterservice.py:83-89
(there without parameters) and providerservice.py:100-113. -/
def readP2P (p : P2PIn) (sym : Option Bool) (params : Option (List (Option Str × Option Str))) : Except WireErr P2P :=
  match readSTP p.source with
  | .error x => .error x
  | .ok s => match readSTP p.dest with
    | .error x => .error x
    | .ok d => match p.directionality with
      | none => .error .payloadError                     -- nsa.py:383-384: MissingParameterError
      | some dir => .ok ⟨s, d, p.capacity, some dir, sym, none, params⟩

/-- `constants.EVTS_AGOLE`, constants.py:26 -/
def evtsAgole : Str := "http://services.ogf.org/nsi/2013/07/descriptions/EVTS.A-GOLE".toList

end OpenNSA.Wire
