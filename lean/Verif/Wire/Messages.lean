import Verif.Wire.Parts
import Verif.Wire.Errors
/-
Model of requests, confirmations, failures and notifications on the wire.

requesterclient.py:87-127 and providerservice.py:58-120 (reserve); providerclient.py:25-166 and requesterservice.py:51-142, 205-225
(confirmations, failures, notifications); bindings nsiconnection.py:46-71, 99-112, 140-169, 252-276, 308-330, 445-473, 545-589, 750-769.
-/
namespace OpenNSA.Wire
open Py

/-- Tags of nsiconnection.py:876-912. -/
def ctag (name : String) : String := "{http://schemas.ogf.org/nsi/2013/12/connection/types}" ++ name

/-- A reservation as the program gives it to `reserve` and receives it: ids, description and `nsa.Criteria` (nsa.py:341-346).
The revision is a number or a text; it is modelled by its text (`str(version)`, nsiconnection.py:162, 568), which is what the
receiver has (lines 154, 560), also if the sender had a number. -/
structure Resv where
  cid : Option Str
  gid : Option Str
  description : Option Str
  revision : Option Str
  schedule : Sched
  sd : P2P
  deriving DecidableEq, Repr

/-! ### Reserve -/

/-- `t.replace(tzinfo=UTC()).isoformat()`, requesterclient.py:100, 106. -/
def utcText (t : Int) : Str := isoformat (ofInstant t) ++ "+00:00".toList

/-- `params`, requesterclient.py:113. -/
def sentParams (p : P2P) : Option (List (Option Str × Option Str)) := truthy p.parameters

/-- `service_type`, requesterclient.py:120 -/
def requestType : Str := "http://services.ogf.org/nsi/2013/12/descriptions/EVTS.A-GOLE".toList

/-- `RequesterClient.reserve`, requesterclient.py:87-126, and `ReserveType.xml`, `ReservationRequestCriteriaType.xml`,
nsiconnection.py:62-71, 160-169. -/
def Resv.requestXml (r : Resv) : Elem :=
  .mk (ctag "reserve") [] none
    (optLeaf "connectionId" r.cid ++ optLeaf "globalReservationId" r.gid ++ optLeaf "description" r.description ++
     [.mk "criteria" [("version", strOf r.revision)] none
       [.mk "schedule" [] none (optLeaf "startTime" (r.schedule.start.map utcText) ++ optLeaf "endTime" (r.schedule.end_.map utcText)),
        leaf "serviceType" (some requestType),
        r.sd.xml r.sd.ero (sentParams r.sd) p2psTag]])

/-- What the provider service does with a reserve request: it returns a fault or passes the reservation on. -/
inductive ReserveIn
  | fault (cls : ErrClass)
  | passed (r : Resv)
  deriving DecidableEq, Repr

/-- `ProviderService.reserve`, providerservice.py:58-120, with `ReserveType.build` and `ReservationRequestCriteriaType.build`,
nsiconnection.py:54-60, 149-158. -/
def readReserve (u : Uncommon) (e : Elem) : Except WireErr ReserveIn :=
  match e.find "criteria" with
  | none => .error .typeError                                                -- iteration over None, nsiconnection.py:152
  | some c => match readSvcDef ["schedule", "serviceType"] c with
    | .error x => .error x
    | .ok .parameter => .ok (.fault .payloadError)                           -- lines 86-88
    | .ok (.p2p p) =>
      if p.directionality = none ∨ p.directionality = some [] then .ok (.fault .missingParameterError)   -- lines 90-92
      else match readSched u (c.find "schedule") with                        -- lines 96-98
        | .error x => .error x
        | .ok s => match readP2P p (some (p.symmetric.getD false)) (truthy p.parameter) with   -- 100-101, 111-113
          | .error x => .error x
          | .ok sd => match p.ero with
            | some (_ :: _) => .ok (.fault .payloadError)                    -- lines 103-105
            | _ => .ok (.passed
              { cid := e.findtext "connectionId", gid := e.findtext "globalReservationId", description := e.findtext "description",
                revision := c.get "version", schedule := s, sd := sd })      -- lines 115, 120

/-! ### reserveConfirmed -/

/-- `ProviderClient.reserveConfirmed`, providerclient.py:69-87, and `ReserveConfirmedType.xml`, `ReservationConfirmCriteriaType.xml`,
nsiconnection.py:268-276, 567-573. -/
def Resv.confirmXml (r : Resv) : Elem :=
  .mk (ctag "reserveConfirmed") [] none
    (leaf "connectionId" r.cid :: (optLeaf "globalReservationId" r.gid ++ optLeaf "description" r.description ++
     [.mk "criteria" [("version", strOf r.revision)] none
       [r.schedule.xml "schedule", leaf "serviceType" (some evtsAgole),
        r.sd.xml none (some []) p2psTag]]))

/-- `RequesterService.reserveConfirmed`, requesterservice.py:65-92, with `ReserveConfirmedType.build` and
`ReservationConfirmCriteriaType.build`, nsiconnection.py:260-266, 554-565. -/
def readReserveConfirmed (u : Uncommon) (e : Elem) : Except WireErr Resv :=
  match e.find "criteria" with
  | none => .error .typeError
  | some c => match readSvcDef ["schedule", "serviceType"] c with
    | .error x => .error x
    | .ok d => match readSched u (c.find "schedule") with                    -- lines 73-75
      | .error x => .error x
      | .ok s => match d with
        | .parameter => .error .valueError                                   -- lines 79-80
        | .p2p p => match readP2P p p.symmetric none with                    -- lines 83-89
          | .error x => .error x
          | .ok sd => .ok
            { cid := e.findtext "connectionId", gid := e.findtext "globalReservationId", description := e.findtext "description",
              revision := c.get "version", schedule := s, sd := sd }         -- lines 90-92

/-! ### Requests and confirmations that carry only the connection id -/

/-- `GenericConfirmedType.xml`, `GenericRequestType.xml` and `ReserveResponseType.xml`, nsiconnection.py:109-112, 302-305, 586-589. -/
def genericXml (tag : String) (cid : Option Str) : Elem := .mk tag [] none [leaf "connectionId" cid]

/-- `GenericConfirmedType.build` etc., nsiconnection.py:104-107, 297-300, 581-584. -/
def readGeneric (e : Elem) : Option Str := e.findtext "connectionId"

/-! ### Failures -/

/-- `ProviderClient._genericFailure`, providerclient.py:43-56, and `GenericFailedType.xml`, nsiconnection.py:764-769. -/
def failureXml (tag : String) (provider : Option Str) (cid : Option Str) (st : ConnStates) (err : AnyError) : Elem :=
  .mk tag [] none [leaf "connectionId" cid, st.xml "connectionStates", (createServiceException err provider none none).xml "serviceException"]

/-- `RequesterService._parseGenericFailure`, requesterservice.py:51-62, with `GenericFailedType.build`, nsiconnection.py:757-762. -/
def readFailure (provider : Option Str) (e : Elem) : Except WireErr (Option Str × ConnStates × NSIErrorIn) :=
  match readStates (e.find "connectionStates") with
  | .error x => .error x
  | .ok st => match e.find "serviceException" with
    | none => .error .attributeError
    | some s => match createException (buildSvcEx s) provider with
      | .error x => .error x
      | .ok ex => .ok (e.findtext "connectionId", st, ex)

/-! ### Notifications -/

/-- The arguments of `reserveTimeout`, providerclient.py:144-145 and requesterservice.py:223. -/
structure TimeoutMsg where
  cid : Option Str
  notificationId : Int
  timestamp : Int
  timeout : Int
  origCid : Option Str
  origNsa : Option Str
  deriving DecidableEq, Repr

/-- `ProviderClient.reserveTimeout`, providerclient.py:144-151, and `ReserveTimeoutRequestType.xml`, nsiconnection.py:465-473. -/
def TimeoutMsg.xml (m : TimeoutMsg) : Elem :=
  .mk (ctag "reserveTimeout") [] none
    [leaf "connectionId" m.cid, leaf "notificationId" (some (showInt m.notificationId)), leaf "timeStamp" (some (createXMLTime m.timestamp)),
     leaf "timeoutValue" (some (showInt m.timeout)), leaf "originatingConnectionId" m.origCid, leaf "originatingNSA" (some (strOf m.origNsa))]

/-- `RequesterService.reserveTimeout`, requesterservice.py:217-225, with `ReserveTimeoutRequestType.build`, nsiconnection.py:455-463. -/
def readTimeout (u : Uncommon) (e : Elem) : Except WireErr TimeoutMsg :=
  match intOf (e.findtext "notificationId") with
  | .error x => .error x
  | .ok n => match intOf (e.findtext "timeoutValue") with
    | .error x => .error x
    | .ok v => match e.findtext "timeStamp" with
      | none => .error .typeError
      | some t => match parseXMLTimestamp u t with
        | .error x => .error x
        | .ok ts => .ok ⟨e.findtext "connectionId", n, ts, v, e.findtext "originatingConnectionId", e.findtext "originatingNSA"⟩

/-- `ProviderClient.dataPlaneStateChange`, providerclient.py:159-167, and `DataPlaneStateChangeRequestType.xml`,
nsiconnection.py:324-330. -/
def dataPlaneXml (cid : Option Str) (nid : Int) (timestamp : Int) (d : DPS) : Elem :=
  .mk (ctag "dataPlaneStateChange") [] none
    [leaf "connectionId" cid, leaf "notificationId" (some (showInt nid)), leaf "timeStamp" (some (createXMLTime timestamp)), d.xml "dataPlaneStatus"]

/-- `RequesterService.dataPlaneStateChange`, requesterservice.py:205-214, with `DataPlaneStateChangeRequestType.build`,
nsiconnection.py:316-322. The time stamp is passed on as the text of the message. -/
def readDataPlane (e : Elem) : Except WireErr (Option Str × Int × Option Str × DPS) :=
  match intOf (e.findtext "notificationId") with
  | .error x => .error x
  | .ok n => match readDPS (e.find "dataPlaneStatus") with
    | .error x => .error x
    | .ok d => .ok (e.findtext "connectionId", n, e.findtext "timeStamp", d)

end OpenNSA.Wire
