import Verif.Wire.Xml
/-
Specification: the types of the NSI Connection Service 2.0 schema, as far as messages of OpenNSA use them.

/repo has no schema file. The types are those of the standard (GFD-R.212: framework and connection types, point-to-point services), which the
generated bindings follow (`## Generated by pyxsdgen`, bindings/nsiconnection.py:1, nsiframework.py:1: the types are in the comments of the
constructors, elements that may be missing are those with `if .. is not None`). Nothing here refers to the functions that write messages.

Simplified: `anyURI` is any text; the bounds of numbers are not stated (`int` is 32 bit in the schema); of a time only the form is stated.
-/
namespace OpenNSA.Wire.Schema

/-! ### Simple types -/

/-- A non-empty sequence of digits. -/
def Digits (s : Str) : Prop := s ≠ [] ∧ ∀ c ∈ s, c ∈ ['0', '1', '2', '3', '4', '5', '6', '7', '8', '9']

/-- `xsd:int`, `xsd:long` -/
def IntText (s : Str) : Prop := Digits s ∨ ∃ t, s = '-' :: t ∧ Digits t

/-- The values of `xsd:boolean` that mean true and false. -/
def TrueText (s : Str) : Prop := s = ['t', 'r', 'u', 'e'] ∨ s = ['1']
def FalseText (s : Str) : Prop := s = ['f', 'a', 'l', 's', 'e'] ∨ s = ['0']

/-- `xsd:boolean` -/
def BoolText (s : Str) : Prop := TrueText s ∨ FalseText s

/-- `xsd:dateTime` in UTC: `YYYY-MM-DDThh:mm:ss`, possibly a fraction, and the time zone. -/
def TimeText (s : Str) : Prop :=
  ∃ y mo d h mi sec frac zone : Str,
    s = y ++ ['-'] ++ mo ++ ['-'] ++ d ++ ['T'] ++ h ++ [':'] ++ mi ++ [':'] ++ sec ++ frac ++ zone ∧
    (Digits y ∧ y.length = 4) ∧ (Digits mo ∧ mo.length = 2) ∧ (Digits d ∧ d.length = 2) ∧ (Digits h ∧ h.length = 2) ∧
    (Digits mi ∧ mi.length = 2) ∧ (Digits sec ∧ sec.length = 2) ∧ (frac = [] ∨ ∃ f, frac = '.' :: f ∧ Digits f) ∧
    (zone = ['Z'] ∨ zone = ['+', '0', '0', ':', '0', '0'])

/-- `xsd:string`, `xsd:anyURI` -/
def AnyText (_ : Str) : Prop := True

/-- An enumeration. -/
def OneOf (l : List String) (s : Str) : Prop := ∃ x ∈ l, s = x.toList

/-! ### Elements -/

/-- An attribute of a type: name, whether it is required, and its type. -/
structure Att where
  name : String
  required : Bool
  ok : Str → Prop

/-- The attributes are those of the type, none twice, none missing. -/
def Atts (as : List Att) (l : List (String × Str)) : Prop :=
  (l.map Prod.fst).Nodup ∧ (∀ x ∈ l, ∃ a ∈ as, a.name = x.1 ∧ a.ok x.2) ∧ ∀ a ∈ as, a.required = true → ∃ x ∈ l, x.1 = a.name

/-- An element of a simple type. -/
def Text (p : Str → Prop) (e : Elem) : Prop := e.attrib = [] ∧ e.kids = [] ∧ p (e.text.getD [])

/-- A text with attributes. -/
def TextWith (as : List Att) (p : Str → Prop) (e : Elem) : Prop := Atts as e.attrib ∧ e.kids = [] ∧ p (e.text.getD [])

/-- A part of a sequence: `<element name=.. type=.. minOccurs=.. maxOccurs=..>`. -/
structure Part where
  tag : String
  lo : Nat
  hi : Option Nat
  ok : Elem → Prop

def one (tag : String) (ok : Elem → Prop) : Part := ⟨tag, 1, some 1, ok⟩
def opt (tag : String) (ok : Elem → Prop) : Part := ⟨tag, 0, some 1, ok⟩
def many (tag : String) (ok : Elem → Prop) : Part := ⟨tag, 0, none, ok⟩
def some1 (tag : String) (ok : Elem → Prop) : Part := ⟨tag, 1, none, ok⟩

/-- `<sequence>`: the parts one after the other. -/
inductive Seq : List Part → List Elem → Prop
  | nil : Seq [] []
  | cons {p : Part} {ps : List Part} {a b : List Elem} (lo : p.lo ≤ a.length) (hi : ∀ n, p.hi = some n → a.length ≤ n)
      (ok : ∀ e ∈ a, e.tag = p.tag ∧ p.ok e) (rest : Seq ps b) : Seq (p :: ps) (a ++ b)

/-- An element with attributes and children, and no text. -/
def Node (as : List Att) (ps : List Part) (e : Elem) : Prop := Atts as e.attrib ∧ e.text = none ∧ Seq ps e.kids

/-! ### Types of the connection service -/

/-- `ScheduleType` -/
def Schedule : Elem → Prop := Node [] [opt "startTime" (Text TimeText), opt "endTime" (Text TimeText)]

/-- `P2PServiceBaseType` with `DirectionalityType`, `StpListType`, `OrderedStpType` and `TypeValueType` -/
def P2PS : Elem → Prop := Node []
  [one "capacity" (Text IntText), one "directionality" (Text (OneOf ["Bidirectional", "Unidirectional"])),
   opt "symmetricPath" (Text BoolText), one "sourceSTP" (Text AnyText), one "destSTP" (Text AnyText),
   opt "ero" (Node [] [many "orderedSTP" (Node [⟨"order", true, IntText⟩] [one "stp" (Text AnyText)])]),
   many "parameter" (TextWith [⟨"type", true, AnyText⟩, ⟨"namespace", false, AnyText⟩] AnyText)]

/-- The wildcard of the criteria: the services that are known here. -/
def service : Part := many "{http://schemas.ogf.org/nsi/2013/12/services/point2point}p2ps" P2PS

/-- `DataPlaneStatusType` -/
def DataPlaneStatus : Elem → Prop := Node []
  [one "active" (Text BoolText), one "version" (Text IntText), one "versionConsistent" (Text BoolText)]

/-- `ConnectionStatesType` with `ReservationStateEnumType`, `ProvisionStateEnumType` and `LifecycleStateEnumType` -/
def States : Elem → Prop := Node []
  [one "reservationState" (Text (OneOf ["ReserveStart", "ReserveChecking", "ReserveFailed", "ReserveAborting", "ReserveHeld",
     "ReserveCommitting", "ReserveTimeout"])),
   one "provisionState" (Text (OneOf ["Released", "Provisioning", "Provisioned", "Releasing"])),
   one "lifecycleState" (Text (OneOf ["Created", "Failed", "PassedEndTime", "Terminating", "Terminated"])),
   one "dataPlaneStatus" DataPlaneStatus]

/-- `ServiceExceptionType` with `VariablesType` and `TypeValuePairType`, without child exceptions. -/
def ServiceException : Elem → Prop := Node []
  [one "nsaId" (Text AnyText), opt "connectionId" (Text AnyText), opt "serviceType" (Text AnyText), one "errorId" (Text AnyText),
   one "text" (Text AnyText),
   opt "variables" (Node [] [some1 "variable" (Node [⟨"type", true, AnyText⟩, ⟨"namespace", false, AnyText⟩] [many "value" (Text AnyText)])])]

/-- `ReserveType` with `ReservationRequestCriteriaType`: the version may be missing. -/
def Reserve : Elem → Prop := Node []
  [opt "connectionId" (Text AnyText), opt "globalReservationId" (Text AnyText), opt "description" (Text AnyText),
   one "criteria" (Node [⟨"version", false, IntText⟩] [opt "schedule" Schedule, opt "serviceType" (Text AnyText), service])]

/-- `ReserveConfirmedType` with `ReservationConfirmCriteriaType` -/
def ReserveConfirmed : Elem → Prop := Node []
  [one "connectionId" (Text AnyText), opt "globalReservationId" (Text AnyText), opt "description" (Text AnyText),
   one "criteria" (Node [⟨"version", true, IntText⟩] [one "schedule" Schedule, one "serviceType" (Text AnyText), service])]

/-- `GenericRequestType`, `GenericConfirmedType`, `ReserveResponseType` -/
def Generic : Elem → Prop := Node [] [one "connectionId" (Text AnyText)]

/-- `GenericFailedType` -/
def GenericFailed : Elem → Prop := Node []
  [one "connectionId" (Text AnyText), one "connectionStates" States, one "serviceException" ServiceException]

/-- `ReserveTimeoutRequestType` -/
def ReserveTimeout : Elem → Prop := Node []
  [one "connectionId" (Text AnyText), one "notificationId" (Text IntText), one "timeStamp" (Text TimeText), one "timeoutValue" (Text IntText),
   one "originatingConnectionId" (Text AnyText), one "originatingNSA" (Text AnyText)]

/-- `DataPlaneStateChangeRequestType` -/
def DataPlaneStateChange : Elem → Prop := Node []
  [one "connectionId" (Text AnyText), one "notificationId" (Text IntText), one "timeStamp" (Text TimeText), one "dataPlaneStatus" DataPlaneStatus]

/-- `ErrorEventType` with `EventEnumType` -/
def ErrorEvent : Elem → Prop := Node []
  [one "connectionId" (Text AnyText), one "notificationId" (Text IntText), one "timeStamp" (Text TimeText),
   one "event" (Text (OneOf ["activateFailed", "deactivateFailed", "dataplaneError", "forcedEnd"])),
   one "originatingConnectionId" (Text AnyText), one "originatingNSA" (Text AnyText),
   opt "additionalInfo" (Node [] [many "attribute" (Node [⟨"type", true, AnyText⟩, ⟨"namespace", false, AnyText⟩] [many "value" (Text AnyText)])]),
   opt "serviceException" ServiceException]

/-- `QueryType` -/
def Query : Elem → Prop := Node []
  [many "connectionId" (Text AnyText), many "globalReservationId" (Text AnyText), opt "ifModifiedSince" (Text TimeText)]

/-- `QuerySummaryResultType`, `QueryRecursiveResultType`, which differ in the type of the criteria. -/
def Reservation (criteria : Elem → Prop) : Elem → Prop := Node []
  [one "connectionId" (Text AnyText), opt "globalReservationId" (Text AnyText), opt "description" (Text AnyText),
   many "criteria" criteria, one "requesterNSA" (Text AnyText), one "connectionStates" States,
   opt "notificationId" (Text IntText), opt "resultId" (Text IntText)]

/-- `QuerySummaryResultCriteriaType` with `ChildSummaryListType` and `ChildSummaryType` -/
def SummaryCriteria : Elem → Prop := Node [⟨"version", true, IntText⟩]
  [one "schedule" Schedule, one "serviceType" (Text AnyText),
   opt "children" (Node [] [many "child" (Node [⟨"order", true, IntText⟩]
     [one "connectionId" (Text AnyText), one "providerNSA" (Text AnyText), opt "serviceType" (Text AnyText), service])]),
   service]

/-- `QueryRecursiveResultCriteriaType` with `ChildRecursiveListType` and `ChildRecursiveType`, nested at most so many times. -/
def RecCriteria : Nat → Elem → Prop
  | 0, _ => False
  | n + 1, e => Node [⟨"version", true, IntText⟩]
      [one "schedule" Schedule, one "serviceType" (Text AnyText),
       opt "children" (Node [] [many "child" (Node [⟨"order", true, IntText⟩]
         [one "connectionId" (Text AnyText), one "providerNSA" (Text AnyText), one "connectionStates" States,
          many "criteria" (RecCriteria n)])]),
       service] e

/-- `QuerySummaryConfirmedType` -/
def SummaryConfirmed : Elem → Prop := Node [] [many "reservation" (Reservation SummaryCriteria)]

/-- `QueryRecursiveConfirmedType` -/
def RecursiveConfirmed : Elem → Prop := Node [] [many "reservation" (Reservation fun e => ∃ n, RecCriteria n e)]

/-! ### Messages -/

/-- `CommonHeaderType` with `SessionSecurityAttrType` and SAML's `AttributeType`, for a protocol. The wildcard is the trace of this program. -/
def Header (protocol : String) : Elem → Prop := Node []
  [one "protocolVersion" (Text (OneOf [protocol])), one "correlationId" (Text AnyText), one "requesterNSA" (Text AnyText),
   one "providerNSA" (Text AnyText), opt "replyTo" (Text AnyText),
   many "sessionSecurityAttr" (Node [] [many "{urn:oasis:names:tc:SAML:2.0:assertion}Attribute"
     (Node [⟨"Name", true, AnyText⟩, ⟨"NameFormat", false, AnyText⟩, ⟨"FriendlyName", false, AnyText⟩]
       [many "{urn:oasis:names:tc:SAML:2.0:assertion}AttributeValue" (Text AnyText)])]),
   many "{http://nordu.net/namespaces/2013/12/gnsbod}ConnectionTrace"
     (Node [] [some1 "Connection" (TextWith [⟨"index", true, IntText⟩] AnyText)])]

/-- A SOAP 1.1 message with a header for the protocol and a body. -/
def Envelope (protocol : String) (body : Part) (e : Elem) : Prop :=
  e.tag = "{http://schemas.xmlsoap.org/soap/envelope/}Envelope" ∧
  Node [] [one "{http://schemas.xmlsoap.org/soap/envelope/}Header"
             (Node [] [one "{http://schemas.ogf.org/nsi/2013/12/framework/headers}nsiHeader" (Header protocol)]),
           one "{http://schemas.xmlsoap.org/soap/envelope/}Body" (Node [] [body])] e

/-- A SOAP 1.1 fault with a service exception as detail. -/
def Fault (e : Elem) : Prop :=
  e.tag = "{http://schemas.xmlsoap.org/soap/envelope/}Envelope" ∧
  Node [] [one "{http://schemas.xmlsoap.org/soap/envelope/}Header" (Node [] []),
           one "{http://schemas.xmlsoap.org/soap/envelope/}Body" (Node [] [one "{http://schemas.xmlsoap.org/soap/envelope/}Fault" (Node []
             [one "faultcode" (Text AnyText), one "faultstring" (Text AnyText), opt "faultactor" (Text AnyText),
              opt "detail" (Node [] [one "{http://schemas.ogf.org/nsi/2013/12/framework/types}serviceException" ServiceException])])])] e

/-- The operations of the provider and of the requester with the type of their message. -/
def providerOps : List (String × (Elem → Prop)) :=
  [("reserve", Reserve), ("reserveCommit", Generic), ("reserveAbort", Generic), ("provision", Generic), ("release", Generic),
   ("terminate", Generic), ("querySummary", Query), ("querySummarySync", Query), ("queryRecursive", Query)]
def requesterOps : List (String × (Elem → Prop)) :=
  [("reserveConfirmed", ReserveConfirmed), ("reserveFailed", GenericFailed), ("reserveCommitConfirmed", Generic),
   ("reserveCommitFailed", GenericFailed), ("reserveAbortConfirmed", Generic), ("provisionConfirmed", Generic), ("releaseConfirmed", Generic),
   ("terminateConfirmed", Generic), ("querySummaryConfirmed", SummaryConfirmed), ("queryRecursiveConfirmed", RecursiveConfirmed),
   ("reserveTimeout", ReserveTimeout), ("dataPlaneStateChange", DataPlaneStateChange), ("errorEvent", ErrorEvent)]

/-- A message with its SOAP action is one of an operation: the action is the one of the binding, and the message is valid. -/
def Operation (protocol : String) (ops : List (String × (Elem → Prop))) (action : Str) (e : Elem) : Prop :=
  ∃ o ∈ ops, action = "\"http://schemas.ogf.org/nsi/2013/12/connection/service/".toList ++ o.1.toList ++ ['"'] ∧
    Envelope protocol (one ("{http://schemas.ogf.org/nsi/2013/12/connection/types}" ++ o.1) o.2) e

end OpenNSA.Wire.Schema
