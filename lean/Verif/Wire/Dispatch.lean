import Verif.Wire.Header
import Verif.Wire.Messages
import Verif.Wire.Query
/-
Model of the way of a call from one agent to another: which SOAP action and body a client sends
(protocols/nsi2/requesterclient.py:87-241, providerclient.py:25-227), which decoder the receiving resource runs for an action
(protocols/shared/soapresource.py:43-45, 88-149; bindings/actions.py) and which method is called with what
(protocols/nsi2/providerservice.py:26-209, requesterservice.py:19-229).
-/
namespace OpenNSA.Wire
open Py

/-- The actions of bindings/actions.py, all of which have this form except `QUERY_RESULT_CONFIRMED` (line 39), which is not used. -/
def soapAction (name : Str) : Str := "\"http://schemas.ogf.org/nsi/2013/12/connection/service/".toList ++ (name ++ ['"'])

/-- constants.py:19-20 -/
def cs2Requester : Str := "application/vnd.ogf.nsi.cs.v2.requester+soap".toList
def cs2Provider : Str := "application/vnd.ogf.nsi.cs.v2.provider+soap".toList

/-! ### The type of a body -/

/-- The classes of bindings/nsiconnection.py that a body can become. -/
inductive BType
  | genericFailed | genericRequest | genericConfirmed | serviceException | queryResult | reserve | messageDeliveryTimeout | reserveResponse
  | query | dataPlaneStateChange | queryNotification | genericError | acknowledgment | reserveConfirmed | queryNotificationConfirmed
  | errorEvent | reserveTimeout | querySummaryConfirmed | queryRecursiveConfirmed
  deriving DecidableEq, Repr

/-- `type_map`, nsiconnection.py:923-959. -/
def typeMap : List (String × BType) :=
  [(ctag "reserveCommitFailed", .genericFailed), (ctag "terminate", .genericRequest), (ctag "provisionConfirmed", .genericConfirmed),
   (ctag "provision", .genericRequest), (serviceExceptionTag, .serviceException), (ctag "serviceException", .serviceException),
   (ctag "release", .genericRequest), (ctag "queryResult", .queryResult), (ctag "reserve", .reserve),
   (ctag "messageDeliveryTimeout", .messageDeliveryTimeout), (ctag "reserveAbortConfirmed", .genericConfirmed),
   (ctag "reserveResponse", .reserveResponse), (ctag "querySummarySync", .query), (ctag "querySummary", .query),
   (ctag "dataPlaneStateChange", .dataPlaneStateChange), (ctag "queryNotification", .queryNotification),
   (ctag "terminateConfirmed", .genericConfirmed), (ctag "error", .genericError), (ctag "reserveAbort", .genericRequest),
   (ctag "reserveFailed", .genericFailed), (ctag "reserveCommitConfirmed", .genericConfirmed), (ctag "reserveCommit", .genericRequest),
   (ctag "acknowledgment", .acknowledgment), (ctag "releaseConfirmed", .genericConfirmed), (ctag "reserveConfirmed", .reserveConfirmed),
   (ctag "queryNotificationSync", .queryNotification), (ctag "queryNotificationSyncConfirmed", .queryNotificationConfirmed),
   (ctag "errorEvent", .errorEvent), (ctag "queryNotificationConfirmed", .queryNotificationConfirmed),
   (ctag "reserveTimeout", .reserveTimeout), (ctag "queryResultSync", .queryResult), (ctag "queryRecursive", .query),
   (ctag "querySummarySyncConfirmed", .querySummaryConfirmed), (ctag "querySummaryConfirmed", .querySummaryConfirmed),
   (ctag "queryRecursiveConfirmed", .queryRecursiveConfirmed)]

/-- What becomes of a message. -/
inductive Outcome (α : Type)
  /-- 406, soapresource.py:96-99 -/
  | notAcceptable
  /-- the decoder raises: 500 with a SOAP fault, soapresource.py:129-145 -/
  | failed (e : WireErr)
  /-- the decoder returns a fault without calling anything, providerservice.py:86-105 -/
  | fault (c : ErrClass)
  /-- a method is called -/
  | called (h : HeaderIn) (c : α)
  /-- the decoder is given a body of a class it is not written for. What its attributes are then is not modelled. -/
  | foreign (t : BType)
  deriving DecidableEq, Repr

/-- The body of a message: `parseRequest`, helper.py:151-156, and `parseElement`, nsiconnection.py:961-965. Without a body it is `None`, and
with several it is a list; neither has the attributes the decoders ask for. Simplified: the errors of `build` are part of the decoders
below. -/
def bodyOf : List Elem → Except WireErr (BType × Elem)
  | [] => .error .attributeError
  | [e] => match dget typeMap e.tag with
    | none => .error .valueError                                             -- line 962
    | some t => .ok (t, e)
  | es => if es.all fun e => (dget typeMap e.tag).isSome then .error .attributeError else .error .valueError

/-- Header and body of a message, handed to the rest of a decoder. `fresh`: see `parseHeader`. -/
def withBody {α : Type} (fresh : Str) (env : Elem) (k : HeaderIn → BType → Elem → Outcome α) : Outcome α :=
  match parseRequest fresh env with
  | .error x => .failed x
  | .ok (hd, bodies) => match bodyOf bodies with
    | .error x => .failed x
    | .ok (t, e) => k hd t e

/-- `SOAPResource.render_POST` after the checks of `soapGate`, soapresource.py:88-149: the decoder registered for the action, if any, runs. A
body that is not XML at all is not modelled (500). -/
def post {α μ : Type} (decoders : List (Str × μ)) (decode : μ → Elem → Outcome α) (action : Option Str) (env : Elem) : Outcome α :=
  match action.bind (dget decoders) with
  | none => .notAcceptable                                                   -- lines 96-99
  | some m => decode m env

/-- `registerDecoder`, soapresource.py:43-45, one after the other. -/
def register {μ : Type} (l : List (Str × μ)) : List (Str × μ) := l.foldl (fun d x => dset d x.1 x.2) []

/-! ### Requests -/

/-- The requests that carry a connection id only. -/
inductive GOp
  | reserveCommit | reserveAbort | provision | release | terminate
  deriving DecidableEq, Repr

/-- The queries. -/
inductive QOp
  | querySummary | querySummarySync | queryRecursive
  deriving DecidableEq, Repr

/-- A call of a method of `RequesterClient`, as far as it is sent: requesterclient.py:87, 138, 149, 161, 172, 182, 192, 208, 227. -/
inductive PCall
  | reserve (r : Resv)
  | generic (o : GOp) (cid : Str)
  | query (o : QOp) (cids gids : Option (List Str))
  deriving DecidableEq, Repr

/-- The action of each request. -/
def PCall.action : PCall → Str
  | .reserve _ => soapAction "reserve".toList                                -- requesterclient.py:133
  | .generic .reserveCommit _ => soapAction "reserveCommit".toList           -- line 144
  | .generic .reserveAbort _ => soapAction "reserveAbort".toList             -- line 155
  | .generic .provision _ => soapAction "provision".toList                   -- line 166
  | .generic .release _ => soapAction "release".toList                       -- line 177
  | .generic .terminate _ => soapAction "terminate".toList                   -- line 187
  | .query .querySummary _ _ => soapAction "querySummary".toList             -- line 203
  | .query .querySummarySync _ _ => soapAction "querySummarySync".toList     -- line 222
  | .query .queryRecursive _ _ => soapAction "queryRecursive".toList         -- line 238

/-- `QueryType.xml`, nsiconnection.py:812-820. -/
def queryXml (tag : String) (cids gids : Option (List Str)) : Elem :=
  .mk tag [] none ((cids.getD []).map (fun c => leaf "connectionId" (some c)) ++ (gids.getD []).map fun g => leaf "globalReservationId" (some g))

/-- The body of each request. -/
def PCall.body : PCall → Elem
  | .reserve r => r.requestXml
  | .generic .reserveCommit c => genericXml (ctag "reserveCommit") (some c)  -- line 142
  | .generic .reserveAbort c => genericXml (ctag "reserveAbort") (some c)    -- line 153
  | .generic .provision c => genericXml (ctag "provision") (some c)          -- line 165
  | .generic .release c => genericXml (ctag "release") (some c)              -- line 176
  | .generic .terminate c => genericXml (ctag "terminate") (some c)          -- line 186
  | .query .querySummary cs gs => queryXml (ctag "querySummary") cs gs       -- lines 198-199
  | .query .querySummarySync cs gs => queryXml (ctag "querySummarySync") cs gs      -- lines 217-218
  | .query .queryRecursive cs gs => queryXml (ctag "queryRecursive") cs gs   -- lines 233-234

/-- The message: `convertProviderHeader(header, self.reply_to)`, helper.py:66-67, and `createSoapPayload`, as the receiver sees it. The reply
address is the one of the client, whatever the header says. -/
def PCall.message (c : PCall) (replyTo : Str) (h : NHeader) : Elem :=
  wire (soapPayload [c.body] [createHeader { h with replyTo := some replyTo } cs2Provider])

/-- A call of a method of the provider, providerservice.py:120, 141-209, as far as it depends on the message. -/
inductive PIn
  | reserve (r : Resv)
  | generic (o : GOp) (cid : Option Str)
  | query (o : QOp) (cids gids : List (Option Str))
  deriving DecidableEq, Repr

/-- The methods of `ProviderService` that are registered as decoders. -/
inductive PDecoder
  | reserve | generic (o : GOp) | query (o : QOp)
  deriving DecidableEq, Repr

/-- `ProviderService.__init__`, providerservice.py:26-42. -/
def providerDecoders : List (Str × PDecoder) := register
  [(soapAction "reserve".toList, .reserve), (soapAction "reserveCommit".toList, .generic .reserveCommit),
   (soapAction "reserveAbort".toList, .generic .reserveAbort), (soapAction "provision".toList, .generic .provision),
   (soapAction "release".toList, .generic .release), (soapAction "terminate".toList, .generic .terminate),
   (soapAction "querySummary".toList, .query .querySummary), (soapAction "querySummarySync".toList, .query .querySummarySync),
   (soapAction "queryRecursive".toList, .query .queryRecursive)]

/-- The decoders of `ProviderService`, providerservice.py:58-209: the method of the provider that is called with header and arguments. -/
def providerDecode (u : Uncommon) (fresh : Str) (d : PDecoder) (env : Elem) : Outcome PIn :=
  withBody fresh env fun hd t e =>
    match d with
    | .reserve =>
      if t = .reserve then match readReserve u e with
        | .error x => .failed x
        | .ok (.fault c) => .fault c
        | .ok (.passed r) => .called hd (.reserve r)                         -- line 120
      else .foreign t
    | .generic o =>                                                          -- lines 140-143, 147-150, 154-157, 161-164, 168-172
      if t = .genericRequest ∨ t = .genericConfirmed ∨ t = .reserveResponse then .called hd (.generic o (readGeneric e)) else .foreign t
    | .query o =>                                                            -- lines 176-180, 196-199, 203-207; QueryType.build, nsiconnection.py:806-810
      if t = .query then .called hd (.query o ((e.findall "connectionId").map Elem.text) ((e.findall "globalReservationId").map Elem.text))
      else .foreign t

/-- What happens at the provider for a message with this action. -/
def providerPost (u : Uncommon) (fresh : Str) : Option Str → Elem → Outcome PIn := post providerDecoders (providerDecode u fresh)

/-! ### Answers to requests -/

/-- `createReserveAcknowledgement`, providerservice.py:122-131. -/
def reserveAnswer (h : HeaderIn) (cid : Str) : Elem :=
  soapPayload [genericXml (ctag "reserveResponse") (some cid)]
    [createHeader { requesterNSA := strOf h.requesterNSA, providerNSA := strOf h.providerNSA, correlationId := strOf h.correlationId, replyTo := none,
                    securityAttributes := [], connectionTrace := none } cs2Provider]

/-- `_handleAck`, requesterclient.py:129-131: what the caller of `reserve` is given. -/
def readReserveAnswer (fresh : Str) (env : Elem) : Except WireErr (Option Str) :=
  match parseRequest fresh env with
  | .error x => .error x
  | .ok (_, bodies) => match bodyOf bodies with
    | .error x => .error x
    | .ok (t, e) => if t = .reserveResponse then .ok (readGeneric e) else .error .attributeError

/-! ### Replies and notifications -/

/-- The confirmations that carry a connection id only. -/
inductive COp
  | reserveCommitConfirmed | reserveAbortConfirmed | provisionConfirmed | releaseConfirmed | terminateConfirmed
  deriving DecidableEq, Repr

/-- The failures. -/
inductive FOp
  | reserveFailed | reserveCommitFailed
  deriving DecidableEq, Repr

/-- A service exception as `errorEvent` is given it: a tuple, requesterservice.py:194. -/
structure EventError where
  nsaId : Option Str
  connectionId : Option Str
  errorId : Option Str
  text : Option Str
  deriving DecidableEq, Repr

/-- The arguments of `errorEvent`, providerclient.py:175-176. -/
structure EventMsg where
  cid : Option Str
  notificationId : Int
  timestamp : Int
  event : Option Str
  info : Option (List (Option Str × Option Str))
  serviceEx : Option EventError
  deriving DecidableEq, Repr

/-- A call of a method of `ProviderClient`. -/
inductive RCall
  | reserveConfirmed (r : Resv)
  | confirmed (o : COp) (cid : Str)
  | failed (o : FOp) (cid : Str) (st : ConnStates) (err : AnyError)
  | reserveTimeout (m : TimeoutMsg)
  | dataPlane (cid : Str) (nid t : Int) (d : DPS)
  | errorEvent (m : EventMsg)
  | summary (is : List Info)
  | recursive (is : List Info)

/-- The action of each message. -/
def RCall.action : RCall → Str
  | .reserveConfirmed _ => soapAction "reserveConfirmed".toList                            -- providerclient.py:94
  | .confirmed .reserveCommitConfirmed _ => soapAction "reserveCommitConfirmed".toList     -- line 108
  | .confirmed .reserveAbortConfirmed _ => soapAction "reserveAbortConfirmed".toList       -- line 121
  | .confirmed .provisionConfirmed _ => soapAction "provisionConfirmed".toList             -- line 127
  | .confirmed .releaseConfirmed _ => soapAction "releaseConfirmed".toList                 -- line 133
  | .confirmed .terminateConfirmed _ => soapAction "terminateConfirmed".toList             -- line 139
  | .failed .reserveFailed .. => soapAction "reserveFailed".toList                         -- line 101
  | .failed .reserveCommitFailed .. => soapAction "reserveCommitFailed".toList             -- line 114
  | .reserveTimeout _ => soapAction "reserveTimeout".toList                                -- line 155
  | .dataPlane .. => soapAction "dataPlaneStateChange".toList                              -- line 171
  | .errorEvent _ => soapAction "errorEvent".toList                                        -- line 196
  | .summary _ => soapAction "querySummaryConfirmed".toList                                -- line 208
  | .recursive _ => soapAction "queryRecursiveConfirmed".toList                            -- line 220

/-- `ErrorEventType.xml`, nsiconnection.py:357-369, for what `errorEvent` makes of its arguments, providerclient.py:186-190: no originating
connection and agent, and no additional information, whatever `info` is. -/
def eventXml (m : EventMsg) : Elem :=
  .mk (ctag "errorEvent") [] none
    [leaf "connectionId" m.cid, leaf "notificationId" (some (showInt m.notificationId)), leaf "timeStamp" (some (createXMLTime m.timestamp)),
     leaf "event" m.event, leaf "originatingConnectionId" none, leaf "originatingNSA" (some "None".toList)]

/-- The body of each message. An error event with a service exception is not sent: the class of the exception is given six arguments and
needs seven (providerclient.py:182, nsiconnection.py:657). -/
def RCall.body (provider : Str) : RCall → Except WireErr Elem
  | .reserveConfirmed r => .ok r.confirmXml
  | .confirmed .reserveCommitConfirmed c => .ok (genericXml (ctag "reserveCommitConfirmed") (some c))
  | .confirmed .reserveAbortConfirmed c => .ok (genericXml (ctag "reserveAbortConfirmed") (some c))
  | .confirmed .provisionConfirmed c => .ok (genericXml (ctag "provisionConfirmed") (some c))
  | .confirmed .releaseConfirmed c => .ok (genericXml (ctag "releaseConfirmed") (some c))
  | .confirmed .terminateConfirmed c => .ok (genericXml (ctag "terminateConfirmed") (some c))
  | .failed .reserveFailed c st err => .ok (failureXml (ctag "reserveFailed") (some provider) (some c) st err)
  | .failed .reserveCommitFailed c st err => .ok (failureXml (ctag "reserveCommitFailed") (some provider) (some c) st err)
  | .reserveTimeout m => .ok m.xml
  | .dataPlane c n t d => .ok (dataPlaneXml (some c) n t d)
  | .errorEvent m => if m.serviceEx.isSome then .error .typeError else .ok (eventXml m)
  | .summary is => .ok (summaryXml is)
  | .recursive is => .ok (recursiveXml is)

/-- The header of replies: `createRequesterHeader(requester_nsa, provider_nsa, correlation_id=…)`, providerclient.py:27, 46, 71, 147, 162, 178,
202, 214. -/
def replyHeader (requester provider correlation : Str) : NHeader :=
  { requesterNSA := requester, providerNSA := provider, correlationId := correlation, replyTo := none, securityAttributes := [], connectionTrace := none }

/-- The message, as the receiver sees it. -/
def RCall.message (c : RCall) (requester provider correlation : Str) : Except WireErr Elem :=
  match c.body provider with
  | .error x => .error x
  | .ok b => .ok (wire (soapPayload [b] [createHeader (replyHeader requester provider correlation) cs2Requester]))

/-- A call of a method of the requester, requesterservice.py:65-225. -/
inductive RIn
  | reserveConfirmed (r : Resv)
  | confirmed (o : COp) (cid : Option Str)
  | failed (o : FOp) (cid : Option Str) (st : ConnStates) (err : NSIErrorIn)
  | reserveTimeout (m : TimeoutMsg)
  | dataPlane (cid : Option Str) (nid : Int) (timestamp : Option Str) (d : DPS)
  | errorEvent (cid : Option Str) (nid : Int) (timestamp event : Option Str) (info : Option (List (Option Str × Option Str))) (ex : Option EventError)
  | error (ex : SvcExIn)
  | summary (is : List Info)
  | recursive (is : List Info)

/-- The methods of `RequesterService` that are registered as decoders. -/
inductive RDecoder
  | reserveConfirmed | confirmed (o : COp) | failed (o : FOp) | summary | recursive | error | errorEvent | dataPlane | reserveTimeout
  | messageDeliveryTimeout
  deriving DecidableEq, Repr

/-- `RequesterService.__init__`, requesterservice.py:21-48. -/
def requesterDecoders : List (Str × RDecoder) := register
  [(soapAction "reserveConfirmed".toList, .reserveConfirmed), (soapAction "reserveFailed".toList, .failed .reserveFailed),
   (soapAction "reserveCommitConfirmed".toList, .confirmed .reserveCommitConfirmed),
   (soapAction "reserveCommitFailed".toList, .failed .reserveCommitFailed),
   (soapAction "reserveAbortConfirmed".toList, .confirmed .reserveAbortConfirmed),
   (soapAction "provisionConfirmed".toList, .confirmed .provisionConfirmed), (soapAction "releaseConfirmed".toList, .confirmed .releaseConfirmed),
   (soapAction "terminateConfirmed".toList, .confirmed .terminateConfirmed), (soapAction "querySummaryConfirmed".toList, .summary),
   (soapAction "queryRecursiveConfirmed".toList, .recursive), (soapAction "error".toList, .error), (soapAction "errorEvent".toList, .errorEvent),
   (soapAction "dataPlaneStateChange".toList, .dataPlane), (soapAction "reserveTimeout".toList, .reserveTimeout),
   (soapAction "messageDeliveryTimeout".toList, .messageDeliveryTimeout)]

/-- `ErrorEventType.build`, nsiconnection.py:345-355, and `errorEvent`, requesterservice.py:187-199. The children of `additionalInfo` are read as
type and value. -/
def readEvent (e : Elem) : Except WireErr RIn :=
  match intOf (e.findtext "notificationId") with
  | .error x => .error x
  | .ok n => .ok (.errorEvent (e.findtext "connectionId") n (e.findtext "timeStamp") (e.findtext "event")
      ((e.find "additionalInfo").map fun i => i.kids.map buildTVP)
      ((e.find "serviceException").map fun s =>
        let x := buildSvcEx s
        { nsaId := x.nsaId, connectionId := x.connectionId, errorId := x.errorId, text := x.text }))

/-- The decoders of `RequesterService`, requesterservice.py:65-229. -/
def requesterDecode (u : Uncommon) (fresh : Str) (d : RDecoder) (env : Elem) : Outcome RIn :=
  match d with
  | .messageDeliveryTimeout => .failed .notImplementedError                  -- lines 228-229
  | _ => withBody fresh env fun hd t e =>
    match d with
    | .reserveConfirmed =>
      if t = .reserveConfirmed then match readReserveConfirmed u e with
        | .error x => .failed x
        | .ok r => .called hd (.reserveConfirmed r)                          -- line 92
      else .foreign t
    | .confirmed o =>                                                        -- lines 103-106, 115-136
      if t = .genericConfirmed ∨ t = .genericRequest ∨ t = .reserveResponse then .called hd (.confirmed o (readGeneric e)) else .foreign t
    | .failed o =>                                                           -- lines 51-62, 97-100, 109-112
      if t = .genericFailed then match readFailure hd.providerNSA e with
        | .error x => .failed x
        | .ok (c, st, ex) => .called hd (.failed o c st ex)
      else .foreign t
    | .reserveTimeout =>                                                     -- lines 217-225
      if t = .reserveTimeout then match readTimeout u e with
        | .error x => .failed x
        | .ok m => .called hd (.reserveTimeout m)
      else .foreign t
    | .dataPlane =>                                                          -- lines 205-214
      if t = .dataPlaneStateChange then match readDataPlane e with
        | .error x => .failed x
        | .ok (c, n, ts, d) => .called hd (.dataPlane c n ts d)
      else .foreign t
    | .errorEvent =>                                                         -- lines 187-201
      if t = .errorEvent then match readEvent e with
        | .error x => .failed x
        | .ok r => .called hd r
      else .foreign t
    | .error =>                                                              -- lines 167-184
      if t = .genericError then match e.find "serviceException" with
        | none => .failed .attributeError                                    -- nsiconnection.py:36
        | some s =>
          if (buildSvcEx s).variables = none then .failed .typeError         -- requesterservice.py:179: iteration over None
          else .called hd (.error (buildSvcEx s))
      else .foreign t
    | .summary =>                                                            -- lines 145-153
      if t = .querySummaryConfirmed then match readSummary u hd.providerNSA e with
        | .error x => .failed x
        | .ok is => .called hd (.summary is)
      else .foreign t
    | .recursive =>                                                          -- lines 156-164
      if t = .queryRecursiveConfirmed then match readRecursive u hd.providerNSA e with
        | .error x => .failed x
        | .ok is => .called hd (.recursive is)
      else .foreign t
    | .messageDeliveryTimeout => .failed .notImplementedError

/-- What happens at the requester for a message with this action. -/
def requesterPost (u : Uncommon) (fresh : Str) : Option Str → Elem → Outcome RIn := post requesterDecoders (requesterDecode u fresh)

/-! ### The receivers -/

/-- The objects a `RequesterService` can call: the aggregator (setup.py:130, nsi2/__init__.py:46) and the requester of the command line client
(nsi2/__init__.py:62). -/
inductive Receiver
  | aggregator | requester
  deriving DecidableEq, Repr

/-- The method that is called exists: aggregator.py:789, 875, 978, 1008, 1030, 1051, 1071, 1090, 1123, 1151, 1187, 1207, 1222; requester.py:88,
94, 112, 129, 150, 172, 211, 221, 227, 233, 239. -/
def Receiver.has : Receiver → RIn → Bool
  | _, .failed .reserveCommitFailed .. => false
  | .requester, .confirmed .reserveAbortConfirmed _ => false
  | .requester, .summary _ => false
  | _, _ => true

end OpenNSA.Wire
