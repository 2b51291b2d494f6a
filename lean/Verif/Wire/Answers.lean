import Verif.Wire.Dispatch
/-
Model of what the services return in the HTTP response: acknowledgements (protocols/nsi2/helper.py:74-90) and the answer to a
synchronous query (providerservice.py:182-199, requesterclient.py:208-225).
-/
namespace OpenNSA.Wire
open Py

/-- The header of an answer, helper.py:77 and providerservice.py:186: ids of the header of the request, nothing else. -/
def answerHeader (h : HeaderIn) : NHeader :=
  { requesterNSA := strOf h.requesterNSA, providerNSA := strOf h.providerNSA, correlationId := strOf h.correlationId, replyTo := none,
    securityAttributes := [], connectionTrace := none }

/-- `_createGenericAcknowledgement`, helper.py:74-83, with `GenericAcknowledgmentType.xml`, nsiconnection.py:287-289. -/
def ackAnswer (h : HeaderIn) (protocol : Str) : Elem :=
  soapPayload [.mk (ctag "acknowledgment") [] none []] [createHeader (answerHeader h) protocol]

/-- `createGenericProviderAcknowledgement`, helper.py:86-87: the answer to reserveCommit, reserveAbort, provision, release, terminate,
querySummary and queryRecursive (providerservice.py:143, 150, 157, 164, 172, 180, 206). -/
def providerAck (h : HeaderIn) : Elem := ackAnswer h cs2Provider

/-- `createGenericRequesterAcknowledgement`, helper.py:89-90: the answer of the requester service to all messages. -/
def requesterAck (h : HeaderIn) : Elem := ackAnswer h cs2Requester

/-- `gotReservations`, providerservice.py:184-193: the query results in the response. -/
def syncAnswer (h : HeaderIn) (is : List Info) : Elem :=
  soapPayload [.mk (ctag "querySummarySyncConfirmed") [] none (is.map fun i => i.xml (i.criterias.map Crit.summaryXml))]
    [createHeader (answerHeader h) cs2Provider]

/-- `gotReply`, requesterclient.py:210-212: what the caller of `querySummarySync` is given. -/
def readSyncAnswer (u : Uncommon) (fresh : Str) (env : Elem) : Except WireErr (List Info) :=
  match parseRequest fresh env with
  | .error x => .error x
  | .ok (hd, bodies) => match bodyOf bodies with
    | .error x => .error x
    | .ok (t, e) => if t = .querySummaryConfirmed then readSummary u hd.providerNSA e else .error .attributeError

end OpenNSA.Wire
