import Verif.Http.Model
import Verif.Wire.Dispatch
import Verif.Criteria.Model
import Verif.Backend.Model
/-
What a request brings along to be let in to a port, from the HTTP request to the backend: /repo/opennsa/protocols/shared/soapresource.py:51-85,
/repo/opennsa/shared/requestinfo.py, /repo/opennsa/protocols/nsi2/provider.py, /repo/opennsa/protocols/rest/resource.py:160-233, 362-387 and
/repo/opennsa/aggregator.py (the headers of the requests to providers). The check of a port itself is in `Authz`.
-/
namespace OpenNSA.Access
open Py Wire Http

/-- What comes with a call of a provider: `header.security_attributes` and `request_info`. -/
structure Cred where
  attrs : List SecAttr
  ri : ReqInfo
  deriving DecidableEq, Repr

/-- `RequestInfo.cert_host_dn`, requestinfo.py:13-17, as far as authz.py:65 can tell: it is compared with the text of a rule, and bytes are as
different from that as None is. -/
def dnText : Option PyVal → Option Str
  | some (.str s) => some s
  | _ => none

/-- A request to the SOAP resource of the provider: the check of the sender (soapresource.py:51-85), the decoder (soapresource.py:96-135), and the call of
the aggregator with the header and the request information (nsi2/provider.py:55, 86, 105, 124, 143, 162). `none`: nothing is called. -/
def soapCred (u : Uncommon) (fresh : Str) (req : Http.Req) (allowed : Option (List Str)) (action : Option Str) (env : Elem) : Option (Cred × PIn) :=
  match gate .soap req allowed with
  | .admitted dn => match providerPost u fresh action env with
    | .called hd x => some (⟨hd.securityAttributes.map fun a => ⟨a.1, a.2⟩, some (dnText dn)⟩, x)
    | _ => none
  | _ => none

/-- A request to a REST resource: the header is made up, without attributes (rest/resource.py:231-233, 376-387; nsa.py:37). -/
def restCred (e : Endpoint) (req : Http.Req) (allowed : Option (List Str)) : Option Cred :=
  match gate e req allowed with
  | .admitted dn => some ⟨[], some (dnText dn)⟩
  | _ => none

/-- The calls of providers the aggregator makes on behalf of a request. -/
inductive Call
  | reserve           -- aggregator.py:390, 408
  | reserveCommit     -- aggregator.py:475-477
  | reserveAbort      -- aggregator.py:516-517
  | provision         -- aggregator.py:566-567
  | release           -- aggregator.py:608-609
  | terminate         -- aggregator.py:648-649
  | cleanup           -- aggregator.py:433-435, `terminate` of the segments of a reservation that failed elsewhere
  deriving DecidableEq, Repr

/-- The header and request information of a call of a local backend. `urn`: the agent; `corr`: the correlation id. All calls have the attributes of the
request they are made for; all but the cleanup have its request information (aggregator.py:435 leaves it to its default, genericbackend.py:487). -/
def Call.hdr (urn corr : Str) (c : Cred) : Call → Backend.Hdr
  | .cleanup => ⟨urn, corr, c.attrs, none⟩
  | _ => ⟨urn, corr, c.attrs, c.ri⟩

/-- The calls that are made for a request. -/
def Call.for : Call → PIn → Bool
  | .reserve, .reserve _ => true
  | .cleanup, .reserve _ => true
  | .reserveCommit, .generic .reserveCommit _ => true
  | .reserveAbort, .generic .reserveAbort _ => true
  | .provision, .generic .provision _ => true
  | .release, .generic .release _ => true
  | .terminate, .generic .terminate _ => true
  | _, _ => false

/-- The methods of the backend that the calls call. -/
def Call.makes : Call → Backend.Req → Bool
  | .reserve, .reserve .. => true
  | .reserveCommit, .commit _ => true
  | .reserveAbort, .abort _ => true
  | .provision, .provision _ => true
  | .release, .release _ => true
  | .terminate, .terminate _ => true
  | .cleanup, .terminate _ => true
  | _, _ => false

/-- One step of a chain of aggregators: agent, provider of the segment, correlation id, connection id, the id read when the message has none,
and the address for replies. -/
structure Hop where
  urn : Str
  provider : Str
  corr : Str
  cid : Str
  fresh : Str
  replyTo : Str
  deriving DecidableEq, Repr

/-- The header that the next provider reads of a request that an aggregator passes on to it: made by aggregator.py:381, 390-391, written by helper.py:39-66 and
read by helper.py:99-136, with any message as body. -/
def Hop.header (hop : Hop) (h : HeaderIn) (c : PCall) : Option HeaderIn :=
  match parseRequest hop.fresh (c.message hop.replyTo (Criteria.segmentHeader hop.urn hop.provider hop.corr hop.cid h)) with
  | .ok (hd, _) => some hd
  | .error _ => none

end OpenNSA.Access
