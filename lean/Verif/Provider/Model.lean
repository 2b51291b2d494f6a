import Verif.PyLemmas
/-
Model of /repo/opennsa/protocols/nsi2/provider.py: the provider side of the protocol, which passes requests to the aggregator and
sends its confirmations to whoever asked.
-/
namespace OpenNSA.Provider
open Py

/-- The parts of `nsa.NSIHeader` used here. -/
structure Hdr where
  replyTo : Option Str
  requester : Str
  provider : Str
  correlation : Option Str
  deriving DecidableEq, Repr

/-- `if header.reply_to`: neither missing nor empty (lines 51, 84, 103, 122, 141, 160). -/
def Hdr.replies (h : Hdr) : Bool :=
  match h.replyTo with
  | some (_ :: _) => true
  | _ => false

/-- The operations that are confirmed by a message of their own. -/
inductive Op
  | reserve | commit | abort | provision | release | terminate
  deriving DecidableEq, Repr

/-- The messages that answer them, lines 60-176. -/
inductive Conf
  | reserveConfirmed | reserveFailed | commitConfirmed | abortConfirmed | provisionConfirmed | releaseConfirmed | terminateConfirmed
  deriving DecidableEq, Repr

/-- The constants of lines 12-17. -/
inductive Resp
  | reserve_response | reserve_commit_response | provision_response | release_response | terminate_response
  deriving DecidableEq, Repr

/-- The constant under which a request is remembered, lines 52, 85, 104, 123, 142, 161. `RESERVE_ABORT_RESPONSE` has the value of
`RESERVE_COMMIT_RESPONSE` (lines 13-14). -/
def Op.resp : Op → Resp
  | .reserve => .reserve_response
  | .commit => .reserve_commit_response
  | .abort => .reserve_commit_response
  | .provision => .provision_response
  | .release => .release_response
  | .terminate => .terminate_response

/-- The constant under which a confirmation looks for its request, lines 62, 73, 92, 111, 130, 149, 168. -/
def Conf.resp : Conf → Resp
  | .reserveConfirmed => .reserve_response
  | .reserveFailed => .reserve_response
  | .commitConfirmed => .reserve_commit_response
  | .abortConfirmed => .reserve_commit_response
  | .provisionConfirmed => .provision_response
  | .releaseConfirmed => .release_response
  | .terminateConfirmed => .terminate_response

/-- What leaves the provider. Requests are named by numbers. -/
inductive Out
  /-- a message of that kind about the connection, to the reply address and with the correlation id of `hdr`; `rid` is the request
  the header belongs to -/
  | conf (rid : Nat) (kind : Conf) (hdr : Hdr) (cid : Str)
  /-- the request is answered with a fault (providerservice.py:141 and the like) -/
  | fault (rid : Nat)
  /-- the deferred of a synchronous query fires, lines 212-213 -/
  | sync (rid : Nat) (payload : Str)
  /-- the answer to a query is sent to the reply address of `hdr`, lines 215, 234 -/
  | query (hdr : Hdr) (payload : Str)
  deriving DecidableEq, Repr

/-- `Provider`, lines 38-42. `self.notifications` is modelled by two dicts, as the second parts of the keys keep headers and
deferreds apart. With each header goes the number of its request. -/
structure Prov where
  notifications : List ((Str × Resp) × (Nat × Hdr))
  syncs : List (Str × Nat)
  /-- what left, oldest first -/
  out : List Out
  deriving DecidableEq, Repr

def Prov.new : Prov := ⟨[], [], []⟩

/-- What happens at a provider. -/
inductive Ev
  /-- `setNotify` runs: `service_provider.reserve` returned the connection id, lines 50-56 -/
  | reserveAcked (rid : Nat) (hdr : Hdr) (cid : Str)
  /-- `reserveCommit`, `reserveAbort`, `provision`, `release`, `terminate` are called, lines 82-86, 101-105, 120-124, 139-143, 158-162 -/
  | request (op : Op) (rid : Nat) (hdr : Hdr) (cid : Str)
  /-- the service provider refuses a request: its deferred fails, which the provider service turns into a fault -/
  | refused (rid : Nat)
  /-- the aggregator confirms, lines 60-79, 89-98, 108-117, 127-136, 146-155, 165-172 -/
  | confirmed (kind : Conf) (cid : Str)
  /-- `querySummarySync`, lines 190-202 -/
  | syncQuery (rid : Nat) (hdr : Hdr)
  /-- `querySummaryConfirmed`, lines 205-215 -/
  | summary (hdr : Hdr) (payload : Str)
  /-- `queryRecursiveConfirmed`, lines 228-234; nothing ever puts a deferred under `QUERY_RECURSIVE_RESPONSE` -/
  | recursive (hdr : Hdr) (payload : Str)
  deriving DecidableEq, Repr

/-- `self.notifications[(connection_id, RESPONSE)] = nsi_header` if there is a reply address. -/
def Prov.remember (s : Prov) (op : Op) (rid : Nat) (hdr : Hdr) (cid : Str) : Prov :=
  if hdr.replies then { s with notifications := dset s.notifications (cid, op.resp) (rid, hdr) } else s

/-- One confirmation: `self.notifications.pop(key)` and the message, or nothing (`KeyError`). -/
def Prov.confirm (s : Prov) (kind : Conf) (cid : Str) : Prov :=
  match dget s.notifications (cid, kind.resp) with
  | none => s
  | some (rid, hdr) => { s with notifications := ddel s.notifications (cid, kind.resp), out := s.out ++ [.conf rid kind hdr cid] }

/-- `if not header.correlation_id: raise ValueError`, lines 192-195. -/
def truthyText : Option Str → Option Str
  | some (c :: cs) => some (c :: cs)
  | _ => none

/-- One event. A request for `reserve` is remembered only when the answer of the service provider arrives (`reserveAcked`). -/
def Prov.step (s : Prov) : Ev → Prov
  | .reserveAcked rid hdr cid => s.remember .reserve rid hdr cid
  | .request op rid hdr cid => if op = .reserve then s else s.remember op rid hdr cid
  | .refused rid => { s with out := s.out ++ [.fault rid] }
  | .confirmed kind cid => s.confirm kind cid
  | .syncQuery rid hdr =>
    if hdr.replies then match truthyText hdr.correlation with                -- lines 192-195
      | none => s
      | some c => { s with syncs := dset s.syncs c rid }                     -- line 198
    else s
  | .summary hdr payload =>
    match hdr.replyTo with
    | none => s                                                              -- lines 207-209
    | some _ => match hdr.correlation.bind (dget s.syncs) with               -- line 211
      | some rid => { s with syncs := ddel s.syncs (hdr.correlation.getD []), out := s.out ++ [.sync rid payload] }    -- lines 212-213
      | none => { s with out := s.out ++ [.query hdr payload] }              -- line 215
  | .recursive hdr payload => { s with out := s.out ++ [.query hdr payload] }   -- line 234

def Prov.run (s : Prov) (es : List Ev) : Prov := es.foldl Prov.step s

end OpenNSA.Provider
