import Verif.Provider.Props
import Verif.Joint.Whole
import Verif.Agg.Returned
/-
Requesters, the provider side of the protocol (/repo/opennsa/protocols/nsi2/provider.py, model in Provider), the aggregator
(/repo/opennsa/aggregator.py, model in Agg) and the local backends (model in Backend), everything interleaved.
-/
namespace OpenNSA.Front
open Py Provider

/-- What a request asks for and the connection it names; `none` for other messages. Queries are not followed here (see C37, C38, C41). -/
def opOf : Agg.Msg → Option (Op × Option Str)
  | .reserve _ cid _ => some (.reserve, cid)
  | .commit _ cid => some (.commit, some cid)
  | .abort _ cid => some (.abort, some cid)
  | .provision _ cid => some (.provision, some cid)
  | .release _ cid => some (.release, some cid)
  | .terminate _ cid => some (.terminate, some cid)
  | _ => none

/-- The header of a request. -/
def hdrOf : Agg.Msg → Option Agg.Hdr
  | .reserve h _ _ | .commit h _ | .abort h _ | .provision h _ | .release h _ | .terminate h _ => some h
  | _ => none

/-- The call of the aggregator on `Provider` that a message stands for (`self.parent_requester`, aggregator.py:970, 1005, 1026, 1048,
1068, 1087, 1104). The notifications do not look for a request (provider.py:239-267). -/
def confOf : Agg.Out → Option (Conf × Str)
  | .reserveConfirmed _ cid _ _ _ _ _ => some (.reserveConfirmed, cid)
  | .reserveFailed _ cid => some (.reserveFailed, cid)
  | .reserveCommitConfirmed _ cid => some (.commitConfirmed, cid)
  | .reserveAbortConfirmed _ cid => some (.abortConfirmed, cid)
  | .provisionConfirmed _ cid => some (.provisionConfirmed, cid)
  | .releaseConfirmed _ cid => some (.releaseConfirmed, cid)
  | .terminateConfirmed _ cid => some (.terminateConfirmed, cid)
  | _ => none

/-- `Provider` and the calls it has made on the aggregator that have not returned. -/
structure Desk where
  /-- its memory and what left it -/
  prov : Prov := .new
  /-- the handlers of requests that are under way: the number of the handler, the number of the request, the operation, the header -/
  tickets : List (Nat × (Nat × Op × Hdr)) := []
  /-- all requests ever received, in order: they are numbered by their positions -/
  asked : List (Hdr × Agg.Msg) := []
  /-- what happened at the provider, in order -/
  log : List Ev := []

/-- Something happens at the provider. -/
def Desk.tell (d : Desk) (e : Ev) : Desk := { d with prov := d.prov.step e, log := d.log ++ [e] }

/-- A request is received: the header is stored, for reserve it is not (provider.py:45-58, 82-86, 101-105, 120-124, 139-143, 158-162). The
handler of the aggregator will have the number `task`. -/
def Desk.receive (d : Desk) (task : Nat) (hdr : Hdr) (m : Agg.Msg) : Desk :=
  match opOf m with
  | none => d
  | some (op, cid) =>
    let d' := { d with asked := d.asked ++ [(hdr, m)], tickets := (task, (d.asked.length, op, hdr)) :: d.tickets }
    if op = .reserve then d' else d'.tell (.request op d.asked.length hdr (cid.getD []))

/-- A handler of the aggregator has ended: `setNotify` (provider.py:50-56), or the error goes to the requester. -/
def Desk.finished (d : Desk) (x : Nat × Except Agg.Err (Option Str)) : Desk :=
  match dget d.tickets x.1 with
  | none => d
  | some (rid, op, hdr) =>
    let d' := { d with tickets := ddel d.tickets x.1 }
    match x.2 with
    | .error _ => d'.tell (.refused rid)
    | .ok none => d'
    | .ok (some cid) => if op = .reserve then d'.tell (.reserveAcked rid hdr cid) else d'

/-- The aggregator went from `s` to `s'`: first its calls on `Provider`, then the end of the handler. -/
def Desk.follow (d : Desk) (s s' : Agg.Sys) : Desk :=
  (s'.done.drop s.done.length).foldl Desk.finished
    (((s'.w.outbox.drop s.w.outbox.length).filterMap confOf).foldl (fun d x => d.tell (.confirmed x.1 x.2)) d)

/-- A restart: `self.notifications` is in memory only (provider.py:42). -/
def Desk.restart (d : Desk) : Desk := { d with prov := { Prov.new with out := d.prov.out }, tickets := [] }

/-- The executions. -/
inductive Trace (sys : Joint.Sys) : Desk → List (Agg.Msg × Agg.World) → Agg.Sys → Joint.Scheds → Prop
  | init : Trace sys {} [] { w := .init } fun _ => []
  /-- a request arrives; its header goes to `Provider`, the request to the aggregator -/
  | ask {d T s f} (h : Trace sys d T s f) (o : Agg.Oracle) (hdr : Hdr) (m : Agg.Msg) (hd : Agg.Hdr) (hm : hdrOf m = some hd) (hr : hd.requester = hdr.requester) :
      Trace sys ((d.receive s.next hdr m).follow s (Agg.sysStep sys.agg s o (.start m))) (T ++ [(m, { s.w with orc := o })]) (Agg.sysStep sys.agg s o (.start m)) f
  /-- anything else the aggregator does: messages of providers, queries, steps of handlers -/
  | step {d T s f} (h : Trace sys d T s f) (o : Agg.Oracle) (ch : Conc.Choice Agg.Msg) (hch : ∀ m, ch = .start m → hdrOf m = none) :
      Trace sys (d.follow s (Agg.sysStep sys.agg s o ch)) (T ++ Agg.Conc.Choice.events { s.w with orc := o } ch) (Agg.sysStep sys.agg s o ch) f
  | restart {d T s f} (h : Trace sys d T s f) : Trace sys d.restart T { w := s.w.restart } f
  | act {d T s f} (h : Trace sys d T s f) (b : Nat) (x : Backend.Oracle × Backend.Choice) (hc : Joint.Called sys s.w b x.2) : Trace sys d T s (f.add b x)

end OpenNSA.Front
