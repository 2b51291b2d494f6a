import Verif.Agg.Serial
import Verif.Backend.Conc
/-
An agent with local backends: the aggregator (/repo/opennsa/aggregator.py, model in Agg, messages handled one after the other) and
the backends (/repo/opennsa/backends/common/genericbackend.py, model in Backend, arbitrarily interleaved) calling each other. Which call and
which message arrives when is left open; a call arrives after it was made, a message after it was sent, each any number of times (more than can
happen). Simplification: a restart of the process may hit the aggregator and the backends one by one.
-/
namespace OpenNSA.Joint
open Py

/-- A backend with its connection ids and the time at the start. -/
structure Site where
  cfg : Backend.Cfg
  ids : List Str
  clk : Time

/-- Which provider objects are backends, setup.py:259-268 (registered with the URN of the agent). -/
structure Sys where
  agg : Agg.Cfg
  site : Nat → Option Site

/-- What has happened at the backends so far. -/
abbrev Scheds := Nat → List (Backend.Oracle × Backend.Choice)

/-- The backend after its schedule. -/
def Site.at (s : Site) (l : List (Backend.Oracle × Backend.Choice)) : Backend.World :=
  (Backend.Conc.run s.cfg { w := Backend.World.init s.ids s.clk } l).w

/-- The label of a stored connection as `nsa.Label`, database.py:32-49 and genericbackend.py:590-591. -/
def labelOf : Option Backend.LabelVal → Option Label
  | none => none
  | some (t, v) => some { type_ := t, values := [(v, v)] }

/-- The criteria of a confirmation, genericbackend.py:589-593. The bandwidth is not modelled in the backend; a stored connection has the network of
the backend (lines 233-236). -/
def critOf (net : Str) (bw : Int) (r : Backend.Row) : Agg.Crit :=
  ⟨⟨net, r.srcPort, labelOf r.srcLabel⟩, ⟨net, r.dstPort, labelOf r.dstLabel⟩, r.start, r.end_, bw⟩

/-- What the call of a provider is for a backend: aggregator.py:408 passes no connection id; queries (genericbackend.py:529-533)
are not part of the model of the backend. -/
def request : Agg.POp → Option Backend.Req
  | .reserve _ src dst start end_ _ => some (.reserve none src dst start end_)
  | .commit cid => some (.commit cid)
  | .abort cid => some (.abort cid)
  | .provision cid => some (.provision cid)
  | .release cid => some (.release cid)
  | .terminate cid => some (.terminate cid)
  | .query _ => none

/-- A request at a backend is a call of the aggregator: with its correlation id (aggregator.py:390-391), in the name of the agent. -/
def Called (sys : Sys) (w : Agg.World) (b : Nat) : Backend.Choice → Prop
  | .start h q => ∃ c ∈ w.sent, c.handle = b ∧ h.corr = c.corr ∧ h.requester = sys.agg.urn ∧ request c.op = some q
  | _ => True

/-- The message is the backend's: genericbackend.py:387, 406, 446, 481, 513, 595-596, 611, 670, 694, 719, 731. Backends report no failed
reservations; `reserve` fails instead. -/
def Sends (s : Site) (w : Backend.World) : Agg.Msg → Prop
  | .reserveConfirmed h cid c => ∃ r ∈ w.rows, r.cid = cid ∧ .reserveConfirmed h.corr cid r.srcLabel r.dstLabel r.start r.end_ ∈ w.outbox ∧
      ∃ bw, c = critOf s.cfg.network bw r
  | .commitConfirmed _ cid => .reserveCommitConfirmed cid ∈ w.outbox
  | .abortConfirmed _ cid => .reserveAbortConfirmed cid ∈ w.outbox
  | .provisionConfirmed _ cid => .provisionConfirmed cid ∈ w.outbox
  | .releaseConfirmed _ cid => .releaseConfirmed cid ∈ w.outbox
  | .terminateConfirmed _ cid => .terminateConfirmed cid ∈ w.outbox
  | .timeout _ cid n => .reserveTimeout cid n ∈ w.outbox
  | .dataPlane _ cid a _ _ => ∃ n, .dataPlane cid n a ∈ w.outbox
  | .errorEvent _ cid n => .activateFailed cid n ∈ w.outbox ∨ .deactivateFailed cid n ∈ w.outbox
  | _ => False

/-- The message concerns the backend: an answer to a reservation asked of it, or a message about a connection it has stored. -/
def Concerns (w : Agg.World) (b : Nat) (v : Backend.World) : Agg.Msg → Prop
  | .reserveConfirmed h _ _ | .reserveFailed h => ∃ c ∈ w.sent, c.corr = h.corr ∧ c.handle = b
  | .commitConfirmed _ cid | .abortConfirmed _ cid | .provisionConfirmed _ cid | .releaseConfirmed _ cid | .terminateConfirmed _ cid
  | .timeout _ cid _ | .dataPlane _ cid _ _ _ | .errorEvent _ cid _ => ∃ r ∈ v.rows, r.cid = cid
  | _ => False

/-- Nobody else speaks for a backend. -/
def Genuine (sys : Sys) (w : Agg.World) (f : Scheds) (m : Agg.Msg) : Prop :=
  ∀ b s, sys.site b = some s → Concerns w b (s.at (f b)) m → Sends s (s.at (f b)) m

/-- One more thing happens at a backend. -/
def Scheds.add (f : Scheds) (b : Nat) (x : Backend.Oracle × Backend.Choice) : Scheds := fun i => if i = b then f i ++ [x] else f i

/-- The executions: messages to the aggregator so far, the aggregator, and what happened at the backends. -/
inductive Runs (sys : Sys) : List Agg.Msg → Agg.World → Scheds → Prop
  | init : Runs sys [] .init fun _ => []
  | msg {ms w f} (h : Runs sys ms w f) (o : Agg.Oracle) (m : Agg.Msg) (hn : Agg.NewSeg w m) (hg : Genuine sys w f m) :
      Runs sys (ms ++ [m]) (Agg.step sys.agg w o m).1 f
  | restart {ms w f} (h : Runs sys ms w f) : Runs sys ms w.restart f
  | act {ms w f} (h : Runs sys ms w f) (b : Nat) (x : Backend.Oracle × Backend.Choice) (hc : Called sys w b x.2) : Runs sys ms w (f.add b x)

end OpenNSA.Joint
