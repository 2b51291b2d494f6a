import Verif.Agg.Model
import Mathlib.Data.List.Forall2
/-
Vocabulary of the properties of the aggregator (C28-C40, C55): executions, chains of segments, cleanup.
-/
namespace OpenNSA.Agg
open OpenNSA Py Coro

/-! ### Executions -/

/-- A running aggregator: the world and the suspended handlers. -/
abbrev Sys := Conc Cmd Err (Option Str) World

/-- A process restart: the database stays, everything in memory is gone (aggregator.py:64-83). -/
def World.restart (w : World) : World :=
  { w with cheap := [], sheap := [], ccache := [], scache := [], resv := [], qreqs := [], qcalls := [], notif := 0 }

/-- One scheduling step under arbitrary choices of the environment. -/
def sysStep (cfg : Cfg) (s : Sys) (o : Oracle) (ch : Conc.Choice Msg) : Sys :=
  Conc.step machine (Msg.prog cfg) { s with w := { s.w with orc := o } } ch

/-- Everything that can happen: messages at any time, arbitrary scheduling of the handlers, arbitrary answers of the providers,
restarts. -/
inductive Reach (cfg : Cfg) : Sys → Prop
  | init : Reach cfg { w := .init }
  | step {s : Sys} (h : Reach cfg s) (o : Oracle) (ch : Conc.Choice Msg) : Reach cfg (sysStep cfg s o ch)
  | restart {s : Sys} (h : Reach cfg s) : Reach cfg { w := s.w.restart }

/-- Executions in which each message is handled to completion before the next one. -/
inductive SReach (cfg : Cfg) : World → Prop
  | init : SReach cfg .init
  | step {w : World} (h : SReach cfg w) (o : Oracle) (m : Msg) : SReach cfg (Agg.step cfg w o m).1
  | restart {w : World} (h : SReach cfg w) : SReach cfg w.restart

/-- Several scheduling steps. -/
def runSys (cfg : Cfg) (s : Sys) : List (Oracle × Conc.Choice Msg) → Sys
  | [] => s
  | x :: xs => runSys cfg (sysStep cfg s x.1 x.2) xs

theorem Reach.runs {cfg : Cfg} {s : Sys} (h : Reach cfg s) (l : List (Oracle × Conc.Choice Msg)) : Reach cfg (runSys cfg s l) := by
  induction l generalizing s with
  | nil => exact h
  | cons x xs ih => exact ih (h.step _ _)

theorem SReach.msgs {cfg : Cfg} {w : World} (h : SReach cfg w) (l : List (Oracle × Msg)) : SReach cfg (runMsgs cfg w l) := by
  induction l generalizing w with
  | nil => exact h
  | cons x xs ih => exact ih (h.step _ _)

/-- All commands the coroutine could ever issue, whatever their results are, satisfy `P`. -/
def Issues (P : {β : Type} → Cmd β → Prop) {α : Type} : Prog α → Prop
  | .pure _ => True
  | .throw _ => True
  | .cmd c k => P c ∧ ∀ r, Issues P (k r)

/-- Not a call on a provider. -/
def Cmd.noSend {β : Type} : Cmd β → Prop
  | .send _ => False
  | _ => True

/-! ### Reservations (C32, C33) -/

/-- Is it a reservation request? -/
def PCall.isReserve (c : PCall) : Prop := ∃ cid src dst start end_ bw, c.op = .reserve cid src dst start end_ bw

/-- The segment a call asks for. -/
def PCall.link (c : PCall) : Option Link :=
  match c.op with
  | .reserve _ src dst _ _ _ => some ⟨src, dst⟩
  | _ => none

/-- The outcomes of the next `n` calls. -/
def Oracle.outcomes (o : Oracle) (n : Nat) : List (Except Err Str) := (o.acks ++ List.replicate n (Except.ok [])).take n

/-- Segment `l` ends where segment `l'` starts: at the two ends of one configured inter-network link. -/
def Meets (cfg : Cfg) (l l' : Link) : Prop :=
  ∃ ports np, dget cfg.ports l.dst.network = some ports ∧ dget ports l.dst.port = some np ∧ l.dst.label = np.label ∧
    l'.src.label = np.label ∧ np.remoteNet = some l'.src.network ∧ np.remotePort = some l'.src.port

/-- A chain of segments from `src` to `dst`: all but the last inside one local network, consecutive ones meeting. -/
structure Chain (cfg : Cfg) (src dst : STP) (ls : List Link) : Prop where
  first : ls.head?.map (·.src) = some src
  last : ls.getLast?.map (·.dst) = some dst
  inside : ∀ l ∈ ls.dropLast, l.src.network = l.dst.network ∧ cfg.isLocal l.src.network = true
  meet : ls.IsChain (Meets cfg)

/-- What must be sent to clean up: for each accepted call the terminate of the segment it was accepted as, on the same
provider object. -/
def cleanup (calls : List PCall) (results : List (Except Err Str)) : List (Nat × POp) :=
  (calls.zip results).filterMap fun
    | (c, .ok sc) => some (c.handle, .terminate sc)
    | (_, .error _) => none

end OpenNSA.Agg
