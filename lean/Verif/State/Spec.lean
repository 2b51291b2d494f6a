import Verif.State.Model
/-
The NSI state machines as relations, and paths of connection states.
-/
namespace OpenNSA

/-- Edges of the NSI reservation state machine (with OpenNSA's 'checking' also used for local checks). -/
inductive REdge : RState → RState → Prop
  | check : REdge .start .checking
  | hold : REdge .checking .held
  | fail : REdge .checking .failed
  | commit : REdge .held .committing
  | committed : REdge .committing .start
  | abort : REdge .held .aborting
  | expire : REdge .held .timeout
  | abortFailed : REdge .failed .aborting
  | abortTimeout : REdge .timeout .aborting
  | aborted : REdge .aborting .start

/-- Edges of the provision state machine; repeating a request in progress is allowed. -/
inductive PEdge : PState → PState → Prop
  | provision : PEdge .released .provisioning
  | reprovision : PEdge .provisioning .provisioning
  | provisioned : PEdge .provisioning .provisioned
  | release : PEdge .provisioned .releasing
  | rerelease : PEdge .releasing .releasing
  | released : PEdge .releasing .released

/-- Edges of the lifecycle state machine. -/
inductive LEdge : LState → LState → Prop
  | fail : LEdge .created .failed
  | pass : LEdge .created .passedEnd
  | terminate (a : LState) : a ≠ .terminated → LEdge a .terminating
  | terminated (a : LState) : a = .created ∨ a = .terminating → LEdge a .terminated

/-- One NSI step: exactly one machine moves, along an edge. -/
inductive NsiStep : ConnStates → ConnStates → Prop
  | r {c : ConnStates} {s : RState} : REdge c.r s → NsiStep c { c with r := s }
  | p {c : ConnStates} {s : PState} : PEdge c.p s → NsiStep c { c with p := s }
  | l {c : ConnStates} {s : LState} : LEdge c.l s → NsiStep c { c with l := s }

/-- A sequence of states following `c`, each one NSI step after the previous. -/
inductive NsiPath : ConnStates → List ConnStates → Prop
  | nil {c} : NsiPath c []
  | cons {c d ds} : NsiStep c d → NsiPath d ds → NsiPath c (d :: ds)

/-- Observers reached when walking a list in which the members of `D` remove themselves while being called:
the observer right after a self-removing one is passed over. -/
def skipWalk {α : Type} (D : α → Bool) : List α → List α
  | [] => []
  | [x] => [x]
  | x :: y :: rest => if D x then x :: skipWalk D rest else x :: skipWalk D (y :: rest)

end OpenNSA
