import Verif.PyLemmas
/-
Model of /repo/opennsa/state.py: state tables, state switches, observers.
-/
namespace OpenNSA
open Py

/-- Reservation states, state.py:16-23. -/
inductive RState
  | start | checking | held | committing | failed | aborting | timeout
  deriving DecidableEq, Repr

/-- Provision states, state.py:25-29. -/
inductive PState
  | released | provisioning | provisioned | releasing
  deriving DecidableEq, Repr

/-- Lifecycle states, state.py:31-36. -/
inductive LState
  | created | failed | passedEnd | terminating | terminated
  deriving DecidableEq, Repr

/-- `RESERVE_TRANSITIONS`, state.py:39-47. -/
def reserveTransitions : RState → List RState
  | .start => [.checking]
  | .checking => [.held, .failed]
  | .held => [.committing, .aborting, .timeout]
  | .committing => [.start]
  | .failed => [.aborting]
  | .timeout => [.aborting]
  | .aborting => [.start]

/-- `PROVISION_TRANSITIONS`, state.py:55-60. -/
def provisionTransitions : PState → List PState
  | .released => [.provisioning]
  | .provisioning => [.provisioning, .provisioned]
  | .provisioned => [.releasing]
  | .releasing => [.releasing, .released]

/-- `LIFECYCLE_TRANSITIONS`, state.py:62-68. -/
def lifecycleTransitions : LState → List LState
  | .created => [.failed, .passedEnd, .terminating, .terminated]
  | .failed => [.terminating]
  | .passedEnd => [.terminating]
  | .terminating => [.terminating, .terminated]
  | .terminated => []

/-- The three state attributes of a connection row (database.py, tables `service_connections` and
`generic_backend_connections`: columns reservation_state, provision_state, lifecycle_state). -/
structure ConnStates where
  r : RState
  p : PState
  l : LState
  deriving DecidableEq, Repr

/-- States of a freshly created row, genericbackend.py:336-338, aggregator.py:258-260. -/
def ConnStates.fresh : ConnStates := ⟨.start, .released, .created⟩

/-- A reserve switch on the in-memory object: `_switchState` (state.py:100-104) then the assignment
(e.g. lines 110-111). `none`: InternalServerError, object unchanged. -/
def switchR (c : ConnStates) (s : RState) : Option ConnStates :=
  if s ∈ reserveTransitions c.r then some { c with r := s } else none

/-- A provision switch, state.py:154-172. -/
def switchP (c : ConnStates) (s : PState) : Option ConnStates :=
  if s ∈ provisionTransitions c.p then some { c with p := s } else none

/-- A lifecycle switch, state.py:176-194. -/
def switchL (c : ConnStates) (s : LState) : Option ConnStates :=
  if s ∈ lifecycleTransitions c.l then some { c with l := s } else none

/-- State change requests: one per setter of state.py:109-194, plus `reserveMultiSwitch`. The setters differ
only in their target state. -/
inductive StateReq
  | reserve (s : RState)          -- state.py:109-142
  | multi (ss : List RState)      -- state.py:144-149
  | provision (s : PState)        -- state.py:154-172
  | lifecycle (s : LState)        -- state.py:176-194
  deriving DecidableEq, Repr

/-- The loop of `reserveMultiSwitch`, state.py:146-148: object states after each assignment, and whether all
switches were allowed. -/
def multiLoop (c : ConnStates) : List RState → List ConnStates × Bool
  | [] => ([], true)
  | s :: ss =>
    match switchR c s with
    | none => ([], false)
    | some c' => let r := multiLoop c' ss; (c' :: r.1, r.2)

/-- One request on the in-memory object: the object states after each assignment made, and whether the
request was accepted (and hence saved by `saveNotify`). -/
def stateReq (c : ConnStates) : StateReq → List ConnStates × Bool
  | .reserve s => match switchR c s with | none => ([], false) | some c' => ([c'], true)
  | .multi ss => multiLoop c ss
  | .provision s => match switchP c s with | none => ([], false) | some c' => ([c'], true)
  | .lifecycle s => match switchL c s with | none => ([], false) | some c' => ([c'], true)

/-- An in-memory connection object together with its stored row. -/
structure ConnObj where
  mem : ConnStates
  db : ConnStates
  deriving DecidableEq, Repr

/-- One request on an object with its row: the object moves along the assignments; the row is written
(`conn.save()`, state.py:95) only if the request was accepted. -/
def ConnObj.step (o : ConnObj) (q : StateReq) : ConnObj :=
  let r := stateReq o.mem q
  let mem := (o.mem :: r.1).getLast (by simp)
  { mem, db := if r.2 then mem else o.db }

/-- All states the object goes through in a history of requests. -/
def stateTrace (c : ConnStates) : List StateReq → List ConnStates
  | [] => []
  | q :: qs =>
    let vs := (stateReq c q).1
    vs ++ stateTrace ((c :: vs).getLast (by simp)) qs

/-! ### Observers -/

/-- `desubscribe`, state.py:76-77, on the list of the connection: `list.remove` removes the first occurrence
and raises ValueError (caught at line 87 when called from a callback) if there is none, changing nothing. -/
def desub {α : Type} [DecidableEq α] (l : List α) (f : α) : List α := l.erase f

/-- The notification loop, state.py:84-88: iteration over the live list by index. `rem f` lists the observers
that `f` removes when called. Returns the observers called. Callbacks that add observers are not
modelled (no callback in /repo does). -/
def notifyLoop {α : Type} [DecidableEq α] (rem : α → List α) (l : List α) (i : Nat) : List α :=
  if h : i < l.length then
    let f := l[i]
    f :: notifyLoop rem ((rem f).foldl desub l) (i + 1)
  else []
termination_by l.length - i
decreasing_by
  have : ∀ (fs l : List α), (fs.foldl desub l).length ≤ l.length := by
    intro fs
    induction fs with
    | nil => simp
    | cons f fs ih => intro l; exact Nat.le_trans (ih _) (by unfold desub; exact List.length_erase_le)
  have := this (rem l[i]) l
  omega

/-- `notify` after a save, state.py:82-93: observers called for a subscription list. -/
def notifyAll {α : Type} [DecidableEq α] (rem : α → List α) (l : List α) : List α := notifyLoop rem l 0

end OpenNSA
