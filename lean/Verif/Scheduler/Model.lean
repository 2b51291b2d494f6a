import Verif.Calendar.Model
/-
Model of /repo/opennsa/backends/common/scheduler.py: `CallScheduler`, one future call per connection.
The Twisted clock is modelled by: delayed calls become due at `now + delay`; due, uncancelled calls fire once.
-/
namespace OpenNSA
open Py

/-- Status of a delayed call (a `task.deferLater` Deferred, scheduler.py:53): waiting, fired at a time, or cancelled.
`sched_call.called` (line 40) is true exactly when it is not waiting. -/
inductive CallSt
  | pending
  | fired (t : Time)
  | cancelled
  deriving DecidableEq, Repr

/-- A delayed call: connection, requested transition time, time at which the clock will fire it, status. The callable
itself is represented by the call's index. -/
structure Call where
  conn : Str
  want : Time
  due : Time
  st : CallSt
  deriving DecidableEq, Repr

/-- `CallScheduler` with its clock: `calls` are all delayed calls ever made (index = identity), `tbl` is
`self.scheduled_calls` (scheduler.py:31). -/
structure Sched where
  now : Time
  calls : List Call
  tbl : List (Str × Nat)
  deriving DecidableEq, Repr

/-- Empty scheduler, scheduler.py:30-32. -/
def Sched.init (now : Time) : Sched := ⟨now, [], []⟩

/-- Operations. `schedule`, `cancel`, `cancelAll` are the methods of lines 35-74; `tick` is the passing of time and
`fire` is the clock running a due call. -/
inductive SchedOp
  | schedule (conn : Str) (t : Time)
  | cancel (conn : Str)
  | cancelAll
  | tick (t : Time)
  | fire (i : Nat)
  deriving DecidableEq, Repr

/-- Results: nothing, AssertionError, call `i` created, or call `i` run. -/
inductive SchedOut
  | none
  | assertion
  | created (i : Nat)
  | ran (i : Nat)
  deriving DecidableEq, Repr

/-- Set the status of call `i` if it is pending: `Deferred.cancel()` on a Deferred that already fired does not
un-fire it (lines 66, 73). -/
def cancelIdx (calls : List Call) (i : Nat) : List Call :=
  calls.modify i fun c => if c.st = .pending then { c with st := .cancelled } else c

/-- Lines 38-42: is there a scheduled call that has not been called yet? -/
def Sched.hasUncalled (s : Sched) (conn : Str) : Bool :=
  match dget s.tbl conn with
  | none => false
  | some i => match s.calls[i]? with
    | none => false
    | some c => c.st = .pending

/-- One operation. -/
def Sched.step (s : Sched) : SchedOp → Sched × SchedOut
  | .schedule conn t =>                                               -- scheduler.py:35-56
    if s.hasUncalled conn then (s, .assertion)                        -- line 40
    else if ¬ (t ≥ s.now - second) then (s, .assertion)               -- line 47
    else
      let delay := max (t - s.now) 0                                  -- lines 49-51
      ({ s with calls := s.calls ++ [⟨conn, t, s.now + delay, .pending⟩],
                tbl := dset s.tbl conn s.calls.length }, .created s.calls.length)
  | .cancel conn =>                                                   -- scheduler.py:63-68
    match dget s.tbl conn with
    | none => (s, .none)
    | some i => ({ s with calls := cancelIdx s.calls i, tbl := ddel s.tbl conn }, .none)
  | .cancelAll =>                                                     -- scheduler.py:71-74
    ({ s with calls := s.tbl.foldl (fun cs e => cancelIdx cs e.2) s.calls, tbl := [] }, .none)
  | .tick t => (if s.now ≤ t then { s with now := t } else s, .none)
  | .fire i =>
    match s.calls[i]? with
    | none => (s, .none)
    | some c =>
      if c.st = .pending ∧ c.due ≤ s.now then
        ({ s with calls := s.calls.modify i fun c => { c with st := .fired s.now } }, .ran i)
      else (s, .none)

/-- `hasScheduledCall`, scheduler.py:59-60. -/
def Sched.has (s : Sched) (conn : Str) : Bool := dmem s.tbl conn

/-- State after a history. -/
def Sched.run (s : Sched) : List SchedOp → Sched
  | [] => s
  | o :: os => (s.step o).1.run os

/-- Results of a history, each with the clock time at which it was produced. -/
def Sched.outs (s : Sched) : List SchedOp → List (Time × SchedOut)
  | [] => []
  | o :: os => (s.now, (s.step o).2) :: (s.step o).1.outs os

end OpenNSA
