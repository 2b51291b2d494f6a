import Verif.PyLemmas
/-
Model of /repo/opennsa/protocols/nsi2/requester.py (and of the dispatch to it in requesterservice.py).
-/
namespace OpenNSA.Requester
open Py

/-- requester.py:14-19. -/
inductive Action
  | reserve | reserveCommit | provision | release | terminate | queryRecursive
  deriving DecidableEq, Repr

/-- The reply messages for which `RequesterService.__init__` registers a decoder, requesterservice.py:25-36. -/
inductive Reply
  | reserveConfirmed | reserveFailed | reserveCommitConfirmed | reserveCommitFailed | reserveAbortConfirmed
  | provisionConfirmed | releaseConfirmed | terminateConfirmed | querySummaryConfirmed | queryRecursiveConfirmed
  deriving DecidableEq, Repr

/-- The action a reply message triggers. `none`: `Requester` has no method of that name, so that
`self.requester.<method>` raises `AttributeError` (requesterservice.py:111, 117, 151). -/
def Reply.action : Reply → Option Action
  | .reserveConfirmed => some .reserve                    -- requester.py:88-91
  | .reserveFailed => some .reserve                       -- requester.py:94-96
  | .reserveCommitConfirmed => some .reserveCommit        -- requester.py:112-114
  | .reserveCommitFailed => none
  | .reserveAbortConfirmed => none
  | .provisionConfirmed => some .provision                -- requester.py:129-131
  | .releaseConfirmed => some .release                    -- requester.py:150-152
  | .terminateConfirmed => some .terminate                -- requester.py:172-174
  | .querySummaryConfirmed => none
  | .queryRecursiveConfirmed => some .queryRecursive      -- requester.py:211-213

/-- Key of `self.calls`: provider NSA and correlation id, requester.py:38. -/
abbrev Key := Str × Str

/-- What a call completes with. Payloads are opaque texts. -/
inductive Result
  | reply (r : Reply) (payload : Str)
  | invocationFailed (err : Str)
  | timeout
  deriving DecidableEq, Repr

/-- `Requester`, requester.py:25-33, with the pending timers of the reactor and the deferreds that were fired.
A call, its deferred and its timer are named by one number. -/
structure Req where
  /-- `self.calls`: action, deferred and timer, line 43 -/
  calls : List (Key × (Action × Nat))
  /-- timers that neither fired nor were cancelled, line 42 -/
  timers : List (Nat × (Key × Action))
  /-- deferreds fired, oldest first, lines 69-72 -/
  done : List (Nat × Result)
  deriving DecidableEq, Repr

/-- `Requester.__init__`. -/
def Req.new : Req := ⟨[], [], []⟩

/-- `addCall`, requester.py:36-44. `none`: the assertion of line 39 fails (nothing is changed). -/
def Req.addCall (s : Req) (id : Nat) (key : Key) (act : Action) : Option Req :=
  if dmem s.calls key then none                                              -- line 39
  else some { s with timers := dset s.timers id (key, act),                  -- line 42
                     calls := dset s.calls key (act, id) }                   -- line 43

/-- `triggerCall`, requester.py:53-72. The assertion of line 63 comes after the call was removed. -/
def Req.triggerCall (s : Req) (key : Key) (act : Action) (res : Result) : Req :=
  match dget s.calls key with
  | none => s                                                                -- lines 58-60
  | some (ract, id) =>
    let s := { s with calls := ddel s.calls key }                            -- line 57
    if ract ≠ act then s                                                     -- line 63, AssertionError
    else { s with timers := ddel s.timers id,                                -- lines 66-67
                  done := s.done ++ [(id, res)] }                            -- lines 69-72

/-- What happens at a requester. -/
inductive Ev
  /-- one of `reserve`, `reserveCommit`, ... is called, requester.py:75-85 and the like -/
  | call (id : Nat) (key : Key) (act : Action)
  /-- the errback on the invocation runs, requester.py:77-80 and the like -/
  | failed (key : Key) (act : Action) (err : Str)
  /-- a reply arrives, requesterservice.py:65-164 -/
  | reply (r : Reply) (key : Key) (payload : Str)
  /-- the reactor runs the timer of call `id`, requester.py:47-50 -/
  | fire (id : Nat)
  deriving DecidableEq, Repr

/-- One event. -/
def Req.step (s : Req) : Ev → Req
  | .call id key act => (s.addCall id key act).getD s
  | .failed key act err => s.triggerCall key act (.invocationFailed err)
  | .reply r key payload => match r.action with
    | none => s                                                              -- AttributeError
    | some act => s.triggerCall key act (.reply r payload)
  | .fire id => match dget s.timers id with
    | none => s                                                              -- fired before, or cancelled
    | some (key, act) => { s with timers := ddel s.timers id }.triggerCall key act .timeout

/-- A history. -/
def Req.run (s : Req) (evs : List Ev) : Req := evs.foldl Req.step s

end OpenNSA.Requester
