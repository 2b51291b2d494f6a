import Verif.Backend.Model
/-
Interleaved execution of the backend's coroutines (the programs of Model.lean).

A coroutine runs without interruption up to an asynchronous command (`Cmd.isAsync`: database, device and parent calls). There it
is suspended: the command is executed at some later moment (`perform`), and at some still later moment its result is delivered
and the coroutine continues (`resume`). Which coroutine makes progress when is decided by a schedule. Twisted runs all of this in
one thread, apart from the database operations, which a thread pool executes in no particular order (Twistar, adbapi).

`save` writes the attributes the row object has when it is executed, not those it had when `save` was called: Twistar builds the
UPDATE in the database thread (simplification: reading the attributes and writing the row is one step).

Cancelling a scheduled call that is running already (scheduler.py:63-68) throws CancelledError into the coroutine of that call,
unless it is the one that cancels; a database command it waits for is executed all the same. Simplification: the coroutine
continues at some later moment, not within `cancelCall`.

A restart ends all coroutines; what the device has been told to do it may still do afterwards. Simplification: database commands
under way are executed before the restart (`perform`) or not at all.
-/
namespace OpenNSA.Backend
open OpenNSA Py Prog

/-- What a suspended coroutine waits for; `fin` makes the answer from its result. -/
inductive Susp : Type 1
  | waiting {α β : Type} (c : Cmd β) (k : Except Err β → Prog α) (fin : Except Err α → Except Err (Option Str))
  | performed {α β : Type} (k : Except Err β → Prog α) (r : Except Err β) (fin : Except Err α → Except Err (Option Str))

/-- A suspended coroutine: number, the connection whose scheduled call it is (as long as `scheduled_calls` refers to it). -/
structure Task where
  id : Nat
  owner : Option Str
  susp : Susp

/-- World, suspended coroutines, answers given so far, next number. -/
structure Conc where
  w : World
  tasks : List Task := []
  done : List (Nat × Except Err (Option Str)) := []
  next : Nat := 0

/-- Throw CancelledError into a suspended coroutine; the command it waits for is executed nevertheless (by a task of its own). The
class of the exception does not matter to the coroutines (all `except` clauses concerned catch `Exception`). -/
def Task.cancelled (n : Nat) (t : Task) : List Task :=
  match t.susp with
  | .waiting c k fin =>
    [⟨t.id, none, .performed (β := Unit) (fun _ => k (.error .runtime)) (.ok ()) fin⟩,
     ⟨n, none, .waiting c (fun _ => Prog.pure ()) (fun _ => .ok none)⟩]
  | .performed k _ fin => [⟨t.id, none, .performed (β := Unit) (fun _ => k (.error .runtime)) (.ok ()) fin⟩]

/-- `cancelCall`, scheduler.py:63-68, as far as running calls are concerned. -/
def Conc.cancelCall (c : Conc) (cid : Str) : Conc :=
  { c with
    tasks := c.tasks.flatMap fun t => if t.owner = some cid then t.cancelled c.next else [t]
    next := c.next + 1 }

/-- `scheduled_calls[cid]` is replaced, scheduler.py:55: a running call cannot be cancelled any more. -/
def Conc.disown (c : Conc) (cid : Str) : Conc :=
  { c with tasks := c.tasks.map fun t => if t.owner = some cid then { t with owner := none } else t }

/-- What a command does to running scheduled calls; `w`: the world before; `ok`: the command succeeded. -/
def Conc.affect {β : Type} (c : Conc) (w : World) (ok : Bool) : Cmd β → Conc
  | .cancel cid => if dmem w.tbl cid then c.cancelCall cid else c
  | .sched cid _ _ _ => if ok then c.disown cid else c
  | _ => c

/-- Success? -/
def isOk {β : Type} : Except Err β → Bool
  | .ok _ => true
  | .error _ => false

/-- A command executed without suspension. -/
def Conc.sync {β : Type} (c : Conc) (x : Cmd β) : Conc × Except Err β :=
  ({ c with w := (exec c.w x).1 }.affect c.w (isOk (exec c.w x).2) x, (exec c.w x).2)

/-- Run a coroutine up to its first asynchronous command. A coroutine it starts is run in the same way, before it continues. -/
def Conc.runSync {α : Type} (id : Nat) (owner : Option Str) : Prog α → (Except Err α → Except Err (Option Str)) → Conc → Conc
  | .pure a, fin, c => { c with done := c.done ++ [(id, fin (.ok a))] }
  | .throw e, fin, c => { c with done := c.done ++ [(id, fin (.error e))] }
  | .cmd x k, fin, c =>
    if x.isAsync then { c with tasks := c.tasks ++ [⟨id, owner, .waiting x k fin⟩] }
    else let r := c.sync x; runSync id owner (k r.2) fin r.1
  | .spawn p k, fin, c => runSync id owner k fin (runSync c.next none p (fun _ => .ok none) { c with next := c.next + 1 })

/-- Scheduling choices. Tasks are referred to by their number. -/
inductive Choice
  | start (h : Hdr) (q : Req)       -- a request arrives
  | fire (cid : Str)                -- the reactor runs the scheduled call of a connection, if due
  | perform (id : Nat)              -- the command a coroutine waits for is executed
  | resume (id : Nat)               -- its result is delivered
  | wait (us : Nat)                 -- time passes
  | restart                         -- the process is restarted

/-- Replace the first task with the given number by others. -/
def takeTask (id : Nat) : List Task → Option (Task × List Task)
  | [] => none
  | t :: ts => if t.id = id then some (t, ts) else (takeTask id ts).map fun (u, us) => (u, t :: us)

/-- The commands the device executes. -/
def Cmd.isDevice {β : Type} : Cmd β → Bool
  | .setup _ | .teardown _ => true
  | _ => false

/-- What is left of a coroutine when the process dies: a command the device has been given already. -/
def Task.orphan (t : Task) : Option Task :=
  match t.susp with
  | .waiting c _ _ => if c.isDevice then some ⟨t.id, none, .waiting c (fun _ => Prog.pure ()) (fun _ => .ok none)⟩ else none
  | .performed _ _ _ => none

/-- One scheduling step. -/
def Conc.step (cfg : Cfg) (c : Conc) (o : Oracle) (ch : Choice) : Conc :=
  let c : Conc := { c with w := { c.w with orc := o } }
  match ch with
  | .start h q => runSync c.next none (q.prog cfg h) id { c with next := c.next + 1 }
  | .fire cid =>
    match dget c.w.tbl cid with
    | some ⟨due, act, ref, false⟩ =>
      if due ≤ c.w.clk then
        runSync c.next (some cid) (actProg cfg act ref) (fun r => r.map fun _ => none)
          { c with w := { c.w with tbl := dset c.w.tbl cid ⟨due, act, ref, true⟩ }, next := c.next + 1 }
      else c
    | _ => c
  | .perform n =>
    match takeTask n c.tasks with
    | some (⟨_, owner, .waiting x k fin⟩, ts) =>
      let r := exec c.w x
      { c with w := r.1, tasks := ts ++ [⟨n, owner, .performed k r.2 fin⟩] }
    | _ => c
  | .resume n =>
    match takeTask n c.tasks with
    | some (⟨_, owner, .performed k r fin⟩, ts) => runSync n owner (k r) fin { c with tasks := ts }
    | _ => c
  | .wait us => { c with w := { c.w with clk := c.w.clk + (us : Int) } }
  | .restart =>
    runSync c.next none (buildSchedule cfg) (fun r => r.map fun _ => none)
      { c with w := c.w.reboot, tasks := c.tasks.filterMap Task.orphan, next := c.next + 1 }

/-- A schedule. -/
def Conc.run (cfg : Cfg) (c : Conc) : List (Oracle × Choice) → Conc
  | [] => c
  | (o, ch) :: s => Conc.run cfg (c.step cfg o ch) s

end OpenNSA.Backend
