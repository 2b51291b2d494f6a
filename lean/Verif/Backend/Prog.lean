import Verif.Label.Model
import Verif.Stp.Model
import Verif.State.Model
import Verif.Calendar.Model
import Verif.Authz.Model
/-
The world a network backend works on, the commands its coroutines issue, and programs over these commands.
Models the environment of /repo/opennsa/backends/common/genericbackend.py: database rows and the in-memory row objects
(Twistar `DBObject`), calendar, call scheduler, clock, network device, parent requester.

A coroutine (`inlineCallbacks` generator) is a `Prog`: a tree of commands. `yield`ed database, device and parent calls are
asynchronous commands: between issuing one and being resumed, other coroutines may run. All other commands are executed
without interruption. The same programs are run in two ways: to completion (`Prog.run`, this file) and interleaved
(Verif/Backend/Conc.lean).
-/
namespace OpenNSA.Backend
open OpenNSA Py

/-- Exceptions, by class (error.py, Python built-ins). `device` and `parent` stand for whatever the connection manager or the
parent requester raises. -/
inductive Err
  | nonExistent | value | connectionCreate | stpUnavailable | unauthorized | service | topology | vlanInterchange | gone
  | connection | invalidTransition | internal | key | assertion | attribute | type | runtime | payload | db | device | parent
  deriving DecidableEq, Repr

/-- A single label value with its type, as allocated to a connection (genericbackend.py:283: `nsa.Label(label.type_, lv)`). -/
abbrev LabelVal := Str × Int

/-- A row of table `generic_backend_connections` (datafiles/schema.sql) as far as the code decides on it; created at
genericbackend.py:350-356. Not modelled: global id, description, revision (always 0), bandwidth, symmetry, directionality
(carried along unchanged) and the network columns (always this backend's network, lines 233-236). -/
structure Row where
  cid : Str
  requester : Str
  reserveTime : Time
  st : ConnStates
  active : Bool
  allocated : Bool
  srcPort : Str
  srcLabel : Option LabelVal
  dstPort : Str
  dstLabel : Option LabelVal
  start : Option Time
  end_ : Option Time
  deriving DecidableEq, Repr

/-- An in-memory row object (Twistar `DBObject`). `isNew`: not stored yet, so `save` inserts. -/
structure Obj where
  row : Row
  isNew : Bool
  deriving DecidableEq, Repr

/-- The three calls the backend schedules (genericbackend.py:126, 135, 154, ...). -/
inductive Act
  | reserveTimeout | endtime | activate
  deriving DecidableEq, Repr

/-- Entry of the scheduler's table (scheduler.py:31, 53-55): due time, call with its argument (a row object), and whether it
has been called. -/
structure Timer where
  due : Time
  act : Act
  ref : Nat
  called : Bool
  deriving DecidableEq, Repr

/-- Calls on the parent requester. Headers are not modelled, except the correlation id of the reservation being confirmed. -/
inductive Msg
  | reserveConfirmed (corr cid : Str) (src dst : Option LabelVal) (start end_ : Option Time)   -- genericbackend.py:596
  | reserveCommitConfirmed (cid : Str)                                                        -- line 387
  | reserveAbortConfirmed (cid : Str)                                                         -- line 406
  | provisionConfirmed (cid : Str)                                                            -- line 446
  | releaseConfirmed (cid : Str)                                                              -- line 481
  | terminateConfirmed (cid : Str)                                                            -- line 513
  | reserveTimeout (cid : Str) (notif : Nat)                                                  -- line 611
  | activateFailed (cid : Str) (notif : Nat)                                                  -- line 670
  | deactivateFailed (cid : Str) (notif : Nat)                                                -- line 719
  | dataPlane (cid : Str) (notif : Nat) (active : Bool)                                       -- lines 694, 731
  deriving DecidableEq, Repr

/-- Outcome of a device operation: success, or failure; a failed operation may nevertheless have had its effect. -/
inductive Dev
  | ok
  | failed (happened : Bool)
  deriving DecidableEq, Repr

/-- Choices of the environment: connection ids generated by `createConnectionId`, device outcomes, whether the parent's
(yielded) calls succeed, and how much the clock advances before each command. When a list runs out: empty id, success,
success, no advance. -/
structure Oracle where
  ids : List Str := []
  devs : List Dev := []
  parents : List Bool := []
  ticks : List Nat := []
  deriving DecidableEq, Repr

/-- Everything the coroutines act on. -/
structure World where
  rows : List Row                -- the database table (rows of this backend's network)
  otherIds : List Str            -- connection ids in the same table belonging to other backends
  heap : List Obj                -- row objects in memory
  cal : Cal                      -- genericbackend.py:58
  tbl : List (Str × Timer)       -- genericbackend.py:57, scheduler.py:31
  links : List Str               -- connections whose link is set up on the device
  notif : Nat                    -- genericbackend.py:55
  outbox : List Msg              -- calls made on the parent requester so far
  clk : Time
  orc : Oracle
  deriving DecidableEq, Repr

/-- Commands, indexed by the type of their result. -/
inductive Cmd : Type → Type
  | find (cid : Str) : Cmd (Option Nat)          -- `findBy(... connection_id=...)`, genericbackend.py:176
  | findLive : Cmd (List Nat)                    -- line 89
  | save (ref : Nat) : Cmd Unit                  -- `conn.save()`
  | setup (cid : Str) : Cmd Unit                 -- `connection_manager.setupLink`, line 658
  | teardown (cid : Str) : Cmd Unit              -- `connection_manager.teardownLink`, line 708
  | call (m : Msg) : Cmd Unit                    -- yielded call on the parent requester
  | tell (m : Msg) : Cmd Unit                    -- call on the parent requester, not yielded
  | getObj (ref : Nat) : Cmd Row                 -- attribute reads on a row object
  | setObj (ref : Nat) (row : Row) : Cmd Unit    -- attribute assignment
  | newObj (row : Row) : Cmd Nat                 -- `GenericBackendConnections(...)`, line 350
  | now : Cmd Time                               -- `datetime.datetime.utcnow()`
  | calCheck (r : Resv) : Cmd Unit
  | calAdd (r : Resv) : Cmd Unit
  | calRemove (r : Resv) : Cmd Unit
  | sched (cid : Str) (t : Time) (act : Act) (ref : Nat) : Cmd Unit
  | cancel (cid : Str) : Cmd Unit
  | hasCall (cid : Str) : Cmd Bool
  | newId : Cmd Str                              -- `connection_manager.createConnectionId`, line 345
  | notifId : Cmd Nat                            -- `getNotificationId`, lines 79-82

/-- Commands during which other coroutines may run. -/
def Cmd.isAsync {β : Type} : Cmd β → Bool
  | .find _ | .findLive | .save _ | .setup _ | .teardown _ | .call _ => true
  | _ => false

/-- Coroutine bodies. -/
inductive Prog : Type → Type 1
  | pure {α : Type} (a : α) : Prog α
  | throw {α : Type} (e : Err) : Prog α
  | cmd {α β : Type} (c : Cmd β) (k : Except Err β → Prog α) : Prog α
  | spawn {α : Type} (p : Prog Unit) (k : Prog α) : Prog α    -- start a coroutine without waiting for it

namespace Prog

/-- Sequencing. -/
def bind {α β : Type} : Prog α → (α → Prog β) → Prog β
  | .pure a, f => f a
  | .throw e, _ => .throw e
  | .cmd c k, f => .cmd c fun r => bind (k r) f
  | .spawn p k, f => .spawn p (bind k f)

/-- `try: ... except Exception as e: ...` -/
def tryCatch {α : Type} : Prog α → (Err → Prog α) → Prog α
  | .pure a, _ => .pure a
  | .throw e, h => h e
  | .cmd c k, h => .cmd c fun r => tryCatch (k r) h
  | .spawn p k, h => .spawn p (tryCatch k h)

instance : Monad Prog where
  pure := Prog.pure
  bind := Prog.bind

/-- Issue a command; its exception propagates. -/
def issue {β : Type} (c : Cmd β) : Prog β :=
  .cmd c fun | .ok b => .pure b | .error e => .throw e

/-- Raise or return. -/
def ofExcept {α : Type} : Except Err α → Prog α
  | .ok a => .pure a
  | .error e => .throw e

end Prog

/-! ### Execution of commands -/

/-- The clock advances by the next amount the environment chooses. -/
def World.advance (w : World) : World :=
  match w.orc.ticks with
  | [] => w
  | t :: ts => { w with clk := w.clk + (t : Int), orc := { w.orc with ticks := ts } }

/-- Write a row (SQL UPDATE of all columns of the row). -/
def setRow (rows : List Row) (row : Row) : List Row := rows.map fun r => if r.cid = row.cid then row else r

/-- Is there a row with that connection id? (UNIQUE constraint on connection_id, schema.sql) -/
def World.idTaken (w : World) (cid : Str) : Bool := w.rows.any (fun r => r.cid = cid) || decide (cid ∈ w.otherIds)

/-- Result of a calendar operation as exception of the backend. -/
def calErr : CalErr → Err
  | .payload => .payload
  | .unavailable => .stpUnavailable
  | .assertion => .assertion
  | .value => .value

/-- Next device outcome. -/
def World.dev (w : World) : Dev × World :=
  match w.orc.devs with
  | [] => (.ok, w)
  | d :: ds => (d, { w with orc := { w.orc with devs := ds } })

/-- Execute a command (after the clock advance). -/
def execAt {β : Type} (w : World) : Cmd β → World × Except Err β
  | .find cid =>
    match w.rows.find? (fun r => r.cid = cid) with
    | none => (w, .ok none)
    | some r => ({ w with heap := w.heap ++ [⟨r, false⟩] }, .ok (some w.heap.length))
  | .findLive =>
    let live := w.rows.filter fun r => r.st.l ≠ .terminated
    ({ w with heap := w.heap ++ live.map fun r => ⟨r, false⟩ },
      .ok ((List.range live.length).map fun i => w.heap.length + i))
  | .save ref =>
    match w.heap[ref]? with
    | none => (w, .error .attribute)                         -- no such object: cannot happen
    | some o =>
      if o.isNew then
        if w.idTaken o.row.cid then (w, .error .db)          -- UNIQUE violation
        else ({ w with rows := w.rows ++ [o.row], heap := w.heap.set ref ⟨o.row, false⟩ }, .ok ())
      else ({ w with rows := setRow w.rows o.row }, .ok ())
  | .setup cid =>
    match w.dev with
    | (.ok, w) => ({ w with links := cid :: w.links }, .ok ())
    | (.failed b, w) => (if b then { w with links := cid :: w.links } else w, .error .device)
  | .teardown cid =>
    match w.dev with
    | (.ok, w) => ({ w with links := w.links.filter (· ≠ cid) }, .ok ())
    | (.failed b, w) => (if b then { w with links := w.links.filter (· ≠ cid) } else w, .error .device)
  | .call m =>
    let w := { w with outbox := w.outbox ++ [m] }
    match w.orc.parents with
    | [] => (w, .ok ())
    | b :: bs => ({ w with orc := { w.orc with parents := bs } }, if b then .ok () else .error .parent)
  | .tell m => ({ w with outbox := w.outbox ++ [m] }, .ok ())
  | .getObj ref => match w.heap[ref]? with | none => (w, .error .attribute) | some o => (w, .ok o.row)
  | .setObj ref row =>
    match w.heap[ref]? with
    | none => (w, .error .attribute)
    | some o => ({ w with heap := w.heap.set ref { o with row } }, .ok ())
  | .newObj row => ({ w with heap := w.heap ++ [⟨row, true⟩] }, .ok w.heap.length)
  | .now => (w, .ok w.clk)
  | .calCheck r => (w, match w.cal.check w.clk r with | .ok _ => .ok () | .error e => .error (calErr e))
  | .calAdd r => ({ w with cal := w.cal.add r }, .ok ())
  | .calRemove r => match w.cal.remove r with | .ok c => ({ w with cal := c }, .ok ()) | .error e => (w, .error (calErr e))
  | .sched cid t act ref =>                                                       -- scheduler.py:35-56
    match dget w.tbl cid with
    | some ⟨_, _, _, false⟩ => (w, .error .assertion)                             -- line 40
    | _ =>
      if t < w.clk - second then (w, .error .assertion)                           -- line 47
      else ({ w with tbl := dset w.tbl cid ⟨max t w.clk, act, ref, false⟩ }, .ok ())
  | .cancel cid => ({ w with tbl := ddel w.tbl cid }, .ok ())                     -- scheduler.py:63-68
  | .hasCall cid => (w, .ok (dmem w.tbl cid))                                     -- scheduler.py:59-60
  | .newId =>
    match w.orc.ids with
    | [] => (w, .ok [])
    | i :: is => ({ w with orc := { w.orc with ids := is } }, .ok i)
  | .notifId => ({ w with notif := w.notif + 1 }, .ok w.notif)

/-- Execute a command. -/
def exec {β : Type} (w : World) (c : Cmd β) : World × Except Err β := execAt w.advance c

/-- Run a coroutine to completion, without interleaving; a coroutine it starts is run to completion first. -/
def Prog.run {α : Type} : Prog α → World → World × Except Err α
  | .pure a, w => (w, .ok a)
  | .throw e, w => (w, .error e)
  | .cmd c k, w => let r := exec w c; (k r.2).run r.1
  | .spawn p k, w => k.run (p.run w).1

end OpenNSA.Backend
