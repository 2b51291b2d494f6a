import Verif.Coro
import Verif.Stp.Model
import Verif.State.Model
import Verif.Authz.Model
import Verif.LinkVector.Model
import Verif.Calendar.Model
/-
The world the aggregator works on and the commands its coroutines issue. Models the environment of
/repo/opennsa/aggregator.py: the two database tables and the in-memory row objects (Twistar `DBObject`) with their caches, the
dictionaries of outstanding calls, the providers, and the parent requester.
-/
namespace OpenNSA.Agg
open OpenNSA Py

/-- Exceptions, by class (error.py, Python built-ins). `remote` is whatever a provider call failed with, with its message;
`aggregate` an exception made by `_createAggregateException` (aggregator.py:57) with its message. `hang`: does not end. -/
inductive Err
  | internal | connectionExists | notImplemented | security | connectionCreate | value | assertion | key | stpResolution
  | service | nonExistent | gone | attribute | type | db | unsupported | missing | hang
  | remote (cls msg : Str)
  | aggregate (create : Bool) (msg : Str)    -- ConnectionCreateError (true) or ConnectionError (false)
  deriving DecidableEq, Repr

/-- A row of table `service_connections` (datafiles/schema.sql), created at aggregator.py:239-253. Not modelled: global id,
description, revision (always 0), requester URL, symmetry, directionality, security attributes and trace (carried along). -/
structure CRow where
  key : Nat                     -- column `id`
  cid : Str
  requester : Str
  st : ConnStates
  src : STP                     -- source_network, source_port, source_label
  dst : STP
  start : Option Time
  end_ : Option Time
  bw : Int
  deriving DecidableEq, Repr

/-- A row of table `sub_connections`, created at aggregator.py:921-934. -/
structure SRow where
  key : Nat
  skey : Nat                    -- column `service_connection_id`
  cid : Str
  prov : Str
  order : Nat
  st : ConnStates
  dpActive : Bool
  dpVersion : Option Int
  dpCons : Option Bool
  src : STP
  dst : STP
  deriving DecidableEq, Repr

/-- Entry of `self.reservations`, aggregator.py:396-403. -/
structure Resv where
  prov : Str
  skey : Nat
  order : Nat
  srcNet : Str
  srcPort : Str
  dstNet : Str
  dstPort : Str
  deriving DecidableEq, Repr

/-- The operations called on a provider. `reserve` carries the connection id in the last element of the connection trace
(aggregator.py:381, 391). -/
inductive POp
  | reserve (traceCid : Str) (src dst : STP) (start end_ : Option Time) (bw : Int)   -- aggregator.py:408
  | commit (cid : Str)            -- line 477
  | abort (cid : Str)             -- line 517
  | provision (cid : Str)         -- line 567
  | release (cid : Str)           -- line 609
  | terminate (cid : Str)         -- lines 435, 649
  | query (cid : Str)             -- line 764
  deriving DecidableEq, Repr

/-- A call on a provider: the provider object, and the header's provider and correlation id. -/
structure PCall where
  handle : Nat
  prov : Str
  corr : Str
  op : POp
  deriving DecidableEq, Repr

/-- Aggregated data plane status: active, version, consistent. -/
abbrev DPS := Bool × Int × Bool

/-- What a query reports about a connection (`ConnectionInfo`, nsa.py:321-337) as far as it is not constant; `children` only
in recursive queries (what a provider answered is an opaque text). -/
structure Info where
  cid : Str
  requester : Str
  st : ConnStates
  dps : DPS
  src : STP
  dst : STP
  start : Option Time
  end_ : Option Time
  notif : Nat
  children : List Str
  deriving DecidableEq, Repr

/-- Calls on the parent requester; the first argument is the addressee (header's requester). -/
inductive Out
  | reserveConfirmed (to_ cid : Str) (src dst : STP) (start end_ : Option Time) (bw : Int)   -- aggregator.py:970
  | reserveFailed (to_ cid : Str)                       -- line 1005
  | reserveCommitConfirmed (to_ cid : Str)              -- line 1026
  | reserveAbortConfirmed (to_ cid : Str)               -- line 1048
  | provisionConfirmed (to_ cid : Str)                  -- line 1068
  | releaseConfirmed (to_ cid : Str)                    -- line 1087
  | terminateConfirmed (to_ cid : Str)                  -- line 1104
  | reserveTimeout (to_ cid : Str) (notif : Nat)        -- line 1143
  | dataPlane (to_ cid : Str) (notif : Nat) (dps : DPS) -- line 1184
  | errorEvent (to_ cid : Str) (notif : Nat)            -- line 1118
  | querySummary (to_ corr : Str) (l : List Info)       -- line 724
  | queryRecursive (to_ corr : Str) (i : Info)          -- line 858
  deriving DecidableEq, Repr

/-- Entry of `self.query_requests`, aggregator.py:758: header (addressee), connection object, number of segments. -/
structure QReq where
  to_ : Str
  conn : Nat
  count : Nat
  deriving DecidableEq, Repr

/-- Choices of the environment: generated connection ids (plugin) and correlation ids (uuid), and the outcomes of provider
calls (acknowledgement with a connection id, or failure). When a list runs out: empty id, success with the empty id. -/
structure Oracle where
  cids : List Str := []
  corrs : List Str := []
  acks : List (Except Err Str) := []
  deriving DecidableEq, Repr

/-- An in-memory row object; `isNew`: not stored yet, so `save` inserts. -/
structure Obj (ρ : Type) where
  row : ρ
  isNew : Bool
  deriving DecidableEq, Repr

/-- Everything the coroutines act on. -/
structure World where
  conns : List CRow                                  -- table service_connections
  subs : List SRow                                   -- table sub_connections
  ckey : Nat                                         -- next `id` of service_connections
  skey : Nat                                         -- next `id` of sub_connections
  cheap : List (Obj CRow)                            -- ServiceConnection objects in memory
  sheap : List (Obj SRow)                            -- SubConnection objects in memory
  ccache : List (Str × Nat)                          -- self.db_connections, aggregator.py:78
  scache : List (Str × Nat)                          -- self.db_sub_connections, line 79
  resv : List (Str × Resv)                           -- self.reservations, line 74
  qreqs : List (Str × QReq)                          -- self.query_requests, line 82
  qcalls : List (Str × (Str × Option (List Str)))    -- self.query_calls, line 83
  notif : Nat                                        -- self.notification_id, line 75
  outbox : List Out
  sent : List PCall
  orc : Oracle
  deriving DecidableEq, Repr

/-- Commands, indexed by the type of their result. -/
inductive Cmd : Type → Type
  -- database (asynchronous)
  | existsConn (cid : Str) : Cmd Bool                       -- aggregator.py:167
  | findConnByKey (key : Nat) : Cmd (Option Str)            -- line 117; only the connection id of the result is used
  | findConn (cid : Str) : Cmd (Option Nat)                 -- line 104
  | selectSubs (key : Nat) : Cmd (List (Str × Str))         -- line 151: (provider_nsa, connection_id)
  | findSubs (l : List (Str × Str)) : Cmd (List (Option Nat))   -- line 134, for one or more segments at once
  | findConns (requester : Option Str) (cids : Option (List Str)) : Cmd (List CRow)  -- lines 684-694
  | saveC (ref : Nat) : Cmd Unit
  | saveS (ref : Nat) : Cmd Unit
  | saveSs (refs : List Nat) : Cmd Unit                     -- DeferredList of saves, e.g. line 562
  -- plugin and providers (asynchronous)
  | newCid : Cmd Str                                        -- `plugin.createConnectionId`, line 237
  | acks (n : Nat) : Cmd (List (Except Err Str))            -- outcomes of the last n provider calls, e.g. line 416
  -- without suspension
  | newC (row : CRow) : Cmd Nat
  | newS (row : SRow) : Cmd Nat
  | getC (ref : Nat) : Cmd CRow
  | setC (ref : Nat) (row : CRow) : Cmd Unit
  | getS (ref : Nat) : Cmd SRow
  | setS (ref : Nat) (row : SRow) : Cmd Unit
  | cachedC (cid : Str) : Cmd (Option Nat)
  | cacheC (cid : Str) (ref : Nat) : Cmd Unit
  | cachedS (cid : Str) : Cmd (Option Nat)
  | cacheS (cid : Str) (ref : Nat) : Cmd Unit
  | getResv (corr : Str) : Cmd (Option Resv)
  | popResv (corr : Str) : Cmd Unit
  | addResv (corr : Str) (r : Resv) : Cmd Unit
  | outstanding (skey : Nat) : Cmd Nat                      -- lines 949-950
  | newCorr : Cmd Str                                       -- nsa.py:42-43
  | send (c : PCall) : Cmd Unit
  | emit (o : Out) : Cmd Unit
  | notifId : Cmd Nat                                       -- aggregator.py:85-88
  | addQReq (corr : Str) (r : QReq) : Cmd Unit
  | getQReq (corr : Str) : Cmd (Option QReq)
  | getQCall (corr : Str) : Cmd (Option (Str × Option (List Str)))
  | setQCall (corr cb : Str) (res : Option (List Str)) : Cmd Unit
  | qResults (cb : Str) : Cmd (List Str)                    -- line 844
  | popQuery (cb : Str) : Cmd Unit                          -- lines 850-854

/-- Commands that suspend the coroutine. -/
def Cmd.isAsync {β : Type} : Cmd β → Bool
  | .existsConn _ | .findConnByKey _ | .findConn _ | .selectSubs _ | .findSubs _ | .findConns _ _ | .saveC _ | .saveS _
  | .saveSs _ | .newCid | .acks _ => true
  | _ => false

/-- Write a row (SQL UPDATE of all columns of the row with that primary key). -/
def setCRow (rows : List CRow) (row : CRow) : List CRow := rows.map fun r => if r.key = row.key then row else r
/-- Write a row of sub_connections. -/
def setSRow (rows : List SRow) (row : SRow) : List SRow := rows.map fun r => if r.key = row.key then row else r

/-- CHECK ( start_time < end_time ), schema.sql; NULL makes it true. -/
def badTimes (start end_ : Option Time) : Bool :=
  match start, end_ with
  | some s, some e => decide (e ≤ s)
  | _, _ => false

/-- `save()` of a ServiceConnection object. Insertion is subject to UNIQUE(connection_id) and the CHECK. -/
def World.saveC (w : World) (ref : Nat) : World × Except Err Unit :=
  match w.cheap[ref]? with
  | none => (w, .error .attribute)                           -- no such object: cannot happen
  | some o =>
    if o.isNew then
      if w.conns.any (fun r => r.cid = o.row.cid) || badTimes o.row.start o.row.end_ then (w, .error .db)
      else
        let row := { o.row with key := w.ckey }
        ({ w with conns := w.conns ++ [row], cheap := w.cheap.set ref ⟨row, false⟩, ckey := w.ckey + 1 }, .ok ())
    else ({ w with conns := setCRow w.conns o.row }, .ok ())

/-- `save()` of a SubConnection object. Insertion is subject to UNIQUE(provider_nsa, connection_id). -/
def World.saveS (w : World) (ref : Nat) : World × Except Err Unit :=
  match w.sheap[ref]? with
  | none => (w, .error .attribute)                           -- no such object: cannot happen
  | some o =>
    if o.isNew then
      if w.subs.any (fun r => r.prov = o.row.prov && r.cid = o.row.cid) then (w, .error .db)
      else
        let row := { o.row with key := w.skey }
        ({ w with subs := w.subs ++ [row], sheap := w.sheap.set ref ⟨row, false⟩, skey := w.skey + 1 }, .ok ())
    else ({ w with subs := setSRow w.subs o.row }, .ok ())

/-- Several saves. The results are not looked at (aggregator.py:521, 562, 604, 613). -/
def World.saveSs (w : World) : List Nat → World
  | [] => w
  | r :: rs => (w.saveS r).1.saveSs rs

/-- `findBy(provider_nsa=..., connection_id=...)`: a new object for the row found. -/
def World.findSub (w : World) (x : Str × Str) : World × Option Nat :=
  match w.subs.find? (fun r => r.prov = x.1 && r.cid = x.2) with
  | none => (w, none)
  | some r => ({ w with sheap := w.sheap ++ [⟨r, false⟩] }, some w.sheap.length)

/-- Several of them. -/
def World.findSubs (w : World) : List (Str × Str) → World × List (Option Nat)
  | [] => (w, [])
  | x :: xs => let r := w.findSub x; let rs := r.1.findSubs xs; (rs.1, r.2 :: rs.2)

/-- Next `n` provider outcomes. -/
def World.acks (w : World) : Nat → World × List (Except Err Str)
  | 0 => (w, [])
  | n + 1 =>
    match w.orc.acks with
    | [] => let r := w.acks n; (r.1, .ok [] :: r.2)
    | a :: as => let r := World.acks { w with orc := { w.orc with acks := as } } n; (r.1, a :: r.2)

/-- Execute a command. -/
def exec {β : Type} (w : World) : Cmd β → World × Except Err β
  | .existsConn cid => (w, .ok (w.conns.any fun r => r.cid = cid))
  | .findConnByKey key => (w, .ok ((w.conns.find? fun r => r.key = key).map (·.cid)))
  | .findConn cid =>
    match w.conns.find? (fun r => r.cid = cid) with
    | none => (w, .ok none)
    | some r => ({ w with cheap := w.cheap ++ [⟨r, false⟩] }, .ok (some w.cheap.length))
  | .selectSubs key => (w, .ok ((w.subs.filter fun r => r.skey = key).map fun r => (r.prov, r.cid)))
  | .findSubs l => let r := w.findSubs l; (r.1, .ok r.2)
  | .findConns requester cids =>
    (w, .ok (w.conns.filter fun r => requester.all (fun n => r.requester = n) && cids.all (fun l => decide (r.cid ∈ l))))
  | .saveC ref => w.saveC ref
  | .saveS ref => w.saveS ref
  | .saveSs refs => (w.saveSs refs, .ok ())
  | .newCid =>
    match w.orc.cids with
    | [] => (w, .ok [])
    | i :: is => ({ w with orc := { w.orc with cids := is } }, .ok i)
  | .acks n => let r := w.acks n; (r.1, .ok r.2)
  | .newC row => ({ w with cheap := w.cheap ++ [⟨row, true⟩] }, .ok w.cheap.length)
  | .newS row => ({ w with sheap := w.sheap ++ [⟨row, true⟩] }, .ok w.sheap.length)
  | .getC ref => match w.cheap[ref]? with | none => (w, .error .attribute) | some o => (w, .ok o.row)
  | .setC ref row =>
    match w.cheap[ref]? with
    | none => (w, .error .attribute)
    | some o => ({ w with cheap := w.cheap.set ref { o with row } }, .ok ())
  | .getS ref => match w.sheap[ref]? with | none => (w, .error .attribute) | some o => (w, .ok o.row)
  | .setS ref row =>
    match w.sheap[ref]? with
    | none => (w, .error .attribute)
    | some o => ({ w with sheap := w.sheap.set ref { o with row } }, .ok ())
  | .cachedC cid => (w, .ok (dget w.ccache cid))
  | .cacheC cid ref => ({ w with ccache := dset w.ccache cid ref }, .ok ())
  | .cachedS cid => (w, .ok (dget w.scache cid))
  | .cacheS cid ref => ({ w with scache := dset w.scache cid ref }, .ok ())
  | .getResv corr => (w, .ok (dget w.resv corr))
  | .popResv corr => ({ w with resv := ddel w.resv corr }, .ok ())
  | .addResv corr r => ({ w with resv := dset w.resv corr r }, .ok ())
  | .outstanding skey => (w, .ok ((w.resv.filter fun e => e.2.skey = skey).length))
  | .newCorr =>
    match w.orc.corrs with
    | [] => (w, .ok [])
    | i :: is => ({ w with orc := { w.orc with corrs := is } }, .ok i)
  | .send c => ({ w with sent := w.sent ++ [c] }, .ok ())
  | .emit o => ({ w with outbox := w.outbox ++ [o] }, .ok ())
  | .notifId => ({ w with notif := w.notif + 1 }, .ok w.notif)
  | .addQReq corr r => ({ w with qreqs := dset w.qreqs corr r }, .ok ())
  | .getQReq corr => (w, .ok (dget w.qreqs corr))
  | .getQCall corr => (w, .ok (dget w.qcalls corr))
  | .setQCall corr cb res => ({ w with qcalls := dset w.qcalls corr (cb, res) }, .ok ())
  | .qResults cb =>
    (w, .ok (w.qcalls.filterMap fun e => if e.2.1 = cb then e.2.2.bind List.head? else none))
  | .popQuery cb =>
    ({ w with qreqs := ddel w.qreqs cb, qcalls := w.qcalls.filter fun e => e.2.1 ≠ cb }, .ok ())

/-- The machine executing the aggregator's coroutines. -/
def machine : Machine Cmd Err World := ⟨exec, Cmd.isAsync⟩

/-- The aggregator's coroutines. -/
abbrev Prog := Coro Cmd Err

end OpenNSA.Agg
