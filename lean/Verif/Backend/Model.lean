import Verif.Backend.Prog
/-
Model of class `GenericBackend`, /repo/opennsa/backends/common/genericbackend.py, method by method.
Log messages are not modelled, except where formatting one raises.
-/
namespace OpenNSA.Backend
open OpenNSA Py Prog

/-- `NRMPort` as far as the backend uses it, topology/nrm.py:39-53. -/
structure Port where
  label : Option Label
  authz : List Rule
  transitRestricted : Bool
  deriving DecidableEq, Repr

/-- The connection manager supplied by a concrete backend (genericbackend.py:8-10, 106, 269, 286). All backends in
/repo/opennsa/backends compute these from their arguments only. `canConnect = none`: method not present (line 269). -/
structure ConnMgr where
  getResource : Str → Option LabelVal → Str
  canSwapLabel : Option Str → Bool
  canConnect : Option (Str → Str → Option Label → Option Label → Bool)

/-- `GenericBackend.__init__`, genericbackend.py:46-53. -/
structure Cfg where
  network : Str
  ports : List (Str × Port)
  mgr : ConnMgr
  minDuration : Int       -- seconds

/-- `TPC_TIMEOUT`, genericbackend.py:44. -/
def tpcTimeout : Time := 120 * second

/-- What the backend uses of an NSI header and the request: requester, correlation id, security attributes, request info. -/
structure Hdr where
  requester : Str
  corr : Str
  attrs : List SecAttr
  ri : ReqInfo
  deriving DecidableEq, Repr

/-- Authorization on one port, genericbackend.py:190-193. -/
def authorizePort (cfg : Cfg) (h : Hdr) (port : Str) : Except Err Unit :=
  match dget cfg.ports port with
  | none => .error .key
  | some p => match isAuthorized p.authz h.attrs h.ri with
    | none => .error .attribute
    | some false => .error .unauthorized
    | some true => .ok ()

/-- `_authorize`, genericbackend.py:182-198. Both ports are looked up first (lines 187-188). -/
def authorize (cfg : Cfg) (h : Hdr) (src dst : Str) : Except Err Unit :=
  if ¬ dmem cfg.ports src ∨ ¬ dmem cfg.ports dst then .error .key
  else match authorizePort cfg h src with
    | .error e => .error e
    | .ok () => authorizePort cfg h dst

/-- `_getConnection`, genericbackend.py:173-179. -/
def getConnection (cid : Str) : Prog Nat := do
  match ← issue (.find cid) with
  | none => throw .nonExistent
  | some ref => Prog.pure ref

/-! ### State switches (state.py:100-194) on row objects -/

/-- A reserve setter, state.py:109-142: check, assign, save. -/
def switchReserve (ref : Nat) (s : RState) : Prog Unit := do
  let row ← issue (.getObj ref)
  match switchR row.st s with
  | none => throw .internal
  | some st => do
    issue (.setObj ref { row with st })
    issue (.save ref)

/-- The loop of `reserveMultiSwitch`, state.py:146-148. -/
def multiSwitchLoop (ref : Nat) : List RState → Prog Unit
  | [] => Prog.pure ()
  | s :: ss => do
    let row ← issue (.getObj ref)
    match switchR row.st s with
    | none => throw .internal
    | some st => do
      issue (.setObj ref { row with st })
      multiSwitchLoop ref ss

/-- `reserveMultiSwitch`, state.py:144-149. -/
def multiSwitch (ref : Nat) (ss : List RState) : Prog Unit := do
  multiSwitchLoop ref ss
  issue (.save ref)

/-- A provision setter, state.py:154-172. -/
def switchProvision (ref : Nat) (s : PState) : Prog Unit := do
  let row ← issue (.getObj ref)
  match switchP row.st s with
  | none => throw .internal
  | some st => do
    issue (.setObj ref { row with st })
    issue (.save ref)

/-- A lifecycle setter, state.py:176-194. -/
def switchLifecycle (ref : Nat) (s : LState) : Prog Unit := do
  let row ← issue (.getObj ref)
  match switchL row.st s with
  | none => throw .internal
  | some st => do
    issue (.setObj ref { row with st })
    issue (.save ref)

/-! ### Resources -/

/-- `getResource(conn.source_port, conn.source_label)` with the connection's times. -/
def srcResv (cfg : Cfg) (r : Row) : Resv := ⟨cfg.mgr.getResource r.srcPort r.srcLabel, r.start, r.end_⟩
/-- `getResource(conn.dest_port, conn.dest_label)` with the connection's times. -/
def dstResv (cfg : Cfg) (r : Row) : Resv := ⟨cfg.mgr.getResource r.dstPort r.dstLabel, r.start, r.end_⟩

/-- Removal of both calendar entries, e.g. genericbackend.py:628-632, 758-761, 766-769. -/
def removeBoth (cfg : Cfg) (ref : Nat) : Prog Unit := do
  let row ← issue (.getObj ref)
  issue (.calRemove (srcResv cfg row))
  issue (.calRemove (dstResv cfg row))

/-- `if conn.end_time is not None: scheduleCall(..., conn.end_time, self._doEndtime, conn)`, e.g. genericbackend.py:382-383,
473-474. -/
def schedEnd (cid : Str) (end_ : Option Time) (ref : Nat) : Prog Unit :=
  match end_ with
  | none => Prog.pure ()
  | some e => issue (.sched cid e .endtime ref)

/-- `if b: p`. -/
def whenP (b : Bool) (p : Prog Unit) : Prog Unit := if b then p else Prog.pure ()

/-- Set `conn.data_plane_active` and save. -/
def setActive (ref : Nat) (b : Bool) : Prog Unit := do
  let row ← issue (.getObj ref)
  issue (.setObj ref { row with active := b })
  issue (.save ref)

/-! ### Internal operations -/

/-- `_doTeardown`, genericbackend.py:701-735. -/
def doTeardown (ref : Nat) : Prog Unit := do
  let row ← issue (.getObj ref)
  let up ← tryCatch (do issue (.teardown row.cid); Prog.pure true) fun _ => Prog.pure false
  if up then
    tryCatch (do
      setActive ref false                                           -- lines 724-725
      let n ← issue .notifId
      issue (.tell (.dataPlane row.cid n false)))                   -- line 731
      fun _ => Prog.pure ()                                         -- lines 733-735
  else do
    setActive ref false                                             -- lines 713-714
    let n ← issue .notifId
    issue (.tell (.deactivateFailed row.cid n))                     -- line 719

/-- `_doFreeResource`, genericbackend.py:752-769. -/
def doFreeResource (cfg : Cfg) (ref : Nat) : Prog Unit := do
  let row ← issue (.getObj ref)
  if row.active then do
    doTeardown ref
    removeBoth cfg ref                                              -- lines 758-761; line 764 re-raises
  else if row.allocated ∨ row.st.r = .held then removeBoth cfg ref
  else Prog.pure ()

/-- `_doEndtime`, genericbackend.py:739-748. -/
def doEndtime (cfg : Cfg) (ref : Nat) : Prog Unit := do
  let row ← issue (.getObj ref)
  if row.st.l ≠ .created then throw .invalidTransition
  else do
    issue (.cancel row.cid)
    switchLifecycle ref .passedEnd
    doFreeResource cfg ref

/-- `_doReserveRollback`, genericbackend.py:619-648. All exceptions are swallowed (line 646). -/
def doReserveRollback (cfg : Cfg) (ref : Nat) : Prog Unit :=
  tryCatch (do
    switchReserve ref .aborting
    let row ← issue (.getObj ref)
    issue (.cancel row.cid)                                         -- line 625
    removeBoth cfg ref
    switchReserve ref .start                                        -- line 634
    let now ← issue .now
    match row.end_ with
    | none => Prog.pure ()
    | some e =>
      if now > e then doEndtime cfg ref                             -- lines 637-639
      else issue (.sched row.cid e .endtime ref))                   -- line 642
    fun _ => Prog.pure ()

/-- `_doReserveTimeout`, genericbackend.py:600-615. -/
def doReserveTimeout (cfg : Cfg) (ref : Nat) : Prog Unit :=
  tryCatch (do
    switchReserve ref .timeout
    doReserveRollback cfg ref
    let row ← issue (.getObj ref)
    let n ← issue .notifId
    issue (.tell (.reserveTimeout row.cid n)))
    fun _ => Prog.pure ()

/-- `_doActivate`, genericbackend.py:652-697. -/
def doActivate (ref : Nat) : Prog Unit := do
  let row ← issue (.getObj ref)
  let up ← tryCatch (do issue (.setup row.cid); Prog.pure true) fun _ => Prog.pure false
  if up then
    tryCatch (do
      setActive ref true                                            -- lines 675-676
      let now ← issue .now
      schedEnd row.cid (row.end_.map fun e => if e < now then now else e) ref        -- lines 680-687
      let n ← issue .notifId
      issue (.tell (.dataPlane row.cid n true)))                    -- line 694
      fun _ => Prog.pure ()                                         -- lines 695-697
  else do
    setActive ref false                                             -- lines 664-665
    let n ← issue .notifId
    issue (.tell (.activateFailed row.cid n))                       -- line 670

/-- `_doReserve`, genericbackend.py:571-596. -/
def doReserve (ref : Nat) (corr : Str) : Prog Unit := do
  multiSwitch ref [.checking, .held]
  let row ← issue (.getObj ref)
  let b ← issue (.hasCall row.cid)
  whenP b (issue (.cancel row.cid))                                 -- lines 578-580
  let now ← issue .now
  let abort := now + tpcTimeout
  let t := match row.end_ with | none => abort | some e => min abort e   -- line 583
  issue (.sched row.cid t .reserveTimeout ref)
  issue (.call (.reserveConfirmed corr row.cid row.srcLabel row.dstLabel row.start row.end_))

/-! ### Requests -/

/-- `labelType`, genericbackend.py:265. -/
def labelType (s : STP) : Option Str := s.label.map (·.type_)

/-- `labelEnum`, genericbackend.py:283. -/
def labelEnum : Option Label → List (Option LabelVal)
  | none => [none]
  | some l => l.enumerateValues.map fun v => some (l.type_, v)

/-- Exceptions of label operations inside the coroutine (a StopIteration inside a generator becomes RuntimeError). -/
def labelErr : LabelErr → Err
  | .payload => .payload
  | .assertion => .assertion
  | .stopIteration => .runtime
  | .emptySet => .vlanInterchange       -- only reached from line 322

/-- `canMatch` check of one port, genericbackend.py:278-281. -/
def portMatches (p : Port) (s : STP) : Except Err Unit :=
  match Label.canMatch p.label s.label with
  | .error e => .error (labelErr e)
  | .ok false => .error .topology
  | .ok true => .ok ()

/-- The duration check, genericbackend.py:247-249. -/
def tooShort (cfg : Cfg) (start end_ : Option Time) : Bool :=
  match start, end_ with
  | some s, some e => decide (e - s < cfg.minDuration * second)
  | _, _ => false

/-- The check whether the two ends can be connected at all, genericbackend.py:269-274. -/
def cannotConnect (cfg : Cfg) (src dst : STP) : Bool :=
  match cfg.mgr.canConnect with
  | some f => !(f src.port dst.port src.label dst.label)
  | none => decide (labelType src ≠ labelType dst)

/-- The admission checks of `reserve` that depend on the request and the configuration only, genericbackend.py:233-281,
in order. -/
def admission (cfg : Cfg) (h : Hdr) (src dst : STP) (start end_ : Option Time) : Except Err Unit :=
  if src.network ≠ cfg.network then .error .connectionCreate                          -- line 233
  else if dst.network ≠ cfg.network then .error .connectionCreate                     -- line 235
  else match dget cfg.ports src.port, dget cfg.ports dst.port with
    | none, _ => .error .stpUnavailable                                               -- line 239
    | _, none => .error .stpUnavailable                                               -- line 241
    | some sp, some dp =>
      if tooShort cfg start end_ then
        .error .connectionCreate                                                      -- lines 247-250
      else match authorize cfg h src.port dst.port with
        | .error e => .error e                                                        -- line 255
        | .ok () =>
          if sp.transitRestricted ∧ dp.transitRestricted then .error .connectionCreate  -- line 258
          else if src.port = dst.port ∧ optLabelEq src.label dst.label then .error .service  -- line 262
          else if cannotConnect cfg src dst then .error .topology                      -- lines 269-274
          else match portMatches sp src with
            | .error e => .error e
            | .ok () => portMatches dp dst

/-- Search for the first free label value on one port, genericbackend.py:287-296. -/
def firstFree (cfg : Cfg) (port : Str) (start end_ : Option Time) : List (Option LabelVal) → Prog (Option LabelVal)
  | [] => throw .stpUnavailable
  | lv :: rest =>
    tryCatch (do issue (.calCheck ⟨cfg.mgr.getResource port lv, start, end_⟩); Prog.pure lv)
      fun e => if e = .stpUnavailable then firstFree cfg port start end_ rest else throw e

/-- Search for the first label value free on both ports, adding the reservations, genericbackend.py:324-338. -/
def firstFreeBoth (cfg : Cfg) (sport dport : Str) (start end_ : Option Time) :
    List (Option LabelVal) → Prog (Option LabelVal)
  | [] => throw .stpUnavailable
  | lv :: rest =>
    tryCatch (do
      issue (.calCheck ⟨cfg.mgr.getResource sport lv, start, end_⟩)
      issue (.calCheck ⟨cfg.mgr.getResource dport lv, start, end_⟩)
      issue (.calAdd ⟨cfg.mgr.getResource sport lv, start, end_⟩)
      issue (.calAdd ⟨cfg.mgr.getResource dport lv, start, end_⟩)
      Prog.pure lv)
      fun e => if e = .stpUnavailable then firstFreeBoth cfg sport dport start end_ rest else throw e

/-- The label candidate without label swapping, genericbackend.py:314-322. -/
def labelCandidate (src dst : STP) : Except Err (Option Label) :=
  match src.label, dst.label with
  | none, d => .ok d
  | some s, none => .ok (some s)
  | some s, some d => match s.intersect d with
    | .ok l => .ok (some l)
    | .error e => .error (labelErr e)

/-- Choice of the labels and calendar entries, genericbackend.py:286-338. -/
def allocate (cfg : Cfg) (src dst : STP) (start end_ : Option Time) : Prog (Option LabelVal × Option LabelVal) :=
  if cfg.mgr.canSwapLabel (labelType src) ∧ cfg.mgr.canSwapLabel (labelType dst) then do
    let sl ← firstFree cfg src.port start end_ (labelEnum src.label)
    let dl ← firstFree cfg dst.port start end_ (labelEnum dst.label)
    issue (.calAdd ⟨cfg.mgr.getResource src.port sl, start, end_⟩)        -- lines 310-311
    issue (.calAdd ⟨cfg.mgr.getResource dst.port dl, start, end_⟩)
    Prog.pure (sl, dl)
  else do
    let cand ← ofExcept (labelCandidate src dst)
    let lv ← firstFreeBoth cfg src.port dst.port start end_ (labelEnum cand)
    Prog.pure (lv, lv)

/-- The new connection, genericbackend.py:350-356. -/
def newRow (cid : Str) (h : Hdr) (now : Time) (src dst : STP) (sl dl : Option LabelVal) (start end_ : Option Time) : Row :=
  ⟨cid, h.requester, now, .fresh, false, false, src.port, sl, dst.port, dl, start, end_⟩

/-- The given connection id, or a generated one, genericbackend.py:344-345. -/
def pickId : Option Str → Prog Str
  | none => issue .newId
  | some c => Prog.pure c

/-- `reserve` after the connection id check, genericbackend.py:228-359. -/
def reserveBody (cfg : Cfg) (h : Hdr) (cid? : Option Str) (src dst : STP) (start end_ : Option Time) : Prog Str := do
  ofExcept (admission cfg h src dst start end_)
  let (sl, dl) ← allocate cfg src dst start end_
  let now ← issue .now
  let cid ← pickId cid?
  let ref ← issue (.newObj (newRow cid h now src dst sl dl start end_))
  issue (.save ref)                                                      -- line 357
  Prog.spawn (doReserve ref h.corr) (Prog.pure cid)                      -- lines 358-359

/-- `reserve`, genericbackend.py:208-359. A given, non-empty connection id must not be in use (lines 220-226). -/
def reserve (cfg : Cfg) (h : Hdr) (cid? : Option Str) (src dst : STP) (start end_ : Option Time) : Prog Str := do
  match cid? with
  | none => reserveBody cfg h cid? src dst start end_
  | some c =>
    if c = [] then reserveBody cfg h cid? src dst start end_
    else do
      match ← issue (.find c) with
      | some _ => throw .value                                           -- line 224
      | none => reserveBody cfg h cid? src dst start end_

/-- `lifecycle_state in (TERMINATING, TERMINATED)`, e.g. genericbackend.py:370. -/
def isGone (r : Row) : Bool := r.st.l = .terminating || r.st.l = .terminated

/-- `reserveCommit` after the connection was found, genericbackend.py:363-389. -/
def commitOn (cfg : Cfg) (h : Hdr) (cid : Str) (ref : Nat) : Prog Unit := do
  let row ← issue (.getObj ref)
  ofExcept (authorize cfg h row.srcPort row.dstPort)
  if isGone row then throw .gone
  else do
    issue (.setObj ref { row with allocated := true })                   -- line 375
    multiSwitch ref [.committing, .start]                                -- line 376
    issue (.cancel cid)
    schedEnd cid row.end_ ref                                            -- lines 382-383
    issue (.call (.reserveCommitConfirmed cid))

/-- `reserveCommit`, genericbackend.py:363-389. -/
def reserveCommit (cfg : Cfg) (h : Hdr) (cid : Str) : Prog Unit := do
  let ref ← getConnection cid
  commitOn cfg h cid ref

/-- `reserveAbort` after the connection was found, genericbackend.py:393-406. -/
def abortOn (cfg : Cfg) (h : Hdr) (cid : Str) (ref : Nat) : Prog Unit := do
  let row ← issue (.getObj ref)
  ofExcept (authorize cfg h row.srcPort row.dstPort)
  if isGone row then throw .gone
  else do
    doReserveRollback cfg ref
    issue (.tell (.reserveAbortConfirmed cid))

/-- `reserveAbort`, genericbackend.py:393-406. -/
def reserveAbort (cfg : Cfg) (h : Hdr) (cid : Str) : Prog Unit := do
  let ref ← getConnection cid
  abortOn cfg h cid ref

/-- The test `conn.end_time is not None and conn.end_time <= now`, genericbackend.py:427. -/
def ended (end_ : Option Time) (now : Time) : Bool :=
  match end_ with
  | some e => decide (e ≤ now)
  | none => false

/-- `provision` after the connection was found, genericbackend.py:410-448. -/
def provisionOn (cfg : Cfg) (h : Hdr) (cid : Str) (ref : Nat) : Prog Unit := do
  let row ← issue (.getObj ref)
  ofExcept (authorize cfg h row.srcPort row.dstPort)
  if ¬ row.allocated then throw .connection
  else if isGone row then throw .gone
  else if row.st.r ≠ .start then throw .invalidTransition
  else do
    let now ← issue .now
    if ended row.end_ now then throw .gone                               -- line 427
    else do
      switchProvision ref .provisioning
      issue (.cancel cid)
      let rest : Prog Unit := do
        switchProvision ref .provisioned
        issue (.tell (.provisionConfirmed cid))
      match row.start with
      | none => Prog.spawn (doActivate ref) rest                         -- lines 435-436
      | some s =>
        if s ≤ now then Prog.spawn (doActivate ref) rest
        else do
          issue (.sched cid s .activate ref)                             -- line 438
          rest

/-- `provision`, genericbackend.py:410-448. -/
def provision (cfg : Cfg) (h : Hdr) (cid : Str) : Prog Unit := do
  let ref ← getConnection cid
  provisionOn cfg h cid ref

/-- `release` after the connection was found, genericbackend.py:452-483. -/
def releaseOn (cfg : Cfg) (h : Hdr) (cid : Str) (ref : Nat) : Prog Unit := do
  let row ← issue (.getObj ref)
  ofExcept (authorize cfg h row.srcPort row.dstPort)
  if isGone row then throw .gone
  else do
    switchProvision ref .releasing
    issue (.cancel cid)
    let row ← issue (.getObj ref)
    whenP row.active (tryCatch (doTeardown ref) fun _ => Prog.pure ())   -- lines 467-471
    schedEnd cid row.end_ ref                                            -- lines 473-474
    switchProvision ref .released
    issue (.tell (.releaseConfirmed cid))

/-- `release`, genericbackend.py:452-483. -/
def release (cfg : Cfg) (h : Hdr) (cid : Str) : Prog Unit := do
  let ref ← getConnection cid
  releaseOn cfg h cid ref

/-- `terminate` after the connection was found, genericbackend.py:487-516. -/
def terminateOn (cfg : Cfg) (h : Hdr) (cid : Str) (ref : Nat) : Prog Unit := do
  let row ← issue (.getObj ref)
  ofExcept (authorize cfg h row.srcPort row.dstPort)
  if row.st.l = .terminated then throw .attribute                        -- line 496: `conn.cid` does not exist
  else do
    issue (.cancel cid)
    switchLifecycle ref .terminating
    whenP (row.st.l ≠ .passedEnd) (doFreeResource cfg ref)               -- lines 501-509
    issue (.call (.terminateConfirmed cid))                              -- line 513
    switchLifecycle ref .terminated

/-- `terminate`, genericbackend.py:487-516. -/
def terminate (cfg : Cfg) (h : Hdr) (cid : Str) : Prog Unit := do
  let ref ← getConnection cid
  terminateOn cfg h cid ref

/-! ### Restart -/

/-- The test `conn.end_time is not None and conn.end_time < now`, genericbackend.py:111. -/
def passed (end_ : Option Time) (now : Time) : Bool :=
  match end_ with
  | some e => decide (e < now)
  | none => false

/-- The time of the reservation timeout after a restart, genericbackend.py:118-119. -/
def timeoutAt (row : Row) : Time :=
  match row.end_ with
  | none => row.reserveTime + tpcTimeout
  | some e => min (row.reserveTime + tpcTimeout) e

/-- One connection in `buildSchedule`, genericbackend.py:90-165. -/
def buildOne (cfg : Cfg) (ref : Nat) : Prog Unit := do
  let row ← issue (.getObj ref)
  let b ← issue (.hasCall row.cid)
  if b then Prog.pure ()                                                 -- lines 92-93
  else do
    let now ← issue .now
    if row.st.l = .passedEnd ∨ row.st.l = .terminated then Prog.pure ()  -- lines 97-98
    else if row.st.r = .start ∧ ¬ row.allocated then Prog.pure ()        -- lines 100-103
    else do
      issue (.calAdd (srcResv cfg row))
      issue (.calAdd (dstResv cfg row))
      if passed row.end_ now then doEndtime cfg ref                      -- lines 111-114
      else if row.st.r = .held then                                      -- lines 116-126
        if timeoutAt row < now then doReserveRollback cfg ref
        else issue (.sched row.cid (timeoutAt row) .reserveTimeout ref)
      else
        match row.start with
        | none => started row
        | some s =>
          if s < now then started row
          else if s > now then waiting row s
          else Prog.pure ()                                              -- lines 164-165
where
  /-- Lines 151-162: the start time is in the future. -/
  waiting (row : Row) (s : Time) : Prog Unit :=
    if row.st.p = .provisioned ∧ row.active = false then do
      issue (.sched row.cid s .activate ref)
      whenP row.end_.isNone (throw .attribute)                           -- line 156
    else if row.st.p = .released then
      match row.end_ with
      | none => throw .type                                              -- line 158: comparison with None
      | some e => issue (.sched row.cid e .endtime ref)
    else Prog.pure ()
  /-- Lines 128-149: the start time has passed. -/
  started (row : Row) : Prog Unit :=
    if row.st.p = .provisioned then
      if row.active then schedEnd row.cid row.end_ ref
      else doActivate ref
    else if row.st.p = .released then schedEnd row.cid row.end_ ref
    else Prog.pure ()

/-- The loop of `buildSchedule`. -/
def buildLoop (cfg : Cfg) : List Nat → Prog Unit
  | [] => Prog.pure ()
  | ref :: refs => do
    buildOne cfg ref
    buildLoop cfg refs

/-- `buildSchedule`, genericbackend.py:86-168. -/
def buildSchedule (cfg : Cfg) : Prog Unit := do
  let refs ← issue .findLive
  buildLoop cfg refs

/-! ### Events -/

/-- Requests to the backend. -/
inductive Req
  | reserve (cid? : Option Str) (src dst : STP) (start end_ : Option Time)
  | commit (cid : Str)
  | abort (cid : Str)
  | provision (cid : Str)
  | release (cid : Str)
  | terminate (cid : Str)
  deriving DecidableEq, Repr

/-- The coroutine answering a request; the answer is the connection id for `reserve`, nothing otherwise. -/
def Req.prog (cfg : Cfg) (h : Hdr) : Req → Prog (Option Str)
  | .reserve cid? src dst s e => do let c ← Backend.reserve cfg h cid? src dst s e; Prog.pure (some c)
  | .commit cid => do reserveCommit cfg h cid; Prog.pure none
  | .abort cid => do reserveAbort cfg h cid; Prog.pure none
  | .provision cid => do Backend.provision cfg h cid; Prog.pure none
  | .release cid => do Backend.release cfg h cid; Prog.pure none
  | .terminate cid => do Backend.terminate cfg h cid; Prog.pure none

/-- The coroutine of a scheduled call. -/
def actProg (cfg : Cfg) (act : Act) (ref : Nat) : Prog Unit :=
  match act with
  | .reserveTimeout => doReserveTimeout cfg ref
  | .endtime => doEndtime cfg ref
  | .activate => doActivate ref

/-- Memory after a restart: row objects, calendar, timers and notification counter are lost (genericbackend.py:46-63). -/
def World.reboot (w : World) : World := { w with heap := [], cal := [], tbl := [], notif := 0 }

/-- What can happen, each with the environment's choices. -/
inductive Ev
  | req (h : Hdr) (r : Req)
  | fire (cid : Str)          -- the scheduled call of a connection runs, if due
  | wait (us : Nat)           -- time passes
  | restart                   -- the process is restarted
  deriving DecidableEq, Repr

/-- One event, run to completion. -/
def step (cfg : Cfg) (w : World) (orc : Oracle) (e : Ev) : World × Except Err (Option Str) :=
  let w := { w with orc }
  match e with
  | .req h r => (r.prog cfg h).run w
  | .fire cid =>
    match dget w.tbl cid with
    | some ⟨due, act, ref, false⟩ =>
      if due ≤ w.clk then
        let w := { w with tbl := dset w.tbl cid ⟨due, act, ref, true⟩ }
        let r := (actProg cfg act ref).run w
        (r.1, r.2.map fun _ => none)
      else (w, .ok none)
    | _ => (w, .ok none)
  | .wait us => ({ w with clk := w.clk + (us : Int) }, .ok none)
  | .restart => let r := (buildSchedule cfg).run w.reboot; (r.1, r.2.map fun _ => none)

/-- A fresh backend at some time, its table shared with other backends. -/
def World.init (otherIds : List Str) (clk : Time) : World :=
  { rows := [], otherIds, heap := [], cal := [], tbl := [], links := [], notif := 0, outbox := [], clk, orc := {} }

/-- World after a history. -/
def runAll (cfg : Cfg) (w : World) : List (Oracle × Ev) → World
  | [] => w
  | (o, e) :: es => runAll cfg (step cfg w o e).1 es

end OpenNSA.Backend
