import Verif.Agg.Prog
/-
Model of class `Aggregator`, /repo/opennsa/aggregator.py, method by method. Log messages are not modelled. State observers
(state.py:82-93) are not modelled here: the aggregator subscribes none.
-/
namespace OpenNSA.Agg
open OpenNSA Py Coro

/-- Policies, constants.py:45-48. -/
inductive Policy
  | requireUser | requireTrace | aggregator | allowHairpin
  deriving DecidableEq, Repr

/-- `NRMPort` as far as the aggregator uses it (topology/nrm.py:39-53): label and what it is connected to. -/
structure NPort where
  label : Option Label
  remoteNet : Option Str
  remotePort : Option Str
  deriving DecidableEq, Repr

/-- `Aggregator.__init__`, aggregator.py:64-72, and the provider registry: network -> provider object and its URN (provreg.py:22-24;
both dictionaries always have the same keys, provreg.py:37-38). `fuel` bounds the length of a path (LinkVector.path). -/
structure Cfg where
  urn : Str
  ports : List (Str × List (Str × NPort))
  lv : LinkVector
  fuel : Nat
  reg : List (Str × (Nat × Str))
  policies : List Policy
  admins : List Str              -- Config.allowed_admins, config.py:222-230
  deriving DecidableEq, Repr

/-- What the aggregator uses of the header of a request (nsa.py:32-39). -/
structure Hdr where
  requester : Str
  corr : Str
  trace : Option (List Str)
  attrs : List SecAttr
  deriving DecidableEq, Repr

/-- What the aggregator uses of the header of a reply. -/
structure RHdr where
  prov : Str
  corr : Str
  deriving DecidableEq, Repr

/-- Criteria of a reservation (nsa.py:340-390). -/
structure Crit where
  src : STP
  dst : STP
  start : Option Time
  end_ : Option Time
  bw : Int
  deriving DecidableEq, Repr

/-- `nsa.Link`, nsa.py:239-243. -/
structure Link where
  src : STP
  dst : STP
  deriving DecidableEq, Repr

/-! ### Helpers -/

/-- `getErrorMessage` of a failed provider call. Only the text of `remote` failures is modelled. -/
def Err.message : Err → Str
  | .remote _ m => m
  | .aggregate _ m => m
  | _ => []

/-- `sep.join(parts)` for a text separator (aggregator.py:56). -/
def joinText (sep : Str) : List Str → Str
  | [] => []
  | [s] => s
  | s :: t :: rest => s ++ sep ++ joinText sep (t :: rest)

/-- The failed outcomes with the provider names, aggregator.py:54-55 (`zip` stops at the shorter list). -/
def providerFailures (urns : List Str) (results : List (Except Err Str)) : List Str :=
  (urns.zip results).filterMap fun
    | (u, .error e) => some (u ++ [':', ' '] ++ e.message)
    | (_, .ok _) => none

/-- Failed outcomes, aggregator.py:45. -/
def failures (results : List (Except Err Str)) : List Err :=
  results.filterMap fun | .error e => some e | .ok _ => none

/-- `_createAggregateException`, aggregator.py:44-57. -/
def aggException (action : Str) (results : List (Except Err Str)) (urns : List Str) (create : Bool) : Err :=
  match failures results with
  | [] => .internal
  | [e] => e
  | fs => .aggregate create (showNat fs.length ++ '/' :: showNat results.length ++ ' ' :: action ++
      [' ', 'f', 'a', 'i', 'l', 'e', 'd', ':', '\n', ' ', ' '] ++ joinText ['\n', ' ', ' '] (providerFailures urns results))

/-- `all([ r[0] for r in results ])`. -/
def allOk (results : List (Except Err Str)) : Bool := results.all fun | .ok _ => true | .error _ => false

/-- `s.endswith(suffix)`. -/
def endsWith (s suffix : Str) : Bool := suffix.isSuffixOf s

/-- `getProvider` and `getProviderURN`, provreg.py:41-56. -/
def Cfg.provider (cfg : Cfg) (network : Str) : Except Err (Nat × Str) :=
  if endsWith network [':', 'n', 's', 'a'] then .error .value
  else match dget cfg.reg network with
    | none => .error .stpResolution
    | some p => .ok p

/-! ### Access to the rows -/

/-- `getConnection`, aggregator.py:90-106. -/
def getConnection (cid : Str) : Prog Nat := do
  match ← issue (.cachedC cid) with
  | some ref => Coro.pure ref
  | none =>
    match ← issue (.findConn cid) with
    | none => throw .nonExistent
    | some ref => do
      issue (.cacheC cid ref)
      Coro.pure ref

/-- `getConnectionByKey`, aggregator.py:108-119. -/
def getConnectionByKey (key : Nat) : Prog Nat := do
  match ← issue (.findConnByKey key) with
  | none => throw .nonExistent
  | some cid => getConnection cid

/-- `getSubConnection`, aggregator.py:121-136. The cache is keyed by the connection id only. -/
def getSubConnection (prov cid : Str) : Prog Nat := do
  match ← issue (.cachedS cid) with
  | some ref => Coro.pure ref
  | none =>
    match ← issue (.findSubs [(prov, cid)]) with
    | [some ref] => do
      issue (.cacheS cid ref)
      Coro.pure ref
    | _ => throw .nonExistent

/-- The cache look-ups of line 147, aggregator.py, all done before any result arrives. -/
def lookupSubs : List (Str × Str) → Prog (List (Option Nat))
  | [] => Coro.pure []
  | x :: xs => do
    let r ← issue (.cachedS x.2)
    let rs ← lookupSubs xs
    Coro.pure (r :: rs)

/-- The rows that are not cached. -/
def missingSubs : List (Str × Str) → List (Option Nat) → List (Str × Str)
  | x :: xs, none :: rs => x :: missingSubs xs rs
  | _ :: xs, some _ :: rs => missingSubs xs rs
  | _, _ => []

/-- The results of line 147: cached objects, and found objects, which are cached as they arrive (line 130). -/
def mergeSubs : List (Str × Str) → List (Option Nat) → List (Option Nat) → Prog (List Nat)
  | _ :: xs, some r :: cs, fs => do
    let rs ← mergeSubs xs cs fs
    Coro.pure (r :: rs)
  | x :: xs, none :: cs, some r :: fs => do
    issue (.cacheS x.2 r)
    let rs ← mergeSubs xs cs fs
    Coro.pure (r :: rs)
  | _ :: _, none :: _, _ => throw .value                             -- line 145
  | _, _, _ => Coro.pure []

/-- Database access for the missing rows; none if nothing is missing. -/
def findMissing (l : List (Str × Str)) : Prog (List (Option Nat)) :=
  if l = [] then Coro.pure [] else issue (.findSubs l)

/-- `getSubConnectionsByConnectionKey`, aggregator.py:138-154. Rows in the order they were stored (the query has no ORDER BY). -/
def getSubConnections (key : Nat) : Prog (List Nat) := do
  let rows ← issue (.selectSubs key)
  let cs ← lookupSubs rows
  let fs ← findMissing (missingSubs rows cs)
  mergeSubs rows cs fs

/-- Attribute reads on several segment objects. -/
def getSs : List Nat → Prog (List SRow)
  | [] => Coro.pure []
  | r :: rs => do
    let s ← issue (.getS r)
    let ss ← getSs rs
    Coro.pure (s :: ss)

/-- A state switch on a connection object (state.py:100-194): check, assign, save. -/
def switchC (ref : Nat) (f : ConnStates → Option ConnStates) : Prog Unit := do
  let row ← issue (.getC ref)
  match f row.st with
  | none => throw .internal
  | some st => do
    issue (.setC ref { row with st })
    issue (.saveC ref)

/-- A state switch on a segment object. -/
def switchS (ref : Nat) (f : ConnStates → Option ConnStates) : Prog Unit := do
  let row ← issue (.getS ref)
  match f row.st with
  | none => throw .internal
  | some st => do
    issue (.setS ref { row with st })
    issue (.saveS ref)

/-! ### reserve -/

/-- Lines 203-208: is there a vector (linkvector.py:197-204)? `vector` returns a pair, never None, so that only its exceptions
matter. -/
def vectorCheck (cfg : Cfg) (network source : Str) : Except Err Unit :=
  match cfg.lv.path cfg.fuel network source with
  | .notLocal => .error .value
  | .res .keyError => .error .key
  | .res .outOfFuel => .error .hang
  | _ => .ok ()

/-- `'user'`, aggregator.py:181. -/
def tUser : Str := ['u', 's', 'e', 'r']

/-- Is the network one of ours? -/
def Cfg.isLocal (cfg : Cfg) (network : Str) : Bool := decide (network ∈ cfg.lv.localNets)

/-- The checks before anything is stored, aggregator.py:174-208. -/
def admit (cfg : Cfg) (h : Hdr) (c : Crit) : Except Err Unit :=
  if .requireTrace ∈ cfg.policies ∧ h.trace.getD [] = [] then .error .security                                   -- lines 174-178
  else if .requireUser ∈ cfg.policies ∧ ¬ (h.attrs.any fun a => a.type_ = tUser) then .error .security           -- lines 180-185
  else if .aggregator ∉ cfg.policies ∧ ¬ (cfg.isLocal c.src.network ∨ cfg.isLocal c.dst.network) then
    .error .connectionCreate                                                                                     -- lines 193-199
  else if cfg.isLocal c.src.network ∨ cfg.isLocal c.dst.network then                                             -- line 202
    match (if cfg.isLocal c.src.network then .ok () else vectorCheck cfg c.src.network c.src.network) with       -- line 203
    | .error e => .error e
    | .ok () => if cfg.isLocal c.dst.network then .ok () else vectorCheck cfg c.dst.network c.src.network        -- line 206
  else .ok ()

/-- The loop building the cross connects, aggregator.py:337-350, on the local part of the path. -/
def crossConnects (cfg : Cfg) (remote : STP) : STP → List (Str × Str) → Except Err (List Link)
  | prev, [] => .ok [⟨prev, remote⟩]                                       -- line 349
  | prev, (net, port) :: rest =>
    if prev.network ≠ net then .error .assertion                           -- line 338
    else match dget cfg.ports net with                                     -- line 341
      | none => .error .key
      | some ports => match dget ports port with
        | none => .error .key
        | some np => match np.remoteNet, np.remotePort with
          | some rn, some rp =>
            match crossConnects cfg remote ⟨rn, rp, np.label⟩ rest with
            | .ok ls => .ok (⟨prev, ⟨net, port, np.label⟩⟩ :: ls)
            | .error e => .error e
          | _, _ => .error .assertion                                      -- line 345, nsa.py:201-202

/-- The path over several networks, aggregator.py:307-356. -/
def aggregatePath (cfg : Cfg) (loc remote : STP) : Except Err (List Link) :=
  match cfg.lv.path cfg.fuel remote.network loc.network with               -- line 326
  | .notLocal => .error .value
  | .noPath => .error .stpResolution                                       -- line 328
  | .res .keyError => .error .key
  | .res .outOfFuel => .error .hang
  | .res (.hops hops) => crossConnects cfg remote loc (hops.filter fun x => cfg.isLocal x.1)     -- line 332

/-- The choice of the path, aggregator.py:289-367. -/
def choosePath (cfg : Cfg) (src dst : STP) : Except Err (List Link) :=
  if src.network = dst.network ∧ cfg.isLocal src.network then
    if .allowHairpin ∉ cfg.policies ∧ src.port = dst.port then .error .service       -- lines 291-293
    else .ok [⟨src, dst⟩]
  else if cfg.isLocal src.network then aggregatePath cfg src dst
  else if cfg.isLocal dst.network then aggregatePath cfg dst src                     -- lines 320-322
  else if .aggregator ∈ cfg.policies then .ok [⟨src, dst⟩]
  else .error .attribute                                                             -- line 367: `self.network` does not exist

/-- The providers of the non-local segments must exist, aggregator.py:373-379. -/
def checkProviders (cfg : Cfg) : List Link → Except Err Unit
  | [] => .ok ()
  | l :: ls =>
    if cfg.isLocal l.src.network then checkProviders cfg ls
    else match cfg.provider l.src.network with
      | .error e => .error e
      | .ok _ => checkProviders cfg ls

/-- The loop sending the requests, aggregator.py:384-412. Returns the URN of the last provider asked. -/
def sendReserves (cfg : Cfg) (conn : CRow) (start end_ : Option Time) : Nat → Str → List Link → Prog Str
  | _, last, [] => Coro.pure last
  | idx, _, l :: ls => do
    let p ← ofExcept (cfg.provider l.src.network)
    let corr ← issue .newCorr
    issue (.addResv corr ⟨p.2, conn.key, idx, l.src.network, l.src.port, l.dst.network, l.dst.port⟩)
    issue (.send ⟨p.1, p.2, corr, .reserve conn.cid l.src l.dst start end_ conn.bw⟩)
    sendReserves cfg conn start end_ (idx + 1) p.2 ls

/-- The segments that were accepted, with their network, aggregator.py:429-430. -/
def accepted : List (Except Err Str) → List Link → List (Str × Str)
  | .ok sc :: rs, l :: ls => (sc, l.src.network) :: accepted rs ls
  | .error _ :: rs, _ :: ls => accepted rs ls
  | _, _ => []

/-- The loop terminating the accepted segments, aggregator.py:431-443. `last`: the value `provider_urn` has after the loop above. -/
def sendTerminates (cfg : Cfg) (last : Str) : List (Str × Str) → Prog Unit
  | [] => Coro.pure ()
  | (sc, net) :: rest => do
    let p ← ofExcept (cfg.provider net)
    let corr ← issue .newCorr
    issue (.send ⟨p.1, last, corr, .terminate sc⟩)
    sendTerminates cfg last rest

/-- `'reservations'`, aggregator.py:450. -/
def tReservations : Str := ['r', 'e', 's', 'e', 'r', 'v', 'a', 't', 'i', 'o', 'n', 's']

/-- What happens when not all requests were accepted, aggregator.py:424-452. -/
def reserveCleanup (cfg : Cfg) (ref : Nat) (last : Str) (path : List Link) (results : List (Except Err Str)) :
    Prog (Option Str) := do
  switchC ref (switchL · .terminating)
  let acc := accepted results path
  sendTerminates cfg last acc
  let _ ← issue (.acks acc.length)
  switchC ref (switchL · .terminated)
  throw (aggException tReservations results (path.map (·.src.network)) true)

/-- The new connection, aggregator.py:239-253. The key is assigned when the row is stored. -/
def newConn (cid : Str) (h : Hdr) (c : Crit) : CRow :=
  ⟨0, cid, h.requester, .fresh, c.src, c.dst, c.start, c.end_, c.bw⟩

/-- `reserve` from line 237 on, aggregator.py. -/
def reserveNew (cfg : Cfg) (h : Hdr) (c : Crit) : Prog (Option Str) := do
  let cid ← issue .newCid
  let ref ← issue (.newC (newConn cid h c))
  issue (.saveC ref)
  switchC ref (switchR · .checking)                                     -- line 286
  let conn ← issue (.getC ref)
  let path ← ofExcept (choosePath cfg c.src c.dst)
  ofExcept (checkProviders cfg path)
  let last ← sendReserves cfg conn c.start c.end_ 0 [] path
  let results ← issue (.acks path.length)                               -- line 416
  if allOk results then Coro.pure (some cid) else reserveCleanup cfg ref last path results

/-- `reserve`, aggregator.py:157-452. `cid`: the connection id in the request. -/
def reserve (cfg : Cfg) (h : Hdr) (cid : Option Str) (c : Crit) : Prog (Option Str) :=
  match cid with
  | some i => do
    let b ← issue (.existsConn i)
    throw (if b then .connectionExists else .notImplemented)            -- lines 166-170
  | none => do
    ofExcept (admit cfg h c)
    reserveNew cfg h c

/-! ### Requests on existing connections -/

/-- Check of the lifecycle state, e.g. aggregator.py:463-464. -/
def checkLive (ref : Nat) : Prog Unit := do
  let row ← issue (.getC ref)
  if row.st.l = .terminated then throw .gone else Coro.pure ()

/-- Send an operation to every segment, e.g. aggregator.py:471-479. -/
def sendAll (cfg : Cfg) (op : Str → POp) : List SRow → Prog Unit
  | [] => Coro.pure ()
  | s :: ss => do
    let p ← ofExcept (cfg.provider s.src.network)
    let corr ← issue .newCorr
    issue (.send ⟨p.1, s.prov, corr, op s.cid⟩)
    sendAll cfg op ss

/-- The answer to the requester after the providers have answered, e.g. aggregator.py:483-493. -/
def answer (cid action : Str) (subs : List SRow) (results : List (Except Err Str)) : Prog (Option Str) :=
  if allOk results then Coro.pure (some cid)
  else throw (aggException action results (subs.map (·.prov)) false)

/-- `'committed'`, aggregator.py:493. -/
def tCommitted : Str := ['c', 'o', 'm', 'm', 'i', 't', 't', 'e', 'd']
/-- `'provision'`, aggregator.py:581. -/
def tProvision : Str := ['p', 'r', 'o', 'v', 'i', 's', 'i', 'o', 'n']
/-- `'release'`, aggregator.py:626. -/
def tRelease : Str := ['r', 'e', 'l', 'e', 'a', 's', 'e']
/-- `'terminate'`, aggregator.py:666. -/
def tTerminate : Str := ['t', 'e', 'r', 'm', 'i', 'n', 'a', 't', 'e']
/-- `'queryRecursive'`, aggregator.py:782. -/
def tQuery : Str := ['q', 'u', 'e', 'r', 'y', 'R', 'e', 'c', 'u', 'r', 's', 'i', 'v', 'e']

/-- `reserveCommit`, aggregator.py:455-493. -/
def reserveCommit (cfg : Cfg) (cid : Str) : Prog (Option Str) := do
  let ref ← getConnection cid
  checkLive ref
  switchC ref (switchR · .committing)
  let conn ← issue (.getC ref)
  let refs ← getSubConnections conn.key
  let subs ← getSs refs
  sendAll cfg .commit subs
  let results ← issue (.acks subs.length)
  answer cid tCommitted subs results

/-- The loop of `reserveAbort`, aggregator.py:513-519. The saves started are waited for (line 521); when a switch or a look-up
raises, the saves started so far still happen (simplification: before the exception). -/
def abortLoop (cfg : Cfg) (done : List Nat) : List Nat → Prog Unit
  | [] => issue (.saveSs done)
  | r :: rs => do
    let row ← issue (.getS r)
    match switchR row.st .aborting with
    | none => do
      issue (.saveSs done)
      throw .internal
    | some st => do
      issue (.setS r { row with st })
      match cfg.provider row.src.network with
      | .error e => do
        issue (.saveSs (done ++ [r]))
        throw e
      | .ok p => do
        let corr ← issue .newCorr
        issue (.send ⟨p.1, row.prov, corr, .abort row.cid⟩)
        abortLoop cfg (done ++ [r]) rs

/-- `reserveAbort`, aggregator.py:496-536. If a provider fails, `len(n_success)` of an integer raises TypeError (line 533). -/
def reserveAbort (cfg : Cfg) (cid : Str) : Prog (Option Str) := do
  let ref ← getConnection cid
  checkLive ref
  switchC ref (switchR · .aborting)
  let conn ← issue (.getC ref)
  let refs ← getSubConnections conn.key
  abortLoop cfg [] refs
  let results ← issue (.acks refs.length)
  if allOk results then Coro.pure (some cid) else throw .type

/-- Switching the segments, aggregator.py:557-562 and 602-604: `skip` tells which segments are left alone. -/
def switchSubs (skip : SRow → Bool) (f : ConnStates → Option ConnStates) (done : List Nat) : List Nat → Prog Unit
  | [] => if done = [] then Coro.pure () else issue (.saveSs done)
  | r :: rs => do
    let row ← issue (.getS r)
    if skip row then switchSubs skip f done rs
    else match f row.st with
      | none => do
        issue (.saveSs done)
        throw .internal
      | some st => do
        issue (.setS r { row with st })
        switchSubs skip f (done ++ [r]) rs

/-- `provision`, aggregator.py:539-581. -/
def provision (cfg : Cfg) (cid : Str) : Prog (Option Str) := do
  let ref ← getConnection cid
  checkLive ref
  switchC ref (switchP · .provisioning)
  let conn ← issue (.getC ref)
  let refs ← getSubConnections conn.key
  switchSubs (fun s => s.st.p = .provisioning) (switchP · .provisioning) [] refs
  let subs ← getSs refs
  sendAll cfg .provision subs
  let results ← issue (.acks subs.length)
  answer cid tProvision subs results

/-- `release`, aggregator.py:584-626. -/
def release (cfg : Cfg) (cid : Str) : Prog (Option Str) := do
  let ref ← getConnection cid
  checkLive ref
  switchC ref (switchP · .releasing)
  let conn ← issue (.getC ref)
  let refs ← getSubConnections conn.key
  switchSubs (fun _ => false) (switchP · .releasing) [] refs
  let subs ← getSs refs
  sendAll cfg .release subs
  let results ← issue (.acks subs.length)
  answer cid tRelease subs results

/-- `terminate` when the connection is not terminated, aggregator.py:640-666. -/
def terminateLive (cfg : Cfg) (cid : Str) (ref : Nat) : Prog (Option Str) := do
  switchC ref (switchL · .terminating)
  let conn ← issue (.getC ref)
  let refs ← getSubConnections conn.key
  let subs ← getSs refs
  sendAll cfg .terminate subs
  let results ← issue (.acks subs.length)
  answer cid tTerminate subs results

/-- `terminate`, aggregator.py:629-666. -/
def terminate (cfg : Cfg) (cid : Str) : Prog (Option Str) := do
  let ref ← getConnection cid
  let row ← issue (.getC ref)
  if row.st.l = .terminated then Coro.pure (some cid)                   -- line 638
  else terminateLive cfg cid ref

/-! ### Queries -/

/-- `max` of a non-empty list of integers, 0 for the empty one. -/
def maxInt : List Int → Int
  | [] => 0
  | x :: xs => xs.foldl max x

/-- Aggregated status of `querySummary`, aggregator.py:707-713. -/
def summaryStatus (subs : List SRow) : DPS :=
  if subs = [] then (false, 0, false)
  else (subs.all (·.dpActive), maxInt (subs.map fun s => s.dpVersion.getD 0), subs.all fun s => s.dpCons.getD false)

/-- `max([ ... ]) or 0` over versions that may be None, aggregator.py:809: comparing None raises TypeError. -/
def maxVersion (l : List (Option Int)) : Except Err Int :=
  match l with
  | [] => .error .value
  | [v] => .ok (v.getD 0)
  | vs => if vs.all (·.isSome) then .ok (maxInt (vs.map (·.getD 0))) else .error .type

/-- Aggregated status of `queryRecursiveConfirmed`, aggregator.py:804-811. -/
def recursiveStatus (subs : List SRow) : Except Err DPS :=
  if subs = [] then .ok (false, 0, false)
  else match maxVersion (subs.map (·.dpVersion)) with
    | .error e => .error e
    | .ok v => .ok (subs.all (·.dpActive), v, subs.all fun s => s.dpCons.getD false)

/-- Aggregated status of `dataPlaneStateChange`, aggregator.py:1171-1175. -/
def changeStatus (subs : List SRow) : DPS :=
  (subs.all (·.dpActive), maxInt (subs.map fun s => s.dpVersion.getD 0),
    (subs.all fun s => s.dpCons.getD false) && subs.all fun s => s.dpActive = (subs.head?.map (·.dpActive)).getD s.dpActive)

/-- The result for one connection, aggregator.py:699-722. -/
def infoOf (c : CRow) (dps : DPS) (notif : Nat) (children : List Str) : Info :=
  ⟨c.cid, c.requester, c.st, dps, c.src, c.dst, c.start, c.end_, notif, children⟩

/-- The loop of `querySummary`, aggregator.py:698-722. -/
def summaryLoop : List CRow → Prog (List Info)
  | [] => Coro.pure []
  | c :: cs => do
    let refs ← getSubConnections c.key
    let subs ← getSs refs
    let n ← issue .notifId
    let rest ← summaryLoop cs
    Coro.pure (infoOf c (summaryStatus subs) n [] :: rest)

/-- `querySummary`, aggregator.py:669-729. Selecting by global reservation id refers to a column that does not exist (line 689). -/
def querySummary (cfg : Cfg) (h : Hdr) (cids gids : List Str) : Prog (Option Str) :=
  let requester := if h.requester ∈ cfg.admins then none else some h.requester
  if cids = [] ∧ gids ≠ [] then throw .db
  else do
    let conns ← issue (.findConns requester (if cids = [] then none else some cids))
    let infos ← summaryLoop conns
    issue (.emit (.querySummary h.requester h.corr infos))
    Coro.pure none

/-- The loop of `queryRecursive`, aggregator.py:761-768. -/
def sendQueries (cfg : Cfg) (cb : Str) : List SRow → Prog Unit
  | [] => Coro.pure ()
  | s :: ss => do
    let p ← ofExcept (cfg.provider s.src.network)
    let corr ← issue .newCorr
    issue (.send ⟨p.1, s.prov, corr, .query s.cid⟩)
    issue (.setQCall corr cb none)
    sendQueries cfg cb ss

/-- `queryRecursive` for one connection, aggregator.py:751-782. -/
def queryOne (cfg : Cfg) (h : Hdr) (cid : Str) : Prog (Option Str) := do
  let ref ← getConnection cid
  let conn ← issue (.getC ref)
  let refs ← getSubConnections conn.key
  let subs ← getSs refs
  issue (.addQReq h.corr ⟨h.requester, ref, subs.length⟩)
  sendQueries cfg h.corr subs
  let results ← issue (.acks subs.length)
  if allOk results then Coro.pure none else throw (aggException tQuery results (subs.map (·.prov)) false)

/-- `queryRecursive`, aggregator.py:732-786. -/
def queryRecursive (cfg : Cfg) (h : Hdr) (cids gids : List Str) : Prog (Option Str) :=
  if gids ≠ [] then throw .unsupported
  else match cids with
    | [] => throw .missing
    | [cid] => queryOne cfg h cid
    | _ => throw .unsupported

/-- The end of `queryRecursiveConfirmed`, aggregator.py:791-819 and 850-858. -/
def answerQuery (cb : Str) (r : QReq) (results : List Str) : Prog (Option Str) := do
  issue (.popQuery cb)
  let conn ← issue (.getC r.conn)
  let refs ← getSubConnections conn.key
  let subs ← getSs refs
  let dps ← ofExcept (recursiveStatus subs)
  let conn ← issue (.getC r.conn)
  let n ← issue .notifId
  issue (.emit (.queryRecursive r.to_ cb (infoOf conn dps n results)))
  Coro.pure none

/-- `queryRecursiveConfirmed` when the call is known and has no result yet, aggregator.py:838-862. -/
def storeQuery (corr cb : Str) (res : List Str) : Prog (Option Str) := do
  issue (.setQCall corr cb (some res))
  match ← issue (.getQReq cb) with
  | none => throw .key
  | some r => do
    let scr ← issue (.qResults cb)
    if scr.length = r.count then answerQuery cb r scr else Coro.pure none

/-- `queryRecursiveConfirmed`, aggregator.py:789-862. A result is opaque; an empty list counts as no result (`if res`, line 831). -/
def queryRecursiveConfirmed (h : RHdr) (res : List Str) : Prog (Option Str) := do
  match ← issue (.getQCall h.corr) with
  | none => Coro.pure none
  | some (_, some (_ :: _)) => Coro.pure none
  | some (cb, _) => storeQuery h.corr cb res

/-! ### Replies of the providers -/

/-- The connection of a segment and all its segments, e.g. aggregator.py:939-940. -/
def family (skey : Nat) : Prog (Nat × List Nat) := do
  let ref ← getConnectionByKey skey
  let conn ← issue (.getC ref)
  let refs ← getSubConnections conn.key
  Coro.pure (ref, refs)

/-- The new segment, aggregator.py:921-934. -/
def newSub (r : Resv) (cid : Str) (c : Crit) : SRow :=
  ⟨0, r.skey, cid, r.prov, r.order, ⟨.held, .released, .created⟩, false, none, none, c.src, c.dst⟩

/-- Labels of the connection, aggregator.py:942-945. -/
def confirmLabels (conn : CRow) (order n : Nat) (c : Crit) : CRow :=
  let conn := if order = 0 then { conn with src := { conn.src with label := c.src.label } } else conn
  if (order : Int) = (n : Int) - 1 then { conn with dst := { conn.dst with label := c.dst.label } } else conn

/-- `reserveConfirmed` from line 949 on, aggregator.py. -/
def confirmUp (skey ref : Nat) (refs : List Nat) : Prog (Option Str) := do
  let n ← issue (.outstanding skey)
  if n > 0 then Coro.pure none                                            -- line 951
  else do
    let subs ← getSs refs
    let conn ← issue (.getC ref)
    if (subs.all fun s => s.st.r = .held) ∧ conn.st.r ≠ .held then do
      switchC ref (switchR · .held)
      let conn ← issue (.getC ref)
      issue (.emit (.reserveConfirmed conn.requester conn.cid conn.src conn.dst conn.start conn.end_ conn.bw))
      Coro.pure none
    else Coro.pure none

/-- `reserveConfirmed` after the checks, aggregator.py:892-975. Mismatches are only logged (lines 898-912). -/
def confirmOk (r : Resv) (cid : Str) (c : Crit) : Prog (Option Str) := do
  let sref ← issue (.newS (newSub r cid c))
  issue (.saveS sref)
  let f ← family r.skey
  let conn ← issue (.getC f.1)
  issue (.setC f.1 (confirmLabels conn r.order f.2.length c))
  issue (.saveC f.1)
  confirmUp r.skey f.1 f.2

/-- The checks of reserve replies, aggregator.py:880-892 and 984-996. -/
def takeResv (h : RHdr) : Prog Resv := do
  match ← issue (.getResv h.corr) with
  | none => throw .nonExistent
  | some r =>
    if h.prov ≠ r.prov then throw .security
    else do
      issue (.popResv h.corr)
      Coro.pure r

/-- `reserveConfirmed`, aggregator.py:875-975. -/
def reserveConfirmed (h : RHdr) (cid : Str) (c : Crit) : Prog (Option Str) := do
  let r ← takeResv h
  confirmOk r cid c

/-- `if conn.reservation_state != state.RESERVE_FAILED: yield state.reserveFailed(conn)`, aggregator.py:1001-1002. -/
def markFailed (ref : Nat) : Prog Unit := do
  let conn ← issue (.getC ref)
  if conn.st.r ≠ .failed then switchC ref (switchR · .failed) else Coro.pure ()

/-- `reserveFailed`, aggregator.py:978-1005. -/
def reserveFailed (h : RHdr) : Prog (Option Str) := do
  let r ← takeResv h
  let ref ← getConnectionByKey r.skey
  markFailed ref
  let conn ← issue (.getC ref)
  issue (.emit (.reserveFailed conn.requester conn.cid))
  Coro.pure none

/-- The common end of the confirmations, e.g. aggregator.py:1018-1026: if all segments are there and the connection is not, switch
the connection and tell the parent. -/
def confirmAll (skey : Nat) (there : ConnStates → Bool) (f : ConnStates → Option ConnStates) (msg : Str → Str → Out) :
    Prog (Option Str) := do
  let fam ← family skey
  let subs ← getSs fam.2
  let conn ← issue (.getC fam.1)
  if (subs.all fun s => there s.st) ∧ ¬ there conn.st then do
    switchC fam.1 f
    let conn ← issue (.getC fam.1)
    issue (.emit (msg conn.requester conn.cid))
    Coro.pure none
  else Coro.pure none

/-- A confirmation that assigns the state of the segment without check, aggregator.py:1014-1016, 1036-1038, 1092-1094. -/
def confirmSet (h : RHdr) (cid : Str) (set : ConnStates → ConnStates) (there : ConnStates → Bool)
    (f : ConnStates → Option ConnStates) (msg : Str → Str → Out) : Prog (Option Str) := do
  let sref ← getSubConnection h.prov cid
  let s ← issue (.getS sref)
  issue (.setS sref { s with st := set s.st })
  issue (.saveS sref)
  confirmAll s.skey there f msg

/-- A confirmation that switches the state of the segment, aggregator.py:1057-1058, 1077-1078. -/
def confirmSwitch (h : RHdr) (cid : Str) (g : ConnStates → Option ConnStates) (there : ConnStates → Bool)
    (f : ConnStates → Option ConnStates) (msg : Str → Str → Out) : Prog (Option Str) := do
  let sref ← getSubConnection h.prov cid
  let s ← issue (.getS sref)
  switchS sref g
  confirmAll s.skey there f msg

/-- `reserveCommitConfirmed`, aggregator.py:1008-1027. -/
def reserveCommitConfirmed (h : RHdr) (cid : Str) : Prog (Option Str) :=
  confirmSet h cid (fun s => { s with r := .start }) (fun s => s.r = .start) (switchR · .start) .reserveCommitConfirmed

/-- `reserveAbortConfirmed`, aggregator.py:1030-1048. -/
def reserveAbortConfirmed (h : RHdr) (cid : Str) : Prog (Option Str) :=
  confirmSet h cid (fun s => { s with r := .start }) (fun s => s.r = .start) (switchR · .start) .reserveAbortConfirmed

/-- `provisionConfirmed`, aggregator.py:1051-1068. -/
def provisionConfirmed (h : RHdr) (cid : Str) : Prog (Option Str) :=
  confirmSwitch h cid (switchP · .provisioned) (fun s => s.p = .provisioned) (switchP · .provisioned) .provisionConfirmed

/-- `releaseConfirmed`, aggregator.py:1071-1087. -/
def releaseConfirmed (h : RHdr) (cid : Str) : Prog (Option Str) :=
  confirmSwitch h cid (switchP · .released) (fun s => s.p = .released) (switchP · .released) .releaseConfirmed

/-- `terminateConfirmed`, aggregator.py:1090-1105. -/
def terminateConfirmed (h : RHdr) (cid : Str) : Prog (Option Str) :=
  confirmSet h cid (fun s => { s with l := .terminated }) (fun s => s.l = .terminated) (switchL · .terminated)
    .terminateConfirmed

/-- `reserveTimeout`, aggregator.py:1123-1148. -/
def reserveTimeout (h : RHdr) (cid : Str) (notif : Nat) : Prog (Option Str) := do
  let sref ← getSubConnection h.prov cid
  switchS sref (switchR · .timeout)
  let s ← issue (.getS sref)
  let fam ← family s.skey
  let subs ← getSs fam.2
  let conn ← issue (.getC fam.1)
  if conn.st.r = .failed then Coro.pure none
  else if (subs.filter fun s => s.st.r = .timeout).length = 1 then do
    issue (.emit (.reserveTimeout conn.requester conn.cid notif))
    Coro.pure none
  else Coro.pure none

/-- `dataPlaneStateChange`, aggregator.py:1151-1184. The notification id passed on is always 0 (line 1184). -/
def dataPlaneStateChange (h : RHdr) (cid : Str) (active : Bool) (version : Int) (consistent : Bool) : Prog (Option Str) := do
  let sref ← getSubConnection h.prov cid
  let s ← issue (.getS sref)
  issue (.setS sref { s with dpActive := active, dpVersion := some version, dpCons := some consistent })
  issue (.saveS sref)
  let fam ← family s.skey
  let subs ← getSs fam.2
  let conn ← issue (.getC fam.1)
  issue (.emit (.dataPlane conn.requester conn.cid 0 (changeStatus subs)))
  Coro.pure none

/-- `errorEvent`, aggregator.py:1207-1220. -/
def errorEvent (h : RHdr) (cid : Str) (notif : Nat) : Prog (Option Str) := do
  let sref ← getSubConnection h.prov cid
  let s ← issue (.getS sref)
  let fam ← family s.skey
  let conn ← issue (.getC fam.1)
  if fam.2.length = 1 then do
    issue (.emit (.errorEvent conn.requester conn.cid notif))
    Coro.pure none
  else throw .notImplemented

/-! ### Messages -/

/-- What the aggregator is called with: requests of the parent, and replies and notifications of providers. Not modelled:
`error` (aggregator.py:1187-1204), which only passes its arguments on, and the methods that only raise NotImplementedError. -/
inductive Msg
  | reserve (h : Hdr) (cid : Option Str) (c : Crit)
  | commit (h : Hdr) (cid : Str)
  | abort (h : Hdr) (cid : Str)
  | provision (h : Hdr) (cid : Str)
  | release (h : Hdr) (cid : Str)
  | terminate (h : Hdr) (cid : Str)
  | querySummary (h : Hdr) (cids gids : List Str)
  | queryRecursive (h : Hdr) (cids gids : List Str)
  | reserveConfirmed (h : RHdr) (cid : Str) (c : Crit)
  | reserveFailed (h : RHdr)
  | commitConfirmed (h : RHdr) (cid : Str)
  | abortConfirmed (h : RHdr) (cid : Str)
  | provisionConfirmed (h : RHdr) (cid : Str)
  | releaseConfirmed (h : RHdr) (cid : Str)
  | terminateConfirmed (h : RHdr) (cid : Str)
  | timeout (h : RHdr) (cid : Str) (notif : Nat)
  | dataPlane (h : RHdr) (cid : Str) (active : Bool) (version : Int) (consistent : Bool)
  | errorEvent (h : RHdr) (cid : Str) (notif : Nat)
  | queryConfirmed (h : RHdr) (res : List Str)
  deriving DecidableEq, Repr

/-- The coroutine handling a message. -/
def Msg.prog (cfg : Cfg) : Msg → Prog (Option Str)
  | .reserve h cid c => Agg.reserve cfg h cid c
  | .commit _ cid => Agg.reserveCommit cfg cid
  | .abort _ cid => Agg.reserveAbort cfg cid
  | .provision _ cid => Agg.provision cfg cid
  | .release _ cid => Agg.release cfg cid
  | .terminate _ cid => Agg.terminate cfg cid
  | .querySummary h cids gids => Agg.querySummary cfg h cids gids
  | .queryRecursive h cids gids => Agg.queryRecursive cfg h cids gids
  | .reserveConfirmed h cid c => Agg.reserveConfirmed h cid c
  | .reserveFailed h => Agg.reserveFailed h
  | .commitConfirmed h cid => Agg.reserveCommitConfirmed h cid
  | .abortConfirmed h cid => Agg.reserveAbortConfirmed h cid
  | .provisionConfirmed h cid => Agg.provisionConfirmed h cid
  | .releaseConfirmed h cid => Agg.releaseConfirmed h cid
  | .terminateConfirmed h cid => Agg.terminateConfirmed h cid
  | .timeout h cid n => Agg.reserveTimeout h cid n
  | .dataPlane h cid a v c => Agg.dataPlaneStateChange h cid a v c
  | .errorEvent h cid n => Agg.errorEvent h cid n
  | .queryConfirmed h res => Agg.queryRecursiveConfirmed h res

/-- A message handled without interleaving, with the environment's choices. -/
def step (cfg : Cfg) (w : World) (o : Oracle) (m : Msg) : World × Except Err (Option Str) :=
  (m.prog cfg).run machine { w with orc := o }

/-- A sequence of messages, each handled to completion before the next. -/
def runMsgs (cfg : Cfg) (w : World) : List (Oracle × Msg) → World
  | [] => w
  | (o, m) :: ms => runMsgs cfg (step cfg w o m).1 ms

/-- A freshly started aggregator with an empty database. -/
def World.init : World := ⟨[], [], 1, 1, [], [], [], [], [], [], [], 0, [], [], {}⟩

end OpenNSA.Agg
