import Verif.Db.Model
import Verif.Wire.Dispatch
/-
Model of what becomes of the criteria of a request: /repo/opennsa/aggregator.py:239-253, 375-413, 705-735, 958-972 and
/repo/opennsa/backends/common/genericbackend.py:349-357, 541-560, 589-598. The states and messages of connections are in `Agg` and `Backend`; there the values
that are only carried along are left out. Here are these values, and nothing else.
-/
namespace OpenNSA.Criteria
open Py Wire Db

/-- A `ServiceConnection` (database.py:93) or `GenericBackendConnections` (genericbackend.py:33) object: the attributes that come from the request. -/
structure Conn where
  cid : Str
  revision : Int
  gid : Option Str
  description : Option Str
  requester : Option Str
  source : STP
  dest : STP
  schedule : Sched
  symmetric : Option Bool
  direction : Option Str
  capacity : Int
  deriving DecidableEq, Repr

/-- The attribute of a column of texts. -/
def textOf : Val → Option Str
  | .text s => some s
  | _ => none
/-- The attribute of a column of labels. -/
def labelOf : Val → Option Label
  | .label l => some l
  | _ => none
/-- The attribute of a column of times. -/
def timeOf : Val → Option Int
  | .time t => some t
  | _ => none
/-- The attribute of a column of truth values. -/
def boolOf : Val → Option Bool
  | .bool b => some b
  | _ => none

/-- The object for a row of `service_connections`, columns as in `serviceVals`. -/
def serviceConn : List Val → Option Conn
  | [.text cid, .int rev, gid, desc, req, _, _, _, _, _, .text sn, .text sp, sl, .text dn, .text dp, dl, st, en, sym, dir, .int cap, _, _] =>
    some { cid, revision := rev, gid := textOf gid, description := textOf desc, requester := textOf req, source := ⟨sn, sp, labelOf sl⟩, dest := ⟨dn, dp, labelOf dl⟩
           schedule := ⟨timeOf st, timeOf en⟩, symmetric := boolOf sym, direction := textOf dir, capacity := cap }
  | _ => none

/-- The object for a row of `generic_backend_connections`, columns as in `backendVals`. -/
def backendConn : List Val → Option Conn
  | [.text cid, .int rev, gid, desc, req, _, _, _, _, _, .text sn, .text sp, sl, .text dn, .text dp, dl, st, en, sym, dir, .int cap, _] =>
    some { cid, revision := rev, gid := textOf gid, description := textOf desc, requester := textOf req, source := ⟨sn, sp, labelOf sl⟩, dest := ⟨dn, dp, labelOf dl⟩
           schedule := ⟨timeOf st, timeOf en⟩, symmetric := boolOf sym, direction := textOf dir, capacity := cap }
  | _ => none

/-- The request for a segment, aggregator.py:393, 405, 408: neither ERO nor parameters are passed on. `criteria` is the criteria of the request. -/
def Conn.segment (c : Conn) (criteria : Resv) (src dst : STP) : Resv :=
  { cid := none, gid := c.gid, description := c.description, revision := criteria.revision, schedule := criteria.schedule
    sd := ⟨src, dst, c.capacity, criteria.sd.directionality, criteria.sd.symmetric, none, none⟩ }

/-- The header of the request for a segment, aggregator.py:381, 390-391. `urn`: the agent; `corr`: the new correlation id (nsa.py:35). -/
def segmentHeader (urn provider corr cid : Str) (h : HeaderIn) : NHeader :=
  { requesterNSA := urn, providerNSA := provider, correlationId := corr, replyTo := none, securityAttributes := h.securityAttributes
    connectionTrace := some ((h.connectionTrace.getD []).map (·.getD []) ++ [urn ++ ':' :: cid]) }

/-- `cnt.BIDIRECTIONAL`, constants.py:24. -/
def bidirectional : Str := "Bidirectional".toList

/-- The criteria of confirmations and query results: `nsa.Point2PointService(source_stp, dest_stp, conn.bandwidth, cnt.BIDIRECTIONAL, False, None)`,
aggregator.py:703, 800, 966, genericbackend.py:551, 592. -/
def Conn.sd (c : Conn) : P2P := ⟨c.source, c.dest, c.capacity, some bidirectional, some false, none, none⟩

/-- `reserveConfirmed`, aggregator.py:962-972, genericbackend.py:589-598. -/
def Conn.confirmed (c : Conn) : Resv :=
  { cid := some c.cid, gid := c.gid, description := c.description, revision := some (showInt c.revision), schedule := c.schedule, sd := c.sd }

/-- The labels that were chosen, aggregator.py:939-942. -/
def Conn.relabel (c : Conn) (src dst : Option Label) : Conn := { c with source := { c.source with label := src }, dest := { c.dest with label := dst } }

/-- The entry of a query result, aggregator.py:699-723, 795-821, genericbackend.py:547-560. -/
def Conn.info (c : Conn) (provider : Str) (states : ConnStates) (children : List Child) (notification result : Int) : Info :=
  { cid := some c.cid, gid := c.gid, description := c.description, criterias := [.mk c.revision c.schedule c.sd children], provider := some provider, requester := c.requester
    states, notificationId := some notification, resultId := some result }

end OpenNSA.Criteria
