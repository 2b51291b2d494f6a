import Verif.Backend.Conc
/-
Queries to the backend, /repo/opennsa/backends/common/genericbackend.py:521-567.

`_query` reads the rows in one database operation and makes the answer from them without interruption, so that the answer is a
function of the world at the moment of the database operation. The rows are read into objects of their own, which nothing else
refers to; they are not kept in `heap`.
-/
namespace OpenNSA.Backend
open OpenNSA Py

/-- Why a query is not answered. `db`: the database rejects the statement. -/
inductive QueryErr
  | missingParameter | db | notImplemented
  deriving DecidableEq, Repr

/-- `nsa.ConnectionInfo` of one connection, genericbackend.py:546-559. Not modelled, as in `Row`: global id, description, bandwidth,
version (always 0); the provider is always that of this backend's network (line 557), the data plane is always said to be
consistent (line 551). -/
structure QueryEntry where
  cid : Str
  requester : Str
  srcPort : Str
  srcLabel : Option LabelVal
  dstPort : Str
  dstLabel : Option LabelVal
  start : Option Time
  end_ : Option Time
  st : ConnStates
  active : Bool
  notif : Nat
  deriving DecidableEq, Repr

/-- The loop over the connections found, genericbackend.py:546-559; `n`: the notification counter (lines 79-82, 553). -/
def queryEntries : Nat → List Row → List QueryEntry
  | _, [] => []
  | n, r :: rs => ⟨r.cid, r.requester, r.srcPort, r.srcLabel, r.dstPort, r.dstLabel, r.start, r.end_, r.st, r.active, n⟩ :: queryEntries (n + 1) rs

/-- `_query`, genericbackend.py:535-561. `None` and the empty list are not distinguished (lines 539, 541). The column
`global_reservation_ids` of line 542 does not exist (datafiles/schema.sql:78-104: `global_reservation_id`). Simplification: the rows
come in the order of the table. -/
def World.query (w : World) (requester : Str) (cids gids : List Str) : World × Except QueryErr (List QueryEntry) :=
  if cids ≠ [] then
    let rows := w.rows.filter fun r => decide (r.requester = requester) && decide (r.cid ∈ cids)
    ({ w with notif := w.notif + rows.length }, .ok (queryEntries w.notif rows))
  else if gids ≠ [] then (w, .error .db)
  else (w, .error .missingParameter)

/-- `queryNotification`, genericbackend.py:564-566. -/
def World.queryNotification (w : World) (_requester _cid : Str) : World × Except QueryErr (List QueryEntry) := (w, .error .notImplemented)

/-- The entry shows the connection as it is stored. -/
def QueryEntry.shows (e : QueryEntry) (r : Row) : Prop :=
  e.cid = r.cid ∧ e.requester = r.requester ∧ e.srcPort = r.srcPort ∧ e.srcLabel = r.srcLabel ∧ e.dstPort = r.dstPort ∧ e.dstLabel = r.dstLabel ∧
    e.start = r.start ∧ e.end_ = r.end_ ∧ e.st = r.st ∧ e.active = r.active

theorem queryEntries_mem {e : QueryEntry} : ∀ {n : Nat} {rows : List Row}, e ∈ queryEntries n rows → ∃ r ∈ rows, e.shows r
  | _, [], h => by cases h
  | n, r :: rs, h => by
    rcases List.mem_cons.mp h with rfl | h
    · exact ⟨r, List.mem_cons_self .., rfl, rfl, rfl, rfl, rfl, rfl, rfl, rfl, rfl, rfl⟩
    · obtain ⟨r', h1, h2⟩ := queryEntries_mem h
      exact ⟨r', List.mem_cons_of_mem _ h1, h2⟩

theorem mem_queryEntries {r : Row} : ∀ {n : Nat} {rows : List Row}, r ∈ rows → ∃ e ∈ queryEntries n rows, e.shows r
  | _, [], h => by cases h
  | n, x :: rs, h => by
    rcases List.mem_cons.mp h with rfl | h
    · exact ⟨_, List.mem_cons_self .., rfl, rfl, rfl, rfl, rfl, rfl, rfl, rfl, rfl, rfl⟩
    · obtain ⟨e, h1, h2⟩ := mem_queryEntries (n := n + 1) h
      exact ⟨e, List.mem_cons_of_mem _ h1, h2⟩

theorem queryEntries_cids : ∀ (n : Nat) (rows : List Row), (queryEntries n rows).map (·.cid) = rows.map (·.cid)
  | _, [] => rfl
  | n, r :: rs => by simp [queryEntries, queryEntries_cids (n + 1) rs]

end OpenNSA.Backend
