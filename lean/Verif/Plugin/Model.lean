import Verif.Agg.Model
import Verif.Label.Lemmas
/-
Model of the plugins: /repo/opennsa/plugin.py, plugins/pruner.py, plugins/canarie.py.

Simplification: all labels and STPs of a path are different objects, as they are in a path built by the aggregator (aggregator.py:268-284), so that assigning
`link.src_stp.label` changes no other link.
-/
namespace OpenNSA.Plugin
open Py Agg

/-- Exceptions of `pruneLabels`. -/
inductive PruneErr
  | attribute                -- None.intersect(...)            (pruner.py:31)
  | label (e : LabelErr)     -- from intersect or Label(...)   (pruner.py:31-32)
  deriving DecidableEq, Repr

/-- `n in text` for two strings (pruner.py:30). -/
def occursIn (n : Str) : Str → Bool
  | [] => n.isEmpty
  | c :: cs => n.isPrefixOf (c :: cs) || occursIn n cs

/-- `any([ n in link.src_stp.network for n in NETWORKS ])`, pruner.py:30. -/
def isTarget (networks : List Str) (l : Link) : Bool := networks.any fun n => occursIn n l.src.network

/-- The label `lnv` of a link, pruner.py:31-32. A missing label of the destination fails the assertion of nsa.py:125. -/
def prunedLabel (l : Link) : Except PruneErr Label :=
  match l.src.label with
  | none => .error .attribute
  | some a =>
    match l.dst.label with
    | none => .error (.label .assertion)
    | some b =>
      match a.intersect b with
      | .error e => .error (.label e)
      | .ok liv =>
        match Label.mk' liv.type_ (.str liv.labelValue) with
        | .error e => .error (.label e)
        | .ok lnv => .ok lnv

/-- Assignment to `link.src_stp.label`. -/
def setSrc (v : Label) (l : Link) : Link := { l with src := { l.src with label := some v } }
/-- Assignment to `link.dst_stp.label`. -/
def setDst (v : Label) (l : Link) : Link := { l with dst := { l.dst with label := some v } }

/-- One round of the loop, pruner.py:28-42. -/
def pruneStep (networks : List Str) (path : List Link) (idx : Nat) : Except PruneErr (List Link) :=
  match path[idx]? with
  | none => .ok path
  | some link =>
    if isTarget networks link then
      match prunedLabel link with
      | .error e => .error e
      | .ok lnv =>
        let path := path.modify idx fun l => setDst lnv (setSrc lnv l)                       -- lines 33-34
        let path := if idx > 0 then path.modify (idx - 1) (setDst lnv) else path              -- lines 36-38
        .ok (if idx + 1 < path.length then path.modify (idx + 1) (setSrc lnv) else path)      -- lines 40-42
    else .ok path

/-- The first `k` rounds of the loop. -/
def pruneUpTo (networks : List Str) (path : List Link) : Nat → Except PruneErr (List Link)
  | 0 => .ok path
  | k + 1 =>
    match pruneUpTo networks path k with
    | .error e => .error e
    | .ok p => pruneStep networks p k

/-- `pruneLabels`, pruner.py:24-44. -/
def pruneLabels (networks : List Str) (path : List Link) : Except PruneErr (List Link) := pruneUpTo networks path path.length

/-- `PrunerPlugin.prunePaths`, pruner.py:53-55: only the first path is kept; `none` if there is none (IndexError). -/
def prunePaths (networks : List Str) (paths : List (List Link)) : Option (Except PruneErr (List (List Link))) :=
  match paths with
  | [] => none
  | p :: _ => some (match pruneLabels networks p with | .error e => .error e | .ok p => .ok [p])

/-- `createConnectionId` of the default plugin, plugin.py:32-43, with the ten digits drawn as an argument: `conn_prefix` is made of the first two letters of the
domain. `upper` is Python's `str.upper`. -/
def defaultConnectionId (upper : Str → Str) (domain digits : Str) : Str := upper (domain.take 2) ++ '-' :: digits

/-- `createConnectionId` of the Canarie plugin, canarie.py:28-41; the number comes from the database (`IdTable.next`); `none` is a ValueError. -/
def canarieConnectionId : Option Nat → Option Str
  | none => none
  | some n => some ((showNat n).take 5 ++ ['C', 'S'] ++ (showNat n).drop 5 ++ ['-', 'A', 'N', 'A'])

/-- The table `backend_connection_id`, datafiles/schema.sql:113-116: at most one row, since its primary key must be 1; the number in it.
Simplification: numbers below 0 are left out. -/
abbrev IdTable := Option Nat

/-- The largest number of the type `serial` of the column, schema.sql:115 (PostgreSQL: a four byte integer). -/
def maxSerial : Nat := 2147483647

/-- `setupDatabase`, database.py:78-80, when the service starts: the setting `serviceid_start` is inserted unless there is a row already.
Simplification: the setting is a number in the range of the column, or absent. -/
def IdTable.setup (t : IdTable) (start : Option Nat) : IdTable :=
  match start with
  | none => t
  | some n => match t with
    | none => some n
    | some m => some m

/-- `getBackendConnectionId`, database.py:110-128: one statement `UPDATE … SET connection_id = connection_id + 1 RETURNING connection_id`.
Without row the result is `None`; beyond the range the statement fails (`none` in the first component), and nothing is changed. -/
def IdTable.next (t : IdTable) : Option (Option Nat) × IdTable :=
  match t with
  | none => (some none, none)
  | some m => if m + 1 ≤ maxSerial then (some (some (m + 1)), some (m + 1)) else (none, some m)

/-- The service is started with a setting `serviceid_start`; a reservation asks for a connection id (canarie.py:31). -/
inductive IdEv
  | start (n : Option Nat)
  | ask

/-- The table, and the connection ids made so far (canarie.py:31-41). -/
def idStep (s : IdTable × List Str) : IdEv → IdTable × List Str
  | .start n => (s.1.setup n, s.2)
  | .ask =>
    match s.1.next with
    | (some r, t) => (t, s.2 ++ (canarieConnectionId r).toList)
    | (none, t) => (t, s.2)

end OpenNSA.Plugin
