import Verif.Wire.Parts
/-
Model of query results on the wire: /repo/opennsa/protocols/nsi2/queryhelper.py, with the bindings
nsiconnection.py:172-248, 614-653, 720-747, 772-797, 823-851 and requesterservice.py:145-164.
-/
namespace OpenNSA.Wire
open Py

mutual
/-- `nsa.QueryCriteria`, nsa.py:349-357: revision, schedule, service and children. -/
inductive Crit
  | mk (revision : Int) (schedule : Sched) (sd : P2P) (children : List Child)
  deriving Repr
/-- `nsa.ConnectionInfo`, nsa.py:322-338, as a child: connection id, provider, states and criterias. The other attributes are not
sent for children (queryhelper.py:85) and are `None` at the receiver (line 154). -/
inductive Child
  | mk (cid provider : Option Str) (states : ConnStates) (criterias : List Crit)
  deriving Repr
end

/-- `nsa.ConnectionInfo`, nsa.py:322-338, of a queried connection. The service type is not sent (queryhelper.py:57, 99). -/
structure Info where
  cid : Option Str
  gid : Option Str
  description : Option Str
  criterias : List Crit
  provider : Option Str
  requester : Option Str
  states : ConnStates
  notificationId : Option Int
  resultId : Option Int
  deriving Repr

/-! ### Writing -/

mutual
/-- `buildQueryRecursiveResultCriteriaType`, queryhelper.py:68-89, and `QueryRecursiveResultCriteriaType.xml`,
nsiconnection.py:740-747. -/
def Crit.xml : Crit → Elem
  | .mk rev s sd ch => .mk "criteria" [("version", showInt rev)] none
      [s.xml "schedule", leaf "serviceType" (some p2psTag.toList), .mk "children" [] none (childrenXml ch 0), sd.xml none (some []) p2psTag]
/-- queryhelper.py:83-85 and `ChildRecursiveType.xml`, nsiconnection.py:790-797. -/
def Child.xml : Child → Nat → Elem
  | .mk cid prov st cs, idx => .mk "child" [("order", showNat idx)] none
      (leaf "connectionId" cid :: leaf "providerNSA" (some (strOf prov)) :: st.xml "connectionStates" :: critsXml cs)
/-- The loop queryhelper.py:80-86. -/
def childrenXml : List Child → Nat → List Elem
  | [], _ => []
  | c :: cs, i => c.xml i :: childrenXml cs (i + 1)
/-- queryhelper.py:84, 96 -/
def critsXml : List Crit → List Elem
  | [] => []
  | c :: cs => c.xml :: critsXml cs
end

/-- queryhelper.py:96-101 and `QuerySummaryResultType.xml`, nsiconnection.py:196-212. -/
def Info.xml (i : Info) (crits : List Elem) : Elem :=
  .mk "reservation" [] none
    (leaf "connectionId" i.cid :: (optLeaf "globalReservationId" i.gid ++ optLeaf "description" i.description ++ crits ++
     [leaf "requesterNSA" (some (strOf i.requester)), i.states.xml "connectionStates"] ++
     optLeaf "notificationId" (i.notificationId.map showInt) ++ optLeaf "resultId" (i.resultId.map showInt)))

/-- `buildQueryRecursiveResultType`, queryhelper.py:66-104, and `QueryRecursiveConfirmedType.xml`, nsiconnection.py:244-248. -/
def recursiveXml (is : List Info) : Elem :=
  .mk "{http://schemas.ogf.org/nsi/2013/12/connection/types}queryRecursiveConfirmed" [] none (is.map fun i => i.xml (critsXml i.criterias))

/-- One criteria of a summary: queryhelper.py:46-52, `QuerySummaryResultCriteriaType.xml`, nsiconnection.py:843-851. -/
def Crit.summaryXml : Crit → Elem
  | .mk rev s sd _ => .mk "criteria" [("version", showInt rev)] none
      [s.xml "schedule", leaf "serviceType" (some evtsAgole), .mk "children" [] none [], sd.xml none (some []) p2psTag]

/-- `buildQuerySummaryResultType`, queryhelper.py:39-61, and `QuerySummaryConfirmedType.xml`, nsiconnection.py:226-230. -/
def summaryXml (is : List Info) : Elem :=
  .mk "{http://schemas.ogf.org/nsi/2013/12/connection/types}querySummaryConfirmed" [] none
    (is.map fun i => i.xml (i.criterias.map Crit.summaryXml))

/-! ### Reading -/

/-- Python's order of texts. -/
def strLe : Str → Str → Bool
  | [], _ => true
  | _ :: _, [] => false
  | a :: as, b :: bs => if a = b then strLe as bs else decide (a.toNat < b.toNat)

/-- `sorted(children, key=lambda c: c.order)`, queryhelper.py:149. `order` is the text of the attribute (nsiconnection.py:783), or
`None`, which cannot be compared. -/
def sortChildren (l : List (Option Str × Child)) : Except WireErr (List Child) :=
  if 2 ≤ l.length ∧ ∃ x ∈ l, x.1 = none then .error .typeError
  else .ok ((sortBy (fun a b => strLe (a.1.getD []) (b.1.getD [])) l).map (·.2))

/-- `buildServiceDefinition`, queryhelper.py:117-131. A single parameter gives a criteria without service (line 131), which is
modelled as an error: nothing sent by this program has it. -/
def readQuerySvc (d : SvcDef) : Except WireErr P2P :=
  match d with
  | .p2p p => readP2P p p.symmetric none
  | .parameter => .error .attributeError

/-- `QueryRecursiveResultCriteriaType.build`, nsiconnection.py:729-738, then `buildCriteria`, queryhelper.py:142-158. `children` are the
children read from the element `children`, if there is one; a missing one is `None` (line 736) and cannot be sorted.

Simplified: the program first builds the objects of the whole message and converts them then; which of several errors of a
malformed message is raised can differ. -/
def critOf (u : Uncommon) (e : Elem) (children : Option (Except WireErr (List (Option Str × Child)))) : Except WireErr Crit :=
  match readSvcDef ["schedule", "serviceType", "children"] e with
  | .error x => .error x
  | .ok d => match readSched u (e.find "schedule") with
    | .error x => .error x
    | .ok s => match readQuerySvc d with
      | .error x => .error x
      | .ok sd => match children with
        | none => .error .typeError
        | some (.error x) => .error x
        | some (.ok l) => match sortChildren l with
          | .error x => .error x
          | .ok ch => match intOf (e.get "version") with
            | .error x => .error x
            | .ok v => .ok (.mk v s sd ch)

/-- `ChildRecursiveType.build`, nsiconnection.py:781-788, then queryhelper.py:151-155. A child without criteria has `None`
(line 787), which has no first element (queryhelper.py:151). -/
def childOf (e : Elem) (crits : List (Except WireErr Crit)) : Except WireErr (Option Str × Child) :=
  match readStates (e.find "connectionStates") with
  | .error x => .error x
  | .ok st => match crits.mapM id with
    | .error x => .error x
    | .ok [] => .error .typeError
    | .ok (c :: cs) => .ok (e.get "order", .mk (e.findtext "connectionId") (e.findtext "providerNSA") st (c :: cs))

/-- What an element can be read as. -/
structure Rd where
  crit : Except WireErr Crit
  child : Except WireErr (Option Str × Child)
  children : Except WireErr (List (Option Str × Child))

mutual
/-- Reading an element as criteria, as child and as list of children (`[ ChildRecursiveType.build(e) for e in .. ]`,
nsiconnection.py:736). See `readCrit_eq`, `readChild_eq` and `readChildren_eq` for the equations. -/
def rd (u : Uncommon) : Elem → Rd
  | .mk t a x k =>
    let rs := rdAll u k
    { crit := critOf u (.mk t a x k) ((rs.find? fun p => p.1.tag = "children").map fun p => p.2.children)
      child := childOf (.mk t a x k) ((rs.filter fun p => p.1.tag = "criteria").map fun p => p.2.crit)
      children := rs.mapM fun p => p.2.child }
def rdAll (u : Uncommon) : List Elem → List (Elem × Rd)
  | [] => []
  | e :: es => (e, rd u e) :: rdAll u es
end

def readCrit (u : Uncommon) (e : Elem) : Except WireErr Crit := (rd u e).crit
def readChild (u : Uncommon) (e : Elem) : Except WireErr (Option Str × Child) := (rd u e).child
def readChildren (u : Uncommon) (e : Elem) : Except WireErr (List (Option Str × Child)) := (rd u e).children

/-- One criteria of a summary: `QuerySummaryResultCriteriaType.build`, nsiconnection.py:832-841 (its children, none of which this
program sends, are not modelled), then `buildCriteria` without children. -/
def readSummaryCrit (u : Uncommon) (e : Elem) : Except WireErr Crit := critOf u e (some (.ok []))

/-- `QueryRecursiveResultType.build`, nsiconnection.py:626-636 (for a summary lines 184-194, the same), then `buildQueryResult`,
queryhelper.py:162-174. -/
def readInfo (crit : Elem → Except WireErr Crit) (provider : Option Str) (e : Elem) : Except WireErr Info :=
  match (e.findall "criteria").mapM crit with
  | .error x => .error x
  | .ok cs => match readStates (e.find "connectionStates") with
    | .error x => .error x
    | .ok st => match optIntOf (e.findtext "notificationId") with
      | .error x => .error x
      | .ok n => match optIntOf (e.findtext "resultId") with
        | .error x => .error x
        | .ok r => .ok
          { cid := e.findtext "connectionId", gid := e.findtext "globalReservationId", description := e.findtext "description",
            criterias := cs, provider := provider, requester := e.findtext "requesterNSA", states := st,
            notificationId := n, resultId := r }

/-- `RequesterService.queryRecursiveConfirmed`, requesterservice.py:156-164: what the requester is given. The provider is the one
of the message header. -/
def readRecursive (u : Uncommon) (provider : Option Str) (e : Elem) : Except WireErr (List Info) :=
  (e.findall "reservation").mapM (readInfo (readCrit u) provider)

/-- `RequesterService.querySummaryConfirmed`, requesterservice.py:145-153. -/
def readSummary (u : Uncommon) (provider : Option Str) (e : Elem) : Except WireErr (List Info) :=
  (e.findall "reservation").mapM (readInfo (readSummaryCrit u) provider)

end OpenNSA.Wire
