import Verif.Wire.Query
import Verif.Stp.Model
/-
Model of what the command line tool prints for queries: `_emitQueryResult`, /repo/opennsa/cli/commands.py:258-293, and the loops of
`querySummary` and `queryRecursive`, lines 297-327.
-/
namespace OpenNSA.Cli
open OpenNSA Py Wire

/-- The lines logged, and whether a `TypeError` was raised then. -/
structure Shown where
  lines : List Str
  raised : Bool
  deriving DecidableEq, Repr

/-- One after the other. -/
def Shown.next (a b : Shown) : Shown := if a.raised then a else ⟨a.lines ++ b.lines, b.raised⟩

/-- `'%s' % b` of a boolean. -/
def pyBool (b : Bool) : Str := if b then "True".toList else "False".toList

/-- `'%s' % t` of a datetime without time zone: `isoformat(' ')`. -/
def pyTime : Option Int → Str
  | none => "None".toList
  | some t => (isoformat (ofInstant t)).map fun c => if c = 'T' then ' ' else c

/-- `if x: log.msg(text % x)` -/
def ifText (text : Str) : Option Str → List Str
  | some (c :: cs) => [text ++ c :: cs]
  | _ => []

/-- commands.py:261-271: id, provider, global id, description and states. `', '.join(..)` of something that is not a text is a `TypeError`. -/
def showHead (ind : Str) (cid provider gid description : Option Str) (st : ConnStates) : Shown :=
  let intro : List Str := [[], ind ++ "Connection   ".toList ++ strOf cid ++ " (".toList ++ strOf provider ++ ")".toList] ++
    ifText (ind ++ "Global ID    ".toList) gid ++ ifText (ind ++ "Description  ".toList) description
  match st.rsm, st.psm, st.lsm with
  | some r, some p, some l => ⟨intro ++ [ind ++ "States       ".toList ++ r ++ ", ".toList ++ p ++ ", ".toList ++ l,
      ind ++ "Dataplane    Active : ".toList ++ pyBool st.dps.active ++ ", Version: ".toList ++ strOfInt st.dps.version ++ ", Consistent ".toList ++
        pyBool st.dps.consistent], false⟩
  | _, _, _ => ⟨intro, true⟩

/-- commands.py:275-288: schedule (not for children), ends, and what is the same everywhere (not for children). `params` stands for the text of
the parameters, which are not sent in answers to queries. -/
def showService (params : List (Option Str × Option Str) → Str) (ind : Str) (child : Bool) (s : Sched) (sd : P2P) : List Str :=
  (if child then [] else [ind ++ "Start-End    ".toList ++ pyTime s.start ++ " - ".toList ++ pyTime s.end_]) ++
  [ind ++ "Path         ".toList ++ sd.source.shortName ++ " -- ".toList ++ sd.dest.shortName] ++
  if child then [] else
    [ind ++ "Bandwidth    ".toList ++ showInt sd.capacity, ind ++ "Direction    ".toList ++ strOf sd.directionality] ++
    (if sd.symmetric = some true then [ind ++ "Symmetric    True".toList] else []) ++
    match sd.parameters with
    | some (p :: ps) => [ind ++ "Params       ".toList ++ params (p :: ps)]
    | _ => []

variable (params : List (Option Str × Option Str) → Str)

mutual
/-- commands.py:273-293: the first criteria, then its children, indented. Services that are not point to point services (lines 289-290) are
not modelled: see `readQuerySvc`. -/
def showCrits (ind : Str) (child : Bool) : List Crit → Shown
  | [] => ⟨[], false⟩
  | .mk _ s sd ch :: _ => Shown.next ⟨showService params ind child s sd, false⟩ (showChildren (ind ++ "  ".toList) ch)
/-- The loop commands.py:292-293. -/
def showChildren (ind : Str) : List Child → Shown
  | [] => ⟨[], false⟩
  | c :: cs => (showChild ind c).next (showChildren ind cs)
/-- A child has neither global id nor description (queryhelper.py:154). -/
def showChild (ind : Str) : Child → Shown
  | .mk cid prov st cs => (showHead ind cid prov none none st).next (showCrits ind true cs)
end

/-- `_emitQueryResult(qr)` -/
def showInfo (i : Info) : Shown := (showHead [] i.cid i.provider i.gid i.description i.states).next (showCrits params [] false i.criterias)

/-- The loop commands.py:305-306, 322-323. -/
def showInfos : List Info → Shown
  | [] => ⟨[], false⟩
  | i :: is => (showInfo params i).next (showInfos is)

/-- commands.py:300-307, 317-324: what is printed for an answer. -/
def showAnswer (is : List Info) : Shown :=
  if is.isEmpty then ⟨["No results from query".toList], false⟩
  else (Shown.next ⟨["Query results:".toList], false⟩ (showInfos params is)).next ⟨[[]], false⟩

end OpenNSA.Cli
