import Verif.Device.Switches
import Verif.Setup.Model
/-
Model of the requests that /repo/opennsa/backends/oess.py sends to an OESS server, and of the commands of /repo/opennsa/backends/force10.py, as texts.
-/
namespace OpenNSA.Device
open Py OpenNSA.Backend

/-! ### oess.py

Each text is what `http_query` (oess.py:40-58) appends to the configured URL. -/

/-- oess.py:195. -/
def qGroups : Str := "services/data.cgi?action=get_workgroups".toList
/-- oess.py:188. -/
def qPorts : Str := "services/data.cgi?action=get_node_interfaces&node=".toList
/-- oess.py:188. -/
def qShow : Str := "&show_down=1&show_trunk=1".toList
/-- oess.py:180. -/
def qTag : Str := "services/data.cgi?action=is_vlan_tag_available".toList
/-- oess.py:169-170. -/
def qPath : Str := "services/data.cgi?action=".toList ++ "get_shortest_path&node=".toList
/-- oess.py:150-151. -/
def qProvision : Str := "services/provisioning.cgi?".toList ++ "action=provision_circuit&workgroup_id=".toList
/-- oess.py:161. -/
def qTimes : Str := "&provision_time=-1&remove_time=-1".toList
/-- oess.py:162. -/
def qDescription : Str := "&description=NSI-VLAN-".toList
/-- oess.py:202-203. -/
def qCircuits : Str := "services/data.cgi?".toList ++ "action=get_existing_circuits&workgroup_id=".toList
/-- oess.py:210-212. -/
def qCancel : Str := "services/provisioning.cgi?action=".toList ++ "remove_circuit&remove_time=-1".toList
/-- oess.py:152-153, 170, 181. -/
def qNode : Str := "&node=".toList
/-- oess.py:152-153, 181. -/
def qInterface : Str := "&interface=".toList
/-- oess.py:181. -/
def qVlan : Str := "&vlan=".toList
/-- oess.py:152-153. -/
def qTagIs : Str := "&tag=".toList
/-- oess.py:156, 173. -/
def qLink : Str := "&link=".toList
/-- oess.py:159. -/
def qBackup : Str := "&backup_link=".toList
/-- oess.py:212. -/
def qGroup : Str := "&workgroup_id=".toList
/-- oess.py:212. -/
def qCircuit : Str := "&circuit_id=".toList

/-- `oess_get_workgroups`, oess.py:194-197. -/
def Oess.groupsQuery : Str := qGroups

/-- `oess_get_switch_ports`, oess.py:187-190. -/
def Oess.portsQuery (node : Str) : Str := qPorts ++ (node ++ qShow)

/-- `oess_query_vlan_availability`, oess.py:179-183. -/
def Oess.tagQuery (e : OEnd) : Str := qTag ++ (qNode ++ (e.node ++ (qInterface ++ (e.intf ++ (qVlan ++ e.tag)))))

/-- `oess_get_path`, oess.py:168-175: with the links of the primary path, if there is one already. -/
def Oess.pathQuery (s d : Str) (primary : Option (List Str)) : Str :=
  qPath ++ (s ++ (qNode ++ (d ++ match primary with
    | none => []
    | some ls => ls.flatMap fun l => qLink ++ l)))

/-- `oess_provision_circuit`, oess.py:148-165. -/
def Oess.provisionQuery (g : Str) (s d : OEnd) (primary backup : List Str) : Str :=
  qProvision ++ g ++ (qNode ++ s.node ++ qInterface ++ s.intf ++ qTagIs ++ s.tag) ++ (qNode ++ d.node ++ qInterface ++ d.intf ++ qTagIs ++ d.tag) ++
    (primary.flatMap fun l => qLink ++ l) ++ (backup.flatMap fun l => qBackup ++ l) ++ qTimes ++ (qDescription ++ s.tag ++ '-' :: d.tag)

/-- `oess_get_circuits`, oess.py:201-205. -/
def Oess.circuitsQuery (g : Str) : Str := qCircuits ++ g

/-- `oess_cancel_circuit`, oess.py:209-215, with `str(circuit_id)` of line 328. -/
def Oess.cancelQuery (n : Nat) (g : Str) : Str := qCancel ++ (qGroup ++ (g ++ (qCircuit ++ showInt n)))

/-- Steps 3-6 and 7-10 of `oess_provisioning`, oess.py:254-286, for one end: what is asked for, and then `next`. -/
def Oess.askEnd (w : OServer) (target : Str) (next : OEnd → List Str) : List Str :=
  match Oess.portVlan target with
  | .error _ => []
  | .ok e => Oess.portsQuery e.node ::
    if e.intf ∉ w.ports e.node then []
    else Oess.tagQuery e :: match Oess.confirm (w.available e) with
      | .error _ => []
      | .ok _ => next e

/-- `oess_provisioning`, oess.py:243-311: what the server is asked for, in order. `path` is its answer about paths (`oess_process_path`, oess.py:96-104):
between two nodes, by other links than the given ones. -/
def Oess.asked (w : OServer) (path : Str → Str → List Str → List Str) (o : OSetup) (src dst : Str) : List Str :=
  Oess.groupsQuery :: match dget w.groups o.workgroup with
    | none => []
    | some g => Oess.askEnd w src fun s => Oess.askEnd w dst fun d =>
      let primary := path s.node d.node []
      let backup := path s.node d.node primary
      [Oess.pathQuery s.node d.node none, Oess.pathQuery s.node d.node (some primary), Oess.provisionQuery g s d primary backup]

/-- `oess_circuit_removal`, oess.py:315-344: what the server is asked for, in order. -/
def Oess.askedDown (w : OServer) (o : OSetup) (src dst : Str) : List Str :=
  Oess.circuitsQuery o.groupText :: match Oess.circuitId (w.circuits o.groupText) src dst with
    | .error _ => []
    | .ok n => if n = 0 then [] else [Oess.cancelQuery n o.groupText]

/-- A value or name of a parameter as the server reads it (library of the server): `+` is a blank, `%` and two digits are a character. -/
def formDecode (s : Str) : Str := Setup.unquote (s.map fun c => if c = '+' then ' ' else c)

/-- What a server reads in a request (library of the server): the part after `#` is not sent to it; the script; the parameters, which are separated by `&`
or `;`, each of which is a name and a value. -/
def readQuery (s : Str) : Option (Str × List (Option (Str × Str))) :=
  (cutFirst '?' (s.takeWhile (· != '#'))).map fun x =>
    (x.1, (splitOn '&' (x.2.map fun c => if c = ';' then '&' else c)).map fun p => (cutFirst '=' p).map fun y => (formDecode y.1, formDecode y.2))

/-! ### force10.py -/

/-- `_createSetupCommands`, force10.py:87-102, with the texts of lines 67-76. `_portToInterfaceVLAN` is that of brocade.py. -/
def Force10.setup (s d : Str) : Except DevErr (List Str) := do
  let (sp, sv) ← Brocade.portVlan s
  let (dp, dv) ← Brocade.portVlan d
  if sv ≠ dv then .error .assertion
  else .ok ["interface vlan ".toList ++ showInt sv, "name ".toList ++ ("opennsa-".toList ++ showInt sv), "tagged ".toList ++ sp, "tagged ".toList ++ dp,
    "no shutdown".toList, "end".toList]

/-- `_createTeardownCommands`, force10.py:105-115. -/
def Force10.teardown (s d : Str) : Except DevErr (List Str) := do
  let (_, sv) ← Brocade.portVlan s
  let (_, dv) ← Brocade.portVlan d
  if sv ≠ dv then .error .assertion
  else .ok ["no interface vlan ".toList ++ showInt sv, "end".toList]

end OpenNSA.Device
