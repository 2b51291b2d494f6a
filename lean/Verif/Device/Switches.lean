import Verif.Device.Model
import Verif.PyLemmas
/-
Model of the commands and requests of /repo/opennsa/backends/brocade.py, force10.py, pica8ovs.py and oess.py, and of the devices that get them.
-/
namespace OpenNSA.Device
open Py OpenNSA.Backend

/-! ### brocade.py and force10.py -/

/-- The lines that are sent, brocade.py:35-43; force10.py:65-76 has the same ones in other words. -/
inductive BCmd
  | vlan (v : Int) (name : Str)
  | tagged (port : Str)
  | noVlan (v : Int)
  deriving DecidableEq, Repr

/-- `_portToInterfaceVLAN`, brocade.py:46-50 and force10.py:80-84 (`rsplit` without a limit is `split`). -/
def Brocade.portVlan (s : Str) : Except DevErr (Str × Int) :=
  match splitOn '.' s with
  | [p, v] => match pyInt v with
    | some n => .ok (p, n)
    | none => .error .value
  | _ => .error .value

/-- `_createSetupCommands`, brocade.py:53-73. -/
def Brocade.setup (s d : Str) : Except DevErr (List BCmd) := do
  let (sp, sv) ← Brocade.portVlan s
  let (dp, dv) ← Brocade.portVlan d
  if sv ≠ dv then .error .assertion
  else .ok [.vlan sv ("opennsa-".toList ++ showInt sv), .tagged sp, .tagged dp]

/-- `_createTeardownCommands`, brocade.py:76-86. -/
def Brocade.teardown (s d : Str) : Except DevErr (List BCmd) := do
  let (_, sv) ← Brocade.portVlan s
  let (_, dv) ← Brocade.portVlan d
  if sv ≠ dv then .error .assertion
  else .ok [.noVlan sv]

/-- A vlan of the switch. -/
structure BVlan where
  name : Str
  ports : List Str
  deriving DecidableEq, Repr

/-- The switch within a session: its vlans, and the vlan that is being configured. -/
structure BSwitch where
  vlans : List (Int × BVlan)
  current : Option Int
  deriving DecidableEq, Repr

/-- What the switch does with a line. Not code of /repo: `vlan` creates a vlan or changes its name and opens it, `tagged` adds a port to
the open vlan, `no vlan` removes a vlan. -/
def BCmd.run (w : BSwitch) : BCmd → BSwitch
  | .vlan v n => match dget w.vlans v with
    | some e => ⟨dset w.vlans v ⟨n, e.ports⟩, some v⟩
    | none => ⟨dset w.vlans v ⟨n, []⟩, some v⟩
  | .tagged p => match w.current with
    | some v => match dget w.vlans v with
      | some e => { w with vlans := dset w.vlans v ⟨e.name, if e.ports.contains p then e.ports else e.ports ++ [p]⟩ }
      | none => w
    | none => w
  | .noVlan v => ⟨ddel w.vlans v, none⟩

/-- A session, brocade.py:173-191: every call opens a connection of its own, so no vlan is open at first. If no commands could be
made, none are sent. -/
def Brocade.session (vlans : List (Int × BVlan)) (r : Except DevErr (List BCmd)) : List (Int × BVlan) :=
  match r with
  | .ok l => (l.foldl BCmd.run ⟨vlans, none⟩).vlans
  | .error _ => vlans

/-! ### pica8ovs.py -/

/-- What a flow does, pica8ovs.py:25-26: the port to send to, and the vlan to change to, if any. -/
structure Flow where
  out : Int
  setVlan : Option Int
  deriving DecidableEq, Repr

/-- The lines that are sent, pica8ovs.py:22-27. (The address of the database is the same in all.) -/
inductive PCmd
  | addTrunk (port : Str) (v : Int)
  | removeTrunk (port : Str) (v : Int)
  | addFlow (inPort v : Int) (f : Flow)
  | delFlow (inPort v : Int)
  deriving DecidableEq, Repr

/-- `int(port.split('/')[2]) + 128`, pica8ovs.py:34-35, 51-52. -/
def Pica.flowPort (port : Str) : Except DevErr Int :=
  match (splitOn '/' port)[2]? with
  | some t => match pyInt t with
    | some n => .ok (n + 128)
    | none => .error .value
  | none => .error .index

/-- `createConfigureCommands`, pica8ovs.py:30-44. -/
def Pica.configure (sp dp : Str) (sv dv : Int) : Except DevErr (List PCmd) := do
  let sf ← Pica.flowPort sp
  let df ← Pica.flowPort dp
  .ok ([.addTrunk sp sv, .addTrunk dp dv] ++
    if sv = dv then [.addFlow sf sv ⟨df, none⟩, .addFlow df sv ⟨sf, none⟩]
    else [.addFlow sf sv ⟨df, some dv⟩, .addFlow df dv ⟨sf, some sv⟩])

/-- `createDeleteCommands`, pica8ovs.py:47-57. -/
def Pica.delete (sp dp : Str) (sv dv : Int) : Except DevErr (List PCmd) := do
  let sf ← Pica.flowPort sp
  let df ← Pica.flowPort dp
  .ok [.delFlow sf sv, .delFlow df dv, .removeTrunk sp sv, .removeTrunk dp dv]

/-- The switch: the vlans of the ports, and the flows by port and vlan. -/
structure PSwitch where
  trunks : List (Str × Int)
  flows : List ((Int × Int) × Flow)
  deriving DecidableEq, Repr

/-- What the switch does with a line. Not code of /repo: `add-flow` replaces a flow for the same port and vlan, `del-flows` removes it,
`add`/`remove` change the set of vlans of a port. -/
def PCmd.run (w : PSwitch) : PCmd → PSwitch
  | .addTrunk p v => { w with trunks := if w.trunks.contains (p, v) then w.trunks else w.trunks ++ [(p, v)] }
  | .removeTrunk p v => { w with trunks := w.trunks.filter fun e => e ≠ (p, v) }
  | .addFlow i v f => { w with flows := dset w.flows (i, v) f }
  | .delFlow i v => { w with flows := ddel w.flows (i, v) }

/-- A session, pica8ovs.py:149-178. If no commands could be made, none are sent. -/
def Pica.session (w : PSwitch) (r : Except DevErr (List PCmd)) : PSwitch :=
  match r with
  | .ok l => l.foldl PCmd.run w
  | .error _ => w

/-! ### oess.py -/

/-- An endpoint of a circuit: node, interface, tag. -/
structure OEnd where
  node : Str
  intf : Str
  tag : Str
  deriving DecidableEq, Repr

/-- A circuit in the answer of the server to `get_existing_circuits` (oess.py:65-84 reads these members). -/
structure Circuit where
  id : Nat
  a : OEnd
  b : OEnd
  deriving DecidableEq, Repr

/-- `oess_get_port_vlan`, oess.py:141-144. -/
def Oess.portVlan (s : Str) : Except DevErr OEnd :=
  match splitOn ':' s with
  | [sw, iv] => match splitOn '#' iv with
    | [i, v] => .ok ⟨sw, i, v⟩
    | _ => .error .value
  | _ => .error .value

/-- The comparison in the loop of `oess_get_circuit_id`, oess.py:70-80. If the first node is that of the source, the reverse direction is not
tried. Vlans are not compared. -/
def Oess.isCircuit (s d : OEnd) (c : Circuit) : Bool :=
  if c.a.node = s.node then decide (c.b.node = d.node) && decide (c.a.intf = s.intf) && decide (c.b.intf = d.intf)
  else if c.a.node = d.node then decide (c.b.node = s.node) && decide (c.a.intf = d.intf) && decide (c.b.intf = s.intf)
  else false

/-- `oess_get_circuit_id`, oess.py:65-84: 0 if there is none. -/
def Oess.circuitId (cs : List Circuit) (src dst : Str) : Except DevErr Nat := do
  let s ← Oess.portVlan src
  let d ← Oess.portVlan dst
  match cs.find? (Oess.isCircuit s d) with
  | some c => .ok c.id
  | none => .ok 0

/-- The server: workgroups by name with their ids, the circuits of each workgroup by its id, the interfaces of each node, the answer about the
availability of a tag, and the answer to a request for a circuit: whether it succeeds, and the id. -/
structure OServer where
  groups : List (Str × Str)
  circuits : Str → List Circuit
  ports : Str → List Str
  available : OEnd → Int
  success : OEnd → OEnd → Bool
  nextId : Nat

/-- `OessSetup`, oess.py:232-240: the name of the workgroup, and its id once it has been asked for. -/
structure OSetup where
  workgroup : Str
  workgroupId : Option Str
  deriving DecidableEq, Repr

/-- `oess_confirm_vlan_availability`, oess.py:107-116. -/
def Oess.confirm (n : Int) : Except DevErr Unit :=
  if n = 1 then .ok () else if n = 0 then .ok () else .error .other

/-- Steps 3-6 and 7-10 of `oess_provisioning`, oess.py:254-286, for one end. -/
def Oess.checkEnd (w : OServer) (target : Str) : Except DevErr OEnd := do
  let e ← Oess.portVlan target
  if e.intf ∉ w.ports e.node then .error .other
  else do
    Oess.confirm (w.available e)
    .ok e

/-- The server makes the circuit, if it does. -/
def OServer.provision (w : OServer) (g : Str) (s d : OEnd) : OServer :=
  if w.success s d then
    { w with circuits := fun g' => if g' = g then w.circuits g ++ [⟨w.nextId, s, d⟩] else w.circuits g', nextId := w.nextId + 1 }
  else w

/-- `oess_provisioning`, oess.py:242-311. The paths, which the server is asked for in steps 11 and 12 and gets back in step 13, are left out. If the
answer in step 13 says that there was no success, `oess_process_result` (lines 87-93) returns `None`, and nothing is raised. -/
def Oess.provisioning (w : OServer) (o : OSetup) (src dst : Str) : OServer × OSetup × Except DevErr Unit :=
  match dget w.groups o.workgroup with
  | none => (w, o, .error .other)
  | some g =>
    let o' := { o with workgroupId := some g }
    match Oess.checkEnd w src with
    | .error x => (w, o', .error x)
    | .ok s => match Oess.checkEnd w dst with
      | .error x => (w, o', .error x)
      | .ok d => (w.provision g s d, o', .ok ())

/-- `'%s' % workgroup_id`, oess.py:203. -/
def OSetup.groupText (o : OSetup) : Str := o.workgroupId.getD "None".toList

/-- `oess_circuit_removal`, oess.py:314-344: lines 324-325 take the id 0 for a circuit that was not found, which is no error. The server removes the
circuit with the given id. -/
def Oess.removal (w : OServer) (o : OSetup) (src dst : Str) : OServer × Except DevErr Unit :=
  match Oess.circuitId (w.circuits o.groupText) src dst with
  | .error x => (w, .error x)
  | .ok n =>
    if n = 0 then (w, .ok ())
    else ({ w with circuits := fun g => if g = o.groupText then (w.circuits g).filter fun c => c.id ≠ n else w.circuits g }, .ok ())

end OpenNSA.Device
