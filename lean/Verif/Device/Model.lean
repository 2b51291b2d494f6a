import Verif.Backend.Model
/-
Model of the connection managers in /repo/opennsa/backends: names of resources, targets, and which ends can be connected.
-/
namespace OpenNSA.Device
open Py OpenNSA.Backend

/-- What the methods of the connection managers raise. `notImplemented`: `NotImplementedError`; `other`: a plain `Exception`. -/
inductive DevErr
  | assertion | attribute | type | key | value | index | notImplemented | other
  deriving DecidableEq, Repr

/-- What the device backends use of an `NRMPort` (topology/nrm.py:39-54): the interface, the network at the other end (`remote_network`)
and the label type of the port. -/
structure DPort where
  interface : Str
  remote : Option Str
  labelType : Option Str
  deriving DecidableEq, Repr

/-- The dictionary of ports by name that each backend builds, e.g. dud.py:22-23, junosmx.py:293-294. -/
abbrev PortMap := List (Str × DPort)

/-- `str(label.labelValue())` or `label.labelValue()` (nsa.py:158-160) for a label with one value. Only such labels are handed to the connection
managers: genericbackend.py:283 makes them from single values, and they are stored in the connection (line 354). -/
def lvText (l : LabelVal) : Str := showInt l.2

/-- `self.port_map[port]`. -/
def lookup (pm : PortMap) (port : Str) : Except DevErr DPort :=
  match dget pm port with
  | some p => .ok p
  | none => .error .key

/-- A connection manager: `getResource`, `canSwapLabel`, `canConnect` (`none` if the class has no such method, genericbackend.py:269). -/
structure Manager where
  getResource : PortMap → Str → Option LabelVal → Except DevErr Str
  canSwapLabel : Option Str → Bool
  canConnect : Option (Option Str → Option Str → Bool)

/-! ### dud.py -/

/-- dud.py:37-39. -/
def Dud.getResource (pm : PortMap) (port : Str) (label : Option LabelVal) : Except DevErr Str := do
  let lv := match label with
    | none => []
    | some l => lvText l
  let p ← lookup pm port
  .ok (p.interface ++ ':' :: lv)

/-- dud.py:42-44. -/
def Dud.getTarget (pm : PortMap) (port : Str) (label : Option LabelVal) : Except DevErr Str := do
  let lv := match label with
    | none => []
    | some l => lvText l
  let p ← lookup pm port
  .ok (p.interface ++ '#' :: lv)

/-- dud.py:47-53. -/
def Dud.canConnect : Option Str → Option Str → Bool
  | none, none => true
  | none, some _ => false
  | some _, none => false
  | some s, some d => s = d

/-- dud.py:60-61. -/
def Dud.manager : Manager := ⟨Dud.getResource, fun t => t = some tVlan, some Dud.canConnect⟩

/-! ### juniperex.py -/

/-- `JunosEXTarget`, juniperex.py:212-216. -/
structure VlanTarget where
  port : Str
  vlan : Int
  deriving DecidableEq, Repr

/-- juniperex.py:234-236: the resource is the vlan alone. Without label `label.labelValue` is an attribute of `None`. -/
def Ex.getResource (_ : PortMap) (_ : Str) (label : Option LabelVal) : Except DevErr Str :=
  match label with
  | none => .error .attribute
  | some l => if l.1 ≠ tVlan then .error .assertion else .ok (lvText l)

/-- juniperex.py:239-245. -/
def Ex.getTarget (pm : PortMap) (port : Str) (label : Option LabelVal) : Except DevErr VlanTarget :=
  match label with
  | none => .error .attribute
  | some l =>
    if l.1 ≠ tVlan then .error .assertion
    else if ¬ (1 ≤ l.2 ∧ l.2 ≤ 4095) then .error .assertion
    else do
      let p ← lookup pm port
      .ok ⟨p.interface, l.2⟩

/-- juniperex.py:252-253; no `canConnect`. -/
def Ex.manager : Manager := ⟨Ex.getResource, fun _ => false, none⟩

/-! ### brocade.py -/

/-- brocade.py:212-214. -/
def Brocade.getResource (_ : PortMap) (_ : Str) (label : Option LabelVal) : Except DevErr Str :=
  match label with
  | none => .error .assertion
  | some l => if l.1 ≠ tVlan then .error .assertion else .ok (lvText l)

/-- brocade.py:217-219. -/
def Brocade.getTarget (pm : PortMap) (port : Str) (label : Option LabelVal) : Except DevErr Str :=
  match label with
  | none => .error .assertion
  | some l =>
    if l.1 ≠ tVlan then .error .assertion
    else do
      let p ← lookup pm port
      .ok (p.interface ++ '.' :: lvText l)

/-- brocade.py:226-227; no `canConnect`. -/
def Brocade.manager : Manager := ⟨Brocade.getResource, fun _ => false, none⟩

/-! ### force10.py -/

/-- force10.py:275-277. `Label` has no attribute `type` (nsa.py:72-82). -/
def Force10.getResource (_ : PortMap) (_ : Str) (label : Option LabelVal) : Except DevErr Str :=
  match label with
  | none => .error .assertion
  | some _ => .error .attribute

/-- force10.py:289-290; no `canConnect`. -/
def Force10.manager : Manager := ⟨Force10.getResource, fun _ => false, none⟩

/-! ### junosmx.py and junosspace.py -/

/-- `JUNOSTarget`, junosmx.py:205-210, and `JUNOSSPACETarget`, junosspace.py:170-175: the port and the label value. -/
structure Target where
  port : DPort
  value : Option Int
  deriving DecidableEq, Repr

/-- junosmx.py:242-245, junosspace.py:204-207: the name of the port, not of the interface. -/
def Mx.getResource (_ : PortMap) (port : Str) (label : Option LabelVal) : Except DevErr Str :=
  match label with
  | none => .ok (port ++ [':'])
  | some l => if l.1 ≠ tMpls ∧ l.1 ≠ tVlan then .error .assertion else .ok (port ++ ':' :: lvText l)

/-- junosmx.py:248-252, junosspace.py:209-213. -/
def Mx.getTarget (pm : PortMap) (port : Str) (label : Option LabelVal) : Except DevErr Target := do
  let p ← lookup pm port
  .ok ⟨p, label.map (·.2)⟩

/-- `'port'`, junosmx.py:279. -/
def tPort : Str := ['p', 'o', 'r', 't']

/-- The type of a label as `canConnect` sees it, junosmx.py:279-280, junosspace.py:240-241. -/
def kindOf (t : Option Str) : Str := t.getD tPort

/-- `supportedLabelPairs`, junosmx.py:235-239, junosspace.py:197-201. -/
def supportedPairs : List (Str × List Str) :=
  [(tMpls, [tVlan, tPort]), (tVlan, [tPort, tMpls]), (tPort, [tVlan, tMpls])]

/-- junosmx.py:278-287, junosspace.py:239-248. -/
def Mx.canConnect (s d : Option Str) : Bool :=
  if kindOf s = kindOf d then true
  else match dget supportedPairs (kindOf s) with
    | some l => l.contains (kindOf d)
    | none => false

/-- junosmx.py:258-259, junosspace.py:219-220. -/
def Mx.manager : Manager := ⟨Mx.getResource, fun _ => true, some Mx.canConnect⟩

/-! ### junosex.py -/

/-- junosex.py:231-232: `a + ':' + '' if label is None else str(v)` is `(a + ':' + '') if label is None else str(v)`; without label, a port object
is added to a text. -/
def Jex.getResource (pm : PortMap) (port : Str) (label : Option LabelVal) : Except DevErr Str :=
  match label with
  | none => do
    let _ ← lookup pm port
    .error .type
  | some l => .ok (lvText l)

/-- junosex.py:235-236. -/
def Jex.getTarget (pm : PortMap) (port : Str) (label : Option LabelVal) : Except DevErr Target := do
  let p ← lookup pm port
  match label with
  | none => .error .attribute
  | some l => .ok ⟨p, some l.2⟩

/-- junosex.py:243-244; no `canConnect`. -/
def Jex.manager : Manager := ⟨Jex.getResource, fun _ => true, none⟩

/-! ### junipervpls.py -/

/-- junipervpls.py:346-351 (the interface of a port is never `None`, topology/nrm.py:111). -/
def Vpls.getResource (pm : PortMap) (port : Str) (label : Option LabelVal) : Except DevErr Str :=
  match label with
  | none => .error .assertion
  | some l =>
    if l.1 ≠ tVlan then .error .assertion
    else do
      let _ ← lookup pm port
      .ok (port ++ '.' :: lvText l)

/-- junipervpls.py:354-363. (For a value outside of the range the message calls a method that does not exist.) -/
def Vpls.getTarget (pm : PortMap) (port : Str) (label : Option LabelVal) : Except DevErr VlanTarget :=
  match label with
  | none => .error .assertion
  | some l =>
    if l.1 ≠ tVlan then .error .assertion
    else do
      let p ← lookup pm port
      if ¬ (1 ≤ l.2 ∧ l.2 ≤ 4095) then .error .attribute
      else .ok ⟨p.interface, l.2⟩

/-- junipervpls.py:370-372; no `canConnect`. -/
def Vpls.manager : Manager := ⟨Vpls.getResource, fun _ => false, none⟩

/-! ### pica8ovs.py and oess.py -/

/-- pica8ovs.py:206-210. Line 207 asks a label that is `None` for its type. -/
def Pica.getResource (_ : PortMap) (port : Str) (label : Option LabelVal) : Except DevErr Str :=
  match label with
  | none => .error .attribute
  | some l => .ok (port ++ ':' :: lvText l)

/-- pica8ovs.py:213-218. -/
def Pica.getTarget (pm : PortMap) (port : Str) (label : Option LabelVal) : Except DevErr VlanTarget :=
  match label with
  | none => .error .assertion
  | some l =>
    if l.1 ≠ tVlan then .error .assertion
    else if ¬ (1 ≤ l.2 ∧ l.2 ≤ 4095) then .error .assertion
    else do
      let p ← lookup pm port
      .ok ⟨p.interface, l.2⟩

/-- pica8ovs.py:225-226; no `canConnect`. -/
def Pica.manager : Manager := ⟨Pica.getResource, fun _ => true, none⟩

/-- oess.py:366-373. Line 368 asks a label that is `None` for its value. -/
def Oess.getResource (_ : PortMap) (port : Str) (label : Option LabelVal) : Except DevErr Str :=
  match label with
  | none => .error .attribute
  | some l => .ok (port ++ ':' :: lvText l)

/-- oess.py:375-382. -/
def Oess.getTarget (pm : PortMap) (port : Str) (label : Option LabelVal) : Except DevErr Str :=
  match label with
  | none => .error .assertion
  | some l =>
    if l.1 ≠ tVlan then .error .assertion
    else if ¬ (1 ≤ l.2 ∧ l.2 ≤ 4094) then .error .assertion
    else do
      let p ← lookup pm port
      .ok (p.interface ++ '#' :: showInt l.2)

/-- oess.py:387-388; no `canConnect`. -/
def Oess.manager : Manager := ⟨Oess.getResource, fun _ => true, none⟩

/-! ### ncsvpn.py -/

/-- ncsvpn.py:173-175. Neither `None` nor `Label` has an attribute `value`. -/
def Ncs.getResource (_ : PortMap) (_ : Str) (label : Option LabelVal) : Except DevErr Str :=
  match label with
  | none => .error .attribute
  | some l => if l.1 ≠ tVlan then .error .assertion else .error .attribute

/-- ncsvpn.py:195-196; no `canConnect`. -/
def Ncs.manager : Manager := ⟨Ncs.getResource, fun t => t = some tVlan, none⟩

/-- The connection manager as the generic backend uses it (Backend/Model.lean), for a manager that raises nothing on the ports and
labels at hand. -/
def Manager.toConnMgr (m : Manager) (pm : PortMap) : ConnMgr where
  getResource := fun p l => match m.getResource pm p l with
    | .ok r => r
    | .error _ => []
  canSwapLabel := m.canSwapLabel
  canConnect := m.canConnect.map fun f => fun _ _ s d => f (s.map (·.type_)) (d.map (·.type_))

end OpenNSA.Device
