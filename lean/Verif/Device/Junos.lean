import Verif.Device.Model
import Verif.PyLemmas
/-
Model of the commands that the JunOS backends send (/repo/opennsa/backends/juniperex.py, junosex.py, junosmx.py, junipervpls.py), and of the
configuration of the device that receives them.
-/
namespace OpenNSA.Device
open Py OpenNSA.Backend

/-! ### The device

A configuration is a list of statements, each a list of words. This part is not code of /repo: it is what the backends rely on. -/

/-- The words of a statement. -/
abbrev Path := List Str

/-- A command line, `set w1 w2 ...` or `delete w1 w2 ...`. The texts that the backends fill in (interfaces, network names, connection ids) are
assumed to be one word each: topology/nrm.py:107 splits the lines of a port specification at blanks. A description in quotes is one word. -/
inductive Cmd
  | set (p : Path)
  | delete (p : Path)
  deriving DecidableEq, Repr

/-- A word of the command templates (juniperex.py:37-41, junosmx.py:24-49, junosex.py:27-44, junipervpls.py:94-108). -/
def kInterfaces : Str := "interfaces".toList
/-- A word of the command templates (juniperex.py:37-41, junosmx.py:24-49, junosex.py:27-44, junipervpls.py:94-108). -/
def kUnit : Str := "unit".toList
/-- A word of the command templates (juniperex.py:37-41, junosmx.py:24-49, junosex.py:27-44, junipervpls.py:94-108). -/
def kProtocols : Str := "protocols".toList
/-- A word of the command templates (juniperex.py:37-41, junosmx.py:24-49, junosex.py:27-44, junipervpls.py:94-108). -/
def kConnections : Str := "connections".toList
/-- A word of the command templates (juniperex.py:37-41, junosmx.py:24-49, junosex.py:27-44, junipervpls.py:94-108). -/
def kIntSwitch : Str := "interface-switch".toList
/-- A word of the command templates (juniperex.py:37-41, junosmx.py:24-49, junosex.py:27-44, junipervpls.py:94-108). -/
def kRemSwitch : Str := "remote-interface-switch".toList
/-- A word of the command templates (juniperex.py:37-41, junosmx.py:24-49, junosex.py:27-44, junipervpls.py:94-108). -/
def kMpls : Str := "mpls".toList
/-- A word of the command templates (juniperex.py:37-41, junosmx.py:24-49, junosex.py:27-44, junipervpls.py:94-108). -/
def kLsp : Str := "label-switched-path".toList
/-- A word of the command templates (juniperex.py:37-41, junosmx.py:24-49, junosex.py:27-44, junipervpls.py:94-108). -/
def kVlans : Str := "vlans".toList
/-- A word of the command templates (juniperex.py:37-41, junosmx.py:24-49, junosex.py:27-44, junipervpls.py:94-108). -/
def kRI : Str := "routing-instances".toList
/-- A word of the command templates (juniperex.py:37-41, junosmx.py:24-49, junosex.py:27-44, junipervpls.py:94-108). -/
def kRIshort : Str := "routing-instance".toList
/-- A word of the command templates (juniperex.py:37-41, junosmx.py:24-49, junosex.py:27-44, junipervpls.py:94-108). -/
def kEncap : Str := "encapsulation".toList
/-- A word of the command templates (juniperex.py:37-41, junosmx.py:24-49, junosex.py:27-44, junipervpls.py:94-108). -/
def kMtu : Str := "mtu".toList
/-- A word of the command templates (juniperex.py:37-41, junosmx.py:24-49, junosex.py:27-44, junipervpls.py:94-108). -/
def kVlanId : Str := "vlan-id".toList
/-- A word of the command templates (juniperex.py:37-41, junosmx.py:24-49, junosex.py:27-44, junipervpls.py:94-108). -/
def kInMap : Str := "input-vlan-map".toList
/-- A word of the command templates (juniperex.py:37-41, junosmx.py:24-49, junosex.py:27-44, junipervpls.py:94-108). -/
def kOutMap : Str := "output-vlan-map".toList
/-- A word of the command templates (juniperex.py:37-41, junosmx.py:24-49, junosex.py:27-44, junipervpls.py:94-108). -/
def kTo : Str := "to".toList
/-- A word of the command templates (juniperex.py:37-41, junosmx.py:24-49, junosex.py:27-44, junipervpls.py:94-108). -/
def kTransmit : Str := "transmit-lsp".toList
/-- A word of the command templates (juniperex.py:37-41, junosmx.py:24-49, junosex.py:27-44, junipervpls.py:94-108). -/
def kReceive : Str := "receive-lsp".toList
/-- A word of the command templates (juniperex.py:37-41, junosmx.py:24-49, junosex.py:27-44, junipervpls.py:94-108). -/
def kInstType : Str := "instance-type".toList
/-- A word of the command templates (juniperex.py:37-41, junosmx.py:24-49, junosex.py:27-44, junipervpls.py:94-108). -/
def kRouteDist : Str := "route-distinguisher".toList
/-- A word of the command templates (juniperex.py:37-41, junosmx.py:24-49, junosex.py:27-44, junipervpls.py:94-108). -/
def kVrf : Str := "vrf-target".toList
/-- A word of the command templates (juniperex.py:37-41, junosmx.py:24-49, junosex.py:27-44, junipervpls.py:94-108). -/
def kInterface : Str := "interface".toList
/-- A word of the command templates (juniperex.py:37-41, junosmx.py:24-49, junosex.py:27-44, junipervpls.py:94-108). -/
def kFamily : Str := "family".toList
/-- A word of the command templates (juniperex.py:37-41, junosmx.py:24-49, junosex.py:27-44, junipervpls.py:94-108). -/
def kMembers : Str := "members".toList
/-- A word of the command templates (juniperex.py:37-41, junosmx.py:24-49, junosex.py:27-44, junipervpls.py:94-108). -/
def kNoCspf : Str := "no-cspf".toList
/-- A word of the command templates (juniperex.py:37-41, junosmx.py:24-49, junosex.py:27-44, junipervpls.py:94-108). -/
def kFlexTag : Str := "flexible-vlan-tagging".toList
/-- A word of the command templates (juniperex.py:37-41, junosmx.py:24-49, junosex.py:27-44, junipervpls.py:94-108). -/
def kVlanTag : Str := "vlan-tagging".toList

/-- A statement as the device stores it: `interfaces P.V` is `interfaces P unit V`, and `routing-instance` is completed to
`routing-instances`. -/
def canon : Path → Path
  | k :: w :: rest =>
    if k = kInterfaces then
      match cutLast '.' w with
      | some (a, b) => k :: a :: kUnit :: b :: rest
      | none => k :: w :: rest
    else if k = kRIshort then kRI :: w :: rest
    else k :: w :: rest
  | p => p

/-- Names of statements that have one value: setting another value replaces it. -/
def singles : List Str :=
  [kEncap, kMtu, kVlanId, kInMap, kOutMap, kTo, kTransmit, kReceive, kInstType, kRouteDist, kVrf]

/-- The statement is a value of a name that has one value. (The first two words are not such names: the second one may be an interface.) -/
def single (p : Path) : Bool :=
  match p.dropLast.getLast? with
  | some k => decide (3 ≤ p.dropLast.length) && singles.contains k
  | none => false

/-- The statement `q` does not survive the command. -/
def Cmd.removes (q : Path) : Cmd → Bool
  | .set p => single (canon p) && decide (q ≠ canon p) && decide (q.dropLast = (canon p).dropLast)
  | .delete p => (canon p).isPrefixOf q

/-- The configuration after a command. Simplified: a line that sets several statements at once (junipervpls.py:94, 102, 103) is stored as one;
commit errors are not modelled. -/
def Cmd.run (cfg : List Path) (c : Cmd) : List Path :=
  let rest := cfg.filter fun q => !c.removes q
  match c with
  | .set p => if rest.contains (canon p) then rest else rest ++ [canon p]
  | .delete _ => rest

/-- The configuration after several commands. -/
def runCmds (cfg : List Path) (cs : List Cmd) : List Path := cs.foldl Cmd.run cfg

/-! ### juniperex.py -/

/-- `'opennsa-%i' % vlan`, juniperex.py:37-41. -/
def Ex.vlanName (v : Int) : Str := "opennsa-".toList ++ showInt v

/-- The words of juniperex.py:38 and 41. -/
def Ex.member (port : Str) (v : Int) : Path :=
  [kInterfaces, port, kUnit, ['0'], kFamily, "ethernet-switching".toList, "vlan".toList, kMembers, Ex.vlanName v]

/-- `createConfigureCommands`, juniperex.py:49-56. -/
def Ex.configure (src dst : Str) (v : Int) : List Cmd :=
  [.set [kVlans, Ex.vlanName v, kVlanId, showInt v], .set (Ex.member src v), .set (Ex.member dst v)]

/-- `createDeleteCommands`, juniperex.py:59-66. -/
def Ex.delete (src dst : Str) (v : Int) : List Cmd :=
  [.delete (Ex.member src v), .delete (Ex.member dst v), .delete [kVlans, Ex.vlanName v]]

/-- The commands of `setupLink`, juniperex.py:256-265 and 197-200. -/
def Ex.setupLink (s d : VlanTarget) : Except DevErr (List Cmd) :=
  if s.vlan ≠ d.vlan then .error .assertion else .ok (Ex.configure s.port d.port d.vlan)

/-- The commands of `teardownLink`, juniperex.py:268-277 and 203-206. -/
def Ex.teardownLink (s d : VlanTarget) : Except DevErr (List Cmd) :=
  if s.vlan ≠ d.vlan then .error .assertion else .ok (Ex.delete s.port d.port d.vlan)

/-! ### junosmx.py -/

/-- `'%s' % value`. -/
def valText : Option Int → Str
  | none => "None".toList
  | some v => showInt v

/-- `p + "." + str(v)`: the name of a unit. -/
def unitName (p v : Str) : Str := p ++ '.' :: v

/-- What `JUNOSCommandGenerator` knows besides the connection: the name of the network and the loopback addresses of other
routers, junosmx.py:302-308 and 321-322. -/
structure Mx.Env where
  network : Str
  routers : List (Str × Str)
  deriving DecidableEq, Repr

/-- `name.replace(":topology", "")`, junosmx.py:643-644. -/
def dropTopology : Str → Str
  | [] => []
  | c :: s =>
    if (":topology".toList).isPrefixOf (c :: s) then dropTopology ((c :: s).drop 9) else c :: dropTopology s
  termination_by s => s.length
  decreasing_by
    · simp only [List.length_drop, List.length_cons]; omega
    · simp

/-- `_getRouterLoopback`, junosmx.py:641-648. The argument is never `None` at the places of the calls (lines 431, 528, 556). -/
def Mx.loopback (e : Mx.Env) (net : Str) : Except DevErr Str :=
  match dget e.routers (dropTopology net) with
  | some ip => .ok ip
  | none => .error .other

/-- `_createSwitchName`, junosmx.py:362-366. -/
def Mx.switch (id : Str) : Str := "NSI-".toList ++ id

/-- Lines 375-377 and 418-420, templates of lines 24-26. -/
def Mx.wholeUp (p : Str) : List Cmd :=
  [.set [kInterfaces, p, kEncap, "ethernet-ccc".toList], .set [kInterfaces, p, kMtu, "9000".toList],
   .set [kInterfaces, p, kUnit, ['0'], kFamily, "ccc".toList]]

/-- Lines 379-384, 422-427, 459-464, 512-517 and 520-525, templates of lines 28-33. -/
def Mx.vlanUp (p v : Str) : List Cmd :=
  [.set [kInterfaces, p, kFlexTag], .set [kInterfaces, p, kEncap, "flexible-ethernet-services".toList],
   .set [kInterfaces, p, kUnit, v, kEncap, "vlan-ccc".toList], .set [kInterfaces, p, kUnit, v, kVlanId, v],
   .set [kInterfaces, p, kUnit, v, kInMap, "pop".toList], .set [kInterfaces, p, kUnit, v, kOutMap, "push".toList]]

/-- Lines 374-384 and 417-427. -/
def Mx.endUp (t : Target) : List Cmd :=
  match t.port.labelType with
  | none => Mx.wholeUp t.port.interface
  | some ty => if ty = tVlan then Mx.vlanUp t.port.interface (valText t.value) else []

/-- Lines 399-403 and 482-486, templates of lines 35-36. -/
def Mx.endDown (t : Target) : List Cmd :=
  match t.port.labelType with
  | none => [.delete [kInterfaces, t.port.interface]]
  | some ty => if ty = tVlan then [.delete [kInterfaces, unitName t.port.interface (valText t.value)]] else []

/-- Template of line 42. -/
def Mx.join (id p sub : Str) : Cmd :=
  .set [kProtocols, kConnections, kIntSwitch, Mx.switch id, kInterface, unitName p sub]

/-- Template of line 37. -/
def Mx.unjoin (id : Str) : Cmd := .delete [kProtocols, kConnections, kIntSwitch, Mx.switch id]

/-- `_generateLocalConnectionActivate`, junosmx.py:368-391. -/
def Mx.localUp (id : Str) (s d : Target) : List Cmd :=
  Mx.endUp s ++ Mx.endUp d ++
  [s, d].map fun t => Mx.join id t.port.interface (if t.port.labelType.isSome then valText t.value else ['0'])

/-- `_generateLocalConnectionDeActivate`, junosmx.py:394-406. -/
def Mx.localDown (id : Str) (s d : Target) : List Cmd := Mx.endDown s ++ Mx.endDown d ++ [Mx.unjoin id]

/-- The remote network of a port that has one. -/
def Target.net (t : Target) : Str := t.port.remote.getD []

/-- `"T-"+a[0:6]+"-F-"+b[0:6]+"-mpls"+str(value)`, lines 434, 454, 491 and others. -/
def Mx.lspName (to from_ : Str) (v : Option Int) : Str :=
  "T-".toList ++ to.take 6 ++ "-F-".toList ++ from_.take 6 ++ "-mpls".toList ++ valText v

/-- Lines 431-438, 528-535 and 556-563, templates of lines 44-45. -/
def Mx.lspUp (e : Mx.Env) (t : Target) : Except DevErr (List Cmd) := do
  let ip ← Mx.loopback e t.net
  let n := Mx.lspName t.net e.network t.value
  .ok [.set [kProtocols, kMpls, kLsp, n, kTo, ip], .set [kProtocols, kMpls, kLsp, n, kNoCspf]]

/-- Template of line 39, as used at lines 490-492, 606-608 and 619-621. -/
def Mx.lspDown (e : Mx.Env) (t : Target) : Cmd := .delete [kProtocols, kMpls, kLsp, Mx.lspName t.net e.network t.value]

/-- Lines 450-455, 547-552 and 575-580, templates of lines 48-49. -/
def Mx.useLsp (e : Mx.Env) (id : Str) (t : Target) : List Cmd :=
  [.set [kProtocols, kConnections, kRemSwitch, id, kTransmit, Mx.lspName t.net e.network t.value],
   .set [kProtocols, kConnections, kRemSwitch, id, kReceive, Mx.lspName e.network t.net t.value]]

/-- Template of line 47. -/
def Mx.lspIf (id p : Str) : Cmd := .set [kProtocols, kConnections, kRemSwitch, id, kInterface, p]

/-- Template of line 40. -/
def Mx.unlsp (id : Str) : Cmd := .delete [kProtocols, kConnections, kRemSwitch, id]

/-- `local_port`, lines 412 and 479. -/
def localOf (s d : Target) : Target := if s.port.remote.isNone then s else d
/-- `remote_port`, lines 413 and 480. -/
def remoteOf (s d : Target) : Target := if s.port.remote.isSome then s else d

/-- Lines 466-470: for each end its label is asked for its type. -/
def Mx.joinTyped (id : Str) (t : Target) : Except DevErr Cmd :=
  match t.port.labelType with
  | none => .error .attribute
  | some ty => .ok (Mx.join id t.port.interface (if ty = tVlan then valText t.value else ['0']))

/-- Lines 441-448. -/
def Mx.lspEnd (id : Str) (l : Target) : List Cmd :=
  match l.port.labelType with
  | none => [Mx.lspIf id l.port.interface]
  | some ty => if ty = tVlan then [Mx.lspIf id (unitName l.port.interface (valText l.value))] else []

/-- Lines 430-455: the remote end is an LSP. -/
def Mx.remoteLsp (e : Mx.Env) (id : Str) (l r : Target) : Except DevErr (List Cmd) :=
  if r.port.labelType = some tMpls then do
    let a ← Mx.lspUp e r
    .ok (a ++ Mx.lspEnd id l ++ Mx.useLsp e id r)
  else .ok []

/-- Lines 456-470: the remote end is a vlan. -/
def Mx.remoteVlan (id : Str) (l r : Target) : Except DevErr (List Cmd) :=
  if r.port.labelType = some tVlan then do
    let a ← Mx.joinTyped id l
    let b ← Mx.joinTyped id r
    .ok (Mx.vlanUp r.port.interface (valText r.value) ++ [a, b])
  else .ok []

/-- `_generateRemoteConnectionActivate`, junosmx.py:409-473. -/
def Mx.remoteUp (e : Mx.Env) (id : Str) (s d : Target) : Except DevErr (List Cmd) := do
  let l := localOf s d
  let r := remoteOf s d
  let c2 ← Mx.remoteLsp e id l r
  let c3 ← Mx.remoteVlan id l r
  .ok (Mx.endUp l ++ c2 ++ c3)

/-- `_generateRemoteConnectionDeactivate`, junosmx.py:476-501. Line 495 asks a label that may be `None` for its type. -/
def Mx.remoteDown (e : Mx.Env) (id : Str) (s d : Target) : Except DevErr (List Cmd) :=
  let l := localOf s d
  let r := remoteOf s d
  match r.port.labelType with
  | none => .error .attribute
  | some ty =>
    .ok (Mx.endDown l ++
      if ty = tMpls then [Mx.lspDown e r, Mx.unlsp id]
      else if ty = tVlan then [.delete [kInterfaces, unitName r.port.interface (valText r.value)], Mx.unjoin id]
      else [])

/-- The part of `_generateTransitConnectionActivate` for one end that is an LSP, lines 527-552 and 555-580: `t` is that end, `o` the other one. -/
def Mx.transitLsp (e : Mx.Env) (id : Str) (t o : Target) : Except DevErr (List Cmd) :=
  if t.port.labelType = some tMpls then do
    let a ← Mx.lspUp e t
    .ok (a ++ (if o.port.labelType = some tVlan then [Mx.lspIf id (unitName o.port.interface (valText o.value))] else []) ++ Mx.useLsp e id t)
  else .ok []

/-- Lines 511-517 and 519-525: like `Mx.endUp`, but nothing for a port without label. -/
def Mx.vlanEnd (t : Target) : List Cmd :=
  if t.port.labelType = some tVlan then Mx.vlanUp t.port.interface (valText t.value) else []

/-- `_generateTransitConnectionActivate`, junosmx.py:503-595. -/
def Mx.transitUp (e : Mx.Env) (id : Str) (s d : Target) : Except DevErr (List Cmd) := do
  let c1 := Mx.vlanEnd s ++ Mx.vlanEnd d
  let c2 ← Mx.transitLsp e id s d
  let c3 ← Mx.transitLsp e id d s
  let c4 := if d.port.labelType = some tVlan ∧ s.port.labelType = some tVlan then
      [s, d].map fun t => Mx.join id t.port.interface (valText t.value)
    else []
  .ok (c1 ++ c2 ++ c3 ++ c4)

/-- Lines 604-615 and 617-628, for one end. -/
def Mx.transitEndDown (e : Mx.Env) (t : Target) : List Cmd :=
  if t.port.labelType = some tMpls then [Mx.lspDown e t]
  else if t.port.labelType = some tVlan then [.delete [kInterfaces, unitName t.port.interface (valText t.value)]]
  else []

/-- `_generateTransitConnectionDeactivate`, junosmx.py:598-638. At line 635 both ends have a label that is not mpls; `switch_name` is bound because
at least one of them is a vlan (port labels are vlan or mpls, topology/nrm.py LABEL_TYPES). -/
def Mx.transitDown (e : Mx.Env) (id : Str) (s d : Target) : List Cmd :=
  Mx.transitEndDown e s ++ Mx.transitEndDown e d ++
  if s.port.labelType.isSome ∧ d.port.labelType.isSome then
    if d.port.labelType = some tMpls ∨ s.port.labelType = some tMpls then [Mx.unlsp id] else [Mx.unjoin id]
  else []

/-- `generateActivateCommand`, junosmx.py:327-342. -/
def Mx.activate (e : Mx.Env) (id : Str) (s d : Target) : Except DevErr (List Cmd) :=
  if s.port.remote.isNone ∧ d.port.remote.isNone then .ok (Mx.localUp id s d)
  else if s.port.remote.isSome ∧ d.port.remote.isSome then Mx.transitUp e id s d
  else Mx.remoteUp e id s d

/-- `generateDeactivateCommand`, junosmx.py:345-360. -/
def Mx.deactivate (e : Mx.Env) (id : Str) (s d : Target) : Except DevErr (List Cmd) :=
  if s.port.remote.isNone ∧ d.port.remote.isNone then .ok (Mx.localDown id s d)
  else if s.port.remote.isSome ∧ d.port.remote.isSome then .ok (Mx.transitDown e id s d)
  else Mx.remoteDown e id s d

/-! ### junosex.py -/

/-- `_createSwitchName`, junosex.py:340-344. -/
def Jex.switch (id : Str) : Str := "OpenNSA-local-".toList ++ id

/-- Lines 358-364, templates of lines 29-35. -/
def Jex.endUp (t : Target) : List Cmd :=
  let p := t.port.interface
  let v := valText t.value
  if t.port.labelType = some tVlan then
    [.set [kInterfaces, p, kVlanTag], .set [kInterfaces, p, kMtu, "9000".toList], .set [kInterfaces, p, kEncap, "vlan-ccc".toList],
     .set [kInterfaces, p, kUnit, v, kEncap, "vlan-ccc".toList], .set [kInterfaces, p, kUnit, v, kVlanId, v],
     .set [kInterfaces, p, kUnit, v, "swap-by-poppush".toList]]
  else []

/-- Lines 381-383, template of line 38. -/
def Jex.endDown (t : Target) : List Cmd :=
  if t.port.labelType = some tVlan then [.delete [kInterfaces, unitName t.port.interface (valText t.value)]] else []

/-- `generateActivateCommand`, junosex.py:294-314, with `_generateLocalConnectionActivate`, 347-371. The message of lines 300-303 asks both labels for
their type. -/
def Jex.activate (id : Str) (s d : Target) : Except DevErr (List Cmd) :=
  match s.port.labelType, d.port.labelType with
  | some _, some _ =>
    .ok (Jex.endUp s ++ Jex.endUp d ++ [s, d].map fun t =>
      .set [kProtocols, kConnections, kIntSwitch, Jex.switch id, kInterface,
        unitName t.port.interface (if t.port.labelType = some tVlan then valText t.value else ['0'])])
  | _, _ => .error .attribute

/-- `generateDeactivateCommand`, junosex.py:317-337, with `_generateLocalConnectionDeActivate`, 374-386. -/
def Jex.deactivate (id : Str) (s d : Target) : Except DevErr (List Cmd) :=
  match s.port.labelType, d.port.labelType with
  | some _, some _ => .ok (Jex.endDown s ++ Jex.endDown d ++ [.delete [kProtocols, kConnections, kIntSwitch, Jex.switch id]])
  | _, _ => .error .attribute

/-! ### junipervpls.py -/

/-- Template `SET_UNIT` of line 94; the words after the unit are kept as one statement. -/
def Vpls.unitUp (p : Str) (v : Int) (desc : Str) : Cmd :=
  .set [kInterfaces, p, kUnit, showInt v, "description".toList, '"' :: desc ++ ['"'], kEncap, "vlan-vpls".toList, kVlanId, showInt v, kFamily, "vpls".toList]

/-- `createSetupCommands`, junipervpls.py:112-133, templates of lines 98-103. -/
def Vpls.configure (src dst : Str) (v : Int) (id desc rd vrf : Str) : List Cmd :=
  let si := unitName src (showInt v)
  let di := unitName dst (showInt v)
  [Vpls.unitUp src v desc, Vpls.unitUp dst v desc,
   .set [kRI, id, kInstType, "vpls".toList], .set [kRI, id, kInterface, si], .set [kRI, id, kInterface, di],
   .set [kRI, id, kRouteDist, rd], .set [kRI, id, kVrf, vrf],
   .set [kRI, id, kProtocols, "vpls".toList, "site-range".toList, ['2'], "no-tunnel-services".toList],
   .set [kRI, id, kProtocols, "vpls".toList, "site".toList, "MTRL1".toList, "site-identifier".toList, ['1'], kInterface, si],
   .set [kRI, id, kProtocols, "vpls".toList, "site".toList, "MTRL2".toList, "site-identifier".toList, ['2'], kInterface, di]]

/-- `createDeleteCommands`, junipervpls.py:136-144, templates of lines 107-108. -/
def Vpls.delete (src dst : Str) (v : Int) (id : Str) : List Cmd :=
  [.delete [kInterfaces, src, kUnit, showInt v], .delete [kInterfaces, dst, kUnit, showInt v], .delete [kRIshort, id]]

/-- `instance_id[:5] + instance_id[7:9]`, junipervpls.py:304. -/
def Vpls.uniqueId (id : Str) : Str := id.take 5 ++ (id.take 9).drop 7

/-- The commands of `setupLink`, junipervpls.py:375-384 and 299-310. -/
def Vpls.setupLink (asn id : Str) (s d : VlanTarget) : Except DevErr (List Cmd) :=
  if s.vlan ≠ d.vlan then .error .assertion
  else .ok (Vpls.configure s.port d.port d.vlan id (id ++ " [ X-connect created by OpenNSA ]".toList) (asn ++ ':' :: Vpls.uniqueId id)
    ("target:".toList ++ asn ++ ':' :: Vpls.uniqueId id))

/-- The commands of `teardownLink`, junipervpls.py:387-396 and 313-319. -/
def Vpls.teardownLink (id : Str) (s d : VlanTarget) : Except DevErr (List Cmd) :=
  if s.vlan ≠ d.vlan then .error .assertion else .ok (Vpls.delete s.port d.port d.vlan id)

end OpenNSA.Device
