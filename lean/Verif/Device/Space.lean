import Verif.Device.Junos
/-
Model of the requests that /repo/opennsa/backends/junosspace.py sends.
-/
namespace OpenNSA.Device
open Py OpenNSA.Backend

/-- An end as the configlets get it: type and value of the label, and interface. -/
structure SpaceEnd where
  labelType : Str
  interface : Str
  labelValue : Str
  deriving DecidableEq, Repr

/-- A request: the configlet for two ends (junosspace.py:364-389, 391-418, 501-518, 564-582) or that for an end and an LSP (430-455, 469-494, 527-551,
591-615), with the device and the name of the circuit. Which of the two ids of a configlet is used depends on whether the link is set up or
taken down; the parameters are the same. -/
inductive SpaceReq
  | joinEnds (device : Str) (a b : SpaceEnd) (circuit : Str)
  | joinLsp (device : Str) (a : SpaceEnd) (ip lspOut lspIn circuit : Str)
  deriving DecidableEq, Repr

/-- What the generator knows besides the connection: the name of the network, and id and loopback address of the routers,
junosspace.py:271-277. -/
structure Space.Env where
  network : Str
  routers : List (Str × (Str × Str))
  deriving DecidableEq, Repr

/-- `_getDeviceId`, junosspace.py:341-347. -/
def Space.deviceId (e : Space.Env) (net : Str) : Except DevErr Str :=
  match dget e.routers (dropTopology net) with
  | some r => .ok r.1
  | none => .error .other

/-- `_getDeviceLoopbackIp`, junosspace.py:350-356. -/
def Space.loopback (e : Space.Env) (net : Str) : Except DevErr Str :=
  match dget e.routers (dropTopology net) with
  | some r => .ok r.2
  | none => .error .other

/-- `_createSwitchName`, junosspace.py:335-338. -/
def Space.switch (id : Str) : Str := "GTS-local-".toList ++ id

/-- Lines 373-385 and 440-445: type and value of the label, `port` and 0 if there is none. -/
def Space.endOf (t : Target) : SpaceEnd :=
  match t.port.labelType with
  | none => ⟨tPort, t.port.interface, ['0']⟩
  | some ty => ⟨ty, t.port.interface, valText t.value⟩

/-- `_generateLocalConnectionActivate`, junosspace.py:364-389, and `_generateLocalConnectionDeActivate`, 391-418. -/
def Space.localReq (e : Space.Env) (id : Str) (s d : Target) : Except DevErr SpaceReq := do
  let dev ← Space.deviceId e e.network
  .ok (.joinEnds dev (Space.endOf s) (Space.endOf d) (Space.switch id))

/-- Lines 430-455, 469-494, 531-551 and 595-615: an end and an LSP. -/
def Space.lspReq (e : Space.Env) (id : Str) (l r : Target) : Except DevErr SpaceReq := do
  let dev ← Space.deviceId e e.network
  let ip ← Space.loopback e r.net
  .ok (.joinLsp dev (Space.endOf l) ip (Mx.lspName r.net e.network r.value) (Mx.lspName e.network r.net r.value) (Space.switch id))

/-- `_generateRemoteConnectionActivate`, junosspace.py:420-457, and `_generateRemoteConnectionDeactivate`, 460-495. Lines 424 and 463 ask a label that
may be `None` for its type. -/
def Space.remoteReq (e : Space.Env) (id : Str) (s d : Target) : Except DevErr SpaceReq :=
  match (remoteOf s d).port.labelType with
  | none => .error .attribute
  | some ty => if ty = tVlan then Space.localReq e id s d else Space.lspReq e id (localOf s d) (remoteOf s d)

/-- `_generateTransitConnectionActivate`, junosspace.py:497-558, and `_generateTransitConnectionDeactivate`, 560-623. -/
def Space.transitReq (e : Space.Env) (id : Str) (s d : Target) : Except DevErr SpaceReq :=
  match s.port.labelType, d.port.labelType with
  | some a, some b =>
    if a = tVlan ∧ b = tVlan then Space.localReq e id s d
    else if a = tMpls ∧ b = tMpls then .error .other
    else
      let l := if a = tVlan then s else d
      let r := if a = tMpls then s else d
      if l.port.labelType = some tVlan ∧ r.port.labelType = some tMpls then Space.lspReq e id l r else .error .other
  | _, _ => .error .other

/-- `generateActivateCommand`, junosspace.py:300-316, and `generateDeactivateCommand`, 318-333: the parameters of the request. -/
def Space.request (e : Space.Env) (id : Str) (s d : Target) : Except DevErr SpaceReq :=
  if s.port.remote.isNone ∧ d.port.remote.isNone then Space.localReq e id s d
  else if s.port.remote.isSome ∧ d.port.remote.isSome then Space.transitReq e id s d
  else Space.remoteReq e id s d

end OpenNSA.Device
