import Verif.Nml.Model
import Verif.Stp.Model
/-
Model of the class `Topology` of /repo/opennsa/topology/nml.py, lines 170-275: a database of networks, with a search for paths.
-/
namespace OpenNSA.Nml
open Py

/-- What the functions raise: TopologyError, STPUnavailableError (which is one, error.py:198), AttributeError. -/
inductive TopErr
  | topology | unavailable | attr
  deriving DecidableEq, Repr

/-- `Topology.networks`, nml.py:173: the networks and the NSAs that manage them (here their URNs), by the ids of the networks. -/
abbrev Topology := List (Str × Network × Str)

/-- `addNetwork`, nml.py:176-183. -/
def Topology.add (t : Topology) (n : Network) (agent : Str) : Except TopErr Topology :=
  if dmem t n.id then .error .topology                               -- lines 180-181
  else .ok (dset t n.id (n, agent))

/-- `updateNetwork`, nml.py:186-195: the database afterwards, and whether an exception was raised. -/
def Topology.update (t : Topology) (n : Network) (agent : Str) : Topology × Option TopErr :=
  let old := dget t n.id
  let t' := ddel t n.id                                              -- line 188
  match Topology.add t' n agent with
  | .ok t'' => (t'', none)
  | .error e => match old with                                       -- lines 191-195
    | some x => (dset t' n.id x, some e)
    | none => (t', some e)

/-- `getNetwork`, nml.py:198-202. -/
def Topology.network (t : Topology) (id : Str) : Except TopErr Network :=
  match dget t id with
  | some x => .ok x.1
  | none => .error .topology

/-- `getNSA`, nml.py:216-220. -/
def Topology.agent (t : Topology) (id : Str) : Except TopErr Str :=
  match dget t id with
  | some x => .ok x.2
  | none => .error .topology

/-- A port of a network: of one direction, or of both. -/
inductive AnyPort
  | uni (p : Port)
  | bidi (b : Bidi)
  deriving DecidableEq, Repr

/-- `port.id_`. -/
def AnyPort.id : AnyPort → Str
  | .uni p => p.id
  | .bidi b => b.id

/-- `isBidirectional`, nml.py:43-44, 98-99. -/
def AnyPort.both : AnyPort → Bool
  | .uni _ => false
  | .bidi _ => true

/-- `itertools.chain(...)`, nml.py:147. -/
def Network.ports (n : Network) : List AnyPort := n.inbound.map .uni ++ n.outbound.map .uni ++ n.bidirectional.map .bidi

/-- `Network.getPort`, nml.py:146-152. -/
def Network.port (n : Network) (id : Str) : Except TopErr AnyPort :=
  match n.ports.find? (fun p => p.id = id) with
  | some p => .ok p
  | none => .error .unavailable

/-- `getNetworkPort`, nml.py:205-213: the loop goes on after a TopologyError, and STPUnavailableError is one. -/
def Topology.networkPort : Topology → Str → Except TopErr (Str × AnyPort)
  | [], _ => .error .topology
  | (id, n, _) :: t, port => match n.port port with
    | .ok p => .ok (id, p)
    | .error .attr => .error .attr
    | .error _ => Topology.networkPort t port

/-- `Port.canMatchLabel`, nml.py:39-40: the port itself is given to `Label.canMatch` in place of its label (nsa.py:175-184). It is never None, and has no method
`intersect`. -/
def Port.canMatchLabel (_ : Port) : Option Label → Except TopErr Bool
  | none => .ok false
  | some _ => .error .attr

/-- `canMatchLabel` of ports of both kinds; nml.py:109-110. -/
def AnyPort.canMatchLabel (p : AnyPort) (l : Option Label) : Except TopErr Bool :=
  match p with
  | .uni p => p.canMatchLabel l
  | .bidi b => match b.inbound.canMatchLabel l with
    | .error e => .error e
    | .ok false => .ok false
    | .ok true => b.outbound.canMatchLabel l

/-- `BidirectionalPort.hasRemote`, nml.py:51-52, 113-114. -/
def Bidi.hasRemote (b : Bidi) : Bool := b.inbound.remote.isSome && b.outbound.remote.isSome

/-- `findDemarcationPort`, nml.py:223-246. `findPorts(True)` (lines 155-162) without a label gives all ports of both directions. -/
def Topology.demarcation (t : Topology) (b : Bidi) : Except TopErr (Option (Str × Str)) :=
  match b.outbound.remote, b.inbound.remote with
  | some o, some i =>
    match t.networkPort o, t.networkPort i with                      -- lines 230-231
    | .ok (ni, pi), .ok (no, po) =>
      if ni ≠ no then .ok none                                       -- lines 233-235
      else match t.network ni with                                   -- line 241
        | .error e => .error e
        | .ok n => match n.bidirectional.find? (fun r => r.inbound.id = pi.id && r.outbound.id = po.id) with
          | some r => .ok (some (n.id, r.id))
          | none => .ok none
    | .error .attr, _ => .error .attr
    | .ok _, .error .attr => .error .attr
    | _, _ => .ok none                                               -- lines 237-239
  | _, _ => .ok none                                                 -- lines 226-227

/-- `findPaths`, nml.py:249-275. A port of one direction has no attribute `orientation` (line 263). `search` stands for `_findPathsRecurse`, which is called in line 275. -/
def Topology.findPaths {α : Type} (t : Topology) (search : STP → STP → Except TopErr α) (s d : STP) : Except TopErr α :=
  match t.network s.network with
  | .error e => .error e
  | .ok sn => match sn.port s.port with
    | .error e => .error e
    | .ok sp => match t.network d.network with
      | .error e => .error e
      | .ok dn => match dn.port d.port with
        | .error e => .error e
        | .ok dp =>
          if sp.both || dp.both then
            if !sp.both then .error .topology
            else if !dp.both then .error .topology
            else match sp.canMatchLabel s.label with
              | .error e => .error e
              | .ok false => .error .topology
              | .ok true => match dp.canMatchLabel d.label with
                | .error e => .error e
                | .ok false => .error .topology
                | .ok true => search s d
          else .error .attr

end OpenNSA.Nml
