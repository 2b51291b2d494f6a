import Verif.Nrm.Model
import Verif.Wire.Xml
import Verif.Discovery.Model
/-
Model of /repo/opennsa/topology/nml.py (the classes and `createNMLNetwork`) and /repo/opennsa/topology/nmlxml.py.
-/
namespace OpenNSA.Nml
open Py OpenNSA.Wire

/-- What the functions raise: AssertionError, KeyError, IndexError, AttributeError, and the error of a label (nsa.py:93, 99). -/
inductive NmlErr
  | assertion | keyError | indexError | attributeError | label
  deriving DecidableEq, Repr

/-- `Port` and `InternalPort`, nml.py:24-75. The bandwidth of an internal port is not part of documents and left out. -/
structure Port where
  id : Str
  name : Str
  label : Option Label
  remote : Option Str
  deriving DecidableEq, Repr

/-- `'urn:'`, nml.py:28. -/
def urnStart : Str := ['u', 'r', 'n', ':']

/-- `Port.__init__`, nml.py:26-36. -/
def Port.init (id name : Str) (label : Option Label) (remote : Option Str) : Except NmlErr Port :=
  if urnStart.isPrefixOf id then .error .assertion                -- line 28
  else if ':' ∈ name then .error .assertion                       -- line 29
  else .ok ⟨id, name, label, remote⟩

/-- `BidirectionalPort`, nml.py:78-95. -/
structure Bidi where
  id : Str
  name : Str
  inbound : Port
  outbound : Port
  remote : Option Str
  deriving DecidableEq, Repr

/-- `BidirectionalPort.__init__`, nml.py:80-95. The name may be None when it comes from a document (line 82). -/
def Bidi.init (id : Str) (name : Option Str) (inbound outbound : Port) (remote : Option Str) : Except NmlErr Bidi :=
  match name with
  | none => .error .assertion                                     -- line 82
  | some name =>
    match inbound.label, outbound.label with                      -- lines 85-88
    | none, none => if urnStart.isPrefixOf id then .error .assertion else .ok ⟨id, name, inbound, outbound, remote⟩
    | some a, some b =>
      if a.type_ ≠ b.type_ then .error .assertion
      else if urnStart.isPrefixOf id then .error .assertion
      else .ok ⟨id, name, inbound, outbound, remote⟩
    | _, _ => .error .attributeError

/-- A Python sequence: a list, or the view `d.values()` of a dictionary, which is not of type `list`. -/
inductive Seq (α : Type)
  | list (l : List α)
  | view (l : List α)
  deriving DecidableEq, Repr

/-- `Network`, nml.py:125-143; the version is given as the text of `createXMLTime`. -/
structure Network where
  id : Str
  name : Str
  inbound : List Port
  outbound : List Port
  bidirectional : List Bidi
  deriving DecidableEq, Repr

/-- `Network.__init__`, nml.py:127-143. -/
def Network.init (id : Str) (name : Option Str) (inbound outbound : Seq Port) (bidirectional : Seq Bidi) : Except NmlErr Network :=
  match name, inbound, outbound, bidirectional with
  | some name, .list i, .list o, .list b => if urnStart.isPrefixOf id then .error .assertion else .ok ⟨id, name, i, o, b⟩
  | _, _, _, _ => .error .assertion                               -- lines 130-133

/-- `'-in'`, nml.py:360. -/
def sufIn : Str := ['-', 'i', 'n']
/-- `'-out'`, nml.py:361. -/
def sufOut : Str := ['-', 'o', 'u', 't']

/-- Body of the loop of `createNMLNetwork`, nml.py:358-369. The type of a port is always ethernet (see `Nrm.Port`). -/
def createPorts (network : Str) (p : Nrm.Port) : Except NmlErr (Port × Port × Bidi) :=
  match Port.init (network ++ ':' :: (p.name ++ sufIn)) (p.name ++ sufIn) p.label (p.remote.map (·.out)) with
  | .error e => .error e
  | .ok i => match Port.init (network ++ ':' :: (p.name ++ sufOut)) (p.name ++ sufOut) p.label (p.remote.map (·.in_)) with
    | .error e => .error e
    | .ok o => match Bidi.init (network ++ ':' :: p.name) (some p.name) i o (p.remote.map (·.port)) with
      | .error e => .error e
      | .ok b => .ok (i, o, b)

/-- The loop, nml.py:356-373. -/
def createAll (network : Str) : List Nrm.Port → Except NmlErr (List Port × List Port × List Bidi)
  | [] => .ok ([], [], [])
  | p :: ps => match createPorts network p with
    | .error e => .error e
    | .ok (i, o, b) => match createAll network ps with
      | .error e => .error e
      | .ok (is, os, bs) => .ok (i :: is, o :: os, b :: bs)

/-- `createNMLNetwork`, nml.py:349-375. -/
def createNMLNetwork (ports : List Nrm.Port) (network readable : Str) : Except NmlErr Network :=
  match createAll network ports with
  | .error e => .error e
  | .ok (i, o, b) => Network.init network (some readable) (.list i) (.list o) (.list b)

/-! ### Writing, nmlxml.py:22-116 -/

/-- The tags, nmlxml.py:22-23, 36-45, 60. -/
def tTopology : String := "{http://schemas.ogf.org/nml/2013/05/base#}Topology"
def tPort : String := "{http://schemas.ogf.org/nml/2013/05/base#}Port"
def tPortGroup : String := "{http://schemas.ogf.org/nml/2013/05/base#}PortGroup"
def tLabel : String := "{http://schemas.ogf.org/nml/2013/05/base#}Label"
def tLabelGroup : String := "{http://schemas.ogf.org/nml/2013/05/base#}LabelGroup"
def tName : String := "{http://schemas.ogf.org/nml/2013/05/base#}name"
def tRelation : String := "{http://schemas.ogf.org/nml/2013/05/base#}Relation"
def tBidirectional : String := "{http://schemas.ogf.org/nml/2013/05/base#}BidirectionalPort"
def tSwitching : String := "{http://schemas.ogf.org/nml/2013/05/base#}SwitchingService"
def tServiceDef : String := "{http://schemas.ogf.org/nsi/2013/12/services/definition}serviceDefinition"
/-- The types of relations, nmlxml.py:48-52. -/
def rInbound : Str := "http://schemas.ogf.org/nml/2013/05/base#hasInboundPort".toList
def rOutbound : Str := "http://schemas.ogf.org/nml/2013/05/base#hasOutboundPort".toList
def rAlias : Str := "http://schemas.ogf.org/nml/2013/05/base#isAlias".toList
def rService : Str := "http://schemas.ogf.org/nml/2013/05/base#hasService".toList
/-- `cnt.NML_ETHERNET_VLAN`, `cnt.NML_MPLS`, constants.py:36-38. -/
def nmlVlan : Str := "http://schemas.ogf.org/nml/2012/10/ethernet#vlan".toList
def nmlMpls : Str := "http://nsi.nordu.net/nml#mpls".toList
/-- `cnt.EVTS_AGOLE`, constants.py:26. -/
def evtsAgole : Str := "http://services.ogf.org/nsi/2013/07/descriptions/EVTS.A-GOLE".toList

/-- `NML_LABEL_MAPPING`, nmlxml.py:55-58. -/
def labelMapping (t : Str) : Option Str := if t = tVlan then some nmlVlan else if t = tMpls then some nmlMpls else none

/-- The label element, nmlxml.py:79-81; `none` for the KeyError. -/
def labelElems : Option Label → Option (List Elem)
  | none => some []
  | some l => (labelMapping l.type_).map fun t => [.mk tLabelGroup [("labeltype", t)] (some l.labelValue) []]

/-- The element for the remote port, nmlxml.py:82-84. -/
def aliasElems : Option Str → List Elem
  | none => []
  | some r => [.mk tRelation [("type", rAlias)] none [.mk tPortGroup [("id", urnPrefix ++ r)] none []]]

/-- `addPort`, nmlxml.py:76-84; `base` is `BASE_URN`. -/
def portElem (base : Str) (p : Port) : Option Elem :=
  (labelElems p.label).map fun ls => .mk tPortGroup [("id", base ++ ':' :: p.name)] none (ls ++ aliasElems p.remote)

/-- `addPort` for a list. -/
def portElems (base : Str) : List Port → Option (List Elem)
  | [] => some []
  | p :: ps => match portElem base p with
    | none => none
    | some e => (portElems base ps).map (e :: ·)

/-- nmlxml.py:86-90. -/
def bidiElem (base : Str) (b : Bidi) : Elem :=
  .mk tBidirectional [("id", base ++ ':' :: b.name)] none
    [leaf tName (some b.name), .mk tPortGroup [("id", base ++ ':' :: b.inbound.name)] none [], .mk tPortGroup [("id", base ++ ':' :: b.outbound.name)] none []]

/-- nmlxml.py:92-100. -/
def relationElems (t : Str) (ports : List Elem) : List Elem := if ports = [] then [] else [.mk tRelation [("type", t)] none ports]

/-- nmlxml.py:102-114. -/
def serviceElems (id : Str) (swap : Bool) : List Elem :=
  let sd := id ++ ":sd:EVTS.A-GOLE".toList
  [.mk tServiceDef [("id", sd)] none [leaf "name" (some "GLIF Automated GOLE Ethernet VLAN Transfer Service".toList), leaf "serviceType" (some evtsAgole)],
   .mk tRelation [("type", rService)] none
     [.mk tSwitching [("id", id ++ ":switch:EVTS.A-GOLE".toList), ("labelSwapping", (if swap then "true" else "false").toList), ("labelType", nmlVlan)] none
       [.mk tServiceDef [("id", sd)] none []]]]

/-- `topologyXML`, nmlxml.py:64-116; `none` if it raises. -/
def topologyXML (n : Network) (version : Str) (swap : Bool) : Option Elem :=
  match portElems (urnPrefix ++ n.id) n.inbound, portElems (urnPrefix ++ n.id) n.outbound with
  | some is, some os => some (.mk tTopology [("id", urnPrefix ++ n.id), ("version", version)] none
      (leaf tName (some n.name) :: (n.bidirectional.map (bidiElem (urnPrefix ++ n.id)) ++ relationElems rInbound is ++ relationElems rOutbound os ++
        serviceElems (urnPrefix ++ n.id) swap)))
  | _, _ => none

/-! ### Reading, nmlxml.py:123-226 -/

/-- `_baseName( e.attrib[ID] )`, nmlxml.py:123-126. -/
def baseId (e : Elem) : Except NmlErr Str :=
  match e.get "id" with
  | none => .error .keyError
  | some s => match Discovery.baseName (some s) with
    | none => .error .assertion
    | some b => .ok b

/-- The variables of `parseNMLPort`, nmlxml.py:134-136. -/
structure PortVars where
  name : Option Str
  label : Option Label
  remote : Option Str

/-- Body of the loop of `parseNMLPort`, nmlxml.py:138-154. -/
def portStep (v : PortVars) (pe : Elem) : Except NmlErr PortVars :=
  if pe.tag = tName then .ok { v with name := pe.text }
  else if pe.tag = tLabel ∨ pe.tag = tLabelGroup then
    match pe.get "labeltype" with
    | none => .error .keyError
    | some t => match Label.mk' t (match pe.text with | none => .none | some x => .str x) with
      | .ok l => .ok { v with label := some l }
      | .error .assertion => .error .assertion
      | .error _ => .error .label
  else if pe.tag = tRelation then
    match pe.get "type" with
    | none => .error .keyError
    | some t =>
      if t = rAlias then
        match pe.kids with
        | [] => .error .indexError
        | k :: _ => match baseId k with
          | .error e => .error e
          | .ok r => .ok { v with remote := some r }
      else .ok v
  else .ok v

/-- The loop. -/
def portLoop (v : PortVars) : List Elem → Except NmlErr PortVars
  | [] => .ok v
  | e :: es => match portStep v e with
    | .error x => .error x
    | .ok v => portLoop v es

/-- `s.split(':')[-1]`, nmlxml.py:158. -/
def lastPart (s : Str) : Str := ((splitOn ':' s).getLast?).getD []

/-- `parseNMLPort`, nmlxml.py:129-161 (the tag was tested by the caller, line 182). -/
def parsePort (e : Elem) : Except NmlErr Port :=
  match baseId e with
  | .error x => .error x
  | .ok id => match portLoop ⟨none, none, none⟩ e.kids with
    | .error x => .error x
    | .ok v => Port.init id (v.name.getD (lastPart id)) v.label v.remote

/-- nmlxml.py:181-186, 189-194. -/
def parsePorts (d : List (Str × Port)) : List Elem → Except NmlErr (List (Str × Port))
  | [] => .ok d
  | e :: es =>
    if e.tag = tPort ∨ e.tag = tPortGroup then
      match parsePort e with
      | .error x => .error x
      | .ok p => parsePorts (dset d p.id p) es
    else parsePorts d es

/-- The ids of nmlxml.py:203-204. -/
def subPorts : List Elem → Except NmlErr (List Str)
  | [] => .ok []
  | e :: es =>
    if e.tag = tName then subPorts es
    else if e.tag = tPort ∨ e.tag = tPortGroup then
      match baseId e with
      | .error x => .error x
      | .ok i => match subPorts es with
        | .error x => .error x
        | .ok l => .ok (i :: l)
    else subPorts es

/-- The name of nmlxml.py:201-202: the last name element. -/
def lastName (kids : List Elem) : Option Str := kids.foldl (fun n e => if e.tag = tName then e.text else n) none

/-- A bidirectional port before its parts are looked up, nmlxml.py:206. -/
structure RawBidi where
  id : Str
  name : Option Str
  p1 : Str
  p2 : Str
  deriving DecidableEq, Repr

/-- nmlxml.py:196-206. -/
def parseBidi (e : Elem) : Except NmlErr RawBidi :=
  match baseId e with
  | .error x => .error x
  | .ok id => match subPorts e.kids with
    | .error x => .error x
    | .ok [p1, p2] => .ok ⟨id, lastName e.kids, p1, p2⟩
    | .ok _ => .error .assertion

/-- The variables of `parseNMLTopology`, nmlxml.py:171-174. -/
structure Vars where
  name : Option Str
  inbound : List (Str × Port)
  outbound : List (Str × Port)
  bd : List RawBidi

/-- Body of the loop of nmlxml.py:176-211. -/
def topStep (v : Vars) (e : Elem) : Except NmlErr Vars :=
  if e.tag = tName then .ok { v with name := e.text }
  else if e.tag = tRelation then
    match e.get "type" with
    | none => .error .keyError
    | some t =>
      if t = rInbound then
        match parsePorts v.inbound e.kids with
        | .error x => .error x
        | .ok d => .ok { v with inbound := d }
      else if t = rOutbound then
        match parsePorts v.outbound e.kids with
        | .error x => .error x
        | .ok d => .ok { v with outbound := d }
      else .ok v
  else if e.tag = tBidirectional then
    match parseBidi e with
    | .error x => .error x
    | .ok b => .ok { v with bd := v.bd ++ [b] }
  else .ok v

/-- The loop. -/
def topLoop (v : Vars) : List Elem → Except NmlErr Vars
  | [] => .ok v
  | e :: es => match topStep v e with
    | .error x => .error x
    | .ok v => topLoop v es

/-- nmlxml.py:216-223 for one port. -/
def lookBidi (i o : List (Str × Port)) (b : RawBidi) : Except NmlErr Bidi :=
  match dget i b.p1 with
  | some p => match dget o b.p2 with
    | some q => Bidi.init b.id b.name p q none
    | none => .error .keyError
  | none => match dget i b.p2, dget o b.p1 with
    | some p, some q => Bidi.init b.id b.name p q none
    | _, _ => .error .keyError

/-- nmlxml.py:216-223. -/
def lookAll (i o : List (Str × Port)) : List RawBidi → Except NmlErr (List Bidi)
  | [] => .ok []
  | b :: bs => match lookBidi i o b with
    | .error x => .error x
    | .ok x => match lookAll i o bs with
      | .error e => .error e
      | .ok l => .ok (x :: l)

/-- What `parseNMLTopology` has read before the last statement, nmlxml.py:165-223: id, name, ports. -/
structure Parts where
  id : Str
  name : Option Str
  inbound : List (Str × Port)
  outbound : List (Str × Port)
  bidirectional : List Bidi
  deriving DecidableEq, Repr

/-- nmlxml.py:165-223. -/
def parseParts (e : Elem) : Except NmlErr Parts :=
  if e.tag ≠ tTopology then .error .assertion
  else match baseId e with
    | .error x => .error x
    | .ok id => match topLoop ⟨none, [], [], []⟩ e.kids with
      | .error x => .error x
      | .ok v => match lookAll v.inbound v.outbound v.bd with
        | .error x => .error x
        | .ok b => .ok ⟨id, v.name, v.inbound, v.outbound, b⟩

/-- `parseNMLTopology`, nmlxml.py:165-226. Line 225 gives `inbound_ports.values()`. -/
def parseNMLTopology (e : Elem) : Except NmlErr Network :=
  match parseParts e with
  | .error x => .error x
  | .ok p => Network.init p.id p.name (.view (p.inbound.map (·.2))) (.view (p.outbound.map (·.2))) (.list p.bidirectional)

end OpenNSA.Nml
