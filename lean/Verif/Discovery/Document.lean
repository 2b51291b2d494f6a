import Verif.Discovery.Props
import Verif.Wire.Xml
/-
Model of the discovery document: /repo/opennsa/discovery/service.py, /repo/opennsa/discovery/bindings/discovery.py, and what
/repo/opennsa/setup.py gives them.
-/
namespace OpenNSA.Discovery
open Py OpenNSA.Registry OpenNSA.Wire

/-- `'{%s}nsa' % NSI_DISCOVERY_NS`, bindings/discovery.py:145, 149, 166. -/
def nsaTag : String := "{http://schemas.ogf.org/nsi/2014/02/discovery/nsa}nsa"
/-- `topology_reachability`, bindings/discovery.py:146, 150. -/
def reachTag : String := "{http://nordu.net/namespaces/2013/12/gnsbod}TopologyReachability"

/-- `InterfaceType`, bindings/discovery.py:7-11. -/
structure Iface where
  type_ : Option Str
  href : Option Str
  describedBy : Option Str
  deriving DecidableEq, Repr
/-- `FeatureType`, bindings/discovery.py:85-88. -/
structure Feature where
  type_ : Option Str
  value : Option Str
  deriving DecidableEq, Repr
/-- `NsaType`, bindings/discovery.py:30-42, as it is when a document was read: `peersWith` is a text then (line 56), though a set of texts when a
document is written (line 77). An `other` is the list of its topologies (`HolderType`, lines 103-105), each with uri and cost (lines 125-129). -/
structure NsaType where
  id : Option Str
  version : Option Str
  expires : Option Str
  name : Option Str
  softwareVersion : Option Str
  startTime : Option Str
  networkId : List (Option Str)
  interface : Option (List Iface)
  feature : Option (List Feature)
  peersWith : Option Str
  other : Option (List (Option (List (Option Str × Int))))
  deriving Repr

/-- `InterfaceType.xml`, bindings/discovery.py:21-27: `type` and `href` are always written (`str(None)` does not occur: setup.py gives texts). -/
def Iface.xml (i : Iface) (tag : String) : Elem :=
  .mk tag [] none (leaf "type" i.type_ :: leaf "href" i.href :: optLeaf "describedBy" i.describedBy)
/-- `InterfaceType.build`, bindings/discovery.py:13-19. -/
def Iface.build (e : Elem) : Iface := ⟨e.findtext "type", e.findtext "href", if (e.find "describedBy").isSome then e.findtext "describedBy" else none⟩

/-- `FeatureType.xml`, bindings/discovery.py:97-100. -/
def Feature.xml (type_ : Str) (value : Option Str) (tag : String) : Elem := .mk tag [("type", type_)] value []
/-- `FeatureType.build`, bindings/discovery.py:90-95. -/
def Feature.build (e : Elem) : Feature := ⟨e.get "type", e.text⟩

/-- `Topology.build`, bindings/discovery.py:132-137: `none` if `int(...)` raises. -/
def buildReach (e : Elem) : Option (Option Str × Int) :=
  match e.get "cost" with
  | none => none
  | some c => match pyInt c with
    | none => none
    | some c => some (e.get "id", c)

/-- A list comprehension of which an element may raise. -/
def allSome {α : Type} : List (Option α) → Option (List α)
  | [] => some []
  | none :: _ => none
  | some a :: l => match allSome l with
    | none => none
    | some l => some (a :: l)

/-- `HolderType.build`, bindings/discovery.py:108-112. -/
def buildOther (e : Elem) : Option (Option (List (Option Str × Int))) :=
  match e.find reachTag with
  | none => some none
  | some r => match allSome (r.kids.map buildReach) with
    | none => none
    | some l => some (some l)

/-- The last argument of bindings/discovery.py:57. -/
def buildOthers (e : Elem) : Option (Option (List (Option (List (Option Str × Int))))) :=
  if (e.find "other").isSome then (allSome ((e.findall "other").map buildOther)).map some else some none

/-- `NsaType.build`, bindings/discovery.py:44-58; `none` if it raises. -/
def NsaType.build (e : Elem) : Option NsaType :=
  (buildOthers e).map fun other =>
    { id := e.get "id"
      version := e.get "version"
      expires := e.get "expires"
      name := if (e.find "name").isSome then e.findtext "name" else none
      softwareVersion := if (e.find "softwareVersion").isSome then e.findtext "softwareVersion" else none
      startTime := if (e.find "startTime").isSome then e.findtext "startTime" else none
      networkId := if (e.find "networkId").isSome then (e.findall "networkId").map Elem.text else []
      interface := if (e.find "interface").isSome then some ((e.findall "interface").map Iface.build) else none
      feature := if (e.find "feature").isSome then some ((e.findall "feature").map Feature.build) else none
      peersWith := if (e.find "peersWith").isSome then e.findtext "peersWith" else none
      other }

/-- `discovery.parse`, bindings/discovery.py:156-173, of text that is well-formed XML. -/
def parse (e : Elem) : Option NsaType := if e.tag = nsaTag then NsaType.build e else none

/-- What the fetcher uses of it (fetcher.py:72-101): the topologies of all `other` elements one after the other. -/
def NsaType.doc (t : NsaType) : Doc :=
  { id := t.id
    networkIds := t.networkId
    interfaces := t.interface.map fun l => l.map fun i => (i.type_, i.href)
    reach := (t.other.getD []).flatMap fun o => o.getD [] }

/-- `DiscoveryService`, discovery/service.py:20-37, with what setup.py:326-327 gives it. The times are given as the texts
`xmlhelper.createXMLTime` makes of them (discovery/service.py:56, 60; the text is the subject of C47). The provider registry and the link vector are those
of the service at the moment. -/
structure Service where
  nsaId : Str
  version : Str
  name : Str
  softwareVersion : Str
  startTime : Str
  networkIds : List Str
  interfaces : List (Str × Str × Option Str)
  features : List (Str × Option Str)
  urns : List (Str × Str)                       -- provider_registry.provider_urns
  lv : LinkVector

/-- Values without repetition, in order of first occurrence. -/
def distinct : List Str → List Str
  | [] => []
  | a :: l => a :: (distinct l).filter (· ≠ a)

/-- discovery/service.py:46-52: the other agents. A set has no element `x` to remove: `set.remove` raises `KeyError`, which is not the `ValueError`
that is caught; `none`. The order of a set is not specified; here it is the order of first occurrence. -/
def Service.peers (s : Service) : Option (List Str) :=
  if s.nsaId ∈ s.urns.map (·.2) then some ((distinct (s.urns.map (·.2))).filter (· ≠ s.nsaId)) else none

/-- `DiscoveryService.xml`, discovery/service.py:40-70, with `NsaType.xml`, bindings/discovery.py:60-82; `none` if it raises. The
`other` is always None (discovery/service.py:65), so that the link vector is not used. -/
def Service.xml (s : Service) : Option Elem :=
  match s.peers with
  | none => none
  | some peers => some (.mk nsaTag [("id", s.nsaId), ("version", s.version)] none (
      leaf "name" (some s.name) :: leaf "softwareVersion" (some s.softwareVersion) :: leaf "startTime" (some s.startTime) ::
      (s.networkIds.map (fun n => leaf "networkId" (some n)) ++
       s.interfaces.map (fun i => (Iface.mk (some i.1) (some i.2.1) i.2.2).xml "interface") ++
       s.features.map (fun f => Feature.xml f.1 f.2 "feature") ++
       peers.map (fun p => leaf "peersWith" (some p)))))

/-- What a peer gets to read: the document as text and parsed again. -/
def Service.published (s : Service) : Option NsaType := s.xml.bind fun e => parse (wire e)

/-! ### What setup.py makes of the configuration -/

/-- `cnt.FEATURE_UPA`, constants.py:42. -/
def featureUpa : Str := "vnd.ogf.nsi.cs.v2.role.uPA".toList
/-- `cnt.FEATURE_AGGREGATOR`, constants.py:41. -/
def featureAggregator : Str := "vnd.ogf.nsi.cs.v2.role.aggregator".toList
/-- `cnt.OPENNSA_REST`, constants.py:22. -/
def opennsaRest : Str := "application/vnd.net.nordu.opennsa+rest".toList
/-- `cnt.NML_SERVICE_TYPE`, constants.py:17. -/
def nmlServiceType : Str := "application/vnd.ogf.nsi.topology.v2+xml".toList

/-- What the discovery service depends on: domain, base URL, names of the backends, whether peers and REST are configured, program version, and the
time of start. -/
structure Setup where
  domain : Str
  baseUrl : Str
  backends : List Str
  hasPeers : Bool
  rest : Bool
  version : Str
  now : Str

/-- `nsa_name`, setup.py:155, as URN (nsa.py:307-309). -/
def Setup.nsaIdent (c : Setup) : Str := c.domain ++ ":nsa".toList
/-- `provider_endpoint`, setup.py:165. -/
def Setup.endpoint (c : Setup) : Str := c.baseUrl ++ "/NSI/services/CS2".toList
/-- `backend_network_name`, setup.py:229-230. -/
def Setup.networks (c : Setup) : List Str := c.backends.map fun b => c.domain ++ ':' :: b
/-- The interfaces, setup.py:283-284, 297-302, 304-319. -/
def Setup.interfaces (c : Setup) : List (Str × Str × Option Str) :=
  [(cs2Provider, c.endpoint, none), (cs2ServiceType, c.endpoint, none)] ++
  (if c.rest then [(opennsaRest, c.baseUrl ++ "/connections".toList, none)] else []) ++
  c.networks.map fun n => (nmlServiceType, c.baseUrl ++ "/NSI/".toList ++ (n ++ ".nml.xml".toList), none)
/-- The features, setup.py:285-289. -/
def Setup.features (c : Setup) : List (Str × Option Str) :=
  (if c.networks ≠ [] then [(featureUpa, none)] else []) ++ (if c.hasPeers then [(featureAggregator, none)] else [])
/-- The calls of `addProvider`, setup.py:266-267; the backend object of a network is given by `backend`. -/
def Setup.providers {π : Type} (c : Setup) (backend : Str → π) : List (Op π) := c.networks.map fun n => .add (urnPrefix ++ c.nsaIdent) n (backend n)
/-- setup.py:280-282, 326-327, in a state where the registry has the given URNs. -/
def Setup.service (c : Setup) (urns : List (Str × Str)) (lv : LinkVector) : Service :=
  { nsaId := urnPrefix ++ c.nsaIdent, version := c.now, name := c.domain, softwareVersion := "OpenNSA-".toList ++ c.version, startTime := c.now
    networkIds := c.networks.map fun n => urnPrefix ++ n, interfaces := c.interfaces, features := c.features, urns, lv }

end OpenNSA.Discovery
