import Verif.Discovery.Document
import Verif.Nml.Model
import Verif.Nrm.Model
import Verif.Config.Model
import Verif.Http.Client
import Verif.Cli.Model
/-
Model of /repo/opennsa/setup.py: what a service consists of once it is started, what it serves under which path, and how discovery documents of
peers change that. With /repo/opennsa/protocols/nsi2/__init__.py, `setupSOAPResource` of /repo/opennsa/protocols/shared/soapresource.py:145-176,
/repo/opennsa/protocols/rest/__init__.py.

Library behaviour in this model (Twisted 21.2, requirements.txt): `Resource.putChild(name, r)` stores `r` under `name`; the path of a request is split
at `/` and unquoted into byte strings, which are looked up one after the other, until a resource is a leaf or handles its children itself; a text is never equal to
a byte string. Byte strings are given by the text that they encode; of the quoted characters, only ASCII is unquoted.
-/
namespace OpenNSA.Setup
open Py OpenNSA.Registry OpenNSA.Discovery

/-! ### The tree of resources -/

/-- A key in `Resource.children`: a text, or bytes (given by the text they encode). -/
inductive Seg
  | text (s : Str)
  | bytes (s : Str)
  deriving DecidableEq, Repr

/-- The resources. -/
inductive Kind
  /-- `resource.Resource()`: serves nothing itself -/
  | plain
  /-- `SOAPResource` with a `ProviderService`, protocols/nsi2/__init__.py:17-27 -/
  | provider (allowed : Option (List Str))
  /-- `SOAPResource` with a `RequesterService`, protocols/nsi2/__init__.py:39-48; `allowed` as given to `setupSOAPResource` -/
  | requester (allowed : Option (List Str))
  /-- `viewresource.ConnectionListResource` -/
  | view
  /-- `P2PBaseResource`, protocols/rest/__init__.py:6-10 -/
  | rest (allowed : Option (List Str))
  /-- the resource of `NMLService`, topology/service.py:18-38 -/
  | nml (network : Str)
  /-- the resource of `DiscoveryService`, discovery/service.py:72-77 -/
  | discovery
  deriving DecidableEq, Repr

/-- `isLeaf` (soapresource.py:33, modifiableresource.py:22), and `getChild` of `P2PBaseResource` (rest/resource.py:128-129), which answers for any child: the rest of
the path is not looked up in the tree. -/
def Kind.final : Kind → Bool
  | .plain | .view => false
  | _ => true

/-- The tree: what is at which path; the top resource at the empty path. -/
abbrev Tree := List (List Seg × Kind)

/-- `parent.putChild(name, r)`: replaces what was there, with all below it. -/
def putChild (t : Tree) (parent : List Seg) (name : Seg) (k : Kind) : Tree :=
  dset (t.filter fun e => !(parent ++ [name]).isPrefixOf e.1) (parent ++ [name]) k

/-- `b'NSI'`, setup.py:35, soapresource.py:155. -/
def nsi : Seg := .bytes ['N','S','I']
/-- `b'services'`, soapresource.py:155. -/
def services : Seg := .bytes ['s','e','r','v','i','c','e','s']
/-- `b'CS2'`, protocols/nsi2/__init__.py:19. -/
def cs2 : Str := ['C','S','2']
/-- `b'connections'`, protocols/rest/__init__.py:3, and `'connections'`, setup.py:293. -/
def connections : Str := ['c','o','n','n','e','c','t','i','o','n','s']
/-- `b'discovery.xml'`, setup.py:322. -/
def discoveryXml : Str := "discovery.xml".toList

/-- One round of the loop of soapresource.py:159-165. -/
def descend (t : Tree) (parent : List Seg) (name : Seg) : Tree :=
  match dget t (parent ++ [name]) with
  | some _ => t
  | none => putChild t parent name .plain

/-- `setupSOAPResource` with the default path, soapresource.py:145-176; `none` for the AssertionError. -/
def setupSOAPResource (t : Tree) (name : Str) (k : Kind) : Option Tree :=
  let t := descend (descend t [] nsi) [nsi] services
  if dmem t [nsi, services, .bytes name] then none
  else some (putChild t [nsi, services] (.bytes name) k)

/-! ### Requests -/

/-- Value of a hexadecimal digit. -/
def hexVal (c : Char) : Option Nat :=
  if '0' ≤ c ∧ c ≤ '9' then some (c.toNat - '0'.toNat)
  else if 'a' ≤ c ∧ c ≤ 'f' then some (c.toNat - 'a'.toNat + 10)
  else if 'A' ≤ c ∧ c ≤ 'F' then some (c.toNat - 'A'.toNat + 10)
  else none

/-- `unquote` of a part of the path (library). -/
def unquote : Str → Str
  | '%' :: a :: b :: r => match hexVal a, hexVal b with
    | some x, some y => if x * 16 + y < 128 then Char.ofNat (x * 16 + y) :: unquote r else '%' :: unquote (a :: b :: r)
    | _, _ => '%' :: unquote (a :: b :: r)
  | c :: r => c :: unquote r
  | [] => []

/-- The path that a client asks for, given a URL: what follows host and port, up to the query or fragment (library). -/
def urlPath (url : Str) : Str :=
  (((Http.Client.urlScheme url).2.drop 2).dropWhile fun c => !Http.Client.urlDelim c).takeWhile fun c => c != '?' && c != '#'

/-- The parts of the path of a request, unquoted (library: `Request.process`). -/
def parts (path : Str) : List Str := (splitOn '/' (path.drop 1)).map unquote

/-- `getChildForRequest` (library): the resource that answers, or `none` for "no such resource". -/
def walk (t : Tree) : List Seg → Kind → List Str → Option Kind
  | _, k, [] => some k
  | pre, k, s :: ss => if k.final then some k
    else match dget t (pre ++ [.bytes s]) with
      | none => none
      | some k' => walk t (pre ++ [.bytes s]) k' ss

/-- What a request for the path gets to: `none` if there is no such resource, or only a `Resource()` without methods of its own. -/
def served (t : Tree) (path : Str) : Option Kind :=
  match walk t [] .plain (parts path) with
  | some .plain => none
  | r => r

/-! ### Start -/

/-- Exceptions that keep the service from starting. -/
inductive Err
  /-- `setupDatabase`, setup.py:147-148 -/
  | database
  /-- TLS files that cannot be read, setup.py:97-111 -/
  | tls
  /-- the plugin, setup.py:174-182 -/
  | plugin
  /-- `ConfigurationError` -/
  | configuration
  /-- `config.ConfigError` does not exist: AttributeError, setup.py:243 -/
  | attribute
  | nrm (e : Nrm.NrmErr)
  | nml (e : Nml.NmlErr)
  | value | key | type | assertion
  /-- the constructor of a backend raises -/
  | backend
  deriving DecidableEq

/-- What start depends on, besides the configuration. `β` is the type of backend objects. -/
structure Env (β : Type) where
  /-- `socket.getfqdn()`, setup.py:143-144 -/
  fqdn : Str
  /-- whether the database can be set up -/
  database : Bool
  /-- whether a TLS context can be made -/
  tls : Cli.Ctx → Bool
  /-- whether a plugin, other than the one that cannot be imported, can be loaded and initialised -/
  plugin : Option Str → Bool
  /-- lines of a file; `none` if it does not exist -/
  file : Str → Option (List Str)
  /-- constructor of a backend: type, network, ports, configuration; `none` if it raises -/
  construct : Str → Str → List Nrm.Port → List (Str × Str) → Option β
  /-- `connection_manager.canSwapLabel(cnt.ETHERNET_VLAN)` -/
  canSwap : β → Bool
  /-- `hashlib.sha1(text.encode()).hexdigest()` -/
  sha1 : Str → Str
  /-- `opennsa.__version__` -/
  version : Str
  /-- the time of start as text -/
  now : Str

/-- `RequesterClient` as made by `setupRequesterClient`, protocols/nsi2/__init__.py:30-36: URL of the provider, and URL for its replies; with the agent it is for, and the
name of the resource. -/
structure Client where
  agent : Str
  endpoint : Str
  replyTo : Str
  resource : Str
  deriving DecidableEq, Repr

/-- The providers in the registry. -/
inductive Prov (β : Type)
  | backend (b : β)
  | client (c : Client)
  deriving DecidableEq, Repr

/-- A service that is set up. -/
structure State (β : Type) where
  host : Str
  port : Int
  tls : Bool
  /-- given to the TLS listener (setup.py:345-347) and to all HTTP clients -/
  ctx : Cli.Ctx
  policy : List Str
  tree : Tree
  reg : Reg (Prov β)
  lv : LinkVector
  networks : List (Str × β × List Nrm.Port)
  /-- the documents of the networks -/
  docs : List (Str × Wire.Elem)
  /-- what the discovery service was given -/
  about : Discovery.Setup
  /-- the document in the discovery resource -/
  discovery : Wire.Elem
  /-- whether there is a `FetcherService`, setup.py:270-276 -/
  fetcher : Bool

/-- What is known while the backends are set up. -/
structure Partial (β : Type) where
  reg : Reg (Prov β)
  lv : LinkVector
  networks : List (Str × β × List Nrm.Port)

variable {β : Type}

/-- `setupTLSContext`, setup.py:97-113. -/
def tlsContext (vc : Config.Vc) : Cli.Ctx :=
  if Cli.truthy vc.key && Cli.truthy vc.certificate then .twoWay (vc.key.getD []) (vc.certificate.getD []) vc.certdir vc.verify
  else .oneWay (some vc.certdir) vc.verify

/-- The types for which `setupBackend` has a constructor, setup.py:42-84, without `junosspace`. -/
def startedTypes : List Str :=
  [['d','u','d'], ['j','u','n','o','s','m','x'], ['f','o','r','c','e','1','0'], ['j','u','n','i','p','e','r','e','x'], ['j','u','n','i','p','e','r','v','p','l','s'],
   ['b','r','o','c','a','d','e'], ['n','c','s','v','p','n'], ['p','i','c','a','8','o','v','s'], ['j','u','n','o','s','e','x'],
   ['o','e','s','s']]
/-- `BLOCK_JUNOSSPACE`, config.py:35. -/
def spaceType : Str := ['j','u','n','o','s','s','p','a','c','e']
/-- `BLOCK_CUSTOM_BACKEND`, config.py:37. -/
def customType : Str := ['c','u','s','t','o','m','b','a','c','k','e','n','d']
/-- `'module'`, setup.py:87. -/
def kModule : Str := ['m','o','d','u','l','e']

/-- `setupBackend`, setup.py:38-98. A module that cannot be loaded counts as a constructor that raises. That of the type `junosspace` never can: it declares
a class with `zope.interface.implements` (junosspace.py:40, 83), which does not exist for Python 3 (older versions of the library raise TypeError when it is called). -/
def setupBackend (env : Env β) (cfg : List (Str × Str)) (network : Str) (ports : List Nrm.Port) : Except Err β :=
  match dget cfg Config.kType with
  | none => .error .key
  | some t =>
    if t ∈ startedTypes then
      match env.construct t network ports cfg with
      | none => .error .backend
      | some b => .ok b
    else if t = customType then
      match dget cfg kModule with
      | none => .error .key                                                 -- line 87
      | some _ => match env.construct t network ports cfg with
        | none => .error .backend
        | some b => .ok b
    else if t = spaceType then .error .backend                              -- line 75
    else .error .configuration                                              -- line 94

/-- The loop of setup.py:250-257. -/
def addPorts (network : Str) : List Nrm.Port → LinkVector → Except Err LinkVector
  | [], lv => .ok lv
  | p :: ps, lv => match p.remote with
    | none => addPorts network ps lv
    | some r =>
      let s := lv.step (.update network p.name [(r.network, 1)])
      if !s.2 then .error .key
      else if p.vectors ≠ [] then .error .type                              -- line 255: `updateVector` takes three arguments
      else addPorts network ps s.1

/-- `nrmmap`, config.py:50. -/
def nrmPorts (env : Env β) (cfg : List (Str × Str)) : Except Err (List Nrm.Port) :=
  match dget cfg Config.oNrmmap with
  | none => .error .configuration                                           -- lines 236-238
  | some f => match env.file f with
    | none => .error .attribute                                             -- lines 241-244
    | some lines => match Nrm.parsePortSpec lines with
      | .error e => .error (.nrm e)
      | .ok ports => .ok ports

/-- One backend, setup.py:225-267. -/
def addBackend (env : Env β) (domain : Str) (st : Partial β) (name : Str) (cfg : List (Str × Str)) : Except Err (Partial β) :=
  if name = [] then .error .configuration                                   -- lines 227-229
  else
    let network := domain ++ ':' :: name
    match nrmPorts env cfg with
    | .error e => .error e
    | .ok ports =>
      let s := st.lv.step (.addLocal network)                               -- line 249
      if !s.2 then .error .value
      else match addPorts network ports s.1 with
        | .error e => .error e
        | .ok lv => match setupBackend env cfg network ports with
          | .error e => .error e
          | .ok b => match st.reg.addProvider (urnPrefix ++ (domain ++ ":nsa".toList)) network (.backend b) with
            | .error _ => .error .value
            | .ok reg => .ok { reg, lv, networks := dset st.networks network (b, ports) }

/-- The loop over the backends. -/
def addBackends (env : Env β) (domain : Str) : List (Str × List (Str × Str)) → Partial β → Except Err (Partial β)
  | [], st => .ok st
  | (name, cfg) :: r, st => match addBackend env domain st name cfg with
    | .error e => .error e
    | .ok st => addBackends env domain r st

/-- The name of the resource of a network's document, setup.py:305. -/
def nmlName (network : Str) : Str := network ++ ".nml.xml".toList

/-- The documents of the networks, setup.py:304-316. -/
def addDocs (env : Env β) : List (Str × β × List Nrm.Port) → Tree → Except Err (Tree × List (Str × Wire.Elem))
  | [], t => .ok (t, [])
  | (n, b, ports) :: r, t => match Nml.createNMLNetwork ports n n with
    | .error e => .error (.nml e)
    | .ok net => match Nml.topologyXML net env.now (env.canSwap b) with
      | none => .error .key
      | some x => match addDocs env r (putChild t [nsi] (.bytes (nmlName n)) (.nml n)) with
        | .error e => .error e
        | .ok (t, docs) => .ok (t, (n, x) :: docs)

/-- `vc[config.HOST]`, setup.py:140-144. -/
def hostOf (env : Env β) (vc : Config.Vc) : Str := vc.host.getD env.fqdn
/-- `base_url`, setup.py:157-162. -/
def baseUrl (env : Env β) (vc : Config.Vc) : Str :=
  match vc.baseUrl with
  | some (c :: u) => c :: u
  | _ => (if vc.tls then "https://".toList else "http://".toList) ++ hostOf env vc ++ ':' :: showInt vc.port
/-- Truth of `vc[config.PEERS]`. -/
def hasPeers (vc : Config.Vc) : Bool := match vc.peers with | some (_ :: _) => true | _ => false
/-- `cnt.AGGREGATOR`, constants.py:46. -/
def aggregator : Str := ['a','g','g','r','e','g','a','t','o','r']
/-- The policies, setup.py:217-221. -/
def policyOf (vc : Config.Vc) : List Str := if vc.backends = [] ∧ aggregator ∉ vc.policy then vc.policy ++ [aggregator] else vc.policy
/-- What the discovery service is given, setup.py:278-327. -/
def about (env : Env β) (vc : Config.Vc) : Discovery.Setup :=
  { domain := vc.domain, baseUrl := baseUrl env vc, backends := vc.backends.map (·.1), hasPeers := hasPeers vc, rest := vc.rest, version := env.version, now := env.now }

/-- Name of the module plugins/canarie.py. -/
def canarie : Str := ['c','a','n','a','r','i','e']
/-- Whether the module of a plugin can be imported: that of the Canarie plugin cannot, because of `zope.interface.implements` (canarie.py:10, 24), see `setupBackend`. -/
def loads (plugin : Option Str) : Bool := decide (plugin ≠ some canarie)

/-- `setupServiceFactory`, setup.py:130-341. -/
def start (env : Env β) (vc : Config.Vc) : Except Err (State β) :=
  if !env.database then .error .database                                    -- lines 147-148
  else if !env.tls (tlsContext vc) then .error .tls                         -- line 172
  else if !(loads vc.plugin && env.plugin vc.plugin) then .error .plugin                         -- lines 174-182
  else match setupSOAPResource [([], .plain)] cs2 (.provider vc.allowedHosts) with     -- lines 185, 212-213
    | none => .error .assertion
    | some t => match addBackends env vc.domain vc.backends { reg := Reg.new [cs2ServiceType], lv := LinkVector.new [] 5, networks := [] } with
      | .error e => .error e
      | .ok p =>
        let t := putChild t [nsi] (.text connections) .view                 -- lines 292-293
        let t := if vc.rest then putChild t [] (.bytes connections) (.rest vc.allowedHosts) else t     -- lines 296-302
        match addDocs env p.networks t with
        | .error e => .error e
        | .ok (t, docs) => match ((about env vc).service p.reg.urns p.lv).xml with
          | none => .error .key                                             -- line 329: discovery/service.py:48
          | some x => .ok
              { host := hostOf env vc, port := vc.port, tls := vc.tls, ctx := tlsContext vc, policy := policyOf vc
                tree := putChild t [nsi] (.bytes discoveryXml) .discovery   -- lines 330-331
                reg := p.reg, lv := p.lv, networks := p.networks, docs, about := about env vc, discovery := x, fetcher := hasPeers vc }

/-! ### Discovery documents of peers -/

/-- `b'RequesterService2-' + sha1`, setup.py:127-129. -/
def resourceName (env : Env β) (urn endpoint : Str) : Str := "RequesterService2-".toList ++ env.sha1 (urn ++ endpoint)

/-- `service_url`, protocols/nsi2/__init__.py:32-33. -/
def replyUrl (tls : Bool) (host : Str) (port : Int) (name : Str) : Str :=
  (if tls then "https://".toList else "http://".toList) ++ host ++ ':' :: showInt port ++ "/NSI/services/".toList ++ name

/-- `CS2RequesterCreator.create`, setup.py:126-131, with `setupRequesterPair`, protocols/nsi2/__init__.py:39-48; `none` for the AssertionError. No
`allowed_hosts` are given. -/
def create (env : Env β) (st : State β) (t : Tree) (urn endpoint : Str) : Option (Tree × Client) :=
  let name := resourceName env urn endpoint
  (setupSOAPResource t name (.requester none)).map fun t => (t, ⟨urn, endpoint, replyUrl st.tls st.host st.port name, name⟩)

/-- The loop of fetcher.py:91-92, with `spawnProvider` (provreg.py:59-86), which calls the factory only for a network and an agent that are not known. The Boolean is false
if a call raised. -/
def spawnNets (env : Env β) (st : State β) (agent : Agent) (endpoint : Str) : List Str → Tree → Reg (Prov β) → Tree × Reg (Prov β) × Bool
  | [], t, r => (t, r, true)
  | n :: ns, t, r =>
    let c := create env st t agent.urn endpoint
    match r.spawnProvider agent n (c.map fun c => .client c.2) with
    | .error _ => (t, r, false)
    | .ok (r', _) =>
      let called := !dmem r.providers n && decide (agent.urn ∉ r.urns.map (·.2))
      spawnNets env st agent endpoint ns (if called then (c.map (·.1)).getD t else t) r'

/-- The networks as the fetcher reads them. -/
def State.ports (st : State β) : Ports := st.networks.map fun n => (n.1, n.2.2.map fun p => (p.name, p.remote.map (·.network)))

/-- `discovery_resource.updateResource(ds.xml())`, setup.py:332-333. An exception does not occur (`C79_current`). -/
def State.publish (st : State β) : State β :=
  match (st.about.service st.reg.urns st.lv).xml with
  | none => st
  | some x => { st with discovery := x }

/-- A peer's document, fetcher.py:64-120. The document is published again whenever `updateVector` was called (setup.py:332, linkvector.py:103); the last time counts. -/
def learn (env : Env β) (st : State β) (d : Doc) : State β :=
  if !st.fetcher then st else
  match d.interfaces with
  | none => st
  | some interfaces => match serviceUrl interfaces with
    | none => st
    | some url => match baseNames d.networkIds with
      | none => st
      | some nets => match baseName d.id with
        | none => st
        | some ident =>
          let (tree, reg, ok) := spawnNets env st ⟨urnPrefix ++ ident, cs2ServiceType⟩ (strip url) nets st.tree st.reg
          if !ok then { st with tree, reg }
          else match vectorsOf d.reach nets with
            | none => { st with tree, reg }
            | some vec =>
              if vec = [] ∨ facing nets st.ports = [] then { st with tree, reg }
              else { st with tree, reg, lv := updateAll vec (facing nets st.ports) st.lv }.publish

/-- Documents one after the other. -/
def learnAll (env : Env β) (st : State β) (ds : List Doc) : State β := ds.foldl (learn env) st

/-! ### Services of the process -/

/-- The services below `OpenNSAService` (a `MultiService`): listener and fetcher. Whether each is running. -/
structure Procs where
  listener : Bool
  fetcher : Option Bool
  self : Bool
  deriving DecidableEq, Repr

/-- `startService`, setup.py:343-356: `MultiService.startService` starts all. -/
def startService (st : State β) : Procs := { listener := true, fetcher := if st.fetcher then some true else none, self := true }

/-- `stopService`, setup.py:358-359: `Service.stopService`, not that of `MultiService`, so that only the flag of the service itself is changed. -/
def stopService (p : Procs) : Procs := { p with self := false }

end OpenNSA.Setup
