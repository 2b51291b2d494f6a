import Verif.PyLemmas
import Verif.Stp.Model
/-
Model of the command line client: /repo/onsa, /repo/opennsa/cli/options.py, /repo/opennsa/cli/parser.py,
/repo/opennsa/cli/commands.py, and of what /repo/opennsa/opennsaTlsContext.py does with the options concerning certificates.

Not modelled: the option syntax (`twisted.python.usage`: the values given on the command line are the input), log output other
than the messages that tell the result, and how query results are printed.
-/
namespace OpenNSA.Cli

/-- UTC, microseconds. -/
abbrev Instant := Int

open OpenNSA Py

/-! ### The defaults file -/

/-- Option names, options.py:14-48 (config.py for those of TLS). -/
def kHost : Str := ['h','o','s','t']
/-- options.py:18 -/
def kPort : Str := ['p','o','r','t']
/-- options.py:22 -/
def kService : Str := ['s','e','r','v','i','c','e']
/-- options.py:23 -/
def kAuthz : Str := ['a','u','t','h','z','h','e','a','d','e','r']
/-- options.py:24 -/
def kRequester : Str := ['r','e','q','u','e','s','t','e','r']
/-- options.py:25 -/
def kProvider : Str := ['p','r','o','v','i','d','e','r']
/-- options.py:28 -/
def kCid : Str := ['c','o','n','n','e','c','t','i','o','n','-','i','d']
/-- options.py:29 -/
def kGid : Str := ['g','l','o','b','a','l','-','i','d']
/-- options.py:31 -/
def kSource : Str := ['s','o','u','r','c','e']
/-- options.py:32 -/
def kDest : Str := ['d','e','s','t']
/-- options.py:33 -/
def kBandwidth : Str := ['b','a','n','d','w','i','d','t','h']
/-- options.py:34 -/
def kStart : Str := ['s','t','a','r','t','t','i','m','e']
/-- options.py:35 -/
def kEnd : Str := ['e','n','d','t','i','m','e']
/-- options.py:38 -/
def kTls : Str := ['t','l','s']
/-- options.py:39 -/
def kKey : Str := ['k','e','y']
/-- options.py:40 -/
def kCertificate : Str := ['c','e','r','t','i','f','i','c','a','t','e']
/-- options.py:41 -/
def kCertdir : Str := ['c','e','r','t','d','i','r']
/-- options.py:42 -/
def kNoVerify : Str := ['n','o','-','v','e','r','i','f','y']
/-- options.py:48 -/
def kNsa : Str := ['n','s','a']

/-- Values of options. -/
inductive DVal
  | text (t : Str)
  | int (n : Int)
  | flag (b : Bool)
  | time (t : Instant)
  deriving DecidableEq, Repr

/-- `datetime` and the clock: `strptime` with format `%Y-%m-%dT%H:%M:%S` (`none`: ValueError), and the UTC time so many seconds
from now (`none`: out of range). -/
structure Clock where
  strptime : Str → Option Instant
  after : Int → Option Instant

/-- `parseTimestamp`, options.py:51-58. `none`: exception. -/
def parseTimestamp (ck : Clock) (value : Str) : Option Instant :=
  match value with
  | '+' :: rest => (pyInt rest).bind ck.after           -- lines 52-54
  | _ => ck.strptime value                              -- line 56

/-- The result of `readDefaults`: the dictionary without its entry `nsa`, and that entry. -/
structure Defaults where
  vals : List (Str × DVal) := []
  nsa : Option (List (Str × (Str × Str))) := none
  deriving DecidableEq, Repr

/-- Words for false, options.py:88. -/
def isNo (value : Str) : Bool :=
  [['f','a','l','s','e'], ['n','o'], ['0']].contains (value.map Char.toLower)

/-- The value of an option, options.py:80-88. `none`: exception. -/
def convert (ck : Clock) (option value : Str) : Option DVal :=
  if option = kStart ∨ option = kEnd then (parseTimestamp ck value).map .time     -- lines 81-82
  else if option = kPort ∨ option = kBandwidth then (pyInt value).map .int        -- lines 84-85
  else if option = kTls ∨ option = kNoVerify then some (.flag (!isNo value))      -- lines 87-88
  else some (.text value)

/-- One line of the file, options.py:66-90. An exception leaves the dictionary as it is (lines 93-94). `split('=', 2)` gives up to
three parts, so that a second `=` raises ValueError; likewise a third `,` in line 76. -/
def readLine (ck : Clock) (d : Defaults) (line : Str) : Defaults :=
  let line := strip line
  if line = [] ∨ line.head? = some '#' then d                                     -- lines 69-70
  else match splitOn '=' line with                                                -- line 72
    | [option, value] =>
      if option = kNsa then                                                       -- lines 75-78
        match splitOn ',' value with
        | [shorthand, nsaId, url] => { d with nsa := some (dset (d.nsa.getD []) shorthand (nsaId, url)) }
        | _ => d
      else match convert ck option value with
        | some v => { d with vals := dset d.vals option v }                       -- line 90
        | none => d
    | _ => d

/-- `readDefaults`, options.py:61-96. -/
def readDefaults (ck : Clock) (lines : List Str) : Defaults := lines.foldl (readLine ck) {}

/-! ### Security attributes -/

/-- Exceptions. -/
inductive Exc
  | usage                    -- UsageError
  | attribute                -- AttributeError
  | stp (e : StpErr)         -- of `_createSTP`
  | nsi                      -- an NSIError
  | other                    -- CallbackTimeoutError, errors of the HTTP client, …
  deriving DecidableEq, Repr

/-- The loop of `SecurityAttributeOptions.postOptions`, parser.py:127-131. -/
def attrLoop : List Str → Except Exc (List (Str × Str))
  | [] => .ok []
  | kv :: rest =>
    match cutFirst '=' kv with
    | none => .error .usage                                                       -- lines 128-129
    | some (k, v) => (attrLoop rest).map ((k, v) :: ·)

/-- `SecurityAttributeOptions.postOptions`, parser.py:124-132. -/
def attributes : Option Str → Except Exc (List (Str × Str))
  | none => .ok []
  | some [] => .ok []
  | some t => attrLoop (splitOn ',' t)

/-! ### Options of a command -/

/-- The values given on the command line, parser.py. -/
structure Opts where
  host : Option Str := none
  port : Option Int := none
  service : Option Str := none
  authz : Option Str := none
  provider : Option Str := none
  requester : Option Str := none
  cid : Option Str := none
  gid : Option Str := none
  source : Option Str := none
  dest : Option Str := none
  start : Option Instant := none
  end_ : Option Instant := none
  bandwidth : Option Str := none
  ero : Option Str := none
  attrs : Option Str := none
  certificate : Option Str := none
  key : Option Str := none
  certdir : Option Str := none
  tls : Bool := false
  noVerify : Bool := false
  wait : Bool := false
  deriving DecidableEq, Repr

/-- The commands, parser.py:216-227. -/
inductive Command
  | reserve | reserveonly | reservecommit | reserveprovision | rprt | provision | release | terminate | query | queryrec
  deriving DecidableEq, Repr

/-- A default that is a text (those of text options always are). -/
def Defaults.text (d : Defaults) (k : Str) : Option Str :=
  match dget d.vals k with
  | some (.text t) => some t
  | _ => none

/-- A default that is a number. -/
def Defaults.int (d : Defaults) (k : Str) : Option Int :=
  match dget d.vals k with
  | some (.int n) => some n
  | _ => none

/-- A default that is a flag. -/
def Defaults.flag (d : Defaults) (k : Str) : Option Bool :=
  match dget d.vals k with
  | some (.flag b) => some b
  | _ => none

/-- A default that is a time. -/
def Defaults.time (d : Defaults) (k : Str) : Option Instant :=
  match dget d.vals k with
  | some (.time t) => some t
  | _ => none

/-- `a or b`, Python, for texts that may be None. -/
def orText : Option Str → Option Str → Option Str
  | some (c :: cs), _ => some (c :: cs)
  | _, b => b

/-- `a or b`, for numbers. -/
def orInt : Option Int → Option Int → Option Int
  | some n, b => if n = 0 then b else some n
  | none, b => b

/-- Truth of a text that may be None. -/
def truthy : Option Str → Bool
  | some (_ :: _) => true
  | _ => false

/-- `opennsaTlsContext` and `opennsa2WayTlsContext`, opennsaTlsContext.py. -/
inductive Ctx
  | oneWay (certdir : Option Str) (verify : Bool)
  | twoWay (key certificate certdir : Str) (verify : Bool)
  deriving DecidableEq, Repr

/-- What a command is called with, onsa:78-181. -/
structure Plan where
  provider : Str
  service : Str
  requester : Str
  authz : Option Str
  attrs : List (Str × Str)
  cid : Option Str
  gid : Option Str
  tls : Bool
  host : Str
  port : Int
  ctx : Option Ctx
  source : Option Str
  dest : Option Str
  start : Option Instant
  end_ : Option Instant
  /-- text on the command line, number in the defaults file -/
  bandwidth : Option (Str ⊕ Int)
  ero : Option Str
  wait : Bool
  deriving DecidableEq, Repr

/-- Provider and service URL, onsa:79-85. -/
def pickProvider (o : Opts) (d : Defaults) : Option Str × Option Str :=
  match d.nsa, o.provider with
  | some m, some p =>
    match dget m p with
    | some (n, u) => (some n, some u)
    | none => (orText o.provider (d.text kProvider), orText o.service (d.text kService))
  | _, _ => (orText o.provider (d.text kProvider), orText o.service (d.text kService))

/-- Whether certificates are verified, onsa:123-129. -/
def verifyCert (o : Opts) (d : Defaults) : Bool :=
  if o.noVerify then false
  else match d.flag kNoVerify with
    | none => true
    | some b => b

/-- The text ".". -/
def dot : Option Str := some ['.']

/-- The TLS context, onsa:119-151. -/
def pickCtx (o : Opts) (d : Defaults) (tls : Bool) : Except Exc (Option Ctx) :=
  let pub := orText o.certificate (d.text kCertificate)
  let priv := orText o.key (d.text kKey)
  let dir := orText o.certdir (d.text kCertdir)
  let ctx : Except Exc (Option Ctx) :=
    if truthy pub || truthy priv || truthy dir then                               -- line 132
      if pub = dot ∧ priv = dot then .ok (some (.oneWay dir (verifyCert o d)))    -- lines 134-136
      else if truthy pub && truthy priv && truthy dir then                        -- lines 137-139
        .ok (some (.twoWay (priv.getD []) (pub.getD []) (dir.getD []) (verifyCert o d)))
      else if tls then .error .usage                                              -- lines 140-146
      else .ok none
    else .ok none
  match ctx with
  | .error e => .error e
  | .ok c => if tls && c.isNone then .error .usage else .ok c                     -- lines 150-151

/-- Commands that make a reservation, onsa:158. -/
def Command.reserves : Command → Bool
  | .reserve | .reserveonly | .reserveprovision | .rprt => true
  | _ => false

/-- Commands that must have a connection id, onsa:176. -/
def Command.needsId : Command → Bool
  | .provision | .release | .terminate => true
  | _ => false

/-- The options required by commands, onsa:158-177. -/
def checkOpts (c : Command) (o : Opts) (d : Defaults) (cid : Option Str) : Except Exc Unit :=
  if c.reserves then
    if (orText o.source (d.text kSource)).isNone then .error .usage
    else if (orText o.dest (d.text kDest)).isNone then .error .usage
    else if ¬ truthy o.bandwidth ∧ (d.int kBandwidth).isNone then .error .usage
    else .ok ()
  else if c.needsId && cid.isNone then .error .usage
  else .ok ()

/-- `getHostname`, onsa:20-33, opens a socket: `hostname url`, `none` if that fails (also if the URL has no port, nsa.py:300-304).

`doMain` up to the creation of the client, onsa:79-177. -/
def plan (hostname : Str → Option Str) (c : Command) (o : Opts) (d : Defaults) : Except Exc Plan :=
  match attributes o.attrs with                                                   -- parser.py:124-132
  | .error e => .error e
  | .ok attrs =>
    let (provider?, service?) := pickProvider o d
    let cid := orText o.cid (d.text kCid)
    match service?, provider? with
    | none, _ => .error .usage                                                    -- lines 98-99
    | some _, none => .error .usage                                               -- lines 100-101
    | some service, some provider =>
      let tls := o.tls || (d.flag kTls).getD false                                -- line 105
      match (match orText o.host (d.text kHost) with
          | some (h :: hs) => some (h :: hs)
          | _ => hostname service) with                                           -- line 107
      | none => .error .other
      | some host =>
        let port := ((orInt (orInt o.port (d.int kPort)) (some (if tls then 7443 else 7080)))).getD 0    -- line 108
        match pickCtx o d tls with
        | .error e => .error e
        | .ok ctx =>
          match checkOpts c o d cid with
          | .error e => .error e
          | .ok () => .ok {
              provider, service, attrs, cid, tls, host, port, ctx
              requester := (orText (orText o.requester (d.text kRequester)) (some ['O','p','e','n','N','S','A','-','C','L','I'])).getD []  -- line 87
              authz := orText o.authz (d.text kAuthz)
              gid := orText o.gid (d.text kGid)
              source := orText o.source (d.text kSource)
              dest := orText o.dest (d.text kDest)
              start := match o.start with | some t => some t | none => d.time kStart                     -- line 167
              end_ := match o.end_ with | some t => some t | none => d.time kEnd
              bandwidth := match o.bandwidth with
                | some (b :: bs) => some (.inl (b :: bs))
                | _ => (d.int kBandwidth).map .inr                                -- line 170
              ero := orText o.ero none
              wait := o.wait }

/-- The listener for replies, onsa:184-187. `listenSSL` asks the context factory for its context; `opennsaTlsContext.getContext`
(opennsaTlsContext.py:68-71) reads `self.ctx`, which only `opennsa2WayTlsContext` has (line 117). -/
def listen (p : Plan) : Except Exc Unit :=
  if p.tls then
    match p.ctx with
    | some (.oneWay _ _) => .error .attribute
    | _ => .ok ()
  else .ok ()

/-- Whether the listener accepts a client whose certificate OpenSSL has or has not found valid: `verify_callback`,
opennsaTlsContext.py:77-82. -/
def Ctx.accepts (c : Ctx) (valid : Bool) : Bool :=
  match c with
  | .oneWay _ verify | .twoWay _ _ _ verify => if verify then valid else true

/-! ### Commands -/

/-- What is reserved: nsa.Criteria with nsa.Point2PointService, commands.py:44-49, 94-96. -/
structure Criteria where
  src : STP
  dst : STP
  capacity : Option (Str ⊕ Int)
  ero : Option (List STP)
  start : Option Instant
  end_ : Option Instant

/-- Requests to the provider. -/
inductive Op
  | reserve (cid gid : Option Str) (c : Criteria)
  | reserveCommit (cid : Option Str)
  | provision (cid : Option Str)
  | release (cid : Option Str)
  | terminate (cid : Option Str)
  | querySummary (cids gids : Option (List Str))
  | queryRecursive (cids gids : Option (List Str))

/-- A request sent: correlation id, connection trace, request. -/
structure Sent where
  corr : Str
  trace : Option (List Str)
  op : Op

/-- Messages to the user. -/
inductive Line
  | held (cid : Str)
  | committed
  | provisioned (cid : Str)
  | released (cid : Str)
  | terminated (cid : Str)
  | error
  | noWait                       -- "Notification wait not added to … yet"
  | results                      -- query results, or that there are none
  deriving DecidableEq, Repr

/-- Provider, network and requester (C42): what a request ends with, depending on all requests so far, latest first. A reservation
yields the connection id of the reservation confirmed. -/
structure Client where
  reserve : List Sent → Except Exc Str
  other : List Sent → Except Exc Unit

/-- State of a command: requests sent so far (latest first), the header's correlation id and trace, number of ids generated,
messages to the user (latest first). -/
structure St where
  sent : List Sent := []
  corr : Str
  trace : Option (List Str) := none
  used : Nat
  log : List Line := []

/-- A piece of a command. `ids`: the correlation ids uuid1 yields. -/
def Act (α : Type) : Type := (ids : Nat → Str) → Client → St → St × Except Exc α

/-- Sequence. -/
def Act.bind {α β : Type} (a : Act α) (f : α → Act β) : Act β := fun ids cl s =>
  match a ids cl s with
  | (s', .ok x) => f x ids cl s'
  | (s', .error e) => (s', .error e)

instance : Monad Act where
  pure x := fun _ _ s => (s, .ok x)
  bind := Act.bind

/-- Send a request and await its result. -/
def send (op : Op) : Act Unit := fun _ cl s =>
  let sent := ⟨s.corr, s.trace, op⟩ :: s.sent
  ({ s with sent }, cl.other sent)

/-- `client.reserve`. -/
def sendReserve (cid gid : Option Str) (c : Criteria) : Act Str := fun _ cl s =>
  let sent := ⟨s.corr, s.trace, .reserve cid gid c⟩ :: s.sent
  ({ s with sent }, cl.reserve sent)

/-- `nsi_header.connection_trace = …` -/
def setTrace (t : Option (List Str)) : Act Unit := fun _ _ s => ({ s with trace := t }, .ok ())

/-- `newCorrelationId`, nsa.py:43-44. -/
def newCorr : Act Unit := fun ids _ s => ({ s with corr := ids s.used, used := s.used + 1 }, .ok ())

/-- `log.msg`. -/
def say (l : Line) : Act Unit := fun _ _ s => ({ s with log := l :: s.log }, .ok ())

/-- `except error.NSIError as e: _logError(e)`. -/
def catchNsi (a : Act Unit) : Act Unit := fun ids cl s =>
  match a ids cl s with
  | (s', .error .nsi) => ({ s' with log := .error :: s'.log }, .ok ())
  | r => r

/-- Raise or return. -/
def ofStp {α : Type} (x : Except StpErr α) : Act α := fun _ _ s =>
  match x with
  | .ok a => (s, .ok a)
  | .error e => (s, .error (.stp e))

/-- The list comprehension of `_createSTPList`. -/
def stpList : List Str → Except StpErr (List STP)
  | [] => .ok []
  | t :: ts =>
    match cliCreateSTP (strip t) with
    | .error e => .error e
    | .ok s => (stpList ts).map (s :: ·)

/-- `_createSTPList`, commands.py:33-41. -/
def createSTPList : Option Str → Except StpErr (Option (List STP))
  | none => .ok none
  | some t => (stpList (splitOn ',' t)).map some

/-- Schedule, `_createP2PS` and Criteria, commands.py:44-49, 94-96. Source and destination are never None here (`checkOpts`). -/
def criteria (p : Plan) : Except StpErr Criteria :=
  match cliCreateSTP (p.source.getD []) with
  | .error e => .error e
  | .ok src =>
    match cliCreateSTP (p.dest.getD []) with
    | .error e => .error e
    | .ok dst =>
      match createSTPList p.ero with
      | .error e => .error e
      | .ok ero => .ok { src, dst, capacity := p.bandwidth, ero, start := p.start, end_ := p.end_ }

/-- `[ nsi_header.requester_nsa + ':' + '1' ]`; the requester's URN is its identity after the prefix, nsa.py:307-309. -/
def firstTrace (p : Plan) : Option (List Str) := some [urnPrefix ++ p.requester ++ [':', '1']]

/-- `reserveonly`, commands.py:93-108. -/
def reserveonly (p : Plan) : Act Unit := do
  let crt ← ofStp (criteria p)
  catchNsi do
    setTrace (firstTrace p)
    let cid ← sendReserve p.cid p.gid crt
    setTrace none
    say (.held cid)

/-- `reserve`, commands.py:112-132. -/
def reserve (p : Plan) : Act Unit := do
  let crt ← ofStp (criteria p)
  catchNsi do
    setTrace (firstTrace p)
    let cid ← sendReserve p.cid p.gid crt
    setTrace none
    say (.held cid)
    newCorr
    send (.reserveCommit (some cid))
    say .committed

/-- `reserveprovision` up to the notifications, commands.py:136-164, 171-172. -/
def reserveprovision (p : Plan) : Act Unit := do
  let crt ← ofStp (criteria p)
  catchNsi do
    setTrace (firstTrace p)
    let cid ← sendReserve p.cid p.gid crt
    setTrace (some [])
    say (.held cid)
    newCorr
    send (.reserveCommit (some cid))
    say .committed
    newCorr
    send (.querySummary (some [cid]) none)
    say .results
    newCorr
    send (.provision (some cid))
    say (.provisioned cid)

/-- `rprt`, commands.py:176-212. -/
def rprt (p : Plan) : Act Unit := do
  let crt ← ofStp (criteria p)
  catchNsi do
    setTrace (firstTrace p)
    let cid ← sendReserve p.cid p.gid crt
    setTrace (some [])
    say (.held cid)
    newCorr
    send (.reserveCommit (some cid))
    say .committed
    newCorr
    send (.provision (some cid))
    say (.provisioned cid)
    newCorr
    send (.release (some cid))
    say (.released cid)
    newCorr
    send (.terminate (some cid))
    say (.terminated cid)

/-- `reservecommit`, commands.py:216-222. -/
def reservecommit (p : Plan) : Act Unit := catchNsi do
  send (.reserveCommit p.cid)
  say .committed

/-- `provision`, commands.py:226-234. -/
def provision (p : Plan) : Act Unit := do
  catchNsi do
    send (.provision p.cid)
    say (.provisioned (p.cid.getD []))
  if p.wait then say .noWait else pure ()

/-- `release`, commands.py:238-246. -/
def release (p : Plan) : Act Unit := do
  catchNsi do
    send (.release p.cid)
    say (.released (p.cid.getD []))
  if p.wait then say .noWait else pure ()

/-- `terminate`, commands.py:250-255. -/
def terminate (p : Plan) : Act Unit := catchNsi do
  send (.terminate p.cid)
  say (.terminated (p.cid.getD []))

/-- `[x] if x else None`, onsa:220-221. -/
def single : Option Str → Option (List Str)
  | some (c :: cs) => some [c :: cs]
  | _ => none

/-- `querySummary`, commands.py:297-311. -/
def querySummary (p : Plan) : Act Unit := catchNsi do
  send (.querySummary (single p.cid) (single p.gid))
  say .results

/-- `queryRecursive`, commands.py:314-327. -/
def queryRecursive (p : Plan) : Act Unit := catchNsi do
  send (.queryRecursive (single p.cid) (single p.gid))
  say .results

/-- The dispatch, onsa:191-227. -/
def dispatch : Command → Plan → Act Unit
  | .reserve => reserve
  | .reserveonly => reserveonly
  | .reserveprovision => reserveprovision
  | .rprt => rprt
  | .reservecommit => reservecommit
  | .provision => provision
  | .release => release
  | .terminate => terminate
  | .query => querySummary
  | .queryrec => queryRecursive

/-- A command, with the header created in onsa:115-116. -/
def run (c : Command) (p : Plan) (ids : Nat → Str) (cl : Client) : St × Except Exc Unit :=
  dispatch c p ids cl { corr := ids 0, used := 1 }

/-! ### Notifications -/

/-- What is put into `client.notifications`, requester.py:222-243. -/
inductive Event
  | errorEvent (cid : Str)
  | dataPlane (cid : Str) (active consistent : Bool)
  | other
  deriving DecidableEq, Repr

/-- `_handleEvent`, commands.py:52-70: whether to exit. -/
def handleEvent : Event → Bool
  | .errorEvent _ => true
  | .dataPlane _ active consistent => if active then false else consistent
  | .other => false

/-- The loop of `reserveprovision`, commands.py:166-170: whether it has ended after these events, and how many it has read. -/
def waitLoop : List Event → Bool × Nat
  | [] => (false, 0)
  | e :: es => if handleEvent e then (true, 1) else ((waitLoop es).1, (waitLoop es).2 + 1)

end OpenNSA.Cli
