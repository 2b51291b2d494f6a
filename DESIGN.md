# Formal model of OpenNSA (NORDUnet/opennsa) in Lean 4

Sources are in `/repo` (Python, Twisted). They are read as text only; nothing is run.
The model is in `lean/Verif/`, one directory per source area. Every definition cites the file and lines it models.
Layout per area `X`:

* `Verif/X/Model.lean`  - functions mirroring the Python code, branch by branch, exceptions as values;
* `Verif/X/Spec.lean`   - small independent specification vocabulary (sets, intervals, walks, chains, grammars) where one is needed;
* `Verif/X/Lemmas.lean` and others - helper lemmas and invariants;
* `Verif/X/Props*.lean` - the property theorems `Cnn_...`, each beside an `example` meeting its hypotheses.

Only theorems named `Cnn_...` are claims; `MANIFEST.json` lists them per property. `Verif/Axioms.lean` prints the axioms of each.
`tools/gen.py` regenerates `MANIFEST.json`, `Verif.lean`, `Verif/Axioms.lean` and the list of findings below from the sources and from
`tools/status.py` (status and note per property).

## Conventions

* Python `int` is `Int`; `datetime` is an `Int` number of microseconds; `None` is `Option`; text is `List Char` (`Py.Str`).
* `dict` is an association list with insert-or-replace in place (Python dicts keep insertion order).
* Exceptions are `Except Err`, with one constructor per Python exception class that some caller distinguishes.
* Random numbers, generated ids, answers of devices and peers, durations and failures of database operations come from an *oracle*: an argument
  that theorems quantify over.
* A property that the code violates is proved as a negation with a concrete witness (`..._fails`), beside theorems giving the part that
  holds (`..._partial` if a hypothesis cuts away part of the stated property; the manifest note says what is missing).

## Asynchrony

The code consists of Twisted coroutines (`inlineCallbacks`). A coroutine body is a tree of commands, `Coro C ε α` (`Verif/Coro.lean`; the backend
has its own copy `Backend.Prog`): issue a command, go on with its result or its exception. There are two ways to execute it:

* **to completion** (`Coro.run`, `Agg.step`, `Backend.step`): the properties then speak of *completed operations* or *messages handled one after the
  other*;
* **interleaved** (`Conc.step`, `Backend.Conc`): a coroutine runs up to a suspending command. At some later moment the command is executed (`perform`),
  at some still later moment its result is delivered (`resume`). A schedule (an arbitrary list of choices) decides. Python code between two
  `yield`s is atomic, as in Twisted.

Database rows are separate from the row objects in memory (`cheap`, `sheap`, `Backend.World.heap`): `save` writes the attributes the object has when it is
executed, and two objects may stand for one row. This is what makes lost updates (C27, C28, C30, C36) expressible.

Simplifications: reading an object's attributes and writing the row is one step; a `DeferredList` of database operations is one command; the order in which
coroutines spawned by one handler start is the order of the calls; at a restart of the backend, database commands under way are executed before it or
not at all, while the device may still execute what it was given (`Task.orphan`); cancelling a running scheduled call continues that coroutine at some later
moment instead of within `cancelCall`.

## Areas

| area | source | model | properties |
|------|--------|-------|------------|
| `Label` | nsa.py `Label` | parser over characters, canonical ranges, intersection, enumeration, random value | C01-C06 |
| `Stp` | nsa.py `STP`, protocols/nsi2/helper.py, cli/parser.py | URNs, command line arguments | C07, C56 |
| `State` | state.py | transition tables, setters, observers | C08, C49 |
| `Calendar` | backends/common/calendar.py | list of reservations | C09-C11 |
| `Scheduler` | backends/common/scheduler.py | table of calls, clock | C12 |
| `LinkVector` | topology/linkvector.py | vectors, Dijkstra, path search with fuel | C13-C16 |
| `Authz` | authz.py | rules, credentials | C17 |
| `Backend` | backends/common/genericbackend.py | all requests, timers, restart; atomic and interleaved | C18-C27, C40, C54, C74, C75 |
| `Agg` | aggregator.py | all requests, replies and queries; atomic and interleaved | C28-C40, C55, C57, C58 |
| `Registry` | provreg.py, setup.py, discovery/fetcher.py | registrations | C43 |
| `Requester` | protocols/nsi2/requester.py | table of calls, timers | C42 |
| `Provider` | protocols/nsi2/provider.py | table of notifications | C41 |
| `Wire` | protocols/nsi2/bindings/*, requesterclient/-service, providerclient/-service, protocols/shared/*, error.py | XML trees, headers, times, errors, messages; actions, decoders and the calls they make; validity against the schema of the standard (`Schema`) | C44-C47, C59-C61, C81, C95 |
| `Http` | protocols/shared/{soapresource,requestauthz,httpclient}.py, shared/modifiableresource.py, protocols/rest/resource.py, requesterclient.py (`_handleErrorReply`), discovery/fetcher.py (rounds) | access list, conditional GET, HTTP dates; outgoing requests | C51, C52, C78 |
| `Rest` | protocols/rest/resource.py | creation, description, automatic commit and provision | C50, C62 |
| `Discovery` | discovery/{fetcher,service,bindings/discovery}.py, setup.py | documents to vectors; the published document | C53, C63, C96 |
| `Nrm` | topology/nrm.py | port specification files | C48 |
| `Nml` | topology/nml.py, topology/nmlxml.py | the published topology and its reader; the database of networks | C64, C96, C100 |
| `Plugin` | plugin.py, plugins/*.py | the pruner, connection ids | C68, C70 |
| `Config` | config.py | sections and options to the verified configuration | C69 |
| `Device` | backends/*.py except common | names of resources, targets, which ends can be connected; commands for JunOS, Brocade and Pica8 and the configuration they leave behind; the text of the commands and what the device reads; requests to Junos Space and OESS | C65, C66, C67, C71, C98 |
| `Ssh` | backends/*.py (`SSHChannel`, command senders), common/ssh.py | sessions with a device, packet by packet; connections, channels and the lock of the senders; host keys and credentials | C72, C73, C92 |
| `Setup` | setup.py, protocols/{nsi2,rest}/__init__.py, soapresource.py (`setupSOAPResource`), discovery/fetcher.py | start of the service; the tree of resources and requests for paths; documents of peers | C53, C79, C80 |
| `Db` | database.py, datafiles/schema.sql | statements that are made of requests, what the server reads, constraints, what is read back | C82 |
| `Criteria` | aggregator.py, genericbackend.py | a reservation from the message of the requester through database, requests for segments, confirmation and query results | C83 |
| `Backend` (Trace*), `Device/PropsTrace` | genericbackend.py, backends/*.py | the operations a backend makes on its device in the course of a history, and the configuration they leave | C84 |
| `Backend` (Lively*) | genericbackend.py, scheduler.py | the call that every live connection has scheduled; up from start to end | C88 |
| `Backend` (Up*, Query), `Joint` (PropsUp) | genericbackend.py, aggregator.py | reports of the data plane; queries | C99 |
| `Tls` | opennsaTlsContext.py, setup.py | whom the service trusts | C101 |
| `View` | viewresource.py | the page of connections | C102 |
| `Backend` (Crash*) | genericbackend.py | restart from an arbitrary database; crashes in the middle of operations | C89 |
| `Agg` (Causes*) | aggregator.py | history of received messages; causes of what is told to requesters | C90 |
| `Agg` (Booking, Life) | aggregator.py | the life of one connection among others, from the request to its end | C93 |
| `Agg` (Own*) | aggregator.py | one connection while messages about others are handled at the same time | C94 |
| `Access` | soapresource.py, requestauthz.py, requestinfo.py, aggregator.py, genericbackend.py, authz.py | what a request brings along to be let in to a port, from the HTTP request to the link | C85 |
| `Joint` | aggregator.py, genericbackend.py, setup.py | the aggregator together with its local backends: calls one way, messages the other | C86, C87 |
| `Front` | nsi2/provider.py, aggregator.py | requests from the wire, the provider side of the protocol, the aggregator and the backends together | C91 |
| `Cli` | onsa, cli/*.py, opennsaTlsContext.py | defaults file, options, TLS context; the course of each command; the output of queries | C76, C77, C97 |

### Backend

`Backend.World` holds rows, row objects, calendar, scheduled calls, links that are up on the device, messages to the parent, clock. One event is a request,
a timer, the passing of time or a restart (`Backend.Ev`). Every invariant (`Inv`) is proved for each event.

`CleanStep` (Backend/Spec.lean) excludes the incidents after which the calendar or timers are known to be wrong, each of which is a finding:
a generated connection id that is in use already (C22_collision_fails), a failing call to the parent during terminate, after which a retry removes entries of others
(C22_retry_fails), a reservation without start time whose end has passed (C24_past_end_fails), an exception while a restart loads connections (C26_no_end_fails).

`Lively.lean` (C88) adds to the invariant that every live connection has the call it needs in the table of the scheduler. `Timely`
says of an event what is needed for that: a request on a live connection is done at most a second after the connection's end (and a
provision request that came before the start, at most a second after the start), since otherwise `scheduleCall` raises; and no start
falls into a restart (`C26_start_now_fails`). `NothingDue` says that what was due has been called, as the reactor does when it is
idle; without it a call may be late by any amount.

`Agg/Causes.lean` (C90) is an invariant over the list of all messages received so far: each state of a stored or cached row that a handler
tests before it tells the requester something (`provisioned`, `terminated`, `held`, …) is tied to a received message, and each reserve call is
either answered or has its entry in the aggregator's table of expected answers. It is kept by each command of each handler under interference
by all others (rely-guarantee, `Safe`), so it holds in every interleaving. The received messages are arbitrary.

`Crash.lean` (C89) follows `buildSchedule` through every branch from an arbitrary database with distinct connection ids, instead of from
one that the invariant of `History.lean` describes: rows may be in any of the intermediate states. The counterexamples are schedules of
`Conc.lean`, in which the process dies between two writes of one operation. There `hheld` (a held reservation is neither committed nor
active) is an assumption on the database; `reserveCommit` stores the flag and the state with one write.

### Backend, interleaved

`Backend.Rely`: rely-guarantee reasoning. `Safe I K D p Q w`: coroutine `p`, continued in world `w`, keeps the invariant `I` with each command it issues and
what other coroutines rely on (`K`; `D` is what is left of that over a restart), whatever they do in between, and yields a result with `Q`. `SafeSys.run`
lifts it to all schedules. Two instances: the calendar (`ConcCal`, C21) and rows, timers, links and messages (`ConcRows`, `ConcOps`, `ConcReqs`; C23, C74, C75).

`Backend.Own*`: reasoning connection by connection, for C21 and C22. Each calendar entry is tagged with the connection it belongs to (`Glob`); the part of the
world that belongs to one connection is its `Slice` (row, its entries, its scheduled call, row objects). `Sym cid s O p Q`: coroutine `p`, which works on
connection `cid`, run on slice `s` with the row objects `O` it knows, leaves everything else alone and ends with `Q`; nobody else changes the slice meanwhile.
`SymS` is the same for operations that may share a connection (provision, release, activation), which change neither bookings nor reservation state.
`sys_run` lifts both to schedules in which operations on one connection are exclusive or shared accordingly (`Orderly`), while operations on different
connections interleave freely. That exclusiveness is needed is C22_commit_race_fails; that restarts are left out is needed too, since requests are served while
`buildSchedule` is still loading the stored connections (`Backend.PropsBoot`: C21_restart_fails, C22_restart_fails).

`Backend.Up`, `Backend.UpRun`: C99. `Fair U p F Q` goes through a coroutine `p` command by command, as a weakest precondition: `F` says which row objects are
known to belong to which connections (a row object never changes its connection, `Keeps`), `U` which connections have had their link up, and down after that. `U` is fixed in advance by
the links after the prefixes of the schedule: the device is only reached by `perform` steps, the state after which is that of a prefix.

`Backend.Apart*`: what the sequential histories establish about timers, links and deadlines (C23, C24, C25, C54, C88) carries over to schedules in which no two
operations on the same connection overlap (`OneByOne`), however the operations on different connections, the database, the devices and the parent interleave
and whatever of them fails. The part of the world that belongs to one connection is a local state `S` (`View`), on which the coroutine is run as in the sequential
reasoning (`R0`, `R1`); `Ph` are the phases of a connection (at rest, looking up, being made, operation under way), `apart_step` shows that every step of the
system keeps all of them, and `Outcome` says what an operation that is over has done (`Effect`). `Comes` are the reachable states. They include restarts (`Boots`,
`ApartBoot.lean`): the process stops when no operation is under way, and while the stored connections are loaded no request arrives; scheduled calls, the database,
devices and failures interleave with the loading as they please. At rest the local states make up the invariant of the sequential reasoning (`Apart.inv`), which gives
the state after the restart, from which the local states are rebuilt (`apart_boot`). Left aside: other restarts, restarts during which the end of a held reservation
passes (`Fits`), a termination whose confirmation the requester did not take (it leaves the connection terminating), and, for C88, operations and restarts that are
over later than a second after the start or end time.

### Aggregator

`Agg.Reach`: everything that can happen - messages at any time, arbitrary scheduling, arbitrary answers, restarts. `Agg.SReach`/`Agg.Runs`: messages handled
one after the other. `Runs` also assumes that providers do not reuse segment ids (`NewSeg`: the sub-connection cache ignores the provider, see
C30_premature_fails). Some theorems assume in addition that generated correlation ids are fresh.

* serial properties: each handler has an effect described by a relation (`Eff`, `ReserveEff`, `ReplyEff`, ...), and runs are chains of effects;
* interleaved safety (C57, C34, C38, C40): rely-guarantee reasoning, `Agg/Rely.lean` and `Agg/Ids.lean`: every command preserves the invariant and what
  suspended coroutines have learned (`Issues`);
* interleaved counting (C37): token logic, `Agg/Tokens.lean`: each message in flight owns tokens that every command conserves.
* liveness up to the answers of the providers (C93): `At` says all about one connection (its row, its segments, the answers sent); a message that does not concern it (`Foreign`) keeps `At`, a confirmation of one of its segments moves that segment, and the last one outstanding moves the connection (`Course`, `Booking`).
* one connection among others, interleaved (C94): `Sep` says which rows and objects belong to the connection (`Mark`); every command of a handler is either apart from them (`Apart`, messages about others, Own/OwnLogic/OwnRun) or is mirrored by the same command in a world in which there is only that connection (`Mir`, OwnMir; object references differ, so they are paired by `Prs`). `Ref` relates a handler interrupted by anything apart (`Itf`) with the same handler run alone (OwnRef), `Turns.sim` does it for whole executions (OwnSys); the results of C93 on executions handled one message after the other then apply (OwnLife).

### Wire

Messages are trees of elements `Elem` (tag, attributes, text, children). `wire` is what serialising and parsing with ElementTree does to a tree: an empty text
becomes no text. Namespaces are left out (tags are local names), as are SOAP envelope syntax and character encoding. `dateutil`'s `isoparse`/`parse`
is third-party and not part of the sources: it is modelled from its documentation; texts in uncommon formats are given to a parameter
(`uncommon`) that theorems quantify over. The same holds for `strptime` in `Http`.

`Wire/Dispatch.lean` models the way of a message from the client that makes it to the method that is called at the other side: the action, the registered
decoders, the class that the binding makes of the body. A body of another class than the decoder expects is `foreign`: what Python does then depends on the
attributes the classes share and is not followed further, except for the generic requests and confirmations, which have the same attribute.

### Db

Three steps: Python values become a text (`adapt` of psycopg2 and the adapters of database.py), the server reads the text as expressions (`readValues`), and
the expressions become values of columns (`coerce`) if the schema allows it. psycopg2 and PostgreSQL are third-party: quoting, literals, row and array
constructors, `timestamp` and the constraints of schema.sql are modelled from their documentation. Left out: the encoding of characters beyond ASCII (they
stand for themselves), arrays that contain NULL only, columns that the program does not write (`parameter`), references between tables and serial ids. Integers in
texts are read as `int()` reads them.

### Criteria

Joins Wire (C81) and Db (C82): `Conn` is the database object of a connection as far as requests are concerned, made from the row by `serviceConn` and `backendConn`;
`Conn.segment`, `Conn.confirmed` and `Conn.info` are the objects that aggregator.py and genericbackend.py make of it. `wanted` is the specification: the connection
as its request says. Which labels are chosen is the subject of C15 and C16; here they are any labels with one value.

### Traces of device operations

`Prog.devs` (Backend/Trace.lean) runs parallel to `Prog.run` and lists the calls of `setupLink` and `teardownLink` that took effect, with
the time; `Traced` is `Reach` with that list. `run_links` proves that replaying the list yields the field `links` of the world, so that the
list is neither an addition to nor an omission from what the model of the earlier properties does. `Sound` and `Punctual` are stated on the
list alone. The proof follows the programs with a condition on each device command (`LG`, local to a connection, and `WG`, on worlds) and
combines it with the invariant of reachable worlds (`GInv`). Device/PropsTrace.lean translates the list into the operations of the
device models of C66 (`devOps`), for which resources that are different in the calendar are apart on the device.

### Access to ports

`Access` joins four models: the check of the sender (`Http.gate`), the decoding of the message (`Wire.providerPost`), the header of the calls that the aggregator makes
(`Criteria.segmentHeader`, `Access.Call.hdr`), and the backend with its check of ports. What is added is which of the two kinds of credentials (attributes of the header,
request information) each call carries. `Carried` says of a schedule of the backend that every request in it was made by the aggregator for some posted message, with the call that
belongs to the kind of message. Ids are not tied: the aggregator and its backends have different ids for a connection.

`dnText` keeps of the host name what authz.py can tell: a name that is bytes is as different from the text of a rule as None.

### Aggregator and backends together

`Joint.Runs` are the executions of an aggregator (`Agg`, messages one after the other) together with any number of backends (`Backend`, arbitrarily interleaved). They are tied by
two conditions. `Called`: a request at a backend is a call that the aggregator made (correlation id, operation, name of the agent). `Genuine`: a message to the aggregator that concerns a
backend (an answer to a reservation asked of it, or a message about a connection it has stored) was sent by that backend. Calls and messages may be lost, late, and repeated.
Messages from other providers are arbitrary, as long as they do not speak for a backend.
`Joint.Trace` (Joint/Whole.lean) are the executions in which the handlers of the aggregator are interleaved too; the causes of what requesters are told (C90) and the causes of what backends say (C75) are put together there. `Honest` is the assumption that nobody speaks for a backend but itself: whatever was received so far about a connection that a backend has stored, or in answer to a reservation asked of it, the backend has sent.

`Front.Trace` adds the provider side of the protocol: a request from the wire goes through `Provider` to the aggregator, which is started on it as a handler; the messages
the aggregator emits in a step and the answers of handlers that end in it are events at `Provider`, in that order. Requests are numbered in the order of their arrival, over
restarts too. That the answer to a reserve request is the id of a connection stored for its requester is shown in Agg/Returned.lean, for all interleavings. Queries and
notifications are not followed there: the former have their own keys (C41_queries), the latter look for no request.

The theorems assume fresh correlation ids (`freshIds`) and labels that come from text (`Texts`), as everywhere. The pairing of a segment with a connection of a backend (`Bound`) is an
invariant: `Runs.tied`. The aggregator's model has no bandwidth in common with that of the backend; `critOf` leaves it open.

## Trusted base

* The kernel of Lean 4.33.0; axioms at most `propext`, `Classical.choice`, `Quot.sound` (listed per theorem by `Verif/Axioms.lean`). No axioms of our own,
  no `sorry`, no `native_decide`, no `bv_decide`. Concrete examples are checked by `decide`/`decide +kernel`/`rfl`.
* The hand-made correspondence between model and source. Comments cite lines; nothing checks it mechanically. The seeded-bug log
  (`seeded/LOG.jsonl`) shows which edits of the model the theorems notice. Where an entry has the note that claims rest on lemmas, the build stopped at the lemmas
  given; the claims are those whose proof terms depend on them.
* The meaning given to Python and its libraries: integers, dictionaries, text functions used (`split`, `rsplit`, `strip`, `int`, `in`), regular expressions
  in nrm.py, ElementTree, datetime, Twisted's scheduling, Twistar's row objects.
* What Twisted does with SSH channels (`Ssh`): data arrives as bytes, in order and cut anyhow; `d.callback` continues the waiting
  `sendCommands` at once; when a connection is lost, neither `channel_open` nor `wait_defer` is fired. `DeferredLock` is first come, first served.
  What it does before (C92): `verifyHostKey` gets the fingerprint of a key that the host has proven to hold, `connectionSecure` is called only if it was accepted,
  credentials are sent only when the host asks for them, `serviceStarted` is called when it has accepted the user. A port that is a text is the name of a service.
* `zope.interface.implements` cannot be used with Python 3: depending on the version of the library, importing it or calling it raises (`Setup`).
* What Twisted does with requests (`Setup`): a path is split at `/` and unquoted into bytes; `children` of resources are looked up one by one; text is never equal to bytes.
  SHA-1 is an arbitrary function: that different peers have different resources for replies is proved from the assertion in `setupSOAPResource`.
* The page of connections (View/Model.lean), C102: Twisted's `write` raises an exception for text (trusted). What a reader sees is what is between tags, unless blank; entities such as `&lt;` are not decoded.
* TLS (Tls/Model.lean), C101: a certificate with its chain is its subject, its host names, the authority at the end of the chain and whether everything in the chain is good; that OpenSSL and
  twisted accept it as `Server.accepts` and `Context.connects` say, and that who presents a certificate has its key, is trusted. So is what `loadPEM` (the first certificate of a
  file) and `load_verify_locations` (all of them, an error if there is none) read.
* The forms of the topology (Nml/Format.lean) and of the discovery document (Discovery/Format.lean), C96: transcribed from the standards (GFD-R.206, GFD-R.233) as
  far as OpenNSA uses them; the order of elements in a topology is that of usual documents.
* The schema of the connection service (Wire/Schema.lean, C95). No schema file is in /repo; the types are transcribed from the standard (NSI CS 2.0,
  GFD-R.212) and agree with the comments and conditions of the generated bindings. `anyURI` is any text, bounds of numbers are left out.
* The meaning given to the commands that backends send to switches (`Device`). The sources contain the commands, not the switches. A JunOS configuration is a
  set of statements; `set` adds one (and replaces the statement with the same parent if the statement can have one value only), `delete` removes a
  statement and everything below it; abbreviations of keywords are expanded (Device/Junos.lean). A Brocade switch has vlans with ports,
  a Pica8 switch trunks and flows, an OESS server workgroups with circuits (Device/Switches.lean). Properties of commands alone (C67) do not depend on it.

Not modelled: the Twisted reactor, TLS, HTTP and SOAP syntax, PostgreSQL (tables are lists with the constraints of schema.sql), logging, the SSH protocol
below channels, HTTP sessions with devices (in `Backend` a device is an oracle of successes and failures; in `Device` commands that were sent are carried out).

## Findings

Each is a theorem with a concrete witness: the code violates the property stated in `properties.jsonl`.

<!-- findings: generated by tools/gen.py -->
* `C05_fails` (Label/Props.lean): C05 is violated by the code: the label `n` built from an integer differs from the label `n` built from text although both denote the set `{n}`.
* `C06_fails` (Label/Props.lean): C06 is violated by the code: every non-empty label has an outcome of the random generator for which the drawn value is not a member of the label.
* `C07_embedded_prefix_fails` (Stp/Props.lean): Without the last condition of `WellNamed` the round trip fails: a network whose name contains the URN prefix is read back under another name, because the parser removes every occurrence of the prefix.
* `C100_paths_fails` (Nml/PropsPaths.lean): C100, paths. No path is ever found by the database: whatever networks it holds, whatever the source and the destination are and however the search would go on, `findPaths` (nml.py:249-275) raises an exception. Where the ports exist, are of both directions and the STP has a label, it is an AttributeError, as the port and not its label is given to `Label.canMatch` (line 40).
* `C101_bad_file_fails` (Tls/Props.lean): C101 is violated by files that are no certificates: a file `*.0` in the directory that is none is skipped where the context is made, with a message in the log, so that the service starts; but when it begins to listen, reading the same file raises an exception (opennsaTlsContext.py:103), for every such directory.
* `C101_bundle_fails` (Tls/Props.lean): C101 is violated by files with several certificates: of a file `*.0` the service trusts all authorities in requests that it receives, but only the first one in requests that it makes. A peer with a certificate of the second is admitted, and none of the replies to it can be delivered.
* `C101_unverified_fails` (Tls/Props.lean): C101 is violated with `verify` off: the list of hosts then protects nothing. Whoever makes a certificate for themselves with a name from the list, signed by nobody, is admitted under that name (opennsaTlsContext.py:82), whatever the directory has.
* `C102_markup_fails` (View/Props.lean): C102 fails for names with markup: the names of ports come from requests and are put into the page as they are (viewresource.py:64-65, 70-79); a requester can choose what the reader is shown. Here the page shows a terminated connection C-2 that is not in the database.
* `C102_no_end_fails` (View/Props.lean): C102 fails for connections without end time: one of them, and the page is not made for any (viewresource.py:68).
* `C102_written_fails` (View/Props.lean): C102 fails altogether: the page is put together as a text, and texts cannot be written to a connection in Python 3 (viewresource.py:85); whatever connections there are, an exception is raised and nothing is sent.
* `C15_fails` (LinkVector/Props.lean): C15 is violated: with a negative cost the loop of `path` never ends.
* `C16_fails` (LinkVector/Props.lean): C16 is violated: an announced cost that differs from the stored one is ignored, so the cheapest route is not used.
* `C19_configured_fails` (Backend/PropsReserve.lean): C19 fails: request vlans 1-20 on port `a`, which is configured for 10-30. The label sets meet, so the request is accepted, but the label allocated is 1, which the port does not have: genericbackend.py:288 enumerates the requested label, not its intersection with the label of the port.
* `C21_commit_race_fails` (Backend/PropsOwn.lean): C21 fails after a commit that overlapped the reservation timeout of its connection (see `C22_commit_race_fails`): the next reservation of the same resources at the same time is accepted and committed as well.
* `C21_connections_fails` (Backend/PropsLife.lean): C21 fails between connections: after the history `Ex.retry`, the committed connections `y` and `z` occupy the same vlan of port `a` from 2000 s to 3000 s.
* `C21_ends_fails` (Backend/PropsLife.lean): C21 fails for the two ends of one connection: port `a` with vlans 12-20 to port `a` with vlans 12-13 gets vlan 12 twice, whether or not the device swaps labels.
* `C21_restart_fails` (Backend/PropsBoot.lean): C21 fails for a reservation that arrives right after a restart (genericbackend.py:60-63, 86-116): requests are served before `buildSchedule` has entered the stored connections in the calendar, so the reservation is given what a committed connection holds, and both end up committed.
* `C22_collision_fails` (Backend/PropsLife.lean): C22 fails: when a generated connection id is in use already, storing the connection fails (line 357) after the entries were added (lines 310-311, 330-331), and they stay in the calendar.
* `C22_commit_race_fails` (Backend/PropsOwn.lean): C22 fails when a commit and the reservation timeout of the same connection overlap (genericbackend.py:363-389, 600-648): each works with a row object of its own, so the commit can still succeed, and is confirmed to the requester, after the timeout has removed the entries from the calendar.
* `C22_restart_fails` (Backend/PropsBoot.lean): C22 fails for a connection that is provisioned while the backend is starting (genericbackend.py:86-93): the loop over the stored connections may wait for the activation of one of them, and passes over those that have a scheduled call when it comes to them. A connection provisioned in the meantime has one, so what it holds is never entered in the calendar, though the restart and every request succeeded.
* `C22_retry_fails` (Backend/PropsLife.lean): C22 fails: after the history `Ex.retry`, four entries should be in the calendar, but there are two.
* `C24_past_end_fails` (Backend/PropsLife.lean): C24 fails: a reservation without start time whose end time is in the past is accepted and becomes held, but its timeout cannot be scheduled (scheduler.py:47), so however long one waits, it stays held.
* `C25_repeat_fails` (Backend/PropsLife.lean): C25 fails in its last part: terminating a terminated connection raises AttributeError (line 496 reads `conn.cid`).
* `C26_no_end_fails` (Backend/PropsLife.lean): C26 fails: `x` is committed, starts in the future and has no end time. The restart raises an exception (line 158 compares None with a date), and the entries of the other reservation `y` are not put back into the calendar, nor is its timeout.
* `C26_start_now_fails` (Backend/PropsLife.lean): C26 fails: a connection that starts at the very moment of the restart gets no call (lines 164-165): though provisioned and in time, it is not activated.
* `C27_release_fails` (Backend/PropsConc.lean): C27 fails for release: a connection is released and the release confirmed, while its activation waits for the device. When the device is done, the activation stores its row object (line 676), which still says provisioned: the connection is provisioned and active again, and its link is up. No coroutine is left to change that.
* `C27_terminate_fails` (Backend/PropsConc.lean): C27 fails for terminate: a connection is terminated and the termination confirmed, while its activation waits for the device. When the device is done, the activation stores its row object, which says created and provisioned: the connection lives again, active and with its link up, although its entries in the calendar are gone.
* `C28_after_error_fails` (Agg/PropsReplyFails.lean): The requester can get reserveConfirmed after the request was answered with an error: one provider did not acknowledge in time, but confirms later.
* `C28_despite_failure_fails` (Agg/PropsReplyFails.lean): The requester can get reserveConfirmed although a segment failed (and is not told of the failure).
* `C28_twice_fails` (Agg/PropsReplyFails.lean): The requester can get reserveConfirmed twice.
* `C29_destination_fails` (Agg/PropsReplyFails.lean): The destination label confirmed is not that of the last segment if its confirmation does not come last.
* `C30_mixed_fails` (Agg/PropsReplyFails.lean): A commit can be confirmed as an abort, if that is what the providers answer.
* `C30_premature_fails` (Agg/PropsReplyFails.lean): The commit of a connection can be confirmed before all its segments have been committed: segments of two providers with the same id share one object, because the cache ignores the provider (aggregator.py:124).
* `C30_twice_fails` (Agg/PropsReplyFails.lean): A commit can be confirmed twice.
* `C30_unrequested_fails` (Agg/PropsCounts.lean): terminateConfirmed can be sent without a request to terminate: a provider's word is enough.
* `C31_segment_fails` (Agg/PropsReplyFails.lean): A provider can change the state of another provider's segment.
* `C32_addressed_fails` (Agg/PropsReserve.lean): The terminate requests are addressed (header) to the provider asked last instead of the one that accepted the segment (`provider_urn` at aggregator.py:434 is the loop variable of line 386).
* `C32_no_provider_fails` (Agg/PropsReserve.lean): If a network on the way has no provider, the requests already made are not cleaned up.
* `C34_hairpin_cleaned_fails` (Agg/PropsReserve.lean): But the refused hairpin stays in the database, reserved for ever (state CHECKING, not terminated).
* `C34_proxied_hairpin_fails` (Agg/PropsReserve.lean): A hairpin in somebody else's network is passed on even if hairpins are not allowed.
* `C35_consistent_fails` (Agg/PropsStatus.lean): The answer to a query says that a connection is consistent although one of its segments is up and another is down; the notification about the same segments says that it is not (aggregator.py:712, 810 and 1174-1176).
* `C35_recursive_fails` (Agg/PropsStatus.lean): A recursive query of a connection with two segments that have not reported a data plane version yet raises TypeError (aggregator.py:809), although the status is well defined.
* `C36_twice_fails` (Agg/PropsTimeout.lean): With other messages in between the requester can be told twice: a provider confirms a commit nobody asked for after its segment has timed out, then the other segment times out.
* `C36_unnoticed_fails` (Agg/PropsReplyFails.lean): If the segments of a connection time out at the same time, the requester may not be notified at all.
* `C37_empty_fails` (Agg/PropsQueries.lean): C37 is violated by segments that answer with an empty list, as a backend does that does not have the connection for this requester (genericbackend.py:536-559): the empty list counts as no answer (aggregator.py:831, 844), so that the query stays unanswered although every segment has answered and the data planes are known, and what is kept of it in memory stays there. With another answer in its place the query is answered.
* `C37_mixed_fails` (Agg/PropsReplyFails.lean): What is answered to a query can be what the provider said about another requester's connection.
* `C37_unanswered_fails` (Agg/PropsQueries.lean): A query can stay unanswered although every segment has answered: without a data plane status of the segments, the maximum of their (missing) versions is a TypeError (aggregator.py:809).
* `C38_global_id_fails` (Agg/PropsOwner.lean): A query selecting by global reservation id only is never answered.
* `C39_fails` (Agg/PropsReplyFails.lean): Every operation is accepted from an NSA that did not reserve the connection.
* `C40_backend_restart_fails` (Backend/PropsNotes.lean): C40 fails for the backend across restarts: the counter of notification ids is kept in memory and starts at 0 again (genericbackend.py:55), so that notifications about different connections to the same requester carry the same id.
* `C40_data_plane_fails` (Agg/PropsReplyFails.lean): Data plane notifications all have the same notification id, 0 (aggregator.py:1184).
* `C40_restart_fails` (Agg/PropsQueries.lean): After a restart the ids start again (aggregator.py:81).
* `C41_commit_abort_fails` (Provider/Props.lean): C41 is violated between commit and abort: both constants have the same value (provider.py:13-14), so that the confirmation of a commit is sent with the correlation id and to the address of an abort that came in meanwhile, and the commit is never confirmed.
* `C41_early_fails` (Provider/Props.lean): C41 is violated for early confirmations of reservations: a confirmation that comes before the service provider returned the connection id (the comment of provider.py:47-48) is lost, and the entry stays for ever.
* `C41_overwritten_fails` (Provider/Props.lean): C41 is violated for two requests of the same kind: of two provision requests for a connection the first is never confirmed; its confirmation goes to the second.
* `C41_refused_fails` (Provider/Props.lean): C41 is violated for refused requests: a request that was refused with a fault stays pending, and is sent the confirmation of a later request without reply address. It is answered twice.
* `C41_sync_fails` (Provider/Props.lean): C41 is violated for synchronous queries with the same correlation id: correlation ids are chosen by requesters and the key does not contain the requester. Of two queries the second is given the results of the first and, besides, a message with its own; the first is never answered.
* `C42_commit_failed_fails` (Requester/Props.lean): C42 violated: a failed commit is not reported. `Requester` has no `reserveCommitFailed` (nor `reserveAbortConfirmed`): the reply of the provider is lost and the call completes with the timeout.
* `C42_lost_fails` (Requester/Props.lean): C42 violated: a call can get lost. A reply of another kind with the key of a pending call removes the call (requester.py:57) before the assertion of line 63 fails: the call completes neither with the right reply, which arrives next, nor with its timeout.
* `C42_stale_timer_fails` (Requester/Props.lean): C42 violated with a reused correlation id: the timer of a lost call ends a later call with the same key.
* `C43_local_fails` (Registry/Props.lean): C43 violated for our own networks. setup.py:267 registers every backend under the URN of the local agent: two networks of the same NSA with two providers. A peer announcing our own NSA id then gets the first backend as provider of its networks.
* `C44_class_fails` (Wire/PropsErrors.lean): C44 violated: not the same class. An unsupported-parameter error arrives as payload error, and the error reporting that an NSA could not be reached arrives as internal error: their ids are missing from the table.
* `C44_malformed_fails` (Wire/PropsErrors.lean): C44 violated: malformed codes raise. Every five character code whose family is not in the table — digits or not — makes `lookup` raise `ValueError`, which `createException` does not catch: the error reply itself is lost.
* `C45_empty_fails` (Wire/PropsHeader.lean): C45 violated: an empty value is lost. An attribute with the empty text as value is sent, but not received.
* `C46_no_criteria_fails` (Wire/PropsQuery.lean): C46 is violated for children without criteria: the answer is refused with a TypeError (queryhelper.py:151).
* `C46_order_fails` (Wire/PropsQuery.lean): C46 is violated for more than ten children: the positions are compared as texts (queryhelper.py:149), so that the eleventh child comes third.
* `C46_version_fails` (Wire/PropsQuery.lean): C46 is violated for connections without data plane version: a segment that has not reported its data plane yet has version `None`, sent as the text `None`, and the whole answer is refused with a ValueError (nsiconnection.py:17, 24).
* `C48_duplicate_fails` (Nrm/Props.lean): C48 is violated for names that occur twice: they are not detected, and the path finder is told of all the lines while the tables by name have only the last. A path to the network of the first line goes over a port that leads to the network of the second.
* `C49_fails` (State/Props.lean): C49 is violated by the code: whenever a self-removing observer is followed by another one, the latter is not called.
* `C50_abort_fails` (Rest/Props.lean): C50 is violated for a reservation that fails: when it is aborted afterwards, it is back in its start state, which is taken for committed, and nothing is reserved; it is provisioned.
* `C50_missed_fails` (Rest/Props.lean): C50 is violated if the reservation is held at once: the watcher is only subscribed after the reservation was acknowledged. If it is held, and the observers called, before that, it is never committed; it runs into its timeout.
* `C50_released_fails` (Rest/Props.lean): C50 is violated if a release follows closely: a release that comes in before the observers are called for "provisioned" hides that state from the watcher. When the connection is released, the watcher provisions it again, against the request.
* `C51_callback_fails` (Setup/PropsFails.lean): C51 is violated for replies. With an allow-list configured, the resources at which replies of peers are expected do not check it: a client with a certificate that is not on the list is admitted there (protocols/nsi2/__init__.py:43).
* `C51_list_fails` (Http/Props.lean): C51 is violated for the list of connections: it is given to everybody — every request, over plain HTTP and without certificate, and whatever the access list.
* `C51_no_list_fails` (Http/Props.lean): C51 is violated without access list for SOAP over TLS: a request without client certificate, which anyone may make, ends in an exception (soapresource.py:81).
* `C51_rest_fails` (Http/Props.lean): C51 is violated for REST: with an access list no request is admitted at all, as the name from the certificate is bytes and the list has texts.
* `C52_clock_fails` (Http/Props.lean): C52 is violated if the system clock is put back: a document published then is older than the one before it.
* `C52_same_second_fails` (Http/Props.lean): C52 is violated within a second: the client is given the first document, the second is published 0.8 s later, and the client is told that nothing was modified. As long as nothing else is published it will never see the second document.
* `C53_changed_cost_fails` (Discovery/Props.lean): C53 is violated when a cost changes: a later document of the same peer with another cost for a network is ignored.
* `C53_moved_fails` (Setup/PropsFails.lean): C53 is violated for a peer that moves. A later document of a known agent, with another URL for its connection service, does not change where requests for its networks go.
* `C53_negative_cost_fails` (Discovery/Props.lean): C53 is violated for negative costs: a document that advertises a negative cost makes the search for a path between two of our own networks run for ever (the costs are not checked when they are read).
* `C54_provision_fails` (Backend/PropsLife.lean): C54 fails: provisioning again one second before the start time raises an exception, if storing the state takes more than two seconds, and the connection is left in state provisioning without pending call.
* `C55_abort_fails` (Agg/PropsStatus.lean): The failure of an abort is not reported: computing the message raises TypeError (`len(n_success)` of a number, aggregator.py:533).
* `C58_query_fails` (Agg/PropsOwner.lean): Anybody can have a connection answered by a recursive query.
* `C58_terminate_fails` (Agg/PropsOwner.lean): Anybody can terminate a connection.
* `C60_parameter_fails` (Wire/PropsMessages.lean): C60 is violated for empty parameter values: a parameter with an empty value is received without value (p2pservices.py:34, 62; the value is passed on as `None`).
* `C60_service_type_fails` (Wire/PropsMessages.lean): C60, service type. Every reserve request carries another service type than the confirmation of the same reservation, which carries the type that the topology offers (requesterclient.py:120, providerclient.py:83, constants.py:26, nmlxml.py:105). No provider of this program looks at it.
* `C62_null_fails` (Rest/Props.lean): C62 is violated by descriptions of connections without start or end time: there the time is given as null, but a request with a null time is answered with 500, though the same request without the field is accepted.
* `C62_text_fails` (Rest/Props.lean): C62 is violated by flags given as text: any text but the empty one counts as yes (resource.py:211-212), so that a request whose `auto_commit` is the text `false` is committed automatically, and one whose `auto_provision` is the text `false` is provisioned.
* `C63_aggregator_fails` (Discovery/PropsDocument.lean): C63 is violated without backends. A service that runs as aggregator only cannot make its document when it is set up: its own URN is not among the providers, and removing it from a set raises an exception other than the one that is caught. So the service does not start.
* `C63_reach_fails` (Discovery/PropsDocument.lean): C63 is violated for networks behind the service. No document ever tells which networks are reached through the service: the home service of the example has a port to the network `x`, at cost 1, and publishes a document; but a peer with a port to it does not learn that there is `x`.
* `C64_colon_fails` (Nml/Props.lean): C64 is violated for names with a colon: a file with such a port is accepted, and the service then fails when it makes the topology.
* `C64_ids_fails` (Nml/Props.lean): C64 is violated for ids: with ports `a` and `a-in` two things in the document have the same id.
* `C64_label_fails` (Nml/Props.lean): C64 is violated for labels: the type of a label that is read is not the type it had, so that it cannot even be compared with a label of a request: intersecting raises an assertion.
* `C64_parse_fails` (Nml/Props.lean): C64 is violated by every document: reading a topology always fails, as the last statement gives views of dictionaries where lists are required. For instance the published document of the example, though everything in it can be read.
* `C65_double_fails` (Device/PropsResource.lean): C65 fails with JunOS MX and two ports on one interface: both connections get vlan 12 on interface `i`, at the same time.
* `C65_junosex_fails` (Device/PropsResource.lean): C65 fails for JunOS EX (junosex.py:232): the interface is not part of the name, so the same vlan on two interfaces, each of which has its own units, is booked as one.
* `C65_shared_fails` (Device/PropsResource.lean): C65 fails for the backends that name a resource after the port: two ports on one interface, the same vlan, and two names.
* `C65_whole_fails` (Device/PropsResource.lean): C65 fails: a port without label takes the whole interface, but its name is not that of a port with a vlan on the same interface (also for the test backend, which names resources after interfaces).
* `C66_mx_left_fails` (Device/PropsConfigMx.lean): C66 fails for JunOS MX: an interface that had a vlan stays configured for vlans, also when it is used as a whole later.
* `C66_mx_lsp_fails` (Device/PropsConfigMx.lean): C66 fails for JunOS MX: the name of an LSP has only the first six characters of a network; taking down a connection to one network deletes the LSP of a connection to another one.
* `C66_mx_remote_fails` (Device/PropsConfigMx.lean): C66 fails for JunOS MX: a connection from a local vlan to a port with a remote network and no label is set up, as far as the vlan is concerned, but not taken down: the commands cannot be made (junosmx.py:495).
* `C66_mx_transit_fails` (Device/PropsConfigMx.lean): C66 fails for JunOS MX: a connection between an LSP and a port with a remote network and no label leaves its remote switch behind, which refers to an LSP that is gone (junosmx.py:630).
* `C66_mx_whole_fails` (Device/PropsConfigMx.lean): C66 fails for JunOS MX: taking down a connection of a whole interface deletes the vlans of another connection on the same interface. Their resources have different names (C65), so that both are accepted.
* `C66_oess_vlan_fails` (Device/PropsOess.lean): C66 fails for OESS: circuits are looked up by their interfaces and not by their vlans (oess.py:69-80). Of two connections between the same interfaces, taking down the second one removes the circuit of the first one, and its own circuit stays.
* `C66_pica_fails` (Device/PropsSwitches.lean): C66 fails for Pica8: flows are made for the third number of an interface (pica8ovs.py:34-35). With interfaces that differ before that, the resources of two connections have different names, but setting up the second one takes the frames of the first one, and taking it down leaves the first one without flows.
* `C66_vpls_target_fails` (Device/PropsConfig.lean): C66 is violated for Juniper VPLS in another way: the route distinguisher and the target are made from the first five and two more characters of the connection id (junipervpls.py:304), so that two connections, which are up at the same time, join the same VPLS. Here the ids are those of the Canarie plugin for the serial numbers 20130011 and 20130012.
* `C67_brocade_fails` (Device/PropsAcceptVlan.lean): C67 fails for Brocade: ports without label or with mpls labels are accepted, but cannot be set up; and nor can interfaces with a dot, for which the names of the resources and the targets can be made, so that the exception comes when the connection is due.
* `C67_ex_fails` (Device/PropsAcceptVlan.lean): C67 fails for Juniper EX: ports without label, with mpls labels, and vlan 4096 are accepted, but cannot be set up. For vlan 4096 the names of the resources can be made, so that the exception comes after the calendar has been filled (genericbackend.py:330-331 and 342).
* `C67_force10_fails` (Device/PropsAcceptVlan.lean): C67 fails for Force10 altogether: connections of two ends with the same label are accepted, but `label.type` does not exist (force10.py:276), so that no resource has a name.
* `C67_junosex_fails` (Device/PropsAcceptVlan.lean): C67 fails for JunOS EX: two ends without label are accepted, but the names of their resources cannot be made.
* `C67_mx_fails` (Device/PropsAccept.lean): C67 fails for JunOS MX: each of these pairs of ends is accepted, but cannot be set up and taken down, whatever the routers that are known: a port without label and a vlan with a remote network; a vlan and a port with a remote network and no label; two LSPs; an LSP and a port with a remote network and no label; and mpls labels of ports without remote network.
* `C67_ncs_fails` (Device/PropsAcceptVlan.lean): C67 fails for NCS VPN altogether: `label.value` does not exist (ncsvpn.py:175), so that no resource has a name.
* `C67_oess_fails` (Device/PropsAcceptVlan.lean): C67 fails for OESS: ports without label and with mpls labels, vlan 4095, and interfaces without colon are accepted, but cannot be set up. Except for the first ones, the names of the resources can be made, so that the exception comes after the calendar has been filled.
* `C67_pica_fails` (Device/PropsAcceptVlan.lean): C67 fails for Pica8: ports without label and with mpls labels, vlan 4096, and interfaces with fewer than three parts are accepted, but cannot be set up. For labels of the wrong type and vlans out of range the names of the resources can be made, so that the exception comes after the calendar has been filled.
* `C67_space_fails` (Device/PropsAccept.lean): C67 fails for Junos Space: these pairs of ends are accepted, but get no request, whatever the routers that are known: a vlan and a port with a remote network and no label; two LSPs; and a vlan with a remote network and a port with a remote network and no label.
* `C67_vpls_fails` (Device/PropsAcceptVlan.lean): C67 fails for Juniper VPLS in the same way as for Juniper EX.
* `C68_adjacent_fails` (Plugin/Props.lean): C68 is violated for neighbours that both need help: the second one changes the label at the far end of the first, which then has different labels at its two ends though it cannot translate.
* `C68_neighbour_fails` (Plugin/Props.lean): C68 is violated for neighbours: a neighbour's label is replaced, not narrowed. Here the neighbour has VLANs 1784 to 1789 at the demarcation point and is given 1790.
* `C68_none_fails` (Plugin/Props.lean): C68 is violated for ports without label: pruning raises, for instance on a path between two ports without labels.
* `C68_single_fails` (Plugin/Props.lean): C68 is violated for the single value: a network that cannot choose is still given a range if both its labels are ranges; `labelValue()` is the text of the whole set.
* `C68_unused_fails` (Plugin/PropsUse.lean): C68 is violated as the pruner is never asked: nothing calls `prunePaths`, so a reservation through a network that needs help is requested with the labels as they were found. Here B, which cannot translate, is asked for VLANs 10-19 at one end and 15-29 at the other, although the pruner would have left 15-19 at both.
* `C69_blank_fails` (Config/Props.lean): C69 is violated for blank entries: an entry that is empty is left out, one that is blank becomes an empty name; here the requester with the empty name is an administrator.
* `C69_hosts_fails` (Config/Props.lean): C69 is violated for the list of hosts: if its text cannot be interpolated (it has a percent sign, say), the error is ignored and there is no list, so that every host with a certificate may connect.
* `C69_notls_fails` (Config/Props.lean): C69 is violated for the list of hosts without TLS: it is not read.
* `C69_peers_fails` (Config/Props.lean): C69 is violated for peers: with the list of peers on the lines after `peers=`, the first peer has an empty URL.
* `C69_policy_fails` (Config/Props.lean): C69 is violated for policies: a blank after a comma makes a list of known policies refused, though other lists allow blanks.
* `C69_second_fails` (Config/Props.lean): C69 is violated by a second file: after a file was read, even without success, another is not read any more.
* `C69_section_fails` (Config/Props.lean): C69 is violated for names of backends with a colon: the section raises a `ValueError` instead of a configuration error.
* `C69_unknown_fails` (Config/Props.lean): C69 is violated for backends of unknown type: a misspelt type is accepted, and the service runs without the backend.
* `C71_refused_fails` (Device/PropsOess.lean): C71 fails: when the server refuses to make the circuit, setting up the link is reported as done all the same (oess.py:90-91 returns `None`).
* `C71_restart_fails` (Device/PropsOess.lean): C71 fails: after a restart the id of the workgroup is not known (oess.py:237) until a link is set up. Taking down a link that was set up before is reported as done, but the circuit stays.
* `C71_reverse_fails` (Device/PropsOess.lean): C71 fails: on one switch, a circuit that the server lists with its endpoints in reverse is not found (oess.py:70 and 76: the second comparison is made only if the first node differs); taking the link down is reported as done. Between two switches the order does not matter.
* `C71_unavailable_fails` (Device/PropsOess.lean): C71 fails: a tag that the server says is not available (0) is taken to be available (oess.py:114-115).
* `C72_cut_fails` (Ssh/PropsLines.lean): C72 is violated by the JunOS channels: two routers print the same; with one of them the session ends, with the other, where the line `[edit]` comes in two packets, it writes nothing after the first command and never ends.
* `C72_early_fails` (Ssh/PropsDone.lean): C72 is violated by Brocade: the prompt that the switch prints at the beginning is taken for the answer to `enable`, so `configure terminal` is written before `enable` has been answered, and so on.
* `C72_force10_early_fails` (Ssh/PropsData.lean): C72 is violated by Force10: if the prompt arrives before the answer to the request for a shell, then the session never writes anything: `waitForData` does not look at the data that is already there.
* `C72_pica8_early_fails` (Ssh/PropsDone.lean): C72 is violated by Pica8: every line that the switch prints, also those of its greeting, counts as an answer. Here the session ends, and the connection is closed, before the switch has answered any of the commands.
* `C72_refused_fails` (Ssh/PropsDone.lean): C72 is violated by the JunOS channels: a command that the router refuses goes unnoticed; the rest is committed and the session ends as if all was well.
* `C72_silent_fails` (Ssh/PropsDone.lean): C72 is violated by all channels: a device that prints nothing keeps the session waiting for ever; no exception is raised. (Only VPLS has a time limit, see `C72_timeout_fails`.)
* `C72_text_fails` (Ssh/PropsDone.lean): C72 is violated by all channels but Brocade's: what arrives from the network is bytes, the buffer is text, so every packet raises `TypeError`; the session never gets past its first wait.
* `C72_timeout_fails` (Ssh/PropsDone.lean): C72 is violated by VPLS: when the time limit of a wait is reached, the session does not fail. It stays where it is, writes nothing more and never ends, whatever the router prints later.
* `C73_blocked_fails` (Ssh/PropsSender.lean): C73 is violated by JunOS MX and JunOS EX: as long as a session does not end, no other call gets to send its commands. A session need not ever end (`C72_cut_fails`, `C72_silent_fails`), and does not when its connection is lost.
* `C73_lost_fails` (Ssh/PropsSender.lean): C73 is violated by JunOS MX and JunOS EX: after the connection is lost, and if no other is being made, no call ever gets as far as sending its commands.
* `C73_shared_fails` (Ssh/PropsSender.lean): C73 is violated by Juniper EX: two sessions are under way at the same time. Its sessions enter the mode with `configure` (juniperex.py:34), in which all sessions share one uncommitted configuration, so the first to commit also commits what the other has entered so far.
* `C76_equals_fails` (Cli/PropsPlan.lean): C76 fails: an end point with a label cannot be a default: a line with a second `=` is ignored (`split('=', 2)`, options.py:72, makes three parts of it).
* `C76_oneway_fails` (Cli/PropsPlan.lean): C76 fails: TLS without a client certificate (certificate and key given as `.`, onsa:134) never works: the listener for replies cannot be opened.
* `C76_verify_fails` (Cli/PropsPlan.lean): C76 fails: `no-verify=false` in the defaults file switches verification off: the listener then accepts callers whose certificate is not valid; and `no-verify=true` leaves it on. `verify_cert` is set to the default of the option that says not to verify (onsa:126).
* `C77_other_connection_fails` (Cli/PropsRun.lean): C77 fails: the connection an event is about is not looked at: the wait for one connection ends with an event of another.
* `C77_reservecommit_fails` (Cli/PropsRun.lean): C77 fails: `reservecommit` does not need a connection id (onsa:176 asks for one only for provision, release and terminate); without one it is sent all the same.
* `C77_route_fails` (Cli/PropsMore.lean): C77 is violated for routes. A point with several vlans can be the source of a reservation, but not a point of its route: the route is cut at the comma within the label.
* `C78_closed_fails` (Http/PropsClient.lean): C78 fails: a connection closed without a reply counts as acknowledgement (httpclient.py:84-88 returns None from the errback).
* `C78_http_default_fails` (Http/PropsClient.lean): C78 fails: without a port in an `http` URL it is 443 as well, not 80: bytes are compared with text (httpclient.py:60).
* `C78_ipv6_fails` (Http/PropsClient.lean): C78 fails: hosts given as IPv6 addresses cannot be reached: the port is searched for after the first colon.
* `C78_peer_fails` (Http/PropsClient.lean): C78 fails: a peer whose URL cannot be parsed ends discovery for all peers: those after it in the list are never asked, those before it once.
* `C78_scheme_fails` (Http/PropsClient.lean): C78 fails: a scheme that only begins with `http` is not refused: with `httpss` the request is sent unencrypted, to port 443.
* `C78_status_fails` (Http/PropsClient.lean): C78 fails: an answer with any other status is not reported as an NSI error.
* `C78_timeout_fails` (Http/PropsClient.lean): C78 fails: the time limit given for a SOAP request is ignored.
* `C79_base_url_fails` (Setup/PropsFails.lean): C79 is violated for a base URL with a slash at its end, such as the one in the template (datafiles/opennsa.conf:20): at the URL that is listed for the connection service is nothing.
* `C79_proxy_fails` (Setup/PropsFails.lean): C79 is violated behind a proxy. With a base URL for use behind a proxy, requests to peers still ask for replies at the host and port of the service itself (protocols/nsi2/__init__.py:32).
* `C79_slash_fails` (Setup/PropsFails.lean): C79 is violated for names with a slash. A service with a backend named `a/b` starts, and lists a URL for its topology; nothing is there.
* `C79_stale_fails` (Setup/PropsFails.lean): C79 is violated for peers that no port leads to. Its networks get a provider, but the document is not made anew: it does not name the agent.
* `C79_view_fails` (Setup/PropsFails.lean): C79 is violated for the list of connections: it is put into the tree under a text, where names of requests are bytes (setup.py:292-293); no request ever gets to it.
* `C80_aggregator_fails` (Setup/PropsFails.lean): C80 is violated without backends. The code is meant to run then, as aggregator only (setup.py:217-221); but it never starts (`C63_aggregator_fails`).
* `C80_asyncfail_fails` (Setup/PropsFails.lean): C80 is violated for the backend type `asyncfail`: the configuration is accepted, but no service starts with it (setup.py:94).
* `C80_canarie_fails` (Setup/PropsFails.lean): C80 is violated for the plugin `canarie`: the configuration is accepted, but no service starts with it, since its module cannot be imported (canarie.py:10, 24).
* `C80_junosspace_fails` (Setup/PropsFails.lean): C80 is violated for the backend type `junosspace`: the configuration is accepted, but no service starts with it, since its module cannot be imported (junosspace.py:40, 83).
* `C80_missing_map_fails` (Setup/PropsFails.lean): C80 is violated for a port map that is not there: the exception that is to be raised does not exist, so that an AttributeError is (setup.py:243).
* `C80_stop_fails` (Setup/PropsFails.lean): C80 is violated at the end: when the service is stopped, its listener is not, nor the service that asks peers (setup.py:358-359).
* `C80_vector_fails` (Setup/PropsFails.lean): C80 is violated for vectors of a port. A port map with a vector, which is read as it should be, keeps the service from starting: `updateVector` is called without the network (setup.py:255).
* `C81_body_fails` (Wire/PropsDispatch.lean): C81 is violated: the body is not compared with the action. A message whose action says `terminate` and whose body is a `provision` request terminates the connection (providerservice.py:166-172).
* `C81_commit_failed_fails` (Wire/PropsReplies.lean): C81 is violated: failed commits. The method that is to be called for a `reserveCommitFailed` message is missing, both in the aggregator and in the requester of the command line client (requesterservice.py:111).
* `C81_delivery_fails` (Wire/PropsReplies.lean): C81 is violated: delivery timeouts are part of the protocol and answered with an error, whatever they contain (requesterservice.py:228-229).
* `C81_error_variables_fails` (Wire/PropsReplies.lean): C81 is violated: errors without variables. An `error` message whose exception has no variables — most exceptions have none — is answered with a TypeError and no method is called (requesterservice.py:179).
* `C81_event_exception_fails` (Wire/PropsReplies.lean): C81 is violated: error events with a service exception are never sent: the exception is made with six arguments where seven are needed (providerclient.py:182, nsiconnection.py:657).
* `C81_event_info_fails` (Wire/PropsReplies.lean): C81 is violated: the information of an error event is lost. Whatever information the event has, the requester is told none (providerclient.py:188).
* `C81_missing_fails` (Wire/PropsDispatch.lean): C81 is violated: requests of the protocol without decoder. Four requests of the protocol are refused whatever they contain (providerservice.py:43: some actions still missing).
* `C82_capacity_fails` (Db/PropsBackend.lean): C82 is violated for large capacities: a request for 2147483648 Mbps or more, which the messages allow, is passed on and refused by the database only.
* `C82_direction_fails` (Db/PropsBackend.lean): C82 is violated for the direction: a request with a direction that there is not is passed on and refused by the database only.
* `C82_label_equal_fails` (Db/PropsBackend.lean): C82 is violated for the equality of labels: after a restart the label of a connection is not equal (nsa.py:174-176) to the label it had before, although both are the same VLAN.
* `C82_negative_fails` (Db/PropsBackend.lean): C82 is violated for negative capacities: a request for -200 Mbps is passed on and recorded.
* `C82_schedule_fails` (Db/PropsBackend.lean): C82 is violated for the order of the times: a request whose end is before its start is passed on and refused by the database only, so that its requester is told of an internal error.
* `C83_direction_fails` (Criteria/Props.lean): C83 is violated for direction and symmetry: a unidirectional, symmetric connection is recorded as such, but confirmed and reported as bidirectional and asymmetric (aggregator.py:703, 800, 966, genericbackend.py:551, 592).
* `C83_parameters_fails` (Criteria/Props.lean): C83 is violated for parameters: the parameters of a request arrive at the provider, but are neither recorded nor passed on. Two requests that differ in their parameters only lead to the same row, the same segments and the same confirmation.
* `C83_version_fails` (Criteria/Props.lean): C83 is violated for versions: whatever the version of a request, the connection is recorded, confirmed and reported with version 0.
* `C84_failed_fails` (Backend/PropsTrace.lean): C84 is violated when the device fails to tear down a link: the connection is recorded as inactive (genericbackend.py:713), its resources are freed (lines 758-761), and the link, which is still up, is never torn down again. Another connection can then get the same ports and labels at the same time, and its link is set up as well. The failure is reported.
* `C84_juniperex_late_fails` (Device/PropsTrace.lean): C84 is violated by Juniper EX: a backend that was down when a connection ended and another one on the same vlan began sets up the second and then tears down the first, after which nothing of the second is left on the switch; it is recorded, and was reported, as active.
* `C84_late_fails` (Backend/PropsTrace.lean): C84 is violated by a backend that was down when a connection ended and another began: on restart the connections are loaded in the order in which the database gives them (genericbackend.py:89), and the link of the second is set up (line 140) before that of the first is torn down (line 113), although they have the same ports and labels; no call to the device fails.
* `C85_attributes_fails` (Access/Props.lean): C85 is violated for attributes. Nobody vouches for the attributes of a header. Whoever may make requests, under whatever name, can add the attribute that a rule asks for, and is granted the port: so a rule for an NSA, a user, a group or a token keeps out only those who do not know its text.
* `C85_cleanup_fails` (Access/Props.lean): C85 is violated for the cleanup. A reservation with two segments is made by someone who may use all ports. The backend accepts the first; the second fails elsewhere. The call that should undo the first (aggregator.py:435) comes without request information, and raises an AttributeError at a rule for hosts (authz.py:65): the connection is still there, created and held, with its two entries in the calendar.
* `C85_rest_fails` (Access/Props.lean): C85 is violated for REST. A request over REST is never granted a port that has rules, whatever the rules and the certificate: its header has no attributes (rest/resource.py:231), and the name of its host is kept as bytes (requestauthz.py:33, 51), which no text of a rule equals.
* `C87_fit_fails` (Joint/PropsFit.lean): C87 does not hold: two backends choose different labels for the two sides of the same demarcation point, and the requester is told that the connection is reserved (an earlier connection within network B has the label that A chooses; aggregator.py:300-345, 392-409, 913-915, genericbackend.py:287-308).
* `C88_failed_activation_fails` (Backend/PropsLively.lean): C88 fails for a connection whose activation failed (genericbackend.py:659-672): reserved and committed from 2000 s to 3000 s, provisioned, and the device refused to set up the link at 2000 s. The failure is reported, but no call is scheduled any more, so the connection never ends: long after its end time, with nothing pending for it, it is stored as live, committed and provisioned, its two entries are in the calendar, a provision request is refused since the end has passed, and a release request raises an assertion error.
* `C89_blocked_fails` (Backend/PropsCrash.lean): C89 fails for the connections that come after one that was being terminated (genericbackend.py:90, 111-113, 741-742): once the end time of such a connection has passed, each restart stops with an exception at this connection. Connections after it in the list have no entries in the calendar and no calls pending.
* `C89_ended_up_fails` (Backend/PropsCrash.lean): C89 fails at the end time (genericbackend.py:746-748, 97-98): if the process dies after the state has been stored and before the link was taken down, the restart passes over the connection. Its link stays up, with nothing in the calendar and no call pending.
* `C89_releasing_fails` (Backend/PropsCrash.lean): C89 fails for a release (genericbackend.py:462-471, 148-149): if the process dies after the state releasing has been stored and before the link was taken down, the restart schedules nothing for the connection, and its link stays up past its end.
* `C89_terminated_up_fails` (Backend/PropsCrash.lean): C89 fails for a terminate (genericbackend.py:505-516, 128-140): if the process dies after the termination was confirmed and before the state terminated is stored, the restart finds a provisioned connection that is not active, and sets up its link again. At its end time the link is not taken down, since the end of a connection in state terminating is refused.
* `C89_timeout_fails` (Backend/PropsCrash.lean): C89 fails for a reservation timeout (genericbackend.py:603-606, 105-109): if the process dies after the state timeout has been stored and before the rollback, the restart enters the reservation in the calendar again, and schedules nothing before its end.
* `C90_error_lost_fails` (Agg/PropsCauses.lean): C90 has no converse for errors: an error that a provider reports for a segment of a connection with several segments is not passed on, the handler raises NotImplementedError (aggregator.py:1219-1220).
* `C90_unasked_terminate_fails` (Agg/PropsCauses.lean): C90 fails for terminateConfirmed: nobody need have requested the termination (aggregator.py:1090-1105 does not look at the state of the connection).
* `C91_lost_fails` (Front/PropsFails.lean): C91 has no converse for reservations: the reservation of a connection is confirmed by all its providers before the last of them has acknowledged the request. The aggregator tells `Provider` then; the requester is told the connection id later, and never that the connection is reserved (provider.py:47-56).
* `C91_restart_fails` (Front/PropsFails.lean): C91 has no converse across restarts: the headers of requests are kept in memory only (provider.py:42). A connection whose provision was requested before a restart and confirmed by all providers after it is provisioned, but the requester is never told.
* `C91_stranger_fails` (Front/PropsFails.lean): C91 does not mean that the requester of the connection is told: another requester asks for the provision of the connection as well, and is sent the confirmation in their place; the request of the owner stays unanswered (provider.py:122-123, the aggregator does not look at who asks either).
* `C92_denied_fails` (Ssh/PropsLogin.lean): C92 is violated by all backends that use SSH: if the host accepts neither key nor password, or the connection is lost before the user was accepted, the `Deferred` of `getSSHConnection` is never fired.
* `C92_force10_fails` (Ssh/PropsLogin.lean): C92 is violated by Force10: a backend for it can be made only with a password. With keys, which its configuration allows for, the constructor always raises (force10.py:272).
* `C92_left_open_fails` (Ssh/PropsLogin.lean): C92 is violated if the configuration names no keys and no password (an empty value): the call fails, but the connection that was made to the device stays open (ssh.py:167-175).
* `C92_port_fails` (Ssh/PropsLogin.lean): C92 is violated if a port is configured: it stays a text, and a text is looked up as the name of a service, so that no connection is ever made. (brocade.py:202 and alike, `cfg.get(PORT, 22)`.)
* `C92_rejected_fails` (Ssh/PropsLogin.lean): C92 is violated by all backends that use SSH: if the key of the host is not the configured one, the connection is closed but the `Deferred` of `getSSHConnection` is never fired (`connection_secure_d`, ssh.py:19 and 150-153, has no errback and `connectionLost` is not overridden). So setting up a link neither succeeds nor fails, ever.
* `C92_unopened_fails` (Ssh/PropsLogin.lean): C92 is violated by Brocade, Force10 and Pica8: a device that accepts the user but opens no channel (a switch with a limit on the number of sessions) keeps the call waiting for ever with its connection open, since `openFailed` of the channel is not overridden (ssh.py:98-128) and the `finally` that closes the connection is never reached.
* `C93_query_fails` (Agg/PropsLife.lean): C93 does not hold if a query is handled at the same time as a request, be it the only one: after a restart both load the connection from the database, and the object of the query, which was read before the request changed the state, can end up in the cache (aggregator.py:98, `gotResult` stores it whatever has been stored meanwhile). Here a commit is requested and accepted and both providers confirm it one after the other, but the second confirmation raises InternalNSIError, since the cached object is not in state committing, and the requester is never told.
* `C93_restart_fails` (Agg/PropsLife.lean): C93 does not hold across a restart during the reservation: the requests made are remembered in memory only (aggregator.py:74), so all providers confirm their segments, but the confirmations are not recognized and the requester is never told.
* `C94_overlap_fails` (Agg/PropsOwn.lean): C94 does not hold if messages about one connection are handled at the same time, be it a notification only: after a restart, the handler of a data plane notification loads the connection from the database while a commit is requested, and stores its object in the cache although that of the commit is already there (aggregator.py:98). Both handlers succeed, both providers confirm the commit one after the other, but the second confirmation finds the old state, and the requester is never told that the connection is committed.
* `C95_boolean_fails` (Wire/PropsSchema.lean): C95 is violated for numeric booleans, which the schema allows: a data plane that is reported active with `1` is read as inactive (nsiconnection.py:16).
* `C95_schedule_fails` (Wire/PropsSchema.lean): C95 is violated for requests without schedule, which the schema allows (a reservation that starts at once and has no end): reading them fails (providerservice.py:96).
* `C95_version_fails` (Wire/PropsSchema.lean): C95 is violated for requests without version, which the schema allows. The missing version is kept as `None`, and an aggregator writes it into the requests to its children (nsiconnection.py:154, 162; aggregator.py:405): `version="None"`, which is no number.
* `C96_service_type_fails` (Nml/PropsFormat.lean): C96 is violated for networks without VLANs: a network all of whose ports have MPLS labels publishes a switching service for VLANs, and none for what its ports have (nmlxml.py:109: the label type is a constant).
* `C96_vlan_range_fails` (Nml/PropsFormat.lean): C96 is violated for VLANs that do not exist: a port for the VLANs 1 to 5000 is accepted and published as such, where VLANs end at 4094 (nothing compares values of labels with the range of their type, nsa.py:87-120).
* `C98_oess_fails` (Device/PropsOessText.lean): C98 fails for OESS when names have characters that mean something in a request: they are filled in as they are (oess.py:150-162, 169-173, 180-181, 188). A `+` in the name of a link is read as a blank, and an `&` in the name of an interface starts another parameter, which the server takes for one that the service has sent.
* `C99_global_fails` (Backend/PropsUp.lean): C99 fails for queries by global reservation id: they are never answered, because the statement names a column that the table does not have (genericbackend.py:542, datafiles/schema.sql:82).
* `C99_notification_fails` (Backend/PropsUp.lean): C99 fails for the notification ids in answers to queries: instead of that of the last notification about the connection, an answer has a new number from the counter of notifications (genericbackend.py:553), which is the id of no notification sent so far.
* `C99_refused_fails` (Backend/PropsUp.lean): C99 fails for connections that could not be taken down: when the device refuses to take the link down on a release, the data plane is stored as inactive all the same (genericbackend.py:713-714), the release is confirmed, and queries show the connection as inactive although its link is up and nothing is under way any more.
<!-- end of findings -->

### Observations without a theorem

Seen while reading, outside the properties or in code that is not modelled:

* Of the `peersWith` elements of a discovery document only the first is read.
* aggregator.py:1204 calls `parent_requester.error`, which `Provider` does not have; nor does it have `reserveCommitFailed`.
* `errorEvent` in providerclient.py:182 builds `ServiceExceptionType` with six of seven arguments (TypeError).
* Timestamps of error events and data plane changes are not parsed by requesterservice.py; `error` iterates `se.variables`, which may be `None`;
  no decoder is registered for `terminateFailed`.
* providerservice.py:51 does not pass on the service type.
* An explicit route object can be sent, but is refused by the same program as receiver; query results drop explicit routes and parameters.
* aggregator.py: errors after line 286 leave a connection in state CHECKING; a commit after the timeout of a segment leaves it COMMITTING; abort and terminate
  of a connection without segments never end.
* genericbackend.py `_doFreeResource` frees the calendar even if the teardown failed; a release after the end time leaves the connection RELEASING; a failed
  activation loses the end timer.
* `prunePaths` of the plugins is called nowhere: the pruner has no effect (C68_unused_fails). The Canarie plugin and the backend for Junos Space use `zope.interface.implements`, which does not work in Python 3 (C80_canarie_fails, C80_junosspace_fails); what is proved of them besides is about code that is never reached as it stands.
* The template datafiles/opennsa.conf names the options `hostkey` and `hostcert`, which are not read.
* nrm.py: fields are separated by blanks only; a tab becomes part of a name (see the example in `Nrm/Props.lean`).
