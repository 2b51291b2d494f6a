import Verif.State.Model
import Verif.Stp.Model
import Verif.Wire.Time
/-
Model of /repo/opennsa/protocols/rest/resource.py: creating connections, automatic commit and provision, and the description of
a connection.
-/
namespace OpenNSA.Rest
open Py OpenNSA.Wire

/-! ### Creating a connection -/

/-- What `json.loads` returns (resource.py:180). Numbers are kept as text; they are only passed on. -/
inductive JVal
  | null
  | bool (b : Bool)
  | num (s : Str) (zero : Bool)     -- `zero`: the number equals 0
  | str (s : Str)
  | arr (empty : Bool)              -- the elements are never looked at
  | obj (fields : List (Str × JVal))
  deriving Repr

/-- Truth value of a JSON value in Python. -/
def JVal.truthy : JVal → Bool
  | .null => false
  | .bool b => b
  | .num _ zero => !zero
  | .str s => s ≠ []
  | .arr empty => !empty
  | .obj fields => !fields.isEmpty

/-- The call `self.provider.reserve(header, None, None, None, criteria, request_info)`, resource.py:230. `none` as capacity stands for
the default 0 (line 208). -/
structure Reserve where
  source : STP
  dest : STP
  start : Option Int
  end_ : Option Int
  capacity : Option JVal
  autoCommit : Bool
  autoProvision : Bool

/-- The outcome of `render_POST` after the payload was read as JSON, resource.py:194-262: the answer, or the reservation that
is asked for. -/
inductive Post
  | answer (code : Nat)
  | reserve (q : Reserve)

/-- `START_TIME`, `END_TIME` (resource.py:28-29) and the other field names. -/
def kSource : Str := "source".toList
def kDest : Str := "destination".toList
def kStart : Str := "start_time".toList
def kEnd : Str := "end_time".toList
def kCapacity : Str := "capacity".toList
def kCommit : Str := "auto_commit".toList
def kProvision : Str := "auto_provision".toList

/-- `_errorCode`, resource.py:62-66, for the errors of the parsers: PayloadError is an NSIError, ValueError and the like are not. -/
def stpCode : StpErr → Nat
  | .payload => 400
  | _ => 500
/-- `_errorCode`, resource.py:62-66. -/
def timeCode : WireErr → Nat
  | .payloadError => 400
  | _ => 500

/-- resource.py:196-205: the prefix is put in front if it is missing. `data[key]` raises KeyError if there is no such field, and
`startswith` AttributeError if it is no text. -/
def readStp (fields : List (Str × JVal)) (key : Str) : Except Nat STP :=
  match dget fields key with
  | some (.str s) =>
    match createSTP (if urnPrefix.isPrefixOf s then s else urnPrefix ++ s) with
    | .ok stp => .ok stp
    | .error e => .error (stpCode e)
  | _ => .error 500

/-- resource.py:206-207. A value that is no text makes the parser raise. -/
def readTime (uncommon : Str → Except WireErr ((Int × Int × Int) × Str)) (fields : List (Str × JVal)) (key : Str) : Except Nat (Option Int) :=
  match dget fields key with
  | none => .ok none
  | some (.str s) => match parseXMLTimestamp uncommon s with
    | .ok t => .ok (some t)
    | .error e => .error (timeCode e)
  | some _ => .error 500

/-- `auto_commit`, resource.py:211. -/
def autoCommit (fields : List (Str × JVal)) : Bool :=
  match dget fields kCommit with
  | some v => v.truthy
  | none => true

/-- `auto_provision`, resource.py:212. -/
def autoProvision (fields : List (Str × JVal)) : Bool :=
  match dget fields kProvision with
  | some v => v.truthy
  | none => false

/-- resource.py:194-230. Simplification: in the code both prefixes are added before either STP is read; all outcomes are answers with an
error code, of which only the code may differ. -/
def post (uncommon : Str → Except WireErr ((Int × Int × Int) × Str)) (data : JVal) : Post :=
  match data with
  | .obj fields =>
    match readStp fields kSource with
    | .error c => .answer c
    | .ok source => match readStp fields kDest with
      | .error c => .answer c
      | .ok dest => match readTime uncommon fields kStart with
        | .error c => .answer c
        | .ok start => match readTime uncommon fields kEnd with
          | .error c => .answer c
          | .ok end_ =>
            if autoProvision fields ∧ ¬ autoCommit fields then .answer 400             -- lines 214-217
            else .reserve { source, dest, start, end_, capacity := dget fields kCapacity,
                            autoCommit := autoCommit fields, autoProvision := autoProvision fields }
  | _ => .answer 500                                                                   -- no fields: TypeError

/-! ### Describing a connection -/

/-- `'%s:%s%s' % (network, port, label(...))` of `conn2dict`, resource.py:82-94. -/
def stpText (s : STP) : Str :=
  s.network ++ ':' :: (s.port ++ (match s.label with | none => [] | some l => '?' :: (l.type_ ++ '=' :: l.labelValue)))

/-! ### Automatic commit and provision -/

/-- A message the watcher sends. `accepted`: the aggregator did not refuse it at once; `at_` is the state of the connection then. -/
inductive Cmd
  | commit | provision
  deriving DecidableEq, Repr
structure Sent where
  cmd : Cmd
  accepted : Bool
  at_ : ConnStates
  deriving DecidableEq, Repr

/-- A connection made with automatic commit. `conn` is the object that the aggregator keeps for the connection (aggregator.py:101-102: all
parts of the program have the same object). `pending`: writes to the database whose observers are still to be called (state.py:95-96).
`subscribed`: `stateUpdate` is in the list of observers. -/
structure Watch where
  conn : ConnStates
  pending : Nat
  subscribed : Bool
  sent : List Sent
  deriving DecidableEq, Repr

/-- `Aggregator.reserveCommit` up to its first wait, aggregator.py:461-466: this part runs during the call, as the connection is
in the cache. -/
def Watch.commit (w : Watch) : Watch :=
  if w.conn.l = .terminated then { w with sent := w.sent ++ [⟨.commit, false, w.conn⟩] }          -- lines 463-464
  else match switchR w.conn .committing with                                                      -- line 466
    | none => { w with sent := w.sent ++ [⟨.commit, false, w.conn⟩] }
    | some c => { w with conn := c, pending := w.pending + 1, sent := w.sent ++ [⟨.commit, true, w.conn⟩] }

/-- `Aggregator.provision` up to its first wait, aggregator.py:544-550. -/
def Watch.provision (w : Watch) : Watch :=
  if w.conn.l = .terminated then { w with sent := w.sent ++ [⟨.provision, false, w.conn⟩] }       -- lines 546-547
  else match switchP w.conn .provisioning with                                                    -- line 550
    | none => { w with sent := w.sent ++ [⟨.provision, false, w.conn⟩] }
    | some c => { w with conn := c, pending := w.pending + 1, sent := w.sent ++ [⟨.provision, true, w.conn⟩] }

/-- `stateUpdate`, resource.py:243-250. -/
def Watch.stateUpdate (auto : Bool) (w : Watch) : Watch :=
  let w := if w.conn.r = .held then w.commit else w                                               -- lines 245-246
  let w := if w.conn.r = .start ∧ w.conn.p = .released ∧ auto = true then w.provision else w      -- lines 247-248
  if w.conn.p = .provisioned then { w with subscribed := false } else w                           -- lines 249-250

/-- What happens around the watcher. -/
inductive Ev
  | reserve (s : RState)       -- other parts of the program switch the reservation state, if the table allows it
  | provision (s : PState)     -- … the provision state
  | lifecycle (s : LState)     -- … the lifecycle state
  | notify                     -- a write is done and the observers are called, state.py:81-93
  | subscribe                  -- resource.py:252, after the reservation was acknowledged
  deriving DecidableEq, Repr

/-- A switch that other parts of the program ask for: refused, or made and written (state.py:95). -/
def Watch.switched (w : Watch) : Option ConnStates → Watch
  | none => w
  | some c => { w with conn := c, pending := w.pending + 1 }

/-- One step. -/
def Watch.step (auto : Bool) (w : Watch) : Ev → Watch
  | .reserve s => w.switched (switchR w.conn s)
  | .provision s => w.switched (switchP w.conn s)
  | .lifecycle s => w.switched (switchL w.conn s)
  | .notify =>
    if w.pending = 0 then w
    else
      let w' := { w with pending := w.pending - 1 }
      if w.subscribed then w'.stateUpdate auto else w'
  | .subscribe => { w with subscribed := true }

/-- A history. -/
def Watch.run (auto : Bool) (w : Watch) (es : List Ev) : Watch := es.foldl (Watch.step auto) w

/-- A connection whose reservation is being checked, and that nobody watches yet: the state in which aggregator.py:286 leaves it. -/
def Watch.new : Watch := { conn := ⟨.checking, .released, .created⟩, pending := 0, subscribed := false, sent := [] }

end OpenNSA.Rest
