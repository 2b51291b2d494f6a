/-!
Model of the command senders, which open a channel for every list of commands: `_getSSHChannel` and `_sendCommands` of
/repo/opennsa/backends/junosmx.py:137-188, junosex.py:140-189, juniperex.py:151-195 and junipervpls.py:253-297.

Simplifications: what happens on a channel is the subject of Verif/Ssh/Model.lean; here a session is either under way or over. A
channel or a session on a connection that was lost never gets an answer: Twisted closes the channels, and `SSHChannel` overrides
neither `closed` nor `openFailed` (ssh.py:95-128), so `channel_open` and `wait_defer` are never fired.
-/

namespace OpenNSA.Ssh

/-- What differs between the senders. -/
structure SenderKind where
  /-- a session needs the lock, junosmx.py:180 -/
  locking : Bool
  /-- a cached connection is used only if it was not lost, juniperex.py:174 -/
  checks : Bool
deriving DecidableEq, Repr

/-- junosmx.py:137-188 and junosex.py:140-189. -/
def mxSender : SenderKind := ⟨true, false⟩
/-- juniperex.py:151-195 and junipervpls.py:253-297. -/
def exSender : SenderKind := ⟨false, true⟩

/-- Where a call of `_sendCommands` is. -/
inductive Stage where
  | idle
  /-- waits for `getSSHConnection` -/
  | connecting
  /-- waits for `channel_open` on connection `c` -/
  | opening (c : Nat)
  /-- waits for the lock -/
  | waiting (c : Nat)
  /-- in `channel.sendCommands` -/
  | running (c : Nat)
  | done
  | failed
deriving DecidableEq, Repr

/-- A sender, its calls and its connections. -/
structure Sender where
  /-- `self.ssh_connection` -/
  conn : Option Nat := none
  /-- the number of connections made so far -/
  made : Nat := 0
  lost : List Nat := []
  stage : Nat → Stage := fun _ => .idle
  /-- the call that has the lock (`DeferredLock`) -/
  holder : Option Nat := none
  /-- the calls that wait for the lock, in order -/
  queue : List Nat := []

/-- What can happen. -/
inductive SEv where
  /-- `_sendCommands` is called for the `j`-th time -/
  | request (j : Nat)
  | connected (j : Nat)
  | refused (j : Nat)
  | opened (j : Nat)
  /-- `channel.sendCommands` returns, or raises -/
  | ended (j : Nat) (ok : Bool)
  /-- connection `c` is lost -/
  | lose (c : Nat)
deriving DecidableEq, Repr

/-- One call gets to another place. -/
def Sender.set (st : Sender) (j : Nat) (s : Stage) : Sender := { st with stage := fun k => if k = j then s else st.stage k }

/-- The cached connection, if it is used: junosmx.py:162, juniperex.py:174. -/
def Sender.usable (k : SenderKind) (st : Sender) : Option Nat :=
  match st.conn with
  | some c => if k.checks ∧ c ∈ st.lost then none else some c
  | none => none

/-- `connection_lock.release()`, junosmx.py:187: the first of those who wait goes on. -/
def Sender.release (st : Sender) : Sender :=
  match st.queue with
  | [] => { st with holder := none }
  | k :: q =>
    { st with
      holder := some k
      queue := q
      stage := fun i => if i = k then (match st.stage k with | .waiting c => .running c | s => s) else st.stage i }

/-- One thing happens. -/
def Sender.step (k : SenderKind) (st : Sender) : SEv → Sender
  | .request j =>
    if st.stage j = .idle then
      match st.usable k with
      | some c => st.set j (.opening c)
      | none => st.set j .connecting
    else st
  | .connected j =>
    if st.stage j = .connecting then { st.set j (.opening st.made) with conn := some st.made, made := st.made + 1 } else st
  | .refused j => if st.stage j = .connecting then st.set j .failed else st
  | .opened j =>
    match st.stage j with
    | .opening c =>
      if c ∈ st.lost then st
      else if k.locking then
        match st.holder with
        | none => { st.set j (.running c) with holder := some j }
        | some _ => { st.set j (.waiting c) with queue := st.queue ++ [j] }
      else st.set j (.running c)
    | _ => st
  | .ended j ok =>
    match st.stage j with
    | .running c =>
      if c ∈ st.lost then st
      else
        let st' := st.set j (if ok then .done else .failed)
        if k.locking then st'.release else st'
    | _ => st
  | .lose c => { st with lost := c :: st.lost }

/-- A run. -/
def Sender.run (k : SenderKind) (st : Sender) (evs : List SEv) : Sender := evs.foldl (Sender.step k) st

end OpenNSA.Ssh
