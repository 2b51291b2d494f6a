import Verif.Py

/-!
Model of how a backend gets a connection to its device: /repo/opennsa/backends/common/ssh.py, the constructors that read the
configuration (brocade.py:197-209, force10.py:250-272, pica8ovs.py:250-266, juniperex.py:281-296, junipervpls.py:400-416,
junosex.py:264-279, junosmx.py:290-311), and the senders that make a connection for every list of commands (brocade.py:171-191,
force10.py:224-246, pica8ovs.py:149-168).

Simplifications: the SSH protocol is Twisted's. It is taken to call `verifyHostKey` with the fingerprint of a key that the host has
proven to hold, `connectionSecure` only if that was accepted, to disconnect if it was not or if no authentication method is left, to
send a password or a signature only when the host asks for one, and to call `serviceStarted` when the host has accepted the user. There
is one key exchange for each connection. Key files can be read. Logging is left out.
-/

namespace OpenNSA.SshLogin
open Py

/-- The port of the device: the number 22 if none is configured, else the text in the configuration file (`cfg.get(PORT, 22)`, e.g.
brocade.py:202; config.py:420 makes no numbers). -/
inductive Port where
  | num (n : Nat)
  | text (t : Str)
deriving DecidableEq, Repr

/-- `SSHConnectionCreator.__init__`, ssh.py:135-142. -/
structure Creator where
  host : Str
  port : Port
  fingerprints : List Str
  username : Str
  publicKey : Option Str := none
  privateKey : Option Str := none
  password : Option Str := none
deriving DecidableEq, Repr

/-- What constructing a backend can raise. -/
inductive InitErr where
  | keyError (k : Str)
  /-- `UnboundLocalError`, force10.py:272 -/
  | unbound
deriving DecidableEq, Repr

/-- `cfg[k]`. -/
def need (cfg : List (Str × Str)) (k : Str) : Except InitErr Str :=
  match dget cfg k with
  | some v => .ok v
  | none => .error (.keyError k)

/-- config.py:70-76. -/
def kHost : Str := "host".toList
def kPort : Str := "port".toList
def kFingerprint : Str := "fingerprint".toList
def kUser : Str := "user".toList
def kPassword : Str := "password".toList
def kPublicKey : Str := "publickey".toList
def kPrivateKey : Str := "privatekey".toList

/-- `cfg.get(PORT, 22)`. -/
def portOf (cfg : List (Str × Str)) : Port :=
  match dget cfg kPort with
  | some t => .text t
  | none => .num 22

/-- The configuration of the backends that have ssh keys: brocade.py:201-206 and 165-168, pica8ovs.py:257-262 and 140-143,
juniperex.py:288-293, junipervpls.py:407-412, junosex.py:270-275, junosmx.py:296-301. (What else they read is left out: the enable
password of brocade, the routers of junosmx, ...) -/
def withKeys (cfg : List (Str × Str)) : Except InitErr Creator := do
  let host ← need cfg kHost
  let fingerprint ← need cfg kFingerprint
  let user ← need cfg kUser
  let publicKey ← need cfg kPublicKey
  let privateKey ← need cfg kPrivateKey
  pure { host, port := portOf cfg, fingerprints := [fingerprint], username := user, publicKey := some publicKey,
         privateKey := some privateKey }

/-- `Force10ConnectionManager.__init__`, force10.py:252-272: the creator and the enable password. After the branch for keys the local
variable `password` has no value. -/
def force10Init (cfg : List (Str × Str)) : Except InitErr (Creator × Str) := do
  let host ← need cfg kHost
  let fingerprint ← need cfg kFingerprint
  let user ← need cfg kUser
  match dget cfg kPassword with
  | some password =>
    pure ({ host, port := portOf cfg, fingerprints := [fingerprint], username := user, password := some password }, password)
  | none =>
    let _ ← need cfg kPublicKey
    let _ ← need cfg kPrivateKey
    .error .unbound

/-- What the user is authenticated with. -/
inductive Cred where
  | keys (publicKey privateKey : Str)
  | password (p : Str)
deriving DecidableEq, Repr

/-- A text that is given and not empty. -/
def given : Option Str → Option Str
  | some [] => none
  | o => o

/-- `gotTCPConnection`, ssh.py:167-175: keys if both are given, else the password, else `AssertionError`. -/
def Creator.cred (c : Creator) : Option Cred :=
  match given c.publicKey, given c.privateKey with
  | some a, some b => some (.keys a b)
  | _, _ =>
    match given c.password with
    | some p => some (.password p)
    | none => none

/-- Methods of authentication that a host can ask for. -/
inductive Method where
  | publickey
  | password
  /-- `keyboard-interactive` and others: not overridden, so refused -/
  | other
deriving DecidableEq, Repr

/-- What is sent to a host (besides the key exchange). -/
inductive Sent where
  /-- a disconnect message -/
  | bye
  /-- the name of the user -/
  | user (name : Str)
  /-- a signature with the private key that is in this file -/
  | signature (privateKey : Str)
  | password (p : Str)
  /-- text on a channel -/
  | text (t : Str)
deriving DecidableEq, Repr

/-- Something that only the configured device may get. -/
def Sent.confidential : Sent → Bool
  | .bye => false
  | _ => true

/-- How far a connection is. -/
inductive Phase where
  | dialing
  | handshake
  /-- the host key was accepted -/
  | verified
  /-- encrypted; the user is being authenticated -/
  | authenticating
  | up
  /-- nothing comes any more -/
  | over
deriving DecidableEq, Repr

/-- What the `Deferred` of `getSSHConnection` is fired with. -/
inductive Told where
  | connection
  | unreachable
  /-- `AssertionError`, ssh.py:173 -/
  | noCredentials
deriving DecidableEq, Repr

/-- One call of `getSSHConnection`, and its connection. -/
structure Login where
  phase : Phase := .dialing
  /-- the fingerprint of the key of the host -/
  host : Option Str := none
  /-- the user was accepted -/
  accepted : Bool := false
  /-- the TCP connection is open -/
  tcp : Bool := false
  sent : List Sent := []
  told : List Told := []
deriving DecidableEq, Repr

/-- What can happen to a connection. -/
inductive LEv where
  | dialed (ok : Bool)
  | hostKey (fingerprint : Str)
  | newKeys
  | ask (m : Method)
  | granted
  | denied
  /-- the backend writes to a channel -/
  | write (t : Str)
  /-- the backend closes the connection -/
  | close
  | lost
deriving DecidableEq, Repr

/-- `createTCPConnection`, ssh.py:145-160. A port that is a text is looked up as the name of a service (Twisted, `socket.getservbyname`);
if there is none the connection fails. `services` is the list of services of the machine. -/
def Login.start (services : Str → Option Nat) (c : Creator) : Login :=
  match c.port with
  | .num _ => {}
  | .text t =>
    match services t with
    | some _ => {}
    | none => { phase := .over, told := [.unreachable] }

/-- What is sent when the host asks for a method: `KeyUserAuthClient` and `PasswordUserAuthClient`, ssh.py:59-84. -/
def answer : Option Cred → Method → List Sent
  | some (.keys _ k), .publickey => [.signature k]
  | some (.password p), .password => [.password p]
  | _, _ => []

/-- One thing happens. -/
def Login.step (c : Creator) (l : Login) : LEv → Login
  | .dialed ok =>
    if l.phase = .dialing then
      if ok then { l with phase := .handshake, tcp := true }
      else { l with phase := .over, told := l.told ++ [.unreachable] }
    else l
  | .hostKey fp =>
    -- `verifyHostKey`, ssh.py:22-29
    if l.phase = .handshake then
      if fp ∈ c.fingerprints then { l with phase := .verified, host := some fp }
      else { l with phase := .over, host := some fp, tcp := false, sent := l.sent ++ [.bye] }
    else l
  | .newKeys =>
    -- `connectionSecure`, ssh.py:32-33, then `gotProtocol`, 150-153, and `gotTCPConnection`, 167-175
    if l.phase = .verified then
      match c.cred with
      | some _ => { l with phase := .authenticating, sent := l.sent ++ [.user c.username] }
      | none => { l with phase := .over, told := l.told ++ [.noCredentials] }
    else l
  | .ask m => if l.phase = .authenticating then { l with sent := l.sent ++ answer c.cred m } else l
  | .granted =>
    -- `serviceStarted`, ssh.py:94-95
    if l.phase = .authenticating then { l with phase := .up, accepted := true, told := l.told ++ [.connection] } else l
  | .denied => if l.phase = .authenticating then { l with phase := .over, tcp := false, sent := l.sent ++ [.bye] } else l
  | .write t => if l.phase = .up then { l with sent := l.sent ++ [.text t] } else l
  | .close => if l.phase = .up then { l with phase := .over, tcp := false } else l
  | .lost => if l.tcp then { l with phase := .over, tcp := false } else l

/-- A run. -/
def Login.run (c : Creator) (l : Login) (evs : List LEv) : Login := evs.foldl (Login.step c) l

/-! ### A connection for every list of commands -/

/-- Where a call of `sendCommands` is: brocade.py:171-191, force10.py:224-246, pica8ovs.py:149-168. -/
inductive Place where
  /-- waits for `getSSHConnection` -/
  | login
  /-- waits for `channel_open` -/
  | opening
  /-- in `channel.sendCommands` -/
  | running
  | done
  | failed
deriving DecidableEq, Repr

/-- One call of `sendCommands`. -/
structure Call where
  login : Login
  place : Place := .login
deriving DecidableEq, Repr

/-- What can happen to a call. -/
inductive CEv where
  | net (e : LEv)
  | opened
  /-- the device does not open the channel: `openFailed` of Twisted only logs, and `channel_open` is not fired -/
  | unopened
  | text (t : Str)
  /-- `channel.sendCommands` returns, or raises -/
  | ended (ok : Bool)
deriving DecidableEq, Repr

/-- One thing happens to the call. Writing and closing is up to the call. -/
def Call.step (c : Creator) (k : Call) : CEv → Call
  | .net (.write _) => k
  | .net .close => k
  | .net e =>
    let l := k.login.step c e
    if k.place = .login then
      match l.told with
      | [] => { k with login := l }
      | .connection :: _ => { login := l, place := .opening }
      | _ :: _ => { login := l, place := .failed }
    else { k with login := l }
  | .opened => if k.place = .opening ∧ k.login.phase = .up then { k with place := .running } else k
  | .unopened => k
  | .text t => if k.place = .running then { k with login := k.login.step c (.write t) } else k
  | .ended ok =>
    -- `finally: ssh_connection.transport.loseConnection()`, brocade.py:190-191
    if k.place = .running then { login := k.login.step c .close, place := if ok then .done else .failed } else k

/-- The call begins. -/
def Call.start (services : Str → Option Nat) (c : Creator) : Call :=
  let l := Login.start services c
  { login := l, place := if l.told = [] then .login else .failed }

/-- A run. -/
def Call.run (c : Creator) (k : Call) (evs : List CEv) : Call := evs.foldl (Call.step c) k

end OpenNSA.SshLogin
