import Verif.Py

/-!
Model of the command sessions of the backends that configure a device over SSH: the classes `SSHChannel` of
/repo/opennsa/backends/brocade.py:90-158, force10.py:119-212, pica8ovs.py:60-135, junosmx.py:55-134, junosex.py:57-136,
juniperex.py:69-147 and junipervpls.py:150-249.

Simplifications: logging is left out (it raises in one place, see `received`); what is written to the channel reaches the device
complete and in order (SSH), and the answers of the device reach the channel in order, cut into packets in any way.
-/

namespace OpenNSA.Ssh
open Py

/-- The two types of character data of Python 3; adding one to the other raises `TypeError`. -/
inductive Kind where
  | text
  | bytes
deriving DecidableEq, Repr

/-- How `dataReceived` looks for what is awaited: in all data since the last time it was found (brocade.py:148-158), in lines that
are equal to it (junosmx.py:113-121) or in lines that have it (juniperex.py:126-134). -/
inductive Matcher where
  | data
  | lineIs
  | lineHas
deriving DecidableEq, Repr

/-- What differs between the channel classes. -/
structure Proto where
  matcher : Matcher
  /-- the type of the buffer, `self.data` or `self.line`, in `__init__` -/
  buffer : Kind
  /-- whether waiting has a time limit -/
  timed : Bool
deriving DecidableEq, Repr

/-- brocade.py:97, 148-158. -/
def brocade : Proto := ⟨.data, .bytes, false⟩
/-- force10.py:126, 200-211. -/
def force10 : Proto := ⟨.data, .text, false⟩
/-- pica8ovs.py:67, 124-134. -/
def pica8 : Proto := ⟨.data, .text, false⟩
/-- junosmx.py:62, 113-134. -/
def junosmx : Proto := ⟨.lineIs, .text, false⟩
/-- junosex.py:64, 115-136. -/
def junosex : Proto := ⟨.lineIs, .text, false⟩
/-- juniperex.py:76, 126-147. -/
def juniperex : Proto := ⟨.lineHas, .text, false⟩
/-- junipervpls.py:157, 195-249. -/
def vpls : Proto := ⟨.lineHas, .text, true⟩

/-- One stretch of `sendCommands` between two yields: `d = self.waitForData(wait)`, the calls of `self.write`, `yield d`. -/
structure Step where
  writes : List Str
  wait : Str
deriving DecidableEq, Repr

/-- A whole `sendCommands`: its waits, and what is written after the last one. -/
structure Script where
  steps : List Step
  last : List Str
deriving DecidableEq, Repr

/-- `sendCommands`, brocade.py:104-139. `LT = '\r'`. -/
def brocadeScript (password : Str) (commands : List Str) : Script :=
  { steps := [⟨["enable ".toList ++ password ++ ['\r']], ['>']⟩, ⟨["configure terminal\r".toList], ['#']⟩]
      ++ commands.map (fun c => ⟨[c ++ ['\r']], ['#']⟩) ++ [⟨["end\r".toList], ['#']⟩]
    last := [] }

/-- `sendCommands`, force10.py:133-191. The first wait has nothing written before it. -/
def force10Script (password : Str) (commands : List Str) : Script :=
  { steps := [⟨[], ['>']⟩, ⟨["enable\r".toList], [':']⟩, ⟨[password ++ ['\r']], ['#']⟩, ⟨["configure\r".toList], ['#']⟩]
      ++ commands.map (fun c => ⟨[c ++ ['\r']], ['#']⟩) ++ [⟨["write\r".toList], ['#']⟩]
    last := ["exit\r".toList] }

/-- `sendCommands`, pica8ovs.py:74-115. `LT = '\n'`; every command is followed by an `echo`. -/
def pica8Script (commands : List Str) : Script :=
  { steps := [⟨["echo\n".toList], ['\n']⟩]
      ++ commands.map (fun c => ⟨[c ++ ['\n'], "echo\n".toList], ['\n']⟩) ++ [⟨["echo\n".toList], ['\n']⟩]
    last := [] }

/-- `sendCommands` of the JunOS classes: junosmx.py:69-104 and junosex.py:71-106 (`edit private`; the line that is awaited is
`[edit]` and `{master:0}[edit]`), juniperex.py:83-117 (`configure`; it first waits for `>`), junipervpls.py:164-192
(`configure private`). -/
def junosScript (configure entered edit : Str) (commands : List Str) : Script :=
  { steps := [⟨[configure ++ ['\r']], entered⟩] ++ commands.map (fun c => ⟨[c ++ ['\r']], edit⟩)
      ++ [⟨["commit\r".toList], "commit complete".toList⟩]
    last := [] }

/-- junosmx.py:69-104. -/
def junosmxScript : List Str → Script := junosScript "edit private".toList "[edit]".toList "[edit]".toList
/-- junosex.py:71-106. -/
def junosexScript : List Str → Script :=
  junosScript "edit private".toList "{master:0}[edit]".toList "{master:0}[edit]".toList
/-- juniperex.py:83-117. -/
def juniperexScript : List Str → Script := junosScript "configure".toList ['>'] "[edit]".toList
/-- junipervpls.py:164-192. -/
def vplsScript : List Str → Script := junosScript "configure private".toList "[edit]".toList "[edit]".toList

/-- A channel and the call of `sendCommands` that runs on it. -/
structure Chan where
  /-- `self.data` or `self.line` -/
  buf : Str := []
  /-- `self.wait_data` or `self.wait_line`; `wait_defer` is set and reset together with it -/
  wait : Option Str := none
  /-- what `sendCommands` has still to do -/
  todo : List Step
  last : List Str
  /-- everything that was written -/
  sent : List Str := []
  /-- the request for a shell was answered, brocade.py:109 -/
  started : Bool := false
  /-- `sendEOF` and `closeIt` were called, brocade.py:137-138, and the deferred of `sendCommands` has fired -/
  closed : Bool := false
deriving DecidableEq, Repr

/-- `sendCommands` goes on from a yield to the next one, or to its end. -/
def Chan.resume (ch : Chan) : Chan :=
  match ch.todo with
  | [] => { ch with sent := ch.sent ++ ch.last, closed := true }
  | s :: t => { ch with todo := t, wait := some s.wait, sent := ch.sent ++ s.writes }

/-- `w in s` of Python. -/
def has (w : Str) : Str → Bool
  | [] => w.isEmpty
  | c :: s => w.isPrefixOf (c :: s) || has w s

/-- `[ line.strip() for line in s.split('\n') if line.strip() ]`, junosmx.py:130. -/
def linesOf (s : Str) : List Str := ((splitOn '\n' s).map strip).filter (fun l => l ≠ [])

/-- What was awaited has come: both fields are reset and `d.callback(self)` is called, which continues `sendCommands`,
junosmx.py:116-119. -/
def Chan.fire (ch : Chan) : Chan := Chan.resume { ch with wait := none }

/-- The test of `matchLine`, junosmx.py:115 and juniperex.py:128. -/
def lineFits (m : Matcher) (w line : Str) : Bool :=
  match m with
  | .lineIs => w == strip line
  | .lineHas => has w (strip line)
  | .data => false

/-- `matchLine`, junosmx.py:113-121, juniperex.py:126-134, junipervpls.py:215-236. -/
def Chan.matchLine (m : Matcher) (ch : Chan) (line : Str) : Chan :=
  match ch.wait with
  | some w => if w ≠ [] ∧ lineFits m w line then ch.fire else ch
  | none => ch

/-- `dataReceived` with data that can be added to the buffer: brocade.py:148-158 and junosmx.py:124-134. -/
def Chan.received (m : Matcher) (ch : Chan) (data : Str) : Chan :=
  if data = [] then ch
  else
    let buf := ch.buf ++ data
    match m with
    | .data =>
      match ch.wait with
      | some w => if w ≠ [] ∧ has w buf then Chan.fire { ch with buf := [] } else { ch with buf := buf }
      | none => { ch with buf := buf }
    | _ =>
      if '\n' ∈ data then (linesOf buf).foldl (Chan.matchLine m) { ch with buf := [] }
      else { ch with buf := buf }

/-- `waitTimeout`, junipervpls.py:207-212: `wd = self.wait_defer = None` sets both names to `None`, so `defer.timeout(None)`
raises `AttributeError` in the reactor, and nothing happens to the deferred that `sendCommands` waits for. -/
def Chan.waitTimeout (ch : Chan) : Chan := { ch with wait := none }

/-- A device: what it prints when it gets the n-th text written to it, in pieces that are not cut any further. If every piece is
one character, then the text is cut in any way. -/
abbrev Dev := Nat → List Str

/-- The channel, what the device has printed and has not arrived, and how many of the texts written to it the device has
answered. -/
structure World where
  ch : Chan
  out : List Str
  answered : Nat := 0
  /-- exceptions raised in `dataReceived` -/
  errors : Nat := 0
deriving DecidableEq, Repr

/-- What can happen. -/
inductive Ev where
  /-- the request for a shell is answered -/
  | shell
  /-- the device answers the next text that was written to it -/
  | answer
  /-- the next `n` pieces arrive in one packet -/
  | deliver (n : Nat)
  /-- the time limit of the present wait is reached -/
  | timeout
deriving DecidableEq, Repr

/-- One thing happens. `arrive` is the type of the data that `dataReceived` is called with. If it is not the type of the buffer,
then `self.line += data` (in force10.py:201 the log message before it) raises `TypeError`, and nothing has changed. -/
def World.step (p : Proto) (arrive : Kind) (dev : Dev) (w : World) : Ev → World
  | .shell => if w.ch.started then w else { w with ch := Chan.resume { w.ch with started := true } }
  | .answer =>
    if w.answered < w.ch.sent.length then { w with out := w.out ++ dev w.answered, answered := w.answered + 1 } else w
  | .deliver n =>
    let data := (w.out.take n).flatten
    if data = [] then { w with out := w.out.drop n }
    else if p.buffer = arrive then { w with ch := w.ch.received p.matcher data, out := w.out.drop n }
    else { w with out := w.out.drop n, errors := w.errors + 1 }
  | .timeout => if p.timed ∧ w.ch.wait.isSome then { w with ch := w.ch.waitTimeout } else w

/-- A run. -/
def World.run (p : Proto) (arrive : Kind) (dev : Dev) (w : World) (evs : List Ev) : World := evs.foldl (World.step p arrive dev) w

/-- The beginning of a session: nothing is written, the device prints its banner. -/
def Script.begin (s : Script) (banner : List Str) : World :=
  { ch := { todo := s.steps, last := s.last }, out := banner }

end OpenNSA.Ssh
