import Verif.Label.Model
import Verif.Stp.Model
import Verif.Authz.Model
/-
Model of /repo/opennsa/topology/nrm.py: the parser of port description files.
-/
namespace OpenNSA.Nrm
open Py

/-- What the parser raises. `NRMSpecificationError` (nrm.py:34), `error.TopologyError`, `config.ConfigurationError`, `ValueError`, and
the error of a label (nsa.py:93, 99). -/
inductive NrmErr
  | specification | topology | configuration | valueError | label
  deriving DecidableEq, Repr

/-- `NRMPort`, nrm.py:39-54. The port type is always `ethernet` (nrm.py:20, 113-114). The remote port has four parts (network, port, and the
ids of the port in both directions) or is absent. -/
structure Remote where
  network : Str
  port : Str
  in_ : Str
  out : Str
  deriving DecidableEq, Repr
structure Port where
  name : Str
  remote : Option Remote
  label : Option Label
  bandwidth : Int
  interface : Str
  authz : List Rule
  vectors : List (Str × Int)
  transitRestricted : Bool
  deriving DecidableEq, Repr

/-- `([^#]+)#`: the text before the first `#`, if not empty, and the text after it; nrm.py:31. -/
def takeNetwork (s : Str) : Option (Str × Str) :=
  match cutFirst '#' s with
  | some (a, b) => if a = [] then none else some (a, b)
  | none => none

/-- `([^\(]+)`: the longest text without `(`, if not empty, and what is left; nrm.py:31. -/
def takePort (s : Str) : Option (Str × Str) :=
  let a := s.takeWhile (· ≠ '(')
  if a = [] then none else some (a, s.dropWhile (· ≠ '('))

/-- `(.+?)` followed by the character `c`: one character, then as little as possible; nrm.py:31. A later `c` need not be tried if
the rest does not match after the first (what matches after a later one also matches after the first). -/
def takeUpTo (c : Char) : Str → Option (Str × Str)
  | [] => none
  | x :: s => match cutFirst c s with
    | some (a, b) => some (x :: a, b)
    | none => none

/-- `\((.+?)\|(.+?)\)`, nrm.py:31. -/
def takeSuffixes : Str → Option (Str × Str)
  | '(' :: s => match takeUpTo '|' s with
    | some (i, s') => match takeUpTo ')' s' with
      | some (o, _) => some (i, o)
      | none => none
    | none => none
  | _ => none

/-- `PORT_RX.match(...)`, nrm.py:31, 62-65: network, port and, if they are there, the suffixes. As there is no `$`, anything may follow.
Lines have no line feed inside, so that `.` stands for any character. -/
def matchRemote (s : Str) : Option (Str × Str × Option (Str × Str)) :=
  match takeNetwork s with
  | none => none
  | some (net, s1) => match takePort s1 with
    | none => none
    | some (port, s2) => some (net, port, takeSuffixes s2)

/-- `_parseRemoteSpec` (nrm.py:57-65) together with nrm.py:124-136. -/
def parseRemote (s : Str) : Except NrmErr (Option Remote) :=
  if s = ['-'] then .ok none
  else match matchRemote s with
    | none => .error .topology
    | some (_, _, none) => .error .specification
    | some (net, port, some (i, o)) =>
      let base := net ++ ':' :: port
      .ok (some ⟨net, port, base ++ i, base ++ o⟩)

/-- `_parseLabelSpec`, nrm.py:68-82. -/
def parseLabel (s : Str) : Except NrmErr (Option Label) :=
  if s = ['-'] then .ok none
  else match cutFirst ':' s with
    | none => .error .topology
    | some (alias, range) =>
      if alias = tVlan ∨ alias = tMpls then
        match Label.mk' alias (.str range) with
        | .ok l => .ok (some l)
        | .error _ => .error .label
      else .error .topology

/-- `'vector'`, nrm.py:22. -/
def kVector : Str := "vector".toList
/-- `cnt.RESTRICTTRANSIT`, constants.py:33. -/
def kRestrict : Str := "restricttransit".toList

/-- What the attributes of a port set, nrm.py:139-141. -/
structure Attrs where
  authz : List Rule
  vectors : List (Str × Int)
  restricted : Bool
  deriving DecidableEq, Repr

/-- Body of the loop of nrm.py:143-162. `ak, av = aa.split('=', 2)` raises ValueError if there are two `=`. -/
def addAttr (at_ : Attrs) (aa : Str) : Except NrmErr Attrs :=
  if '=' ∈ aa then
    match splitOn '=' aa with
    | [ak, av] =>
      if ak ∈ headerAttributes ∨ ak = hostDn then .ok { at_ with authz := at_.authz ++ [⟨ak, av⟩] }
      else if ak = kVector then
        match cutFirst '@' av with
        | none => .error .configuration
        | some (network, weight) => match pyInt weight with
          | none => .error .valueError
          | some w => .ok { at_ with vectors := dset at_.vectors network w }
      else .error .configuration
    | _ => .error .valueError
  else if aa = kRestrict then .ok { at_ with restricted := true }
  else .error .configuration

/-- The loop. -/
def addAttrs (at_ : Attrs) : List Str → Except NrmErr Attrs
  | [] => .ok at_
  | aa :: rest => match addAttr at_ aa with
    | .error e => .error e
    | .ok a => addAttrs a rest

/-- nrm.py:139-162. -/
def parseAttrs (s : Str) : Except NrmErr Attrs :=
  if s = ['-'] then .ok ⟨[], [], false⟩ else addAttrs ⟨[], [], false⟩ (splitOn ',' s)

/-- `[ t for t in line.split(' ') if t != '' ]`, nrm.py:107. -/
def tokens (line : Str) : List Str := (splitOn ' ' line).filter (· ≠ [])

/-- `cnt.ETHERNET`, constants.py:29. -/
def kEthernet : Str := "ethernet".toList

/-- One line that is neither blank nor a comment, nrm.py:107-164. -/
def parseLine (line : Str) : Except NrmErr Port :=
  match tokens line with
  | [portType, name, remote, label, bandwidth, interface, authz] =>
    if portType ≠ kEthernet then .error .topology
    else match parseRemote remote with
      | .error .topology => .error .topology
      | r => match parseLabel label with
        | .error e => .error e
        | .ok label => match pyInt bandwidth with
          | none => .error .specification
          | some bandwidth => match r with
            | .error e => .error e
            | .ok remote => match parseAttrs authz with
              | .error e => .error e
              | .ok a => .ok ⟨name, remote, label, bandwidth, interface, a.authz, a.vectors, a.restricted⟩
  | _ => .error .specification

/-- nrm.py:103-105: lines that are skipped. -/
def skipped (line : Str) : Bool := strip line = [] || (strip line).head? = some '#'

/-- `parsePortSpec`, nrm.py:86-166. -/
def parsePortSpec : List Str → Except NrmErr (List Port)
  | [] => .ok []
  | line :: rest =>
    if skipped line then parsePortSpec rest
    else match parseLine (strip line) with
      | .error e => .error e
      | .ok p => match parsePortSpec rest with
        | .error e => .error e
        | .ok ps => .ok (p :: ps)

end OpenNSA.Nrm
