import Verif.LinkVector.Props
import Verif.Registry.Props
import Verif.Stp.Model
/-
Model of /repo/opennsa/discovery/fetcher.py (processing of a peer's discovery document), and of the part of
/repo/opennsa/setup.py that fills the vectors with the own ports.
-/
namespace OpenNSA.Discovery
open Py OpenNSA.Registry

/-- `cnt.CS2_PROVIDER`, constants.py:20. -/
def cs2Provider : Str := "application/vnd.ogf.nsi.cs.v2.provider+soap".toList
/-- `cnt.CS2_SERVICE_TYPE`, constants.py:16. -/
def cs2ServiceType : Str := "application/vnd.org.ogf.nsi.cs.v2+soap".toList

/-- A discovery document as `discovery.parse` returns it (discovery/bindings/discovery.py:30-57). `none` for a text stands for a missing
or empty element or attribute. `reach` lists the entries of all `other` elements, in order (fetcher.py:96-101); a cost that is no
number makes the parser raise (bindings/discovery.py:136), so that there is no document. -/
structure Doc where
  id : Option Str
  networkIds : List (Option Str)
  interfaces : Option (List (Option Str × Option Str))     -- type, href
  reach : List (Option Str × Int)                          -- uri, cost
  deriving DecidableEq, Repr

/-- `_baseName`, topology/nmlxml.py:123-126; `none` for the AssertionError (and the AttributeError for None). -/
def baseName : Option Str → Option Str
  | none => none
  | some s => if urnPrefix.isPrefixOf s then some (s.drop urnPrefix.length) else none

/-- Choice of the service URL, fetcher.py:75-80. -/
def serviceUrl (l : List (Option Str × Option Str)) : Option Str :=
  l.foldl (fun url i =>
    if i.1 = some cs2Provider then i.2
    else if i.1 = some cs2ServiceType ∧ url = none then i.2
    else url) none

/-- `[ _baseName(x) for x in ... if x.startswith(prefix) ]`, fetcher.py:86; `none` for the AttributeError if an element is None. -/
def baseNames : List (Option Str) → Option (List Str)
  | [] => some []
  | none :: _ => none
  | some s :: rest =>
    match baseNames rest with
    | none => none
    | some l => some (if urnPrefix.isPrefixOf s then s.drop urnPrefix.length :: l else l)

/-- The loop of fetcher.py:97-101. -/
def advertised : List (Option Str × Int) → Vec → Option Vec
  | [], v => some v
  | (none, _) :: _, _ => none
  | (some s, c) :: rest, v => advertised rest (if urnPrefix.isPrefixOf s then dset v (s.drop urnPrefix.length) (c + 1) else v)

/-- The vectors announced, fetcher.py:95-103. -/
def vectorsOf (reach : List (Option Str × Int)) (nets : List Str) : Option Vec :=
  match advertised reach [] with
  | none => none
  | some v => some (nets.foldl (fun v n => dset v n 1) v)

/-- `networks` of setup.py:204-264, as far as the fetcher reads it: per own network its ports, with name and remote network. -/
abbrev Ports := List (Str × List (Str × Option Str))

/-- The ports that are updated, in the order of fetcher.py:107-109. -/
def facing (nets : List Str) (ports : Ports) : List (Str × Str) :=
  ports.flatMap fun no => (no.2.filter fun np => match np.2 with | none => false | some r => r ∈ nets).map fun np => (no.1, np.1)

/-- What the fetcher changes. -/
structure Fetcher (π : Type) where
  reg : Reg π
  lv : LinkVector

variable {π : Type}

/-- The loop of fetcher.py:91-92; the Boolean is false if a call raised. `made n` is what the factory gives for network `n`. -/
def spawnAll (agent : Agent) (made : Str → Option π) : List Str → Reg π → Reg π × Bool
  | [], r => (r, true)
  | n :: ns, r => match r.spawnProvider agent n (made n) with
    | .error _ => (r, false)
    | .ok (r', _) => spawnAll agent made ns r'

/-- The loop of fetcher.py:107-111; an exception of `updateVector` ends it. The new entry shares the dictionary `vectors` if there was
none for the port (linkvector.py:98), which is not modelled: the ports in question always have one (`C53_no_sharing`). -/
def updateAll (vec : Vec) : List (Str × Str) → LinkVector → LinkVector
  | [], lv => lv
  | (n, p) :: rest, lv =>
    let r := lv.step (.update n p vec)
    if r.2 then updateAll vec rest r.1 else r.1

/-- `gotDocument` with a document that could be read, fetcher.py:70-120. -/
def gotDocument (ports : Ports) (made : Str → Option π) (st : Fetcher π) (d : Doc) : Fetcher π :=
  match d.interfaces with
  | none => st                                                             -- TypeError
  | some interfaces => match serviceUrl interfaces with
    | none => st                                                           -- lines 82-84
    | some _ => match baseNames d.networkIds with
      | none => st
      | some nets => match baseName d.id with                              -- line 89
        | none => st
        | some ident =>
          let (reg, ok) := spawnAll ⟨urnPrefix ++ ident, cs2ServiceType⟩ made nets st.reg
          if !ok then { st with reg }
          else match vectorsOf d.reach nets with
            | none => { st with reg }
            | some vec =>
              if vec = [] then { st with reg }                             -- line 106
              else { reg, lv := updateAll vec (facing nets ports) st.lv }

/-- Documents one after the other, each with the providers that the factory would make then. -/
def gotDocuments (ports : Ports) (st : Fetcher π) (ds : List (Doc × (Str → Option π))) : Fetcher π :=
  ds.foldl (fun st d => gotDocument ports d.2 st d.1) st

/-- The updates setup.py:246-253 makes: each own network, and its ports to other networks. Ports that are configured with further vectors
make setup.py:255 raise a TypeError, so that the program does not start; they are left out. -/
def setupOps (ports : Ports) : List LvOp :=
  ports.flatMap fun no => .addLocal no.1 :: no.2.flatMap fun np => match np.2 with
    | none => []
    | some r => [.update no.1 np.1 [(r, 1)]]

end OpenNSA.Discovery
