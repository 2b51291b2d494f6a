import Verif.Nrm.Model
import Verif.Label.Spec
/-
What port description files mean, without reference to the parser.
-/
namespace OpenNSA.Nrm
open Py

/-- The text consists of these fields, separated by one or more spaces. -/
inductive Fields : Str → List Str → Prop
  | nil : Fields [] []
  | space {s : Str} {l : List Str} : Fields s l → Fields (' ' :: s) l
  | field {t s : Str} {l : List Str} : t ≠ [] → ' ' ∉ t → (s = [] ∨ ∃ s', s = ' ' :: s') → Fields s l → Fields (t ++ s) (t :: l)

/-- `core` is the text without the white space around it. -/
def Core (line core : Str) : Prop :=
  ∃ a b, line = a ++ core ++ b ∧ (∀ c ∈ a, isSpace c = true) ∧ (∀ c ∈ b, isSpace c = true) ∧
    (∀ c, core.head? = some c → isSpace c = false) ∧ (∀ c, core.getLast? = some c → isSpace c = false)

/-- The remote port: `-`, or `network#port(in|out)` (anything that follows is ignored). -/
def RemoteMeans (s : Str) : Option Remote → Prop
  | none => s = ['-']
  | some r => ∃ i o rest, s = r.network ++ '#' :: (r.port ++ '(' :: (i ++ '|' :: (o ++ ')' :: rest))) ∧
      r.network ≠ [] ∧ '#' ∉ r.network ∧ r.port ≠ [] ∧ '(' ∉ r.port ∧ i ≠ [] ∧ '|' ∉ i.tail ∧ o ≠ [] ∧ ')' ∉ o.tail ∧
      r.in_ = r.network ++ ':' :: (r.port ++ i) ∧ r.out = r.network ++ ':' :: (r.port ++ o)

/-- The label: `-`, or `vlan:` or `mpls:` and the values. -/
def LabelMeans (s : Str) : Option Label → Prop
  | none => s = ['-']
  | some l => ∃ range items, s = l.type_ ++ ':' :: range ∧ (l.type_ = tVlan ∨ l.type_ = tMpls) ∧ ItemsOf range items ∧
      (∀ i ∈ items, ∃ lo hi, ItemDen i lo hi) ∧ Canonical l.values ∧ (∀ n, l.has n ↔ Named items n) ∧ l.listPairs = false

/-- An attribute of a port. -/
inductive Attr
  | rule (k v : Str)
  | vector (network : Str) (weight : Int)
  | restrict
  deriving DecidableEq, Repr

/-- The text of an attribute. -/
inductive Reads : Str → Attr → Prop
  | rule (k v : Str) : k ∈ headerAttributes ∨ k = "hostdn".toList → '=' ∉ v → Reads (k ++ '=' :: v) (.rule k v)
  | vector (n t : Str) (w : Int) : '@' ∉ n → '=' ∉ n → '=' ∉ t → pyInt t = some w → Reads (kVector ++ '=' :: (n ++ '@' :: t)) (.vector n w)
  | restrict : Reads "restricttransit".toList .restrict

/-- The last weight given for a network. -/
def lastWeight (n : Str) : List Attr → Option Int
  | [] => none
  | a :: l => match lastWeight n l with
    | some w => some w
    | none => match a with
      | .vector m w => if m = n then some w else none
      | _ => none

/-- The attributes: `-`, or a list separated by commas. -/
def AttrsMean (s : Str) (rules : List Rule) (vectors : List (Str × Int)) (restricted : Bool) : Prop :=
  (s = ['-'] ∧ rules = [] ∧ vectors = [] ∧ restricted = false) ∨
  (s ≠ ['-'] ∧ ∃ texts attrs, ItemsOf s texts ∧ texts.length = attrs.length ∧ (∀ p ∈ texts.zip attrs, Reads p.1 p.2) ∧
    rules = (attrs.filterMap fun | .rule k v => some ⟨k, v⟩ | _ => none) ∧
    (∀ n, dget vectors n = lastWeight n attrs) ∧
    (restricted = true ↔ Attr.restrict ∈ attrs))

/-- What a line means. -/
def LineMeans (line : Str) (p : Port) : Prop :=
  ∃ core remote label bandwidth authz, Core line core ∧
    Fields core [kEthernet, p.name, remote, label, bandwidth, p.interface, authz] ∧
    RemoteMeans remote p.remote ∧ LabelMeans label p.label ∧ pyInt bandwidth = some p.bandwidth ∧
    AttrsMean authz p.authz p.vectors p.transitRestricted

/-- Blank lines and comments. -/
def Ignored (line : Str) : Prop := (∀ c ∈ line, isSpace c = true) ∨ ∃ a b, line = a ++ '#' :: b ∧ ∀ c ∈ a, isSpace c = true

/-- What a file means: the ports of its lines that are not ignored, in order. -/
inductive FileMeans : List Str → List Port → Prop
  | nil : FileMeans [] []
  | ignored {line : Str} {lines : List Str} {ps : List Port} : Ignored line → FileMeans lines ps → FileMeans (line :: lines) ps
  | port {line : Str} {lines : List Str} {p : Port} {ps : List Port} : ¬ Ignored line → LineMeans line p → FileMeans lines ps →
      FileMeans (line :: lines) (p :: ps)

/-- Two ports that differ at most in the order of their vectors. -/
def Port.Same (p q : Port) : Prop :=
  p.name = q.name ∧ p.remote = q.remote ∧ p.label = q.label ∧ p.bandwidth = q.bandwidth ∧ p.interface = q.interface ∧ p.authz = q.authz ∧
    (∀ n, dget p.vectors n = dget q.vectors n) ∧ p.transitRestricted = q.transitRestricted

end OpenNSA.Nrm
