import Verif.Stp.Model
import Verif.Label.Spec
/-
Specification of STP texts: a relation between texts and termination points, with the separator before the
label as parameter (`?` in URNs, `#` on the command line).
-/
namespace OpenNSA
open Py

/-- `StpText sep t stp`: the text `t` denotes `stp`.
`network:port` without label, or `network:port<sep>type=values` with one of the two known label types. -/
inductive StpText (sep : Char) : Str → STP → Prop
  | plain (n p : Str) : sep ∉ n → sep ∉ p → ':' ∉ p → StpText sep (n ++ ':' :: p) ⟨n, p, none⟩
  | labelled (n p ty v : Str) (l : Label) : sep ∉ n → sep ∉ p → ':' ∉ p → (ty = tVlan ∨ ty = tMpls) →
      sep ∉ v → '=' ∉ v → Label.mk' ty (.str v) = .ok l →
      StpText sep ((n ++ ':' :: p) ++ sep :: (ty ++ '=' :: v)) ⟨n, p, some l⟩

/-- Names that can be serialised: no `?`, no `:` in the port, and the URN prefix does not occur inside. -/
structure STP.WellNamed (s : STP) : Prop where
  netq : '?' ∉ s.network
  portq : '?' ∉ s.port
  portc : ':' ∉ s.port
  pref : ¬ urnPrefix <:+: s.network ++ ':' :: s.port

/-- The label (if any) was obtained from text and has one of the two known types. -/
def STP.WellLabelled (s : STP) : Prop :=
  ∀ l, s.label = some l → l.FromText ∧ (l.type_ = tVlan ∨ l.type_ = tMpls)

end OpenNSA
