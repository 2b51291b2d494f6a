import Verif.Backend.Spec
import Verif.Label.Spec
import Verif.Calendar.Spec
/-
Specification vocabulary for reservations.
-/
namespace OpenNSA.Backend
open OpenNSA Py

/-- The two labels fit: both absent, or of the same type with a common value. -/
def LabelsMeet (a b : Option Label) : Prop :=
  (a = none ∧ b = none) ∨ ∃ x y, a = some x ∧ b = some y ∧ x.type_ = y.type_ ∧ ∃ n, x.has n ∧ y.has n

/-- The conditions a reservation request has to meet, apart from the resources being free. -/
structure Admissible (cfg : Cfg) (h : Hdr) (src dst : STP) (st en : Option Time) (sp dp : Port) : Prop where
  networks : src.network = cfg.network ∧ dst.network = cfg.network
  ports : dget cfg.ports src.port = some sp ∧ dget cfg.ports dst.port = some dp
  duration : ∀ s e, st = some s → en = some e → cfg.minDuration * second ≤ e - s
  authorized : isAuthorized sp.authz h.attrs h.ri = some true ∧ isAuthorized dp.authz h.attrs h.ri = some true
  transit : ¬ (sp.transitRestricted = true ∧ dp.transitRestricted = true)
  different : ¬ (src.port = dst.port ∧ optLabelEq src.label dst.label = true)
  connectable : ∀ f, cfg.mgr.canConnect = some f → f src.port dst.port src.label dst.label = true
  sameType : cfg.mgr.canConnect = none → src.label.map (·.type_) = dst.label.map (·.type_)
  meet : LabelsMeet sp.label src.label ∧ LabelsMeet dp.label dst.label

/-- The labels of request and ports were parsed from text (configuration and wire format). -/
def TextLabels (cfg : Cfg) (src dst : STP) : Prop :=
  (∀ l, src.label = some l → l.FromText) ∧ (∀ l, dst.label = some l → l.FromText) ∧
  (∀ n p l, dget cfg.ports n = some p → p.label = some l → l.FromText)

/-- A single label value (or none) is one of those the label stands for. -/
def Wanted : Option Label → Option LabelVal → Prop
  | none, v => v = none
  | some l, v => ∃ n, v = some (l.type_, n) ∧ l.has n

/-- Usable without changing the label along the way: wanted by both ends, or by the only labelled one. -/
def WantedBoth (src dst : STP) (v : Option LabelVal) : Prop :=
  match src.label, dst.label with
  | none, d => Wanted d v
  | some s, none => Wanted (some s) v
  | some s, some d => Wanted (some s) v ∧ Wanted (some d) v

/-- The backend can change labels of both types. -/
def Swaps (cfg : Cfg) (src dst : STP) : Prop :=
  cfg.mgr.canSwapLabel (src.label.map (·.type_)) = true ∧ cfg.mgr.canSwapLabel (dst.label.map (·.type_)) = true

/-- Smaller label value. -/
def ValLt : Option LabelVal → Option LabelVal → Prop
  | some (_, a), some (_, b) => a < b
  | _, _ => False

/-- Seen at `now`, an entry of the calendar occupies the resource of `r` at an instant of `r`. -/
def Cal.Clashes (c : Cal) (now : Time) (r : Resv) : Prop :=
  ∃ x ∈ c, x.resource = r.resource ∧ ∃ t, x.OccupiesAt now t ∧ r.OccupiesAt now t

/-- Occupied when looked at, at some time between `a` and `b`. -/
def Cal.Taken (c : Cal) (a b : Time) (r : Resv) : Prop := ∃ now, a ≤ now ∧ now ≤ b ∧ Cal.Clashes c now r

/-- Not occupied when looked at, at some time between `a` and `b`. -/
def Cal.Free (c : Cal) (a b : Time) (r : Resv) : Prop := ∃ now, a ≤ now ∧ now ≤ b ∧ ¬ Cal.Clashes c now r

end OpenNSA.Backend
