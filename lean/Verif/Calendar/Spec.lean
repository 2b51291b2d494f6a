import Verif.Calendar.Model
/-
Specification vocabulary: occupied instants.
-/
namespace OpenNSA

/-- A reservation together with the instant it was made. -/
structure Booked where
  resv : Resv
  made : Time
  deriving DecidableEq, Repr

/-- The instants a booked reservation occupies: from its start (or the moment it was made, if the start is
open) to its end (or for ever, if the end is open), both ends included. -/
def Booked.Occupies (b : Booked) (t : Time) : Prop :=
  b.resv.start.getD b.made ≤ t ∧ ∀ e, b.resv.end_ = some e → t ≤ e

/-- The two bookings are of the same resource and have a common instant. -/
def Booked.Clash (a b : Booked) : Prop := a.resv.resource = b.resv.resource ∧ ∃ t, a.Occupies t ∧ b.Occupies t

/-- The instants a request or a stored reservation occupies seen from `now`: open start means now, open end
means for ever. -/
def Resv.OccupiesAt (now : Time) (r : Resv) (t : Time) : Prop :=
  r.start.getD now ≤ t ∧ ∀ e, r.end_ = some e → t ≤ e

/-- The times of a request are sane: not reversed, not in the past, not after 2095. -/
def Resv.Sane (now : Time) (r : Resv) : Prop :=
  (∀ s e, r.start = some s → r.end_ = some e → s ≤ e) ∧ (∀ s, r.start = some s → now ≤ s ∧ s ≤ year2095)

/-- The reservation has positive length and ends after `now` (has not expired). -/
def Resv.Proper (now : Time) (r : Resv) : Prop :=
  (∀ e, r.end_ = some e → r.start.getD now < e) ∧ r.start.getD now < forever

end OpenNSA
