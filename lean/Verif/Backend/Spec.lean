import Verif.Backend.Model
import Verif.Calendar.Spec
/-
Specification vocabulary for the backend.
-/
namespace OpenNSA.Backend
open OpenNSA Py

/-- The connection holds or owns its resources: created, not ended or terminated, and its reservation is held or
committed. -/
def Row.holds (r : Row) : Bool := decide (r.st.l = .created) && (decide (r.st.r = .held) || r.allocated)

/-- The two bookings (one per end) of a connection, made when the reservation was. -/
def Row.books (cfg : Cfg) (r : Row) : List Booked :=
  [⟨⟨cfg.mgr.getResource r.srcPort r.srcLabel, r.start, r.end_⟩, r.reserveTime⟩,
   ⟨⟨cfg.mgr.getResource r.dstPort r.dstLabel, r.start, r.end_⟩, r.reserveTime⟩]

/-- The calendar entries of the connections that hold or own resources, one per end. -/
def World.booked (cfg : Cfg) (w : World) : List Resv :=
  (w.rows.filter Row.holds).flatMap fun r => (r.books cfg).map (·.resv)

/-- The stored connection with that id. -/
def World.row? (w : World) (cid : Str) : Option Row := w.rows.find? fun r => r.cid = cid

/-- The link of the connection is set up on the device. -/
def World.up (w : World) (cid : Str) : Prop := cid ∈ w.links

/-- A failed activation or teardown of the connection was reported to the parent. -/
def Reported (out : List Msg) (cid : Str) : Prop :=
  ∃ n, Msg.activateFailed cid n ∈ out ∨ Msg.deactivateFailed cid n ∈ out

/-- The reservation was confirmed to the parent. -/
def Confirmed (out : List Msg) (cid : Str) : Prop :=
  ∃ corr s d b e, Msg.reserveConfirmed corr cid s d b e ∈ out

/-- The pending call of a connection. -/
def World.pending (w : World) (cid : Str) : Option Timer :=
  match dget w.tbl cid with
  | some ⟨due, act, ref, false⟩ => some ⟨due, act, ref, false⟩
  | _ => none

/-- The step went without the incidents after which the calendar or the timers are known to be wrong (see DESIGN.md): no
connection id collision, no failing parent call during `terminate`, no reservation without start time whose end has passed
when it is answered, no exception while a restart loads the connections; and the clock is before the year 9999. -/
def CleanStep (e : Ev) (w' : World) (r : Except Err (Option Str)) : Prop :=
  match e with
  | .req _ (.reserve _ _ _ st en) =>
    r ≠ .error .db ∧ w'.clk < forever ∧ (st = none → ∀ x, en = some x → (∃ c, r = .ok c) → w'.clk ≤ x)
  | .req _ (.terminate _) => r ≠ .error .parent
  | .restart => ∃ c, r = .ok c
  | _ => True

/-- Worlds reachable by completed events, starting with an empty backend, without the incidents of `CleanStep`. -/
inductive Reach (cfg : Cfg) : World → Prop
  | init (ids : List Str) (clk : Time) : Reach cfg (World.init ids clk)
  | step {w : World} (o : Oracle) (e : Ev) : Reach cfg w → CleanStep e (Backend.step cfg w o e).1 (Backend.step cfg w o e).2 →
      Reach cfg (Backend.step cfg w o e).1

/-- Apart from time passing (and what is in memory), nothing changed. -/
structure Unchanged (w w' : World) : Prop where
  rows : w'.rows = w.rows
  cal : w'.cal = w.cal
  out : w'.outbox = w.outbox
  links : ∀ c, w'.up c ↔ w.up c
  pending : ∀ c, w'.pending c = w.pending c

/-- Worlds reachable from `w` by further completed events without such incidents. -/
inductive Hist (cfg : Cfg) (w : World) : World → Prop
  | refl : Hist cfg w w
  | step {w' : World} (o : Oracle) (e : Ev) : Hist cfg w w' → CleanStep e (Backend.step cfg w' o e).1 (Backend.step cfg w' o e).2 →
      Hist cfg w (Backend.step cfg w' o e).1

theorem Reach.hist {cfg : Cfg} {w w' : World} (h : Reach cfg w) (k : Hist cfg w w') : Reach cfg w' := by
  induction k with
  | refl => exact h
  | step o e _ hc ih => exact .step o e ih hc

/-- How a stored connection may change in the course of time: its identity, endpoints and times stay; ending and termination
are final; what was rolled back is never held or committed again; what was committed stays so. -/
structure Evolves (x y : Row) : Prop where
  same : y.cid = x.cid ∧ y.requester = x.requester ∧ y.reserveTime = x.reserveTime ∧ y.srcPort = x.srcPort ∧
    y.srcLabel = x.srcLabel ∧ y.dstPort = x.dstPort ∧ y.dstLabel = x.dstLabel ∧ y.start = x.start ∧ y.end_ = x.end_
  term : x.st.l = .terminated → y.st.l = .terminated
  left : x.st.l ≠ .created → y.st.l ≠ .created
  dropped : x.st.r ≠ .held → x.allocated = false → y.st.r ≠ .held ∧ y.allocated = false
  kept : x.allocated = true → y.allocated = true

theorem Evolves.refl (x : Row) : Evolves x x := ⟨⟨rfl, rfl, rfl, rfl, rfl, rfl, rfl, rfl, rfl⟩, id, id, fun a b => ⟨a, b⟩, id⟩

theorem Evolves.trans {x y z : Row} (h : Evolves x y) (k : Evolves y z) : Evolves x z where
  same := by
    obtain ⟨a1, a2, a3, a4, a5, a6, a7, a8, a9⟩ := h.same
    obtain ⟨b1, b2, b3, b4, b5, b6, b7, b8, b9⟩ := k.same
    exact ⟨b1.trans a1, b2.trans a2, b3.trans a3, b4.trans a4, b5.trans a5, b6.trans a6, b7.trans a7, b8.trans a8, b9.trans a9⟩
  term a := k.term (h.term a)
  left a := k.left (h.left a)
  dropped a b := k.dropped (h.dropped a b).1 (h.dropped a b).2
  kept a := k.kept (h.kept a)

end OpenNSA.Backend
