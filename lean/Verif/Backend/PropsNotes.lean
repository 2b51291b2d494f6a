import Verif.Backend.Notes
import Verif.Backend.PropsOwn
/-
Notification ids of the backend (C40) in interleaved executions.
-/
namespace OpenNSA.Backend
open OpenNSA Py Prog

/-- C40, backend: in every schedule without restart, however requests, scheduled calls, database, device and parent operations are
interleaved, cancelled or fail, the notifications sent (reservation timeouts, failed activations and deactivations, data plane
changes) have the ids 0, 1, 2, ... in the order in which they are sent: no id is used twice or left out. Answers to queries, which
take ids from the same counter (genericbackend.py:555), are not modelled; they would only leave gaps. -/
theorem C40_notifications (cfg : Cfg) (ids : List Str) (clk : Time) (s : List (Oracle × Choice)) (hs : ∀ x ∈ s, x.2 ≠ .restart) :
    let sent := noteIds (Conc.run cfg { w := World.init ids clk } s).w.outbox
    sent = List.range sent.length := by
  intro sent
  have h : Notes [] (Conc.run cfg { w := World.init ids clk } s) := Notes.run ⟨⟨[], rfl, rfl⟩, by intro t ht; cases ht⟩ hs
  obtain ⟨ms, h1, h2⟩ := h.num
  have e : sent = List.range (Conc.run cfg { w := World.init ids clk } s).w.notif := by
    rw [← h2]; show noteIds _ = _; rw [h1, List.nil_append]
  rw [e, List.length_range]

/-- C40, backend, across restarts: whatever happened before a restart, the notifications sent from then until the next restart have
the ids 0, 1, 2, ... in the order in which they are sent. -/
theorem C40_notifications_since_restart (cfg : Cfg) (ids : List Str) (clk : Time) (s : List (Oracle × Choice)) (o : Oracle)
    (s' : List (Oracle × Choice)) (hs : ∀ x ∈ s', x.2 ≠ .restart) :
    let before := Conc.run cfg { w := World.init ids clk } s
    ∃ sent, (Conc.run cfg (before.step cfg o .restart) s').w.outbox = before.w.outbox ++ sent ∧
      noteIds sent = List.range (noteIds sent).length := by
  intro before
  obtain ⟨b, hb⟩ : ∃ b, Notes b before := notes_any ⟨[], ⟨[], rfl, rfl⟩, by intro t ht; cases ht⟩
  obtain ⟨ms, h1, h2⟩ := (Notes.run (Notes.restart hb.tasks o rfl) hs).num
  exact ⟨ms, h1, by rw [h2, List.length_range]⟩

namespace Ex

/-- Two reservations time out, the scheduled calls running at the same time. -/
def timeouts : List (Oracle × Choice) :=
  let r : Choice := .start hdr (.reserve none (stp 'a' 12 13) (stp 'b' 12 13) (some (sec 2000)) (some (sec 3000)))
  [(ids 'x', r), (ids 'y', r)] ++ go 0 ++ go 1 ++ go 2 ++ go 3 ++ go 2 ++ go 3 ++
  [(o0, .wait 200000000), (o0, .fire ['x']), (o0, .fire ['y'])] ++ go 5 ++ go 4 ++ go 5 ++ go 4 ++ go 5 ++ go 4 ++ go 5 ++ go 4
/-- After a restart, a third reservation times out. -/
def timeoutsAgain : List (Oracle × Choice) :=
  let r : Choice := .start hdr (.reserve none (stp 'a' 12 13) (stp 'b' 12 13) (some (sec 2000)) (some (sec 3000)))
  go 8 ++ [(ids 'z', r)] ++ go 9 ++ go 10 ++ go 10 ++ [(o0, .wait 200000000), (o0, .fire ['z'])] ++ go 11 ++ go 11 ++ go 11 ++ go 11

def noRestart (s : List (Oracle × Choice)) : Bool := s.all fun y => match y.2 with | .restart => false | _ => true

theorem noRestart_of {s : List (Oracle × Choice)} (h : noRestart s = true) : ∀ x ∈ s, x.2 ≠ .restart := by
  intro x hx he
  have := List.all_eq_true.mp h x hx
  rw [he] at this
  cases this

/-- Two notifications are sent, the later reservation first; after the restart one more. -/
example : (∀ x ∈ timeouts, x.2 ≠ .restart) ∧ (∀ x ∈ timeoutsAgain, x.2 ≠ .restart) ∧
    (Conc.run (cfg true) { w := w0 } timeouts).w.outbox.filter (fun m => m.noteId.isSome) =
      [.reserveTimeout ['y'] 0, .reserveTimeout ['x'] 1] ∧
    (Conc.run (cfg true) ((Conc.run (cfg true) { w := w0 } timeouts).step (cfg true) o0 .restart) timeoutsAgain).w.outbox.filter
      (fun m => m.noteId.isSome) = [.reserveTimeout ['y'] 0, .reserveTimeout ['x'] 1, .reserveTimeout ['z'] 0] :=
  ⟨noRestart_of (by decide +kernel), noRestart_of (by decide +kernel), by decide +kernel, by decide +kernel⟩

end Ex

/-- C40 fails for the backend across restarts: the counter of notification ids is kept in memory and starts at 0 again
(genericbackend.py:55), so that notifications about different connections to the same requester carry the same id. -/
theorem C40_backend_restart_fails : ∃ (cfg : Cfg) (clk : Time) (s : List (Oracle × Choice)) (x y : Str) (n : Nat),
    let c := Conc.run cfg { w := World.init [] clk } s
    c.tasks = [] ∧ x ≠ y ∧ .reserveTimeout x n ∈ c.w.outbox ∧ .reserveTimeout y n ∈ c.w.outbox ∧
      ∃ a ∈ c.w.rows, ∃ b ∈ c.w.rows, a.cid = x ∧ b.cid = y ∧ a.requester = b.requester :=
  ⟨Ex.cfg true, Ex.sec 1000, Ex.timeouts ++ [(Ex.o0, .restart)] ++ Ex.timeoutsAgain, ['y'], ['z'], 0,
    List.isEmpty_iff.mp (by decide +kernel), by decide, by decide +kernel, by decide +kernel, by decide +kernel⟩

end OpenNSA.Backend
