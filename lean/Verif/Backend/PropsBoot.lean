import Verif.Backend.PropsOwn

/-!
# Requests that arrive while the backend is starting

`GenericBackend.__init__` has the reactor run `buildSchedule` (genericbackend.py:60-63), which reads the stored connections from the
database, and enters them in the calendar and the scheduler one after the other (genericbackend.py:86-168). It sets `restore_defer` when
it is done, but only `stopService` waits for that (genericbackend.py:70-76): requests are served from the start. Here are two
executions in which that matters.
-/

namespace OpenNSA.Backend

open Py

namespace Ex

/-- A reservation of vlan `v` on both ports, until second 3000. -/
def ask (v : Nat) (t : Int) : Choice :=
  .start hdr (.reserve none (stp 'a' v v) (stp 'b' v v) (some (sec t)) (some (sec 3000)))

/-- Connection `x` is reserved and committed, and the process is restarted. A reservation of the same arrives before the stored
connections have been read, and is committed afterwards. -/
def earlyReserve : List (Oracle × Choice) :=
  [(ids 'x', ask 12 2000)] ++ go 0 ++ go 1 ++ go 1 ++ [(o0, .start hdr (.commit ['x']))] ++ go 2 ++ go 2 ++ go 2 ++
  [(o0, .restart), (ids 'y', ask 12 2000)] ++ go 5 ++ go 6 ++ go 6 ++ go 4 ++
  [(o0, .start hdr (.commit ['y']))] ++ go 7 ++ go 7 ++ go 7

/-- Connection `w` is provisioned and connection `x` is committed; the process is restarted after the start of `w`, which is activated
while the stored connections are being loaded. During that activation `x`, which is next, is provisioned. -/
def earlyProvision : List (Oracle × Choice) :=
  [(ids 'w', ask 11 1500)] ++ go 0 ++ go 1 ++ go 1 ++ [(o0, .start hdr (.commit ['w']))] ++ go 2 ++ go 2 ++ go 2 ++
  [(o0, .start hdr (.provision ['w']))] ++ go 4 ++ go 4 ++ go 4 ++
  [(ids 'x', ask 12 2000)] ++ go 6 ++ go 7 ++ go 7 ++ [(o0, .start hdr (.commit ['x']))] ++ go 8 ++ go 8 ++ go 8 ++
  [(o0, .wait 600000000), (o0, .restart)] ++ go 10 ++
  [(o0, .start hdr (.provision ['x']))] ++ go 11 ++ go 11 ++ go 11 ++ go 10 ++ go 10 ++ go 10 ++ go 10

end Ex

/-- C21 fails for a reservation that arrives right after a restart (genericbackend.py:60-63, 86-116): requests are served before
`buildSchedule` has entered the stored connections in the calendar, so the reservation is given what a committed connection holds, and
both end up committed. -/
theorem C21_restart_fails : ∃ (cfg : Cfg) (clk : Time) (s : List (Oracle × Choice)),
    let c := Conc.run cfg { w := World.init [] clk } s
    c.tasks = [] ∧ ∃ a ∈ c.w.rows, ∃ b ∈ c.w.rows, a.cid ≠ b.cid ∧ a.holds = true ∧ b.holds = true ∧ a.allocated = true ∧ b.allocated = true ∧
      .reserveCommitConfirmed a.cid ∈ c.w.outbox ∧ .reserveCommitConfirmed b.cid ∈ c.w.outbox ∧
      ∃ x ∈ a.books cfg, ∃ y ∈ b.books cfg, x.Clash y := by
  let row (c : Char) : Row := ⟨[c], ['r'], Ex.sec 1000, ⟨.start, .released, .created⟩, false, true, ['a'], some (tVlan, 12), ['b'],
    some (tVlan, 12), some (Ex.sec 2000), some (Ex.sec 3000)⟩
  refine ⟨Ex.cfg true, Ex.sec 1000, Ex.earlyReserve, List.length_eq_zero_iff.mp (by decide +kernel), row 'x', by decide +kernel,
    row 'y', by decide +kernel, by decide +kernel, rfl, rfl, rfl, rfl, by decide +kernel, by decide +kernel,
    _, List.mem_cons_self, _, List.mem_cons_self, rfl, Ex.sec 2500, ?_, ?_⟩ <;>
  · refine ⟨by decide +kernel, ?_⟩
    intro e he
    simp only [row, Option.some.injEq] at he
    subst he
    decide +kernel

/-- C22 fails for a connection that is provisioned while the backend is starting (genericbackend.py:86-93): the loop over the stored
connections may wait for the activation of one of them, and passes over those that have a scheduled call when it comes to them. A
connection provisioned in the meantime has one, so what it holds is never entered in the calendar, though the restart and every
request succeeded. -/
theorem C22_restart_fails : ∃ (cfg : Cfg) (clk : Time) (s : List (Oracle × Choice)),
    let c := Conc.run cfg { w := World.init [] clk } s
    c.tasks = [] ∧ (∀ d ∈ c.done, isOk d.2 = true) ∧ ∃ a ∈ c.w.rows, a.holds = true ∧ a.allocated = true ∧ a.st.p = .provisioned ∧
      .provisionConfirmed a.cid ∈ c.w.outbox ∧ ∀ x ∈ a.books cfg, ∀ y ∈ c.w.cal, y.resource ≠ x.resv.resource := by
  let row : Row := ⟨['x'], ['r'], Ex.sec 1000, ⟨.start, .provisioned, .created⟩, false, true, ['a'], some (tVlan, 12), ['b'],
    some (tVlan, 12), some (Ex.sec 2000), some (Ex.sec 3000)⟩
  refine ⟨Ex.cfg true, Ex.sec 1000, Ex.earlyProvision, List.length_eq_zero_iff.mp (by decide +kernel), ?_, row, by decide +kernel,
    rfl, rfl, rfl, by decide +kernel, ?_⟩
  · exact fun d hd => List.all_eq_true.mp (show (Conc.run (Ex.cfg true) { w := World.init [] (Ex.sec 1000) }
      Ex.earlyProvision).done.all (fun d => isOk d.2) = true by decide +kernel) d hd
  · decide +kernel

end OpenNSA.Backend
