import Verif.Backend.Conc
import Verif.Backend.PropsLife
/-
Interleaved operations on one connection: C27.
-/
namespace OpenNSA.Backend
open OpenNSA Py Prog

theorem Conc.run_append (cfg : Cfg) (c : Conc) (s s' : List (Oracle × Choice)) : Conc.run cfg c (s ++ s') = Conc.run cfg (Conc.run cfg c s) s' := by
  induction s generalizing c with
  | nil => rfl
  | cons a s ih => obtain ⟨o, ch⟩ := a; exact ih _

/-- Execute and deliver: the command a coroutine waits for is performed and the coroutine continues. -/
def Ex.go (n : Nat) : List (Oracle × Choice) := [(Ex.o0, .perform n), (Ex.o0, .resume n)]

/-- Request 0 provisions `x` after its start time, up to its confirmation; coroutine 2 is the activation, waiting for the
device. -/
def Ex.slow : List (Oracle × Choice) :=
  [(Ex.o0, .wait 1500000000), (Ex.o0, .start Ex.hdr (.provision ['x']))] ++ Ex.go 0 ++ Ex.go 0 ++ Ex.go 0

/-- Request 3 releases `x` meanwhile. -/
def Ex.slowRelease : List (Oracle × Choice) :=
  Ex.slow ++ [(Ex.o0, .start Ex.hdr (.release ['x']))] ++ Ex.go 3 ++ Ex.go 3 ++ Ex.go 3

/-- Request 3 terminates `x` meanwhile. -/
def Ex.slowTerminate : List (Oracle × Choice) :=
  Ex.slow ++ [(Ex.o0, .start Ex.hdr (.terminate ['x']))] ++ Ex.go 3 ++ Ex.go 3 ++ Ex.go 3 ++ Ex.go 3

/-- C27 fails for release: a connection is released and the release confirmed, while its activation waits for the device. When
the device is done, the activation stores its row object (line 676), which still says provisioned: the connection is
provisioned and active again, and its link is up. No coroutine is left to change that. -/
theorem C27_release_fails : ∃ (cfg : Cfg) (w : World) (cid : Str) (s s' : List (Oracle × Choice)) (n : Nat) (x y : Row),
    Reach cfg w ∧
    let c := Conc.run cfg { w := w } s
    -- the release has succeeded and was confirmed
    (n, .ok none) ∈ c.done ∧ Msg.releaseConfirmed cid ∈ c.w.outbox ∧ c.w.rows = [x] ∧ x.cid = cid ∧ x.st.p = .released ∧
    x.active = false ∧ ¬ c.w.up cid ∧
    -- nothing but the activation goes on
    c.tasks.length = 1 ∧ (∀ o ch, (o, ch) ∈ s' → ∃ n, ch = .perform n ∨ ch = .resume n) ∧
    let c' := Conc.run cfg c s'
    c'.tasks.length = 0 ∧ c'.w.rows = [y] ∧ y.cid = cid ∧ y.st.p = .provisioned ∧ y.active = true ∧ c'.w.up cid ∧
    ¬ Reported c'.w.outbox cid := by
  refine ⟨Ex.cfg true, runAll (Ex.cfg true) Ex.w0 Ex.h2, ['x'], Ex.slowRelease, Ex.go 2 ++ Ex.go 2, 3,
    ⟨['x'], ['r'], Ex.sec 1000, ⟨.start, .released, .created⟩, false, true, ['a'], some (tVlan, 12), ['b'],
      some (tVlan, 12), some (Ex.sec 2000), some (Ex.sec 3000)⟩,
    ⟨['x'], ['r'], Ex.sec 1000, ⟨.start, .provisioned, .created⟩, true, true, ['a'], some (tVlan, 12), ['b'],
      some (tVlan, 12), some (Ex.sec 2000), some (Ex.sec 3000)⟩,
    Ex.reach_runAll (by decide +kernel), by decide +kernel, by decide +kernel, by decide +kernel, rfl, rfl, rfl, by decide +kernel,
    by decide +kernel, ?_, by decide +kernel, by decide +kernel, rfl, rfl, rfl, by decide +kernel, ?_⟩
  · intro o ch h
    simp [Ex.go] at h
    rcases h with h | h | h | h <;> exact ⟨2, by simp [h.2]⟩
  · have : (Conc.run (Ex.cfg true) { w := runAll (Ex.cfg true) Ex.w0 Ex.h2 } (Ex.slowRelease ++ (Ex.go 2 ++ Ex.go 2))).w.outbox =
        [.reserveConfirmed ['k'] ['x'] (some (tVlan, 12)) (some (tVlan, 12)) (some (Ex.sec 2000)) (some (Ex.sec 3000)),
         .reserveCommitConfirmed ['x'], .provisionConfirmed ['x'], .releaseConfirmed ['x']] := by decide +kernel
    rw [Conc.run_append] at this
    rw [this]
    simp [Reported]

/-- C27 fails for terminate: a connection is terminated and the termination confirmed, while its activation waits for the
device. When the device is done, the activation stores its row object, which says created and provisioned: the connection lives
again, active and with its link up, although its entries in the calendar are gone. -/
theorem C27_terminate_fails : ∃ (cfg : Cfg) (w : World) (cid : Str) (s s' : List (Oracle × Choice)) (n : Nat) (x y : Row),
    Reach cfg w ∧
    let c := Conc.run cfg { w := w } s
    (n, .ok none) ∈ c.done ∧ Msg.terminateConfirmed cid ∈ c.w.outbox ∧ c.w.rows = [x] ∧ x.cid = cid ∧ x.st.l = .terminated ∧
    x.active = false ∧ ¬ c.w.up cid ∧
    c.tasks.length = 1 ∧ (∀ o ch, (o, ch) ∈ s' → ∃ n, ch = .perform n ∨ ch = .resume n) ∧
    let c' := Conc.run cfg c s'
    c'.tasks.length = 0 ∧ c'.w.rows = [y] ∧ y.cid = cid ∧ y.st.l = .created ∧ y.active = true ∧ y.holds = true ∧ c'.w.up cid ∧
    c'.w.cal = [] := by
  refine ⟨Ex.cfg true, runAll (Ex.cfg true) Ex.w0 Ex.h2, ['x'], Ex.slowTerminate, Ex.go 2 ++ Ex.go 2, 3,
    ⟨['x'], ['r'], Ex.sec 1000, ⟨.start, .provisioned, .terminated⟩, false, true, ['a'], some (tVlan, 12), ['b'],
      some (tVlan, 12), some (Ex.sec 2000), some (Ex.sec 3000)⟩,
    ⟨['x'], ['r'], Ex.sec 1000, ⟨.start, .provisioned, .created⟩, true, true, ['a'], some (tVlan, 12), ['b'],
      some (tVlan, 12), some (Ex.sec 2000), some (Ex.sec 3000)⟩,
    Ex.reach_runAll (by decide +kernel), by decide +kernel, by decide +kernel, by decide +kernel, rfl, rfl, rfl, by decide +kernel,
    by decide +kernel, ?_, by decide +kernel, by decide +kernel, rfl, rfl, rfl, rfl, by decide +kernel, by decide +kernel⟩
  intro o ch h
  simp [Ex.go] at h
  rcases h with h | h | h | h <;> exact ⟨2, by simp [h.2]⟩

end OpenNSA.Backend
