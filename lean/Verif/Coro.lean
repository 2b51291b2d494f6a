import Verif.Py
/-
Coroutines (Twisted `inlineCallbacks` generators) over a type of commands, with the two ways of executing them: to completion
and interleaved. Not part of /repo; models the runtime the code runs on.
-/
namespace OpenNSA

/-- A coroutine body: a tree of commands. `C β` are the commands with result type `β`, `ε` the exceptions. -/
inductive Coro (C : Type → Type) (ε : Type) : Type → Type 1
  | pure {α : Type} (a : α) : Coro C ε α
  | throw {α : Type} (e : ε) : Coro C ε α
  | cmd {α β : Type} (c : C β) (k : Except ε β → Coro C ε α) : Coro C ε α

namespace Coro
variable {C : Type → Type} {ε : Type}

/-- Sequencing. -/
def bind {α β : Type} : Coro C ε α → (α → Coro C ε β) → Coro C ε β
  | .pure a, f => f a
  | .throw e, _ => .throw e
  | .cmd c k, f => .cmd c fun r => bind (k r) f

instance : Monad (Coro C ε) where
  pure := Coro.pure
  bind := Coro.bind

/-- Issue a command; its exception propagates. -/
def issue {β : Type} (c : C β) : Coro C ε β :=
  .cmd c fun | .ok b => .pure b | .error e => .throw e

/-- Raise or return. -/
def ofExcept {α : Type} : Except ε α → Coro C ε α
  | .ok a => .pure a
  | .error e => .throw e

end Coro

/-- What executes the commands: a state type, the effect of each command, and which commands suspend the coroutine (others may
run between the moment it is issued and the moment its result is delivered). -/
structure Machine (C : Type → Type) (ε W : Type) where
  exec : {β : Type} → W → C β → W × Except ε β
  isAsync : {β : Type} → C β → Bool

namespace Coro
variable {C : Type → Type} {ε W : Type}

/-- Run a coroutine to completion, without interleaving. -/
def run (m : Machine C ε W) {α : Type} : Coro C ε α → W → W × Except ε α
  | .pure a, w => (w, .ok a)
  | .throw e, w => (w, .error e)
  | .cmd c k, w => let r := m.exec w c; (k r.2).run m r.1

end Coro

/-! ### Interleaved execution -/

/-- A suspended coroutine: waiting for its command to be executed, or for the result to be delivered. -/
inductive Susp (C : Type → Type) (ε ρ : Type) : Type 1
  | waiting {β : Type} (c : C β) (k : Except ε β → Coro C ε ρ)
  | performed (p : Coro C ε ρ)

/-- State, suspended coroutines by number, answers, next number. -/
structure Conc (C : Type → Type) (ε ρ W : Type) where
  w : W
  tasks : List (Nat × Susp C ε ρ) := []
  done : List (Nat × Except ε ρ) := []
  next : Nat := 0

namespace Conc
variable {C : Type → Type} {ε ρ W : Type}

/-- Run a coroutine up to its first suspending command. -/
def runSync (m : Machine C ε W) (id : Nat) : Coro C ε ρ → Conc C ε ρ W → Conc C ε ρ W
  | .pure a, c => { c with done := c.done ++ [(id, .ok a)] }
  | .throw e, c => { c with done := c.done ++ [(id, .error e)] }
  | .cmd x k, c =>
    if m.isAsync x then { c with tasks := c.tasks ++ [(id, .waiting x k)] }
    else let r := m.exec c.w x; runSync m id (k r.2) { c with w := r.1 }

/-- Scheduling choices. `start q`: an incoming message; tasks are referred to by their number. -/
inductive Choice (Q : Type) where
  | start (q : Q)
  | perform (id : Nat)
  | resume (id : Nat)
  deriving DecidableEq, Repr

/-- Take the first task with the given number out of the list. -/
def takeTask {τ : Type 1} (id : Nat) : List (Nat × τ) → Option (τ × List (Nat × τ))
  | [] => none
  | t :: ts => if t.1 = id then some (t.2, ts) else (takeTask id ts).map fun x => (x.1, t :: x.2)

/-- One scheduling step; `prog` gives the coroutine handling a message. -/
def step {Q : Type} (m : Machine C ε W) (prog : Q → Coro C ε ρ) (c : Conc C ε ρ W) : Choice Q → Conc C ε ρ W
  | .start q => runSync m c.next (prog q) { c with next := c.next + 1 }
  | .perform n =>
    match takeTask n c.tasks with
    | some (.waiting x k, ts) =>
      let r := m.exec c.w x
      { c with w := r.1, tasks := ts ++ [(n, .performed (k r.2))] }
    | _ => c
  | .resume n =>
    match takeTask n c.tasks with
    | some (.performed p, ts) => runSync m n p { c with tasks := ts }
    | _ => c

end Conc
end OpenNSA
