import Verif.Backend.OwnStep
import Verif.Backend.Lively
/-
Interleaved execution, at most one operation at a time per connection: what an operation sees of the world while others work on
other connections. The local conditions of Run.lean (`LAll`), proved for operations that run without interruption, hold for
suspended ones, too, if nobody else touches the connection; the calendar is shared, so the local one has the connection's own entries only.
-/
namespace OpenNSA.Backend
open OpenNSA Py Prog

/-! ### Commands of an operation -/

/-- A confirmation is about this connection. -/
def AboutConf (cid : Str) (m : Msg) : Prop := ∀ corr c sl dl b e, m = .reserveConfirmed corr c sl dl b e → c = cid

/-- What the local condition does not say: calendar entries are removed only if they are the connection's own, none are added, and
reservations are confirmed for this connection only. -/
def Rok (cid : Str) {β : Type} (c : Cmd β) (s : S) : Prop :=
  match c with
  | .call m => AboutConf cid m
  | .tell m => AboutConf cid m
  | .calCheck _ => False
  | .calAdd _ => False
  | .calRemove e => e ∈ s.cal
  | _ => True

/-- Local condition of an operation that starts no other. -/
def R0 (cid : Str) (ref : Nat) {α : Type} : Prog α → (S → Except Err α → Prop) → S → Prop
  | .pure a, Q, s => Q s (.ok a)
  | .throw e, Q, s => Q s (.error e)
  | .cmd c k, Q, s => Rok cid c s ∧ LCmd cid ref c s fun s' r => R0 cid ref (k r) Q s'
  | .spawn _ _, _, _ => False

theorem R0_mono {cid : Str} {ref : Nat} {α : Type} {p : Prog α} : ∀ {Q Q' : S → Except Err α → Prop} {s : S},
    (∀ s r, Q s r → Q' s r) → R0 cid ref p Q s → R0 cid ref p Q' s := by
  induction p with
  | pure a => intro Q Q' s hq h; exact hq _ _ h
  | throw e => intro Q Q' s hq h; exact hq _ _ h
  | cmd c k ih => intro Q Q' s hq h; exact ⟨h.1, LCmd_mono (fun s r h => ih r hq h) h.2⟩
  | spawn p k ihp ihk => intro Q Q' s hq h; exact h.elim

theorem R0_bind {cid : Str} {ref : Nat} {α β : Type} {p : Prog α} {f : α → Prog β} : ∀ {Q : S → Except Err β → Prop} {s : S},
    R0 cid ref p (cont Q fun a s => R0 cid ref (f a) Q s) s → R0 cid ref (p.bind f) Q s := by
  induction p with
  | pure a => intro Q s h; exact h
  | throw e => intro Q s h; exact h
  | cmd c k ih => intro Q s h; exact ⟨h.1, LCmd_mono (fun _ r h => ih r h) h.2⟩
  | spawn p k ihp ihk => intro Q s h; exact h.elim

/-- Text of a coroutine: which commands it may have. `rm`: it may remove calendar entries. -/
def PlainC (cid : Str) (rm : Bool) {β : Type} (c : Cmd β) : Prop :=
  match c with
  | .call m => AboutConf cid m
  | .tell m => AboutConf cid m
  | .calCheck _ => False
  | .calAdd _ => False
  | .calRemove _ => rm = true
  | _ => True

/-- Row objects read are this connection's. -/
def Got (cid : Str) {β : Type} (c : Cmd β) (r : Except Err β) : Prop :=
  match c, r with
  | .getObj _, .ok row => row.cid = cid
  | _, _ => True

/-- Such a coroutine. -/
def Plain (cid : Str) (rm : Bool) {α : Type} : Prog α → Prop
  | .pure _ => True
  | .throw _ => True
  | .cmd c k => PlainC cid rm c ∧ ∀ r, Got cid c r → Plain cid rm (k r)
  | .spawn _ _ => False

section
variable {cid : Str} {rm : Bool}

theorem pl_bind {α β : Type} {p : Prog α} {f : α → Prog β} (hp : Plain cid rm p) (hf : ∀ a, Plain cid rm (f a)) : Plain cid rm (p.bind f) := by
  induction p with
  | pure a => exact hf a
  | throw e => trivial
  | cmd c k ih => exact ⟨hp.1, fun r hg => ih r (hp.2 r hg) hf⟩
  | spawn p k _ ihk => exact hp.elim

theorem pl_getObj {β : Type} {ref : Nat} {f : Row → Prog β} (hf : ∀ row, row.cid = cid → Plain cid rm (f row)) : Plain cid rm ((issue (.getObj ref)).bind f) := by
  refine ⟨trivial, fun r hg => ?_⟩
  cases r with
  | ok a => exact hf a hg
  | error e => trivial

theorem pl_tryCatch {α : Type} {p : Prog α} {f : Err → Prog α} (hp : Plain cid rm p) (hf : ∀ e, Plain cid rm (f e)) : Plain cid rm (p.tryCatch f) := by
  induction p with
  | pure a => trivial
  | throw e => exact hf e
  | cmd c k ih => exact ⟨hp.1, fun r hg => ih r (hp.2 r hg) hf⟩
  | spawn p k _ ihk => exact hp.elim

theorem pl_issue {β : Type} {c : Cmd β} (h : PlainC cid rm c) : Plain cid rm (issue c) := ⟨h, fun r _ => by cases r <;> trivial⟩
theorem pl_ofExcept {α : Type} (r : Except Err α) : Plain cid rm (ofExcept r) := by cases r <;> trivial
theorem pl_tell {m : Msg} (h : ∀ a b c d e f, m ≠ .reserveConfirmed a b c d e f) : Plain cid rm (issue (.tell m)) :=
  pl_issue fun _ _ _ _ _ _ e => absurd e (h _ _ _ _ _ _)
theorem pl_call {m : Msg} (h : ∀ a b c d e f, m ≠ .reserveConfirmed a b c d e f) : Plain cid rm (issue (.call m)) :=
  pl_issue fun _ _ _ _ _ _ e => absurd e (h _ _ _ _ _ _)

end

/-- Takes a coroutine apart. -/
macro "plainly" : tactic => `(tactic| (repeat' first
  | exact trivial
  | assumption
  | exact pl_ofExcept _
  | exact pl_issue trivial
  | exact pl_issue rfl
  | (refine pl_tell ?_; intro _ _ _ _ _ _; simp; done)
  | (refine pl_call ?_; intro _ _ _ _ _ _; simp; done)
  | (refine pl_bind ?_ fun _ => ?_)
  | (refine pl_tryCatch ?_ fun _ => ?_)
  | split))

section
variable {cid : Str} {rm : Bool}

theorem pl_switchReserve (ref : Nat) (s : RState) : Plain cid rm (switchReserve ref s) := by
  unfold switchReserve; simp only [bind_eq]; plainly
theorem pl_multiSwitchLoop (ref : Nat) : ∀ ss : List RState, Plain cid rm (multiSwitchLoop ref ss)
  | [] => trivial
  | s :: ss => by
    have := pl_multiSwitchLoop ref ss
    unfold multiSwitchLoop; simp only [bind_eq]; plainly
theorem pl_multiSwitch (ref : Nat) (ss : List RState) : Plain cid rm (multiSwitch ref ss) :=
  pl_bind (pl_multiSwitchLoop ref ss) fun _ => pl_issue trivial
theorem pl_switchProvision (ref : Nat) (s : PState) : Plain cid rm (switchProvision ref s) := by
  unfold switchProvision; simp only [bind_eq]; plainly
theorem pl_switchLifecycle (ref : Nat) (s : LState) : Plain cid rm (switchLifecycle ref s) := by
  unfold switchLifecycle; simp only [bind_eq]; plainly
theorem pl_removeBoth (cfg : Cfg) (ref : Nat) : Plain cid true (removeBoth cfg ref) := by
  unfold removeBoth; simp only [bind_eq]; plainly
theorem pl_schedEnd (c : Str) (e : Option Time) (ref : Nat) : Plain cid rm (schedEnd c e ref) := by
  unfold schedEnd; plainly
theorem pl_whenP {b : Bool} {p : Prog Unit} (h : Plain cid rm p) : Plain cid rm (whenP b p) := by
  unfold whenP; plainly
theorem pl_setActive (ref : Nat) (b : Bool) : Plain cid rm (setActive ref b) := by
  unfold setActive; simp only [bind_eq]; plainly
theorem pl_doTeardown (ref : Nat) : Plain cid rm (doTeardown ref) := by
  have : Plain cid rm (setActive ref false) := pl_setActive ref false
  unfold doTeardown; simp only [bind_eq]; plainly
theorem pl_doFreeResource (cfg : Cfg) (ref : Nat) : Plain cid true (doFreeResource cfg ref) := by
  have : Plain cid true (doTeardown ref) := pl_doTeardown ref
  have : Plain cid true (removeBoth cfg ref) := pl_removeBoth cfg ref
  unfold doFreeResource; simp only [bind_eq]; plainly
theorem pl_doEndtime (cfg : Cfg) (ref : Nat) : Plain cid true (doEndtime cfg ref) := by
  have : Plain cid true (doFreeResource cfg ref) := pl_doFreeResource cfg ref
  have : Plain cid true (switchLifecycle ref .passedEnd) := pl_switchLifecycle ref .passedEnd
  unfold doEndtime; simp only [bind_eq]; plainly
theorem pl_doReserveRollback (cfg : Cfg) (ref : Nat) : Plain cid true (doReserveRollback cfg ref) := by
  have h1 : Plain cid true (switchReserve ref .aborting) := pl_switchReserve ref .aborting
  have h2 : Plain cid true (removeBoth cfg ref) := pl_removeBoth cfg ref
  have h3 : Plain cid true (switchReserve ref .start) := pl_switchReserve ref .start
  have h4 : Plain cid true (doEndtime cfg ref) := pl_doEndtime cfg ref
  unfold doReserveRollback; simp only [bind_eq]; plainly
theorem pl_doReserveTimeout (cfg : Cfg) (ref : Nat) : Plain cid true (doReserveTimeout cfg ref) := by
  have h1 : Plain cid true (doReserveRollback cfg ref) := pl_doReserveRollback cfg ref
  unfold doReserveTimeout; simp only [bind_eq]; plainly
theorem pl_doActivate (ref : Nat) : Plain cid rm (doActivate ref) := by
  have h1 : ∀ c e, Plain cid rm (schedEnd c e ref) := fun c e => pl_schedEnd c e ref
  have h2 : ∀ b, Plain cid rm (setActive ref b) := fun b => pl_setActive ref b
  unfold doActivate; simp only [bind_eq]
  repeat' first
    | exact h1 _ _
    | exact h2 _
    | exact trivial
    | exact pl_issue trivial
    | (refine pl_tell ?_; intro _ _ _ _ _ _; simp; done)
    | (refine pl_bind ?_ fun _ => ?_)
    | (refine pl_tryCatch ?_ fun _ => ?_)
    | split
theorem pl_commitOn (cfg : Cfg) (h : Hdr) (c : Str) (ref : Nat) : Plain cid rm (commitOn cfg h c ref) := by
  have h1 : Plain cid rm (multiSwitch ref [.committing, .start]) := pl_multiSwitch ref _
  have h2 : ∀ e, Plain cid rm (schedEnd c e ref) := fun e => pl_schedEnd c e ref
  unfold commitOn; simp only [bind_eq]
  repeat' first
    | exact h1
    | exact h2 _
    | exact trivial
    | exact pl_ofExcept _
    | exact pl_issue trivial
    | (refine pl_tell ?_; intro _ _ _ _ _ _; simp; done)
    | (refine pl_call ?_; intro _ _ _ _ _ _; simp; done)
    | (refine pl_bind ?_ fun _ => ?_)
    | split
theorem pl_abortOn (cfg : Cfg) (h : Hdr) (c : Str) (ref : Nat) : Plain cid true (abortOn cfg h c ref) := by
  have h1 : Plain cid true (doReserveRollback cfg ref) := pl_doReserveRollback cfg ref
  unfold abortOn; simp only [bind_eq]; plainly
theorem pl_terminateOn (cfg : Cfg) (h : Hdr) (c : Str) (ref : Nat) : Plain cid true (terminateOn cfg h c ref) := by
  have h1 : Plain cid true (switchLifecycle ref .terminating) := pl_switchLifecycle ref .terminating
  have h2 : Plain cid true (switchLifecycle ref .terminated) := pl_switchLifecycle ref .terminated
  have h3 : ∀ b, Plain cid true (whenP b (doFreeResource cfg ref)) := fun b => pl_whenP (pl_doFreeResource cfg ref)
  unfold terminateOn; simp only [bind_eq]
  repeat' first
    | exact h3 _
    | exact h1
    | exact h2
    | exact trivial
    | exact pl_ofExcept _
    | exact pl_issue trivial
    | (refine pl_call ?_; intro _ _ _ _ _ _; simp; done)
    | (refine pl_bind ?_ fun _ => ?_)
    | split
theorem pl_releaseOn (cfg : Cfg) (h : Hdr) (c : Str) (ref : Nat) : Plain cid rm (releaseOn cfg h c ref) := by
  have h1 : ∀ s, Plain cid rm (switchProvision ref s) := fun s => pl_switchProvision ref s
  have h2 : ∀ e, Plain cid rm (schedEnd c e ref) := fun e => pl_schedEnd c e ref
  have h3 : Plain cid rm (doTeardown ref) := pl_doTeardown ref
  unfold releaseOn; simp only [bind_eq]
  repeat' first
    | exact h3
    | refine pl_whenP ?_
    | exact h1 _
    | exact h2 _
    | exact trivial
    | exact pl_ofExcept _
    | exact pl_issue trivial
    | (refine pl_tell ?_; intro _ _ _ _ _ _; simp; done)
    | (refine pl_bind ?_ fun _ => ?_)
    | (refine pl_tryCatch ?_ fun _ => ?_)
    | split
theorem pl_doReserve (ref : Nat) (corr : Str) : Plain cid rm (doReserve ref corr) := by
  unfold doReserve; simp only [bind_eq]
  refine pl_bind (pl_multiSwitch ref _) fun _ => pl_getObj fun row hrow => ?_
  repeat' first
    | refine pl_whenP ?_
    | exact trivial
    | exact pl_ofExcept _
    | exact pl_issue trivial
    | (refine pl_tell ?_; intro _ _ _ _ _ _; simp; done)
    | (refine pl_issue ?_; intro _ _ _ _ _ _ e; cases e; exact hrow)
    | (refine pl_bind ?_ fun _ => ?_)
    | (refine pl_tryCatch ?_ fun _ => ?_)
    | split

end
end OpenNSA.Backend
