import Verif.Backend.Notes
/-
Interleaved executions of the backend: the data plane of a connection is only reported, or recorded, as active when its link has
been set up on the device, and only reported as inactive when its link has then been taken down.

`U.up` stands for "the link of that connection has been up", `U.down` for "the device has taken it down after that". `Fair` describes what a coroutine does step by step, given the
connections `F` that its row objects are known to belong to.
-/
namespace OpenNSA.Backend
open OpenNSA Py Prog

/-- What is known of the links of connections. -/
structure Facts where
  up : Str → Prop
  down : Str → Prop

/-- Row objects and the connections they belong to. -/
abbrev Known := Nat → Str → Prop

/-- One more row object is known. -/
def Known.add (F : Known) (ref : Nat) (cid : Str) : Known := fun r c => F r c ∨ (r = ref ∧ c = cid)

/-- What a message about the data plane says is so. -/
def Msg.truthful (U : Facts) : Msg → Prop
  | .dataPlane cid _ b => if b then U.up cid else U.down cid
  | .deactivateFailed cid _ => U.up cid
  | _ => True

/-- What must hold when a command is issued, and what is known afterwards. -/
def Cmd.fair {β : Type} (U : Facts) (F : Known) (c : Cmd β) (post : Known → Except Err β → Prop) : Prop :=
  match c with
  | .getObj ref => (∀ row : Row, (∀ c, F ref c → row.cid = c) → (row.active = true → U.up row.cid) → post (F.add ref row.cid) (.ok row)) ∧ ∀ e, post F (.error e)
  | .setObj ref row => F ref row.cid ∧ (row.active = true → U.up row.cid) ∧ ∀ r, post F r
  | .newObj row => row.active = false ∧ ∀ r, post F r
  | .setup cid => (U.up cid → post F (.ok ())) ∧ ∀ e, post F (.error e)
  | .teardown cid => U.up cid ∧ (U.down cid → post F (.ok ())) ∧ ∀ e, post F (.error e)
  | .tell m => m.truthful U ∧ ∀ r, post F r
  | .call m => m.truthful U ∧ ∀ r, post F r
  | _ => ∀ r, post F r

/-- All commands of a coroutine are issued as they must; `Q` holds at its end. -/
def Fair {α : Type} (U : Facts) : Prog α → Known → (Known → Except Err α → Prop) → Prop
  | .pure a, F, Q => Q F (.ok a)
  | .throw e, F, Q => Q F (.error e)
  | .cmd c k, F, Q => c.fair U F fun F' r => Fair U (k r) F' Q
  | .spawn p k, F, Q => Fair U p F (fun _ _ => True) ∧ Fair U k F Q

/-- More is known. -/
def Known.le (F G : Known) : Prop := ∀ r c, F r c → G r c

theorem Known.le_refl (F : Known) : F.le F := fun _ _ h => h
theorem Known.le_add (F : Known) (ref : Nat) (cid : Str) : F.le (F.add ref cid) := fun _ _ h => .inl h
theorem Known.le_trans {F G H : Known} (h1 : F.le G) (h2 : G.le H) : F.le H := fun r c h => h2 r c (h1 r c h)

theorem Cmd.fair_mono {β : Type} {U : Facts} {F : Known} {c : Cmd β} {P Q : Known → Except Err β → Prop} (hPQ : ∀ F', F.le F' → ∀ r, P F' r → Q F' r)
    (h : c.fair U F P) : c.fair U F Q := by
  have h0 : ∀ r, P F r → Q F r := hPQ F F.le_refl
  cases c with
  | getObj ref => exact ⟨fun row h1 h2 => hPQ _ (F.le_add _ _) _ (h.1 row h1 h2), fun e => h0 _ (h.2 e)⟩
  | setObj ref row => exact ⟨h.1, h.2.1, fun r => h0 _ (h.2.2 r)⟩
  | newObj row => exact ⟨h.1, fun r => h0 _ (h.2 r)⟩
  | setup cid => exact ⟨fun hu => h0 _ (h.1 hu), fun e => h0 _ (h.2 e)⟩
  | teardown cid => exact ⟨h.1, fun hd => h0 _ (h.2.1 hd), fun e => h0 _ (h.2.2 e)⟩
  | tell m => exact ⟨h.1, fun r => h0 _ (h.2 r)⟩
  | call m => exact ⟨h.1, fun r => h0 _ (h.2 r)⟩
  | _ => exact fun r => h0 _ (h r)

theorem Fair.mono {α : Type} {U : Facts} {p : Prog α} : ∀ {F : Known} {P Q : Known → Except Err α → Prop},
    (∀ F', F.le F' → ∀ r, P F' r → Q F' r) → Fair U p F P → Fair U p F Q := by
  induction p with
  | pure a => exact fun hPQ h => hPQ _ (Known.le_refl _) _ h
  | throw e => exact fun hPQ h => hPQ _ (Known.le_refl _) _ h
  | cmd c k ih => exact fun hPQ h => Cmd.fair_mono (fun F' hF r hr => ih r (fun G hG r' h' => hPQ G (Known.le_trans hF hG) r' h') hr) h
  | spawn p k _ ihk => exact fun hPQ h => ⟨h.1, ihk hPQ h.2⟩

theorem Fair.bind {α β : Type} {U : Facts} {f : α → Prog β} {Q : Known → Except Err β → Prop} {p : Prog α} : ∀ {F : Known},
    Fair U p F (fun F' r => match r with | .ok a => Fair U (f a) F' Q | .error e => Q F' (.error e)) → Fair U (p >>= f) F Q := by
  show ∀ {F}, _ → Fair U (p.bind f) F Q
  induction p with
  | pure a => exact fun h => h
  | throw e => exact fun h => h
  | cmd c k ih => exact fun h => Cmd.fair_mono (fun F' _ r hr => ih r hr) h
  | spawn p k _ ihk => exact fun h => ⟨h.1, ihk h.2⟩

theorem Fair.tryCatch {α : Type} {U : Facts} {f : Err → Prog α} {Q : Known → Except Err α → Prop} {p : Prog α} : ∀ {F : Known},
    Fair U p F (fun F' r => match r with | .ok a => Q F' (.ok a) | .error e => Fair U (f e) F' Q) → Fair U (Prog.tryCatch p f) F Q := by
  induction p with
  | pure a => exact fun h => h
  | throw e => exact fun h => h
  | cmd c k ih => exact fun h => Cmd.fair_mono (fun F' _ r hr => ih r hr) h
  | spawn p k _ ihk => exact fun h => ⟨h.1, ihk h.2⟩

theorem Fair.issue {β : Type} {U : Facts} {c : Cmd β} {F : Known} {Q : Known → Except Err β → Prop} (h : c.fair U F Q) : Fair U (Prog.issue c) F Q :=
  Cmd.fair_mono (fun _ _ r hr => by cases r <;> exact hr) h

theorem Fair.ofExcept {α : Type} {U : Facts} {r : Except Err α} {F : Known} {Q : Known → Except Err α → Prop} (h : Q F r) : Fair U (Prog.ofExcept r) F Q := by
  cases r <;> exact h

/-- A coroutine that is fair whatever is known. -/
structure Honest {α : Type} (U : Facts) (p : Prog α) : Prop where
  fair : ∀ F, Fair U p F fun _ _ => True

namespace Honest
variable {U : Facts}

/-- Nothing known gets lost. -/
theorem to {α : Type} {p : Prog α} (h : Honest U p) {F : Known} {Q : Known → Except Err α → Prop} (hQ : ∀ F', F.le F' → ∀ r, Q F' r) : Fair U p F Q :=
  Fair.mono (fun F' hF r _ => hQ F' hF r) (h.fair F)

theorem pure {α : Type} (a : α) : Honest U (Prog.pure a) := ⟨fun _ => trivial⟩
theorem throw {α : Type} (e : Err) : Honest U (Prog.throw e : Prog α) := ⟨fun _ => trivial⟩
theorem bind {α β : Type} {p : Prog α} {f : α → Prog β} (hp : Honest U p) (hf : ∀ a, Honest U (f a)) : Honest U (p >>= f) :=
  ⟨fun F => Fair.bind (hp.to fun F' _ r => by cases r with | ok a => exact (hf a).fair F' | error e => trivial)⟩
theorem tryCatch {α : Type} {p : Prog α} {f : Err → Prog α} (hp : Honest U p) (hf : ∀ e, Honest U (f e)) : Honest U (Prog.tryCatch p f) :=
  ⟨fun F => Fair.tryCatch (hp.to fun F' _ r => by cases r with | ok a => trivial | error e => exact (hf e).fair F')⟩
theorem spawn {α : Type} {p : Prog Unit} {k : Prog α} (hp : Honest U p) (hk : Honest U k) : Honest U (Prog.spawn p k) := ⟨fun F => ⟨hp.fair F, hk.fair F⟩⟩
theorem ofExcept {α : Type} (r : Except Err α) : Honest U (Prog.ofExcept r) := ⟨fun _ => Fair.ofExcept trivial⟩
theorem issue {β : Type} (c : Cmd β) (h : ∀ F, c.fair U F fun _ _ => True) : Honest U (Prog.issue c) := ⟨fun F => Fair.issue (h F)⟩

/-- Reading a row object: afterwards its connection is known, and that its link has been up if it is recorded as active. -/
theorem get {α : Type} {ref : Nat} {f : Row → Prog α}
    (h : ∀ (F : Known) (row : Row), F ref row.cid → (row.active = true → U.up row.cid) → Fair U (f row) F fun _ _ => True) :
    Honest U (Prog.issue (.getObj ref) >>= f) :=
  ⟨fun _ => Fair.bind (Fair.issue (c := .getObj ref) ⟨fun row _ h2 => h _ row (.inr ⟨rfl, rfl⟩) h2, fun _ => trivial⟩)⟩

/-- Then assigning to it. -/
theorem set {α : Type} {ref : Nat} {row : Row} {f : Unit → Prog α} (hf : Honest U (f ())) {F : Known} (h1 : F ref row.cid) (h2 : row.active = true → U.up row.cid) :
    Fair U (Prog.issue (.setObj ref row) >>= f) F fun _ _ => True :=
  Fair.bind (Fair.issue (c := .setObj ref row) ⟨h1, h2, fun r => by cases r with | ok a => exact hf.fair F | error e => trivial⟩)

end Honest

/-- Steps through a coroutine that neither assigns to row objects nor reports the data plane. -/
macro "honest" : tactic => `(tactic| repeat' first
  | exact Honest.pure _ | exact Honest.throw _ | exact Honest.ofExcept _ | assumption
  | exact Honest.issue _ (fun _ _ => trivial) | exact Honest.issue _ (fun _ => ⟨trivial, fun _ => trivial⟩)
  | exact Honest.issue _ (fun _ => ⟨fun _ _ _ => trivial, fun _ => trivial⟩)
  | apply Honest.tryCatch | apply Honest.spawn | apply Honest.bind | intro _ | split)

section
variable {U : Facts}

theorem honest_getConnection (cid : Str) : Honest U (getConnection cid) := by unfold getConnection; honest
theorem honest_switchReserve (ref : Nat) (s : RState) : Honest U (switchReserve ref s) := by
  refine Honest.get fun F row h1 h2 => ?_
  split
  · trivial
  · exact Honest.set (by honest) h1 h2
theorem honest_switchProvision (ref : Nat) (s : PState) : Honest U (switchProvision ref s) := by
  refine Honest.get fun F row h1 h2 => ?_
  split
  · trivial
  · exact Honest.set (by honest) h1 h2
theorem honest_switchLifecycle (ref : Nat) (s : LState) : Honest U (switchLifecycle ref s) := by
  refine Honest.get fun F row h1 h2 => ?_
  split
  · trivial
  · exact Honest.set (by honest) h1 h2
theorem honest_multiSwitchLoop (ref : Nat) : ∀ ss : List RState, Honest U (multiSwitchLoop ref ss)
  | [] => .pure _
  | s :: ss => by
    have ih := honest_multiSwitchLoop ref ss
    refine Honest.get fun F row h1 h2 => ?_
    split
    · trivial
    · exact Honest.set ih h1 h2
theorem honest_multiSwitch (ref : Nat) (ss : List RState) : Honest U (multiSwitch ref ss) := by
  have := honest_multiSwitchLoop (U := U) ref ss; unfold multiSwitch; honest
theorem honest_removeBoth (cfg : Cfg) (ref : Nat) : Honest U (removeBoth cfg ref) := by unfold removeBoth; honest
theorem honest_schedEnd (cid : Str) (e : Option Time) (ref : Nat) : Honest U (schedEnd cid e ref) := by unfold schedEnd; honest
theorem honest_whenP (b : Bool) {p : Prog Unit} (h : Honest U p) : Honest U (whenP b p) := by unfold whenP; honest
theorem honest_setInactive (ref : Nat) : Honest U (setActive ref false) := by
  refine Honest.get fun F row h1 h2 => ?_
  exact Honest.set (by honest) h1 (fun h => by cases h)
/-- The data plane is recorded as active when the link has been up. -/
theorem fair_setActive {ref : Nat} {cid : Str} {F : Known} (hF : F ref cid) (hU : U.up cid) : Fair U (setActive ref true) F fun F' _ => F.le F' := by
  refine Fair.bind (Fair.issue (c := .getObj ref) ⟨fun row h1 _ => ?_, fun _ => F.le_refl⟩)
  have hc : row.cid = cid := h1 cid hF
  refine Fair.bind (Fair.issue (c := .setObj ref _) ⟨.inr ⟨rfl, rfl⟩, fun _ => ?_, fun r => ?_⟩)
  · show U.up row.cid; rw [hc]; exact hU
  · cases r with
    | ok _ => exact Fair.issue (c := .save ref) fun _ => F.le_add _ _
    | error e => exact F.le_add _ _
theorem fair_doTeardown {ref : Nat} {cid : Str} {F : Known} (hF : F ref cid) (hU : U.up cid) : Fair U (doTeardown ref) F fun _ _ => True := by
  refine Fair.bind (Fair.issue (c := .getObj ref) ⟨fun row h1 _ => ?_, fun _ => trivial⟩)
  have hc : U.up row.cid := by rw [h1 cid hF]; exact hU
  have h3 := honest_setInactive (U := U) ref
  refine Fair.bind (Fair.tryCatch (Fair.bind (Fair.issue (c := .teardown row.cid) ⟨hc, fun hd => ?_, fun e => ?_⟩)))
  · have t1 : ∀ n, Honest U (Prog.issue (.tell (.dataPlane row.cid n false))) := fun n => Honest.issue _ fun _ => ⟨hd, fun _ => trivial⟩
    exact (Honest.tryCatch (Honest.bind h3 fun _ => Honest.bind (by honest) fun n => t1 n) fun _ => Honest.pure _ :
      Honest U (Prog.tryCatch (do setActive ref false; let n ← Prog.issue .notifId; Prog.issue (.tell (.dataPlane row.cid n false))) fun _ => Prog.pure ())).fair _
  · have t2 : ∀ n, Honest U (Prog.issue (.tell (.deactivateFailed row.cid n))) := fun n => Honest.issue _ fun _ => ⟨hc, fun _ => trivial⟩
    exact (Honest.bind h3 fun _ => Honest.bind (by honest) fun n => t2 n :
      Honest U (do setActive ref false; let n ← Prog.issue .notifId; Prog.issue (.tell (.deactivateFailed row.cid n)))).fair _
theorem honest_doFreeResource (cfg : Cfg) (ref : Nat) : Honest U (doFreeResource cfg ref) := by
  refine Honest.get fun F row h1 h2 => ?_
  split
  · rename_i ha
    refine Fair.bind (Fair.mono (fun F' _ r _ => ?_) (fair_doTeardown h1 (h2 ha)))
    cases r with
    | ok _ => exact (honest_removeBoth cfg ref).fair F'
    | error _ => trivial
  split
  · exact (honest_removeBoth cfg ref).fair F
  · trivial
theorem honest_doEndtime (cfg : Cfg) (ref : Nat) : Honest U (doEndtime cfg ref) := by
  have := honest_switchLifecycle (U := U) ref .passedEnd; have := honest_doFreeResource (U := U) cfg ref; unfold doEndtime; honest
theorem honest_doReserveRollback (cfg : Cfg) (ref : Nat) : Honest U (doReserveRollback cfg ref) := by
  have := honest_removeBoth (U := U) cfg ref; have := honest_doEndtime (U := U) cfg ref
  have h1 := honest_switchReserve (U := U) ref .aborting; have h2 := honest_switchReserve (U := U) ref .start
  unfold doReserveRollback; honest
theorem honest_doReserveTimeout (cfg : Cfg) (ref : Nat) : Honest U (doReserveTimeout cfg ref) := by
  have := honest_switchReserve (U := U) ref .timeout; have := honest_doReserveRollback (U := U) cfg ref; unfold doReserveTimeout; honest
theorem honest_doActivate (ref : Nat) : Honest U (doActivate ref) := by
  refine Honest.get fun F row h1 h2 => ?_
  refine Fair.bind (Fair.tryCatch (Fair.bind (Fair.issue (c := .setup row.cid) ⟨fun hU => ?_, fun e => ?_⟩)))
  · refine Fair.tryCatch (Fair.bind (Fair.mono (fun F' _ r _ => ?_) (fair_setActive h1 hU)))
    cases r with
    | error _ => trivial
    | ok _ =>
      have t1 : ∀ n, Honest U (Prog.issue (.tell (.dataPlane row.cid n true))) := fun n => Honest.issue _ fun _ => ⟨hU, fun _ => trivial⟩
      refine Honest.to (Honest.bind (by honest) fun now => Honest.bind (honest_schedEnd _ _ _) fun _ => Honest.bind (by honest) fun n => t1 n) fun F' _ r => ?_
      cases r <;> trivial
  · have h3 := honest_setInactive (U := U) ref
    exact (Honest.bind h3 fun _ => by honest : Honest U (do setActive ref false; let n ← Prog.issue .notifId; Prog.issue (.tell (.activateFailed row.cid n)))).fair F
theorem honest_doReserve (ref : Nat) (corr : Str) : Honest U (doReserve ref corr) := by
  have := honest_multiSwitch (U := U) ref [.checking, .held]
  unfold doReserve
  repeat' first | exact honest_whenP _ (by honest) | (honest; done) | apply Honest.bind | intro _
theorem honest_firstFree (cfg : Cfg) (port : Str) (s e : Option Time) : ∀ ls : List (Option LabelVal), Honest U (firstFree cfg port s e ls)
  | [] => .throw _
  | l :: ls => by have := honest_firstFree cfg port s e ls; unfold firstFree; honest
theorem honest_firstFreeBoth (cfg : Cfg) (a b : Str) (s e : Option Time) : ∀ ls : List (Option LabelVal), Honest U (firstFreeBoth cfg a b s e ls)
  | [] => .throw _
  | l :: ls => by have := honest_firstFreeBoth cfg a b s e ls; unfold firstFreeBoth; honest
theorem honest_allocate (cfg : Cfg) (src dst : STP) (s e : Option Time) : Honest U (allocate cfg src dst s e) := by
  unfold allocate
  repeat' first | exact honest_firstFree _ _ _ _ _ | exact honest_firstFreeBoth _ _ _ _ _ _ | (honest; done) | apply Honest.bind | intro _ | split
theorem honest_pickId (c : Option Str) : Honest U (pickId c) := by unfold pickId; honest
theorem honest_reserveBody (cfg : Cfg) (h : Hdr) (c : Option Str) (src dst : STP) (s e : Option Time) : Honest U (reserveBody cfg h c src dst s e) := by
  refine Honest.bind (.ofExcept _) fun _ => Honest.bind (honest_allocate ..) fun x => Honest.bind (by honest) fun now => Honest.bind (honest_pickId _) fun cid =>
    Honest.bind (Honest.issue _ fun _ => ⟨rfl, fun _ => trivial⟩) fun ref => Honest.bind (by honest) fun _ => Honest.spawn (honest_doReserve _ _) (.pure _)
theorem honest_reserve (cfg : Cfg) (h : Hdr) (c : Option Str) (src dst : STP) (s e : Option Time) : Honest U (reserve cfg h c src dst s e) := by
  unfold reserve
  repeat' first | exact honest_reserveBody _ _ _ _ _ _ _ | (honest; done) | apply Honest.bind | intro _ | split
theorem honest_commit (cfg : Cfg) (h : Hdr) (cid : Str) : Honest U (reserveCommit cfg h cid) := by
  refine Honest.bind (honest_getConnection _) fun ref => Honest.get fun F row h1 h2 => ?_
  refine Fair.bind (Fair.ofExcept ?_)
  split
  · split
    · trivial
    · refine Honest.set (Honest.bind (honest_multiSwitch _ _) fun _ => Honest.bind (by honest) fun _ => Honest.bind (honest_schedEnd _ _ _) fun _ => by honest) h1 h2
  · trivial
theorem honest_abort (cfg : Cfg) (h : Hdr) (cid : Str) : Honest U (reserveAbort cfg h cid) := by
  unfold reserveAbort abortOn
  repeat' first | exact honest_getConnection _ | exact honest_doReserveRollback _ _ | (honest; done) | apply Honest.bind | intro _ | split
theorem honest_provisionOn (cfg : Cfg) (h : Hdr) (cid : Str) (ref : Nat) : Honest U (provisionOn cfg h cid ref) := by
  have hr : Honest U (do switchProvision ref .provisioned; Prog.issue (.tell (.provisionConfirmed cid))) :=
    (honest_switchProvision _ _).bind fun _ => by honest
  refine Honest.bind (by honest) fun row => (Honest.ofExcept _).bind fun _ => ?_
  split
  · exact .throw _
  split
  · exact .throw _
  split
  · exact .throw _
  refine Honest.bind (by honest) fun now => ?_
  split
  · exact .throw _
  refine (honest_switchProvision _ _).bind fun _ => Honest.bind (by honest) fun _ => ?_
  dsimp only
  split
  · exact .spawn (honest_doActivate _) hr
  · split
    · exact .spawn (honest_doActivate _) hr
    · exact Honest.bind (by honest) fun _ => hr
theorem honest_provision (cfg : Cfg) (h : Hdr) (cid : Str) : Honest U (provision cfg h cid) :=
  (honest_getConnection _).bind fun _ => honest_provisionOn _ _ _ _
theorem honest_release (cfg : Cfg) (h : Hdr) (cid : Str) : Honest U (release cfg h cid) := by
  refine Honest.bind (honest_getConnection _) fun ref => Honest.bind (by honest) fun row => Honest.bind (.ofExcept _) fun _ => ?_
  split
  · exact .throw _
  refine Honest.bind (honest_switchProvision _ _) fun _ => Honest.bind (by honest) fun _ => Honest.get fun F row' h1 h2 => ?_
  have rest : Honest U (do schedEnd cid row'.end_ ref; switchProvision ref .released; Prog.issue (.tell (.releaseConfirmed cid))) :=
    Honest.bind (honest_schedEnd _ _ _) fun _ => Honest.bind (honest_switchProvision _ _) fun _ => by honest
  refine Fair.bind ?_
  unfold whenP
  split
  · rename_i ha
    refine Fair.tryCatch (Fair.mono (fun F' _ r _ => ?_) (fair_doTeardown h1 (h2 ha)))
    cases r with
    | ok _ => exact rest.fair F'
    | error _ => exact rest.fair F'
  · exact rest.fair F
theorem honest_terminate (cfg : Cfg) (h : Hdr) (cid : Str) : Honest U (terminate cfg h cid) := by
  unfold terminate terminateOn
  repeat' first | exact honest_getConnection _ | exact honest_switchLifecycle _ _ | exact honest_whenP _ (honest_doFreeResource _ _) | (honest; done) | apply Honest.bind | intro _ | split
theorem honest_waiting (ref : Nat) (row : Row) (t : Time) : Honest U (buildOne.waiting ref row t) := by
  unfold buildOne.waiting
  split
  · exact Honest.bind (by honest) fun _ => honest_whenP _ (.throw _)
  · honest
theorem honest_started (ref : Nat) (row : Row) : Honest U (buildOne.started ref row) := by
  unfold buildOne.started
  split
  · split
    · exact honest_schedEnd _ _ _
    · exact honest_doActivate _
  split
  · exact honest_schedEnd _ _ _
  · exact .pure _
theorem honest_buildOne (cfg : Cfg) (ref : Nat) : Honest U (buildOne cfg ref) := by
  refine Honest.bind (by honest) fun row => Honest.bind (by honest) fun b => ?_
  split
  · exact .pure _
  refine Honest.bind (by honest) fun now => ?_
  split
  · exact .pure _
  split
  · exact .pure _
  refine Honest.bind (by honest) fun _ => Honest.bind (by honest) fun _ => ?_
  split
  · exact honest_doEndtime _ _
  split
  · split
    · exact honest_doReserveRollback _ _
    · honest
  split
  · exact honest_started _ _
  · split
    · exact honest_started _ _
    split
    · exact honest_waiting _ _ _
    · exact .pure _
theorem honest_buildLoop (cfg : Cfg) : ∀ refs : List Nat, Honest U (buildLoop cfg refs)
  | [] => .pure _
  | r :: rs => (honest_buildOne cfg r).bind fun _ => honest_buildLoop cfg rs
theorem honest_buildSchedule (cfg : Cfg) : Honest U (buildSchedule cfg) := Honest.bind (by honest) fun _ => honest_buildLoop cfg _

theorem honest_req (cfg : Cfg) (h : Hdr) (q : Req) : Honest U (q.prog cfg h) := by
  cases q with
  | reserve => exact (honest_reserve ..).bind fun _ => .pure _
  | commit => exact (honest_commit ..).bind fun _ => .pure _
  | abort => exact (honest_abort ..).bind fun _ => .pure _
  | provision => exact (honest_provision ..).bind fun _ => .pure _
  | release => exact (honest_release ..).bind fun _ => .pure _
  | terminate => exact (honest_terminate ..).bind fun _ => .pure _

theorem honest_act (cfg : Cfg) (a : Act) (ref : Nat) : Honest U (actProg cfg a ref) := by
  cases a with
  | reserveTimeout => exact honest_doReserveTimeout _ _
  | endtime => exact honest_doEndtime _ _
  | activate => exact honest_doActivate _
end

end OpenNSA.Backend
