import Verif.Backend.Conc
/-
Notification ids in interleaved executions of the backend: a coroutine uses the id it draws at once, so that the ids of the
notifications sent follow the counter, whatever else is under way.
-/
namespace OpenNSA.Backend
open OpenNSA Py Prog

/-- The notification id a message carries (requester interface: the messages of genericbackend.py:611, 670, 694, 719, 731). -/
def Msg.noteId : Msg → Option Nat
  | .reserveTimeout _ n | .activateFailed _ n | .deactivateFailed _ n | .dataPlane _ n _ => some n
  | _ => none

/-- The notification ids of messages, in order. -/
def noteIds (ms : List Msg) : List Nat := ms.filterMap Msg.noteId

/-- The command neither draws a notification id nor sends one. -/
def Cmd.still {β : Type} : Cmd β → Prop
  | .notifId => False
  | .tell m => m.noteId = none
  | .call m => m.noteId = none
  | _ => True

/-- Notification ids are sent as soon as they are drawn, and no others are sent. -/
inductive Neat : {α : Type} → Prog α → Prop
  | pure {α : Type} (a : α) : Neat (Prog.pure a)
  | throw {α : Type} (e : Err) : Neat (Prog.throw e : Prog α)
  | cmd {α β : Type} (x : Cmd β) (k : Except Err β → Prog α) : x.still → (∀ r, Neat (k r)) → Neat (Prog.cmd x k)
  | note {α : Type} (m : Nat → Msg) (k : Except Err Nat → Prog α) (f : Nat → Except Err Unit → Prog α) :
      (∀ n, (m n).noteId = some n) → (∀ n, k (.ok n) = Prog.cmd (.tell (m n)) (f n)) → (∀ n r, Neat (f n r)) → Neat (Prog.cmd .notifId k)
  | spawn {α : Type} (p : Prog Unit) (k : Prog α) : Neat p → Neat k → Neat (Prog.spawn p k)

namespace Neat

theorem bind' {α β : Type} {p : Prog α} {f : α → Prog β} (hp : Neat p) (hf : ∀ a, Neat (f a)) : Neat (p.bind f) := by
  induction hp with
  | pure a => exact hf a
  | throw e => exact .throw e
  | cmd x k hx _ ih => exact .cmd x _ hx fun r => ih r hf
  | note m k g hm hk _ ih =>
    refine .note m _ (fun n r => (g n r).bind f) hm (fun n => ?_) (fun n r => ih n r hf)
    rw [hk n]; rfl
  | spawn p k hp _ _ ih => exact .spawn _ _ hp (ih hf)

theorem bind {α β : Type} {p : Prog α} {f : α → Prog β} (hp : Neat p) (hf : ∀ a, Neat (f a)) : Neat (p >>= f) := hp.bind' hf

theorem tryCatch {α : Type} {p : Prog α} {h : Err → Prog α} (hp : Neat p) (hh : ∀ e, Neat (h e)) : Neat (Prog.tryCatch p h) := by
  induction hp with
  | pure a => exact .pure a
  | throw e => exact hh e
  | cmd x k hx _ ih => exact .cmd x _ hx fun r => ih r hh
  | note m k g hm hk _ ih =>
    refine .note m _ (fun n r => Prog.tryCatch (g n r) h) hm (fun n => ?_) (fun n r => ih n r hh)
    rw [hk n]; rfl
  | spawn p k hp _ _ ih => exact .spawn _ _ hp (ih hh)

theorem issue {β : Type} (x : Cmd β) (hx : x.still) : Neat (Prog.issue x) :=
  .cmd x _ hx fun r => by cases r <;> constructor

theorem send (m : Nat → Msg) (hm : ∀ n, (m n).noteId = some n) : Neat (do let n ← Prog.issue .notifId; Prog.issue (.tell (m n))) :=
  .note m _ (fun _ => fun | .ok b => .pure b | .error e => .throw e) hm
    (fun n => by show Prog.cmd _ _ = Prog.cmd _ _; congr 1; funext r; cases r <;> rfl) (fun n r => by cases r <;> constructor)

theorem ofExcept {α : Type} (r : Except Err α) : Neat (Prog.ofExcept r) := by cases r <;> constructor

end Neat

/-- Steps through a coroutine. -/
macro "neat" : tactic => `(tactic| repeat' first
  | exact Neat.pure _ | exact Neat.throw _ | exact Neat.ofExcept _ | assumption
  | exact Neat.send _ (fun _ => rfl)
  | exact Neat.issue _ trivial | exact Neat.issue _ rfl
  | apply Neat.tryCatch | apply Neat.spawn | apply Neat.bind | intro _ | split)

theorem neat_getConnection (cid : Str) : Neat (getConnection cid) := by unfold getConnection; neat
theorem neat_switchReserve (ref : Nat) (s : RState) : Neat (switchReserve ref s) := by unfold switchReserve; neat
theorem neat_switchProvision (ref : Nat) (s : PState) : Neat (switchProvision ref s) := by unfold switchProvision; neat
theorem neat_switchLifecycle (ref : Nat) (s : LState) : Neat (switchLifecycle ref s) := by unfold switchLifecycle; neat
theorem neat_multiSwitchLoop (ref : Nat) : ∀ ss : List RState, Neat (multiSwitchLoop ref ss)
  | [] => .pure _
  | s :: ss => by have := neat_multiSwitchLoop ref ss; unfold multiSwitchLoop; neat
theorem neat_multiSwitch (ref : Nat) (ss : List RState) : Neat (multiSwitch ref ss) := by
  have := neat_multiSwitchLoop ref ss; unfold multiSwitch; neat
theorem neat_removeBoth (cfg : Cfg) (ref : Nat) : Neat (removeBoth cfg ref) := by unfold removeBoth; neat
theorem neat_schedEnd (cid : Str) (e : Option Time) (ref : Nat) : Neat (schedEnd cid e ref) := by unfold schedEnd; neat
theorem neat_whenP (b : Bool) {p : Prog Unit} (h : Neat p) : Neat (whenP b p) := by unfold whenP; neat
theorem neat_setActive (ref : Nat) (b : Bool) : Neat (setActive ref b) := by unfold setActive; neat
theorem neat_doTeardown (ref : Nat) : Neat (doTeardown ref) := by
  have := neat_setActive ref false; unfold doTeardown; neat
theorem neat_doFreeResource (cfg : Cfg) (ref : Nat) : Neat (doFreeResource cfg ref) := by
  have := neat_doTeardown ref; have := neat_removeBoth cfg ref; unfold doFreeResource; neat
theorem neat_doEndtime (cfg : Cfg) (ref : Nat) : Neat (doEndtime cfg ref) := by
  have := neat_switchLifecycle ref .passedEnd; have := neat_doFreeResource cfg ref; unfold doEndtime; neat
theorem neat_doReserveRollback (cfg : Cfg) (ref : Nat) : Neat (doReserveRollback cfg ref) := by
  have := neat_switchReserve ref; have := neat_removeBoth cfg ref; have := neat_doEndtime cfg ref
  have h1 := neat_switchReserve ref .aborting; have h2 := neat_switchReserve ref .start
  unfold doReserveRollback; neat
theorem neat_doReserveTimeout (cfg : Cfg) (ref : Nat) : Neat (doReserveTimeout cfg ref) := by
  have := neat_switchReserve ref .timeout; have := neat_doReserveRollback cfg ref; unfold doReserveTimeout; neat
theorem neat_doActivate (ref : Nat) : Neat (doActivate ref) := by
  have := neat_setActive ref false; have := neat_setActive ref true
  unfold doActivate
  repeat' first | exact neat_schedEnd _ _ _ | (neat; done) | apply Neat.tryCatch | apply Neat.bind | intro _ | split
theorem neat_doReserve (ref : Nat) (corr : Str) : Neat (doReserve ref corr) := by
  have := neat_multiSwitch ref [.checking, .held]
  unfold doReserve
  repeat' first | exact neat_whenP _ (Neat.issue _ trivial) | (neat; done) | apply Neat.bind | intro _
theorem neat_firstFree (cfg : Cfg) (port : Str) (s e : Option Time) : ∀ ls : List (Option LabelVal), Neat (firstFree cfg port s e ls)
  | [] => .throw _
  | l :: ls => by have := neat_firstFree cfg port s e ls; unfold firstFree; neat
theorem neat_firstFreeBoth (cfg : Cfg) (a b : Str) (s e : Option Time) : ∀ ls : List (Option LabelVal), Neat (firstFreeBoth cfg a b s e ls)
  | [] => .throw _
  | l :: ls => by have := neat_firstFreeBoth cfg a b s e ls; unfold firstFreeBoth; neat
theorem neat_allocate (cfg : Cfg) (src dst : STP) (s e : Option Time) : Neat (allocate cfg src dst s e) := by
  unfold allocate
  repeat' first | exact neat_firstFree _ _ _ _ _ | exact neat_firstFreeBoth _ _ _ _ _ _ | (neat; done) | apply Neat.bind | intro _ | split
theorem neat_pickId (c : Option Str) : Neat (pickId c) := by unfold pickId; neat
theorem neat_reserveBody (cfg : Cfg) (h : Hdr) (c : Option Str) (src dst : STP) (s e : Option Time) : Neat (reserveBody cfg h c src dst s e) := by
  unfold reserveBody
  repeat' first | exact neat_allocate _ _ _ _ _ | exact neat_pickId _ | exact neat_doReserve _ _ | (neat; done) | apply Neat.spawn | apply Neat.bind | intro _ | split
theorem neat_reserve (cfg : Cfg) (h : Hdr) (c : Option Str) (src dst : STP) (s e : Option Time) : Neat (reserve cfg h c src dst s e) := by
  unfold reserve
  repeat' first | exact neat_reserveBody _ _ _ _ _ _ _ | (neat; done) | apply Neat.bind | intro _ | split
theorem neat_commit (cfg : Cfg) (h : Hdr) (cid : Str) : Neat (reserveCommit cfg h cid) := by
  unfold reserveCommit commitOn
  repeat' first | exact neat_getConnection _ | exact neat_multiSwitch _ _ | exact neat_schedEnd _ _ _ | (neat; done) | apply Neat.bind | intro _ | split
theorem neat_abort (cfg : Cfg) (h : Hdr) (cid : Str) : Neat (reserveAbort cfg h cid) := by
  unfold reserveAbort abortOn
  repeat' first | exact neat_getConnection _ | exact neat_doReserveRollback _ _ | (neat; done) | apply Neat.bind | intro _ | split
theorem neat_provisionOn (cfg : Cfg) (h : Hdr) (cid : Str) (ref : Nat) : Neat (provisionOn cfg h cid ref) := by
  have hr : Neat (do switchProvision ref .provisioned; Prog.issue (.tell (.provisionConfirmed cid))) :=
    (neat_switchProvision _ _).bind fun _ => .issue _ rfl
  refine (Neat.issue _ (by trivial)).bind fun row => (Neat.ofExcept _).bind fun _ => ?_
  split
  · exact .throw _
  split
  · exact .throw _
  split
  · exact .throw _
  refine (Neat.issue _ (by trivial)).bind fun now => ?_
  split
  · exact .throw _
  refine (neat_switchProvision _ _).bind fun _ => (Neat.issue _ (by trivial)).bind fun _ => ?_
  dsimp only
  split
  · exact .spawn _ _ (neat_doActivate _) hr
  · split
    · exact .spawn _ _ (neat_doActivate _) hr
    · exact (Neat.issue _ (by trivial)).bind fun _ => hr
theorem neat_provision (cfg : Cfg) (h : Hdr) (cid : Str) : Neat (provision cfg h cid) :=
  (neat_getConnection _).bind fun _ => neat_provisionOn _ _ _ _
theorem neat_release (cfg : Cfg) (h : Hdr) (cid : Str) : Neat (release cfg h cid) := by
  unfold release releaseOn
  repeat' first | exact neat_getConnection _ | exact neat_switchProvision _ _ | exact neat_schedEnd _ _ _ | exact neat_whenP _ (Neat.tryCatch (neat_doTeardown _) fun _ => Neat.pure _) | (neat; done) | apply Neat.bind | intro _ | split
theorem neat_terminate (cfg : Cfg) (h : Hdr) (cid : Str) : Neat (terminate cfg h cid) := by
  unfold terminate terminateOn
  repeat' first | exact neat_getConnection _ | exact neat_switchLifecycle _ _ | exact neat_whenP _ (neat_doFreeResource _ _) | (neat; done) | apply Neat.bind | intro _ | split
theorem neat_waiting (ref : Nat) (row : Row) (t : Time) : Neat (buildOne.waiting ref row t) := by
  unfold buildOne.waiting
  split
  · exact (Neat.issue _ (by trivial)).bind fun _ => neat_whenP _ (.throw _)
  split
  · split
    · exact .throw _
    · exact .issue _ (by trivial)
  · exact .pure _
theorem neat_started (ref : Nat) (row : Row) : Neat (buildOne.started ref row) := by
  unfold buildOne.started
  split
  · split
    · exact neat_schedEnd _ _ _
    · exact neat_doActivate _
  split
  · exact neat_schedEnd _ _ _
  · exact .pure _
theorem neat_buildOne (cfg : Cfg) (ref : Nat) : Neat (buildOne cfg ref) := by
  refine (Neat.issue _ (by trivial)).bind fun row => (Neat.issue _ (by trivial)).bind fun b => ?_
  split
  · exact .pure _
  refine (Neat.issue _ (by trivial)).bind fun now => ?_
  split
  · exact .pure _
  split
  · exact .pure _
  refine (Neat.issue _ (by trivial)).bind fun _ => (Neat.issue _ (by trivial)).bind fun _ => ?_
  split
  · exact neat_doEndtime _ _
  split
  · split
    · exact neat_doReserveRollback _ _
    · exact .issue _ (by trivial)
  split
  · exact neat_started _ _
  · split
    · exact neat_started _ _
    split
    · exact neat_waiting _ _ _
    · exact .pure _
theorem neat_buildLoop (cfg : Cfg) : ∀ refs : List Nat, Neat (buildLoop cfg refs)
  | [] => .pure _
  | r :: rs => (neat_buildOne cfg r).bind fun _ => neat_buildLoop cfg rs
theorem neat_buildSchedule (cfg : Cfg) : Neat (buildSchedule cfg) := (Neat.issue .findLive trivial).bind fun _ => neat_buildLoop cfg _

theorem neat_req (cfg : Cfg) (h : Hdr) (q : Req) : Neat (q.prog cfg h) := by
  cases q with
  | reserve => exact (neat_reserve ..).bind fun _ => .pure _
  | commit => exact (neat_commit ..).bind fun _ => .pure _
  | abort => exact (neat_abort ..).bind fun _ => .pure _
  | provision => exact (neat_provision ..).bind fun _ => .pure _
  | release => exact (neat_release ..).bind fun _ => .pure _
  | terminate => exact (neat_terminate ..).bind fun _ => .pure _

theorem neat_act (cfg : Cfg) (a : Act) (ref : Nat) : Neat (actProg cfg a ref) := by
  cases a with
  | reserveTimeout => exact neat_doReserveTimeout _ _
  | endtime => exact neat_doEndtime _ _
  | activate => exact neat_doActivate _

/-! ### The ids sent since the counter was at zero -/

/-- The notifications sent after the messages `b` are numbered by the counter. -/
def Numbered (b : List Msg) (w : World) : Prop := ∃ ms, w.outbox = b ++ ms ∧ noteIds ms = List.range w.notif

theorem Numbered.congr {b : List Msg} {w w' : World} (h : Numbered b w) (ho : w'.outbox = w.outbox) (hn : w'.notif = w.notif) : Numbered b w' := by
  rw [Numbered, ho, hn]; exact h

theorem Numbered.advance {b : List Msg} {w : World} (h : Numbered b w) : Numbered b w.advance := by
  unfold World.advance; split <;> exact h

theorem Numbered.say {b : List Msg} {w : World} (h : Numbered b w) {m : Msg} (hm : m.noteId = none) {w' : World}
    (ho : w'.outbox = w.outbox ++ [m]) (hn : w'.notif = w.notif) : Numbered b w' := by
  obtain ⟨ms, h1, h2⟩ := h
  exact ⟨ms ++ [m], by rw [ho, h1, List.append_assoc], by rw [hn, ← h2]; simp [noteIds, hm]⟩

theorem numbered_execAt {β : Type} {b : List Msg} {w : World} (h : Numbered b w) (x : Cmd β) (hx : x.still) : Numbered b (execAt w x).1 := by
  cases x with
  | notifId => cases hx
  | tell m => exact h.say hx rfl rfl
  | call m =>
    simp only [execAt]
    split <;> exact h.say hx rfl rfl
  | setup cid =>
    have hd : Numbered b w.dev.2 := by unfold World.dev; split <;> exact h
    revert hd
    simp only [execAt]
    generalize w.dev = d
    intro hd
    obtain ⟨d, w2⟩ := d
    cases d with
    | ok => exact hd
    | failed x => cases x <;> exact hd
  | teardown cid =>
    have hd : Numbered b w.dev.2 := by unfold World.dev; split <;> exact h
    revert hd
    simp only [execAt]
    generalize w.dev = d
    intro hd
    obtain ⟨d, w2⟩ := d
    cases d with
    | ok => exact hd
    | failed x => cases x <;> exact hd
  | _ => simp only [execAt]; repeat' (first | exact h | split)

theorem numbered_exec {β : Type} {b : List Msg} {w : World} (h : Numbered b w) (x : Cmd β) (hx : x.still) : Numbered b (exec w x).1 :=
  numbered_execAt h.advance x hx

/-- A suspended coroutine goes on in the same way. -/
def Task.neat (t : Task) : Prop :=
  match t.susp with
  | .waiting c k _ => c.still ∧ ∀ r, Neat (k r)
  | .performed k _ _ => ∀ r, Neat (k r)

/-- All the coroutines do. -/
structure Notes (b : List Msg) (c : Conc) : Prop where
  num : Numbered b c.w
  tasks : ∀ t ∈ c.tasks, t.neat

theorem neat_cancelled {n : Nat} {t : Task} (h : t.neat) : ∀ u ∈ t.cancelled n, u.neat := by
  intro u hu
  unfold Task.cancelled at hu
  unfold Task.neat at h
  split at hu <;> rename_i hs <;> rw [hs] at h
  · simp only [List.mem_cons, List.not_mem_nil, or_false] at hu
    rcases hu with rfl | rfl
    · exact fun _ => h.2 _
    · exact ⟨h.1, fun _ => .pure _⟩
  · simp only [List.mem_cons, List.not_mem_nil, or_false] at hu
    subst hu
    exact fun _ => h _

theorem Notes.affect {β : Type} {b : List Msg} {c : Conc} (h : Notes b c) (w : World) (ok : Bool) (x : Cmd β) : Notes b (c.affect w ok x) := by
  unfold Conc.affect
  split
  · split
    · refine ⟨h.num, fun t ht => ?_⟩
      simp only [Conc.cancelCall, List.mem_flatMap] at ht
      obtain ⟨u, hu, ht⟩ := ht
      split at ht
      · exact neat_cancelled (h.tasks u hu) t ht
      · simp only [List.mem_cons, List.not_mem_nil, or_false] at ht; subst ht; exact h.tasks _ hu
    · exact h
  · split
    · refine ⟨h.num, fun t ht => ?_⟩
      simp only [Conc.disown, List.mem_map] at ht
      obtain ⟨u, hu, rfl⟩ := ht
      split
      · exact h.tasks u hu
      · exact h.tasks u hu
    · exact h
  · exact h

theorem affect_still {β : Type} (c : Conc) (w : World) (ok : Bool) (x : Cmd β) : (c.affect w ok x).w = c.w := by
  unfold Conc.affect
  split
  · split <;> rfl
  · split <;> rfl
  · rfl

theorem Notes.runSync {α : Type} {b : List Msg} {p : Prog α} (hp : Neat p) : ∀ (id : Nat) (owner : Option Str)
    (fin : Except Err α → Except Err (Option Str)) (c : Conc), Notes b c → Notes b (Conc.runSync id owner p fin c) := by
  induction hp with
  | pure a => intro id owner fin c h; exact ⟨h.num, h.tasks⟩
  | throw e => intro id owner fin c h; exact ⟨h.num, h.tasks⟩
  | cmd x k hx hk ih =>
    intro id owner fin c h
    simp only [Conc.runSync]
    split
    · refine ⟨h.num, fun t ht => ?_⟩
      simp only [List.mem_append, List.mem_cons, List.not_mem_nil, or_false] at ht
      rcases ht with ht | rfl
      · exact h.tasks t ht
      · exact ⟨hx, hk⟩
    · refine ih _ id owner fin _ ?_
      exact Notes.affect (c := { c with w := (exec c.w x).1 }) ⟨numbered_exec h.num x hx, h.tasks⟩ _ _ _
  | note m k f hm hk hf ih =>
    intro id owner fin c h
    simp only [Conc.runSync, Cmd.isAsync, Bool.false_eq_true, if_false, Conc.sync, exec, execAt, Conc.affect, hk]
    refine ih _ _ id owner fin _ ⟨?_, h.tasks⟩
    obtain ⟨ms, h1, h2⟩ := h.num.advance
    have e1 : ∀ w : World, w.advance.outbox = w.outbox := fun w => by unfold World.advance; split <;> rfl
    have e2 : ∀ w : World, w.advance.notif = w.notif := fun w => by unfold World.advance; split <;> rfl
    refine ⟨ms ++ [m c.w.advance.notif], ?_, ?_⟩
    · simp only [e1] at h1 ⊢
      rw [h1, List.append_assoc]
    · simp only [e2] at h2 ⊢
      rw [List.range_succ, ← h2]
      simp [noteIds, hm]
  | spawn p k _ _ ihp ihk =>
    intro id owner fin c h
    exact ihk _ _ _ _ (ihp _ _ _ _ ⟨h.num, h.tasks⟩)

theorem takeTask_neat {n : Nat} : ∀ {ts : List Task} {t : Task} {us : List Task}, takeTask n ts = some (t, us) → (∀ t ∈ ts, t.neat) →
    t.neat ∧ ∀ u ∈ us, u.neat
  | [], _, _, h, _ => by cases h
  | v :: vs, t, us, h, hv => by
    simp only [takeTask] at h
    split at h
    · obtain ⟨rfl, rfl⟩ := Prod.mk.inj (Option.some.inj h)
      exact ⟨hv _ (List.mem_cons_self ..), fun u hu => hv u (List.mem_cons_of_mem _ hu)⟩
    · cases h2 : takeTask n vs with
      | none => rw [h2] at h; cases h
      | some x =>
        rw [h2] at h
        obtain ⟨rfl, rfl⟩ := Prod.mk.inj (Option.some.inj h)
        have ih := takeTask_neat h2 fun t ht => hv t (List.mem_cons_of_mem _ ht)
        refine ⟨ih.1, fun u hu => ?_⟩
        rcases List.mem_cons.mp hu with rfl | hu
        · exact hv _ (List.mem_cons_self ..)
        · exact ih.2 u hu

theorem Notes.step {b : List Msg} {cfg : Cfg} {c : Conc} (h : Notes b c) (o : Oracle) (ch : Choice) (hr : ch ≠ .restart) : Notes b (c.step cfg o ch) := by
  have h0 : Notes b { c with w := { c.w with orc := o } } := ⟨h.num, h.tasks⟩
  revert h0
  unfold Conc.step
  generalize ({ c with w := { c.w with orc := o } } : Conc) = c
  intro h
  cases ch with
  | restart => exact absurd rfl hr
  | wait us => exact ⟨h.num, h.tasks⟩
  | start hd q => exact Notes.runSync (neat_req cfg hd q) _ _ _ _ ⟨h.num, h.tasks⟩
  | fire cid =>
    simp only
    split
    · split
      · exact Notes.runSync (neat_act cfg _ _) _ _ _ _ ⟨h.num, h.tasks⟩
      · exact h
    · exact h
  | perform n =>
    simp only
    split
    · rename_i hs
      obtain ⟨h1, h2⟩ := takeTask_neat hs h.tasks
      refine ⟨numbered_exec h.num _ h1.1, fun t ht => ?_⟩
      simp only [List.mem_append, List.mem_cons, List.not_mem_nil, or_false] at ht
      rcases ht with ht | rfl
      · exact h2 t ht
      · exact h1.2
    · exact h
  | resume n =>
    simp only
    split
    · rename_i hs
      obtain ⟨h1, h2⟩ := takeTask_neat hs h.tasks
      exact Notes.runSync (h1 _) _ _ _ _ ⟨h.num, h2⟩
    · exact h

/-- A restart: the counter is at zero again. -/
theorem Notes.restart {b : List Msg} {cfg : Cfg} {c : Conc} (h : ∀ t ∈ c.tasks, t.neat) (o : Oracle) (hb : b = c.w.outbox) : Notes b (c.step cfg o .restart) := by
  refine Notes.runSync (neat_buildSchedule cfg) _ _ _ _ ⟨⟨[], by simp [World.reboot, hb], rfl⟩, fun t ht => ?_⟩
  simp only [List.mem_filterMap] at ht
  obtain ⟨u, hu, ht⟩ := ht
  have hn := h u hu
  unfold Task.orphan at ht
  unfold Task.neat at hn
  split at ht <;> rename_i hs <;> rw [hs] at hn
  · split at ht
    · rw [← Option.some.inj ht]; exact ⟨hn.1, fun _ => .pure _⟩
    · cases ht
  · cases ht

theorem Notes.run {b : List Msg} {cfg : Cfg} {s : List (Oracle × Choice)} : ∀ {c : Conc}, Notes b c → (∀ x ∈ s, x.2 ≠ .restart) → Notes b (c.run cfg s) := by
  induction s with
  | nil => exact fun h _ => h
  | cons x s ih => exact fun h hs => ih (h.step x.1 x.2 (hs x (List.mem_cons_self ..))) fun y hy => hs y (List.mem_cons_of_mem _ hy)

/-- The coroutines are neat in every state, also across restarts. -/
theorem notes_any {cfg : Cfg} : ∀ {s : List (Oracle × Choice)} {c : Conc}, (∃ b, Notes b c) → ∃ b, Notes b (c.run cfg s)
  | [], _, h => h
  | (o, ch) :: s, c, ⟨b, h⟩ => notes_any (s := s) (by
      cases ch with
      | restart => exact ⟨_, Notes.restart h.tasks o rfl⟩
      | start hd q => exact ⟨b, h.step o _ (by simp)⟩
      | fire _ => exact ⟨b, h.step o _ (by simp)⟩
      | perform _ => exact ⟨b, h.step o _ (by simp)⟩
      | resume _ => exact ⟨b, h.step o _ (by simp)⟩
      | wait _ => exact ⟨b, h.step o _ (by simp)⟩)

end OpenNSA.Backend
