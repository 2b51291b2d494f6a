import Verif.Backend.Step
/-
What the device is told: the operations that take effect on it, in the order they are made, and the conditions under which the
backend makes them.
-/
namespace OpenNSA.Backend
open OpenNSA Py Prog

/-- An operation that took effect on the device: the link of a connection was set up (`setupLink`, genericbackend.py:658) or
torn down (`teardownLink`, line 708), and when. -/
structure DevOp where
  up : Bool
  cid : Str
  at_ : Time
  deriving DecidableEq, Repr

/-- Did the device operation have an effect? -/
def Dev.effective : Dev → Bool
  | .ok => true
  | .failed b => b

/-- The device operation a command makes, if it has an effect. -/
def cmdDevs {β : Type} (w : World) : Cmd β → List DevOp
  | .setup c => if w.dev.1.effective then [⟨true, c, w.clk⟩] else []
  | .teardown c => if w.dev.1.effective then [⟨false, c, w.clk⟩] else []
  | _ => []

/-- The device operations of a coroutine run to completion, in parallel to `Prog.run`. -/
def Prog.devs {α : Type} : Prog α → World → List DevOp
  | .pure _, _ => []
  | .throw _, _ => []
  | .cmd c k, w => cmdDevs w.advance c ++ (k (exec w c).2).devs (exec w c).1
  | .spawn p k, w => p.devs w ++ k.devs (p.run w).1

/-- The device operations of an event, in parallel to `step`. -/
def stepDevs (cfg : Cfg) (w : World) (orc : Oracle) (e : Ev) : List DevOp :=
  let w := { w with orc }
  match e with
  | .req h r => (r.prog cfg h).devs w
  | .fire cid =>
    match dget w.tbl cid with
    | some ⟨due, act, ref, false⟩ =>
      if due ≤ w.clk then (actProg cfg act ref).devs { w with tbl := dset w.tbl cid ⟨due, act, ref, true⟩ }
      else []
    | _ => []
  | .wait _ => []
  | .restart => (buildSchedule cfg).devs w.reboot

/-- The links that are up after an operation. -/
def replay1 (l : List Str) (o : DevOp) : List Str := if o.up then o.cid :: l else l.filter (· ≠ o.cid)

/-- The links that are up after operations. -/
def replay (l : List Str) (ops : List DevOp) : List Str := ops.foldl replay1 l

/-- Worlds reachable by completed events as in `Reach`, with the device operations made on the way. -/
inductive Traced (cfg : Cfg) : World → List DevOp → Prop
  | init (ids : List Str) (clk : Time) : Traced cfg (World.init ids clk) []
  | step {w : World} {tr : List DevOp} (o : Oracle) (e : Ev) : Traced cfg w tr →
      CleanStep e (Backend.step cfg w o e).1 (Backend.step cfg w o e).2 →
      Traced cfg (Backend.step cfg w o e).1 (tr ++ stepDevs cfg w o e)

theorem Traced.reach {cfg : Cfg} {w : World} {tr : List DevOp} (h : Traced cfg w tr) : Reach cfg w := by
  induction h with
  | init ids clk => exact .init ids clk
  | step o e _ hc ih => exact .step o e ih hc

theorem Reach.traced {cfg : Cfg} {w : World} (h : Reach cfg w) : ∃ tr, Traced cfg w tr := by
  induction h with
  | init ids clk => exact ⟨[], .init ids clk⟩
  | step o e _ hc ih =>
    obtain ⟨tr, ht⟩ := ih
    exact ⟨_, .step o e ht hc⟩

/-! ### The links are what the operations left -/

theorem execAt_links {β : Type} (w : World) (c : Cmd β) : (execAt w c).1.links = replay w.links (cmdDevs w c) := by
  have hd : ∀ w : World, w.dev.2.links = w.links := fun w => by unfold World.dev; split <;> rfl
  cases c <;> try (simp only [execAt, cmdDevs, replay, List.foldl_nil]; first | rfl | (split <;> first | rfl | (split <;> first | rfl | (split <;> rfl))))
  all_goals
    simp only [execAt, cmdDevs]
    have := hd w
    revert this
    generalize w.dev = x
    obtain ⟨d, w1⟩ := x
    intro this
    simp only at this
    cases d with
    | ok => simp [Dev.effective, replay, replay1, this]
    | failed b => cases b <;> simp [Dev.effective, replay, replay1, this]

theorem advance_links (w : World) : w.advance.links = w.links := by
  obtain ⟨t, o, _, he⟩ := advance_eq w; rw [he]

theorem replay_append (l : List Str) (a b : List DevOp) : replay l (a ++ b) = replay (replay l a) b := List.foldl_append

theorem run_links {α : Type} {p : Prog α} : ∀ w : World, (p.run w).1.links = replay w.links (p.devs w) := by
  induction p with
  | pure a => intro w; rfl
  | throw e => intro w; rfl
  | cmd c k ih =>
    intro w
    simp only [Prog.run, Prog.devs, exec]
    rw [ih, execAt_links, replay_append, advance_links]
  | spawn p k ihp ihk =>
    intro w
    simp only [Prog.run, Prog.devs]
    rw [ihk, ihp, replay_append]

theorem step_links (cfg : Cfg) (w : World) (o : Oracle) (e : Ev) :
    (step cfg w o e).1.links = replay w.links (stepDevs cfg w o e) := by
  cases e with
  | req h r => exact run_links _
  | wait us => rfl
  | restart => exact run_links (p := buildSchedule cfg) _
  | fire cid =>
    simp only [step, stepDevs]
    cases dget w.tbl cid with
    | none => rfl
    | some tm =>
      obtain ⟨due, act, ref, called⟩ := tm
      cases called with
      | true => rfl
      | false =>
        simp only
        split
        · exact run_links (p := actProg cfg act ref) _
        · rfl

/-! ### Messages are never taken back; the clock never runs backwards -/

theorem execAt_outbox {β : Type} (w : World) (c : Cmd β) : ∃ ms, (execAt w c).1.outbox = w.outbox ++ ms := by
  have hd : ∀ w : World, w.dev.2.outbox = w.outbox := fun w => by unfold World.dev; split <;> rfl
  cases c with
  | call m => simp only [execAt]; split <;> exact ⟨[m], rfl⟩
  | tell m => exact ⟨[m], rfl⟩
  | setup c =>
    refine ⟨[], ?_⟩
    simp only [execAt]
    have := hd w
    revert this
    generalize w.dev = x
    obtain ⟨d, w1⟩ := x
    intro this
    cases d with
    | ok => simpa using this
    | failed b => cases b <;> simpa using this
  | teardown c =>
    refine ⟨[], ?_⟩
    simp only [execAt]
    have := hd w
    revert this
    generalize w.dev = x
    obtain ⟨d, w1⟩ := x
    intro this
    cases d with
    | ok => simpa using this
    | failed b => cases b <;> simpa using this
  | _ =>
    refine ⟨[], ?_⟩
    rw [List.append_nil]
    simp only [execAt]
    try first | rfl | (split <;> first | rfl | (split <;> first | rfl | (split <;> rfl)))

theorem run_outbox {α : Type} {p : Prog α} : ∀ w : World, ∃ ms, (p.run w).1.outbox = w.outbox ++ ms := by
  induction p with
  | pure a => intro w; exact ⟨[], by simp [Prog.run]⟩
  | throw e => intro w; exact ⟨[], by simp [Prog.run]⟩
  | cmd c k ih =>
    intro w
    simp only [Prog.run, exec]
    obtain ⟨a, ha⟩ := execAt_outbox w.advance c
    obtain ⟨b, hb⟩ := ih (execAt w.advance c).2 (execAt w.advance c).1
    obtain ⟨t, o, _, he⟩ := advance_eq w
    refine ⟨a ++ b, ?_⟩
    rw [hb, ha, List.append_assoc, he]
  | spawn p k ihp ihk =>
    intro w
    obtain ⟨a, ha⟩ := ihp w
    obtain ⟨b, hb⟩ := ihk (p.run w).1
    exact ⟨a ++ b, by simp only [Prog.run]; rw [hb, ha, List.append_assoc]⟩

theorem step_outbox (cfg : Cfg) (w : World) (o : Oracle) (e : Ev) : ∃ ms, (step cfg w o e).1.outbox = w.outbox ++ ms := by
  cases e with
  | req h r => exact run_outbox (p := r.prog cfg h) { w with orc := o }
  | wait us => exact ⟨[], by simp [step]⟩
  | restart => exact run_outbox (p := buildSchedule cfg) ({ w with orc := o } : World).reboot
  | fire cid =>
    simp only [step]
    split
    · split
      · exact run_outbox (p := actProg cfg _ _) _
      · exact ⟨[], by simp⟩
    · exact ⟨[], by simp⟩

/-! ### Programs without device operations -/

/-- Is the command a device operation? -/
def Cmd.isDev {β : Type} : Cmd β → Bool
  | .setup _ | .teardown _ => true
  | _ => false

/-- No device operation occurs in the program. -/
def NoDev {α : Type} : Prog α → Prop
  | .pure _ => True
  | .throw _ => True
  | .cmd c k => c.isDev = false ∧ ∀ r, NoDev (k r)
  | .spawn p k => NoDev p ∧ NoDev k

theorem NoDev_bind {α β : Type} {p : Prog α} {f : α → Prog β} (h : NoDev p) (hf : ∀ a, NoDev (f a)) : NoDev (p.bind f) := by
  induction p with
  | pure a => exact hf a
  | throw e => trivial
  | cmd c k ih => exact ⟨h.1, fun r => ih r (h.2 r) hf⟩
  | spawn p k _ ihk => exact ⟨h.1, ihk h.2 hf⟩

theorem NoDev_tryCatch {α : Type} {p : Prog α} {f : Err → Prog α} (h : NoDev p) (hf : ∀ e, NoDev (f e)) : NoDev (p.tryCatch f) := by
  induction p with
  | pure a => trivial
  | throw e => exact hf e
  | cmd c k ih => exact ⟨h.1, fun r => ih r (h.2 r) hf⟩
  | spawn p k _ ihk => exact ⟨h.1, ihk h.2 hf⟩

theorem NoDev_issue {β : Type} {c : Cmd β} (h : c.isDev = false) : NoDev (issue c) := ⟨h, fun r => by cases r <;> trivial⟩

theorem NoDev_ofExcept {α : Type} (x : Except Err α) : NoDev (ofExcept x) := by cases x <;> trivial

theorem devs_nil {α : Type} {p : Prog α} : NoDev p → ∀ w : World, p.devs w = [] := by
  induction p with
  | pure a => intro _ w; rfl
  | throw e => intro _ w; rfl
  | cmd c k ih =>
    intro h w
    simp only [Prog.devs, ih _ (h.2 _), List.append_nil]
    have := h.1
    cases c <;> first | rfl | exact absurd this (by simp [Cmd.isDev])
  | spawn p k ihp ihk => intro h w; simp only [Prog.devs, ihp h.1, ihk h.2, List.append_nil]

/-- Compositional proof that a program has no device operation. -/
macro "nodev" : tactic => `(tactic| repeat' (first
  | exact NoDev_issue rfl | exact NoDev_ofExcept _ | trivial | assumption
  | apply NoDev_bind | apply NoDev_tryCatch | split | intro _))

theorem NoDev_switchReserve (ref : Nat) (s : RState) : NoDev (switchReserve ref s) := by
  unfold switchReserve; simp only [bind_eq]; nodev
theorem NoDev_switchProvision (ref : Nat) (s : PState) : NoDev (switchProvision ref s) := by
  unfold switchProvision; simp only [bind_eq]; nodev
theorem NoDev_switchLifecycle (ref : Nat) (s : LState) : NoDev (switchLifecycle ref s) := by
  unfold switchLifecycle; simp only [bind_eq]; nodev
theorem NoDev_multiLoop (ref : Nat) : ∀ ss : List RState, NoDev (multiSwitchLoop ref ss)
  | [] => trivial
  | s :: ss => by
    have := NoDev_multiLoop ref ss
    unfold multiSwitchLoop; simp only [bind_eq]; nodev
theorem NoDev_multiSwitch (ref : Nat) (ss : List RState) : NoDev (multiSwitch ref ss) := by
  have := NoDev_multiLoop ref ss
  unfold multiSwitch; simp only [bind_eq]; nodev
theorem NoDev_removeBoth (cfg : Cfg) (ref : Nat) : NoDev (removeBoth cfg ref) := by
  unfold removeBoth; simp only [bind_eq]; nodev
theorem NoDev_schedEnd (cid : Str) (e : Option Time) (ref : Nat) : NoDev (schedEnd cid e ref) := by
  unfold schedEnd; nodev
theorem NoDev_setActive (ref : Nat) (b : Bool) : NoDev (setActive ref b) := by
  unfold setActive; simp only [bind_eq]; nodev
theorem NoDev_whenP {b : Bool} {p : Prog Unit} (h : NoDev p) : NoDev (whenP b p) := by
  unfold whenP; nodev
theorem NoDev_getConnection (cid : Str) : NoDev (getConnection cid) := by
  unfold getConnection; simp only [bind_eq]; nodev
theorem NoDev_doReserve (ref : Nat) (corr : Str) : NoDev (doReserve ref corr) := by
  have := NoDev_multiSwitch ref [.checking, .held]
  unfold doReserve; simp only [bind_eq, whenP]; nodev
theorem NoDev_firstFree (cfg : Cfg) (port : Str) (s e : Option Time) : ∀ l, NoDev (firstFree cfg port s e l)
  | [] => trivial
  | lv :: rest => by
    have := NoDev_firstFree cfg port s e rest
    unfold firstFree; simp only [bind_eq]; nodev
theorem NoDev_firstFreeBoth (cfg : Cfg) (p q : Str) (s e : Option Time) : ∀ l, NoDev (firstFreeBoth cfg p q s e l)
  | [] => trivial
  | lv :: rest => by
    have := NoDev_firstFreeBoth cfg p q s e rest
    unfold firstFreeBoth; simp only [bind_eq]; nodev
theorem NoDev_allocate (cfg : Cfg) (src dst : STP) (s e : Option Time) : NoDev (allocate cfg src dst s e) := by
  have h1 := fun p => NoDev_firstFree cfg p s e
  have h2 := fun p q => NoDev_firstFreeBoth cfg p q s e
  unfold allocate; simp only [bind_eq]
  split
  · exact NoDev_bind (h1 _ _) fun _ => NoDev_bind (h1 _ _) fun _ => by nodev
  · exact NoDev_bind (NoDev_ofExcept _) fun _ => NoDev_bind (h2 _ _ _) fun _ => trivial
theorem NoDev_reserveBody (cfg : Cfg) (h : Hdr) (cid? : Option Str) (src dst : STP) (s e : Option Time) :
    NoDev (reserveBody cfg h cid? src dst s e) := by
  unfold reserveBody; simp only [bind_eq]
  refine NoDev_bind (NoDev_ofExcept _) fun _ => NoDev_bind (NoDev_allocate _ _ _ _ _) fun ⟨sl, dl⟩ =>
    NoDev_bind (NoDev_issue rfl) fun _ => NoDev_bind ?_ fun _ => NoDev_bind (NoDev_issue rfl) fun _ =>
    NoDev_bind (NoDev_issue rfl) fun _ => ⟨NoDev_doReserve _ _, trivial⟩
  unfold pickId; nodev
theorem NoDev_reserve (cfg : Cfg) (h : Hdr) (cid? : Option Str) (src dst : STP) (s e : Option Time) :
    NoDev (reserve cfg h cid? src dst s e) := by
  have := NoDev_reserveBody cfg h cid? src dst s e
  unfold reserve; simp only [bind_eq]
  cases cid? with
  | none => exact this
  | some c =>
    simp only
    split
    · exact this
    · refine NoDev_bind (NoDev_issue rfl) fun x => ?_
      cases x with
      | none => exact this
      | some _ => trivial
theorem NoDev_commitOn (cfg : Cfg) (h : Hdr) (cid : Str) (ref : Nat) : NoDev (commitOn cfg h cid ref) := by
  have h1 := NoDev_multiSwitch ref [.committing, .start]
  have h2 := fun e => NoDev_schedEnd cid e ref
  unfold commitOn; simp only [bind_eq]
  refine NoDev_bind (NoDev_issue rfl) fun _ => NoDev_bind (NoDev_ofExcept _) fun _ => ?_
  split
  · trivial
  · exact NoDev_bind (NoDev_issue rfl) fun _ => NoDev_bind h1 fun _ => NoDev_bind (NoDev_issue rfl) fun _ => NoDev_bind (h2 _) fun _ => NoDev_issue rfl

/-! ### The conditions of device operations -/

/-- The start time, if any, has been reached. -/
def Begun (st : Option Time) (now : Time) : Prop := ∀ s, st = some s → s ≤ now

/-- Condition under which a device operation is made, on what a local program sees: a link is set up only when it is not up
(or a condition `F` holds) and its start has been reached, and torn down only when it is up. -/
def LCond (F : Prop) (st : Option Time) (s : S) {β : Type} : Cmd β → Prop
  | .setup _ => (F ∨ s.up = false) ∧ Begun st s.clk
  | .teardown _ => s.up = true
  | _ => True

/-- The local program makes at most one device operation, under its condition. -/
def LG (F : Prop) (cid : Str) (ref : Nat) (st : Option Time) {α : Type} : Prog α → S → Prop
  | .pure _, _ => True
  | .throw _, _ => True
  | .cmd c k, s =>
    if c.isDev then (∃ K, LCmd cid ref c s K) ∧ LCond F st s c ∧ ∀ r, NoDev (k r)
    else (∀ r, NoDev (k r)) ∨ LCmd cid ref c s fun s' r => LG F cid ref st (k r) s'
  | .spawn p k, s => (LG F cid ref st p s ∧ NoDev k) ∨ (NoDev p ∧ LAll cid ref p (fun s' _ => LG F cid ref st k s') s)

/-- Condition of a device operation on a world. -/
def WCond (F : Prop) (cid : Str) (st : Option Time) (w : World) {β : Type} : Cmd β → Prop
  | .setup c => c = cid ∧ (F ∨ cid ∉ w.links) ∧ Begun st w.clk
  | .teardown c => c = cid ∧ cid ∈ w.links
  | _ => True

/-- The program makes at most one device operation, under its condition. -/
def WG (F : Prop) (cid : Str) (st : Option Time) {α : Type} : Prog α → World → Prop
  | .pure _, _ => True
  | .throw _, _ => True
  | .cmd c k, w =>
    if c.isDev then WCond F cid st w c ∧ ∀ r, NoDev (k r)
    else (∀ r, NoDev (k r)) ∨ ∀ (t : Time) (o : Oracle), w.clk ≤ t →
      WG F cid st (k (execAt { w with clk := t, orc := o } c).2) (execAt { w with clk := t, orc := o } c).1
  | .spawn p k, w => (WG F cid st p w ∧ NoDev k) ∨ (NoDev p ∧ All p (fun w' _ => WG F cid st k w') w)

theorem LG_of_NoDev {F : Prop} {cid : Str} {ref : Nat} {st : Option Time} {α : Type} {p : Prog α} : NoDev p → ∀ s, LG F cid ref st p s := by
  induction p with
  | pure a => intro _ s; trivial
  | throw e => intro _ s; trivial
  | cmd c k ih => intro h s; unfold LG; rw [h.1]; exact Or.inl h.2
  | spawn p k ihp _ => intro h s; exact Or.inl ⟨ihp h.1 s, h.2⟩

theorem WG_of_NoDev {F : Prop} {cid : Str} {st : Option Time} {α : Type} {p : Prog α} : NoDev p → ∀ w, WG F cid st p w := by
  induction p with
  | pure a => intro _ s; trivial
  | throw e => intro _ s; trivial
  | cmd c k ih => intro h s; unfold WG; rw [h.1]; exact Or.inl h.2
  | spawn p k ihp _ => intro h s; exact Or.inl ⟨ihp h.1 s, h.2⟩

theorem LG_pre {F : Prop} {cid : Str} {ref : Nat} {st : Option Time} {α β : Type} {p : Prog α} {f : α → Prog β} (hn : NoDev p) : ∀ {s : S},
    LAll cid ref p (cont (fun _ (_ : Except Err β) => True) fun a s => LG F cid ref st (f a) s) s → LG F cid ref st (p.bind f) s := by
  induction p with
  | pure a => intro s h; exact h
  | throw e => intro s h; trivial
  | cmd c k ih =>
    intro s h
    simp only [Prog.bind, LG]
    rw [hn.1]
    exact Or.inr (LCmd_mono (fun s r h => ih r (hn.2 r) h) h)
  | spawn p k ihp ihk =>
    intro s h
    exact Or.inr ⟨hn.1, LAll_mono (fun s r h => ihk hn.2 h) h⟩

theorem LG_post {F : Prop} {cid : Str} {ref : Nat} {st : Option Time} {α β : Type} {p : Prog α} {f : α → Prog β} (hf : ∀ a, NoDev (f a)) : ∀ {s : S},
    LG F cid ref st p s → LG F cid ref st (p.bind f) s := by
  induction p with
  | pure a => intro s h; exact LG_of_NoDev (hf a) s
  | throw e => intro s h; trivial
  | cmd c k ih =>
    intro s h
    simp only [Prog.bind]
    unfold LG at h ⊢
    split at h
    · rename_i hc; rw [if_pos hc]; exact ⟨h.1, h.2.1, fun r => NoDev_bind (h.2.2 r) hf⟩
    · rename_i hc; rw [if_neg hc]
      exact h.imp (fun h r => NoDev_bind (h r) hf) (LCmd_mono fun s r h => ih r hf h)
  | spawn p k ihp ihk =>
    intro s h
    rcases h with ⟨h1, h2⟩ | ⟨h1, h2⟩
    · exact Or.inl ⟨h1, NoDev_bind h2 hf⟩
    · exact Or.inr ⟨h1, LAll_mono (fun s r h => ihk hf h) h2⟩

theorem LG_try {F : Prop} {cid : Str} {ref : Nat} {st : Option Time} {α : Type} {p : Prog α} {f : Err → Prog α} (hf : ∀ a, NoDev (f a)) : ∀ {s : S},
    LG F cid ref st p s → LG F cid ref st (p.tryCatch f) s := by
  induction p with
  | pure a => intro s h; trivial
  | throw e => intro s h; exact LG_of_NoDev (hf e) s
  | cmd c k ih =>
    intro s h
    simp only [Prog.tryCatch]
    unfold LG at h ⊢
    split at h
    · rename_i hc; rw [if_pos hc]; exact ⟨h.1, h.2.1, fun r => NoDev_tryCatch (h.2.2 r) hf⟩
    · rename_i hc; rw [if_neg hc]
      exact h.imp (fun h r => NoDev_tryCatch (h r) hf) (LCmd_mono fun s r h => ih r hf h)
  | spawn p k ihp ihk =>
    intro s h
    rcases h with ⟨h1, h2⟩ | ⟨h1, h2⟩
    · exact Or.inl ⟨h1, NoDev_tryCatch h2 hf⟩
    · exact Or.inr ⟨h1, LAll_mono (fun s r h => ihk hf h) h2⟩

theorem WG_pre {F : Prop} {cid : Str} {st : Option Time} {α β : Type} {p : Prog α} {f : α → Prog β} (hn : NoDev p) : ∀ {w : World},
    All p (cont (fun _ (_ : Except Err β) => True) fun a w => WG F cid st (f a) w) w → WG F cid st (p.bind f) w := by
  induction p with
  | pure a => intro s h; exact h
  | throw e => intro s h; trivial
  | cmd c k ih =>
    intro s h
    simp only [Prog.bind, WG]
    rw [hn.1]
    exact Or.inr fun t o ht => ih _ (hn.2 _) (h t o ht)
  | spawn p k ihp ihk =>
    intro s h
    exact Or.inr ⟨hn.1, All_mono (fun s r h => ihk hn.2 h) h⟩

theorem WG_post {F : Prop} {cid : Str} {st : Option Time} {α β : Type} {p : Prog α} {f : α → Prog β} (hf : ∀ a, NoDev (f a)) : ∀ {w : World},
    WG F cid st p w → WG F cid st (p.bind f) w := by
  induction p with
  | pure a => intro s h; exact WG_of_NoDev (hf a) s
  | throw e => intro s h; trivial
  | cmd c k ih =>
    intro s h
    simp only [Prog.bind]
    unfold WG at h ⊢
    split at h
    · rename_i hc; rw [if_pos hc]; exact ⟨h.1, fun r => NoDev_bind (h.2 r) hf⟩
    · rename_i hc; rw [if_neg hc]
      exact h.imp (fun h r => NoDev_bind (h r) hf) (fun h t o ht => ih _ hf (h t o ht))
  | spawn p k ihp ihk =>
    intro s h
    rcases h with ⟨h1, h2⟩ | ⟨h1, h2⟩
    · exact Or.inl ⟨h1, NoDev_bind h2 hf⟩
    · exact Or.inr ⟨h1, All_mono (fun s r h => ihk hf h) h2⟩

/-- From what a local program sees to the world. -/
theorem WG_of_LG {F : Prop} {w0 : World} {cid : Str} {ref : Nat} {st : Option Time} {α : Type} {p : Prog α} :
    ∀ {w : World} {s : S}, LG F cid ref st p s → Rel w0 cid ref w s → WG F cid st p w := by
  induction p with
  | pure a => intro w s _ _; trivial
  | throw e => intro w s _ _; trivial
  | cmd c k ih =>
    intro w s h hr
    unfold LG at h
    unfold WG
    split at h
    · rename_i hc
      rw [if_pos hc]
      refine ⟨?_, h.2.2⟩
      obtain ⟨⟨K, hK⟩, hG, _⟩ := h
      have hu := hr.up
      cases c <;> try (exact Bool.noConfusion hc)
      · obtain ⟨h1, h2⟩ := hG
        exact ⟨hK.1, h1.imp id fun h1 => of_decide_eq_false (hu.trans h1), by rw [hr.clk]; exact h2⟩
      · rw [show s.up = true from hG] at hu
        exact ⟨hK.1, of_decide_eq_true hu⟩
    · rename_i hc
      rw [if_neg hc]
      refine h.imp id fun h t o ht => ?_
      obtain ⟨s', hr', hk⟩ := Rel_cmd hr c h t o ht
      exact ih _ hk hr'
  | spawn p k ihp ihk =>
    intro w s h hr
    rcases h with ⟨h1, h2⟩ | ⟨h1, h2⟩
    · exact Or.inl ⟨ihp h1 hr, h2⟩
    · refine Or.inr ⟨h1, All_mono (p := p) ?_ (All_of_LAll h2 hr)⟩
      rintro w' r ⟨s', hr', hk⟩
      exact ihk hk hr'

/-- The operations of one program: none, or one under its condition. -/
def OneOp (F : Prop) (cid : Str) (st : Option Time) (w : World) (ops : List DevOp) : Prop :=
  ops = [] ∨ ∃ t, w.clk ≤ t ∧ ((ops = [⟨true, cid, t⟩] ∧ (F ∨ cid ∉ w.links) ∧ Begun st t) ∨ (ops = [⟨false, cid, t⟩] ∧ cid ∈ w.links))

theorem Begun.mono {st : Option Time} {a b : Time} (h : Begun st a) (hab : a ≤ b) : Begun st b :=
  fun s hs => Int.le_trans (h s hs) hab

theorem execAt_clk {β : Type} (w : World) (c : Cmd β) : (execAt w c).1.clk = w.clk := by
  have hd : ∀ w : World, w.dev.2.clk = w.clk := fun w => by unfold World.dev; split <;> rfl
  cases c with
  | setup c =>
    simp only [execAt]
    have := hd w
    revert this
    generalize w.dev = x
    obtain ⟨d, w1⟩ := x
    intro this
    cases d with
    | ok => exact this
    | failed b => cases b <;> exact this
  | teardown c =>
    simp only [execAt]
    have := hd w
    revert this
    generalize w.dev = x
    obtain ⟨d, w1⟩ := x
    intro this
    cases d with
    | ok => exact this
    | failed b => cases b <;> exact this
  | _ =>
    simp only [execAt]
    try first | rfl | (split <;> first | rfl | (split <;> first | rfl | (split <;> rfl)))

theorem run_clk {α : Type} {p : Prog α} : ∀ w : World, w.clk ≤ (p.run w).1.clk := by
  induction p with
  | pure a => intro w; exact Int.le_refl _
  | throw e => intro w; exact Int.le_refl _
  | cmd c k ih =>
    intro w
    obtain ⟨t, o, ht, he⟩ := advance_eq w
    have := ih (exec w c).2 (exec w c).1
    have h2 : (exec w c).1.clk = t := by unfold exec; rw [execAt_clk, he]
    rw [h2] at this
    exact Int.le_trans ht this
  | spawn p k ihp ihk => intro w; exact Int.le_trans (ihp w) (ihk _)

theorem OneOp.earlier {F : Prop} {cid : Str} {st : Option Time} {w w1 : World} {ops : List DevOp} (h : OneOp F cid st w1 ops) (hl : w1.links = w.links)
    (hc : w.clk ≤ w1.clk) : OneOp F cid st w ops := by
  rcases h with h | ⟨t, ht, h⟩
  · exact Or.inl h
  · rw [hl] at h
    exact Or.inr ⟨t, Int.le_trans hc ht, h⟩

theorem devs_of_WG {F : Prop} {cid : Str} {st : Option Time} {α : Type} {p : Prog α} : ∀ {w : World}, WG F cid st p w → OneOp F cid st w (p.devs w) := by
  induction p with
  | pure a => intro w _; exact Or.inl rfl
  | throw e => intro w _; exact Or.inl rfl
  | cmd c k ih =>
    intro w h
    obtain ⟨t, o, ht, he⟩ := advance_eq w
    unfold WG at h
    simp only [Prog.devs]
    split at h
    · rw [devs_nil (h.2 _), List.append_nil]
      rename_i hc
      have hg := h.1
      cases c <;> try (exact Bool.noConfusion hc)
      · obtain ⟨rfl, h1, h2⟩ := hg
        simp only [cmdDevs]
        split
        · exact Or.inr ⟨w.advance.clk, by rw [he]; exact ht, Or.inl ⟨rfl, h1, by rw [he]; exact h2.mono ht⟩⟩
        · exact Or.inl rfl
      · obtain ⟨rfl, h1⟩ := hg
        simp only [cmdDevs]
        split
        · exact Or.inr ⟨w.advance.clk, by rw [he]; exact ht, Or.inr ⟨rfl, h1⟩⟩
        · exact Or.inl rfl
    · rename_i hc
      have hnil : cmdDevs w.advance c = [] := by
        cases c <;> first | rfl | exact absurd (by rfl) hc
      rw [hnil, List.nil_append]
      rcases h with h | h
      · exact Or.inl (devs_nil (h _) _)
      · have h1 := h t o ht
        rw [← he] at h1
        refine (ih _ h1).earlier ?_ ?_
        · rw [execAt_links, hnil]; exact advance_links w
        · rw [execAt_clk, he]; exact ht
  | spawn p k ihp ihk =>
    intro w h
    simp only [Prog.devs]
    rcases h with ⟨h1, h2⟩ | ⟨h1, h2⟩
    · rw [devs_nil h2, List.append_nil]
      exact ihp h1
    · rw [devs_nil h1, List.nil_append]
      refine (ihk (run_of_All h2)).earlier ?_ (run_clk w)
      rw [run_links, devs_nil h1]; rfl

end OpenNSA.Backend
