import Verif.Backend.ApartRun
/-
Interleaved execution, at most one operation at a time per connection: each operation, begun on a connection at rest, leaves it at rest.
-/
namespace OpenNSA.Backend
open OpenNSA Py Prog

/-! ### Beginning and end of an operation -/

/-- A world without connections: whatever other connections have is irrelevant here. -/
def void : World := World.init [] 0

theorem ncVoid (cfg : Cfg) (r : Row) : NcOthers cfg void r := fun b hb => by simp [void, World.init] at hb

/-- The operation was over in time: commit, provision, release requests and activations at most a second after the end time of the
connection, provision requests made before the start time at most a second after that. `began`: time of the request. -/
structure OnTime (k : OpKind) (began : Time) (r : Row) (t : Time) : Prop where
  ends : k = .commit ∨ k = .provision ∨ k = .release ∨ k = .activate → ∀ e, r.end_ = some e → t ≤ e + second
  starts : k = .provision → ∀ s, r.start = some s → began < s → t ≤ s + second

/-- The connection when an operation on it begins. `T`: operations are over in time. The operation that is a scheduled call is no longer pending. -/
structure StartAt (T : Bool) (cfg : Cfg) (x : Ctx) (s : S) : Prop where
  start : Start cfg void x.ref s.row x.out0 [] s
  ok : OkRow s.row
  exp : x.kind.call = false → Expires s.clk s.row s.tm x.out0
  due : T = true → x.kind.call = false → Due s.clk s.row s.tm x.out0
  cid : s.row.cid = x.cid
  s0 : x.s0 = s
  began : x.began ≤ s.clk

/-- The connection when no operation on it is under way. -/
structure Rested (T : Bool) (cfg : Cfg) (x : Ctx) (s : S) : Prop where
  row : RowOk s.clk s.row
  ok : OkRow s.row
  timer : ∀ tm, s.tm = some tm → tm.called = false → TimerOk s.row tm ∧ ((s.tm = x.s0.tm ∧ s.row = x.s0.row) ∨ (tm.ref = x.ref ∧ s.obj = s.row))
  link : LinkOk s.row s.up (x.out0 ++ s.out)
  cal : s.cal.Perm (ents cfg s.row)
  exp : Expires s.clk s.row s.tm (x.out0 ++ s.out)
  due : T = true → (s.row.st.l = .created → OnTime x.kind x.began s.row s.clk) → Due s.clk s.row s.tm (x.out0 ++ s.out)
  ev : x.kind ≠ .reserve → Evolves x.s0.row s.row
  held : x.kind ≠ .reserve → s.row.st.l = .created → s.row.st.r = .held → s.tm = x.s0.tm ∧ x.kind.call = false

/-- What the operation did. -/
def Effect (x : Ctx) (s : S) (a : Except Err (Option Str)) : Prop :=
  match x.kind with
  | .release => ∃ r : Except Err Unit, a = (r.map fun _ => none) ∧ ((s.row = x.s0.row ∧ s.tm = x.s0.tm ∧ s.up = x.s0.up ∧ ∃ e, a = .error e ∧ e ≠ .assertion) ∨ (x.s0.row.allocated = true ∧ Released x.cid x.s0.row x.s0 s r))
  | .terminate => ∃ r : Except Err Unit, a = (r.map fun _ => none) ∧ ((s.row = x.s0.row ∧ s.tm = x.s0.tm ∧ s.up = x.s0.up ∧ ∃ e, a = .error e) ∨ Terminated x.cid x.s0.row x.s0 s r)
  | .timeout => s.row.st.r = .start ∧ s.row.allocated = false ∧ ∃ n, Msg.reserveTimeout x.cid n ∈ s.out
  | .endtime => x.s0.row.st.l = .created → s.row.st.l = .passedEnd ∧ s.row.active = false
  | .activate => ∃ b, s.row = x.s0.row.withA b ∧ (b = true → s.up = true) ∧ (b = false → ∃ n, Msg.activateFailed x.cid n ∈ s.out)
  | .commit => (s.row = x.s0.row ∧ ∃ e, a = .error e) ∨ (isGone x.s0.row = false ∧ x.s0.row.st.r = .held ∧ s.row = x.s0.row.committed)
  | .reserve => True
  | .abort => (s.row = x.s0.row ∧ ∃ e, a = .error e) ∨ (isGone x.s0.row = false ∧ s.row.st.r ≠ .held ∧ (s.row = x.s0.row ∨ s.row.allocated = false))
  | .provision => isGone x.s0.row = true → ∃ e, a = .error e

/-- The end of an operation. Terminations whose confirmation the requester did not take are left aside. -/
def Ends (T : Bool) (cfg : Cfg) (x : Ctx) (s : S) (a : Except Err (Option Str)) : Prop :=
  (x.kind = .terminate → a ≠ .error .parent) → Rested T cfg x s ∧ Effect x s a

section
variable {T : Bool} {cfg : Cfg} {x : Ctx} {s : S}

theorem contrib_ents (cfg : Cfg) (r : Row) : contrib cfg r = ents cfg r := rfl

theorem StartAt.cal (h : StartAt T cfg x s) : s.cal.Perm (ents cfg s.row) := by
  have := h.start.cal
  rwa [List.append_nil] at this

theorem StartAt.ocid (h : StartAt T cfg x s) : s.obj.cid = x.cid := by rw [h.start.obj, h.cid]

/-- From the sequential invariant. -/
theorem settle {s' : S} (h : StartAt T cfg x s) (hg : GoodL cfg void x.ref s.row s x.out0 [] s') (hok : OkRow s'.row)
    (hh : s'.row.st.l = .created → s'.row.st.r = .held → s'.tm = s.tm ∧ x.kind.call = false)
    (hd : T = true → (s'.row.st.l = .created → OnTime x.kind x.began s'.row s'.clk) → Due s'.clk s'.row s'.tm (x.out0 ++ s'.out)) : Rested T cfg x s' where
  row := hg.row
  ok := hok
  timer tm h1 h2 := by
    obtain ⟨h3, _, h4⟩ := hg.timer tm h1 h2
    refine ⟨h3, ?_⟩
    rw [h.s0]
    exact h4.imp (fun h => ⟨h.1, h.2.1⟩) id
  link := hg.link
  cal := by
    have := hg.cal
    rwa [List.append_nil] at this
  exp := hg.exp rfl
  due := hd
  ev _ := by rw [h.s0]; exact hg.ev
  held _ := by rw [h.s0]; exact hh

/-! ### Slices -/

/-- The slice before the lookup. -/
def slice0 (s : S) : Slice :=
  { row := some s.row
    objs := fun n => match s.tm with
      | some tm => if tm.called = false ∧ n = tm.ref then some ⟨s.row, false⟩ else none
      | none => none
    tm := s.tm, mine := s.cal, free := true }

theorem slice0_ref (h : StartAt T cfg x s) : (slice0 s).objs x.ref = none := by
  unfold slice0
  simp only
  split
  · rename_i tm e
    split
    · rename_i hc
      exact absurd hc.2.symm (h.start.timer tm e hc.1).2
    · rfl
  · rfl

theorem slice0_rest (h : StartAt T cfg x s) : RestS cfg (slice0 s) where
  row r hr := by
    simp only [slice0, Option.some.injEq] at hr
    subst hr
    exact ⟨h.ok, h.cal⟩
  none hr := by simp [slice0] at hr
  tm due act ref ht := by
    have ht' : s.tm = some ⟨due, act, ref, false⟩ := ht
    refine ⟨s.row, ⟨s.row, false⟩, rfl, by simp [slice0, ht'], rfl, Core.refl _, h.ok, ?_⟩
    have := (h.start.timer _ ht' rfl).1
    unfold TimerOk at this
    cases act with
    | reserveTimeout => exact this
    | endtime => exact this.1
    | activate => exact h.ok.prov (by rw [this.2.1]; simp)

/-- After the lookup. -/
theorem sym_after {α : Type} {f : Nat → Prog α} {cid : Str} {Q : Slice → Except Err α → Prop} {sl : Slice} {r : Row} {n : Nat}
    (h : Sym cfg cid ((getConnection cid).bind f) Q sl) (hr : sl.row = some r) (hn : sl.objs n = none) :
    Sym cfg cid (f n) Q { sl.idle with objs := upd sl.objs n ⟨r, false⟩ } := by
  have h1 : Sym cfg cid (.cmd (.find cid) _) Q sl := h
  simp only [Sym, Cmd.isAsync, if_true] at h1
  have := (h1.2.2 { sl.idle with objs := upd sl.objs n ⟨r, false⟩ } (.ok (some n)) (Or.inr ⟨r, n, hr, hn, rfl, rfl⟩)).2
  exact this

theorem agree0 (h : StartAt T cfg x s) {sl : Slice} (hs : sl = { (slice0 s).idle with objs := upd (slice0 s).objs x.ref ⟨s.row, false⟩ }) :
    Agree x.ref sl s := by
  subst hs
  exact ⟨rfl, by simp [h.start.obj], rfl, rfl⟩

/-- A request on a connection, up to its end. -/
theorem ends_sym {f : Nat → Prog Unit} (h : StartAt T cfg x s) (hp : Plain x.cid true (f x.ref))
    (hs : RestS cfg (slice0 s) → Sym cfg x.cid ((getConnection x.cid).bind f) (Final cfg) (slice0 s))
    (hl : LAll x.cid x.ref (f x.ref) (fun s' r => OkRow s'.row → Ends T cfg x s' (r.map fun _ => none)) s) :
    R0 x.cid x.ref (f x.ref) (fun s' r => Ends T cfg x s' (r.map fun _ => none)) s := by
  have hsym := sym_after (hs (slice0_rest h)) rfl (slice0_ref h)
  refine R0_mono ?_ (R0_of_sym hp hsym hl (agree0 h rfl) h.ocid)
  rintro s' r ⟨h1, sl', h2, h3⟩
  exact h1 (h3.row _ h2.row).1

/-- The answer of a request. -/
theorem R1_req {ow : Option Str} {D : S → Prop} {E : S → Except Err (Option Str) → Prop} {p : Prog Unit} (h : R0 x.cid x.ref p (fun s' r => E s' (r.map fun _ => none)) s) :
    R1 x.cid x.ref ow D (p.bind fun _ => Prog.pure none) E s := by
  refine R1_bind (R0_mono ?_ h)
  intro s' r h
  cases r with
  | ok a => exact h
  | error e => exact h

/-! ### Requests -/

theorem due_same {s' : S} (h : StartAt T cfg x s) (hr : s'.row = s.row) (ht : s'.tm = s.tm) (hc : s.clk ≤ s'.clk) (hT : T = true) (hc' : x.kind.call = false) :
    Due s'.clk s'.row s'.tm (x.out0 ++ s'.out) := by
  rw [hr, ht]
  exact (h.due hT hc').mono hc fun m hm => List.mem_append_left _ hm

theorem commit_ends {hd : Hdr} (h : StartAt T cfg x s) (hk : x.kind = .commit) :
    R0 x.cid x.ref (commitOn cfg hd x.cid x.ref) (fun s' r => Ends T cfg x s' (r.map fun _ => none)) s := by
  refine ends_sym h (pl_commitOn _ _ _ _) (fun h0 => sym_reserveCommit hd h0 ?_) ?_
  · intro r hr; simp only [slice0, Option.some.injEq] at hr; subst hr; exact h.cid
  · have := commit_good (h := hd) h.start (h.exp (by rw [hk]; rfl))
    rw [h.cid] at this
    refine LAll_mono ?_ this
    rintro s' r ⟨hg, hp⟩ hok _
    have hlat := hg.later
    have hheld : s'.row.st.l = .created → s'.row.st.r = .held → s'.tm = s.tm ∧ x.kind.call = false := by
      intro _ hr
      rcases hp with h2 | ⟨_, _, h2, _⟩
      · exact ⟨h2.2.2.1, by rw [hk]; rfl⟩
      · rw [h2] at hr; exact absurd hr (by simp [Row.committed])
    refine ⟨settle h hg hok hheld fun hT hon => ?_, ?_⟩
    · rcases hp with h2 | ⟨_, hh, h3, _, _, h4⟩
      · exact due_same h h2.1 h2.2.2.1 hlat hT (by rw [hk]; rfl)
      · by_cases hl : s.row.st.l = .created
        · obtain ⟨_, hact, hp⟩ := h.start.ok.held hh
          rw [h3]
          refine ⟨fun _ => Or.inl hp, fun _ _ _ => ?_, fun _ a => ?_⟩
          · refine EndCall.due h4 ?_
            intro e he
            refine (hon (by rw [h3]; exact hl)).ends (Or.inl hk) e ?_
            rw [h3]; exact he
          · rw [show s.row.st.p = .provisioned from a] at hp; exact absurd hp (by simp)
        · rw [h3]; exact Due.dead hl
    · unfold Effect
      rw [hk]
      simp only
      rw [h.s0]
      rcases hp with ⟨h1, _, _, _, _, e, rfl, _⟩ | ⟨h2, h4, h3, _⟩
      · exact Or.inl ⟨h1, e, rfl⟩
      · exact Or.inr ⟨h2, h4, h3⟩

theorem abort_ends {hd : Hdr} (h : StartAt T cfg x s) (hk : x.kind = .abort) :
    R0 x.cid x.ref (abortOn cfg hd x.cid x.ref) (fun s' r => Ends T cfg x s' (r.map fun _ => none)) s := by
  refine ends_sym h (pl_abortOn _ _ _ _) (fun h0 => sym_reserveAbort hd h0 ?_) ?_
  · intro r hr; simp only [slice0, Option.some.injEq] at hr; subst hr; exact h.cid
  · have := abort_good (h := hd) h.start (h.exp (by rw [hk]; rfl))
    rw [h.cid] at this
    refine LAll_mono ?_ this
    rintro s' r ⟨hg, hp⟩ hok _
    have hlat := hg.later
    have hheld : s'.row.st.l = .created → s'.row.st.r = .held → s'.tm = s.tm ∧ x.kind.call = false := by
      intro _ hr
      rcases hp with h2 | ⟨_, _, _, _, _, _, h2⟩ | ⟨_, _, _, _, _, _, h2⟩
      · exact ⟨h2.2.2.1, by rw [hk]; rfl⟩
      · exact ⟨h2, by rw [hk]; rfl⟩
      · exact absurd hr h2
    refine ⟨settle h hg hok hheld fun hT hon => ?_, ?_⟩
    · rcases hp with h2 | ⟨_, _, _, h2, _, _, h3⟩ | ⟨_, _, _, _, h2, _⟩
      · exact due_same h h2.1 h2.2.2.1 hlat hT (by rw [hk]; rfl)
      · exact due_same h h2 h3 hlat hT (by rw [hk]; rfl)
      · refine Due.idle h2 (Decidable.byContradiction fun hp => ?_)
        rw [hg.row.pv hp] at h2; exact absurd h2 (by simp)
    · unfold Effect
      rw [hk]
      simp only
      rw [h.s0]
      rcases hp with ⟨h1, _, _, _, _, e, rfl, _⟩ | ⟨h2, h4, _, h3, _⟩ | ⟨h2, _, _, _, h5, _, h3⟩
      · exact Or.inl ⟨h1, e, rfl⟩
      · exact Or.inr ⟨h2, by rw [h3]; exact h4, Or.inl h3⟩
      · exact Or.inr ⟨h2, h3, Or.inr h5⟩

theorem terminate_ends {hd : Hdr} (h : StartAt T cfg x s) (hk : x.kind = .terminate) :
    R0 x.cid x.ref (terminateOn cfg hd x.cid x.ref) (fun s' r => Ends T cfg x s' (r.map fun _ => none)) s := by
  refine ends_sym h (pl_terminateOn _ _ _ _) (fun h0 => sym_terminate hd h0 ?_ ?_) ?_
  · intro r hr; simp only [slice0, Option.some.injEq] at hr; subst hr; exact h.cid
  · intro r hr
    simp only [slice0, Option.some.injEq] at hr
    subst hr
    rcases h.start.ok.lc with e | e | e <;> rw [e] <;> simp
  · have := terminate_good (h := hd) h.start (h.exp (by rw [hk]; rfl))
    rw [h.cid] at this
    refine LAll_mono ?_ this
    intro s' r hgp hok hnp
    obtain ⟨hg, hp⟩ := hgp (by rintro rfl; exact hnp hk rfl)
    have hlat := hg.later
    have hheld : s'.row.st.l = .created → s'.row.st.r = .held → s'.tm = s.tm ∧ x.kind.call = false := by
      intro hl _
      rcases hp with h2 | ⟨_, _, h2, _⟩
      · exact ⟨h2.2.2.1, by rw [hk]; rfl⟩
      · rw [h2] at hl; exact absurd hl (by simp)
    refine ⟨settle h hg hok hheld fun hT hon => ?_, ?_⟩
    · rcases hp with h2 | ⟨_, _, h2, _⟩
      · exact due_same h h2.1 h2.2.2.1 hlat hT (by rw [hk]; rfl)
      · refine Due.dead ?_; rw [h2]; simp
    · unfold Effect
      rw [hk]
      simp only
      rw [h.s0]
      refine ⟨r, rfl, ?_⟩
      rcases hp with ⟨h1, _, h2, h3, _, e, rfl, _⟩ | hp
      · exact Or.inl ⟨h1, h2, h3, e, rfl⟩
      · exact Or.inr hp

theorem okRow_prov {r : Row} (h : OkRow r) (ha : r.allocated = true) (p : PState) (a : Bool) : OkRow ((r.withP p).withA a) :=
  ⟨fun _ => ha, fun _ => h.alloc ha, h.state, h.life, h.ended, fun _ => ha⟩

theorem release_ends {hd : Hdr} (h : StartAt T cfg x s) (hk : x.kind = .release) :
    R0 x.cid x.ref (releaseOn cfg hd x.cid x.ref) (fun s' r => Ends T cfg x s' (r.map fun _ => none)) s := by
  refine R0_of_plain (pl_releaseOn _ _ _ _) ?_ h.ocid
  have := release_good (h := hd) h.start (h.exp (by rw [hk]; rfl))
  rw [h.cid] at this
  refine LAll_mono ?_ this
  rintro s' r ⟨hg, hp⟩ _
  have hlat := hg.later
  have hal : s.row.st.p = .provisioned ∨ s.row.st.p = .releasing → s.row.allocated = true := by
    intro h1; apply h.ok.prov; rcases h1 with h1 | h1 <;> rw [h1] <;> simp
  have hok : OkRow s'.row := by
    rcases hp with h2 | ⟨_, h1, _, _, ⟨_, h2, _⟩ | ⟨_, h2, _⟩⟩
    · rw [h2.1]; exact h.ok
    · rw [h2]; exact okRow_prov h.ok (hal h1) _ _
    · rw [h2]; exact okRow_prov h.ok (hal h1) _ _
  have hheld : s'.row.st.l = .created → s'.row.st.r = .held → s'.tm = s.tm ∧ x.kind.call = false := by
    intro _ hr
    rcases hp with h2 | ⟨_, h1, _⟩
    · exact ⟨h2.2.2.1, by rw [hk]; rfl⟩
    · rw [hok.alloc (hg.ev.kept (hal h1))] at hr; exact absurd hr (by simp)
  refine ⟨settle h hg hok hheld fun hT hon => ?_, ?_⟩
  · rcases hp with h2 | ⟨_, _, _, _, h2⟩
    · exact due_same h h2.1 h2.2.2.1 hlat hT (by rw [hk]; rfl)
    · by_cases hl : s'.row.st.l = .created
      · have hon := hon hl
        rcases h2 with ⟨_, h3, h4⟩ | ⟨_, h3, e, h4, h5⟩
        · rw [h3]
          refine ⟨fun _ => Or.inl rfl, fun _ _ _ => ?_, fun _ a => absurd a (by simp)⟩
          exact EndCall.due h4 (fun e he => hon.ends (by simp [hk]) e (by rw [h3]; exact he))
        · have := hon.ends (by simp [hk]) e (by rw [h3]; exact h4)
          omega
      · exact Due.dead hl
  · unfold Effect
    rw [hk]
    simp only
    rw [h.s0]
    refine ⟨r, rfl, ?_⟩
    rcases hp with ⟨h1, _, h2, h3, _, e, rfl, hw⟩ | hp
    · refine Or.inl ⟨h1, h2, h3, e, rfl, ?_⟩
      rcases hw with hw | hw | hw
      · rintro rfl
        unfold authorize at hw
        split at hw
        · simp at hw
        · split at hw
          · rename_i hw'
            simp only [Except.error.injEq] at hw
            subst hw
            revert hw'
            unfold authorizePort
            repeat' split
            all_goals simp
          · revert hw
            unfold authorizePort
            repeat' split
            all_goals simp
      · rw [hw.2]; simp
      · rw [hw.2.2.2]; simp
    · exact Or.inr ⟨hal hp.2.1, hp⟩

/-! ### Scheduled calls -/

/-- The slice of a scheduled call. -/
theorem has0 (h : StartAt T cfg x s) : Has1 cfg x.cid x.ref s.row s.row s.cal s.tm (slice0 s).objs { (slice0 s).idle with objs := upd (slice0 s).objs x.ref ⟨s.row, false⟩ } :=
  ⟨by simp, rfl, h.cid, rfl, rfl, fun n hn => by simp only [upd_ne hn], Covers.of_perm h.cal⟩

theorem timeout_ends (h : StartAt T cfg x s) (hk : x.kind = .timeout) (hh : s.row.st.r = .held) (hl : s.row.st.l = .created) :
    R0 x.cid x.ref (doReserveTimeout cfg x.ref) (fun s' r => Ends T cfg x s' (r.map fun _ => none)) s := by
  have hsym := sym_doReserveTimeout (has0 h) h.ok hh hl (by
    have := h.cal
    rwa [ents_holds (holds_iff.mpr ⟨hl, Or.inl hh⟩)] at this)
  have := timeout_good h.start hh hl
  rw [h.cid] at this
  refine R0_mono ?_ (R0_of_sym (pl_doReserveTimeout _ _) hsym this (agree0 h rfl) h.ocid)
  rintro s' r ⟨⟨hg, rfl, h1, h2, h3, n, hn⟩, sl', h4, h5⟩ _
  have hheld : s'.row.st.l = .created → s'.row.st.r = .held → s'.tm = s.tm ∧ x.kind.call = false := by
    intro _ hr
    rw [h1] at hr; exact absurd hr (by simp)
  refine ⟨settle h hg (h5.row _ h4.row).1 hheld fun hT hon => ?_, ?_⟩
  · refine Due.idle h2 (Decidable.byContradiction fun hp => ?_)
    rw [hg.row.pv hp] at h2; exact absurd h2 (by simp)
  · unfold Effect; rw [hk]; exact ⟨h1, h2, n, hn⟩

theorem endtime_ends (h : StartAt T cfg x s) (hk : x.kind = .endtime) (hr : s.row.st.r = .start) {e : Time} (hend : s.row.end_ = some e) (het : e ≤ s.clk) :
    R0 x.cid x.ref (doEndtime cfg x.ref) (fun s' r => Ends T cfg x s' (r.map fun _ => none)) s := by
  have hrest : RestS cfg { (slice0 s).idle with objs := upd (slice0 s).objs x.ref ⟨s.row, false⟩ } :=
    rest_off (slice0_rest h) (slice0_ref h) (has0 h) rfl rfl rfl rfl
  have hsym := sym_endtime (has0 h) hrest h.ok hr (fun _ => h.cal)
  have := endtime_good h.start hr hend het
  rw [h.cid] at this
  refine R0_mono ?_ (R0_of_sym (pl_doEndtime _ _) hsym this (agree0 h rfl) h.ocid)
  rintro s' r ⟨⟨hg, h1⟩, sl', h4, h5⟩ _
  have hheld : s'.row.st.l = .created → s'.row.st.r = .held → s'.tm = s.tm ∧ x.kind.call = false := by
    intro hl' _
    exfalso
    by_cases hl : s.row.st.l = .created
    · rw [(h1 hl).2.1] at hl'; exact absurd hl' (by simp)
    · exact hg.ev.left hl hl'
  refine ⟨settle h hg (h5.row _ h4.row).1 hheld fun hT hon => ?_, ?_⟩
  · refine Due.dead ?_
    by_cases hl : s.row.st.l = .created
    · rw [(h1 hl).2.1]; simp
    · exact hg.ev.left hl
  · unfold Effect; rw [hk]; simp only; rw [h.s0]; exact fun hl => (h1 hl).2

theorem activate_ends (h : StartAt T cfg x s) (hk : x.kind = .activate) (hr : s.row.st.r = .start) (hp : s.row.st.p = .provisioned)
    (hl : s.row.st.l = .created) (hst : ∀ x, s.row.start = some x → x ≤ s.clk) (hb : ∀ x, s.tm = some x → x.called = true) :
    R0 x.cid x.ref (doActivate x.ref) (fun s' r => Ends T cfg x s' (r.map fun _ => none)) s := by
  have := activate_good h.start hr hp hl hst hb
  rw [h.cid] at this
  refine R0_of_plain (pl_doActivate _) (LAll_mono ?_ this) h.ocid
  rintro s' r ⟨hg, rfl, a, h3, h4, h5⟩ _
  have hal : s.row.allocated = true := h.ok.prov (by rw [hp]; simp)
  have hheld : s'.row.st.l = .created → s'.row.st.r = .held → s'.tm = s.tm ∧ x.kind.call = false := by
    intro _ hr'
    rw [h3] at hr'
    rw [show s.row.st.r = .held from hr'] at hr; exact absurd hr (by simp)
  refine ⟨settle h hg ?_ hheld fun hT hon => ?_, ?_⟩
  · rw [h3]
    exact ⟨fun _ => hal, fun _ => h.ok.alloc hal, h.ok.state, h.ok.life, h.ok.ended, fun _ => hal⟩
  · have hon := hon (by rw [h3]; exact hl)
    rw [h3]
    refine ⟨fun _ => Or.inr hp, fun _ _ hp' => ?_, fun _ _ ha => ?_⟩
    · have ha : a = true := by
        rcases hp' with hp' | hp'
        · rw [show s.row.st.p = .released from hp'] at hp; exact absurd hp (by simp)
        · exact hp'
      exact EndCall.due (h4 ha).2 (fun e he => hon.ends (by simp [hk]) e (by rw [h3]; exact he))
    · obtain ⟨n, hn⟩ := h5 ha
      refine Or.inr ⟨n, List.mem_append_right _ ?_⟩
      show Msg.activateFailed s.row.cid n ∈ s'.out
      rw [h.cid]; exact hn
  · unfold Effect; rw [hk]; simp only; rw [h.s0]
    exact ⟨a, h3, fun ha => (h4 ha).1, h5⟩

end
end OpenNSA.Backend
