import Verif.Backend.Lively
import Verif.Backend.Examples
/-
Property theorems: a committed and provisioned connection is up from its start to its end (C88).
-/
namespace OpenNSA.Backend
open OpenNSA Py Prog

/-- Nothing that is scheduled for the connection is due: what was due has been called. -/
def NothingDue (w : World) (cid : Str) : Prop := ∀ tm, w.pending cid = some tm → w.clk < tm.due

theorem pending_of {w : World} {cid : Str} {due : Time} {act : Act} {ref : Nat}
    (h : dget w.tbl cid = some ⟨due, act, ref, false⟩) : w.pending cid = some ⟨due, act, ref, false⟩ := by
  unfold World.pending; rw [h]

/-- C88: the call that is pending for a live connection. One that is committed and is released or up has its end call pending,
due at the end time or, if that has come, now; one that is provisioned and not up has its activation pending, due at the start
time or, if that has come, now, unless an activation failed and was reported. No live connection is left in a provisioning or
releasing state. -/
theorem C88_calls_partial (cfg : Cfg) (w : World) (h : ReachT cfg w) (x : Row) (hx : x ∈ w.rows) (hl : x.st.l = .created) :
    (x.st.p = .released ∨ x.st.p = .provisioned) ∧
    (x.allocated = true → x.st.p = .released ∨ x.active = true → ∀ e, x.end_ = some e →
      ∃ due ref, w.pending x.cid = some ⟨due, .endtime, ref, false⟩ ∧ e ≤ due ∧ (due = e ∨ due ≤ w.clk)) ∧
    (x.st.p = .provisioned → x.active = false →
      (∃ s due ref, x.start = some s ∧ w.pending x.cid = some ⟨due, .activate, ref, false⟩ ∧ s ≤ due ∧ (due = s ∨ due ≤ w.clk)) ∨
      ∃ n, Msg.activateFailed x.cid n ∈ w.outbox) := by
  have hd := h.due x hx
  refine ⟨hd.settled hl, fun ha hp e he => ?_, fun hp ha => ?_⟩
  · obtain ⟨due, ref, h1, h2, h3⟩ := hd.ends hl ha hp e he
    exact ⟨due, ref, pending_of h1, h2, by omega⟩
  · rcases hd.activates hl hp ha with ⟨s, due, ref, h1, h2, h3, h4⟩ | a
    · exact Or.inl ⟨s, due, ref, h1, pending_of h4, h2, by omega⟩
    · exact Or.inr a

/-- C88: while a live connection is provisioned, and nothing scheduled for it is due, its link is up exactly when its start
time has come, provided no failure of its activation or teardown was reported. -/
theorem C88_window_partial (cfg : Cfg) (w : World) (h : ReachT cfg w) (x : Row) (hx : x ∈ w.rows) (hl : x.st.l = .created)
    (hp : x.st.p = .provisioned) (hd : NothingDue w x.cid) (hf : ¬ Reported w.outbox x.cid) :
    w.up x.cid ↔ ∀ s, x.start = some s → s ≤ w.clk := by
  have hc := h.reach.inv.conn x hx
  constructor
  · intro hu
    rcases hc.link.2 (decide_eq_true hu) with ha | ha
    · exact (hc.row.act ha).2.2
    · exact absurd ha hf
  · intro hs
    cases ha : x.active with
    | true => exact by simpa [World.up] using hc.link.1 ha
    | false =>
      rcases (C88_calls_partial cfg w h x hx hl).2.2 hp ha with ⟨s, due, ref, h1, h2, h3, h4⟩ | ⟨n, hn⟩
      · have := hd _ h2
        have := hs s h1
        simp only at *
        omega
      · exact absurd ⟨n, Or.inl hn⟩ hf

/-- C88: a committed connection does not outlive its end: once its end time has come, and nothing scheduled for it is due, it
is over (past its end or terminated) and its link is down, unless it is still waiting for its start or a failure was reported. -/
theorem C88_over_partial (cfg : Cfg) (w : World) (h : ReachT cfg w) (x : Row) (hx : x ∈ w.rows) (ha : x.allocated = true)
    (hd : NothingDue w x.cid) (hf : ¬ Reported w.outbox x.cid) (e : Time) (he : x.end_ = some e) (hpast : e ≤ w.clk)
    (hs : ∀ s, x.start = some s → s ≤ w.clk) : (x.st.l = .passedEnd ∨ x.st.l = .terminated) ∧ ¬ w.up x.cid := by
  have hc := h.reach.inv.conn x hx
  have hnl : x.st.l ≠ .created := by
    intro hl
    obtain ⟨h0, h1, h2⟩ := C88_calls_partial cfg w h x hx hl
    have hend : x.st.p = .released ∨ x.active = true → False := by
      intro hp
      obtain ⟨due, ref, h3, h4, h5⟩ := h1 ha hp e he
      have := hd _ h3
      simp only at this
      omega
    rcases h0 with hp | hp
    · exact hend (Or.inl hp)
    · cases hact : x.active with
      | true => exact hend (Or.inr hact)
      | false =>
        rcases h2 hp hact with ⟨s, due, ref, h3, h4, h5, h6⟩ | ⟨n, hn⟩
        · have := hd _ h4
          have := hs s h3
          simp only at *
          omega
        · exact hf ⟨n, Or.inl hn⟩
  refine ⟨?_, fun hu => ?_⟩
  · rcases hc.row.lc with a | a | a
    · exact absurd a hnl
    · exact Or.inl a
    · exact Or.inr a
  · rcases hc.link.2 (decide_eq_true hu) with hact | hact
    · exact hnl (hc.row.act hact).1
    · exact hf hact

/-- C88: the same for a connection that is released: it is over when its end time has come, whenever it starts. -/
theorem C88_released_partial (cfg : Cfg) (w : World) (h : ReachT cfg w) (x : Row) (hx : x ∈ w.rows) (ha : x.allocated = true)
    (hp : x.st.p = .released) (hd : NothingDue w x.cid) (e : Time) (he : x.end_ = some e) (hpast : e ≤ w.clk) :
    x.st.l = .passedEnd ∨ x.st.l = .terminated := by
  rcases (h.reach.inv.conn x hx).row.lc with a | a | a
  · obtain ⟨due, ref, h3, h4, h5⟩ := (C88_calls_partial cfg w h x hx a).2.1 ha (Or.inl hp) e he
    have := hd _ h3
    simp only at this
    omega
  · exact Or.inl a
  · exact Or.inr a

/-! ### Examples -/

namespace Ex

/-- Decides `Timely`. -/
def timelyB (w w' : World) : Ev → Bool
  | .req _ (.commit cid) => w.rows.all fun x => x.cid != cid || x.st.l != .created || x.end_.all fun e => decide (w'.clk ≤ e + second)
  | .req _ (.release cid) => w.rows.all fun x => x.cid != cid || x.st.l != .created || x.end_.all fun e => decide (w'.clk ≤ e + second)
  | .req _ (.provision cid) => w.rows.all fun x => x.cid != cid || x.st.l != .created ||
      (x.end_.all fun e => decide (w'.clk ≤ e + second)) && x.start.all fun s => !decide (w.clk < s) || decide (w'.clk ≤ s + second)
  | .fire cid => w.rows.all fun x => x.cid != cid || x.st.l != .created || x.st.p != .provisioned || x.active ||
      x.end_.all fun e => decide (w'.clk ≤ e + second)
  | .restart => w.rows.all fun x => x.st.l != .created || !x.allocated ||
      (x.end_.all fun e => decide (e < w.clk) || decide (w'.clk ≤ e + second)) &&
        x.start.all fun s => decide (s < w.clk) || decide (w'.clk < s)
  | _ => true

theorem timelyB_sound {w w' : World} {e : Ev} (h : timelyB w w' e = true) : Timely w w' e := by
  have all : ∀ {o : Option Time} {p : Time → Bool}, o.all p = true → ∀ x, o = some x → p x = true := by
    rintro o p h x rfl; exact h
  unfold timelyB at h
  unfold Timely
  split at h
  · intro x hx hc hl e he
    have := List.all_eq_true.mp h x hx
    simp [hc, hl, he] at this; exact this
  · intro x hx hc hl e he
    have := List.all_eq_true.mp h x hx
    simp [hc, hl, he] at this; exact this
  · intro x hx hc hl
    have := List.all_eq_true.mp h x hx
    simp [hc, hl] at this
    refine ⟨fun e he => by simpa using all this.1 e he, fun s hs hlt => ?_⟩
    have := all this.2 s hs
    simp only [Bool.or_eq_true, Bool.not_eq_true', decide_eq_false_iff_not, decide_eq_true_eq] at this
    omega
  · intro x hx hc hl hp ha e he
    have := List.all_eq_true.mp h x hx
    simp [hc, hl, hp, ha, he] at this; exact this
  · intro x hx hl ha
    have := List.all_eq_true.mp h x hx
    simp [hl, ha] at this
    exact ⟨fun e he => by simpa using all this.1 e he, fun s hs => by simpa using all this.2 s hs⟩
  · rename_i h1 h2 h3 h4 h5
    split
    · exact absurd rfl (h1 _ _)
    · exact absurd rfl (h2 _ _)
    · exact absurd rfl (h3 _ _)
    · exact absurd rfl (h4 _)
    · exact absurd rfl h5
    · trivial

/-- The history is clean and in time. -/
def timelyAll (cfg : Cfg) (w : World) : List (Oracle × Ev) → Bool
  | [] => true
  | (o, e) :: es => cleanB e (step cfg w o e).1 (step cfg w o e).2 && timelyB w (step cfg w o e).1 e && timelyAll cfg (step cfg w o e).1 es

theorem reachT_from {cfg : Cfg} : ∀ (es : List (Oracle × Ev)) {w : World}, ReachT cfg w → timelyAll cfg w es = true →
    ReachT cfg (runAll cfg w es)
  | [], _, h, _ => h
  | (o, e) :: es, w, h, hc => by
    simp only [timelyAll, Bool.and_eq_true] at hc
    exact reachT_from es (.step o e h (cleanB_sound hc.1.1) (timelyB_sound hc.1.2)) hc.2

theorem reachT_runAll {cfg : Cfg} {es : List (Oracle × Ev)} (hc : timelyAll cfg w0 es = true) : ReachT cfg (runAll cfg w0 es) :=
  reachT_from es (ReachT.init [] _) hc

/-- Decides `NothingDue`. -/
theorem nothingDue {w : World} {cid : Str} (h : (w.pending cid).all (fun tm => decide (w.clk < tm.due)) = true) : NothingDue w cid := by
  intro tm htm
  rw [htm] at h
  simpa using h

theorem unreported {w : World} {cid : Str} (h : (w.outbox.all fun m => match m with
    | .activateFailed _ _ => false
    | .deactivateFailed _ _ => false
    | _ => true) = true) : ¬ Reported w.outbox cid := by
  rintro ⟨n, hn | hn⟩ <;> exact absurd (List.all_eq_true.mp h _ hn) (by simp)

/-- Committed and provisioned, the backend restarted, `x` activated at its start, and time up to shortly before its end. -/
def upNow : List (Oracle × Ev) := h2 ++
  [(o0, req (.provision ['x'])), (o0, .wait 500000000), (o0, .restart), (o0, .wait 500000000), (o0, .fire ['x']), (o0, .wait 999999999)]

/-- And past its end. -/
def overNow : List (Oracle × Ev) := upNow ++ [(o0, .wait 1), (o0, .fire ['x'])]

end Ex

/-- C88_calls_partial, C88_window_partial: `x` is up up to its end, after a restart before its start. -/
example :
    let w := runAll (Ex.cfg true) Ex.w0 Ex.upNow
    ReachT (Ex.cfg true) w ∧ (∃ x ∈ w.rows, x.cid = ['x'] ∧ x.st.l = .created ∧ x.st.p = .provisioned ∧ x.start = some (Ex.sec 2000) ∧
      Ex.sec 2000 ≤ w.clk ∧ w.clk < Ex.sec 3000) ∧ NothingDue w ['x'] ∧ ¬ Reported w.outbox ['x'] ∧ w.up ['x'] :=
  ⟨Ex.reachT_runAll (by decide +kernel), by decide +kernel, Ex.nothingDue (by decide +kernel),
    Ex.unreported (by decide +kernel), by decide +kernel⟩

/-- C88_window_partial: provisioned and not started, `x` is down. -/
example :
    let w := runAll (Ex.cfg true) Ex.w0 (Ex.upNow.take 4)
    ReachT (Ex.cfg true) w ∧ (∃ x ∈ w.rows, x.cid = ['x'] ∧ x.st.l = .created ∧ x.st.p = .provisioned ∧ x.start = some (Ex.sec 2000) ∧
      w.clk < Ex.sec 2000) ∧ NothingDue w ['x'] ∧ ¬ Reported w.outbox ['x'] ∧ ¬ w.up ['x'] :=
  ⟨Ex.reachT_runAll (by decide +kernel), by decide +kernel, Ex.nothingDue (by decide +kernel),
    Ex.unreported (by decide +kernel), by decide +kernel⟩

/-- C88_over_partial: at its end, `x` is over. -/
example :
    let w := runAll (Ex.cfg true) Ex.w0 Ex.overNow
    ReachT (Ex.cfg true) w ∧ (∃ x ∈ w.rows, x.cid = ['x'] ∧ x.allocated = true ∧ x.start = some (Ex.sec 2000) ∧ Ex.sec 2000 ≤ w.clk ∧
      x.end_ = some (Ex.sec 3000) ∧ Ex.sec 3000 ≤ w.clk) ∧ NothingDue w ['x'] ∧ ¬ Reported w.outbox ['x'] :=
  ⟨Ex.reachT_runAll (by decide +kernel), by decide +kernel, Ex.nothingDue (by decide +kernel),
    Ex.unreported (by decide +kernel)⟩

/-- C88_released_partial: committed and never provisioned, `x` is over at its end. -/
example :
    let w := runAll (Ex.cfg true) Ex.w0 (Ex.h2 ++ [(Ex.o0, .wait 2000000000), (Ex.o0, .fire ['x'])])
    ReachT (Ex.cfg true) w ∧ (∃ x ∈ w.rows, x.cid = ['x'] ∧ x.allocated = true ∧ x.st.p = .released ∧
      x.end_ = some (Ex.sec 3000) ∧ Ex.sec 3000 ≤ w.clk) ∧ NothingDue w ['x'] :=
  ⟨Ex.reachT_runAll (by decide +kernel), by decide +kernel, Ex.nothingDue (by decide +kernel)⟩

/-! ### Counterexamples -/

/-- C88 fails for a connection whose activation failed (genericbackend.py:659-672): reserved and committed from 2000 s to
3000 s, provisioned, and the device refused to set up the link at 2000 s. The failure is reported, but no call is scheduled any
more, so the connection never ends: long after its end time, with nothing pending for it, it is stored as live, committed and
provisioned, its two entries are in the calendar, a provision request is refused since the end has passed, and a release request raises an
assertion error. -/
theorem C88_failed_activation_fails : ∃ (cfg : Cfg) (w : World) (x : Row), ReachT cfg w ∧ w.rows = [x] ∧ x.st.l = .created ∧
    x.allocated = true ∧ x.st.p = .provisioned ∧ x.active = false ∧ (∃ e, x.end_ = some e ∧ e + 1000 * second < w.clk) ∧
    w.pending x.cid = none ∧ w.cal = [srcResv cfg x, dstResv cfg x] ∧
    (step cfg w Ex.o0 (Ex.req (.provision x.cid))).2 = .error .gone ∧
    (step cfg w Ex.o0 (Ex.req (.release x.cid))).2 = .error .assertion := by
  refine ⟨Ex.cfg true, runAll (Ex.cfg true) Ex.w0 (Ex.h2 ++ [(Ex.o0, Ex.req (.provision ['x'])), (Ex.o0, .wait 1000000000),
    ({ Ex.o0 with devs := [.failed false] }, .fire ['x']), (Ex.o0, .wait 3000000000)]),
    ⟨['x'], ['r'], Ex.sec 1000, ⟨.start, .provisioned, .created⟩, false, true, ['a'], some (tVlan, 12), ['b'],
      some (tVlan, 12), some (Ex.sec 2000), some (Ex.sec 3000)⟩, Ex.reachT_runAll (by decide +kernel), by decide +kernel, rfl, rfl, rfl, rfl,
    ⟨Ex.sec 3000, rfl, by decide +kernel⟩, by decide +kernel⟩

end OpenNSA.Backend
