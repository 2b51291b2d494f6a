import Verif.Backend.Crash
import Verif.Backend.PropsBoot

/-!
# Recovery after the process died (C89)

The process may die while operations are under way. What remains is the database, the network devices and the clock. The theorems are
about a restart from an arbitrary database in which connection ids are distinct and held reservations are neither committed nor active
(`commit` marks a connection as committed and takes it out of the held state with one write, genericbackend.py:373-376).

A row is `Settled` (Crash.lean) if no operation on its connection was under way. The other rows are what the counterexamples are about.
-/

namespace OpenNSA.Backend

open Py

section
variable {cfg : Cfg} {w w1 : World} {o : Oracle} {c : Option Str}

theorem restart_cases (hn : (w.rows.map (·.cid)).Nodup) (hheld : ∀ x ∈ w.rows, x.st.r = .held → x.active = false ∧ x.allocated = false) :
    ((∃ c, (step cfg w o .restart).2 = .ok c) → ∃ keep, Booting cfg w w.live keep [] (step cfg w o .restart).1) ∧
    (∀ e, (step cfg w o .restart).2 = .error e → ∃ x ∈ w.rows, Raises x w.clk (step cfg w o .restart).1.clk) := by
  have h := run_of_All (restart_any (cfg := cfg) (w := { w with orc := o }) hn hheld)
  have e1 : (step cfg w o .restart).1 = ((buildSchedule cfg).run ({ w with orc := o } : World).reboot).1 := rfl
  have e2 : (step cfg w o .restart).2 = ((buildSchedule cfg).run ({ w with orc := o } : World).reboot).2.map fun _ => none := rfl
  rw [e1, e2]
  refine ⟨?_, ?_⟩
  · rintro ⟨c, hc⟩
    cases hr : ((buildSchedule cfg).run ({ w with orc := o } : World).reboot).2 with
    | error e => rw [hr] at hc; exact absurd hc (by simp [Except.map])
    | ok u =>
      obtain ⟨keep, hb⟩ := h.1 hr
      refine ⟨keep, hb.nodup, hb.mem, hb.refs, hb.cids, hb.cal, hb.clk, fun x hx => ?_, hb.links, hb.rest⟩
      obtain ⟨a, y, b, d⟩ := hb.fin x hx
      exact ⟨a, y, b, ⟨d.same, d.gone, d.left, d.settled⟩⟩
  · intro e he
    cases hr : ((buildSchedule cfg).run ({ w with orc := o } : World).reboot).2 with
    | ok u => rw [hr] at he; exact absurd he (by simp [Except.map])
    | error e' => exact h.2 e' hr

end

/-- C89: after a restart from any database that ran through, the calendar holds the entries of some of the stored connections and
nothing else. Of the settled ones it holds the entries of exactly those that hold or own resources; never does it hold those of a
connection that was terminated or had ended. -/
theorem C89_calendar_partial (cfg : Cfg) (w w1 : World) (o : Oracle) (c : Option Str) (hn : (w.rows.map (·.cid)).Nodup)
    (hheld : ∀ x ∈ w.rows, x.st.r = .held → x.active = false ∧ x.allocated = false) (hs : step cfg w o .restart = (w1, .ok c)) :
    ∃ keep : Row → Bool, w1.cal.Perm ((w.rows.filter keep).flatMap fun x => [srcResv cfg x, dstResv cfg x]) ∧
      ∀ x ∈ w.rows, (x.st.l = .passedEnd ∨ x.st.l = .terminated → keep x = false) ∧
        (x.Settled w.clk → ∃ y ∈ w1.rows, y.cid = x.cid ∧ keep x = y.holds) := by
  obtain ⟨keep, hb⟩ := (restart_cases (cfg := cfg) (o := o) hn hheld).1 ⟨c, by rw [hs]⟩
  rw [hs] at hb
  refine ⟨fun x => keep x && decide (x.st.l ≠ .terminated), ?_, fun x hx => ?_⟩
  · have := hb.cal
    rw [World.live, List.filter_filter] at this
    exact this
  · rcases hb.rest x hx with a | ⟨p, hp, _⟩ | ⟨a, b, _⟩
    · obtain ⟨_, y, hy, hb⟩ := hb.fin x a
      have hnt : x.st.l ≠ .terminated := by simpa using (List.mem_filter.mp a).2
      refine ⟨fun h => by simp [(hb.gone h).1], fun h => ⟨y, hy, hb.same.1, ?_⟩⟩
      rw [← (hb.settled h).1]
      simp [hnt]
    · exact absurd hp (by simp)
    · refine ⟨fun _ => by simp [b], fun _ => ⟨x, a, rfl, ?_⟩⟩
      rw [holds_false fun h => by rw [b] at h; exact absurd h.1 (by simp)]
      simp [b]

/-- C89: a connection that was settled has the call it needs after the restart (or its activation failed and was reported), unless it
is not committed any more or is loaded at the very instant it starts. -/
theorem C89_calls_partial (cfg : Cfg) (w w1 : World) (o : Oracle) (c : Option Str) (hn : (w.rows.map (·.cid)).Nodup)
    (hheld : ∀ x ∈ w.rows, x.st.r = .held → x.active = false ∧ x.allocated = false) (hs : step cfg w o .restart = (w1, .ok c))
    (x : Row) (hx : x ∈ w.rows) (hset : x.Settled w.clk) :
    ∃ y ∈ w1.rows, SameConn x y ∧
      (y.st.l = .created → y.holds = true → (∃ now, w.clk ≤ now ∧ now ≤ w1.clk ∧ x.start = some now) ∨
        ((y.st.r = .held → ∃ due ref, w1.pending y.cid = some ⟨due, .reserveTimeout, ref, false⟩ ∧
            (due ≤ y.reserveTime + 120 * second ∨ due ≤ w1.clk) ∧ ∀ e, y.end_ = some e → due ≤ e ∨ due ≤ w1.clk) ∧
         (y.allocated = true → y.st.p = .released ∨ y.active = true → ∀ e, y.end_ = some e →
            (∃ due ref, w1.pending y.cid = some ⟨due, .endtime, ref, false⟩ ∧ e ≤ due ∧ (due ≤ e ∨ due ≤ w1.clk)) ∨
            e + second < w1.clk) ∧
         (y.st.p = .provisioned → y.active = false →
            (∃ s due ref, y.start = some s ∧ s ≤ due ∧ (due ≤ s ∨ due ≤ w1.clk) ∧ w1.pending y.cid = some ⟨due, .activate, ref, false⟩) ∨
            ∃ n, Msg.activateFailed y.cid n ∈ w1.outbox))) := by
  obtain ⟨keep, hb⟩ := (restart_cases (cfg := cfg) (o := o) hn hheld).1 ⟨c, by rw [hs]⟩
  rw [hs] at hb
  simp only at hb
  rcases hb.rest x hx with a | ⟨p, hp, _⟩ | ⟨a, b, _⟩
  · obtain ⟨_, y, hy, hb⟩ := hb.fin x a
    refine ⟨y, hy, hb.same, fun hl hh => ?_⟩
    obtain ⟨hk, ⟨now, b1, b2, b3, _⟩ | b | ⟨b1, b2⟩⟩ := hb.settled hset
    · exact Or.inl ⟨now, b1, b2, b3⟩
    · right
      rw [← hb.same.1] at b
      refine ⟨fun hh => ?_, fun h1 h2 e he => ?_, fun h1 h2 => ?_⟩
      · obtain ⟨due, ref, h1, h2⟩ := b.held hl hh
        exact ⟨due, ref, by unfold World.pending; rw [h1], h2⟩
      · rcases b.ends hl h1 h2 e he with ⟨due, ref, h3, h4⟩ | h3
        · exact Or.inl ⟨due, ref, by unfold World.pending; rw [h3], h4⟩
        · exact Or.inr h3
      · rcases b.activates hl h1 h2 with ⟨s, due, ref, h3, h4, h5, h6⟩ | h3
        · exact Or.inl ⟨s, due, ref, h3, h4, h5, by unfold World.pending; rw [h6]⟩
        · exact Or.inr h3
    · rcases (holds_iff.mp hh).2 with e | e
      · rw [b1] at e; exact absurd e (by simp)
      · rw [b2] at e; exact absurd e (by simp)
  · exact absurd hp (by simp)
  · exact ⟨x, a, SameConn.refl x, fun hl => by rw [b] at hl; exact absurd hl (by simp)⟩

/-- C89: a link that is up after a restart was up before, or belongs to a provisioned connection that was committed, or was in the
course of a commit, abort or timeout, and was not ended or terminated, and whose start time has come. -/
theorem C89_links_partial (cfg : Cfg) (w w1 : World) (o : Oracle) (c : Option Str) (hn : (w.rows.map (·.cid)).Nodup)
    (hheld : ∀ x ∈ w.rows, x.st.r = .held → x.active = false ∧ x.allocated = false) (hs : step cfg w o .restart = (w1, .ok c)) (cid : Str)
    (hup : w1.up cid) : w.up cid ∨ ∃ x ∈ w.rows, x.cid = cid ∧ x.st.p = .provisioned ∧ x.st.r ≠ .held ∧
      (x.st.r = .start → x.allocated = true) ∧ x.st.l ≠ .passedEnd ∧ x.st.l ≠ .terminated ∧ ∀ s, x.start = some s → s ≤ w1.clk := by
  obtain ⟨keep, hb⟩ := (restart_cases (cfg := cfg) (o := o) hn hheld).1 ⟨c, by rw [hs]⟩
  rw [hs] at hb
  rcases hb.links cid hup with h | ⟨x, a1, a2, a3, a4, a5, a6, a7, a8⟩
  · exact Or.inl h
  · refine Or.inr ⟨x, a1, a2, a3, a4, fun hr => ?_, a6, a7, a8⟩
    cases ha : x.allocated with
    | true => rfl
    | false => exact absurd ⟨hr, ha⟩ a5

/-- C89: loading the stored connections only raises an exception if there is a connection without end time that starts in the future,
or one whose end time has passed and that is not live, or if it takes more than a second. -/
theorem C89_runs_partial (cfg : Cfg) (w w1 : World) (o : Oracle) (e : Err) (hn : (w.rows.map (·.cid)).Nodup)
    (hheld : ∀ x ∈ w.rows, x.st.r = .held → x.active = false ∧ x.allocated = false) (hs : step cfg w o .restart = (w1, .error e)) :
    (∃ x ∈ w.rows, x.end_ = none ∧ ∃ s, x.start = some s ∧ w.clk < s) ∨
    (∃ x ∈ w.rows, x.st.l ≠ .created ∧ ∃ en, x.end_ = some en ∧ en < w1.clk) ∨ w.clk + second < w1.clk := by
  obtain ⟨x, hx, h⟩ := (restart_cases (cfg := cfg) (o := o) hn hheld).2 e (by rw [hs])
  rw [hs] at h
  rcases h with h | h | h
  · exact Or.inl ⟨x, hx, h⟩
  · exact Or.inr (Or.inl ⟨x, hx, h⟩)
  · exact Or.inr (Or.inr h)

/-- C89: a connection that was terminated or had ended is left as it is, and no call is pending for it. -/
theorem C89_gone_partial (cfg : Cfg) (w w1 : World) (o : Oracle) (c : Option Str) (hn : (w.rows.map (·.cid)).Nodup)
    (hheld : ∀ x ∈ w.rows, x.st.r = .held → x.active = false ∧ x.allocated = false) (hs : step cfg w o .restart = (w1, .ok c))
    (x : Row) (hx : x ∈ w.rows) (hl : x.st.l = .passedEnd ∨ x.st.l = .terminated) : x ∈ w1.rows ∧ w1.pending x.cid = none := by
  obtain ⟨keep, hb⟩ := (restart_cases (cfg := cfg) (o := o) hn hheld).1 ⟨c, by rw [hs]⟩
  rw [hs] at hb
  rcases hb.rest x hx with a | ⟨p, hp, _⟩ | ⟨a, _, b⟩
  · obtain ⟨_, y, hy, hb⟩ := hb.fin x a
    obtain ⟨_, e, ht⟩ := hb.gone hl
    subst e
    exact ⟨hy, by unfold World.pending; rw [ht]⟩
  · exact absurd hp (by simp)
  · exact ⟨a, by unfold World.pending; rw [b]⟩

namespace Ex

/-- Connection `x` is up: reserved, committed, provisioned and activated. -/
def upX : List (Oracle × Choice) :=
  [(ids 'x', ask 12 1500)] ++ go 0 ++ go 1 ++ go 1 ++ [(o0, .start hdr (.commit ['x']))] ++ go 2 ++ go 2 ++ go 2 ++
  [(o0, .start hdr (.provision ['x']))] ++ go 4 ++ go 4 ++ go 4 ++ [(o0, .wait 600000000), (o0, .fire ['x'])] ++ go 6 ++ go 6

/-- The process dies after the termination of `x` was confirmed, before that was stored. It is restarted, and the end of `x` comes. -/
def crashTerminate : List (Oracle × Choice) :=
  upX ++ [(o0, .start hdr (.terminate ['x']))] ++ go 7 ++ go 7 ++ go 7 ++ go 7 ++ go 7 ++ [(o0, .restart)] ++ go 9 ++ go 9 ++ go 9 ++ go 9 ++
  [(o0, .wait 1500000000), (o0, .fire ['x'])]

/-- The process dies at the end of `x`, before its link is taken down. -/
def crashEnd : List (Oracle × Choice) :=
  upX ++ [(o0, .wait 1500000000), (o0, .fire ['x']), (o0, .perform 7), (o0, .restart)] ++ go 9

/-- The process dies during the release of `x`, before its link is taken down. It is restarted, and the end of `x` passes. -/
def crashRelease : List (Oracle × Choice) :=
  upX ++ [(o0, .start hdr (.release ['x']))] ++ go 7 ++ [(o0, .perform 7), (o0, .restart)] ++ go 8 ++ [(o0, .wait 1500000000), (o0, .fire ['x'])]

/-- The process dies when the reservation of `x` times out. -/
def crashTimeout : List (Oracle × Choice) :=
  [(ids 'x', ask 12 1500)] ++ go 0 ++ go 1 ++ go 1 ++ [(o0, .wait 200000000), (o0, .fire ['x']), (o0, .perform 2), (o0, .restart)] ++ go 3

/-- Connections `x` and `y` are committed. The process dies during the termination of `x`, and is restarted twice after the end of `x`. -/
def crashBlock : List (Oracle × Choice) :=
  [(ids 'x', ask 12 1500)] ++ go 0 ++ go 1 ++ go 1 ++ [(o0, .start hdr (.commit ['x']))] ++ go 2 ++ go 2 ++ go 2 ++
  [(ids 'y', .start hdr (.reserve none (stp 'a' 13 13) (stp 'b' 13 13) (some (sec 5000)) (some (sec 9000))))] ++ go 4 ++ go 5 ++ go 5 ++
  [(o0, .start hdr (.commit ['y']))] ++ go 6 ++ go 6 ++ go 6 ++
  [(o0, .start hdr (.terminate ['x']))] ++ go 8 ++ [(o0, .perform 8), (o0, .wait 2500000000), (o0, .restart)] ++ go 10 ++ go 10 ++
  [(o0, .restart)] ++ go 11 ++ go 11

/-- What a process left that died: `p` is up, `q` is held, `t` was terminated, `e` has ended, and `r` was being released. -/
def crashed : World :=
  let row (c : Char) (v : Nat) (st : ConnStates) (active allocated : Bool) : Row := ⟨[c], ['r'], sec 1990, st, active, allocated, ['a'],
    some (tVlan, v), ['b'], some (tVlan, v), some (sec 1500), some (sec 3000)⟩
  { World.init [] (sec 2000) with
    rows := [row 'p' 11 ⟨.start, .provisioned, .created⟩ true true, row 'q' 12 ⟨.held, .released, .created⟩ false false,
      row 't' 13 ⟨.start, .provisioned, .terminated⟩ false true, row 'e' 14 ⟨.start, .provisioned, .passedEnd⟩ false true,
      row 'r' 15 ⟨.start, .releasing, .created⟩ true true]
    links := [['p'], ['r']] }

/-- The same, and `p` not up yet. -/
def crashed' : World := { crashed with rows := crashed.rows.map fun x => if x.cid = ['p'] then { x with active := false } else x, links := [] }

end Ex

/-- The restart from `crashed` runs through; `p` is settled. -/
example : (Ex.crashed.rows.map (·.cid)).Nodup ∧ (∀ x ∈ Ex.crashed.rows, x.st.r = .held → x.active = false ∧ x.allocated = false) ∧
    isOk (step (Ex.cfg true) Ex.crashed Ex.o0 .restart).2 = true ∧ ∃ x ∈ Ex.crashed.rows, x.cid = ['p'] ∧ x.Settled Ex.crashed.clk := by
  refine ⟨by decide +kernel, by decide +kernel, by decide +kernel, _, List.mem_cons_self, rfl, by decide +kernel, Or.inl rfl,
    Or.inr ⟨rfl, rfl⟩, fun _ s hs => ?_⟩
  cases hs
  decide +kernel

/-- Afterwards the calendar has the entries of `p`, `q` and `r`, and calls are pending for `p` and `q` only. -/
example : let w := (step (Ex.cfg true) Ex.crashed Ex.o0 .restart).1
    w.cal.length = 6 ∧ (w.pending ['p']).map (·.act) = some .endtime ∧ (w.pending ['q']).map (·.act) = some .reserveTimeout ∧
    w.pending ['t'] = none ∧ w.pending ['e'] = none ∧ w.pending ['r'] = none := by decide +kernel

/-- If the link of `p` was down, the restart sets it up. -/
example : isOk (step (Ex.cfg true) Ex.crashed' Ex.o0 .restart).2 = true ∧
    (step (Ex.cfg true) Ex.crashed' Ex.o0 .restart).1.links = [['p']] := by decide +kernel

/-- Loading stops at `p` if it was being terminated and its end has passed. -/
example : let w := { Ex.crashed with clk := Ex.sec 4000, rows := Ex.crashed.rows.map fun x =>
      if x.cid = ['p'] then { x with st := { x.st with l := .terminating } } else x }
    isOk (step (Ex.cfg true) w Ex.o0 .restart).2 = false := by decide +kernel

/-- C89 fails for a terminate (genericbackend.py:505-516, 128-140): if the process dies after the termination was confirmed and before
the state terminated is stored, the restart finds a provisioned connection that is not active, and sets up its link again. At its end
time the link is not taken down, since the end of a connection in state terminating is refused. -/
theorem C89_terminated_up_fails : ∃ (cfg : Cfg) (clk : Time) (s : List (Oracle × Choice)) (row : Row) (en : Time),
    let c := Conc.run cfg { w := World.init [] clk } s
    c.tasks = [] ∧ c.w.rows = [row] ∧ .terminateConfirmed row.cid ∈ c.w.outbox ∧ c.w.up row.cid ∧ row.active = true ∧
    row.st.l = .terminating ∧ row.end_ = some en ∧ en < c.w.clk ∧ c.w.pending row.cid = none := by
  let row : Row := ⟨['x'], ['r'], Ex.sec 1000, ⟨.start, .provisioned, .terminating⟩, true, true, ['a'], some (tVlan, 12), ['b'],
    some (tVlan, 12), some (Ex.sec 1500), some (Ex.sec 3000)⟩
  exact ⟨Ex.cfg true, Ex.sec 1000, Ex.crashTerminate, row, Ex.sec 3000, List.length_eq_zero_iff.mp (by decide +kernel), by decide +kernel,
    by decide +kernel, by decide +kernel, rfl, rfl, rfl, by decide +kernel, by decide +kernel⟩

/-- C89 fails at the end time (genericbackend.py:746-748, 97-98): if the process dies after the state has been stored and before the
link was taken down, the restart passes over the connection. Its link stays up, with nothing in the calendar and no call pending. -/
theorem C89_ended_up_fails : ∃ (cfg : Cfg) (clk : Time) (s : List (Oracle × Choice)) (row : Row),
    let c := Conc.run cfg { w := World.init [] clk } s
    c.tasks = [] ∧ c.w.rows = [row] ∧ c.w.up row.cid ∧ row.active = true ∧ row.st.l = .passedEnd ∧ c.w.cal = [] ∧
    c.w.pending row.cid = none := by
  let row : Row := ⟨['x'], ['r'], Ex.sec 1000, ⟨.start, .provisioned, .passedEnd⟩, true, true, ['a'], some (tVlan, 12), ['b'],
    some (tVlan, 12), some (Ex.sec 1500), some (Ex.sec 3000)⟩
  exact ⟨Ex.cfg true, Ex.sec 1000, Ex.crashEnd, row, List.length_eq_zero_iff.mp (by decide +kernel), by decide +kernel,
    by decide +kernel, rfl, rfl, by decide +kernel, by decide +kernel⟩

/-- C89 fails for a release (genericbackend.py:462-471, 148-149): if the process dies after the state releasing has been stored and
before the link was taken down, the restart schedules nothing for the connection, and its link stays up past its end. -/
theorem C89_releasing_fails : ∃ (cfg : Cfg) (clk : Time) (s : List (Oracle × Choice)) (row : Row) (en : Time),
    let c := Conc.run cfg { w := World.init [] clk } s
    c.tasks = [] ∧ c.w.rows = [row] ∧ c.w.up row.cid ∧ row.active = true ∧ row.st.p = .releasing ∧ row.st.l = .created ∧
    row.end_ = some en ∧ en < c.w.clk ∧ c.w.pending row.cid = none := by
  let row : Row := ⟨['x'], ['r'], Ex.sec 1000, ⟨.start, .releasing, .created⟩, true, true, ['a'], some (tVlan, 12), ['b'],
    some (tVlan, 12), some (Ex.sec 1500), some (Ex.sec 3000)⟩
  exact ⟨Ex.cfg true, Ex.sec 1000, Ex.crashRelease, row, Ex.sec 3000, List.length_eq_zero_iff.mp (by decide +kernel), by decide +kernel,
    by decide +kernel, rfl, rfl, rfl, rfl, by decide +kernel, by decide +kernel⟩

/-- C89 fails for a reservation timeout (genericbackend.py:603-606, 105-109): if the process dies after the state timeout has been
stored and before the rollback, the restart enters the reservation in the calendar again, and schedules nothing before its end. -/
theorem C89_timeout_fails : ∃ (cfg : Cfg) (clk : Time) (s : List (Oracle × Choice)) (row : Row) (en : Time) (ref : Nat),
    let c := Conc.run cfg { w := World.init [] clk } s
    c.tasks = [] ∧ c.w.rows = [row] ∧ row.st.r = .timeout ∧ row.allocated = false ∧ row.end_ = some en ∧
    c.w.cal = [srcResv cfg row, dstResv cfg row] ∧ c.w.pending row.cid = some ⟨en, .endtime, ref, false⟩ := by
  let row : Row := ⟨['x'], ['r'], Ex.sec 1000, ⟨.timeout, .released, .created⟩, false, false, ['a'], some (tVlan, 12), ['b'],
    some (tVlan, 12), some (Ex.sec 1500), some (Ex.sec 3000)⟩
  exact ⟨Ex.cfg true, Ex.sec 1000, Ex.crashTimeout, row, Ex.sec 3000, 0, List.length_eq_zero_iff.mp (by decide +kernel), by decide +kernel,
    rfl, rfl, rfl, by decide +kernel, by decide +kernel⟩

/-- C89 fails for the connections that come after one that was being terminated (genericbackend.py:90, 111-113, 741-742): once the end
time of such a connection has passed, each restart stops with an exception at this connection. Connections after it in the list have no
entries in the calendar and no calls pending. -/
theorem C89_blocked_fails : ∃ (cfg : Cfg) (clk : Time) (s : List (Oracle × Choice)) (x y : Row),
    let c := Conc.run cfg { w := World.init [] clk } s
    c.tasks = [] ∧ c.w.rows = [x, y] ∧ x.st.l = .terminating ∧ .reserveCommitConfirmed y.cid ∈ c.w.outbox ∧ y.holds = true ∧
    y.allocated = true ∧ (∀ e, y.end_ = some e → c.w.clk < e) ∧ srcResv cfg y ∉ c.w.cal ∧ dstResv cfg y ∉ c.w.cal ∧
    c.w.pending y.cid = none := by
  let row (c : Char) (v : Nat) (l : LState) (s e : Int) : Row := ⟨[c], ['r'], Ex.sec 1000, ⟨.start, .released, l⟩, false, true, ['a'],
    some (tVlan, v), ['b'], some (tVlan, v), some (Ex.sec s), some (Ex.sec e)⟩
  refine ⟨Ex.cfg true, Ex.sec 1000, Ex.crashBlock, row 'x' 12 .terminating 1500 3000, row 'y' 13 .created 5000 9000,
    List.length_eq_zero_iff.mp (by decide +kernel), by decide +kernel, rfl, by decide +kernel, by decide +kernel, rfl, ?_,
    by decide +kernel, by decide +kernel, by decide +kernel⟩
  intro e he
  simp only [row, Option.some.injEq] at he
  subst he
  decide +kernel

end OpenNSA.Backend
