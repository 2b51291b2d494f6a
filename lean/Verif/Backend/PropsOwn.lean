import Verif.Backend.OwnStep
import Verif.Backend.PropsInter
/-
Bookings of connections in interleaved executions: C21, C22.
-/
namespace OpenNSA.Backend
open OpenNSA Py Prog

/-! ### Whether a schedule is orderly, computed -/

def Conc.clear? (c : Conc) (lab : Nat → Str × Bool) (cid : Str) (books : Bool) : Bool :=
  c.tasks.all fun t => !decide ((lab t.id).1 = cid) || (!(lab t.id).2 && !books)

def Conc.allowed? (c : Conc) (lab : Nat → Str × Bool) (o : Oracle) : Choice → Bool
  | .start _ q => c.clear? lab (q.conn o) q.books &&
    match q with
    | .reserve _ _ _ _ _ => !c.w.idTaken (q.conn o)
    | .terminate cid => (match c.w.row? cid with | some r => !decide (r.st.l = .terminating) | none => true)
    | _ => true
  | .fire cid => match dget c.w.tbl cid with
    | some t => c.clear? lab cid t.act.books
    | none => true
  | .restart => false
  | _ => true

def orderly? (cfg : Cfg) : Conc → (Nat → Str × Bool) → List (Oracle × Choice) → Bool
  | _, _, [] => true
  | c, lab, (o, ch) :: s => c.allowed? lab o ch && orderly? cfg (c.step cfg o ch) (c.relabel lab (c.about lab o ch)) s

theorem clear_of {c : Conc} {lab : Nat → Str × Bool} {cid : Str} {b : Bool} (h : c.clear? lab cid b = true) : c.Clear lab cid b := by
  intro t ht hl
  simp only [Conc.clear?, List.all_eq_true] at h
  have := h t ht
  simpa [hl] using this

theorem allowed_of {c : Conc} {lab : Nat → Str × Bool} {o : Oracle} {ch : Choice} (h : c.allowed? lab o ch = true) : c.Allowed lab o ch := by
  cases ch with
  | start hd q =>
    simp only [Conc.allowed?, Bool.and_eq_true] at h
    refine ⟨clear_of h.1, ?_⟩
    cases q with
    | reserve cid? src dst st en => simpa using h.2
    | terminate cid =>
      intro r hr
      have := h.2
      simp only [hr] at this
      simpa using this
    | _ => trivial
  | fire cid =>
    intro due act ref ht _
    simp only [Conc.allowed?, ht] at h
    exact clear_of h
  | restart => cases h
  | _ => trivial

theorem orderly_of {cfg : Cfg} : ∀ {s : List (Oracle × Choice)} {c : Conc} {lab : Nat → Str × Bool}, orderly? cfg c lab s = true → Orderly cfg c lab s
  | [], _, _, _ => trivial
  | _ :: _, _, _, h => by
    simp only [orderly?, Bool.and_eq_true] at h
    exact ⟨allowed_of h.1, orderly_of h.2⟩

/-! ### The calendar and the connections -/

/-- No labels yet. -/
def noLabels : Nat → Str × Bool := fun _ => ([], false)

theorem sys_init (cfg : Cfg) (ids : List Str) (clk : Time) : SysAt cfg noLabels { w := World.init ids clk } [] where
  glob := ⟨by simp [World.init], by simp [World.init], by simp, by simp⟩
  owned := by intro t ht; cases ht
  ids := by intro t ht; cases ht
  phase cid := Or.inl ⟨none, ⟨⟨fun r hr => by simp [slice, World.row?, World.init] at hr, fun _ => rfl, fun _ _ _ h => by simp [slice, World.init, dget] at h⟩,
    Or.inl ⟨rfl, rfl⟩⟩, fun t ht => by cases ht⟩

theorem Phase.cov {cfg : Cfg} {cid : Str} {s : Slice} {lab : Nat → Str × Bool} {ts : List Task} (h : Phase cfg cid s lab ts) : Cov cfg s := by
  rcases h with ⟨r0, h, _⟩ | ⟨t, _, _, h⟩
  · exact h.rest.cov
  · cases hs : t.susp with
    | waiting c k fin => rw [hs] at h; exact h.1
    | performed k r fin => rw [hs] at h; exact h.1

theorem row?_mem {w : World} (hn : (w.rows.map (·.cid)).Nodup) {r : Row} (hr : r ∈ w.rows) : w.row? r.cid = some r := by
  unfold World.row?
  generalize w.rows = rows at hn hr
  induction rows with
  | nil => cases hr
  | cons a rows ih =>
    simp only [List.map_cons, List.nodup_cons] at hn
    rw [List.find?_cons]
    rcases List.mem_cons.mp hr with rfl | hr
    · simp
    · have : ¬ a.cid = r.cid := by
        intro e
        exact hn.1 (e ▸ List.mem_map_of_mem hr)
      simp only [this, decide_false]
      exact ih hn.2 hr

theorem mem_own' {cid : Str} {tc : List (Str × Resv)} {e : Resv} (h : e ∈ own cid tc) : (cid, e) ∈ tc := by
  simp only [own, List.mem_map, List.mem_filter, decide_eq_true_eq] at h
  obtain ⟨⟨a, b⟩, ⟨h1, rfl⟩, rfl⟩ := h
  exact h1

/-- The tags sorted by connection. -/
theorem perm_rows {cfg : Cfg} : ∀ (rows : List Row) (tc : List (Str × Resv)), (rows.map (·.cid)).Nodup → (∀ r ∈ rows, (own r.cid tc).Perm (contrib cfg r)) →
    (∀ c, c ∉ rows.map (·.cid) → own c tc = []) → (tc.map (·.2)).Perm (rows.flatMap (contrib cfg))
  | [], tc, _, _, h => by
    cases tc with
    | nil => exact List.Perm.refl _
    | cons p tc =>
      have := h p.1 (by simp)
      simp [own] at this
  | r :: rows, tc, hn, h1, h2 => by
    simp only [List.map_cons, List.nodup_cons] at hn
    have split : ∀ l : List (Str × Resv), l.Perm ((l.filter fun p => p.1 = r.cid) ++ l.filter fun p => ¬ p.1 = r.cid) := by
      intro l
      induction l with
      | nil => exact List.Perm.refl _
      | cons p l ih =>
        by_cases hp : p.1 = r.cid
        · simp only [List.filter_cons, hp, decide_true, if_true, not_true_eq_false, decide_false, Bool.false_eq_true, if_false, List.cons_append]
          exact ih.cons p
        · simp only [List.filter_cons, hp, decide_false, Bool.false_eq_true, if_false, not_false_eq_true, decide_true, if_true]
          exact (ih.cons p).trans List.perm_middle.symm
    have hoth : ∀ c, c ≠ r.cid → own c (tc.filter fun p => ¬ p.1 = r.cid) = own c tc := by
      intro c hc
      unfold own
      rw [List.filter_filter]
      congr 1
      refine List.filter_congr fun p _ => ?_
      by_cases hp : p.1 = c
      · simp [hp, hc]
      · simp [hp]
    have ih := perm_rows rows (tc.filter fun p => ¬ p.1 = r.cid) hn.2
      (fun x hx => by
        rw [hoth x.cid (fun e => hn.1 (e ▸ List.mem_map_of_mem hx))]
        exact h1 x (by simp [hx]))
      (fun c hc => by
        by_cases e : c = r.cid
        · subst e
          unfold own
          rw [List.filter_filter]
          simp
        · rw [hoth c e]
          exact h2 c (by simp [e, hc]))
    have hr := h1 r (by simp)
    refine ((split tc).map (·.2)).trans ?_
    rw [List.map_append, List.flatMap_cons]
    exact List.Perm.append hr ih

theorem booked_contrib (cfg : Cfg) (w : World) : w.booked cfg = w.rows.flatMap (contrib cfg) := by
  unfold World.booked
  generalize w.rows = rows
  induction rows with
  | nil => rfl
  | cons a rows ih =>
    simp only [List.filter_cons, List.flatMap_cons, ← ih]
    cases h : a.holds <;> simp [contrib, h]

/-- C22, interleaved executions: in every orderly schedule, however requests, scheduled calls, database, device and parent operations
are interleaved and whatever of them fails, the calendar has exactly the entries of the stored connections that hold or own resources,
whenever no operation that changes bookings is under way. Orderly (`Conc.Allowed`): such an operation is started on a connection only
when no other operation on that connection is under way (provisioning, release and activation may overlap each other; operations on
different connections overlap freely); ids of new connections are not in use; a connection whose termination failed is not terminated
again. Missing: restarts. -/
theorem C22_interleaved_partial (cfg : Cfg) (ids : List Str) (clk : Time) (s : List (Oracle × Choice))
    (hs : Orderly cfg { w := World.init ids clk } noLabels s)
    (hq : ∀ t ∈ (Conc.run cfg { w := World.init ids clk } s).tasks, (labels cfg { w := World.init ids clk } noLabels s t.id).2 = false) :
    (Conc.run cfg { w := World.init ids clk } s).w.cal.Perm ((Conc.run cfg { w := World.init ids clk } s).w.booked cfg) := by
  obtain ⟨tc, h⟩ := sys_run s (sys_init cfg ids clk) hs
  have rest : ∀ cid, RestS cfg (slice cid (Conc.run cfg { w := World.init ids clk } s).w tc) := by
    intro cid
    obtain ⟨r0, h'⟩ := h.shared (cid := cid) fun t ht => hq t (List.mem_filter.mp ht).1
    exact h'.calm.rest
  refine h.glob.cal.trans ?_
  rw [booked_contrib]
  refine perm_rows _ _ h.glob.nodup (fun r hr => ((rest r.cid).row r (row?_mem h.glob.nodup hr)).2) fun c hc => (rest c).none ?_
  simp only [slice, World.row?, List.find?_eq_none, decide_eq_true_eq]
  intro x hx e
  exact hc (e ▸ List.mem_map_of_mem hx)

/-- C21, interleaved executions: in every orderly schedule, at every moment, two stored connections that hold or own resources never
share a resource at an instant from now on, also while operations on them are under way. Missing: restarts; see
`C22_interleaved_partial` for what orderly means; the time is before the year 9999. -/
theorem C21_connections_interleaved_partial (cfg : Cfg) (ids : List Str) (clk : Time) (s : List (Oracle × Choice))
    (hs : Orderly cfg { w := World.init ids clk } noLabels s) :
    let w := (Conc.run cfg { w := World.init ids clk } s).w
    w.clk < forever → ∀ a ∈ w.rows, ∀ b ∈ w.rows, a.cid ≠ b.cid → a.holds = true → b.holds = true →
      ∀ x ∈ a.books cfg, ∀ y ∈ b.books cfg, x.resv.resource = y.resv.resource →
        ∀ t, ¬ (x.resv.OccupiesAt w.clk t ∧ y.resv.OccupiesAt w.clk t) := by
  intro w hc a ha b hb hne hha hhb x hx y hy hres t ⟨h1, h2⟩
  obtain ⟨tc, h⟩ := sys_run s (sys_init cfg ids clk) hs
  have mem : ∀ r ∈ w.rows, r.holds = true → ∀ z ∈ r.books cfg, (r.cid, z.resv) ∈ tc := by
    intro r hr hh z hz
    refine mem_own' ((h.phase r.cid).cov r (row?_mem h.glob.nodup hr) z.resv ?_)
    simp only [contrib, hh, if_true]
    exact List.mem_map_of_mem hz
  exact h.glob.apart hc _ (mem a ha hha x hx) _ (mem b hb hhb y hy) hne ⟨hres, t, h1, h2⟩

namespace Ex

/-- Two reservations at the same time, both committed at the same time, then the first one provisioned after its start and released
while its activation is still under way. -/
def twoOrderly : List (Oracle × Choice) :=
  let r : Choice := .start hdr (.reserve none (stp 'a' 12 13) (stp 'b' 12 13) (some (sec 2000)) (some (sec 3000)))
  [(ids 'x', r), (ids 'y', r)] ++ go 0 ++ go 1 ++ go 2 ++ go 3 ++ go 2 ++ go 3 ++
  [(o0, .start hdr (.commit ['x'])), (o0, .start hdr (.commit ['y']))] ++ go 5 ++ go 4 ++ go 4 ++ go 5 ++ go 5 ++ go 4 ++
  [(o0, .wait 1200000000), (o0, .start hdr (.provision ['x']))] ++ go 8 ++ go 8 ++ go 8 ++
  [(o0, .start hdr (.release ['x']))] ++ go 10 ++ go 11

/-- It is orderly, an activation and a release are under way, both connections are committed, and four entries are in the calendar. -/
example : Orderly (cfg true) { w := w0 } noLabels twoOrderly ∧
    (Conc.run (cfg true) { w := w0 } twoOrderly).tasks.map (fun t => (t.id, labels (cfg true) { w := w0 } noLabels twoOrderly t.id)) =
      [(10, ['x'], false), (11, ['x'], false)] ∧
    (Conc.run (cfg true) { w := w0 } twoOrderly).w.rows.map (fun r => (r.cid, r.holds, r.allocated, r.st.p)) =
      [(['x'], true, true, .provisioned), (['y'], true, true, .released)] ∧
    (Conc.run (cfg true) { w := w0 } twoOrderly).w.cal.length = 4 ∧
    (Conc.run (cfg true) { w := w0 } twoOrderly).w.clk < forever :=
  ⟨orderly_of (by decide +kernel), by decide +kernel, by decide +kernel, by decide +kernel, by decide +kernel⟩

/-- A reservation whose commit arrives when its timeout is due. The commit reads the row before the timeout has changed it, and writes
it after the timeout has freed the resources. -/
def lateCommit : List (Oracle × Choice) :=
  let r : Choice := .start hdr (.reserve none (stp 'a' 12 12) (stp 'b' 12 12) (some (sec 2000)) (some (sec 3000)))
  [(ids 'x', r)] ++ go 0 ++ go 1 ++ go 1 ++
  [(o0, .wait 200000000), (o0, .start hdr (.commit ['x'])), (o0, .perform 2), (o0, .fire ['x'])] ++
  go 3 ++ [(o0, .resume 2)] ++ go 3 ++ [(o0, .perform 3)] ++ go 2 ++ [(o0, .resume 3)] ++ go 2

/-- After that somebody else reserves and commits the same. -/
def lateCommitTwice : List (Oracle × Choice) :=
  let r : Choice := .start hdr (.reserve none (stp 'a' 12 12) (stp 'b' 12 12) (some (sec 2000)) (some (sec 3000)))
  lateCommit ++ [(ids 'y', r)] ++ go 5 ++ go 6 ++ go 6 ++ [(o0, .start hdr (.commit ['y']))] ++ go 7 ++ go 7 ++ go 7

end Ex

/-- C22 fails when a commit and the reservation timeout of the same connection overlap (genericbackend.py:363-389, 600-648): each
works with a row object of its own, so the commit can still succeed, and is confirmed to the requester, after the timeout has removed
the entries from the calendar. -/
theorem C22_commit_race_fails : ∃ (cfg : Cfg) (clk : Time) (s : List (Oracle × Choice)) (row : Row),
    let c := Conc.run cfg { w := World.init [] clk } s
    (∀ x ∈ s, x.2 ≠ .restart) ∧ c.tasks = [] ∧ c.w.rows = [row] ∧ row.allocated = true ∧ row.holds = true ∧
    .reserveCommitConfirmed row.cid ∈ c.w.outbox ∧ c.w.cal = [] := by
  let row : Row := ⟨['x'], ['r'], Ex.sec 1000, ⟨.start, .released, .created⟩, false, true, ['a'], some (tVlan, 12), ['b'],
    some (tVlan, 12), some (Ex.sec 2000), some (Ex.sec 3000)⟩
  refine ⟨Ex.cfg true, Ex.sec 1000, Ex.lateCommit, row, ?_, ?_, by decide +kernel, rfl, rfl, by decide +kernel, by decide +kernel⟩
  · intro x hx
    have h := List.all_eq_true.mp (show Ex.lateCommit.all (fun y => match y.2 with | .restart => false | _ => true) = true by decide +kernel) x hx
    intro he
    rw [he] at h
    cases h
  · exact List.length_eq_zero_iff.mp (by decide +kernel)

/-- C21 fails after a commit that overlapped the reservation timeout of its connection (see `C22_commit_race_fails`): the next reservation of the same resources at the same time is accepted and committed as well. -/
theorem C21_commit_race_fails : ∃ (cfg : Cfg) (clk : Time) (s : List (Oracle × Choice)),
    let c := Conc.run cfg { w := World.init [] clk } s
    c.tasks = [] ∧ ∃ a ∈ c.w.rows, ∃ b ∈ c.w.rows, a.cid ≠ b.cid ∧ a.holds = true ∧ b.holds = true ∧ a.allocated = true ∧ b.allocated = true ∧
      ∃ x ∈ a.books cfg, ∃ y ∈ b.books cfg, x.Clash y := by
  let row (c : Char) (t : Int) : Row := ⟨[c], ['r'], Ex.sec t, ⟨.start, .released, .created⟩, false, true, ['a'], some (tVlan, 12), ['b'],
    some (tVlan, 12), some (Ex.sec 2000), some (Ex.sec 3000)⟩
  refine ⟨Ex.cfg true, Ex.sec 1000, Ex.lateCommitTwice, List.length_eq_zero_iff.mp (by decide +kernel), row 'x' 1000, by decide +kernel,
    row 'y' 1200, by decide +kernel, by decide +kernel, rfl, rfl, rfl, rfl, _, List.mem_cons_self, _, List.mem_cons_self, rfl, Ex.sec 2500, ?_, ?_⟩ <;>
  · refine ⟨by decide +kernel, ?_⟩
    intro e he
    simp only [row, Option.some.injEq] at he
    subst he
    decide +kernel

end OpenNSA.Backend
