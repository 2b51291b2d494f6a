import Verif.Backend.UpRun
import Verif.Backend.Query
import Verif.Backend.PropsRows
/-
What the backend says about data planes, and its answers to queries (C99), in all interleaved executions.
-/
namespace OpenNSA.Backend
open OpenNSA Py Prog

/-- The link of the connection was up at some moment of the execution. -/
def EverUp (cfg : Cfg) (ids : List Str) (clk : Time) (s : List (Oracle × Choice)) (cid : Str) : Prop :=
  ∃ s1 s2, s = s1 ++ s2 ∧ cid ∈ (Conc.run cfg { w := World.init ids clk } s1).w.links

/-- The link of the connection was up at some moment of the execution, and not up at a later one. -/
def WentDown (cfg : Cfg) (ids : List Str) (clk : Time) (s : List (Oracle × Choice)) (cid : Str) : Prop :=
  ∃ s1 s2 s3, s = s1 ++ s2 ++ s3 ∧ cid ∈ (Conc.run cfg { w := World.init ids clk } s1).w.links ∧
    cid ∉ (Conc.run cfg { w := World.init ids clk } (s1 ++ s2)).w.links

theorem ups_run {U : Facts} {cfg : Cfg} {s : List (Oracle × Choice)} : ∀ {c : Conc}, Ups U c →
    (∀ s1 s2, s = s1 ++ s2 → ∀ cid ∈ (Conc.run cfg c s1).w.links, U.up cid) →
    (∀ s1 o ch s2, s = s1 ++ (o, ch) :: s2 → (Conc.run cfg c s1).downs U o ch) → Ups U (Conc.run cfg c s) := by
  induction s with
  | nil => exact fun h _ _ => h
  | cons x s ih =>
    intro c h hl hd
    obtain ⟨o, ch⟩ := x
    refine ih (h.step o ch (hl [(o, ch)] s rfl) (hd [] o ch s rfl)) (fun s1 s2 hs => ?_) fun s1 o' ch' s2 hs => ?_
    · exact hl ((o, ch) :: s1) s2 (by rw [hs]; rfl)
    · exact hd ((o, ch) :: s1) o' ch' s2 (by rw [hs]; rfl)

/-- A teardown that succeeds leaves the link down. -/
theorem teardown_links {w : World} {cid : Str} (h : isOk (exec w (.teardown cid)).2 = true) : cid ∉ (exec w (.teardown cid)).1.links := by
  revert h
  simp only [exec, execAt]
  generalize w.advance.dev = d
  obtain ⟨d, w2⟩ := d
  cases d with
  | ok => simp
  | failed b => intro h; cases h

/-- What an execution establishes. -/
def facts (cfg : Cfg) (ids : List Str) (clk : Time) (s : List (Oracle × Choice)) : Facts := ⟨EverUp cfg ids clk s, WentDown cfg ids clk s⟩

theorem ups_init (cfg : Cfg) (ids : List Str) (clk : Time) : ∀ (n : Nat) (s : List (Oracle × Choice)), s.length ≤ n →
    Ups (facts cfg ids clk s) (Conc.run cfg { w := World.init ids clk } s) := by
  intro n
  induction n with
  | zero =>
    intro s hs
    obtain rfl : s = [] := List.length_eq_zero_iff.mp (by omega)
    refine ⟨⟨?_, ?_, ?_, ?_⟩, ?_⟩ <;> intro _ h <;> cases h
  | succ n ih =>
    intro s hn
    refine ups_run ⟨⟨?_, ?_, ?_, ?_⟩, ?_⟩ (fun s1 s2 hs cid hc => ⟨s1, s2, hs, hc⟩) fun s1 o ch s2 hs => ?_
    · intro _ h; cases h
    · intro _ h; cases h
    · intro _ h; cases h
    · intro _ h; cases h
    · intro _ h; cases h
    have h1 := ih s1 (by rw [hs] at hn; simp at hn; omega)
    cases ch with
    | perform k =>
      simp only [Conc.downs]
      split
      · rename_i x c fin ts ht
        have hm := h1.tasks _ (takeTask_of ht).1
        obtain ⟨_, F, _, hx⟩ := hm
        cases x with
        | teardown cid =>
          intro hok
          obtain ⟨a, b, hab, hup⟩ := hx.1
          refine ⟨a, b ++ [(o, .perform k)], s2, ?_, hup, ?_⟩
          · rw [hs, hab]; simp
          · have e : a ++ (b ++ [(o, Choice.perform k)]) = s1 ++ [(o, .perform k)] := by rw [hab]; simp
            rw [e, Conc.run_append]
            simp only [Conc.run, Conc.step]
            rw [ht]
            exact teardown_links hok
        | _ => trivial
      · trivial
    | _ => trivial

/-- C99: in every execution, however requests, scheduled calls, database, device and parent operations are interleaved, cancelled,
fail, or are cut short by restarts: a data plane is reported as active only for a connection whose link was set up on the device
before, and as inactive only if its link was up and then no more. That a deactivation failed is only reported if the link was up. -/
theorem C99_reported (cfg : Cfg) (ids : List Str) (clk : Time) (s : List (Oracle × Choice)) (cid : Str) (n : Nat) :
    let sent := (Conc.run cfg { w := World.init ids clk } s).w.outbox
    (.dataPlane cid n true ∈ sent → EverUp cfg ids clk s cid) ∧ (.dataPlane cid n false ∈ sent → WentDown cfg ids clk s cid) ∧
      (.deactivateFailed cid n ∈ sent → EverUp cfg ids clk s cid) := by
  have h := (ups_init cfg ids clk _ s (Nat.le_refl _)).w.out
  exact ⟨fun hm => by simpa [Msg.truthful, facts] using h _ hm, fun hm => by simpa [Msg.truthful, facts] using h _ hm, fun hm => h _ hm⟩

/-- C99: what is stored as active is a connection whose link was set up on the device before. -/
theorem C99_recorded (cfg : Cfg) (ids : List Str) (clk : Time) (s : List (Oracle × Choice)) :
    ∀ r ∈ (Conc.run cfg { w := World.init ids clk } s).w.rows, r.active = true → EverUp cfg ids clk s r.cid :=
  (ups_init cfg ids clk _ s (Nat.le_refl _)).w.rows

/-- C99: at any moment of any execution, a query for connection ids is answered with exactly those connections among them that the
same requester reserved, each once, as they are stored: made for a reservation request of this requester with these ends and times;
provisioned only after requests to commit and provision it, and with an active data plane only if its link was set up. -/
theorem C99_query (cfg : Cfg) (ids : List Str) (clk : Time) (s : List (Oracle × Choice)) (ht : TextSchedule cfg s) (requester : Str) (cids gids : List Str)
    (hc : cids ≠ []) :
    let w := (Conc.run cfg { w := World.init ids clk } s).w
    ∃ es, (w.query requester cids gids).2 = .ok es ∧
      (∀ e ∈ es, e.cid ∈ cids ∧ e.requester = requester ∧ (e.active = true → EverUp cfg ids clk s e.cid) ∧
        ∃ r ∈ w.rows, e.shows r ∧ (∃ corr, Reserved cfg s corr r) ∧ (e.st.p = .provisioned → Requested cfg s .commit r ∧ Requested cfg s .provision r)) ∧
      (∀ r ∈ w.rows, r.requester = requester → r.cid ∈ cids → ∃ e ∈ es, e.shows r) ∧ (es.map (·.cid)).Nodup := by
  intro w
  refine ⟨queryEntries w.notif (w.rows.filter fun r => decide (r.requester = requester) && decide (r.cid ∈ cids)), by rw [World.query, if_pos hc], ?_, ?_, ?_⟩
  · intro e he
    obtain ⟨r, h1, h2⟩ := queryEntries_mem he
    obtain ⟨hr, hq⟩ := List.mem_filter.mp h1
    simp only [Bool.and_eq_true, decide_eq_true_eq] at hq
    obtain ⟨c1, c2, _, _, _, _, _, _, c3, c4⟩ := id h2
    refine ⟨c1 ▸ hq.2, c2.trans hq.1, fun ha => ?_, r, hr, h2, C74_origin cfg ids clk s ht r hr, fun hp => ?_⟩
    · rw [c1]; exact C99_recorded cfg ids clk s r hr (c4 ▸ ha)
    · exact (C74_states cfg ids clk s ht r hr).2 (.inr (c3 ▸ hp))
  · intro r hr h1 h2
    exact mem_queryEntries (List.mem_filter.mpr ⟨hr, by simp [h1, h2]⟩)
  · rw [queryEntries_cids]
    exact (C74_unique cfg ids clk s ht).sublist (List.filter_sublist.map _)

/-- C99: a query changes nothing but the notification counter; without any id it is rejected. -/
theorem C99_query_only (w : World) (requester : Str) (cids gids : List Str) :
    (∃ n, (w.query requester cids gids).1 = { w with notif := n }) ∧ (w.query requester [] []).2 = .error .missingParameter := by
  refine ⟨?_, rfl⟩
  unfold World.query
  split
  · exact ⟨_, rfl⟩
  · split <;> exact ⟨w.notif, rfl⟩

namespace Ex

/-- `upTo`, then the connection is released, and the device refuses to take the link down. -/
def refused : List (Oracle × Choice) := upTo ++ [(o0, .start hdr (.release ['x']))] ++ (goes 8).map fun x => ({ devs := [.failed false] }, x.2)

/-- The execution of PropsRows.lean, where reservation, restart and activation follow each other: an active data plane is reported and
stored, the link is up, and the requester is shown the connection; another requester, or one asking for another id, is not. -/
example : let w := (Conc.run (cfg true) { w := World.init [] (sec 1000) } upTo).w
    .dataPlane ['x'] 0 true ∈ w.outbox ∧ ['x'] ∈ w.links ∧
    (w.query ['r'] [['x'], ['y']] []).2 = .ok [⟨['x'], ['r'], ['a'], some (tVlan, 12), ['b'], some (tVlan, 12), some (sec 2000), some (sec 3000),
      ⟨.start, .provisioned, .created⟩, true, 1⟩] ∧
    (w.query ['q'] [['x'], ['y']] []).2 = .ok [] ∧ (w.query ['r'] [['y']] []).2 = .ok [] := by
  refine ⟨by decide +kernel, by decide +kernel, by decide +kernel, by decide +kernel, by decide +kernel⟩

/-- `upTo`, then the connection is released: the data plane is reported as inactive. -/
example : .dataPlane ['x'] 1 false ∈
    (Conc.run (cfg true) { w := World.init [] (sec 1000) } (upTo ++ [(o0, .start hdr (.release ['x']))] ++ goes 8)).w.outbox := by decide +kernel

end Ex

/-- C99 fails for connections that could not be taken down: when the device refuses to take the link down on a release, the data plane
is stored as inactive all the same (genericbackend.py:713-714), the release is confirmed, and queries show the connection as inactive
although its link is up and nothing is under way any more. -/
theorem C99_refused_fails : ∃ (cfg : Cfg) (clk : Time) (s : List (Oracle × Choice)) (requester cid : Str) (e : QueryEntry),
    let c := Conc.run cfg { w := World.init [] clk } s
    c.tasks = [] ∧ .releaseConfirmed cid ∈ c.w.outbox ∧ (c.w.query requester [cid] []).2 = .ok [e] ∧ e.cid = cid ∧ e.active = false ∧ cid ∈ c.w.links :=
  ⟨Ex.cfg true, Ex.sec 1000, Ex.refused, ['r'], ['x'], ⟨['x'], ['r'], ['a'], some (tVlan, 12), ['b'], some (tVlan, 12), some (Ex.sec 2000),
    some (Ex.sec 3000), ⟨.start, .released, .created⟩, false, 2⟩, List.isEmpty_iff.mp (by decide +kernel), by decide +kernel, by decide +kernel, rfl, rfl, by decide +kernel⟩

/-- C99 fails for the notification ids in answers to queries: instead of that of the last notification about the connection, an answer
has a new number from the counter of notifications (genericbackend.py:553), which is the id of no notification sent so far. -/
theorem C99_notification_fails : ∃ (cfg : Cfg) (clk : Time) (s : List (Oracle × Choice)) (requester cid : Str) (e : QueryEntry),
    let w := (Conc.run cfg { w := World.init [] clk } s).w
    (w.query requester [cid] []).2 = .ok [e] ∧ noteIds w.outbox = [0] ∧ e.notif ∉ noteIds w.outbox :=
  ⟨Ex.cfg true, Ex.sec 1000, Ex.upTo, ['r'], ['x'], ⟨['x'], ['r'], ['a'], some (tVlan, 12), ['b'], some (tVlan, 12), some (Ex.sec 2000),
    some (Ex.sec 3000), ⟨.start, .provisioned, .created⟩, true, 1⟩, by decide +kernel, by decide +kernel, by decide +kernel⟩

/-- C99 fails for queries by global reservation id: they are never answered, because the statement names a column that the table does
not have (genericbackend.py:542, datafiles/schema.sql:82). -/
theorem C99_global_fails (w : World) (requester : Str) (g : Str) (gids : List Str) : (w.query requester [] (g :: gids)).2 = .error .db := rfl

end OpenNSA.Backend
