import Verif.Backend.PropsLife
/-
Operations that follow each other do not bring back a released connection (C27).
-/
namespace OpenNSA.Backend
open OpenNSA Py Prog

/-- Worlds reachable from `w` by further completed events without the incidents of `CleanStep` and without requests to provision `cid`; its
start time is not within a restart. -/
inductive HistBut (cfg : Cfg) (cid : Str) (w : World) : World → Prop
  | refl : HistBut cfg cid w w
  | step {w' : World} (o : Oracle) (e : Ev) : HistBut cfg cid w w' → (∀ hd, e ≠ .req hd (.provision cid)) →
      (e = .restart → ∀ x ∈ w'.rows, x.cid = cid → ∀ t, x.start = some t → t < w'.clk ∨ (Backend.step cfg w' o e).1.clk < t) →
      CleanStep e (Backend.step cfg w' o e).1 (Backend.step cfg w' o e).2 → HistBut cfg cid w (Backend.step cfg w' o e).1

theorem HistBut.hist {cfg : Cfg} {cid : Str} {w w' : World} (h : HistBut cfg cid w w') : Hist cfg w w' := by
  induction h with
  | refl => exact .refl
  | step o e _ _ _ hc ih => exact .step o e ih hc

/-- Released, or over. -/
def Off (x : Row) : Prop := x.st.p = .released ∨ x.st.l ≠ .created

/-- A restart. -/
theorem off_restarted {w w' : World} (hp : Restarted w w') (hn : (w.rows.map (·.cid)).Nodup) {x : Row} (hx : x ∈ w.rows) (hoff : Off x)
    (hr : ∀ t, x.start = some t → t < w.clk ∨ w'.clk < t) : ∃ y ∈ w'.rows, y.cid = x.cid ∧ Off y := by
  obtain ⟨y, hy, hev⟩ := hp.ev x hx
  refine ⟨y, hy, hev.same.1, ?_⟩
  by_cases hl : y.st.l = .created
  · have hlx : x.st.l = .created := by
      by_cases hlx : x.st.l = .created
      · exact hlx
      · exact absurd hl (hev.left hlx)
    have hrl := hoff.resolve_right (fun a => a hlx)
    rcases hp.resumed y hy with ⟨_, h1⟩ | ⟨x0, hx0, hc0, _, h1⟩
    · exact Or.inl (((h1 x hx hev.same.1.symm).2 hl).1.trans hrl)
    · have := eq_of_cid hn hx0 hx (hc0.trans hev.same.1)
      subst this
      rcases h1 with (h1 | h1) | ⟨now, h1, h2, h3⟩
      · rw [hrl] at h1; cases h1
      · rw [hrl] at h1; cases h1
      · rcases hr now h3 with h4 | h4 <;> omega
  · exact Or.inr hl

/-- One event. -/
theorem off_step {cfg : Cfg} {w : World} (h : Reach cfg w) (o : Oracle) (e : Ev)
    (hc : CleanStep e (Backend.step cfg w o e).1 (Backend.step cfg w o e).2) {x : Row} (hx : x ∈ w.rows) (hoff : Off x)
    (hp : ∀ hd, e ≠ .req hd (.provision x.cid)) (hr : e = .restart → ∀ t, x.start = some t → t < w.clk ∨ (Backend.step cfg w o e).1.clk < t) :
    ∃ y ∈ (Backend.step cfg w o e).1.rows, y.cid = x.cid ∧ Off y := by
  have hpost := h.post o e hc
  have h' := h.hist (.step o e .refl hc)
  have hn := h.inv.nodup
  revert hpost h' hr
  generalize Backend.step cfg w o e = res
  obtain ⟨w', r⟩ := res
  simp only
  intro hr hpost h'
  have touch : ∀ {cid : Str} {ref : Nat} {w1 : World} {row0 : Row} {s' : S}, w1.rows = w.rows → row0 ∈ w.rows → row0.cid = cid →
      Rel w1 cid ref w' s' → Evolves row0 s'.row →
      (x = row0 → x.st.l = .created → x.st.p = .released → s'.row ∈ w'.rows → Off s'.row) → ∃ y ∈ w'.rows, y.cid = x.cid ∧ Off y := by
    intro cid ref w1 row0 s' hw1 hr0 hc0 hrel hev hk
    have hm : ∀ z, z ∈ w'.rows ↔ z = s'.row ∨ (z ∈ w.rows ∧ z.cid ≠ row0.cid) := by
      intro z
      rw [hrel.rows, hw1]
      exact mem_setRow hn hr0 (hrel.rcid.trans hc0.symm) z
    by_cases hxc : x.cid = row0.cid
    · have hxe := eq_of_cid hn hx hr0 hxc
      have hin := (hm s'.row).mpr (Or.inl rfl)
      refine ⟨s'.row, hin, by rw [hxc, hc0]; exact hrel.rcid, ?_⟩
      by_cases hl : x.st.l = .created
      · exact hk hxe hl (hoff.resolve_right (fun a => a hl)) hin
      · exact Or.inr (hev.left (by rw [← hxe]; exact hl))
    · exact ⟨x, (hm x).mpr (Or.inr ⟨hx, hxc⟩), rfl, hoff⟩
  have conn : ∀ {cid : Str} {r' : Except Err Unit} {P : Row → S → S → Except Err Unit → Prop}, ConnPost cid (w.with o) w' r' P →
      (∀ s s', s.row = x → x.cid = cid → x.st.l = .created → x.st.p = .released → P x s s' r' → s'.row ∈ w'.rows → Off s'.row) →
      ∃ y ∈ w'.rows, y.cid = x.cid ∧ Off y := by
    intro cid r' P hcp hk
    rcases hcp with ⟨_, _, t, o2, _, rfl⟩ | ⟨row0, hr0, hc0, t, o2, s', _, _, hrel, hP, hev, _⟩
    · exact ⟨x, hx, rfl, hoff⟩
    · refine touch (w1 := (w.with o).looked row0 t o2) rfl hr0 hc0 hrel hev fun hxe hl hrl hin => ?_
      subst hxe
      exact hk _ s' rfl hc0 hl hrl hP hin
  have free : ∀ {y : Row}, y ∈ w'.rows → y.allocated = false → Off y := by
    intro y hy ha
    by_cases hq : y.st.p = .released
    · exact Or.inl hq
    · have := (h'.inv.conn y hy).row.pv hq
      rw [ha] at this; cases this
  cases e with
  | req hd q =>
    cases q with
    | reserve cid? src dst st en =>
      rcases hpost with ⟨_, _, h1, _⟩ | ⟨cid, row, _, ha⟩
      · exact ⟨x, by rw [h1]; exact hx, rfl, hoff⟩
      · exact ⟨x, by rw [ha.rows]; exact List.mem_append_left _ hx, rfl, hoff⟩
    | commit cid =>
      obtain ⟨r', _, h1⟩ := hpost
      refine conn h1 fun s s' hs _ _ hrl hP _ => ?_
      rcases hP with ⟨h2, _⟩ | ⟨_, _, h2, _⟩
      · rw [h2, hs]; exact hoff
      · rw [h2]; exact Or.inl hrl
    | abort cid =>
      obtain ⟨r', _, h1⟩ := hpost
      refine conn h1 fun s s' hs _ _ hrl hP hin => ?_
      rcases hP with ⟨h2, _⟩ | ⟨_, _, _, h2, _⟩ | ⟨_, _, _, _, h2, _⟩
      · rw [h2, hs]; exact hoff
      · rw [h2]; exact hoff
      · exact free hin h2
    | provision cid =>
      obtain ⟨r', _, h1⟩ := hpost
      refine conn h1 fun s s' _ hxc _ _ _ _ => ?_
      subst hxc
      exact absurd rfl (hp hd)
    | release cid =>
      obtain ⟨r', _, h1⟩ := hpost
      refine conn h1 fun s s' hs _ _ hrl hP _ => ?_
      rcases hP with ⟨h2, _⟩ | ⟨_, h2 | h2, _⟩
      · rw [h2, hs]; exact hoff
      · rw [hrl] at h2; cases h2
      · rw [hrl] at h2; cases h2
    | terminate cid =>
      obtain ⟨r', _, h1⟩ := hpost
      refine conn h1 fun s s' hs _ _ _ hP _ => ?_
      rcases hP with ⟨h2, _⟩ | ⟨_, _, h2, _⟩
      · rw [h2, hs]; exact hoff
      · rw [h2]; exact Or.inr (by simp [Row.withL, Row.withA])
  | fire cid =>
    rcases hpost with ⟨_, e⟩ | ⟨tm, r', _, _, _, _, row0, hr0, hc0, s', hrel, hF, _, hT, hev, _⟩
    · subst e; exact ⟨x, hx, rfl, hoff⟩
    · refine touch (w1 := w.with o) rfl hr0 hc0 hrel hev fun hxe hl hrl hin => ?_
      subst hxe
      unfold FirePost at hF
      unfold TimerOk at hT
      cases ha : tm.act with
      | reserveTimeout => rw [ha] at hF; exact free hin hF.2.2.1
      | endtime => rw [ha] at hF; exact Or.inr (by rw [(hF hl).2.1]; simp)
      | activate => rw [ha] at hT; rw [hrl] at hT; exact absurd hT.2.1 (by simp)
  | wait us => obtain ⟨_, e⟩ := hpost; subst e; exact ⟨x, hx, rfl, hoff⟩
  | restart =>
    exact off_restarted hpost hn hx hoff (hr rfl)

/-- C27, operations that follow each other: a connection that is released, or over, stays so until somebody asks to provision it:
whatever else is asked and whichever calls run, it is not active, and its link is down unless a failed teardown or activation was
reported. The process may be restarted. Missing: start times within a restart (cf. `C26_start_now_fails`); operations that overlap, for which the property is violated (`C27_release_fails`, `C27_terminate_fails`). -/
theorem C27_stays_partial (cfg : Cfg) (w : World) (h : Reach cfg w) (x : Row) (hx : x ∈ w.rows) (hp : x.st.p = .released ∨ x.st.l ≠ .created)
    (w2 : World) (hs : HistBut cfg x.cid w w2) :
    ∃ y ∈ w2.rows, y.cid = x.cid ∧ (y.st.p = .released ∨ y.st.l ≠ .created) ∧ y.active = false ∧ (w2.up x.cid → Reported w2.outbox x.cid) := by
  have key : ∃ y ∈ w2.rows, y.cid = x.cid ∧ Off y := by
    induction hs with
    | refl => exact ⟨x, hx, rfl, hp⟩
    | step o e hk h1 h2 hc ih =>
      obtain ⟨y, hy, hyc, hyo⟩ := ih
      obtain ⟨z, hz, hzc, hzo⟩ := off_step (h.hist hk.hist) o e hc hy hyo (by rw [hyc]; exact h1) fun he => h2 he y hy hyc
      exact ⟨z, hz, hzc.trans hyc, hzo⟩
  obtain ⟨y, hy, hyc, hyo⟩ := key
  have hcon := (h.hist hs.hist).inv.conn y hy
  have hya : y.active = false := by
    cases ha : y.active with
    | false => rfl
    | true =>
      obtain ⟨h1, h2, _⟩ := hcon.row.act ha
      rcases hyo with h3 | h3
      · rw [h2] at h3; cases h3
      · exact absurd h1 h3
  refine ⟨y, hy, hyc, hyo, hya, fun hu => ?_⟩
  rcases hcon.link.2 (decide_eq_true (by rw [hyc]; exact hu)) with b | b
  · rw [hya] at b; cases b
  · rw [← hyc]; exact b

/-- A connection that was active is released; time passes, the call that is due runs, the process is restarted. -/
example : let w := runAll (Ex.cfg true) Ex.w0 (Ex.h3 ++ [(Ex.o0, Ex.req (.release ['x']))])
    ∃ w2, Reach (Ex.cfg true) w ∧ HistBut (Ex.cfg true) ['x'] w w2 ∧ w.rows.map (fun r => (r.cid, r.st.p)) = [(['x'], .released), (['y'], .released)] ∧
      w2.clk = w.clk + 500000000 ∧ w2.rows.map (fun r => (r.cid, r.st.p)) = [(['x'], .released), (['y'], .released)] := by
  refine ⟨_, Ex.reach_runAll (by decide +kernel), .step {} .restart (.step {} (.fire ['x']) (.step {} (.wait 500000000) .refl (fun _ e => by cases e) (fun e => by cases e) trivial)
    (fun _ e => by cases e) (fun e => by cases e) trivial) (fun _ e => by cases e) (fun _ x hx hxc t ht => Or.inl ?_) ⟨none, by decide +kernel⟩,
    by decide +kernel, by decide +kernel, by decide +kernel⟩
  exact of_decide_eq_true (List.all_eq_true.mp (by decide +kernel : (step (Ex.cfg true) (step (Ex.cfg true) (runAll (Ex.cfg true) Ex.w0
    (Ex.h3 ++ [(Ex.o0, Ex.req (.release ['x']))])) {} (.wait 500000000)).1 {} (.fire ['x'])).1.rows.all (fun x => decide (∀ t ∈ x.start, t <
      (step (Ex.cfg true) (step (Ex.cfg true) (runAll (Ex.cfg true) Ex.w0 (Ex.h3 ++ [(Ex.o0, Ex.req (.release ['x']))])) {} (.wait 500000000)).1 {} (.fire ['x'])).1.clk)) = true)
    x hx) t ht

end OpenNSA.Backend
