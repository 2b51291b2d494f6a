import Verif.Backend.PropsApart
import Verif.Backend.PropsStays
/-
Interleaved operations that do not overlap on the same connection do not bring back a released connection (C27).
-/
namespace OpenNSA.Backend
open OpenNSA Py Prog

/-- What further executions lead to (`Leads`) in which nobody asks to provision `cid`; its start time is not within a restart. -/
inductive LeadsBut (cfg : Cfg) (cid : Str) (c : Conc) (L : Nat → Job) : Conc → (Nat → Job) → Prop
  | refl : LeadsBut cfg cid c L c L
  | step {c1 : Conc} {L1 : Nat → Job} (o : Oracle) (ch : Choice) : LeadsBut cfg cid c L c1 L1 → OneByOne false cfg c1 L1 [(o, ch)] →
      (∀ k, c1.job L1 o ch = some k → k.cid = cid → k.kind ≠ .provision) →
      LeadsBut cfg cid c L (c1.step cfg o ch) (jobs cfg c1 L1 [(o, ch)])
  | boot {c1 c2 : Conc} {L1 : Nat → Job} : LeadsBut cfg cid c L c1 L1 → Boots cfg c1 c2 → Fits false c1 c2 →
      (∀ x ∈ c1.w.rows, x.cid = cid → ∀ t, x.start = some t → t < c1.w.clk ∨ c2.w.clk < t) → LeadsBut cfg cid c L c2 L1

/-- The row of one connection is released, or over. -/
def OffAt (cid : Str) : Str → Option (Row × Option Timer) → Prop := fun b o => b = cid → ∃ r tm, o = some (r, tm) ∧ Off r

theorem lasts_off (cid : Str) : LastsOn (fun b k => b = cid → k ≠ .provision) (OffAt cid) where
  ev x s tm a hK hk hrow hev ht hE h e := by
    obtain ⟨r, tm2, h1, hoff⟩ := h e
    cases h1
    obtain ⟨t, hrow⟩ := hrow
    refine ⟨s.row, s.tm, rfl, ?_⟩
    by_cases hl : x.s0.row.st.l = .created
    · have hrl := hoff.resolve_right (fun a => a hl)
      have free : s.row.allocated = false → Off s.row := by
        intro ha
        by_cases hq : s.row.st.p = .released
        · exact Or.inl hq
        · have := hrow.pv hq
          rw [ha] at this; cases this
      have same : s.row = x.s0.row → Off s.row := fun h => by rw [h]; exact hoff
      unfold Effect at hE
      cases hkk : x.kind with
      | reserve => exact absurd hkk hk
      | provision => exact absurd hkk (hK e)
      | commit =>
        rw [hkk] at hE
        rcases hE with ⟨h2, _⟩ | ⟨_, _, h2⟩
        · exact same h2
        · rw [h2]; exact Or.inl hrl
      | abort =>
        rw [hkk] at hE
        rcases hE with ⟨h2, _⟩ | ⟨_, _, h2 | h2⟩
        · exact same h2
        · exact same h2
        · exact free h2
      | release =>
        rw [hkk] at hE
        obtain ⟨_, _, ⟨h2, _⟩ | ⟨_, _, h2 | h2, _⟩⟩ := hE
        · exact same h2
        · rw [hrl] at h2; cases h2
        · rw [hrl] at h2; cases h2
      | terminate =>
        rw [hkk] at hE
        obtain ⟨_, _, ⟨h2, _⟩ | ⟨_, _, h2, _⟩⟩ := hE
        · exact same h2
        · rw [h2]; exact Or.inr (by simp [Row.withL, Row.withA])
      | timeout => rw [hkk] at hE; exact free hE.2.1
      | endtime => rw [hkk] at hE; exact Or.inr (by rw [(hE hl).1]; simp)
      | activate =>
        rw [hkk] at hE
        obtain ⟨b, h2, _⟩ := hE
        rw [h2]
        exact Or.inl hrl
    · exact Or.inr (hev.left hl)
  new b r h e := by
    obtain ⟨_, _, h1, _⟩ := h e
    cases h1

theorem apart_off {cfg : Cfg} {cid : Str} {c c2 : Conc} {L L2 : Nat → Job} {tc : List (Str × Resv)} (h : Apart false cfg (OffAt cid) L c tc)
    (hs : LeadsBut cfg cid c L c2 L2) : ∃ tc', Apart false cfg (OffAt cid) L2 c2 tc' := by
  induction hs with
  | refl => exact ⟨tc, h⟩
  | @step c1 L1 o ch _ h1 hK ih =>
    obtain ⟨tc1, ha⟩ := ih
    obtain ⟨tc2, ha2, _⟩ := apart_step_on (lasts_off cid) ha (fun k hk e => hK k hk e) h1.1 h1.2.1
    exact ⟨tc2, ha2⟩
  | @boot c1 c2 L1 _ hb hf hr ih =>
    obtain ⟨tc1, ha⟩ := ih
    have idle : ∀ {c : Conc} {b : Str}, c.tasks = [] → c.Idle L1 b := fun h t ht => by rw [h] at ht; cases ht
    have hi := ha.inv hb.idle
    obtain ⟨hi', hre⟩ := hb.restarted hi
    obtain ⟨_, hoff⟩ := ha.rest (cid := cid) (idle hb.idle)
    obtain ⟨r, tm, h1, hro⟩ := hoff rfl
    have ha0 : Apart false cfg (fun _ _ => True) L1 c1 tc1 := by
      exact (ha.swap (P' := fun _ _ => True) (cid := cid) (idle hb.idle) trivial fun _ _ _ => trivial)
    refine ⟨_, (apart_boot (P := fun _ _ => True) (fun _ _ _ _ _ _ _ _ => trivial) ha0 hb hf L1).swap (idle hb.over) (fun _ => ?_) fun b _ hb e => absurd e hb⟩
    cases hrow : c1.w.row? cid with
    | none => rw [World.seen_none hrow] at h1; cases h1
    | some r' =>
      rw [World.seen_some hrow] at h1
      cases h1
      obtain ⟨hm, hc⟩ := mem_of_row? hrow
      obtain ⟨y, hy, hyc, hyo⟩ := off_restarted hre hi.nodup hm hro (hr r hm hc)
      have := row?_mem hi'.nodup hy
      rw [hyc, hc] at this
      exact ⟨y, _, World.seen_some this, hyo⟩

/-- C27, interleaved executions: a connection that is released, or over, stays so until somebody asks to provision it: whatever else is
asked, whichever calls run and whatever operations on other connections these are interleaved with, whenever no operation on it is under
way it is not active, and its link is down unless a failed teardown or activation was reported. The process may be restarted when no
operation is under way. Missing: start times within a restart (cf. `C26_start_now_fails`); operations on the connection that overlap, for
which the property is violated (`C27_release_fails`, `C27_terminate_fails`). -/
theorem C27_stays_interleaved_partial (cfg : Cfg) (c : Conc) (L : Nat → Job) (h : Comes false cfg c L) (x : Row) (hx : x ∈ c.w.rows)
    (hi : c.Idle L x.cid) (hp : x.st.p = .released ∨ x.st.l ≠ .created) (c2 : Conc) (L2 : Nat → Job) (hs : LeadsBut cfg x.cid c L c2 L2)
    (hi2 : c2.Idle L2 x.cid) :
    ∃ y ∈ c2.w.rows, y.cid = x.cid ∧ (y.st.p = .released ∨ y.st.l ≠ .created) ∧ y.active = false ∧ (c2.w.up x.cid → Reported c2.w.outbox x.cid) := by
  obtain ⟨tc, ha⟩ := h.apart
  have ha1 : Apart false cfg (OffAt x.cid) L c tc :=
    ha.swap hi (fun _ => ⟨x, _, World.seen_some (row?_mem ha.nd hx), hp⟩) fun _ _ hb e => absurd e hb
  obtain ⟨tc2, ha2⟩ := apart_off ha1 hs
  obtain ⟨hrest, hoff⟩ := ha2.rest hi2
  obtain ⟨y, tm, h1, hyo⟩ := hoff rfl
  cases hrow : c2.w.row? x.cid with
  | none => rw [World.seen_none hrow] at h1; cases h1
  | some y' =>
    rw [World.seen_some hrow] at h1
    cases h1
    obtain ⟨hy, hyc⟩ := mem_of_row? hrow
    obtain ⟨hcon, _⟩ := hrest.here _ hrow
    have hya : y.active = false := by
      cases ha : y.active with
      | false => rfl
      | true =>
        obtain ⟨h1, h2, _⟩ := hcon.row.act ha
        rcases hyo with h3 | h3
        · rw [h2] at h3; cases h3
        · exact absurd h1 h3
    refine ⟨y, hy, hyc, hyo, hya, fun hu => ?_⟩
    rcases hcon.link.2 (decide_eq_true (by rw [hyc]; exact hu)) with b | b
    · rw [hya] at b; cases b
    · rw [← hyc]; exact b

/-- No step belongs to a request to provision `cid`. -/
def without? (cfg : Cfg) (cid : Str) : Conc → (Nat → Job) → List (Oracle × Choice) → Bool
  | _, _, [] => true
  | c, L, (o, ch) :: s => ((c.job L o ch).all fun k => decide (k.cid = cid → k.kind ≠ .provision)) &&
      without? cfg cid (c.step cfg o ch) (c.rejob L (c.job L o ch)) s

theorem leadsBut_of {cfg : Cfg} {cid : Str} {c : Conc} {L : Nat → Job} : ∀ (s : List (Oracle × Choice)) {c1 : Conc} {L1 : Nat → Job},
    LeadsBut cfg cid c L c1 L1 → oneByOne? cfg c1 L1 s = true → without? cfg cid c1 L1 s = true →
    LeadsBut cfg cid c L (c1.run cfg s) (jobs cfg c1 L1 s)
  | [], _, _, h, _, _ => h
  | (o, ch) :: s, c1, L1, h, h1, h2 => by
    simp only [oneByOne?, without?, Bool.and_eq_true] at h1 h2
    refine leadsBut_of s (.step o ch h ⟨may_of h1.1.1, fine_of h1.1.2, trivial⟩ fun k hk => ?_) h1.2 h2.2
    have := h2.1
    rw [hk] at this
    exact of_decide_eq_true this

/-- `y` is committed and released. It is terminated while `x` is provisioned, `z` is reserved; the process is restarted, `x` ends. -/
example : ∃ c2 L2, Comes false (Ex.cfg true) (Ex.when 28) (Ex.ops 28) ∧ (Ex.when 28).Idle (Ex.ops 28) ['y'] ∧
    ((Ex.when 28).w.rows.map fun r => (r.cid, r.st.p, r.st.l, r.allocated)) = [(['x'], .released, .created, true), (['y'], .released, .created, true)] ∧
    LeadsBut (Ex.cfg true) ['y'] (Ex.when 28) (Ex.ops 28) c2 L2 ∧ c2.Idle L2 ['y'] ∧
    (c2.w.rows.map fun r => (r.cid, r.st.p, r.st.l)) = [(['x'], .provisioned, .passedEnd), (['y'], .released, .terminated), (['z'], .released, .created)] := by
  refine ⟨Ex.up.run (Ex.cfg true) Ex.after, jobs (Ex.cfg true) Ex.up (Ex.ops 63) Ex.after, Ex.comes _ (by decide +kernel), idle_of.mp (by decide +kernel),
    by decide +kernel, leadsBut_of Ex.after (.boot (c1 := Ex.when 63) (L1 := Ex.ops 63) ?_ Ex.boots (fits_of (by decide +kernel)) ?_) (by decide +kernel) (by decide +kernel),
    idle_of.mp (by decide +kernel), by decide +kernel⟩
  · obtain ⟨h1, h2⟩ := Ex.run_app (Ex.cfg true) (Ex.apart.take 28) ((Ex.apart.drop 28).take 35) { w := Ex.w0 } noJobs
    have h3 : Ex.when 63 = (Ex.when 28).run (Ex.cfg true) ((Ex.apart.drop 28).take 35) := by rw [Ex.when, List.take_add (i := 28) (j := 35), h1]; rfl
    have h4 : Ex.ops 63 = jobs (Ex.cfg true) (Ex.when 28) (Ex.ops 28) ((Ex.apart.drop 28).take 35) := by rw [Ex.ops, List.take_add (i := 28) (j := 35), h2]; rfl
    rw [h3, h4]
    exact leadsBut_of _ .refl (by decide +kernel) (by decide +kernel)
  · intro x hx hc t ht
    have := List.all_eq_true.mp (by decide +kernel : ((Ex.when 63).w.rows.all fun x => decide (x.cid = ['y'] → ∀ t ∈ x.start, t < (Ex.when 63).w.clk)) = true) x hx
    exact Or.inl (of_decide_eq_true this hc t ht)

end OpenNSA.Backend
