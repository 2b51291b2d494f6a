import Verif.Backend.Restart2
/-
Every event preserves the invariant.
-/
namespace OpenNSA.Backend
open OpenNSA Py Prog

theorem All_map {α β : Type} {p : Prog α} {f : α → β} {Q : World → Except Err β → Prop} {w : World}
    (h : All p (fun w' r => Q w' (r.map f)) w) : All (p.bind fun a => Prog.pure (f a)) Q w := by
  rw [All_bind]
  refine All_mono ?_ h
  intro w' r hq
  cases r <;> exact hq

/-- With other choices of the environment. -/
abbrev World.with (w : World) (o : Oracle) : World := { w with orc := o }

theorem GInvN.with {cfg : Cfg} {L : Str → Bool} {w : World} (h : GInv cfg L w) (o : Oracle) : GInv cfg L (w.with o) := by
  have := h.idle w.clk o [] (Int.le_refl _)
  rw [List.append_nil] at this
  exact this

/-- What an event did: for requests, what their theorems say. -/
def StepPost (cfg : Cfg) (w w' : World) (r : Except Err (Option Str)) : Ev → Prop
  | .req h (.reserve cid? src dst st en) =>
    (∃ e, r = .error e ∧ w'.rows = w.rows ∧ w'.cal = w.cal ∧ w'.links = w.links ∧ w'.tbl = w.tbl ∧ w.clk ≤ w'.clk) ∨
    (∃ cid row, r = .ok (some cid) ∧ Accepted cfg h cid? src dst st en w w' cid row)
  | .req h (.commit cid) => ∃ r', r = r'.map (fun _ => none) ∧ ConnPost cid w w' r' (CommitPost cfg h)
  | .req h (.abort cid) => ∃ r', r = r'.map (fun _ => none) ∧ ConnPost cid w w' r' (AbortPost cfg h)
  | .req h (.provision cid) => ∃ r', r = r'.map (fun _ => none) ∧ ConnPost cid w w' r' (ProvisionPost cfg h)
  | .req h (.release cid) => ∃ r', r = r'.map (fun _ => none) ∧ ConnPost cid w w' r' (ReleasePost cfg h)
  | .req h (.terminate cid) => ∃ r', r = r'.map (fun _ => none) ∧ ConnPost cid w w' r' (TerminatePost cfg h)
  | .fire cid =>
    (r = .ok none ∧ w' = w) ∨
    ∃ tm r', r = r'.map (fun _ => none) ∧ dget w.tbl cid = some tm ∧ tm.called = false ∧ tm.due ≤ w.clk ∧
      ∃ row0 ∈ w.rows, row0.cid = cid ∧ ∃ s',
      Rel w cid tm.ref w' s' ∧ FirePost tm.act row0 (w.view row0) s' r' ∧ w.clk ≤ s'.clk ∧ TimerOk row0 tm ∧ Evolves row0 s'.row ∧
      (s'.up = true → decide (cid ∈ w.links) = true ∨ SetUpOk s'.clk s'.row)
  | .wait us => r = .ok none ∧ w' = { w with clk := w.clk + (us : Int) }
  | .restart => Restarted w w'

theorem step_inv {cfg : Cfg} {w : World} (h : GInv cfg allLoaded w) (o : Oracle) (e : Ev)
    (hc : CleanStep e (step cfg w o e).1 (step cfg w o e).2) :
    GInv cfg allLoaded (step cfg w o e).1 ∧ StepPost cfg (w.with o) (step cfg w o e).1 (step cfg w o e).2 e := by
  have hw := h.with o
  have conn : ∀ {α : Type} {cid : Str} {p : Prog Unit} {P : Row → S → S → Except Err Unit → Prop} {clean : Except Err Unit → Prop},
      All p (fun w' r => clean r → GInv cfg allLoaded w' ∧ ConnPost cid (w.with o) w' r P) (w.with o) →
      (∀ r', ((p.bind fun _ => Prog.pure (none : Option Str)).run (w.with o)).2 = r'.map (fun _ => none) → clean r') →
      GInv cfg allLoaded ((p.bind fun _ => Prog.pure (none : Option Str)).run (w.with o)).1 ∧
      ∃ r', ((p.bind fun _ => Prog.pure (none : Option Str)).run (w.with o)).2 = r'.map (fun _ => none) ∧
        ConnPost cid (w.with o) ((p.bind fun _ => Prog.pure (none : Option Str)).run (w.with o)).1 r' P := by
    intro α cid p P clean ha hcl
    have := run_of_All (All_map (f := fun _ : Unit => (none : Option Str))
      (Q := fun w' r => ∃ r', r = r'.map (fun _ => none) ∧ (clean r' → GInv cfg allLoaded w' ∧ ConnPost cid (w.with o) w' r' P))
      (All_mono (fun w' r hq => ⟨r, rfl, hq⟩) ha))
    obtain ⟨r', h1, h2⟩ := this
    obtain ⟨h3, h4⟩ := h2 (hcl r' h1)
    exact ⟨h3, r', h1, h4⟩
  cases e with
  | req hd r =>
    cases r with
    | reserve cid? src dst st en =>
      have := run_of_All (All_map (f := fun c : Str => (some c : Option Str))
        (Q := fun w' r => CleanStep (.req hd (.reserve cid? src dst st en)) w' r → GInv cfg allLoaded w' ∧
          StepPost cfg (w.with o) w' r (.req hd (.reserve cid? src dst st en)))
        (All_mono (fun w' r hq hcl => ?_) (reserve_inv (h := hd) (cid? := cid?) (src := src) (dst := dst) (st := st) (en := en) hw)))
      · exact this hc
      · obtain ⟨c1, c2, c3⟩ := hcl
        obtain ⟨h1, h2⟩ := hq ⟨fun e => c1 (by rw [e]; rfl), c2, fun a e b ⟨c, d⟩ => c3 a e b ⟨some c, by rw [d]; rfl⟩⟩
        refine ⟨h1, ?_⟩
        rcases h2 with ⟨e, h3, h4⟩ | ⟨cid, row, h3, h4⟩
        · exact Or.inl ⟨e, by rw [h3]; rfl, h4⟩
        · exact Or.inr ⟨cid, row, by rw [h3]; rfl, h4⟩
    | commit cid => exact conn (α := Unit) (commit_inv (h := hd) hw) (fun _ _ => trivial)
    | abort cid => exact conn (α := Unit) (abort_inv (h := hd) hw) (fun _ _ => trivial)
    | provision cid => exact conn (α := Unit) (provision_inv (h := hd) hw) (fun _ _ => trivial)
    | release cid => exact conn (α := Unit) (release_inv (h := hd) hw) (fun _ _ => trivial)
    | terminate cid =>
      refine conn (α := Unit) (terminate_inv (h := hd) hw) (fun r' hr' e => hc ?_)
      subst e
      exact hr'
  | fire cid =>
    simp only [step]
    cases ht : dget w.tbl cid with
    | none => exact ⟨hw, Or.inl ⟨rfl, rfl⟩⟩
    | some tm =>
      obtain ⟨due, act, ref, called⟩ := tm
      cases called with
      | true => exact ⟨hw, Or.inl ⟨rfl, rfl⟩⟩
      | false =>
        simp only
        by_cases hdue : due ≤ w.clk
        · rw [if_pos hdue]
          have := run_of_All (fire_inv hw (cid := cid) (tm := ⟨due, act, ref, false⟩) ht rfl hdue)
          exact ⟨this.1, Or.inr ⟨_, _, rfl, ht, rfl, hdue, this.2⟩⟩
        · rw [if_neg hdue]; exact ⟨hw, Or.inl ⟨rfl, rfl⟩⟩
  | wait us =>
    refine ⟨?_, rfl, rfl⟩
    have := h.idle (w.clk + (us : Int)) o [] (by omega)
    rw [List.append_nil] at this
    exact this
  | restart =>
    have := run_of_All (restart_inv hw)
    obtain ⟨c, hc⟩ := hc
    apply this
    simp only [step] at hc
    revert hc
    generalize (Prog.run (buildSchedule cfg) (World.reboot (w.with o))).2 = r
    cases r with
    | ok u => intro _; rfl
    | error e => intro hc; exact absurd hc (by simp [Except.map])

theorem Reach.inv {cfg : Cfg} {w : World} (h : Reach cfg w) : GInv cfg allLoaded w := by
  induction h with
  | init ids clk =>
    exact
      { nodup := by simp [World.init]
        conn := by simp [World.init]
        timers := by simp [World.init, dget]
        links := by simp [World.init]
        cal := by simp [World.init]
        ncN := by simp [World.init]
        conf := by
          rintro c ⟨_, _, _, _, _, h⟩
          exact absurd h (by simp [World.init]) }
  | step o e _ hc ih => exact (step_inv ih o e hc).1

theorem Reach.post {cfg : Cfg} {w : World} (h : Reach cfg w) (o : Oracle) (e : Ev)
    (hc : CleanStep e (Backend.step cfg w o e).1 (Backend.step cfg w o e).2) :
    StepPost cfg (w.with o) (Backend.step cfg w o e).1 (Backend.step cfg w o e).2 e := (step_inv h.inv o e hc).2

end OpenNSA.Backend
