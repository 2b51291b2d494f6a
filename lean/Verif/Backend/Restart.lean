import Verif.Backend.ReserveInv
/-
A restart re-establishes the invariant.
-/
namespace OpenNSA.Backend
open OpenNSA Py Prog

/-- The pending call a live connection needs: a timeout while held, the end call when committed and released or active, the
activation call when provisioned and not active yet (unless an activation failed and was reported). -/
structure TimerFor (clk : Time) (x : Row) (tm : Option Timer) (out : List Msg) : Prop where
  held : x.st.l = .created → x.st.r = .held → ∃ due ref, tm = some ⟨due, .reserveTimeout, ref, false⟩ ∧
    (due ≤ x.reserveTime + tpcTimeout ∨ due ≤ clk) ∧ ∀ e, x.end_ = some e → due ≤ e ∨ due ≤ clk
  ends : x.st.l = .created → x.allocated = true → x.st.p = .released ∨ x.active = true → EndCall x.end_ tm clk
  activates : x.st.l = .created → x.st.p = .provisioned → x.active = false →
    (∃ s due ref, x.start = some s ∧ s ≤ due ∧ (due ≤ s ∨ due ≤ clk) ∧ tm = some ⟨due, .activate, ref, false⟩) ∨
    ∃ n, Msg.activateFailed x.cid n ∈ out

/-- The view of a connection that is not loaded. -/
abbrev unloaded (row0 : Row) (cal : Cal) (up : Bool) (clk : Time) : S := ⟨row0, row0, cal, none, up, [], clk⟩

/-- The situation before a connection is loaded. -/
structure Start0 (cfg : Cfg) (w : World) (row0 : Row) (out0 : List Msg) (rest : List Resv) (cal : Cal) (up : Bool) (clk : Time) :
    Prop where
  ok : RowOk clk row0
  link : LinkOk row0 up out0
  cal : cal.Perm rest
  nc : row0.claims → NcOthers cfg w row0

/-- Loading turned `row0` to `x`: a committed connection whose end passed before `clk` is not live any more, and a live one keeps
its provision state and is committed if it was. -/
def Over (clk : Time) (row0 x : Row) : Prop :=
  (∀ e, row0.end_ = some e → e < clk → x.st.l ≠ .created ∨ x.allocated = false) ∧ 
  (x.st.l = .created → x.st.p = row0.st.p ∧ x.allocated = row0.allocated)

/-- What loading a connection achieves, with the three cases in which it schedules nothing. -/
def Restored (row0 : Row) (s s' : S) : Prop :=
  ((TimerFor s'.clk s'.row s'.tm s'.out ∧ Over s.clk row0 s'.row) ∨ (row0.st.r ≠ .held ∧ ((row0.st.p = .provisioning ∨ row0.st.p = .releasing) ∨
    ∃ now, s.clk ≤ now ∧ now ≤ s'.clk ∧ row0.start = some now))) ∧ (s'.row.st.r = .aborting → row0.st.r = .aborting)

section
variable {cfg : Cfg} {w : World} {ref : Nat} {row0 : Row} {out0 : List Msg} {rest : List Resv}
  {cal : Cal} {up : Bool} {clk : Time}

theorem TimerFor.dead {clk : Time} {x : Row} {tm : Option Timer} {out : List Msg} (h : x.st.l ≠ .created) : TimerFor clk x tm out :=
  ⟨fun a => absurd a h, fun a => absurd a h, fun a => absurd a h⟩

theorem Restored.dead {row0 : Row} {s s' : S} (h : s'.row.st.l ≠ .created) (hr : s'.row.st.r = .aborting → row0.st.r = .aborting) : Restored row0 s s' :=
  ⟨Or.inl ⟨TimerFor.dead h, fun _ _ _ => Or.inl h, fun a => absurd a h⟩, hr⟩

/-- A committed connection is not being rolled back. -/
theorem RowOk.quiet {c : Time} {x : Row} (h : RowOk c x) (ha : x.allocated = true) {P : Prop} : x.st.r = .aborting → P := by
  intro e
  rcases h.rs with a | a | a
  · rw [e] at a; cases a
  · rw [e] at a; cases a.1
  · rw [ha] at a; cases a.2.2

/-- A connection without a claim stays as it is. -/
theorem Start0.skip (h : Start0 cfg w row0 out0 rest cal up clk) (hf : row0.holds = false) {t : Time} (ht : clk ≤ t) :
    GoodL cfg w ref row0 (unloaded row0 cal up clk) out0 rest (unloaded row0 cal up t) where
  row := h.ok.mono ht
  timer := fun tm h1 _ => by exact absurd h1 (by simp)
  link := by simp only [List.append_nil]; exact h.link
  cal := by simp only [ldEnts, if_true, ents_free hf]; exact h.cal
  claims := h.nc
  exp := fun _ a b => by
    rw [holds_iff.mpr ⟨a, Or.inl b⟩] at hf
    exact absurd hf (by simp)
  conf := fun c _ hc => by simpa using hc
  newUp := Or.inl
  later := ht
  ev := Evolves.refl _

/-- The entries have been added. -/
abbrev added (cfg : Cfg) (row0 : Row) (cal : Cal) (up : Bool) (clk : Time) : S :=
  ⟨row0, row0, (cal.add (srcResv cfg row0)).add (dstResv cfg row0), none, up, [], clk⟩

theorem Start0.added (h : Start0 cfg w row0 out0 rest cal up clk) (hh : row0.holds = true) {t : Time} (ht : clk ≤ t) :
    Start cfg w ref row0 out0 rest (added cfg row0 cal up t) where
  row := rfl
  obj := rfl
  out := rfl
  ok := h.ok.mono ht
  timer := fun tm h1 _ => by exact absurd h1 (by simp)
  link := h.link
  cal := by
    rw [ents_holds hh]
    show (cal ++ [_] ++ [_]).Perm _
    rw [List.append_assoc]
    exact List.perm_append_comm.trans (List.Perm.append_left _ h.cal)
  ghost := fun hg => by
    rw [holds_iff, hg.1] at hh
    exact absurd hh.1 (by simp)
  nc := h.nc

theorem good_from {s s1 s' : S} (hg : GoodL cfg w ref row0 s1 out0 rest s') (h1 : s1.tm = s.tm) (h2 : s1.up = s.up)
    (h3 : s.clk ≤ s1.clk) : GoodL cfg w ref row0 s out0 rest s' :=
  { hg with
    timer := fun tm a b => by rw [← h1]; exact hg.timer tm a b
    newUp := fun a => by rw [← h2]; exact hg.newUp a
    later := Int.le_trans h3 hg.later }

/-- Held, and its end time has passed. -/
theorem good_newGhost {s : S} (hs : Start cfg w ref row0 out0 rest s) (hh : row0.st.r = .held) (hl : row0.st.l = .created)
    {t e : Time} {cal' : Cal} (ht : s.clk ≤ t) (he : row0.end_ = some e) (het : e < t) (hcal : cal'.Perm rest) :
    GoodL cfg w ref row0 s out0 rest { (s.put (row0.withL .passedEnd)) with tm := none, clk := t, cal := cal' } := by
  have hok := hs.ok.mono ht
  obtain ⟨hal, hact, hp⟩ := hok.held hh
  have hf : (row0.withL .passedEnd).holds = false := by
    apply holds_false; rintro ⟨h, _⟩; exact absurd h (by simp)
  have := hs.change (ref := ref) (w := w) (t := t) (row' := row0.withL .passedEnd) (tm' := none) (up' := s.up) (out' := s.out) (cal' := cal')
    { hok with
      lc := Or.inr (Or.inl rfl)
      rs := Or.inr (Or.inl ⟨hh, hal⟩)
      act := fun a => by rw [show row0.active = true from a] at hact; exact absurd hact (by simp)
      ended := fun _ => ⟨e, he, by omega, fun _ => het⟩ }
    noTimer (hs.link.mono) (by rw [ents_free hf]; simpa using hcal) (fun _ => hs.nc (Or.inl (holds_iff.mpr ⟨hl, Or.inl hh⟩)))
    (fun h => absurd h (by simp)) (by rw [hs.out]; simp) Or.inl ht
    ⟨⟨rfl, rfl, rfl, rfl, rfl, rfl, rfl, rfl, rfl⟩, fun a => by rw [hl] at a; exact absurd a (by simp), fun _ => by simp, fun a => absurd hh a, id⟩
  exact this

theorem buildOne_good (h : Start0 cfg w row0 out0 rest cal up clk) (_hnt : row0.st.l ≠ .terminated) :
    LAll row0.cid ref (buildOne cfg ref) (fun s' r => r = .ok () → GoodL cfg w ref row0 (unloaded row0 cal up clk) out0 rest s' ∧
      Restored row0 (unloaded row0 cal up clk) s') (unloaded row0 cal up clk) := by
  unfold buildOne
  apply L_getObj; intro t1 ht1
  have ht1 : clk ≤ t1 := ht1
  simp only [bind_eq]
  rw [LAll_bind, LAll_issue]
  refine ⟨rfl, fun t2 ht2 => ?_⟩
  simp only [cont_ok, Option.isSome_none, Bool.false_eq_true, if_false]
  apply L_now; intro now hnow
  simp only at ht2 hnow
  by_cases hpe : row0.st.l = .passedEnd ∨ row0.st.l = .terminated
  · rw [if_pos hpe]
    intro _
    have hl : row0.st.l ≠ .created := by rcases hpe with e | e <;> rw [e] <;> simp
    refine ⟨?_, Restored.dead (by exact hl) id⟩
    exact h.skip (holds_false fun a => hl a.1) (by omega)
  rw [if_neg hpe]
  have hcre : row0.st.l = .created := by
    rcases h.ok.lc with e | e | e
    · exact e
    · exact absurd (Or.inl e) hpe
    · exact absurd (Or.inr e) hpe
  by_cases hsa : row0.st.r = .start ∧ ¬ row0.allocated = true
  · rw [if_pos hsa]
    intro _
    have hal : row0.allocated = false := by simpa using hsa.2
    have hf : row0.holds = false := by
      apply holds_false; rintro ⟨_, e | e⟩
      · rw [hsa.1] at e; exact absurd e (by simp)
      · exact absurd e hsa.2
    have hp : row0.st.p = .released := Decidable.byContradiction fun hp => hsa.2 (h.ok.pv hp)
    refine ⟨?_, Or.inl ⟨⟨?_, ?_, ?_⟩, fun _ _ _ => Or.inr hal, fun _ => ⟨rfl, rfl⟩⟩, id⟩
    · exact h.skip hf (by omega)
    · intro _ e; rw [hsa.1] at e; exact absurd e (by simp)
    · intro _ e; rw [hal] at e; exact absurd e (by simp)
    · intro _ e; rw [hp] at e; exact absurd e (by simp)
  rw [if_neg hsa]
  have hh : row0.holds = true := by
    rw [holds_iff]
    refine ⟨hcre, ?_⟩
    rcases h.ok.rs with e | e | e
    · refine Or.inr ?_
      cases ha : row0.allocated with
      | true => rfl
      | false => exact absurd ⟨e, by simp [ha]⟩ hsa
    · exact Or.inl e.1
    · exact absurd hcre e.2.1
  rw [LAll_bind, LAll_issue]
  intro t3 ht3
  simp only [cont_ok]
  rw [LAll_bind, LAll_issue]
  intro t4 ht4
  simp only [cont_ok]
  simp only at ht3 ht4
  have hst := h.added (ref := ref) hh (t := t4) (by omega)
  have keep : ∀ {s' : S}, GoodL cfg w ref row0 (added cfg row0 cal up t4)
      out0 rest s' → GoodL cfg w ref row0 (unloaded row0 cal up clk) out0 rest s' := fun hg => good_from hg rfl rfl (by simp only; omega)
  -- a row that stays, possibly with a new timer
  have stay : ∀ t tm', t4 ≤ t → (∀ tm, tm' = some tm → tm.called = false → TimerOk row0 tm ∧ tm.ref = ref) →
      (row0.st.r = .held → ExpTimer t row0 tm') →
      GoodL cfg w ref row0 (unloaded row0 cal up clk) out0 rest { added cfg row0 cal up t with tm := tm' } := by
    intro t tm' ht htm hexp
    refine keep ?_
    exact
      { row := hst.ok.mono ht
        timer := fun tm h1 h2 => by
          obtain ⟨h3, h4⟩ := htm tm h1 h2
          exact ⟨h3, rfl, Or.inr ⟨h4, rfl⟩⟩
        link := by simp only [List.append_nil]; exact h.link
        cal := by simp only [ldEnts, if_true]; exact hst.cal
        claims := h.nc
        exp := fun _ a b c => hexp b
        conf := fun c _ hc => by simpa using hc
        newUp := Or.inl
        later := ht
        ev := Evolves.refl _ }
  by_cases hpass : passed row0.end_ now = true
  · rw [if_pos hpass]
    obtain ⟨e, he, hlt⟩ : ∃ e, row0.end_ = some e ∧ e < now := by
      unfold passed at hpass
      cases hen : row0.end_ with
      | none => rw [hen] at hpass; simp at hpass
      | some e => rw [hen] at hpass; exact ⟨e, rfl, by simpa using hpass⟩
    by_cases hheld : row0.st.r = .held
    · obtain ⟨hal, hact, hp⟩ := h.ok.held hheld
      have hrm := hst.rm2_holds hh
      apply L_doEndtime (s := added cfg row0 cal up t4) rfl
      · intro hx; exact absurd hcre hx
      · intro _ hx; rw [show row0.active = true from hx] at hact; exact absurd hact (by simp)
      · intro _ _ _ t ht _
        refine ⟨keep ?_, Restored.dead (by simp) id⟩
        exact good_newGhost hst hheld hcre ht he (by simp only at ht; omega) hrm.2
      · intro _ _ _ hx; exact absurd hheld hx
    · have hr : row0.st.r = .start := by
        rcases h.ok.rs with e | e | e
        · exact e
        · exact absurd e.1 hheld
        · exact absurd hcre e.2.1
      refine LAll_mono ?_ (endtime_good hst hr he (by simp only; omega))
      rintro s' r ⟨hg, hp⟩ _
      refine ⟨keep hg, Restored.dead ?_ (hg.row.quiet (hg.ev.kept ?_))⟩
      · rw [(hp hcre).2.1]; simp
      · exact (holds_iff.mp hh).2.resolve_left hheld
  rw [if_neg hpass]
  have hov : ∀ x : Row, x.st.p = row0.st.p ∧ x.allocated = row0.allocated → Over clk row0 x := by
    intro x hxp
    refine ⟨fun e he hlt => ?_, fun _ => hxp⟩
    refine absurd ?_ hpass
    unfold passed
    rw [he]
    simp only [decide_eq_true_eq]
    omega
  by_cases hheld : row0.st.r = .held
  · rw [if_pos hheld]
    obtain ⟨hal, hact, hp⟩ := h.ok.held hheld
    by_cases hto : timeoutAt row0 < now
    · rw [if_pos hto]
      have hrm := hst.rm2_holds hh
      apply L_doReserveRollback (s := added cfg row0 cal up t4) rfl
      · intro _; exact ⟨hact, hal⟩
      · intro hx; exact absurd (held_aborting hheld) hx
      · intro _ hx; exact absurd hrm.1 hx
      · intro _ _ t tm' ht htm _
        refine ⟨keep ?_, Or.inl ⟨⟨?_, ?_, ?_⟩, hov _ ⟨rfl, rfl⟩⟩, fun hx => absurd hx (by simp)⟩
        · exact good_rolled hst hheld hcre ht htm (by simp) hrm.2
        · intro _ hx; exact absurd hx (by simp)
        · intro _ hx; rw [show row0.allocated = true from hx] at hal; exact absurd hal (by simp)
        · intro _ hx; rw [show row0.st.p = .provisioned from hx] at hp; exact absurd hp (by simp)
      · intro _ _ _ t e ht he het _
        refine ⟨keep ?_, Restored.dead (by simp) fun hx => absurd hx (by simp)⟩
        exact good_rolledEnd hst hheld (by rw [hcre]; simp) ht he het (by simp) hrm.2
    · rw [if_neg hto]
      apply L_sched (s := added cfg row0 cal up t4) rfl
      · intro t ht hle _
        have hmade := h.ok.made
        have hto1 : timeoutAt row0 ≤ row0.reserveTime + tpcTimeout := by
          unfold timeoutAt; split <;> omega
        have hto2 : ∀ e, row0.end_ = some e → timeoutAt row0 ≤ e := by
          intro e he; unfold timeoutAt; rw [he]; simp only; omega
        have hpos : (0 : Int) ≤ tpcTimeout := by decide
        have hsec : (0 : Int) ≤ second := by decide
        simp only at ht
        refine ⟨stay t _ ht ?_ ?_, Or.inl ⟨⟨?_, ?_, ?_⟩, hov _ ⟨rfl, rfl⟩⟩, id⟩
        · intro tm hx _; simp at hx; subst hx; exact ⟨⟨hheld, hcre⟩, rfl⟩
        · intro _
          refine ⟨_, _, rfl, by omega, fun e he => ?_⟩
          have := hto2 e he; omega
        · intro _ _
          refine ⟨_, _, rfl, ?_, fun e he => ?_⟩
          · simp only; omega
          · have := hto2 e he
            simp only; omega
        · intro _ hx
          have hx : row0.allocated = true := hx
          rw [hal] at hx; exact absurd hx (by simp)
        · intro _ hx
          have hx : row0.st.p = .provisioned := hx
          rw [hp] at hx; exact absurd hx (by simp)
      · intro t ht hlt hx; exact absurd hx (by simp)
  rw [if_neg hheld]
  have hr : row0.st.r = .start := by
    rcases h.ok.rs with e | e | e
    · exact e
    · exact absurd e.1 hheld
    · exact absurd hcre e.2.1
  have hal : row0.allocated = true := by
    rcases (holds_iff.mp hh).2 with e | e
    · exact absurd e hheld
    · exact e
  -- leaving the connection without a call
  have unhandled : ∀ (hx : (row0.st.p = .provisioning ∨ row0.st.p = .releasing) ∨ ∃ x, clk ≤ x ∧ x ≤ t4 ∧ row0.start = some x),
      LAll row0.cid ref (Prog.pure ()) (fun s' r => r = .ok () → GoodL cfg w ref row0 (unloaded row0 cal up clk) out0 rest s' ∧ Restored row0 (unloaded row0 cal up clk) s')
      (added cfg row0 cal up t4) := by
    intro hx _
    refine ⟨stay t4 none (Int.le_refl _) noTimer (fun e => absurd e hheld), Or.inr ?_, id⟩
    exact ⟨hheld, hx⟩
  -- the end call
  have schedE : (row0.st.p = .released ∨ row0.active = true) →
      LAll row0.cid ref (schedEnd row0.cid row0.end_ ref) (fun s' r => r = .ok () → GoodL cfg w ref row0 (unloaded row0 cal up clk) out0 rest s' ∧ Restored row0 (unloaded row0 cal up clk) s')
      (added cfg row0 cal up t4) := by
    intro hpa
    have nact : row0.st.p = .provisioned → row0.active = false → False := by
      intro h1 h2
      rcases hpa with e | e
      · rw [h1] at e; exact absurd e (by simp)
      · rw [h2] at e; exact absurd e (by simp)
    apply L_schedEnd (s := added cfg row0 cal up t4) rfl
    · intro he _
      refine ⟨stay t4 none (Int.le_refl _) noTimer (fun e => absurd e hheld), Or.inl ⟨⟨?_, ?_, ?_⟩, hov _ ⟨rfl, rfl⟩⟩, id⟩
      · intro _ e; exact absurd e hheld
      · intro _ _ _ e hx; rw [he] at hx; exact absurd hx (by simp)
      · intro _ h1 h2; exact (nact h1 h2).elim
    · intro e t he ht hle _
      refine ⟨stay t _ ht ?_ (fun e => absurd e hheld), Or.inl ⟨⟨?_, ?_, ?_⟩, hov _ ⟨rfl, rfl⟩⟩, id⟩
      · intro tm hx _; simp at hx; subst hx; exact ⟨⟨hr, e, he, by simp only; omega⟩, rfl⟩
      · intro _ e; exact absurd e hheld
      · intro _ _ _ e' hx
        rw [he] at hx; simp at hx; subst hx
        exact Or.inl ⟨_, _, rfl, by omega, by simp only; omega⟩
      · intro _ h1 h2; exact (nact h1 h2).elim
    · intro e t he ht hlt hx; exact absurd hx (by simp)
  -- the start time has passed
  have started : (∀ x, row0.start = some x → x ≤ t4) → LAll row0.cid ref (buildOne.started ref row0)
      (fun s' r => r = .ok () → GoodL cfg w ref row0 (unloaded row0 cal up clk) out0 rest s' ∧ Restored row0 (unloaded row0 cal up clk) s')
      (added cfg row0 cal up t4) := by
    intro hstart
    unfold buildOne.started
    by_cases hp : row0.st.p = .provisioned
    · rw [if_pos hp]
      by_cases ha : row0.active = true
      · rw [if_pos ha]
        exact schedE (Or.inr ha)
      · rw [if_neg ha]
        refine LAll_mono ?_ (activate_good hst hr hp hcre hstart (by simp))
        rintro s' r ⟨hg, _, a, e1, e2, e3⟩ _
        refine ⟨keep hg, Or.inl ⟨⟨?_, ?_, ?_⟩, hov _ (by rw [e1]; exact ⟨rfl, rfl⟩)⟩, hg.row.quiet (hg.ev.kept hal)⟩
        · rw [e1]; intro _ e; exact absurd e hheld
        · rw [e1]
          intro _ _ hx
          rcases hx with hx | hx
          · rw [show row0.st.p = .released from hx] at hp; exact absurd hp (by simp)
          · exact (e2 hx).2
        · rw [e1]
          intro _ _ hx
          exact Or.inr (e3 hx)
    · rw [if_neg hp]
      by_cases hp' : row0.st.p = .released
      · rw [if_pos hp']; exact schedE (Or.inl hp')
      · rw [if_neg hp']
        apply unhandled
        cases hq : row0.st.p with
        | released => exact absurd hq hp'
        | provisioned => exact absurd hq hp
        | provisioning => exact Or.inl (Or.inl rfl)
        | releasing => exact Or.inl (Or.inr rfl)
  cases hstart : row0.start with
  | none => exact started (by intro x hx; rw [hstart] at hx; exact absurd hx (by simp))
  | some x =>
    simp only
    by_cases hx : x < now
    · rw [if_pos hx]
      exact started (by intro y hy; rw [hstart] at hy; simp at hy; subst hy; omega)
    · rw [if_neg hx]
      by_cases hx' : x > now
      · rw [if_pos hx']
        unfold buildOne.waiting
        by_cases hp : row0.st.p = .provisioned ∧ row0.active = false
        · rw [if_pos hp]
          simp only [bind_eq]
          apply L_bind
          apply L_sched (s := added cfg row0 cal up t4) rfl
          · intro t ht hle
            simp only [cont_ok]
            cases hen : row0.end_ with
            | none => intro hx; exact absurd hx (by simp)
            | some e =>
              intro _
              refine ⟨stay t _ ht ?_ (fun e => absurd e hheld), Or.inl ⟨⟨?_, ?_, ?_⟩, hov _ ⟨rfl, rfl⟩⟩, id⟩
              · intro tm hx _; simp at hx; subst hx
                exact ⟨⟨hr, hp.1, hcre, hp.2, x, hstart, by simp only; omega⟩, rfl⟩
              · intro _ e; exact absurd e hheld
              · intro _ _ e
                rcases e with e | e
                · rw [hp.1] at e; exact absurd e (by simp)
                · rw [hp.2] at e; exact absurd e (by simp)
              · intro _ _ _
                exact Or.inl ⟨x, _, _, hstart, by omega, by simp only; omega, rfl⟩
          · intro t ht hlt hx; exact absurd hx (by simp)
        · rw [if_neg hp]
          by_cases hp' : row0.st.p = .released
          · rw [if_pos hp']
            cases hen : row0.end_ with
            | none => intro hx; exact absurd hx (by simp)
            | some e =>
              have := schedE (Or.inl hp')
              rw [hen] at this
              exact this
          · rw [if_neg hp']
            apply unhandled
            cases hq : row0.st.p with
            | released => exact absurd hq hp'
            | provisioning => exact Or.inl (Or.inl rfl)
            | releasing => exact Or.inl (Or.inr rfl)
            | provisioned =>
              have ha : row0.active = true := by
                cases ha : row0.active with
                | true => rfl
                | false => exact absurd ⟨hq, ha⟩ hp
              have := (h.ok.act ha).2.2 x hstart
              omega
      · rw [if_neg hx']
        refine unhandled (Or.inr ⟨x, ?_, ?_, hstart⟩) <;> omega

end
end OpenNSA.Backend
