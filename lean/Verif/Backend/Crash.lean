import Verif.Backend.History
/-
Restart from an arbitrary database: whatever a process that died left behind.
-/
namespace OpenNSA.Backend
open OpenNSA Py Prog

/-- The two calendar entries of a connection. -/
abbrev bothResv (cfg : Cfg) (r : Row) : List Resv := [srcResv cfg r, dstResv cfg r]

/-- No operation on the connection was under way when its row was last written. -/
structure Row.Settled (clk : Time) (x : Row) : Prop where
  lc : x.st.l = .created ∨ x.st.l = .passedEnd ∨ x.st.l = .terminated
  rs : x.st.r = .start ∨ x.st.r = .held
  pv : x.st.p = .released ∨ (x.st.p = .provisioned ∧ x.st.r = .start)
  act : x.active = true → ∀ s, x.start = some s → s ≤ clk

/-- What does not change. -/
def SameConn (x y : Row) : Prop :=
  y.cid = x.cid ∧ y.requester = x.requester ∧ y.reserveTime = x.reserveTime ∧ y.srcPort = x.srcPort ∧
    y.srcLabel = x.srcLabel ∧ y.dstPort = x.dstPort ∧ y.dstLabel = x.dstLabel ∧ y.start = x.start ∧ y.end_ = x.end_

theorem SameConn.refl (x : Row) : SameConn x x := ⟨rfl, rfl, rfl, rfl, rfl, rfl, rfl, rfl, rfl⟩

/-- Why loading a connection may raise an exception. -/
def Raises (x : Row) (c0 c1 : Time) : Prop :=
  (x.end_ = none ∧ ∃ s, x.start = some s ∧ c0 < s) ∨ (x.st.l ≠ .created ∧ ∃ e, x.end_ = some e ∧ e < c1) ∨ c0 + second < c1

/-- What loading `x` did when it succeeded: `k` tells whether its entries were left in the calendar. -/
structure Loaded (cfg : Cfg) (x : Row) (s s' : S) (k : Bool) : Prop where
  same : SameConn x s'.row
  cal : s'.cal.Perm ((if k then bothResv cfg x else []) ++ s.cal)
  gone : x.st.l = .passedEnd ∨ x.st.l = .terminated → k = false ∧ s'.row = x ∧ s'.tm = none ∧ s'.up = s.up
  left : x.st.l ≠ .created → s'.row.st.l = x.st.l
  up : s'.up = true → s.up = true ∨ (x.st.p = .provisioned ∧ x.st.r ≠ .held ∧ ¬ (x.st.r = .start ∧ x.allocated = false) ∧
    x.st.l ≠ .passedEnd ∧ x.st.l ≠ .terminated ∧ ∀ b, x.start = some b → b ≤ s'.clk)
  settled : x.Settled s.clk → k = s'.row.holds ∧
    ((∃ now, s.clk ≤ now ∧ now ≤ s'.clk ∧ x.start = some now ∧ x.st.r ≠ .held ∧ s'.row = x) ∨
      (TimerFor s'.clk s'.row s'.tm s'.out ∨ s'.row.st.r = .start ∧ s'.row.allocated = false))

theorem passed_iff {e? : Option Time} {now : Time} : passed e? now = true ↔ ∃ e, e? = some e ∧ e < now := by
  unfold passed
  cases e? with
  | none => simp
  | some e => simp

section
variable {cfg : Cfg} {ref : Nat} {row0 : Row} {cal : Cal} {up : Bool} {clk : Time}

theorem both_perm (cal : Cal) : ((cal.add (srcResv cfg row0)).add (dstResv cfg row0)).Perm (bothResv cfg row0 ++ cal) := by
  show (cal ++ [_] ++ [_]).Perm _
  rw [List.append_assoc]
  exact List.perm_append_comm

theorem buildOne_any (hheld : row0.st.r = .held → row0.active = false ∧ row0.allocated = false) :
    LAll row0.cid ref (buildOne cfg ref) (fun s' r => clk ≤ s'.clk ∧
      (r = .ok () → ∃ k, Loaded cfg row0 (unloaded row0 cal up clk) s' k) ∧
      (∀ e, r = .error e → Raises row0 clk s'.clk)) (unloaded row0 cal up clk) := by
  unfold buildOne
  apply L_getObj; intro t1 ht1
  have ht1 : clk ≤ t1 := ht1
  simp only [bind_eq]
  rw [LAll_bind, LAll_issue]
  refine ⟨rfl, fun t2 ht2 => ?_⟩
  simp only [cont_ok, Option.isSome_none, Bool.false_eq_true, if_false]
  apply L_now; intro now hnow
  simp only at ht2 hnow
  by_cases hpe : row0.st.l = .passedEnd ∨ row0.st.l = .terminated
  · rw [if_pos hpe]
    have hl : row0.st.l ≠ .created := by rcases hpe with e | e <;> rw [e] <;> simp
    refine ⟨by simp only; omega, fun _ => ⟨false, ?_⟩, fun e he => absurd he (by simp)⟩
    exact
      { same := SameConn.refl _
        cal := List.Perm.refl _
        gone := fun _ => ⟨rfl, rfl, rfl, rfl⟩
        left := fun _ => rfl
        up := Or.inl
        settled := fun _ => ⟨(holds_false fun a => hl a.1).symm, Or.inr (Or.inl (TimerFor.dead hl))⟩ }
  rw [if_neg hpe]
  have hpe1 : row0.st.l ≠ .passedEnd := fun e => hpe (Or.inl e)
  have hpe2 : row0.st.l ≠ .terminated := fun e => hpe (Or.inr e)
  by_cases hsa : row0.st.r = .start ∧ ¬ row0.allocated = true
  · rw [if_pos hsa]
    have hal : row0.allocated = false := by simpa using hsa.2
    have hf : row0.holds = false := by
      apply holds_false; rintro ⟨_, e | e⟩
      · rw [hsa.1] at e; exact absurd e (by simp)
      · exact absurd e hsa.2
    refine ⟨by simp only; omega, fun _ => ⟨false, ?_⟩, fun e he => absurd he (by simp)⟩
    exact
      { same := SameConn.refl _
        cal := List.Perm.refl _
        gone := fun h => absurd h hpe
        left := fun _ => rfl
        up := Or.inl
        settled := fun _ => ⟨hf.symm, Or.inr (Or.inr ⟨hsa.1, hal⟩)⟩ }
  rw [if_neg hsa]
  rw [LAll_bind, LAll_issue]
  intro t3 ht3
  simp only [cont_ok]
  rw [LAll_bind, LAll_issue]
  intro t4 ht4
  simp only [cont_ok]
  simp only at ht3 ht4
  have hadd := both_perm (cfg := cfg) (row0 := row0) cal
  have hrm := rm2_perm hadd
  have hnsa : ¬ (row0.st.r = .start ∧ row0.allocated = false) := fun h => hsa ⟨h.1, by simp [h.2]⟩
  have holdsOf : row0.Settled clk → row0.holds = true ∧ row0.st.l = .created := by
    intro h
    have hc : row0.st.l = .created := by
      rcases h.lc with e | e | e
      · exact e
      · exact absurd e hpe1
      · exact absurd e hpe2
    refine ⟨holds_iff.mpr ⟨hc, ?_⟩, hc⟩
    rcases h.rs with e | e
    · refine Or.inr ?_
      cases ha : row0.allocated with
      | true => rfl
      | false => exact absurd ⟨e, ha⟩ hnsa
    · exact Or.inl e
  -- the row stays, possibly with a call
  have stay : ∀ t tm', t4 ≤ t → (row0.Settled clk → TimerFor t row0 tm' [] ∨
      ∃ now, clk ≤ now ∧ now ≤ t ∧ row0.start = some now ∧ row0.st.r ≠ .held) →
      Loaded cfg row0 (unloaded row0 cal up clk) { added cfg row0 cal up t with tm := tm' } true := by
    intro t tm' ht htm
    exact
      { same := SameConn.refl _
        cal := hadd
        gone := fun h => absurd h hpe
        left := fun _ => rfl
        up := Or.inl
        settled := fun h => ⟨(holdsOf h).1.symm, by
          rcases htm h with a | ⟨now, a, b, c, d⟩
          · exact Or.inr (Or.inl a)
          · exact Or.inl ⟨now, a, b, c, d, rfl⟩⟩ }
  by_cases hpass : passed row0.end_ now = true
  · rw [if_pos hpass]
    obtain ⟨e, he, hlt⟩ := passed_iff.mp hpass
    apply L_doEndtime (s := added cfg row0 cal up t4) rfl
    · intro hx t ht
      refine ⟨by simp only at ht ⊢; omega, fun h => absurd h (by simp), fun _ _ => Or.inr (Or.inl ⟨hx, e, he, ?_⟩)⟩
      simp only at ht ⊢; omega
    · intro hl _ t up' m ht htd
      rw [hrm.1]
      refine ⟨by simp only at ht ⊢; omega, fun _ => ⟨false, ?_⟩, fun e he => absurd he (by simp [resOf])⟩
      refine ⟨SameConn.refl _, hrm.2, fun h => absurd h hpe, fun h => absurd hl h, fun h => ?_, fun _ => ⟨?_, Or.inr (Or.inl ?_)⟩⟩
      · rcases htd with ⟨e, _⟩ | ⟨e, _⟩
        · simp only at h; rw [e] at h; exact absurd h (by simp)
        · exact Or.inl (e h)
      · exact (holds_false fun a => absurd a.1 (by simp)).symm
      · exact TimerFor.dead (by simp)
    · intro hl _ _ t ht
      rw [hrm.1]
      refine ⟨by simp only at ht ⊢; omega, fun _ => ⟨false, ?_⟩, fun e he => absurd he (by simp [resOf])⟩
      refine ⟨SameConn.refl _, hrm.2, fun h => absurd h hpe, fun h => absurd hl h, Or.inl, fun _ => ⟨?_, Or.inr (Or.inl ?_)⟩⟩
      · exact (holds_false fun a => absurd a.1 (by simp)).symm
      · exact TimerFor.dead (by simp)
    · intro hl _ hal hnh t ht
      refine ⟨by simp only at ht ⊢; omega, fun _ => ⟨true, ?_⟩, fun e he => absurd he (by simp)⟩
      refine ⟨SameConn.refl _, hadd, fun h => absurd h hpe, fun h => absurd hl h, Or.inl, fun h => ?_⟩
      have := (holds_iff.mp (holdsOf h).1).2
      rcases this with a | a
      · exact absurd a hnh
      · rw [show row0.allocated = false from hal] at a; exact absurd a (by simp)
  rw [if_neg hpass]
  have hnp : ∀ e, row0.end_ = some e → now ≤ e := by
    intro e he
    rw [passed_iff] at hpass
    refine Decidable.byContradiction fun hx => hpass ⟨e, he, by omega⟩
  have fails : ∀ {t : Time}, t4 ≤ t → clk + second < t → clk ≤ t ∧
      ((Except.error (α := Unit) Err.assertion) = .ok () → ∃ k, Loaded cfg row0 (unloaded row0 cal up clk) (added cfg row0 cal up t) k) ∧
      (∀ e, (Except.error (α := Unit) Err.assertion) = .error e → Raises row0 clk t) :=
    fun h1 h2 => ⟨by omega, fun h => absurd h (by simp), fun _ _ => Or.inr (Or.inr h2)⟩
  by_cases hh : row0.st.r = .held
  · rw [if_pos hh]
    obtain ⟨hact, hal⟩ := hheld hh
    by_cases hto : timeoutAt row0 < now
    · rw [if_pos hto]
      apply L_doReserveRollback (s := added cfg row0 cal up t4) rfl
      · intro _; exact ⟨hact, hal⟩
      · intro hx; exact absurd (held_aborting hh) hx
      · intro _ hx; exact absurd hrm.1 hx
      · intro _ _ t tm' ht htm
        refine ⟨by simp only at ht ⊢; omega, fun _ => ⟨false, ?_⟩, fun e he => absurd he (by simp)⟩
        refine ⟨SameConn.refl _, hrm.2, fun h => absurd h hpe, fun _ => rfl, Or.inl, fun _ => ⟨?_, Or.inr (Or.inr ⟨rfl, hal⟩)⟩⟩
        refine (holds_false ?_).symm
        rintro ⟨_, e | e⟩
        · exact absurd e (by simp)
        · rw [show row0.allocated = true from e] at hal; exact absurd hal (by simp)
      · intro _ _ hl t e ht he het
        refine ⟨by simp only at ht ⊢; omega, fun _ => ⟨false, ?_⟩, fun e he => absurd he (by simp)⟩
        refine ⟨SameConn.refl _, hrm.2, fun h => absurd h hpe, fun h => absurd hl h, Or.inl, fun _ => ⟨?_, Or.inr (Or.inl ?_)⟩⟩
        · exact (holds_false fun a => absurd a.1 (by simp)).symm
        · exact TimerFor.dead (by simp)
    · rw [if_neg hto]
      apply L_sched (s := added cfg row0 cal up t4) rfl
      · intro t ht hle
        have hto1 : timeoutAt row0 ≤ row0.reserveTime + tpcTimeout := by
          unfold timeoutAt; split <;> omega
        have hto2 : ∀ e, row0.end_ = some e → timeoutAt row0 ≤ e := by
          intro e he; unfold timeoutAt; rw [he]; simp only; omega
        simp only at ht
        refine ⟨by simp only; omega, fun _ => ⟨true, stay t _ ht fun hset => Or.inl ⟨?_, ?_, ?_⟩⟩, fun e he => absurd he (by simp)⟩
        · intro _ _
          refine ⟨_, _, rfl, by omega, fun e he => ?_⟩
          have := hto2 e he
          omega
        · intro _ hx; rw [hal] at hx; exact absurd hx (by simp)
        · intro _ hx
          rcases hset.pv with e | e
          · rw [e] at hx; exact absurd hx (by simp)
          · rw [e.2] at hh; exact absurd hh (by simp)
      · intro t ht hlt
        exact fails ht (show clk + second < t by simp only at ht; omega)
  rw [if_neg hh]
  have timer : ∀ {t : Time} {tm' : Option Timer}, (row0.Settled clk → row0.st.p = .released ∨ row0.active = true → EndCall row0.end_ tm' t) →
      (row0.Settled clk → row0.st.p = .provisioned → row0.active = false → ∃ s due ref, row0.start = some s ∧ s ≤ due ∧ (due ≤ s ∨ due ≤ t) ∧
        tm' = some ⟨due, .activate, ref, false⟩) → row0.Settled clk → TimerFor t row0 tm' [] :=
    fun h1 h2 hset => ⟨fun _ a => absurd a hh, fun _ _ a => h1 hset a, fun _ a b => Or.inl (h2 hset a b)⟩
  have unhandled : (row0.Settled clk → ∃ now, clk ≤ now ∧ now ≤ t4 ∧ row0.start = some now) →
      LAll row0.cid ref (Prog.pure ()) (fun s' r => clk ≤ s'.clk ∧
      (r = .ok () → ∃ k, Loaded cfg row0 (unloaded row0 cal up clk) s' k) ∧
      (∀ e, r = .error e → Raises row0 clk s'.clk)) (added cfg row0 cal up t4) := by
    intro hx
    refine ⟨by simp only; omega, fun _ => ⟨true, stay t4 none (Int.le_refl _) fun hset => Or.inr ?_⟩, fun e he => absurd he (by simp)⟩
    obtain ⟨n, a, b, c⟩ := hx hset
    exact ⟨n, a, b, c, hh⟩
  have schedE : (row0.st.p = .released ∨ row0.active = true) →
      LAll row0.cid ref (schedEnd row0.cid row0.end_ ref) (fun s' r => clk ≤ s'.clk ∧
      (r = .ok () → ∃ k, Loaded cfg row0 (unloaded row0 cal up clk) s' k) ∧
      (∀ e, r = .error e → Raises row0 clk s'.clk)) (added cfg row0 cal up t4) := by
    intro hpa
    have nact : row0.st.p = .provisioned → row0.active = false → False := by
      intro h1 h2
      rcases hpa with e | e
      · rw [h1] at e; exact absurd e (by simp)
      · rw [h2] at e; exact absurd e (by simp)
    apply L_schedEnd (s := added cfg row0 cal up t4) rfl
    · intro he
      refine ⟨by simp only; omega, fun _ => ⟨true, stay t4 none (Int.le_refl _) fun hset => Or.inl (timer ?_ ?_ hset)⟩, fun e he => absurd he (by simp)⟩
      · intro _ _ e hx; rw [he] at hx; exact absurd hx (by simp)
      · intro _ h1 h2; exact (nact h1 h2).elim
    · intro e t he ht hle
      simp only at ht
      refine ⟨by simp only; omega, fun _ => ⟨true, stay t _ ht fun hset => Or.inl (timer ?_ ?_ hset)⟩, fun e he => absurd he (by simp)⟩
      · intro _ _ e' hx
        rw [he] at hx; simp at hx; subst hx
        exact Or.inl ⟨_, _, rfl, by omega, by omega⟩
      · intro _ h1 h2; exact (nact h1 h2).elim
    · intro e t he ht hlt
      have := hnp e he
      exact fails ht (show clk + second < t by simp only at ht; omega)
  have started : (∀ x, row0.start = some x → x ≤ t4) → LAll row0.cid ref (buildOne.started ref row0)
      (fun s' r => clk ≤ s'.clk ∧ (r = .ok () → ∃ k, Loaded cfg row0 (unloaded row0 cal up clk) s' k) ∧
      (∀ e, r = .error e → Raises row0 clk s'.clk)) (added cfg row0 cal up t4) := by
    intro hstart
    unfold buildOne.started
    by_cases hp : row0.st.p = .provisioned
    · rw [if_pos hp]
      by_cases ha : row0.active = true
      · rw [if_pos ha]
        exact schedE (Or.inr ha)
      · rw [if_neg ha]
        apply L_doActivate (s := added cfg row0 cal up t4) rfl rfl
        intro t up' a tm' out' ht hact
        simp only at ht
        refine ⟨by simp only; omega, fun _ => ⟨true, ?_⟩, fun e he => absurd he (by simp)⟩
        refine ⟨SameConn.refl _, hadd, fun h => absurd h hpe, fun _ => rfl, fun _ => Or.inr ?_, fun hset => ⟨?_, Or.inr (Or.inl ?_)⟩⟩
        · exact ⟨hp, hh, hnsa, hpe1, hpe2, fun b hb => Int.le_trans (hstart b hb) (by simp only; omega)⟩
        · have := (holdsOf hset).1
          rw [holds_iff] at this
          exact (holds_iff.mpr this).symm
        · refine ⟨fun _ e => absurd e hh, fun _ _ hx => ?_, fun _ _ hx => Or.inr ?_⟩
          · rcases hx with hx | hx
            · rw [show row0.st.p = .released from hx] at hp; exact absurd hp (by simp)
            · exact hact.endCall hx
          · have hx : a = false := hx
            rcases hact with ⟨e, _⟩ | ⟨_, _, _, n, e⟩
            · rw [hx] at e; exact absurd e (by simp)
            · exact ⟨n, by simp [e]⟩
    · rw [if_neg hp]
      by_cases hp' : row0.st.p = .released
      · rw [if_pos hp']; exact schedE (Or.inl hp')
      · rw [if_neg hp']
        apply unhandled
        intro hset
        rcases hset.pv with e | e
        · exact absurd e hp'
        · exact absurd e.1 hp
  cases hstart : row0.start with
  | none => exact started (by intro x hx; rw [hstart] at hx; exact absurd hx (by simp))
  | some x =>
    simp only
    by_cases hx : x < now
    · rw [if_pos hx]
      exact started (by intro y hy; rw [hstart] at hy; simp at hy; subst hy; omega)
    · rw [if_neg hx]
      by_cases hx' : x > now
      · rw [if_pos hx']
        have noEnd : row0.end_ = none → ∀ t, Raises row0 clk t := fun he t => Or.inl ⟨he, x, hstart, by omega⟩
        unfold buildOne.waiting
        by_cases hp : row0.st.p = .provisioned ∧ row0.active = false
        · rw [if_pos hp]
          simp only [bind_eq]
          apply L_bind
          apply L_sched (s := added cfg row0 cal up t4) rfl
          · intro t ht hle
            simp only [cont_ok]
            simp only at ht
            cases hen : row0.end_ with
            | none => exact ⟨by simp only; omega, fun h => absurd h (by simp), fun _ _ => noEnd hen _⟩
            | some e =>
              refine ⟨by simp only; omega, fun _ => ⟨true, stay t _ ht fun hset => Or.inl (timer ?_ ?_ hset)⟩, fun e he => absurd he (by simp)⟩
              · intro _ e
                rcases e with e | e
                · rw [hp.1] at e; exact absurd e (by simp)
                · rw [hp.2] at e; exact absurd e (by simp)
              · intro _ _ _
                exact ⟨x, _, _, hstart, by omega, by omega, rfl⟩
          · intro t ht hlt
            exact fails ht (show clk + second < t by simp only at ht; omega)
        · rw [if_neg hp]
          by_cases hp' : row0.st.p = .released
          · rw [if_pos hp']
            cases hen : row0.end_ with
            | none => exact ⟨by simp only; omega, fun h => absurd h (by simp), fun _ _ => noEnd hen _⟩
            | some e =>
              have := schedE (Or.inl hp')
              rw [hen] at this
              exact this
          · rw [if_neg hp']
            apply unhandled
            intro hset
            rcases hset.pv with e | e
            · exact absurd e hp'
            · have ha : row0.active = true := by
                cases ha : row0.active with
                | true => rfl
                | false => exact absurd ⟨e.1, ha⟩ hp
              have := hset.act ha x hstart
              omega
      · rw [if_neg hx']
        refine unhandled fun _ => ⟨x, ?_, ?_, hstart⟩ <;> omega

end

/-! ### All connections -/

/-- What became of stored connection `x` in world `w`, when loading started at `w0`. -/
structure Booted (w0 w : World) (x : Row) (k : Bool) (y : Row) : Prop where
  same : SameConn x y
  gone : x.st.l = .passedEnd ∨ x.st.l = .terminated → k = false ∧ y = x ∧ dget w.tbl x.cid = none
  left : x.st.l ≠ .created → y.st.l = x.st.l
  settled : x.Settled w0.clk → k = y.holds ∧
    ((∃ now, w0.clk ≤ now ∧ now ≤ w.clk ∧ x.start = some now ∧ x.st.r ≠ .held ∧ y = x) ∨
      (TimerFor w.clk y (dget w.tbl x.cid) w.outbox ∨ y.st.r = .start ∧ y.allocated = false))

/-- A link that is up was up before, or belongs to a provisioned connection that has started. -/
def NewLink (w0 : World) (clk : Time) (c : Str) : Prop :=
  c ∈ w0.links ∨ ∃ x ∈ w0.rows, x.cid = c ∧ x.st.p = .provisioned ∧ x.st.r ≠ .held ∧ ¬ (x.st.r = .start ∧ x.allocated = false) ∧
    x.st.l ≠ .passedEnd ∧ x.st.l ≠ .terminated ∧ ∀ b, x.start = some b → b ≤ clk

theorem Row.Settled.mono {c c' : Time} {x : Row} (h : x.Settled c) (hc : c ≤ c') : x.Settled c' :=
  { h with act := fun a s hs => Int.le_trans (h.act a s hs) hc }

/-- The loop invariant: `done` have been loaded, of which those with `keep` have entries in the calendar; `pend` remain. -/
structure Booting (cfg : Cfg) (w0 : World) (done : List Row) (keep : Row → Bool) (pend : List (Nat × Row)) (w : World) : Prop where
  nodup : (w.rows.map (·.cid)).Nodup
  mem : ∀ p ∈ pend, p.2 ∈ w.rows ∧ p.2 ∈ w0.rows ∧ w.heap[p.1]? = some ⟨p.2, false⟩ ∧ dget w.tbl p.2.cid = none
  refs : (pend.map (·.1)).Nodup
  cids : (done.map (·.cid) ++ pend.map (·.2.cid)).Nodup
  cal : w.cal.Perm ((done.filter keep).flatMap (bothResv cfg))
  clk : w0.clk ≤ w.clk
  fin : ∀ x ∈ done, x ∈ w0.rows ∧ ∃ y ∈ w.rows, Booted w0 w x (keep x) y
  links : ∀ c ∈ w.links, NewLink w0 w.clk c
  rest : ∀ x ∈ w0.rows, x ∈ done ∨ (∃ p ∈ pend, p.2 = x) ∨ (x ∈ w.rows ∧ x.st.l = .terminated ∧ dget w.tbl x.cid = none)

theorem NewLink.mono {w0 : World} {c : Str} {t t' : Time} (h : NewLink w0 t c) (ht : t ≤ t') : NewLink w0 t' c := by
  rcases h with h | ⟨x, a1, a2, a3, a4, a5, a6, a7, a8⟩
  · exact Or.inl h
  · exact Or.inr ⟨x, a1, a2, a3, a4, a5, a6, a7, fun b hb => Int.le_trans (a8 b hb) ht⟩

theorem buildOne_booting {cfg : Cfg} {w0 w : World} {done : List Row} {keep : Row → Bool} {ref : Nat} {row : Row} {pend : List (Nat × Row)}
    (hheld : ∀ x ∈ w0.rows, x.st.r = .held → x.active = false ∧ x.allocated = false)
    (h : Booting cfg w0 done keep ((ref, row) :: pend) w) : All (buildOne cfg ref) (fun w' r =>
      (r = .ok () → ∃ keep', Booting cfg w0 (done ++ [row]) keep' pend w') ∧
      (∀ e, r = .error e → ∃ x ∈ w0.rows, Raises x w0.clk w'.clk)) w := by
  obtain ⟨hr, hr0, hget, htbl⟩ := h.mem (ref, row) (by simp)
  simp only at hr hr0 hget htbl
  have hlive := h.refs
  have hcids := h.cids
  simp only [List.map_cons, List.nodup_cons] at hlive
  have hrel := World.rel_view h.nodup hr hget
  rw [show w.view row = unloaded row w.cal (decide (row.cid ∈ w.links)) w.clk by
    simp [World.view, unloaded, htbl]] at hrel
  refine All_mono ?_ (All_of_LAll (buildOne_any (cfg := cfg) (ref := ref) (cal := w.cal) (up := decide (row.cid ∈ w.links)) (clk := w.clk) (hheld row hr0)) hrel)
  rintro w1 r ⟨s', hrel', hclk, hok, herr⟩
  have hc0 := h.clk
  have hclk1 : w1.clk = s'.clk := hrel'.clk
  refine ⟨fun hr1 => ?_, fun e he => ⟨row, hr0, ?_⟩⟩
  rotate_left
  · rcases herr e he with ⟨a, s, b, c⟩ | ⟨a, e', b, c⟩ | a
    · exact Or.inl ⟨a, s, b, by omega⟩
    · exact Or.inr (Or.inl ⟨a, e', b, by omega⟩)
    · exact Or.inr (Or.inr (by omega))
  obtain ⟨k, hk⟩ := hok hr1
  have hmem : ∀ x, x ∈ w1.rows ↔ x = s'.row ∨ (x ∈ w.rows ∧ x.cid ≠ row.cid) := by
    intro x; rw [hrel'.rows]; exact mem_setRow h.nodup hr hrel'.rcid x
  have hndone : ∀ x ∈ done, x.cid ≠ row.cid := by
    intro x hx e
    rw [List.nodup_append] at hcids
    exact hcids.2.2 _ (List.mem_map_of_mem hx) row.cid (by simp) e
  let keep' : Row → Bool := fun x => if x.cid = row.cid then k else keep x
  have hkd : ∀ x ∈ done, keep' x = keep x := fun x hx => by simp only [keep', if_neg (hndone x hx)]
  have hkr : keep' row = k := by simp [keep']
  refine ⟨keep', ?_⟩
  constructor
  · rw [hrel'.rows, map_cid_setRow]; exact h.nodup
  · intro p hp
    obtain ⟨h1, h2, h3, h4⟩ := h.mem p (List.mem_cons_of_mem _ hp)
    have hne : p.2.cid ≠ row.cid := by
      intro e
      rw [List.nodup_append] at hcids
      have := hcids.2.1
      simp only [List.map_cons, List.nodup_cons] at this
      exact this.1 (by rw [← e]; exact List.mem_map_of_mem (f := fun p : Nat × Row => p.2.cid) hp)
    have hnr : p.1 ≠ ref := fun e => hlive.1 (by rw [← e]; exact List.mem_map_of_mem (f := fun p : Nat × Row => p.1) hp)
    exact ⟨(hmem _).mpr (Or.inr ⟨h1, hne⟩), h2, by rw [hrel'.heap _ hnr]; exact h3, by rw [hrel'.tbl _ hne]; exact h4⟩
  · exact hlive.2
  · simpa using hcids
  · rw [hrel'.cal]
    refine hk.cal.trans ?_
    rw [List.filter_append, List.flatMap_append, List.filter_congr (q := keep) hkd]
    have : ((List.filter keep' [row]).flatMap (bothResv cfg)) = if k then bothResv cfg row else [] := by
      simp only [List.filter_cons, hkr, List.filter_nil]
      cases k <;> simp
    rw [this]
    exact List.perm_append_comm.trans (List.Perm.append_right _ h.cal)
  · omega
  · intro x hx
    rcases List.mem_append.mp hx with hx | hx
    · obtain ⟨hx0, y, hy, hb⟩ := h.fin x hx
      have hne : x.cid ≠ row.cid := hndone x hx
      refine ⟨hx0, y, (hmem _).mpr (Or.inr ⟨hy, by rw [hb.same.1]; exact hne⟩), ?_⟩
      rw [hkd x hx]
      refine ⟨hb.same, fun a => ?_, hb.left, fun a => ?_⟩
      · rw [hrel'.tbl _ hne]; exact hb.gone a
      · obtain ⟨b1, b2⟩ := hb.settled a
        refine ⟨b1, ?_⟩
        rcases b2 with ⟨now, c1, c2, c3⟩ | c | c
        · exact Or.inl ⟨now, c1, by omega, c3⟩
        · refine Or.inr (Or.inl ?_)
          rw [hrel'.tbl _ hne]
          exact c.mono (by omega) (fun m hm => by rw [hrel'.out]; exact List.mem_append_left _ hm)
        · exact Or.inr (Or.inr c)
    · simp only [List.mem_singleton] at hx
      subst hx
      refine ⟨hr0, s'.row, (hmem _).mpr (Or.inl rfl), ?_⟩
      rw [hkr]
      refine ⟨hk.same, fun a => ?_, hk.left, fun a => ?_⟩
      · obtain ⟨b1, b2, b3, _⟩ := hk.gone a
        exact ⟨b1, b2, by rw [hrel'.tm]; exact b3⟩
      · obtain ⟨b1, b2⟩ := hk.settled (a.mono hc0)
        refine ⟨b1, ?_⟩
        rcases b2 with ⟨now, c1, c2, c3⟩ | c | c
        · exact Or.inl ⟨now, Int.le_trans hc0 c1, by omega, c3⟩
        · refine Or.inr (Or.inl ?_)
          rw [hrel'.tm, hclk1]
          exact c.mono (Int.le_refl _) (fun m hm => by rw [hrel'.out]; exact List.mem_append_right _ hm)
        · exact Or.inr (Or.inr c)
  · intro c hc
    by_cases hcr : c = row.cid
    · subst hcr
      have hu := hk.up (by rw [← hrel'.up]; simpa using hc)
      rcases hu with hu | ⟨a1, a2, a3, a4, a5, a6⟩
      · exact (h.links _ (by simpa using hu)).mono (by omega)
      · exact Or.inr ⟨row, hr0, rfl, a1, a2, a3, a4, a5, fun b hb => by rw [hclk1]; exact a6 b hb⟩
    · rw [hrel'.links c hcr] at hc
      exact (h.links c hc).mono (by omega)
  · intro x hx
    rcases h.rest x hx with a | ⟨p, hp, a⟩ | ⟨a, b⟩
    · exact Or.inl (List.mem_append_left _ a)
    · rcases List.mem_cons.mp hp with e | hp
      · subst e; subst a; exact Or.inl (by simp)
      · exact Or.inr (Or.inl ⟨p, hp, a⟩)
    · by_cases hc : x.cid = row.cid
      · have := eq_of_cid h.nodup a hr hc
        subst this
        exact Or.inl (by simp)
      · exact Or.inr (Or.inr ⟨(hmem _).mpr (Or.inr ⟨a, hc⟩), b.1, by rw [hrel'.tbl _ hc]; exact b.2⟩)

theorem buildLoop_booting {cfg : Cfg} {w0 : World} (hheld : ∀ x ∈ w0.rows, x.st.r = .held → x.active = false ∧ x.allocated = false) :
    ∀ (pend : List (Nat × Row)) (done : List Row) (keep : Row → Bool) (w : World), Booting cfg w0 done keep pend w →
    All (buildLoop cfg (pend.map (·.1))) (fun w' r =>
      (r = .ok () → ∃ keep', Booting cfg w0 (done ++ pend.map (·.2)) keep' [] w') ∧
      (∀ e, r = .error e → ∃ x ∈ w0.rows, Raises x w0.clk w'.clk)) w := by
  intro pend
  induction pend with
  | nil => intro done keep w h; exact ⟨fun _ => ⟨keep, by simpa using h⟩, fun e he => absurd he (by simp)⟩
  | cons p pend ih =>
    intro done keep w h
    obtain ⟨ref, row⟩ := p
    simp only [List.map_cons, buildLoop, bind_eq]
    rw [All_bind]
    refine All_mono ?_ (buildOne_booting hheld h)
    rintro w1 r ⟨hq, hq'⟩
    cases r with
    | error e => exact ⟨fun hx => absurd hx (by simp), fun e' he' => hq' e rfl⟩
    | ok u =>
      obtain ⟨keep', hl⟩ := hq rfl
      have := ih _ keep' w1 hl
      simpa using this

/-- A restart from any database. -/
theorem restart_any {cfg : Cfg} {w : World} (hn : (w.rows.map (·.cid)).Nodup)
    (hheld : ∀ x ∈ w.rows, x.st.r = .held → x.active = false ∧ x.allocated = false) :
    All (buildSchedule cfg) (fun w' r =>
      (r = .ok () → ∃ keep, Booting cfg w w.live keep [] w') ∧ (∀ e, r = .error e → ∃ x ∈ w.rows, Raises x w.clk w'.clk)) w.reboot := by
  unfold buildSchedule
  simp only [bind_eq]
  rw [All_bind, All_issue]
  intro t o ht
  simp only [execAt, cont_ok]
  have hheap : w.reboot.heap = [] := rfl
  simp only [hheap, List.nil_append, List.length_nil]
  let live := w.rows.filter fun r => r.st.l ≠ .terminated
  let pend := ((List.range live.length).map fun i => 0 + i).zip live
  have hlen : ((List.range live.length).map fun i => 0 + i).length = live.length := by simp
  have hfst : pend.map (·.1) = (List.range live.length).map fun i => 0 + i :=
    List.map_fst_zip (by rw [hlen]; exact Nat.le_refl _)
  have hsnd : pend.map (·.2) = live := List.map_snd_zip (by rw [hlen]; exact Nat.le_refl _)
  have hlive : ∀ x, x ∈ live ↔ x ∈ w.rows ∧ x.st.l ≠ .terminated := by intro x; simp [live]
  have hb : Booting cfg w [] (fun _ => false) pend { w.reboot with heap := w.live.map fun r => ⟨r, false⟩, clk := t, orc := o } := by
    constructor
    · exact hn
    · intro p hp
      have hm : p.2 ∈ live := by rw [← hsnd]; exact List.mem_map_of_mem hp
      have := zip_ids p hp
      obtain ⟨a, b⟩ := (hlive _).mp hm
      refine ⟨a, a, ?_, rfl⟩
      show (live.map fun r => (⟨r, false⟩ : Obj))[p.1]? = _
      rw [List.getElem?_map, this]; rfl
    · rw [hfst]
      simp only [Nat.zero_add, List.map_id']
      exact List.nodup_range
    · have : pend.map (fun p => p.2.cid) = live.map (·.cid) := by
        rw [← hsnd, List.map_map]; rfl
      rw [this]
      exact hn.sublist (List.filter_sublist.map _)
    · exact List.Perm.refl _
    · exact ht
    · intro x hx; exact absurd hx (by simp)
    · exact fun c hc => Or.inl hc
    · intro x hx
      by_cases hl : x.st.l = .terminated
      · exact Or.inr (Or.inr ⟨hx, hl, rfl⟩)
      · have : x ∈ pend.map (·.2) := by rw [hsnd]; exact (hlive x).mpr ⟨hx, hl⟩
        obtain ⟨p, hp, e⟩ := List.mem_map.mp this
        exact Or.inr (Or.inl ⟨p, hp, e⟩)
  have key := buildLoop_booting hheld pend _ _ _ hb
  rw [hfst, hsnd] at key
  exact key

end OpenNSA.Backend
