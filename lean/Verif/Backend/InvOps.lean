import Verif.Backend.Inv
/-
Each operation on one connection preserves the invariant.
-/
namespace OpenNSA.Backend
open OpenNSA Py Prog

/-! ### Calendar -/

theorem rm2_perm {cal rest : Cal} {a b : Resv} (h : cal.Perm ([a, b] ++ rest)) :
    (rm2 cal a b).2 = none ∧ (rm2 cal a b).1.Perm rest := by
  have ha : a ∈ cal := h.symm.subset (by simp)
  have h1 : (cal.erase a).Perm (b :: rest) := by
    have := h.erase a
    simpa using this
  have hb : b ∈ cal.erase a := h1.symm.subset (by simp)
  have h2 : ((cal.erase a).erase b).Perm rest := by
    have := h1.erase b
    simpa using this
  unfold rm2 Cal.remove
  rw [if_pos ha]
  simp only
  rw [if_pos hb]
  exact ⟨rfl, h2⟩

theorem rm2_absent {cal : Cal} {a b : Resv} (h : a ∉ cal) : rm2 cal a b = (cal, some .value) := by
  unfold rm2 Cal.remove
  rw [if_neg h]
  rfl

theorem ents_holds {cfg : Cfg} {r : Row} (h : r.holds = true) : ents cfg r = [srcResv cfg r, dstResv cfg r] := by
  unfold ents; rw [if_pos h]

theorem ents_free {cfg : Cfg} {r : Row} (h : r.holds = false) : ents cfg r = [] := by
  unfold ents; rw [h]; rfl

theorem holds_iff {r : Row} : r.holds = true ↔ r.st.l = .created ∧ (r.st.r = .held ∨ r.allocated = true) := by
  simp [Row.holds]

theorem holds_false {r : Row} (h : ¬ (r.st.l = .created ∧ (r.st.r = .held ∨ r.allocated = true))) : r.holds = false := by
  rw [← holds_iff] at h; simpa using h

/-! ### Start of an operation -/

/-- The situation in which an operation on a connection starts. -/
structure Start (cfg : Cfg) (w : World) (ref : Nat) (row0 : Row) (out0 : List Msg) (rest : List Resv) (s : S) : Prop where
  row : s.row = row0
  obj : s.obj = row0
  out : s.out = []
  ok : RowOk s.clk row0
  timer : ∀ tm, s.tm = some tm → tm.called = false → TimerOk row0 tm ∧ tm.ref ≠ ref
  link : LinkOk row0 s.up out0
  cal : s.cal.Perm (ents cfg row0 ++ rest)
  ghost : row0.ghost → srcResv cfg row0 ∉ s.cal
  nc : row0.claims → NcOthers cfg w row0

/-- `Good` of a connection that was stored before, among those of `w`. -/
structure GoodL (cfg : Cfg) (w : World) (ref : Nat) (row0 : Row) (s0 : S) (out0 : List Msg) (rest : List Resv) (s : S) : Prop
    extends Good cfg ref true row0 s0 out0 rest (NcOthers cfg w) s where
  ev : Evolves row0 s.row

section
variable {cfg : Cfg} {w : World} {ref : Nat} {row0 : Row} {out0 : List Msg} {rest : List Resv} {s : S}

theorem Start.same (h : Start cfg w ref row0 out0 rest s) (he : Expires s.clk row0 s.tm out0) {t : Time} {o : Row}
    (ht : s.clk ≤ t) : GoodL cfg w ref row0 s out0 rest { s with obj := o, clk := t } where
  row := by simp only [h.row]; exact h.ok.mono ht
  timer := fun tm h1 h2 => by
    obtain ⟨h3, h4⟩ := h.timer tm h1 h2
    rw [← h.row] at h3
    exact ⟨h3, rfl, Or.inl ⟨rfl, h.row, h4⟩⟩
  link := by simp only [h.row, h.out, List.append_nil]; exact h.link
  cal := by simp only [h.row, ldEnts, if_true]; exact h.cal
  claims := by simp only [h.row]; exact h.nc
  exp := fun _ => by
    simp only [h.row, h.out, List.append_nil]
    intro a b c; exact (he a b c).mono ht
  conf := fun c _ hc => by simpa [h.out] using hc
  newUp := Or.inl
  later := ht
  ev := by simp only [h.row]; exact Evolves.refl _

/-- A new row that no longer has a claim or keeps it, with a new timer. -/
theorem Start.change (_h : Start cfg w ref row0 out0 rest s) {t : Time} {row' : Row} {tm' : Option Timer}
    {up' : Bool} {out' : List Msg} {cal' : Cal} (hrow : RowOk t row')
    (htm : ∀ tm, tm' = some tm → tm.called = false → TimerOk row' tm ∧ tm.ref = ref)
    (hlink : LinkOk row' up' (out0 ++ out')) (hcal : cal'.Perm (ents cfg row' ++ rest))
    (hcl : row'.claims → NcOthers cfg w row') (hexp : row'.st.l = .created → row'.st.r ≠ .held)
    (hconf : ∀ m ∈ out', ∀ a b c d e f, m ≠ .reserveConfirmed a b c d e f)
    (hup : up' = true → s.up = true ∨ SetUpOk t row') (ht : s.clk ≤ t) (hev : Evolves row0 row') :
    GoodL cfg w ref row0 s out0 rest { row := row', obj := row', cal := cal', tm := tm', up := up', out := out', clk := t } where
  row := hrow
  timer := fun tm h1 h2 => by
    obtain ⟨h3, h4⟩ := htm tm h1 h2
    exact ⟨h3, rfl, Or.inr ⟨h4, rfl⟩⟩
  link := hlink
  cal := by simp only [ldEnts, if_true]; exact hcal
  claims := hcl
  exp := fun _ a b => absurd b (hexp a)
  conf := fun c _ hc => by
    obtain ⟨corr, sl, dl, b, e, hm⟩ := hc
    rcases List.mem_append.mp hm with hm | hm
    · exact ⟨corr, sl, dl, b, e, hm⟩
    · exact absurd rfl (hconf _ hm _ _ _ _ _ _)
  newUp := hup
  later := ht
  ev := hev

theorem Start.rm2_holds (h : Start cfg w ref row0 out0 rest s) (hh : row0.holds = true) :
    (rm2 s.cal (srcResv cfg row0) (dstResv cfg row0)).2 = none ∧
    (rm2 s.cal (srcResv cfg row0) (dstResv cfg row0)).1.Perm rest := by
  have := h.cal
  rw [ents_holds hh] at this
  exact rm2_perm this

theorem EndTimer.ok {row : Row} {ref : Nat} {tm' : Option Timer} (h : EndTimer ref row tm') {row' : Row}
    (he : row'.end_ = row.end_) (hr : row'.st.r = .start) :
    ∀ tm, tm' = some tm → tm.called = false → TimerOk row' tm ∧ tm.ref = ref := by
  intro tm h1 _
  rcases h with e | ⟨e, due, h2, h3, h4⟩
  · rw [e] at h1; exact absurd h1 (by simp)
  · rw [h4] at h1; simp at h1; subst h1
    exact ⟨⟨hr, e, by rw [he]; exact h2, h3⟩, rfl⟩

theorem noTimer {row' : Row} {ref : Nat} : ∀ tm, (none : Option Timer) = some tm → tm.called = false → TimerOk row' tm ∧ tm.ref = ref := by
  intro tm h; exact absurd h (by simp)

/-! ### Commit -/

/-- The request was refused and nothing changed. -/
def Refused (s s' : S) (r : Except Err Unit) (why : Err → Prop) : Prop :=
  s'.row = s.row ∧ s'.cal = s.cal ∧ s'.tm = s.tm ∧ s'.up = s.up ∧ s'.out = s.out ∧ ∃ e, r = .error e ∧ why e

theorem commit_good {h : Hdr} (hs : Start cfg w ref row0 out0 rest s) (he : Expires s.clk row0 s.tm out0) :
    LAll row0.cid ref (commitOn cfg h row0.cid ref) (fun s' r => GoodL cfg w ref row0 s out0 rest s' ∧
      (Refused s s' r (fun e => authorize cfg h row0.srcPort row0.dstPort = .error e ∨ (isGone row0 = true ∧ e = .gone) ∨
          (isGone row0 = false ∧ row0.st.r ≠ .held ∧ e = .internal)) ∨
        (isGone row0 = false ∧ row0.st.r = .held ∧ s'.row = row0.committed ∧ s'.up = s.up ∧ s'.cal = s.cal ∧
          EndCall row0.end_ s'.tm s'.clk))) s := by
  have hc : s.obj.cid = row0.cid := by rw [hs.obj]
  have good : row0.st.r = .held → isGone row0 = false → ∀ t tm' out', s.clk ≤ t → EndTimer ref row0 tm' →
      (∀ m ∈ out', ∀ a b c d e f, m ≠ .reserveConfirmed a b c d e f) →
      GoodL cfg w ref row0 s out0 rest { (s.put row0.committed) with tm := tm', clk := t, out := out' } := by
    intro hh hg t tm' out' ht htm hout
    have hok := hs.ok.mono ht
    have hal : row0.allocated = false := by
      rcases hok.rs with h1 | h1 | h1
      · rw [h1] at hh; exact absurd hh (by simp)
      · exact h1.2
      · exact h1.2.2
    refine hs.change ?_ (htm.ok rfl rfl) ?_ ?_ ?_ (fun _ => by simp [Row.committed]) hout Or.inl ht
      ⟨⟨rfl, rfl, rfl, rfl, rfl, rfl, rfl, rfl, rfl⟩, id, id, fun a => absurd hh a, fun _ => rfl⟩
    · exact { hok with
        rs := Or.inl rfl
        pv := fun _ => rfl
        ended := fun a => by
          obtain ⟨e, h1, h2, _⟩ := hok.ended a
          exact ⟨e, h1, h2, fun x => absurd x (by simp [Row.committed])⟩ }
    · exact hs.link.mono
    · have := hs.cal
      have e : ents cfg row0.committed = ents cfg row0 := by
        unfold ents
        have : row0.committed.holds = row0.holds := by
          rw [Bool.eq_iff_iff, holds_iff, holds_iff]; simp [Row.committed, hh]
        rw [this]; rfl
      rw [e]; exact this
    · rintro (hcl | hcl)
      · refine hs.nc (Or.inl ?_)
        rw [holds_iff] at hcl ⊢
        exact ⟨hcl.1, Or.inl hh⟩
      · exact absurd hcl.2 (by simp [Row.committed])
  apply L_commitOn hc
  · intro t e o ht _ hwhy
    rw [hs.obj] at hwhy
    exact ⟨hs.same he ht, Or.inl ⟨rfl, rfl, rfl, rfl, rfl, e, rfl, hwhy⟩⟩
  · rw [hs.obj]
    intro _ hg hh t tm' ht htm hec res _
    rw [hs.out]
    exact ⟨good hh hg t tm' _ ht htm (by simp), Or.inr ⟨hg, hh, rfl, rfl, rfl, hec⟩⟩
  · rw [hs.obj]
    intro _ hg hh t e ht hend hlt
    have := good hh hg t none [] ht (Or.inl rfl) (by simp)
    rw [← hs.out] at this
    exact ⟨this, Or.inr ⟨hg, hh, rfl, rfl, rfl, fun x hx => by rw [hend] at hx; simp at hx; subst hx; exact Or.inr hlt⟩⟩

/-! ### Rollback -/

theorem RowOk.held {t : Time} (h : RowOk t row0) (hh : row0.st.r = .held) :
    row0.allocated = false ∧ row0.active = false ∧ row0.st.p = .released := by
  have hal : row0.allocated = false := by
    rcases h.rs with h1 | h1 | h1
    · rw [h1] at hh; exact absurd hh (by simp)
    · exact h1.2
    · exact h1.2.2
  have hp : row0.st.p = .released := Decidable.byContradiction fun hp => by
    have := h.pv hp; rw [hal] at this; exact absurd this (by simp)
  refine ⟨hal, ?_, hp⟩
  cases ha : row0.active with
  | false => rfl
  | true => have := (h.act ha).2.1; rw [hp] at this; exact absurd this (by simp)

/-- A rolled back row. -/
theorem good_rolled (hs : Start cfg w ref row0 out0 rest s) (hh : row0.st.r = .held) (hl : row0.st.l = .created)
    {t : Time} {tm' : Option Timer} {out' : List Msg} {cal' : Cal} (ht : s.clk ≤ t)
    (htm : EndTimer ref row0 tm') (hout : ∀ m ∈ out', ∀ a b c d e f, m ≠ .reserveConfirmed a b c d e f)
    (hcal : cal'.Perm rest) :
    GoodL cfg w ref row0 s out0 rest
      { (s.put (row0.withR .start)) with tm := tm', clk := t, out := out', cal := cal' } := by
  have hok := hs.ok.mono ht
  obtain ⟨hal, hact, hp⟩ := hok.held hh
  have hf : (row0.withR .start).holds = false := by
    apply holds_false; rintro ⟨_, h | h⟩
    · exact absurd h (by simp)
    · exact absurd h (by simp [hal])
  refine hs.change ?_ (htm.ok rfl rfl) ?_ ?_ ?_ (fun _ => by simp) hout Or.inl ht
    ⟨⟨rfl, rfl, rfl, rfl, rfl, rfl, rfl, rfl, rfl⟩, id, id, fun a => absurd hh a, id⟩
  · exact { hok with
      rs := Or.inl rfl
      ended := fun a => by rw [show row0.st.l = .passedEnd from a] at hl; exact absurd hl (by simp) }
  · exact hs.link.mono
  · rw [ents_free hf]; simpa using hcal
  · rintro (h | h)
    · rw [hf] at h; exact absurd h (by simp)
    · exact absurd h.2 (by simp)

/-- A rolled back row whose end time has passed. -/
theorem good_rolledEnd (hs : Start cfg w ref row0 out0 rest s) (hh : row0.st.r = .held) (hl : row0.st.l ≠ .terminated)
    {t e : Time} {out' : List Msg} {cal' : Cal} (ht : s.clk ≤ t) (he : row0.end_ = some e) (het : e < t)
    (hout : ∀ m ∈ out', ∀ a b c d e f, m ≠ .reserveConfirmed a b c d e f) (hcal : cal'.Perm rest) :
    GoodL cfg w ref row0 s out0 rest
      { (s.put ((row0.withR .start).withL .passedEnd)) with tm := none, clk := t, out := out', cal := cal' } := by
  have hok := hs.ok.mono ht
  obtain ⟨hal, hact, hp⟩ := hok.held hh
  have hf : ((row0.withR .start).withL .passedEnd).holds = false := by
    apply holds_false; rintro ⟨h, _⟩
    exact absurd h (by simp)
  refine hs.change ?_ noTimer ?_ ?_ ?_ (fun _ => by simp) hout Or.inl ht
    ⟨⟨rfl, rfl, rfl, rfl, rfl, rfl, rfl, rfl, rfl⟩, fun a => absurd a hl, fun _ => by simp, fun a => absurd hh a, id⟩
  · exact { hok with
      lc := Or.inr (Or.inl rfl)
      rs := Or.inl rfl
      act := fun a => by rw [show row0.active = true from a] at hact; exact absurd hact (by simp)
      ended := fun _ => ⟨e, he, by omega, fun x => absurd x (by simp)⟩ }
  · exact hs.link.mono
  · rw [ents_free hf]; simpa using hcal
  · rintro (h | h)
    · rw [hf] at h; exact absurd h (by simp)
    · exact absurd h.2 (by simp)

/-- A ghost whose rollback failed. -/
theorem good_ghost (hs : Start cfg w ref row0 out0 rest s) (hg : row0.ghost) {t : Time} {out' : List Msg}
    (ht : s.clk ≤ t) (hout : ∀ m ∈ out', ∀ a b c d e f, m ≠ .reserveConfirmed a b c d e f) :
    GoodL cfg w ref row0 s out0 rest
      { (s.put (row0.withR .aborting)) with tm := none, clk := t, out := out' } := by
  have hok := hs.ok.mono ht
  obtain ⟨hal, hact, hp⟩ := hok.held hg.2
  have hf : (row0.withR .aborting).holds = false := by
    apply holds_false; rintro ⟨h, _⟩
    exact absurd (hg.1.symm.trans h) (by simp)
  have hf0 : row0.holds = false := by
    apply holds_false; rintro ⟨h, _⟩
    exact absurd (hg.1.symm.trans h) (by simp)
  refine hs.change ?_ noTimer ?_ ?_ ?_ (fun _ => by simp) hout Or.inl ht
    ⟨⟨rfl, rfl, rfl, rfl, rfl, rfl, rfl, rfl, rfl⟩, id, id, fun a => absurd hg.2 a, id⟩
  · exact { hok with
      rs := Or.inr (Or.inr ⟨rfl, by rw [show (row0.withR .aborting).st.l = row0.st.l from rfl, hg.1]; simp, hal⟩)
      ended := fun a => by
        obtain ⟨e, h1, h2, _⟩ := hok.ended a
        exact ⟨e, h1, h2, fun x => absurd x (by simp)⟩ }
  · exact hs.link.mono
  · rw [ents_free hf]
    have := hs.cal
    rw [ents_free hf0] at this
    exact this
  · rintro (h | h)
    · rw [hf] at h; exact absurd h (by simp)
    · exact absurd h.2 (by simp)

theorem aborting_held {t : Time} (hok : RowOk t row0) (h : RState.aborting ∈ reserveTransitions row0.st.r) :
    row0.st.r = .held := by
  rcases hok.rs with e | e | e
  · rw [e] at h; exact absurd h (by decide)
  · exact e.1
  · rw [e.1] at h; exact absurd h (by decide)

theorem held_aborting (h : row0.st.r = .held) : RState.aborting ∈ reserveTransitions row0.st.r := by rw [h]; decide

theorem held_created_or_ghost {t : Time} (hok : RowOk t row0) (hh : row0.st.r = .held) (hg : isGone row0 = false) :
    row0.st.l = .created ∨ row0.ghost := by
  rcases hok.lc with h | h | h
  · exact Or.inl h
  · exact Or.inr ⟨h, hh⟩
  · simp [isGone, h] at hg

theorem abort_good {h : Hdr} (hs : Start cfg w ref row0 out0 rest s) (he : Expires s.clk row0 s.tm out0) :
    LAll row0.cid ref (abortOn cfg h row0.cid ref) (fun s' r => GoodL cfg w ref row0 s out0 rest s' ∧
      (Refused s s' r (fun e => authorize cfg h row0.srcPort row0.dstPort = .error e ∨ (isGone row0 = true ∧ e = .gone)) ∨
        (isGone row0 = false ∧ row0.st.r ≠ .held ∧ r = .ok () ∧ s'.row = row0 ∧ s'.up = s.up ∧ s'.cal = s.cal ∧ s'.tm = s.tm) ∨
        (isGone row0 = false ∧ row0.st.r = .held ∧ r = .ok () ∧ s'.up = s.up ∧ s'.row.allocated = false ∧
          (row0.st.l = .created → s'.row.st.r = .start) ∧ s'.row.st.r ≠ .held))) s := by
  have hc : s.obj.cid = row0.cid := by rw [hs.obj]
  have hcre : row0.st.r = .held → row0.st.l = .created → row0.holds = true := fun h1 h2 => holds_iff.mpr ⟨h2, Or.inl h1⟩
  apply L_abortOn hc
  · rw [hs.obj]
    intro hx
    have := hs.ok.held (aborting_held hs.ok hx)
    exact ⟨this.2.1, this.1⟩
  · intro t e ht hwhy
    rw [hs.obj] at hwhy
    exact ⟨hs.same he ht, Or.inl ⟨rfl, rfl, rfl, rfl, rfl, e, rfl, hwhy⟩⟩
  · rw [hs.obj]
    intro hg hx t ht
    refine ⟨?_, Or.inr (Or.inl ⟨hg, fun hh => hx (held_aborting hh), rfl, hs.row, rfl, rfl, rfl⟩)⟩
    have := hs.same he (o := row0) ht
    exact { this with
      link := by have := this.link.mono (o' := [.reserveAbortConfirmed row0.cid]); simpa using this
      exp := fun a b c d => this.exp a b c (by
        obtain ⟨x1, x2, x3, x4, x5, hm⟩ := d
        refine ⟨x1, x2, x3, x4, x5, ?_⟩
        simp [hs.out] at hm
        simp [hs.out, hm])
      conf := fun c hc d => this.conf c hc (by
        obtain ⟨x1, x2, x3, x4, x5, hm⟩ := d
        refine ⟨x1, x2, x3, x4, x5, ?_⟩
        simp [hs.out] at hm
        simp [hs.out, hm]) }
  · rw [hs.obj]
    intro hg hx hrm t ht
    have hh := aborting_held hs.ok hx
    rcases held_created_or_ghost hs.ok hh hg with hl | hl
    · exact absurd (hs.rm2_holds (hcre hh hl)).1 hrm
    · rw [rm2_absent (hs.ghost hl), hs.out]
      exact ⟨good_ghost hs hl ht (by simp), Or.inr (Or.inr ⟨hg, hh, rfl, rfl, (hs.ok.held hh).1,
        (fun x => by rw [hl.1] at x; exact absurd x (by simp)), by simp⟩)⟩
  · rw [hs.obj]
    intro hg hx hrm t tm' ht htm
    have hh := aborting_held hs.ok hx
    rcases held_created_or_ghost hs.ok hh hg with hl | hl
    · rw [hs.out]
      exact ⟨good_rolled hs hh hl ht htm (by simp) (hs.rm2_holds (hcre hh hl)).2, Or.inr (Or.inr ⟨hg, hh, rfl, rfl,
        (hs.ok.held hh).1, (fun _ => rfl), by simp⟩)⟩
    · rw [rm2_absent (hs.ghost hl)] at hrm; exact absurd hrm (by simp)
  · rw [hs.obj]
    intro hg hx hrm hl t e ht hend het
    have hh := aborting_held hs.ok hx
    rw [hs.out]
    exact ⟨good_rolledEnd hs hh (by rw [hl]; simp) ht hend het (by simp) (hs.rm2_holds (hcre hh hl)).2, Or.inr (Or.inr ⟨hg, hh, rfl, rfl,
      (hs.ok.held hh).1, (fun _ => rfl), by simp⟩)⟩

end
end OpenNSA.Backend
