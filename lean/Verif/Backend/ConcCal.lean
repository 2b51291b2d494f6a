import Verif.Backend.Rely
import Verif.Backend.Reserve
import Verif.Calendar.Props
/-
The calendar under interleaved execution.
-/
namespace OpenNSA.Backend
open OpenNSA Py Prog

/-- Seen at `now`, the two entries occupy the same resource at a common instant. -/
def Share (now : Time) (x y : Resv) : Prop := x.resource = y.resource ∧ ∃ t, x.OccupiesAt now t ∧ y.OccupiesAt now t

theorem Share.earlier {a b : Time} {x y : Resv} (h : Share b x y) (hab : a ≤ b) : Share a x y := by
  obtain ⟨h1, t, h2, h3⟩ := h
  have k : ∀ z : Resv, z.OccupiesAt b t → z.OccupiesAt a t := by
    intro z hz
    refine ⟨?_, hz.2⟩
    have := hz.1
    cases hs : z.start with
    | none => rw [hs] at this; simp only [Option.getD_none] at this ⊢; omega
    | some s => rw [hs] at this; exact this
  exact ⟨h1, t, k x h2, k y h3⟩

/-- Invariant of the calendar: entries that share an instant are the two ends of one reservation (`T`). -/
structure CalOk (T : Resv → Prop) (now : Time) (c : Cal) : Prop where
  starts : ∀ x ∈ c, ∀ s, x.start = some s → s ≤ year2095
  apart : now < forever → c.Pairwise fun x y => Share now x y → x = y ∧ T x
  twice : ∀ x, c.count x ≤ 2

theorem CalOk.later {T : Resv → Prop} {a b : Time} {c : Cal} (h : CalOk T a c) (hab : a ≤ b) : CalOk T b c :=
  ⟨h.starts, fun hb => (h.apart (by omega)).imp fun k hs => k (hs.earlier hab), h.twice⟩

theorem CalOk.sub {T : Resv → Prop} {a : Time} {c d : Cal} (h : CalOk T a c) (hd : d.Sublist c) : CalOk T a d :=
  ⟨fun x hx => h.starts x (hd.subset hx), fun ha => (h.apart ha).sublist hd, fun x => Nat.le_trans (hd.count_le x) (h.twice x)⟩

/-- A successful check: nothing in the calendar shares an instant with the reservation, then or later. -/
theorem not_share_of_check {c : Cal} {t now : Time} {x r : Resv} (hx : ∀ s, x.start = some s → s ≤ year2095) (hm : x ∈ c)
    (hc : c.check t r = .ok ()) (ht : t ≤ now) (hnow : now < forever) : ¬ Share now x r := by
  intro hs
  obtain ⟨hres, u, h1, h2⟩ := hs.earlier ht
  exact no_clash_of_check (b := ⟨x, t⟩) hx (by omega) hm hc ⟨hres, u, h1, h2⟩

theorem not_mem_of_check {c : Cal} {t : Time} {r : Resv} (hc : c.check t r = .ok ()) : r ∉ c := by
  intro hm
  have ho := checkLoop_ok.mp (check_ok.mp hc).2 r hm rfl
  obtain ⟨p1, p2, p3⟩ := resourceOverlap_false.mp ho
  omega

theorem starts_of_check {c : Cal} {t : Time} {r : Resv} (hc : c.check t r = .ok ()) : ∀ s, r.start = some s → s ≤ year2095 :=
  fun s hs => ((check_ok.mp hc).1.2 s hs).2

theorem CalOk.add {T : Resv → Prop} {now t : Time} {c : Cal} {r : Resv} (h : CalOk T now c) (hc : c.check t r = .ok ()) (ht : t ≤ now) :
    CalOk T now (c ++ [r]) where
  starts x hx := by
    rcases List.mem_append.mp hx with hx | hx
    · exact h.starts x hx
    · simp only [List.mem_cons, List.not_mem_nil, or_false] at hx
      subst hx
      exact starts_of_check hc
  apart hn := by
    rw [List.pairwise_append]
    refine ⟨h.apart hn, by simp, ?_⟩
    intro x hx y hy hs
    simp only [List.mem_cons, List.not_mem_nil, or_false] at hy
    subst hy
    exact absurd hs (not_share_of_check (h.starts x hx) hx hc ht hn)
  twice x := by
    rw [List.count_append]
    by_cases e : r = x
    · subst e
      simp [List.count_eq_zero_of_not_mem (not_mem_of_check hc)]
    · have : List.count x [r] = 0 := List.count_eq_zero_of_not_mem (by simp; exact fun h => e h.symm)
      rw [this]
      exact h.twice x

/-- Both ends of a reservation. -/
theorem CalOk.addBoth {T : Resv → Prop} {now t t' : Time} {c : Cal} {r r' : Resv} (h : CalOk T now c) (hc : c.check t r = .ok ())
    (hc' : c.check t' r' = .ok ()) (ht : t ≤ now) (ht' : t' ≤ now) (hs : r.start = r'.start) (he : r.end_ = r'.end_)
    (hT : r.resource = r'.resource → T r) : CalOk T now (c ++ [r] ++ [r']) where
  starts x hx := by
    rcases List.mem_append.mp hx with hx | hx
    · exact (h.add hc ht).starts x hx
    · simp only [List.mem_cons, List.not_mem_nil, or_false] at hx
      subst hx
      exact starts_of_check hc'
  apart hn := by
    rw [List.pairwise_append]
    refine ⟨(h.add hc ht).apart hn, by simp, ?_⟩
    intro x hx y hy hsh
    simp only [List.mem_cons, List.not_mem_nil, or_false] at hy
    subst hy
    rcases List.mem_append.mp hx with hx | hx
    · exact absurd hsh (not_share_of_check (h.starts x hx) hx hc' ht' hn)
    · simp only [List.mem_cons, List.not_mem_nil, or_false] at hx
      subst hx
      obtain ⟨r1, s1, e1⟩ := x
      obtain ⟨r2, s2, e2⟩ := y
      exact ⟨by simp only at hs he; rw [hs, he, show r1 = r2 from hsh.1], hT hsh.1⟩
  twice x := by
    rw [List.count_append, List.count_append]
    by_cases e : r = x
    · subst e
      rw [List.count_eq_zero_of_not_mem (not_mem_of_check hc)]
      have : ∀ y : Resv, List.count r [y] ≤ 1 := fun y => by
        have := List.count_le_length (a := r) (l := [y]); simpa using this
      have h1 := this r
      have h2 := this r'
      omega
    · have h0 : List.count x [r] = 0 := List.count_eq_zero_of_not_mem (by simp; exact fun h => e h.symm)
      rw [h0]
      by_cases e' : r' = x
      · subst e'
        rw [List.count_eq_zero_of_not_mem (not_mem_of_check hc')]
        simp
      · have h1 : List.count x [r'] = 0 := List.count_eq_zero_of_not_mem (by simp; exact fun h => e' h.symm)
        rw [h1]
        exact h.twice x

/-! ### Coroutines -/

/-- The invariant. -/
abbrev CalI (T : Resv → Prop) (w : World) : Prop := CalOk T w.clk w.cal
/-- The clock does not go back. -/
abbrev ClkK (w w' : World) : Prop := w.clk ≤ w'.clk

theorem calRelies (T : Resv → Prop) : Relies (CalI T) ClkK ClkK where
  refl _ := Int.le_refl _
  trans := Int.le_trans
  weak h := h
  dtrans := Int.le_trans
  envI _ _ h hi := hi.later h
  envK _ _ h := h
  called h _ _ := ⟨h, Int.le_refl _⟩

/-- Commands that add nothing to the calendar. -/
def Cmd.neutral {β : Type} : Cmd β → Bool
  | .calAdd _ => false
  | _ => true

theorem neutral_world {β : Type} {c : Cmd β} (h : c.neutral = true) (w : World) : (execAt w c).1.clk = w.clk ∧ (execAt w c).1.cal.Sublist w.cal := by
  cases c with
  | calRemove r =>
    simp only [execAt]
    split
    · rename_i c hc
      refine ⟨rfl, ?_⟩
      simp only [Cal.remove] at hc
      split at hc
      · simp only [Except.ok.injEq] at hc
        subst hc
        exact List.erase_sublist
      · cases hc
    · exact ⟨rfl, List.Sublist.refl _⟩
  | calAdd r => cases h
  | setup cid =>
    have : w.dev.2.clk = w.clk ∧ w.dev.2.cal = w.cal := by unfold World.dev; split <;> exact ⟨rfl, rfl⟩
    simp only [execAt]
    revert this
    generalize w.dev = d
    obtain ⟨d, w'⟩ := d
    intro this
    cases d with
    | ok => exact ⟨this.1, (show w'.cal = w.cal from this.2) ▸ List.Sublist.refl _⟩
    | failed b => cases b <;> exact ⟨this.1, (show w'.cal = w.cal from this.2) ▸ List.Sublist.refl _⟩
  | teardown cid =>
    have : w.dev.2.clk = w.clk ∧ w.dev.2.cal = w.cal := by unfold World.dev; split <;> exact ⟨rfl, rfl⟩
    simp only [execAt]
    revert this
    generalize w.dev = d
    obtain ⟨d, w'⟩ := d
    intro this
    cases d with
    | ok => exact ⟨this.1, (show w'.cal = w.cal from this.2) ▸ List.Sublist.refl _⟩
    | failed b => cases b <;> exact ⟨this.1, (show w'.cal = w.cal from this.2) ▸ List.Sublist.refl _⟩
  | _ => simp only [execAt] <;> (repeat' split) <;> first | exact ⟨rfl, List.Sublist.refl _⟩ | exact ⟨trivial, List.Sublist.refl _⟩

theorem safe_neutral {T : Resv → Prop} {β : Type} {c : Cmd β} (h : c.neutral = true) {w : World} (hi : CalI T w) : SafeCmd (CalI T) ClkK c w := by
  intro t o ht
  obtain ⟨h1, h2⟩ := neutral_world h (w.env t o)
  exact ⟨by rw [CalI, h1]; exact (hi.later ht).sub h2, by rw [ClkK, h1]; exact ht⟩

/-- Coroutines that add nothing to the calendar. -/
def Neutral {α : Type} : Prog α → Prop
  | .pure _ => True
  | .throw _ => True
  | .cmd c k => c.neutral = true ∧ ∀ r, Neutral (k r)
  | .spawn p k => Neutral p ∧ Neutral k

theorem Neutral.bind {α β : Type} {p : Prog α} {f : α → Prog β} (hp : Neutral p) (hf : ∀ a, Neutral (f a)) : Neutral (p.bind f) := by
  induction p with
  | pure a => exact hf a
  | throw e => trivial
  | cmd c k ih => exact ⟨hp.1, fun r => ih r (hp.2 r) hf⟩
  | spawn p k _ ihk => exact ⟨hp.1, ihk hp.2 hf⟩

theorem Neutral.tryCatch {α : Type} {p : Prog α} {f : Err → Prog α} (hp : Neutral p) (hf : ∀ e, Neutral (f e)) : Neutral (p.tryCatch f) := by
  induction p with
  | pure a => trivial
  | throw e => exact hf e
  | cmd c k ih => exact ⟨hp.1, fun r => ih r (hp.2 r) hf⟩
  | spawn p k _ ihk => exact ⟨hp.1, ihk hp.2 hf⟩

theorem Neutral.issue {β : Type} {c : Cmd β} (h : c.neutral = true) : Neutral (issue c) := by
  refine ⟨h, fun r => ?_⟩
  cases r <;> trivial

theorem Neutral.ofExcept {α : Type} (r : Except Err α) : Neutral (ofExcept r) := by cases r <;> trivial

theorem Neutral.safe {T : Resv → Prop} {α : Type} {p : Prog α} (hp : Neutral p) : ∀ {w : World} {Q : World → Except Err α → Prop}, CalI T w →
    (∀ w r, CalI T w → Q w r) → Safe (CalI T) ClkK ClkK p Q w := by
  induction p with
  | pure a => intro w Q hi hq; exact hq _ _ hi
  | throw e => intro w Q hi hq; exact hq _ _ hi
  | cmd c k ih =>
    intro w Q hi hq
    simp only [Safe]
    split
    · exact ⟨fun w1 _ h => safe_neutral hp.1 h, fun w1 _ h1 t o ht w2 _ h2 => ih _ (hp.2 _) h2 hq, fun w2 _ h2 => ih _ (hp.2 _) h2 hq⟩
    · exact ⟨safe_neutral hp.1 hi, fun t o ht => ih _ (hp.2 _) (safe_neutral hp.1 hi t o ht).1 hq⟩
  | spawn p k ihp ihk =>
    intro w Q hi hq
    exact ⟨ihp hp.1 hi (fun _ _ _ => trivial), fun w2 _ h2 => ihk hp.2 h2 hq⟩

/-! The coroutines, apart from `reserve`. -/

/-- Takes a coroutine apart. -/
macro "neutral" : tactic => `(tactic| (repeat' first
  | exact trivial
  | exact Neutral.ofExcept _
  | exact Neutral.issue rfl
  | (refine Neutral.bind ?_ fun _ => ?_)
  | (refine Neutral.tryCatch ?_ fun _ => ?_)
  | (refine And.intro ?_ ?_)
  | assumption
  | split))

theorem neutral_switchReserve (ref : Nat) (s : RState) : Neutral (switchReserve ref s) := by
  unfold switchReserve; simp only [bind_eq]; neutral
theorem neutral_multiSwitchLoop (ref : Nat) : ∀ ss : List RState, Neutral (multiSwitchLoop ref ss)
  | [] => trivial
  | s :: ss => by
    have := neutral_multiSwitchLoop ref ss
    unfold multiSwitchLoop; simp only [bind_eq]; neutral
theorem neutral_multiSwitch (ref : Nat) (ss : List RState) : Neutral (multiSwitch ref ss) :=
  (neutral_multiSwitchLoop ref ss).bind fun _ => Neutral.issue rfl
theorem neutral_switchProvision (ref : Nat) (s : PState) : Neutral (switchProvision ref s) := by
  unfold switchProvision; simp only [bind_eq]; neutral
theorem neutral_switchLifecycle (ref : Nat) (s : LState) : Neutral (switchLifecycle ref s) := by
  unfold switchLifecycle; simp only [bind_eq]; neutral
theorem neutral_removeBoth (cfg : Cfg) (ref : Nat) : Neutral (removeBoth cfg ref) := by
  unfold removeBoth; simp only [bind_eq]; neutral
theorem neutral_schedEnd (cid : Str) (e : Option Time) (ref : Nat) : Neutral (schedEnd cid e ref) := by
  unfold schedEnd; neutral
theorem neutral_whenP {b : Bool} {p : Prog Unit} (h : Neutral p) : Neutral (whenP b p) := by
  unfold whenP; neutral
theorem neutral_setActive (ref : Nat) (b : Bool) : Neutral (setActive ref b) := by
  unfold setActive; simp only [bind_eq]; neutral
theorem neutral_doTeardown (ref : Nat) : Neutral (doTeardown ref) := by
  have := neutral_setActive ref false
  unfold doTeardown; simp only [bind_eq]; neutral
theorem neutral_doFreeResource (cfg : Cfg) (ref : Nat) : Neutral (doFreeResource cfg ref) := by
  have := neutral_doTeardown ref
  have := neutral_removeBoth cfg ref
  unfold doFreeResource; simp only [bind_eq]; neutral
theorem neutral_doEndtime (cfg : Cfg) (ref : Nat) : Neutral (doEndtime cfg ref) := by
  have := neutral_doFreeResource cfg ref
  have := neutral_switchLifecycle ref .passedEnd
  unfold doEndtime; simp only [bind_eq]; neutral
theorem neutral_doReserveRollback (cfg : Cfg) (ref : Nat) : Neutral (doReserveRollback cfg ref) := by
  have := neutral_doEndtime cfg ref
  have := neutral_removeBoth cfg ref
  have := neutral_switchReserve ref
  unfold doReserveRollback; simp only [bind_eq]
  refine Neutral.tryCatch ((this _).bind fun _ => ?_) fun _ => trivial
  refine (Neutral.issue rfl).bind fun _ => (Neutral.issue rfl).bind fun _ => ?_
  refine (neutral_removeBoth cfg ref).bind fun _ => (this _).bind fun _ => ?_
  neutral
theorem neutral_doReserveTimeout (cfg : Cfg) (ref : Nat) : Neutral (doReserveTimeout cfg ref) := by
  have := neutral_switchReserve ref .timeout
  have := neutral_doReserveRollback cfg ref
  unfold doReserveTimeout; simp only [bind_eq]; neutral
theorem neutral_doActivate (ref : Nat) : Neutral (doActivate ref) := by
  unfold doActivate; simp only [bind_eq]
  refine (Neutral.issue rfl).bind fun row => Neutral.bind (by neutral) fun b => ?_
  split
  · refine Neutral.tryCatch ((neutral_setActive _ _).bind fun _ => (Neutral.issue rfl).bind fun _ => (neutral_schedEnd _ _ _).bind fun _ => ?_) fun _ => trivial
    neutral
  · refine (neutral_setActive _ _).bind fun _ => ?_
    neutral
theorem neutral_doReserve (ref : Nat) (corr : Str) : Neutral (doReserve ref corr) := by
  unfold doReserve; simp only [bind_eq]
  refine (neutral_multiSwitch _ _).bind fun _ => (Neutral.issue rfl).bind fun _ => (Neutral.issue rfl).bind fun _ =>
    (neutral_whenP (Neutral.issue rfl)).bind fun _ => ?_
  neutral
theorem neutral_getConnection (cid : Str) : Neutral (getConnection cid) := by
  unfold getConnection; simp only [bind_eq]; neutral
theorem neutral_reserveCommit (cfg : Cfg) (h : Hdr) (cid : Str) : Neutral (reserveCommit cfg h cid) := by
  unfold reserveCommit commitOn; simp only [bind_eq]
  refine (neutral_getConnection _).bind fun _ => (Neutral.issue rfl).bind fun _ => (Neutral.ofExcept _).bind fun _ => ?_
  split
  · trivial
  · refine (Neutral.issue rfl).bind fun _ => (neutral_multiSwitch _ _).bind fun _ => (Neutral.issue rfl).bind fun _ =>
      (neutral_schedEnd _ _ _).bind fun _ => Neutral.issue rfl
theorem neutral_reserveAbort (cfg : Cfg) (h : Hdr) (cid : Str) : Neutral (reserveAbort cfg h cid) := by
  unfold reserveAbort abortOn; simp only [bind_eq]
  refine (neutral_getConnection _).bind fun ref => (Neutral.issue rfl).bind fun _ => (Neutral.ofExcept _).bind fun _ => ?_
  have := neutral_doReserveRollback cfg ref
  neutral
theorem neutral_provision (cfg : Cfg) (h : Hdr) (cid : Str) : Neutral (provision cfg h cid) := by
  unfold provision provisionOn; simp only [bind_eq]
  refine (neutral_getConnection _).bind fun ref => (Neutral.issue rfl).bind fun _ => (Neutral.ofExcept _).bind fun _ => ?_
  split; · trivial
  split; · trivial
  split; · trivial
  refine (Neutral.issue rfl).bind fun _ => ?_
  split; · trivial
  have hr : Neutral ((switchProvision ref .provisioned).bind fun _ => issue (.tell (.provisionConfirmed cid))) :=
    (neutral_switchProvision _ _).bind fun _ => Neutral.issue rfl
  refine (neutral_switchProvision _ _).bind fun _ => (Neutral.issue rfl).bind fun _ => ?_
  split
  · exact ⟨neutral_doActivate _, hr⟩
  · split
    · exact ⟨neutral_doActivate _, hr⟩
    · exact (Neutral.issue rfl).bind fun _ => hr
theorem neutral_release (cfg : Cfg) (h : Hdr) (cid : Str) : Neutral (release cfg h cid) := by
  unfold release releaseOn; simp only [bind_eq]
  refine (neutral_getConnection _).bind fun ref => (Neutral.issue rfl).bind fun _ => (Neutral.ofExcept _).bind fun _ => ?_
  split; · trivial
  refine (neutral_switchProvision _ _).bind fun _ => (Neutral.issue rfl).bind fun _ => (Neutral.issue rfl).bind fun _ =>
    (neutral_whenP ((neutral_doTeardown _).tryCatch (f := fun _ => Prog.pure ()) fun _ => trivial)).bind fun _ => (neutral_schedEnd _ _ _).bind fun _ =>
    (neutral_switchProvision _ _).bind fun _ => Neutral.issue rfl
theorem neutral_terminate (cfg : Cfg) (h : Hdr) (cid : Str) : Neutral (terminate cfg h cid) := by
  unfold terminate terminateOn; simp only [bind_eq]
  refine (neutral_getConnection _).bind fun ref => (Neutral.issue rfl).bind fun _ => (Neutral.ofExcept _).bind fun _ => ?_
  split; · trivial
  exact (Neutral.issue rfl).bind fun _ => (neutral_switchLifecycle _ _).bind fun _ => (neutral_whenP (neutral_doFreeResource _ _)).bind fun _ =>
    (Neutral.issue rfl).bind fun _ => neutral_switchLifecycle _ _
theorem neutral_actProg (cfg : Cfg) (act : Act) (ref : Nat) : Neutral (actProg cfg act ref) := by
  cases act
  · exact neutral_doReserveTimeout cfg ref
  · exact neutral_doEndtime cfg ref
  · exact neutral_doActivate ref

/-! ### `reserve` -/

section
variable {T : Resv → Prop} {cfg : Cfg}

/-- After a search on one port: the calendar is as before, and the reservation found was free. -/
def FoundFree (cfg : Cfg) (T : Resv → Prop) (port : Str) (st en : Option Time) (c : Cal) (t0 : Time) (w : World) : Except Err (Option LabelVal) → Prop
  | .ok lv => CalI T w ∧ w.cal = c ∧ t0 ≤ w.clk ∧ ∃ t, t ≤ w.clk ∧ c.check t (resvOf cfg port st en lv) = .ok ()
  | .error _ => CalI T w

theorem safe_firstFree (port : Str) (st en : Option Time) (c : Cal) (t0 : Time) : ∀ (list : List (Option LabelVal)) {w : World}, CalI T w → w.cal = c →
    t0 ≤ w.clk → Safe (CalI T) ClkK ClkK (firstFree cfg port st en list) (FoundFree cfg T port st en c t0) w
  | [], w, hi, _, _ => hi
  | lv :: rest, w, hi, hc, ht0 => by
    unfold firstFree
    refine Safe_tryCatch ?_
    simp only [bind_eq]
    refine Safe_bind (Safe_sync rfl (safe_neutral rfl hi) fun t o ht => ?_)
    have hi' : CalI T (w.env t o) := hi.later ht
    have ht' : t0 ≤ t := Int.le_trans ht0 ht
    simp only [execAt]
    cases hk : w.cal.check t (resvOf cfg port st en lv) with
    | ok u => exact ⟨hi', hc, ht', t, Int.le_refl _, hc ▸ hk⟩
    | error e =>
      simp only [cont_error, caught_error]
      split
      · exact safe_firstFree port st en c t0 rest hi' hc ht'
      · exact hi'

theorem safe_addBoth {α : Type} {w : World} {r r' : Resv} {t t' : Time} {a : α} (hi : CalI T w) (h : w.cal.check t r = .ok ()) (h' : w.cal.check t' r' = .ok ())
    (ht : t ≤ w.clk) (ht' : t' ≤ w.clk) (hs : r.start = r'.start) (he : r.end_ = r'.end_) (hT : r.resource = r'.resource → T r)
    {Q : World → Except Err α → Prop} (hq : ∀ w r, CalI T w → Q w r) :
    Safe (CalI T) ClkK ClkK ((issue (.calAdd r)).bind fun _ => (issue (.calAdd r')).bind fun _ => Prog.pure a) Q w := by
  have h1 : ∀ u, w.clk ≤ u → CalOk T u (w.cal ++ [r]) := fun u hu => (hi.later hu).add h (Int.le_trans ht hu)
  have h2 : ∀ u, w.clk ≤ u → CalOk T u (w.cal ++ [r] ++ [r']) := fun u hu =>
    (hi.later hu).addBoth h h' (Int.le_trans ht hu) (Int.le_trans ht' hu) hs he hT
  refine Safe_bind (Safe_sync rfl (fun u o hu => ⟨h1 u hu, hu⟩) fun u o hu => ?_)
  refine Safe_bind (Safe_sync rfl (fun v o' hv => ⟨h2 v (Int.le_trans hu hv), hv⟩) fun v o' hv => ?_)
  exact hq _ _ (h2 v (Int.le_trans hu hv))

theorem safe_firstFreeBoth (sp dp : Str) (st en : Option Time)
    (hT : ∀ lv, cfg.mgr.getResource sp lv = cfg.mgr.getResource dp lv → T (resvOf cfg sp st en lv)) :
    ∀ (list : List (Option LabelVal)) {w : World}, CalI T w →
    Safe (CalI T) ClkK ClkK (firstFreeBoth cfg sp dp st en list) (fun w _ => CalI T w) w
  | [], w, hi => hi
  | lv :: rest, w, hi => by
    unfold firstFreeBoth
    refine Safe_tryCatch ?_
    simp only [bind_eq]
    have hfail : ∀ (w : World) (e : Err), CalI T w → Safe (CalI T) ClkK ClkK
        (if e = .stpUnavailable then firstFreeBoth cfg sp dp st en rest else throw e) (fun w _ => CalI T w) w := by
      intro w e hi
      split
      · exact safe_firstFreeBoth sp dp st en hT rest hi
      · exact hi
    refine Safe_bind (Safe_sync rfl (safe_neutral rfl hi) fun t o ht => ?_)
    have hi' : CalI T (w.env t o) := hi.later ht
    simp only [execAt]
    cases hk : w.cal.check t (resvOf cfg sp st en lv) with
    | error e => exact hfail _ _ hi'
    | ok u =>
      simp only [cont_ok]
      refine Safe_bind (Safe_sync rfl (safe_neutral rfl hi') fun t' o' ht' => ?_)
      have hi2 : CalI T ((w.env t o).env t' o') := hi'.later ht'
      simp only [execAt]
      cases hk' : w.cal.check t' (resvOf cfg dp st en lv) with
      | error e => exact hfail _ _ hi2
      | ok u' =>
        simp only [cont_ok]
        refine Safe_mono (fun _ _ h => h) (safe_addBoth (w := (w.env t o).env t' o') hi2 hk hk' ht' (Int.le_refl _) rfl rfl (hT lv) ?_)
        intro w r h
        cases r with
        | ok a => exact h
        | error e => exact hfail _ _ h

theorem safe_allocate (src dst : STP) (st en : Option Time)
    (hT : ∀ sl dl, cfg.mgr.getResource src.port sl = cfg.mgr.getResource dst.port dl → T (resvOf cfg src.port st en sl))
    {w : World} (hi : CalI T w) : Safe (CalI T) ClkK ClkK (allocate cfg src dst st en) (fun w _ => CalI T w) w := by
  unfold allocate
  simp only [bind_eq]
  split
  · refine Safe_bind (Safe_mono ?_ (safe_firstFree src.port st en w.cal w.clk _ hi rfl (Int.le_refl _)))
    intro w1 r h
    cases r with
    | error e => exact h
    | ok sl =>
      obtain ⟨h1, h2, h3, t, h4, h5⟩ := h
      simp only [cont_ok]
      refine Safe_bind (Safe_mono ?_ (safe_firstFree dst.port st en w.cal w1.clk _ h1 h2 (Int.le_refl _)))
      intro w2 r h
      cases r with
      | error e => exact h
      | ok dl =>
        obtain ⟨k1, k2, k3, t', k4, k5⟩ := h
        simp only [cont_ok]
        exact safe_addBoth (r := resvOf cfg src.port st en sl) (r' := resvOf cfg dst.port st en dl) k1 (by rw [k2]; exact h5) (by rw [k2]; exact k5)
          (Int.le_trans h4 k3) k4 rfl rfl (hT sl dl) (fun _ _ h => h)
  · refine Safe_bind ?_
    cases labelCandidate src dst with
    | error e => exact hi
    | ok cand =>
      show Safe _ _ _ _ _ w
      refine Safe_bind (Safe_mono ?_ (safe_firstFreeBoth src.port dst.port st en (fun lv => hT lv lv) _ hi))
      intro w r h
      cases r <;> exact h

theorem neutral_afterAllocate (h : Hdr) (cid? : Option Str) (src dst : STP) (st en : Option Time) (sl dl : Option LabelVal) :
    Neutral ((issue Cmd.now).bind fun now => (pickId cid?).bind fun cid => (issue (.newObj (newRow cid h now src dst sl dl st en))).bind fun ref =>
      (issue (.save ref)).bind fun _ => Prog.spawn (doReserve ref h.corr) (Prog.pure cid)) := by
  refine (Neutral.issue rfl).bind fun _ => Neutral.bind ?_ fun _ => (Neutral.issue rfl).bind fun _ => (Neutral.issue rfl).bind fun _ =>
    ⟨neutral_doReserve _ _, trivial⟩
  cases cid?
  · exact Neutral.issue rfl
  · trivial

theorem safe_reserveBody (h : Hdr) (cid? : Option Str) (src dst : STP) (st en : Option Time)
    (hT : ∀ sl dl, cfg.mgr.getResource src.port sl = cfg.mgr.getResource dst.port dl → T (resvOf cfg src.port st en sl))
    {w : World} (hi : CalI T w) : Safe (CalI T) ClkK ClkK (reserveBody cfg h cid? src dst st en) (fun w _ => CalI T w) w := by
  unfold reserveBody
  simp only [bind_eq]
  refine Safe_bind ?_
  cases admission cfg h src dst st en with
  | error e => exact hi
  | ok u =>
    show Safe _ _ _ _ _ w
    refine Safe_bind (Safe_mono ?_ (safe_allocate src dst st en hT hi))
    intro w r h
    cases r with
    | error e => exact h
    | ok p => exact (neutral_afterAllocate _ cid? src dst st en p.1 p.2).safe h fun _ _ h => h

theorem safe_reserve (h : Hdr) (cid? : Option Str) (src dst : STP) (st en : Option Time)
    (hT : ∀ sl dl, cfg.mgr.getResource src.port sl = cfg.mgr.getResource dst.port dl → T (resvOf cfg src.port st en sl))
    {w : World} (hi : CalI T w) : Safe (CalI T) ClkK ClkK (reserve cfg h cid? src dst st en) (fun w _ => CalI T w) w := by
  unfold reserve
  simp only [bind_eq]
  split
  · exact safe_reserveBody h _ src dst st en hT hi
  · split
    · exact safe_reserveBody h _ src dst st en hT hi
    · refine Safe_bind (Safe_async rfl (fun w1 _ h1 => safe_neutral rfl h1) ?_ fun _ _ h => h)
      intro w1 _ h1 t o _ w2 _ h2
      cases (execAt (w1.env t o) (Cmd.find _)).2 with
      | error e => exact h2
      | ok r =>
        cases r with
        | some ref => exact h2
        | none => exact safe_reserveBody h _ src dst st en hT h2

theorem safe_req (h : Hdr) (q : Req) (hT : ∀ cid? src dst st en, q = .reserve cid? src dst st en → ∀ sl dl,
      cfg.mgr.getResource src.port sl = cfg.mgr.getResource dst.port dl → T (resvOf cfg src.port st en sl))
    {w : World} (hi : CalI T w) : Safe (CalI T) ClkK ClkK (q.prog cfg h) Done w := by
  cases q with
  | reserve cid? src dst st en =>
    refine Safe_bind' (Safe_mono ?_ (safe_reserve h cid? src dst st en (hT _ _ _ _ _ rfl) hi))
    intro w r _
    cases r <;> trivial
  | commit cid => exact ((neutral_reserveCommit cfg h cid).bind (f := fun _ => Prog.pure (none : Option Str)) fun _ => trivial).safe hi fun _ _ _ => trivial
  | abort cid => exact ((neutral_reserveAbort cfg h cid).bind (f := fun _ => Prog.pure (none : Option Str)) fun _ => trivial).safe hi fun _ _ _ => trivial
  | provision cid => exact ((neutral_provision cfg h cid).bind (f := fun _ => Prog.pure (none : Option Str)) fun _ => trivial).safe hi fun _ _ _ => trivial
  | release cid => exact ((neutral_release cfg h cid).bind (f := fun _ => Prog.pure (none : Option Str)) fun _ => trivial).safe hi fun _ _ _ => trivial
  | terminate cid => exact ((neutral_terminate cfg h cid).bind (f := fun _ => Prog.pure (none : Option Str)) fun _ => trivial).safe hi fun _ _ _ => trivial

end

end OpenNSA.Backend
