import Verif.Backend.OwnRun
/-
Interleaved execution, connection by connection: the operations that have a connection for themselves.
-/
namespace OpenNSA.Backend
open OpenNSA Py Prog

/-! ### Coroutines that start no others -/

theorem ns_bind {α β : Type} {p : Prog α} {f : α → Prog β} (hp : NoSpawn p) (hf : ∀ a, NoSpawn (f a)) : NoSpawn (p.bind f) := by
  induction p with
  | pure a => exact hf a
  | throw e => trivial
  | cmd c k ih => exact fun r => ih r (hp r) hf
  | spawn p k _ ihk => exact hp.elim

theorem ns_tryCatch {α : Type} {p : Prog α} {f : Err → Prog α} (hp : NoSpawn p) (hf : ∀ e, NoSpawn (f e)) : NoSpawn (p.tryCatch f) := by
  induction p with
  | pure a => trivial
  | throw e => exact hf e
  | cmd c k ih => exact fun r => ih r (hp r) hf
  | spawn p k _ ihk => exact hp.elim

theorem ns_issue {β : Type} (c : Cmd β) : NoSpawn (issue c) := fun r => by cases r <;> trivial
theorem ns_ofExcept {α : Type} (r : Except Err α) : NoSpawn (ofExcept r) := by cases r <;> trivial

/-- Takes a coroutine apart. -/
macro "nospawn" : tactic => `(tactic| (repeat' first
  | exact trivial
  | exact ns_ofExcept _
  | exact ns_issue _
  | (refine ns_bind ?_ fun _ => ?_)
  | (refine ns_tryCatch ?_ fun _ => ?_)
  | assumption
  | split))

theorem ns_switchReserve (ref : Nat) (s : RState) : NoSpawn (switchReserve ref s) := by
  unfold switchReserve; simp only [bind_eq]; nospawn
theorem ns_multiSwitchLoop (ref : Nat) : ∀ ss : List RState, NoSpawn (multiSwitchLoop ref ss)
  | [] => trivial
  | s :: ss => by
    have := ns_multiSwitchLoop ref ss
    unfold multiSwitchLoop; simp only [bind_eq]; nospawn
theorem ns_multiSwitch (ref : Nat) (ss : List RState) : NoSpawn (multiSwitch ref ss) :=
  ns_bind (ns_multiSwitchLoop ref ss) fun _ => ns_issue _
theorem ns_switchProvision (ref : Nat) (s : PState) : NoSpawn (switchProvision ref s) := by
  unfold switchProvision; simp only [bind_eq]; nospawn
theorem ns_switchLifecycle (ref : Nat) (s : LState) : NoSpawn (switchLifecycle ref s) := by
  unfold switchLifecycle; simp only [bind_eq]; nospawn
theorem ns_removeBoth (cfg : Cfg) (ref : Nat) : NoSpawn (removeBoth cfg ref) := by
  unfold removeBoth; simp only [bind_eq]; nospawn
theorem ns_schedEnd (cid : Str) (e : Option Time) (ref : Nat) : NoSpawn (schedEnd cid e ref) := by
  unfold schedEnd; nospawn
theorem ns_whenP {b : Bool} {p : Prog Unit} (h : NoSpawn p) : NoSpawn (whenP b p) := by
  unfold whenP; nospawn
theorem ns_setActive (ref : Nat) (b : Bool) : NoSpawn (setActive ref b) := by
  unfold setActive; simp only [bind_eq]; nospawn
theorem ns_doTeardown (ref : Nat) : NoSpawn (doTeardown ref) := by
  have := ns_setActive ref false
  unfold doTeardown; simp only [bind_eq]; nospawn
theorem ns_doFreeResource (cfg : Cfg) (ref : Nat) : NoSpawn (doFreeResource cfg ref) := by
  have := ns_doTeardown ref
  have := ns_removeBoth cfg ref
  unfold doFreeResource; simp only [bind_eq]; nospawn
theorem ns_doEndtime (cfg : Cfg) (ref : Nat) : NoSpawn (doEndtime cfg ref) := by
  have := ns_doFreeResource cfg ref
  have := ns_switchLifecycle ref .passedEnd
  unfold doEndtime; simp only [bind_eq]; nospawn
theorem ns_rollbackBody (cfg : Cfg) (ref : Nat) (row : Row) : NoSpawn
    ((switchReserve ref .start).bind fun _ => (issue .now).bind fun now => match row.end_ with
      | none => Prog.pure ()
      | some e => if now > e then doEndtime cfg ref else issue (.sched row.cid e .endtime ref)) := by
  have := ns_switchReserve ref .start
  have := ns_doEndtime cfg ref
  nospawn
theorem ns_doReserveRollback (cfg : Cfg) (ref : Nat) : NoSpawn (doReserveRollback cfg ref) := by
  have h1 := ns_switchReserve ref .aborting
  have h2 := ns_removeBoth cfg ref
  unfold doReserveRollback; simp only [bind_eq]
  refine ns_tryCatch (ns_bind h1 fun _ => ns_bind (ns_issue _) fun row => ns_bind (ns_issue _) fun _ => ns_bind h2 fun _ => ?_) fun _ => trivial
  exact ns_rollbackBody cfg ref row

/-! ### Commands -/

/-- At least the entries of the row. -/
def Covers (cfg : Cfg) (y : Row) (m : List Resv) : Prop := ∀ e ∈ contrib cfg y, e ∈ m

theorem Covers.of_perm {cfg : Cfg} {y : Row} {m : List Resv} (h : m.Perm (contrib cfg y)) : Covers cfg y m := fun _ he => h.symm.subset he
theorem Covers.of_not {cfg : Cfg} {y : Row} {m : List Resv} (h : y.holds = false) : Covers cfg y m := fun _ he => by simp [contrib, h] at he

/-- What an operation knows: its row object, the stored row, calendar entries, timer; other row objects as in `O`. -/
structure Has1 (cfg : Cfg) (cid : Str) (ref : Nat) (x y : Row) (m : List Resv) (tm : Option Timer) (O : Nat → Option Obj) (s : Slice) : Prop where
  obj : s.objs ref = some ⟨x, false⟩
  row : s.row = some y
  cid : x.cid = cid
  mine : s.mine = m
  tm : s.tm = tm
  off : ∀ n, n ≠ ref → s.objs n = O n
  cov : Covers cfg y m

section
variable {cfg : Cfg} {cid : Str} {ref : Nat} {x y : Row} {m : List Resv} {tm : Option Timer} {O : Nat → Option Obj} {s : Slice}

theorem Has1.idle (h : Has1 cfg cid ref x y m tm O s) : Has1 cfg cid ref x y m tm O s.idle := ⟨h.obj, h.row, h.cid, h.mine, h.tm, h.off, h.cov⟩

theorem Has1.covers (h : Has1 cfg cid ref x y m tm O s) : Cov cfg s := by
  intro r hr e he
  rw [h.row] at hr
  cases hr
  rw [h.mine]
  exact h.cov e he

theorem sym_getObj {Q : Slice → Except Err Row → Prop} (h : Has1 cfg cid ref x y m tm O s) (hq : Q s (.ok x)) : Sym cfg cid (issue (.getObj ref)) Q s := by
  refine Sym_issue (by
    simp only [Cmd.isAsync, Bool.false_eq_true, if_false]
    refine ⟨⟨_, h.obj⟩, ?_⟩
    rintro s' r ⟨rfl, o, ho, rfl⟩
    rw [h.obj] at ho
    cases ho
    exact hq)

theorem sym_setObj {Q : Slice → Except Err Unit → Prop} {z : Row} (h : Has1 cfg cid ref x y m tm O s) (hz : z.cid = cid)
    (hq : ∀ s', Has1 cfg cid ref z y m tm O s' → Q s' (.ok ())) : Sym cfg cid (issue (.setObj ref z)) Q s := by
  refine Sym_issue (by
    simp only [Cmd.isAsync, Bool.false_eq_true, if_false]
    refine ⟨⟨⟨_, h.obj⟩, hz⟩, ?_⟩
    rintro s' r ⟨rfl, o, ho, rfl⟩
    rw [h.obj] at ho
    cases ho
    exact hq _ ⟨by simp, h.row, hz, h.mine, h.tm, fun n hn => by simp only [upd_ne hn]; exact h.off n hn, h.cov⟩)

theorem sym_save {Q : Slice → Except Err Unit → Prop} (h : Has1 cfg cid ref x y m tm O s) (hc : Covers cfg x m) (hq : ∀ s', Has1 cfg cid ref x x m tm O s' → Q s' (.ok ())) :
    Sym cfg cid (issue (.save ref)) Q s := by
  refine Sym_issue (by
    simp only [Cmd.isAsync, if_true]
    refine ⟨h.covers, ⟨_, h.obj, by simp⟩, ?_⟩
    rintro s' r ⟨rfl, o, ho, rfl⟩
    have ho' : s.objs ref = some o := ho
    rw [h.obj] at ho'
    cases ho'
    have hh : Has1 cfg cid ref x x m tm O ({ s with row := s.row.map fun _ => x } : Slice) := ⟨h.obj, by simp [h.row], h.cid, h.mine, h.tm, h.off, hc⟩
    exact ⟨hh.covers, hq _ hh.idle⟩)

theorem sym_tell {Q : Slice → Except Err Unit → Prop} {msg : Msg} (hq : Q s (.ok ())) : Sym cfg cid (issue (.tell msg)) Q s := by
  refine Sym_issue (by
    simp only [Cmd.isAsync, Bool.false_eq_true, if_false]
    refine ⟨trivial, ?_⟩
    rintro s' r ⟨rfl, rfl⟩
    exact hq)

theorem sym_now {Q : Slice → Except Err Time → Prop} (hq : ∀ t, Q s (.ok t)) : Sym cfg cid (issue .now) Q s := by
  refine Sym_issue (by
    simp only [Cmd.isAsync, Bool.false_eq_true, if_false]
    refine ⟨trivial, ?_⟩
    rintro s' r ⟨rfl, t, rfl⟩
    exact hq t)

theorem sym_notifId {Q : Slice → Except Err Nat → Prop} (hq : ∀ t, Q s (.ok t)) : Sym cfg cid (issue .notifId) Q s := by
  refine Sym_issue (by
    simp only [Cmd.isAsync, Bool.false_eq_true, if_false]
    refine ⟨trivial, ?_⟩
    rintro s' r ⟨rfl, t, rfl⟩
    exact hq t)

theorem sym_hasCall {Q : Slice → Except Err Bool → Prop} {c : Str} (hq : ∀ t, Q s (.ok t)) : Sym cfg cid (issue (.hasCall c)) Q s := by
  refine Sym_issue (by
    simp only [Cmd.isAsync, Bool.false_eq_true, if_false]
    refine ⟨trivial, ?_⟩
    rintro s' r ⟨rfl, t, rfl⟩
    exact hq t)

theorem sym_call {Q : Slice → Except Err Unit → Prop} {msg : Msg} (hc : Cov cfg s) (hq : ∀ r, Q s.idle r) : Sym cfg cid (issue (.call msg)) Q s := by
  refine Sym_issue (by
    simp only [Cmd.isAsync, if_true]
    refine ⟨hc, trivial, ?_⟩
    rintro s' r h
    cases (show s' = s.idle from h)
    exact ⟨hc, hq r⟩)

theorem sym_teardown {Q : Slice → Except Err Unit → Prop} {c : Str} (hc : Cov cfg s) (hq : ∀ r, Q s.idle r) : Sym cfg cid (issue (.teardown c)) Q s := by
  refine Sym_issue (by
    simp only [Cmd.isAsync, if_true]
    refine ⟨hc, trivial, ?_⟩
    rintro s' r h
    cases (show s' = s.idle from h)
    exact ⟨hc, hq r⟩)

theorem sym_cancel {Q : Slice → Except Err Unit → Prop} {c : Str} (h : Has1 cfg cid ref x y m tm O s) (hc : c = cid)
    (hq : ∀ s', Has1 cfg cid ref x y m none O s' → Q s' (.ok ())) : Sym cfg cid (issue (.cancel c)) Q s := by
  refine Sym_issue (by
    simp only [Cmd.isAsync, Bool.false_eq_true, if_false]
    refine ⟨hc, ?_⟩
    rintro s' r ⟨rfl, rfl⟩
    exact hq _ ⟨h.obj, h.row, h.cid, h.mine, rfl, h.off, h.cov⟩)

theorem sym_sched {Q : Slice → Except Err Unit → Prop} {c : Str} {t : Time} {act : Act} (h : Has1 cfg cid ref x y m tm O s) (hc : c = cid)
    (hq : ∀ s' due, Has1 cfg cid ref x y m (some ⟨due, act, ref, false⟩) O s' → Q s' (.ok ()))
    (he : ∀ s' e, Has1 cfg cid ref x y m tm O s' → Q s' (.error e)) : Sym cfg cid (issue (.sched c t act ref)) Q s := by
  refine Sym_issue (by
    simp only [Cmd.isAsync, Bool.false_eq_true, if_false]
    refine ⟨hc, ?_⟩
    rintro s' r (⟨due, rfl, rfl⟩ | ⟨rfl, e, rfl⟩)
    · exact hq _ due ⟨h.obj, h.row, h.cid, h.mine, rfl, h.off, h.cov⟩
    · exact he _ e h)

theorem sym_calRemove {Q : Slice → Except Err Unit → Prop} {e : Resv} (h : Has1 cfg cid ref x y m tm O s) (he : e ∈ m) (hy : y.holds = false)
    (hq : ∀ s', Has1 cfg cid ref x y (m.erase e) tm O s' → Q s' (.ok ())) : Sym cfg cid (issue (.calRemove e)) Q s := by
  refine Sym_issue (by
    simp only [Cmd.isAsync, Bool.false_eq_true, if_false]
    refine ⟨by show e ∈ s.mine; rw [h.mine]; exact he, ?_⟩
    rintro s' r ⟨rfl, rfl⟩
    exact hq _ ⟨h.obj, h.row, h.cid, by simp [h.mine], h.tm, h.off, .of_not hy⟩)

/-- Lookup of the connection. -/
theorem sym_find {Q : Slice → Except Err (Option Nat) → Prop} (hc : Cov cfg s) (hq : s.row = none → Q s.idle (.ok none))
    (hcid : ∀ r, s.row = some r → r.cid = cid)
    (hr : ∀ r n s', s.row = some r → s.objs n = none → Has1 cfg cid n r r s.mine s.tm s.objs s' → Q s' (.ok (some n))) :
    Sym cfg cid (issue (.find cid)) Q s := by
  refine Sym_issue (by
    simp only [Cmd.isAsync, if_true]
    refine ⟨hc, rfl, ?_⟩
    rintro s' r (⟨h1, rfl, rfl⟩ | ⟨a, n, h1, h2, rfl, rfl⟩)
    · exact ⟨hc, hq h1⟩
    · have h1' : s.row = some a := h1
      have h2' : s.objs n = none := h2
      exact ⟨hc, hr a n _ h1' h2' ⟨by simp [Slice.idle], h1', hcid a h1', rfl, rfl, fun k hk => by simp only [Slice.idle, upd_ne hk], hc a h1'⟩⟩)

/-! ### State switches -/

theorem sym_switchReserve {Q : Slice → Except Err Unit → Prop} {st : RState} (h : Has1 cfg cid ref x y m tm O s)
    (hc : ∀ st', switchR x.st st = some st' → Covers cfg { x with st := st' } m)
    (hq : ∀ s' st', switchR x.st st = some st' → Has1 cfg cid ref { x with st := st' } { x with st := st' } m tm O s' → Q s' (.ok ()))
    (he : switchR x.st st = none → Q s (.error .internal)) : Sym cfg cid (switchReserve ref st) Q s := by
  unfold switchReserve
  simp only [bind_eq]
  refine Sym_bind (ns_issue _) (sym_getObj h ?_)
  simp only [cont_ok]
  cases hs : switchR x.st st with
  | none => exact he hs
  | some st' =>
    refine Sym_bind (ns_issue _) (sym_setObj h h.cid fun s' h' => ?_)
    exact sym_save h' (hc st' hs) fun s'' h'' => hq s'' st' hs h''

theorem sym_switchLifecycle {Q : Slice → Except Err Unit → Prop} {st : LState} (h : Has1 cfg cid ref x y m tm O s)
    (hc : ∀ st', switchL x.st st = some st' → Covers cfg { x with st := st' } m)
    (hq : ∀ s' st', switchL x.st st = some st' → Has1 cfg cid ref { x with st := st' } { x with st := st' } m tm O s' → Q s' (.ok ()))
    (he : switchL x.st st = none → Q s (.error .internal)) : Sym cfg cid (switchLifecycle ref st) Q s := by
  unfold switchLifecycle
  simp only [bind_eq]
  refine Sym_bind (ns_issue _) (sym_getObj h ?_)
  simp only [cont_ok]
  cases hs : switchL x.st st with
  | none => exact he hs
  | some st' =>
    refine Sym_bind (ns_issue _) (sym_setObj h h.cid fun s' h' => ?_)
    exact sym_save h' (hc st' hs) fun s'' h'' => hq s'' st' hs h''

/-- Two switches in a row and `save`. -/
theorem sym_multiSwitch {Q : Slice → Except Err Unit → Prop} {a b : RState} (h : Has1 cfg cid ref x y m tm O s) (hb : b ∈ reserveTransitions a)
    (hc : a ∈ reserveTransitions x.st.r → Covers cfg { x with st := { x.st with r := b } } m)
    (hq : ∀ s', a ∈ reserveTransitions x.st.r → Has1 cfg cid ref { x with st := { x.st with r := b } } { x with st := { x.st with r := b } } m tm O s' → Q s' (.ok ()))
    (he : a ∉ reserveTransitions x.st.r → Q s (.error .internal)) : Sym cfg cid (multiSwitch ref [a, b]) Q s := by
  unfold multiSwitch
  simp only [bind_eq]
  refine Sym_bind (ns_multiSwitchLoop _ _) ?_
  unfold multiSwitchLoop
  simp only [bind_eq]
  refine Sym_bind (ns_issue _) (sym_getObj h ?_)
  simp only [cont_ok, switchR]
  split
  · rename_i ha
    split at ha
    · cases ha
    · rename_i hn
      exact he hn
  · rename_i st1 ha
    split at ha
    · rename_i hmem
      simp only [Option.some.injEq] at ha
      subst ha
      refine Sym_bind (ns_issue _) (sym_setObj h h.cid fun s' h' => ?_)
      simp only [cont_ok]
      unfold multiSwitchLoop
      simp only [bind_eq]
      refine Sym_bind (ns_issue _) (sym_getObj h' ?_)
      simp only [cont_ok, switchR, if_pos hb]
      refine Sym_bind (ns_issue _) (sym_setObj h' h.cid fun s'' h'' => ?_)
      simp only [cont_ok, multiSwitchLoop, Sym]
      exact sym_save h'' (hc hmem) fun s3 h3 => hq s3 hmem h3
    · cases ha

/-! ### Resources -/

/-- Both entries of a row. -/
def both (cfg : Cfg) (r : Row) : List Resv := [srcResv cfg r, dstResv cfg r]

theorem sym_removeBoth {Q : Slice → Except Err Unit → Prop} (h : Has1 cfg cid ref x y m tm O s) (hm : m.Perm (both cfg x)) (hy : y.holds = false)
    (hq : ∀ s', Has1 cfg cid ref x y [] tm O s' → Q s' (.ok ())) : Sym cfg cid (removeBoth cfg ref) Q s := by
  unfold removeBoth
  simp only [bind_eq]
  refine Sym_bind (ns_issue _) (sym_getObj h ?_)
  simp only [cont_ok]
  have h1 : srcResv cfg x ∈ m := hm.symm.subset (by simp [both])
  have h2 : (m.erase (srcResv cfg x)).Perm [dstResv cfg x] := by
    have := hm.erase (srcResv cfg x)
    simpa [both] using this
  refine Sym_bind (ns_issue _) (sym_calRemove h h1 hy fun s' h' => ?_)
  simp only [cont_ok]
  refine sym_calRemove h' (h2.symm.subset (by simp)) hy fun s'' h'' => hq s'' ?_
  have h3 : ((m.erase (srcResv cfg x)).erase (dstResv cfg x)) = [] := by
    have := h2.erase (dstResv cfg x)
    simpa using this
  rw [h3] at h''
  exact h''

theorem sym_setActive {Q : Slice → Except Err Unit → Prop} {b : Bool} (h : Has1 cfg cid ref x y m tm O s) (hx : Covers cfg x m)
    (hq : ∀ s', Has1 cfg cid ref { x with active := b } { x with active := b } m tm O s' → Q s' (.ok ())) : Sym cfg cid (setActive ref b) Q s := by
  unfold setActive
  simp only [bind_eq]
  refine Sym_bind (ns_issue _) (sym_getObj h ?_)
  simp only [cont_ok]
  refine Sym_bind (ns_issue _) (sym_setObj h h.cid fun s' h' => ?_)
  exact sym_save h' hx hq

theorem sym_doTeardown {Q : Slice → Except Err Unit → Prop} (h : Has1 cfg cid ref x y m tm O s) (hx : Covers cfg x m)
    (hq : ∀ s', Has1 cfg cid ref { x with active := false } { x with active := false } m tm O s' → Q s' (.ok ())) : Sym cfg cid (doTeardown ref) Q s := by
  unfold doTeardown
  simp only [bind_eq]
  refine Sym_bind (ns_issue _) (sym_getObj h ?_)
  simp only [cont_ok]
  have ns : NoSpawn ((issue (.teardown x.cid)).bind fun _ => Prog.pure true) := ns_bind (ns_issue _) fun _ => trivial
  refine Sym_bind (ns_tryCatch (f := fun _ => Prog.pure false) ns fun _ => trivial) ?_
  refine Sym_tryCatch ns (Sym_bind (ns_issue _) (sym_teardown h.covers fun r => ?_))
  cases r with
  | ok u =>
    simp only [cont_ok, caught_ok, Sym, if_true]
    refine Sym_tryCatch (ns_bind (ns_setActive _ _) fun _ => ns_bind (ns_issue _) fun _ => ns_issue _) ?_
    refine Sym_bind (ns_setActive _ _) (sym_setActive h.idle hx fun s' h' => ?_)
    refine Sym_bind (ns_issue _) (sym_notifId fun n => ?_)
    exact sym_tell (hq s' h')
  | error e =>
    simp only [cont_error, cont_ok, caught_error, Sym, Bool.false_eq_true, if_false]
    refine Sym_bind (ns_setActive _ _) (sym_setActive h.idle hx fun s' h' => ?_)
    refine Sym_bind (ns_issue _) (sym_notifId fun n => ?_)
    exact sym_tell (hq s' h')

theorem gone {x : Row} (h : x.st.l ≠ .created) : x.holds = false := by simp [Row.holds, h]

/-- After it nothing is left in the calendar. -/
theorem sym_doFreeResource {Q : Slice → Except Err Unit → Prop} (h : Has1 cfg cid ref x x m tm O s)
    (hm : m.Perm (if x.active = true ∨ x.allocated = true ∨ x.st.r = .held then both cfg x else [])) (hx : x.st.l ≠ .created)
    (hq : ∀ s', Has1 cfg cid ref { x with active := false } { x with active := false } [] tm O s' → Q s' (.ok ())) :
    Sym cfg cid (doFreeResource cfg ref) Q s := by
  unfold doFreeResource
  simp only [bind_eq]
  refine Sym_bind (ns_issue _) (sym_getObj h ?_)
  simp only [cont_ok]
  split
  · rename_i ha
    rw [if_pos (Or.inl ha)] at hm
    refine Sym_bind (ns_doTeardown _) (sym_doTeardown h (.of_not (gone hx)) fun s' h' => ?_)
    exact sym_removeBoth h' hm (gone hx) hq
  · rename_i ha
    have hxa : ({ x with active := false } : Row) = x := by
      have : x.active = false := by simpa using ha
      cases x
      simp_all
    split
    · rename_i hb
      rw [if_pos (Or.inr (by simpa using hb))] at hm
      exact sym_removeBoth h hm (gone hx) fun s' h' => hq s' (by rw [hxa]; exact h')
    · rename_i hb
      rw [if_neg (by simp only [not_or] at hb ⊢; exact ⟨ha, by simpa using hb.1, hb.2⟩)] at hm
      simp only [Sym]
      have : m = [] := List.Perm.eq_nil hm
      subst this
      exact hq s (by rw [hxa]; exact h)

/-- Lifecycle state after a successful switch. -/
theorem switchL_some {st : ConnStates} {l : LState} {st' : ConnStates} (h : switchL st l = some st') : st' = { st with l := l } ∧ l ∈ lifecycleTransitions st.l := by
  unfold switchL at h
  split at h
  · simp only [Option.some.injEq] at h; exact ⟨h.symm, by assumption⟩
  · cases h

theorem switchR_some {st : ConnStates} {l : RState} {st' : ConnStates} (h : switchR st l = some st') : st' = { st with r := l } ∧ l ∈ reserveTransitions st.r := by
  unfold switchR at h
  split at h
  · simp only [Option.some.injEq] at h; exact ⟨h.symm, by assumption⟩
  · cases h

theorem cov_life {l : LState} (hl : l ≠ .created) : ∀ st', switchL x.st l = some st' → Covers cfg { x with st := st' } m := by
  intro st' hs
  obtain ⟨rfl, _⟩ := switchL_some hs
  exact .of_not (gone hl)

theorem cov_reserve {l : RState} (hl : l ≠ .held) (ha : l ∈ reserveTransitions x.st.r → x.allocated = false) :
    ∀ st', switchR x.st l = some st' → Covers cfg { x with st := st' } m := by
  intro st' hs
  obtain ⟨rfl, hm⟩ := switchR_some hs
  exact .of_not (by simp [Row.holds, hl, ha hm])

/-- The row after the end time. -/
abbrev atEnd (x : Row) : Row := { x with st := { x.st with l := .passedEnd }, active := false }

theorem sym_doEndtime {Q : Slice → Except Err Unit → Prop} (h : Has1 cfg cid ref x y m tm O s)
    (hm : x.st.l = .created → m.Perm (if x.active = true ∨ x.allocated = true ∨ x.st.r = .held then both cfg x else []))
    (hq : ∀ s', x.st.l = .created → Has1 cfg cid ref (atEnd x) (atEnd x) [] none O s' → Q s' (.ok ()))
    (he : x.st.l ≠ .created → Q s (.error .invalidTransition)) : Sym cfg cid (doEndtime cfg ref) Q s := by
  unfold doEndtime
  simp only [bind_eq]
  refine Sym_bind (ns_issue _) (sym_getObj h ?_)
  simp only [cont_ok]
  split
  · rename_i hl; exact he hl
  · rename_i hl
    have hl' : x.st.l = .created := by simpa using hl
    refine Sym_bind (ns_issue _) (sym_cancel h h.cid fun s' h' => ?_)
    simp only [cont_ok]
    refine Sym_bind (ns_switchLifecycle _ _) (sym_switchLifecycle h' (cov_life (by simp)) (fun s'' st' hs h'' => ?_) fun hs => ?_)
    · obtain ⟨rfl, _⟩ := switchL_some hs
      simp only [cont_ok]
      exact sym_doFreeResource h'' (hm hl') (by simp) fun s3 h3 => hq s3 hl' h3
    · simp [switchL, hl', lifecycleTransitions] at hs

/-! ### At rest -/

theorem contrib_eq (cfg : Cfg) (r : Row) : contrib cfg r = if r.st.l = .created ∧ (r.st.r = .held ∨ r.allocated = true) then both cfg r else [] := by
  unfold contrib Row.holds
  by_cases h : r.st.l = .created ∧ (r.st.r = .held ∨ r.allocated = true)
  · rw [if_pos h, if_pos (by simpa using h)]; rfl
  · rw [if_neg h, if_neg (by simpa using h)]

theorem rest_of_has (h : Has1 cfg cid ref x x m tm O s) (hx : OkRow x) (hm : m.Perm (contrib cfg x))
    (htm : ∀ due act ref', tm = some ⟨due, act, ref', false⟩ → ref' = ref ∧ ActOk x act) : RestS cfg s where
  row r hr := by
    rw [h.row] at hr
    cases hr
    exact ⟨hx, by rw [h.mine]; exact hm⟩
  none hr := by rw [h.row] at hr; cases hr
  tm due act ref' ht := by
    rw [h.tm] at ht
    obtain ⟨rfl, ha⟩ := htm due act ref' ht
    exact ⟨x, ⟨x, false⟩, h.row, h.obj, rfl, Core.refl _, hx, ha⟩

/-- Only a new row object was changed. -/
theorem rest_off {s0 : Slice} (h0 : RestS cfg s0) (hn : s0.objs ref = none) (h : Has1 cfg cid ref x y m tm O s) (hy : s0.row = some y) (hm : m = s0.mine)
    (ht : tm = s0.tm) (hO : O = s0.objs) : RestS cfg s where
  row r hr := by
    rw [h.row] at hr
    have := h0.row r (by rw [hy]; exact hr)
    rw [h.mine, hm]
    exact this
  none hr := by rw [h.row] at hr; cases hr
  tm due act ref' ht' := by
    rw [h.tm, ht] at ht'
    obtain ⟨r, o, k1, k2, k3⟩ := h0.tm due act ref' ht'
    refine ⟨r, o, by rw [h.row, ← hy]; exact k1, ?_, k3⟩
    have hne : ref' ≠ ref := by rintro rfl; rw [hn] at k2; cases k2
    rw [h.off ref' hne, hO]
    exact k2

/-- Only a new row object was changed, and the timer is gone. -/
theorem rest_off_none {s0 : Slice} (h0 : RestS cfg s0) (h : Has1 cfg cid ref x y m none O s) (hy : s0.row = some y) (hm : m = s0.mine) : RestS cfg s where
  row r hr := by
    rw [h.row] at hr
    have := h0.row r (by rw [hy]; exact hr)
    rw [h.mine, hm]
    exact this
  none hr := by rw [h.row] at hr; cases hr
  tm due act ref' ht' := by rw [h.tm] at ht'; cases ht'

/-! ### Rollback, timeout, abort -/

/-- The row after a rollback. -/
abbrev rolled (x : Row) : Row := { x with st := { x.st with r := .start } }

/-- What a rollback needs when the reservation can be rolled back. -/
structure Held (cfg : Cfg) (x : Row) (m : List Resv) : Prop where
  life : x.st.l = .created
  alloc : x.allocated = false
  active : x.active = false
  prov : x.st.p = .released
  mine : m.Perm (both cfg x)

theorem Held.ok (h : Held cfg x m) : OkRow (rolled x) ∧ contrib cfg (rolled x) = [] ∧ OkRow (atEnd (rolled x)) ∧ contrib cfg (atEnd (rolled x)) = [] := by
  obtain ⟨h1, h2, h3, h4, h5⟩ := h
  refine ⟨⟨?_, ?_, ?_, ?_, ?_, ?_⟩, ?_, ⟨?_, ?_, ?_, ?_, ?_, ?_⟩, ?_⟩ <;> simp_all [contrib, Row.holds]

theorem sym_doReserveRollback {Q : Slice → Except Err Unit → Prop} (h : Has1 cfg cid ref x x m tm O s)
    (hh : .aborting ∈ reserveTransitions x.st.r → Held cfg x m)
    (hq : ∀ s' z tm', .aborting ∈ reserveTransitions x.st.r → Has1 cfg cid ref z z [] tm' O s' → RestS cfg s' → Q s' (.ok ()))
    (he : .aborting ∉ reserveTransitions x.st.r → Q s (.ok ())) : Sym cfg cid (doReserveRollback cfg ref) Q s := by
  have ns : NoSpawn ((switchReserve ref .aborting).bind fun _ => (issue (.getObj ref)).bind fun row => (issue (.cancel row.cid)).bind fun _ =>
      (removeBoth cfg ref).bind fun _ => (switchReserve ref .start).bind fun _ => (issue .now).bind fun now => match row.end_ with
      | none => Prog.pure ()
      | some e => if now > e then doEndtime cfg ref else issue (.sched row.cid e .endtime ref)) := by
    refine ns_bind (ns_switchReserve _ _) fun _ => ns_bind (ns_issue _) fun row => ns_bind (ns_issue _) fun _ => ns_bind (ns_removeBoth _ _) fun _ => ?_
    exact ns_rollbackBody cfg ref row
  unfold doReserveRollback
  simp only [bind_eq]
  refine Sym_tryCatch ns ?_
  refine Sym_bind (ns_switchReserve _ _) (sym_switchReserve h (cov_reserve (by simp) fun ha => (hh ha).alloc) (fun s1 st1 hs h1 => ?_) fun hs => ?_)
  · obtain ⟨rfl, hmem⟩ := switchR_some hs
    have hd := hh hmem
    obtain ⟨k1, k2, k3, k4⟩ := hd.ok
    simp only [cont_ok]
    refine Sym_bind (ns_issue _) (sym_getObj h1 ?_)
    simp only [cont_ok]
    refine Sym_bind (ns_issue _) (sym_cancel h1 h.cid fun s2 h2 => ?_)
    simp only [cont_ok]
    refine Sym_bind (ns_removeBoth _ _) (sym_removeBoth h2 hd.mine (by simp [Row.holds, hd.alloc]) fun s3 h3 => ?_)
    simp only [cont_ok]
    refine Sym_bind (ns_switchReserve _ _) (sym_switchReserve h3 (cov_reserve (by simp) fun _ => hd.alloc) (fun s4 st4 hs4 h4 => ?_) fun hs4 => ?_)
    · obtain ⟨rfl, -⟩ := switchR_some hs4
      have h4' : Has1 cfg cid ref (rolled x) (rolled x) [] none O s4 := h4
      simp only [cont_ok]
      refine Sym_bind (ns_issue _) (sym_now fun now => ?_)
      simp only [cont_ok]
      split
      · exact hq s4 _ _ hmem h4' (rest_of_has h4' k1 (by rw [k2]) (by intro _ _ _ h; cases h))
      · split
        · refine sym_doEndtime h4' (fun _ => ?_) (fun s5 _ h5 => ?_) fun hl => absurd hd.life hl
          · rw [if_neg (by simp [hd.alloc, hd.active])]
          · exact hq s5 _ _ hmem h5 (rest_of_has h5 k3 (by rw [k4]) (by intro _ _ _ h; cases h))
        · refine sym_sched h4' h.cid (fun s5 due h5 => ?_) fun s5 e h5 => ?_
          · refine hq s5 _ _ hmem h5 (rest_of_has h5 k1 (by rw [k2]) ?_)
            intro _ _ _ h
            simp only [Option.some.injEq, Timer.mk.injEq, and_true] at h
            obtain ⟨-, rfl, rfl⟩ := h
            exact ⟨rfl, rfl⟩
          · exact hq s5 _ _ hmem h5 (rest_of_has h5 k1 (by rw [k2]) (by intro _ _ _ h; cases h))
    · simp [switchR, reserveTransitions] at hs4
  · simp only [cont_error, caught_error, Sym]
    refine he ?_
    intro hmem
    simp [switchR, hmem] at hs

theorem sym_doReserveTimeout (h : Has1 cfg cid ref x y m tm O s) (hx : OkRow x) (hh : x.st.r = .held) (hl : x.st.l = .created) (hm : m.Perm (both cfg x)) :
    Sym cfg cid (doReserveTimeout cfg ref) (Final cfg) s := by
  have hd : Held cfg x m := by
    have ha : x.allocated = false := by
      cases e : x.allocated with
      | false => rfl
      | true => have := hx.alloc e; rw [hh] at this; cases this
    refine ⟨hl, ha, ?_, ?_, hm⟩
    · cases e : x.active with
      | false => rfl
      | true => have := hx.active e; rw [ha] at this; cases this
    · refine Classical.byContradiction fun hp => ?_
      have := hx.prov hp
      rw [ha] at this
      cases this
  unfold doReserveTimeout
  simp only [bind_eq]
  refine Sym_tryCatch (ns_bind (ns_switchReserve _ _) fun _ => ns_bind (ns_doReserveRollback _ _) fun _ => ns_bind (ns_issue _) fun _ => ns_bind (ns_issue _) fun _ => ns_issue _) ?_
  refine Sym_bind (ns_switchReserve _ _) (sym_switchReserve h (cov_reserve (by simp) fun _ => hd.alloc) (fun s1 st1 hs h1 => ?_) fun hs => ?_)
  · obtain ⟨rfl, -⟩ := switchR_some hs
    simp only [cont_ok]
    refine Sym_bind (ns_doReserveRollback _ _) (sym_doReserveRollback h1 (fun _ => ⟨hd.life, hd.alloc, hd.active, hd.prov, hd.mine⟩) (fun s2 z tm' _ h2 hr => ?_) fun hn => ?_)
    · simp only [cont_ok]
      refine Sym_bind (ns_issue _) (sym_getObj h2 ?_)
      simp only [cont_ok]
      refine Sym_bind (ns_issue _) (sym_notifId fun n => ?_)
      exact sym_tell hr
    · simp [reserveTransitions] at hn
  · simp [switchR, hh, reserveTransitions] at hs

theorem OkRow.held (hx : OkRow x) (hr : x.st.r = .held) : x.allocated = false ∧ x.active = false ∧ x.st.p = .released ∧ x.st.l ≠ .passedEnd := by
  have ha : x.allocated = false := by
    cases e : x.allocated with
    | false => rfl
    | true => have := hx.alloc e; rw [hr] at this; cases this
  refine ⟨ha, ?_, ?_, ?_⟩
  · cases e : x.active with
    | false => rfl
    | true => have := hx.active e; rw [ha] at this; cases this
  · refine Classical.byContradiction fun hp => ?_
    have := hx.prov hp
    rw [ha] at this
    cases this
  · intro hl
    have := hx.ended hl
    rw [hr] at this
    cases this

/-- The endtime call. -/
theorem sym_endtime (h : Has1 cfg cid ref x y m tm O s) (h0 : RestS cfg s) (hx : OkRow x) (hr : x.st.r = .start) (hm : x.st.l = .created → m.Perm (contrib cfg x)) :
    Sym cfg cid (doEndtime cfg ref) (Final cfg) s := by
  refine sym_doEndtime h (fun hl => ?_) (fun s' hl h' => ?_) fun _ => h0
  · have := hm hl
    rw [contrib_eq] at this
    by_cases ha : x.allocated = true
    · rw [if_pos ⟨hl, Or.inr ha⟩] at this
      rw [if_pos (Or.inr (Or.inl ha))]
      exact this
    · rw [if_neg (by rintro ⟨-, h | h⟩; · rw [hr] at h; cases h
                     · exact ha h)] at this
      rw [if_neg (by rintro (h | h | h); · exact ha (hx.active h)
                     · exact ha h
                     · rw [hr] at h; cases h)]
      exact this
  · refine rest_of_has h' ⟨by simp, hx.alloc, hx.state, by simp, fun _ => hr, hx.prov⟩ ?_ (by intro _ _ _ h; cases h)
    rw [contrib_eq, if_neg (by simp)]

/-! ### Requests -/

theorem getConnection_ns (cid : Str) : NoSpawn (getConnection cid) := by
  unfold getConnection; simp only [bind_eq]; nospawn

/-- After the lookup. -/
theorem sym_getConnection {α : Type} {f : Nat → Prog α} {Q : Slice → Except Err α → Prop} (h0 : RestS cfg s) (hcid : ∀ r, s.row = some r → r.cid = cid)
    (hq : RestS cfg s.idle → Q s.idle (.error .nonExistent))
    (hr : ∀ r n s', s.row = some r → s.objs n = none → Has1 cfg cid n r r s.mine s.tm s.objs s' → Sym cfg cid (f n) Q s') :
    Sym cfg cid ((getConnection cid).bind f) Q s := by
  refine Sym_bind (getConnection_ns cid) ?_
  unfold getConnection
  simp only [bind_eq]
  refine Sym_bind (ns_issue _) (sym_find h0.cov (fun _ => ?_) hcid fun r n s' h1 h2 h3 => ?_)
  · exact hq h0.idle
  · exact hr r n s' h1 h2 h3

theorem sym_reserveAbort (h : Hdr) (h0 : RestS cfg s) (hcid : ∀ r, s.row = some r → r.cid = cid) :
    Sym cfg cid (reserveAbort cfg h cid) (Final cfg) s := by
  unfold reserveAbort
  simp only [bind_eq]
  refine sym_getConnection h0 hcid (fun h => h) fun r n s' hr hn hs => ?_
  obtain ⟨hok, hm⟩ := h0.row r hr
  have hrest : ∀ {s''}, Has1 cfg cid n r r s.mine s.tm s.objs s'' → RestS cfg s'' := fun h' => rest_off h0 hn h' hr rfl rfl rfl
  unfold abortOn
  simp only [bind_eq]
  refine Sym_bind (ns_issue _) (sym_getObj hs ?_)
  simp only [cont_ok]
  cases authorize cfg h r.srcPort r.dstPort with
  | error e => exact hrest hs
  | ok u =>
    simp only [Prog.ofExcept, Prog.bind]
    split
    · exact hrest hs
    · rename_i hg
      refine Sym_bind (ns_doReserveRollback _ _) (sym_doReserveRollback hs (fun ha => ?_) (fun s2 z tm' _ h2 hr2 => ?_) fun hna => ?_)
      · have hrh : r.st.r = .held := by
          rcases hok.state with h | h
          · rw [h] at ha; simp [reserveTransitions] at ha
          · exact h
        obtain ⟨a1, a2, a3, a4⟩ := hok.held hrh
        have hl : r.st.l = .created := by
          have := hok.life
          simp only [isGone, Bool.or_eq_true, decide_eq_true_eq, not_or] at hg
          revert this a4 hg
          cases r.st.l <;> simp
        refine ⟨hl, a1, a2, a3, ?_⟩
        rw [contrib_eq, if_pos ⟨hl, Or.inl hrh⟩] at hm
        exact hm
      · exact sym_tell hr2
      · exact sym_tell (hrest hs)

theorem sym_reserveCommit (h : Hdr) (h0 : RestS cfg s) (hcid : ∀ r, s.row = some r → r.cid = cid) :
    Sym cfg cid (reserveCommit cfg h cid) (Final cfg) s := by
  unfold reserveCommit
  simp only [bind_eq]
  refine sym_getConnection h0 hcid (fun h => h) fun r n s' hr hn hs => ?_
  obtain ⟨hok, hm⟩ := h0.row r hr
  have hrest : ∀ {z s''}, Has1 cfg cid n z r s.mine s.tm s.objs s'' → RestS cfg s'' := fun h' => rest_off h0 hn h' hr rfl rfl rfl
  unfold commitOn
  simp only [bind_eq]
  refine Sym_bind (ns_issue _) (sym_getObj hs ?_)
  simp only [cont_ok]
  cases authorize cfg h r.srcPort r.dstPort with
  | error e => exact hrest hs
  | ok u =>
    simp only [Prog.ofExcept, Prog.bind]
    split
    · exact hrest hs
    · refine Sym_bind (ns_issue _) (sym_setObj hs hs.cid fun s1 h1 => ?_)
      simp only [cont_ok]
      have key : RState.committing ∈ reserveTransitions r.st.r → OkRow ({ r with allocated := true, st := { r.st with r := .start } } : Row) ∧
          s.mine.Perm (contrib cfg ({ r with allocated := true, st := { r.st with r := .start } } : Row)) := by
        intro hmem
        have hrh : r.st.r = .held := by
          rcases hok.state with h | h
          · rw [h] at hmem; simp [reserveTransitions] at hmem
          · exact h
        refine ⟨⟨fun _ => rfl, fun _ => rfl, Or.inl rfl, hok.life, fun _ => rfl, fun _ => rfl⟩, ?_⟩
        rw [contrib_eq] at hm ⊢
        by_cases hl : r.st.l = .created
        · rw [if_pos ⟨hl, Or.inl hrh⟩] at hm
          rw [if_pos ⟨hl, Or.inr rfl⟩]
          exact hm
        · rw [if_neg (fun h => hl h.1)] at hm ⊢
          exact hm
      refine Sym_bind (ns_multiSwitch _ _) (sym_multiSwitch h1 (by simp [reserveTransitions]) (fun hmem => .of_perm (key hmem).2) (fun s2 hmem h2 => ?_) fun _ => hrest h1)
      obtain ⟨hok', hm'⟩ := key hmem
      simp only [cont_ok]
      refine Sym_bind (ns_issue _) (sym_cancel h2 rfl fun s3 h3 => ?_)
      simp only [cont_ok]
      have none3 : ∀ {s''}, Has1 cfg cid n { r with allocated := true, st := { r.st with r := .start } } { r with allocated := true, st := { r.st with r := .start } } s.mine none s.objs s'' → RestS cfg s'' :=
        fun h' => rest_of_has h' hok' hm' (by intro _ _ _ h; cases h)
      refine Sym_bind (ns_schedEnd _ _ _) ?_
      unfold schedEnd
      cases r.end_ with
      | none => exact sym_call h3.covers fun _ => none3 h3.idle
      | some e =>
        refine sym_sched h3 rfl (fun s4 due h4 => ?_) fun s4 e h4 => none3 h4
        refine sym_call h4.covers fun _ => rest_of_has h4.idle hok' hm' ?_
        intro _ _ _ h
        simp only [Option.some.injEq, Timer.mk.injEq, and_true] at h
        obtain ⟨-, rfl, rfl⟩ := h
        exact ⟨rfl, rfl⟩

theorem sym_terminate (h : Hdr) (h0 : RestS cfg s) (hcid : ∀ r, s.row = some r → r.cid = cid) (hnt : ∀ r, s.row = some r → r.st.l ≠ .terminating) :
    Sym cfg cid (terminate cfg h cid) (Final cfg) s := by
  unfold terminate
  simp only [bind_eq]
  refine sym_getConnection h0 hcid (fun h => h) fun r n s' hr hn hs => ?_
  obtain ⟨hok, hm⟩ := h0.row r hr
  have hrest : ∀ {z s''}, Has1 cfg cid n z r s.mine s.tm s.objs s'' → RestS cfg s'' := fun h' => rest_off h0 hn h' hr rfl rfl rfl
  unfold terminateOn
  simp only [bind_eq]
  refine Sym_bind (ns_issue _) (sym_getObj hs ?_)
  simp only [cont_ok]
  cases authorize cfg h r.srcPort r.dstPort with
  | error e => exact hrest hs
  | ok u =>
    simp only [Prog.ofExcept, Prog.bind]
    split
    · exact hrest hs
    · rename_i hl
      refine Sym_bind (ns_issue _) (sym_cancel hs rfl fun s1 h1 => ?_)
      simp only [cont_ok]
      refine Sym_bind (ns_switchLifecycle _ _) (sym_switchLifecycle h1 (cov_life (by simp)) (fun s2 st2 hs2 h2 => ?_) fun hs2 => ?_)
      · obtain ⟨rfl, -⟩ := switchL_some hs2
        simp only [cont_ok]
        -- what remains, once nothing is in the calendar
        have fin : ∀ {z : Row} {s3 : Slice}, OkRow z → z.st.l = .terminating → Has1 cfg cid n z z [] none s.objs s3 →
            Sym cfg cid ((issue (.call (.terminateConfirmed cid))).bind fun _ => switchLifecycle n .terminated) (Final cfg) s3 := by
          intro z s3 hz hzl h3
          have hz0 : RestS cfg s3.idle := rest_of_has h3.idle hz (by rw [contrib_eq, if_neg (by rw [hzl]; simp)]) (by intro _ _ _ h; cases h)
          refine Sym_bind (ns_issue _) (sym_call h3.covers fun r => ?_)
          cases r with
          | error e => exact hz0
          | ok u =>
            simp only [cont_ok]
            refine sym_switchLifecycle h3.idle (cov_life (by simp)) (fun s4 st4 hs4 h4 => ?_) fun _ => hz0
            obtain ⟨rfl, -⟩ := switchL_some hs4
            refine rest_of_has h4 ⟨hz.active, hz.alloc, hz.state, by simp, by simp, hz.prov⟩ ?_ (by intro _ _ _ h; cases h)
            rw [contrib_eq, if_neg (by simp)]
        refine Sym_bind (ns_whenP (ns_doFreeResource _ _)) ?_
        unfold whenP
        split
        · rename_i hpe
          have hlc : r.st.l = .created := by
            have a1 := hok.life
            have a2 := hnt r hr
            have a3 : r.st.l ≠ .passedEnd := by simpa using hpe
            have a4 : r.st.l ≠ .terminated := hl
            revert a1 a2 a3 a4
            cases r.st.l <;> simp
          refine sym_doFreeResource h2 ?_ (by simp) fun s3 h3 => ?_
          · rw [contrib_eq] at hm
            by_cases ha : r.active = true ∨ r.allocated = true ∨ r.st.r = .held
            · rw [if_pos ha]
              rw [if_pos ⟨hlc, by rcases ha with h | h | h; · exact Or.inr (hok.active h)
                                  · exact Or.inr h
                                  · exact Or.inl h⟩] at hm
              exact hm
            · rw [if_neg ha]
              rw [if_neg (fun h => ha (Or.inr (h.2.elim Or.inr Or.inl)))] at hm
              exact hm
          · simp only [cont_ok]
            exact fin (z := { r with st := { r.st with l := .terminating }, active := false }) ⟨by simp, hok.alloc, hok.state, by simp, by simp, hok.prov⟩ rfl h3
        · rename_i hpe
          have hlp : r.st.l = .passedEnd := by simpa using hpe
          rw [contrib_eq, if_neg (by rw [hlp]; simp)] at hm
          have hnil : s.mine = [] := List.Perm.eq_nil hm
          rw [hnil] at h2
          simp only [Sym, cont_ok]
          exact fin (z := { r with st := { r.st with l := .terminating } }) ⟨hok.active, hok.alloc, hok.state, by simp, by simp, hok.prov⟩ rfl h2
      · exact rest_off_none h0 h1 hr rfl

end
end OpenNSA.Backend
