import Verif.Backend.Run
/-
Local behaviour of the backend's operations: what each does to the row, timer, link and calendar of its connection.
-/
namespace OpenNSA.Backend
open OpenNSA Py Prog

/-- Row with another reservation state. -/
def Row.withR (r : Row) (x : RState) : Row := { r with st := { r.st with r := x } }
/-- Row with another provision state. -/
def Row.withP (r : Row) (x : PState) : Row := { r with st := { r.st with p := x } }
/-- Row with another lifecycle state. -/
def Row.withL (r : Row) (x : LState) : Row := { r with st := { r.st with l := x } }
/-- Row with another data plane flag. -/
def Row.withA (r : Row) (b : Bool) : Row := { r with active := b }

@[simp] theorem withR_cid (r : Row) (x) : (r.withR x).cid = r.cid := rfl
@[simp] theorem withP_cid (r : Row) (x) : (r.withP x).cid = r.cid := rfl
@[simp] theorem withL_cid (r : Row) (x) : (r.withL x).cid = r.cid := rfl
@[simp] theorem withA_cid (r : Row) (x) : (r.withA x).cid = r.cid := rfl
@[simp] theorem withR_end (r : Row) (x) : (r.withR x).end_ = r.end_ := rfl
@[simp] theorem withP_end (r : Row) (x) : (r.withP x).end_ = r.end_ := rfl
@[simp] theorem withL_end (r : Row) (x) : (r.withL x).end_ = r.end_ := rfl
@[simp] theorem withA_end (r : Row) (x) : (r.withA x).end_ = r.end_ := rfl
@[simp] theorem withR_start (r : Row) (x) : (r.withR x).start = r.start := rfl
@[simp] theorem withP_start (r : Row) (x) : (r.withP x).start = r.start := rfl
@[simp] theorem withL_start (r : Row) (x) : (r.withL x).start = r.start := rfl
@[simp] theorem withA_start (r : Row) (x) : (r.withA x).start = r.start := rfl
@[simp] theorem withR_active (r : Row) (x) : (r.withR x).active = r.active := rfl
@[simp] theorem withP_active (r : Row) (x) : (r.withP x).active = r.active := rfl
@[simp] theorem withL_active (r : Row) (x) : (r.withL x).active = r.active := rfl
@[simp] theorem withA_active (r : Row) (x) : (r.withA x).active = x := rfl
@[simp] theorem withR_allocated (r : Row) (x) : (r.withR x).allocated = r.allocated := rfl
@[simp] theorem withP_allocated (r : Row) (x) : (r.withP x).allocated = r.allocated := rfl
@[simp] theorem withL_allocated (r : Row) (x) : (r.withL x).allocated = r.allocated := rfl
@[simp] theorem withA_allocated (r : Row) (x) : (r.withA x).allocated = r.allocated := rfl
@[simp] theorem withR_r (r : Row) (x) : (r.withR x).st.r = x := rfl
@[simp] theorem withP_r (r : Row) (x) : (r.withP x).st.r = r.st.r := rfl
@[simp] theorem withL_r (r : Row) (x) : (r.withL x).st.r = r.st.r := rfl
@[simp] theorem withA_r (r : Row) (x) : (r.withA x).st.r = r.st.r := rfl
@[simp] theorem withR_p (r : Row) (x) : (r.withR x).st.p = r.st.p := rfl
@[simp] theorem withP_p (r : Row) (x) : (r.withP x).st.p = x := rfl
@[simp] theorem withL_p (r : Row) (x) : (r.withL x).st.p = r.st.p := rfl
@[simp] theorem withA_p (r : Row) (x) : (r.withA x).st.p = r.st.p := rfl
@[simp] theorem withR_l (r : Row) (x) : (r.withR x).st.l = r.st.l := rfl
@[simp] theorem withP_l (r : Row) (x) : (r.withP x).st.l = r.st.l := rfl
@[simp] theorem withL_l (r : Row) (x) : (r.withL x).st.l = x := rfl
@[simp] theorem withA_l (r : Row) (x) : (r.withA x).st.l = r.st.l := rfl
@[simp] theorem withR_reserveTime (r : Row) (x) : (r.withR x).reserveTime = r.reserveTime := rfl
@[simp] theorem withP_reserveTime (r : Row) (x) : (r.withP x).reserveTime = r.reserveTime := rfl
@[simp] theorem withL_reserveTime (r : Row) (x) : (r.withL x).reserveTime = r.reserveTime := rfl
@[simp] theorem withA_reserveTime (r : Row) (x) : (r.withA x).reserveTime = r.reserveTime := rfl
@[simp] theorem srcResv_withR (cfg r x) : srcResv cfg (Row.withR r x) = srcResv cfg r := rfl
@[simp] theorem srcResv_withP (cfg r x) : srcResv cfg (Row.withP r x) = srcResv cfg r := rfl
@[simp] theorem srcResv_withL (cfg r x) : srcResv cfg (Row.withL r x) = srcResv cfg r := rfl
@[simp] theorem srcResv_withA (cfg r x) : srcResv cfg (Row.withA r x) = srcResv cfg r := rfl
@[simp] theorem dstResv_withR (cfg r x) : dstResv cfg (Row.withR r x) = dstResv cfg r := rfl
@[simp] theorem dstResv_withP (cfg r x) : dstResv cfg (Row.withP r x) = dstResv cfg r := rfl
@[simp] theorem dstResv_withL (cfg r x) : dstResv cfg (Row.withL r x) = dstResv cfg r := rfl
@[simp] theorem dstResv_withA (cfg r x) : dstResv cfg (Row.withA r x) = dstResv cfg r := rfl

section
variable {cid : Str} {ref : Nat}

/-! ### Small steps -/

/-- The object and the stored row are both `row` (after an assignment and a save). -/
abbrev S.put (s : S) (row : Row) : S := { s with row, obj := row }
abbrev S.at (s : S) (t : Time) : S := { s with clk := t }

theorem L_getObj {α : Type} {k : Row → Prog α} {Q : S → Except Err α → Prop} {s : S}
    (h : ∀ t, s.clk ≤ t → LAll cid ref (k s.obj) Q (s.at t)) : LAll cid ref ((issue (.getObj ref)).bind k) Q s := by
  rw [LAll_bind, LAll_issue]; exact ⟨rfl, h⟩

theorem L_now {α : Type} {k : Time → Prog α} {Q : S → Except Err α → Prop} {s : S}
    (h : ∀ t, s.clk ≤ t → LAll cid ref (k t) Q (s.at t)) : LAll cid ref ((issue .now).bind k) Q s := by
  rw [LAll_bind, LAll_issue]; exact h

theorem L_notif {α : Type} {k : Nat → Prog α} {Q : S → Except Err α → Prop} {s : S}
    (h : ∀ t n, s.clk ≤ t → LAll cid ref (k n) Q (s.at t)) : LAll cid ref ((issue .notifId).bind k) Q s := by
  rw [LAll_bind, LAll_issue]; exact h

theorem L_tell {m : Msg} {Q : S → Except Err Unit → Prop} {s : S}
    (h : ∀ t, s.clk ≤ t → Q { s with out := s.out ++ [m], clk := t } (.ok ())) :
    LAll cid ref (issue (.tell m)) Q s := by
  rw [LAll_issue]; exact h

theorem L_cancel {α : Type} {k : Unit → Prog α} {Q : S → Except Err α → Prop} {s : S}
    (h : ∀ t, s.clk ≤ t → LAll cid ref (k ()) Q { s with tm := none, clk := t }) :
    LAll cid ref ((issue (.cancel cid)).bind k) Q s := by
  rw [LAll_bind, LAll_issue]; exact ⟨rfl, h⟩

theorem L_assign {α : Type} {row : Row} {k : Unit → Prog α} {Q : S → Except Err α → Prop} {s : S} (hc : row.cid = cid)
    (h : ∀ t, s.clk ≤ t → LAll cid ref (k ()) Q { s with obj := row, clk := t }) :
    LAll cid ref ((issue (.setObj ref row)).bind k) Q s := by
  rw [LAll_bind, LAll_issue]; exact ⟨rfl, hc, h⟩

theorem L_save {Q : S → Except Err Unit → Prop} {s : S}
    (h : ∀ t, s.clk ≤ t → Q { s with row := s.obj, clk := t } (.ok ())) : LAll cid ref (issue (.save ref)) Q s := by
  rw [LAll_issue]; exact ⟨rfl, h⟩

theorem L_bind {α β : Type} {p : Prog α} {k : α → Prog β} {Q : S → Except Err β → Prop} {s : S}
    (h : LAll cid ref p (cont Q fun a s => LAll cid ref (k a) Q s) s) : LAll cid ref (p.bind k) Q s := LAll_bind.mpr h

theorem L_ofExcept {α β : Type} {x : Except Err α} {k : α → Prog β} {Q : S → Except Err β → Prop} {s : S}
    (h : match x with | .ok a => LAll cid ref (k a) Q s | .error e => Q s (.error e)) :
    LAll cid ref ((ofExcept x).bind k) Q s := by
  cases x <;> exact h

/-- Assign and save. -/
theorem L_put {row : Row} {Q : S → Except Err Unit → Prop} {s : S} (hc : row.cid = cid)
    (h : ∀ t, s.clk ≤ t → Q ((s.put row).at t) (.ok ())) :
    LAll cid ref ((issue (.setObj ref row)).bind fun _ => issue (.save ref)) Q s := by
  apply L_assign hc; intro t1 h1
  apply L_save; intro t2 h2
  exact h t2 (Int.le_trans h1 h2)

theorem L_setActive {b : Bool} {Q : S → Except Err Unit → Prop} {s : S} (hc : s.obj.cid = cid)
    (h : ∀ t, s.clk ≤ t → Q ((s.put (s.obj.withA b)).at t) (.ok ())) : LAll cid ref (setActive ref b) Q s := by
  unfold setActive
  apply L_getObj; intro t1 h1
  apply L_put (by exact hc)
  intro t2 h2
  exact h t2 (Int.le_trans h1 h2)

theorem L_switchReserve {x : RState} {Q : S → Except Err Unit → Prop} {s : S} (hc : s.obj.cid = cid)
    (h1 : x ∈ reserveTransitions s.obj.st.r → ∀ t, s.clk ≤ t → Q ((s.put (s.obj.withR x)).at t) (.ok ()))
    (h2 : x ∉ reserveTransitions s.obj.st.r → ∀ t, s.clk ≤ t → Q (s.at t) (.error .internal)) :
    LAll cid ref (switchReserve ref x) Q s := by
  unfold switchReserve
  apply L_getObj; intro t1 ht1
  unfold switchR
  by_cases hx : x ∈ reserveTransitions s.obj.st.r
  · rw [if_pos hx]
    apply L_put (by exact hc)
    intro t2 ht2
    exact h1 hx t2 (Int.le_trans ht1 ht2)
  · rw [if_neg hx]
    exact h2 hx t1 ht1

theorem L_switchProvision {x : PState} {Q : S → Except Err Unit → Prop} {s : S} (hc : s.obj.cid = cid)
    (h1 : x ∈ provisionTransitions s.obj.st.p → ∀ t, s.clk ≤ t → Q ((s.put (s.obj.withP x)).at t) (.ok ()))
    (h2 : x ∉ provisionTransitions s.obj.st.p → ∀ t, s.clk ≤ t → Q (s.at t) (.error .internal)) :
    LAll cid ref (switchProvision ref x) Q s := by
  unfold switchProvision
  apply L_getObj; intro t1 ht1
  unfold switchP
  by_cases hx : x ∈ provisionTransitions s.obj.st.p
  · rw [if_pos hx]
    apply L_put (by exact hc)
    intro t2 ht2
    exact h1 hx t2 (Int.le_trans ht1 ht2)
  · rw [if_neg hx]
    exact h2 hx t1 ht1

theorem L_switchLifecycle {x : LState} {Q : S → Except Err Unit → Prop} {s : S} (hc : s.obj.cid = cid)
    (h1 : x ∈ lifecycleTransitions s.obj.st.l → ∀ t, s.clk ≤ t → Q ((s.put (s.obj.withL x)).at t) (.ok ()))
    (h2 : x ∉ lifecycleTransitions s.obj.st.l → ∀ t, s.clk ≤ t → Q (s.at t) (.error .internal)) :
    LAll cid ref (switchLifecycle ref x) Q s := by
  unfold switchLifecycle
  apply L_getObj; intro t1 ht1
  unfold switchL
  by_cases hx : x ∈ lifecycleTransitions s.obj.st.l
  · rw [if_pos hx]
    apply L_put (by exact hc)
    intro t2 ht2
    exact h1 hx t2 (Int.le_trans ht1 ht2)
  · rw [if_neg hx]
    exact h2 hx t1 ht1

/-- Two switches in one save: `HELD → COMMITTING → START` and `START → CHECKING → HELD`. -/
theorem L_multiSwitch2 {x y : RState} {Q : S → Except Err Unit → Prop} {s : S} (hc : s.obj.cid = cid)
    (h1 : x ∈ reserveTransitions s.obj.st.r → y ∈ reserveTransitions x →
      ∀ t, s.clk ≤ t → Q ((s.put (s.obj.withR y)).at t) (.ok ()))
    (h2 : x ∉ reserveTransitions s.obj.st.r ∨ y ∉ reserveTransitions x →
      ∀ o t, s.clk ≤ t → o.cid = cid → Q { s with obj := o, clk := t } (.error .internal)) :
    LAll cid ref (multiSwitch ref [x, y]) Q s := by
  unfold multiSwitch multiSwitchLoop multiSwitchLoop multiSwitchLoop
  apply L_bind
  apply L_getObj; intro t1 ht1
  unfold switchR
  by_cases hx : x ∈ reserveTransitions s.obj.st.r
  · rw [if_pos hx]
    apply L_assign (by exact hc)
    intro t2 ht2
    apply L_getObj; intro t3 ht3
    simp only
    by_cases hy : y ∈ reserveTransitions x
    · rw [if_pos hy]
      apply L_assign (by exact hc)
      intro t4 ht4
      show LAll cid ref (issue (.save ref)) Q _
      apply L_save; intro t5 ht5
      exact h1 hx hy t5 (by simp only at *; omega)
    · rw [if_neg hy]
      exact h2 (Or.inr hy) _ t3 (by simp only at *; omega) hc
  · rw [if_neg hx]
    exact h2 (Or.inl hx) s.obj t1 ht1 hc

/-- Schedule a call while none is pending. -/
theorem L_sched {t' : Time} {act : Act} {Q : S → Except Err Unit → Prop} {s : S} (hb : busy s.tm = false)
    (h1 : ∀ t, s.clk ≤ t → t ≤ t' + second → Q { s with tm := some ⟨max t' t, act, ref, false⟩, clk := t } (.ok ()))
    (h2 : ∀ t, s.clk ≤ t → t' + second < t → Q (s.at t) (.error .assertion)) :
    LAll cid ref (issue (.sched cid t' act ref)) Q s := by
  rw [LAll_issue]
  refine ⟨rfl, rfl, fun t ht => ?_⟩
  unfold schedRes
  simp only [hb, Bool.false_eq_true, if_false]
  split
  · exact h2 t ht (by omega)
  · exact h1 t ht (by omega)

/-! ### Calendar entries of a connection -/

/-- Removal of two entries in sequence: the calendar afterwards, and the error if one was missing. -/
def rm2 (c : Cal) (a b : Resv) : Cal × Option Err :=
  match c.remove a with
  | .error e => (c, some (calErr e))
  | .ok c1 => match c1.remove b with
    | .error e => (c1, some (calErr e))
    | .ok c2 => (c2, none)

/-- Result of a computation that may have failed. -/
def resOf : Option Err → Except Err Unit
  | none => .ok ()
  | some e => .error e

theorem L_removeBoth {cfg : Cfg} {Q : S → Except Err Unit → Prop} {s : S}
    (h : ∀ t, s.clk ≤ t → Q { s with cal := (rm2 s.cal (srcResv cfg s.obj) (dstResv cfg s.obj)).1, clk := t }
      (resOf (rm2 s.cal (srcResv cfg s.obj) (dstResv cfg s.obj)).2)) :
    LAll cid ref (removeBoth cfg ref) Q s := by
  unfold removeBoth
  apply L_getObj; intro t1 ht1
  simp only [bind_eq, LAll_bind, LAll_issue, LCmd]
  intro t2 ht2
  unfold rm2 at h
  cases hr : s.cal.remove (srcResv cfg s.obj) with
  | error e => rw [hr] at h; simp only [cont_error]; exact h t2 (Int.le_trans ht1 ht2)
  | ok c1 =>
    rw [hr] at h
    simp only [cont_ok] at h ⊢
    intro t3 ht3
    cases hr2 : c1.remove (dstResv cfg s.obj) with
    | error e => rw [hr2] at h; exact h t3 (by simp only at *; omega)
    | ok c2 => rw [hr2] at h; exact h t3 (by simp only at *; omega)

/-! ### Teardown, freeing, end time -/

/-- Messages a teardown can send, with the link state it leaves. -/
def TornDown (cid : Str) (up up' : Bool) (m : Msg) : Prop :=
  (up' = false ∧ ∃ n, m = .dataPlane cid n false) ∨ ((up' = true → up = true) ∧ ∃ n, m = .deactivateFailed cid n)

theorem L_doTeardown {Q : S → Except Err Unit → Prop} {s : S} (hc : s.obj.cid = cid)
    (h : ∀ t up' m, s.clk ≤ t → TornDown cid s.up up' m →
      Q { (s.put (s.obj.withA false)) with up := up', out := s.out ++ [m], clk := t } (.ok ())) :
    LAll cid ref (doTeardown ref) Q s := by
  unfold doTeardown
  apply L_getObj; intro t1 ht1
  simp only [bind_eq]
  rw [LAll_bind, LAll_tryCatch, LAll_bind, LAll_issue]
  refine ⟨hc, fun t2 ht2 => ⟨?_, fun b => ?_⟩⟩
  · simp only [cont_ok, LAll, caught_ok, if_true]
    rw [LAll_tryCatch]
    apply L_bind
    apply L_setActive (by exact hc)
    intro t3 ht3
    apply L_notif; intro t4 n ht4
    apply L_tell; intro t5 ht5
    rw [hc]
    exact h t5 false _ (by simp only at *; omega) (Or.inl ⟨rfl, n, rfl⟩)
  · simp only [cont_error, LAll, caught_error, cont_ok]
    rw [if_neg (by simp)]
    apply L_bind
    apply L_setActive (by exact hc)
    intro t3 ht3
    apply L_notif; intro t4 n ht4
    apply L_tell; intro t5 ht5
    rw [hc]
    exact h t5 (!b && s.up) _ (by simp only at *; omega) (Or.inr ⟨by simp, n, rfl⟩)

theorem L_doFreeResource {cfg : Cfg} {Q : S → Except Err Unit → Prop} {s : S} (hc : s.obj.cid = cid)
    (h1 : s.obj.active = true → ∀ t up' m, s.clk ≤ t → TornDown cid s.up up' m →
      Q { (s.put (s.obj.withA false)) with
          up := up', out := s.out ++ [m], clk := t, cal := (rm2 s.cal (srcResv cfg s.obj) (dstResv cfg s.obj)).1 }
        (resOf (rm2 s.cal (srcResv cfg s.obj) (dstResv cfg s.obj)).2))
    (h2 : s.obj.active = false → s.obj.allocated = true ∨ s.obj.st.r = .held → ∀ t, s.clk ≤ t →
      Q { s with cal := (rm2 s.cal (srcResv cfg s.obj) (dstResv cfg s.obj)).1, clk := t }
        (resOf (rm2 s.cal (srcResv cfg s.obj) (dstResv cfg s.obj)).2))
    (h3 : s.obj.active = false → s.obj.allocated = false → s.obj.st.r ≠ .held → ∀ t, s.clk ≤ t → Q (s.at t) (.ok ())) :
    LAll cid ref (doFreeResource cfg ref) Q s := by
  unfold doFreeResource
  apply L_getObj; intro t1 ht1
  by_cases ha : s.obj.active = true
  · rw [if_pos ha]
    apply L_bind
    apply L_doTeardown (by exact hc)
    intro t2 up' m ht2 htd
    simp only [cont_ok]
    apply L_removeBoth
    intro t3 ht3
    exact h1 ha t3 up' m (by simp only at *; omega) htd
  · rw [if_neg ha]
    by_cases hb : s.obj.allocated = true ∨ s.obj.st.r = .held
    · rw [if_pos hb]
      apply L_removeBoth
      intro t3 ht3
      exact h2 (by simpa using ha) hb t3 (by simp only at *; omega)
    · rw [if_neg hb]
      rw [not_or] at hb
      exact h3 (by simpa using ha) (by simpa using hb.1) hb.2 t1 ht1

theorem L_doEndtime {cfg : Cfg} {Q : S → Except Err Unit → Prop} {s : S} (hc : s.obj.cid = cid)
    (h0 : s.obj.st.l ≠ .created → ∀ t, s.clk ≤ t → Q (s.at t) (.error .invalidTransition))
    (h1 : s.obj.st.l = .created → s.obj.active = true → ∀ t up' m, s.clk ≤ t → TornDown cid s.up up' m →
      Q { (s.put ((s.obj.withL .passedEnd).withA false)) with
          up := up', out := s.out ++ [m], clk := t, tm := none,
          cal := (rm2 s.cal (srcResv cfg s.obj) (dstResv cfg s.obj)).1 }
        (resOf (rm2 s.cal (srcResv cfg s.obj) (dstResv cfg s.obj)).2))
    (h2 : s.obj.st.l = .created → s.obj.active = false → s.obj.allocated = true ∨ s.obj.st.r = .held → ∀ t, s.clk ≤ t →
      Q { (s.put (s.obj.withL .passedEnd)) with
          cal := (rm2 s.cal (srcResv cfg s.obj) (dstResv cfg s.obj)).1, clk := t, tm := none }
        (resOf (rm2 s.cal (srcResv cfg s.obj) (dstResv cfg s.obj)).2))
    (h3 : s.obj.st.l = .created → s.obj.active = false → s.obj.allocated = false → s.obj.st.r ≠ .held → ∀ t, s.clk ≤ t →
      Q { (s.put (s.obj.withL .passedEnd)) with clk := t, tm := none } (.ok ())) :
    LAll cid ref (doEndtime cfg ref) Q s := by
  unfold doEndtime
  apply L_getObj; intro t1 ht1
  by_cases hl : s.obj.st.l = .created
  · rw [if_neg (by simpa using hl)]
    rw [hc]
    apply L_cancel; intro t2 ht2
    apply L_bind
    apply L_switchLifecycle (by exact hc)
    · intro _ t3 ht3
      simp only [cont_ok]
      apply L_doFreeResource (by exact hc)
      · intro ha t4 up' m ht4 htd
        exact h1 hl ha t4 up' m (by simp only at *; omega) htd
      · intro ha hb t4 ht4
        exact h2 hl ha hb t4 (by simp only at *; omega)
      · intro ha hb hb' t4 ht4
        exact h3 hl ha hb hb' t4 (by simp only at *; omega)
    · intro hx
      exact absurd (by rw [show s.obj.st.l = _ from hl]; decide) hx
  · rw [if_pos hl]
    exact h0 hl t1 ht1

/-! ### Rollback -/

/-- Timer left by a rollback: none, or the end time call. -/
def EndTimer (ref : Nat) (row : Row) (tm : Option Timer) : Prop :=
  tm = none ∨ ∃ e due, row.end_ = some e ∧ e ≤ due ∧ tm = some ⟨due, .endtime, ref, false⟩

/-- The end call a committed connection must have: due at the end, or at once if the end has come, unless the end passed more
than a second ago. -/
def EndCall (end_ : Option Time) (tm : Option Timer) (clk : Time) : Prop :=
  ∀ e, end_ = some e →
    (∃ due ref, tm = some ⟨due, .endtime, ref, false⟩ ∧ e ≤ due ∧ (due ≤ e ∨ due ≤ clk)) ∨ e + second < clk

theorem EndCall.mono {end_ : Option Time} {tm : Option Timer} {c c' : Time} (h : EndCall end_ tm c) (hc : c ≤ c') :
    EndCall end_ tm c' := by
  intro e he
  rcases h e he with ⟨due, ref, h1, h2, h3⟩ | h
  · exact Or.inl ⟨due, ref, h1, h2, by omega⟩
  · exact Or.inr (by omega)

theorem L_doReserveRollback {cfg : Cfg} {Q : S → Except Err Unit → Prop} {s : S} (hc : s.obj.cid = cid)
    (hna : RState.aborting ∈ reserveTransitions s.obj.st.r → s.obj.active = false ∧ s.obj.allocated = false)
    (h0 : RState.aborting ∉ reserveTransitions s.obj.st.r → ∀ t, s.clk ≤ t → Q (s.at t) (.ok ()))
    (h1 : RState.aborting ∈ reserveTransitions s.obj.st.r →
      (rm2 s.cal (srcResv cfg s.obj) (dstResv cfg s.obj)).2 ≠ none → ∀ t, s.clk ≤ t →
      Q { (s.put (s.obj.withR .aborting)) with
        tm := none, clk := t, cal := (rm2 s.cal (srcResv cfg s.obj) (dstResv cfg s.obj)).1 } (.ok ()))
    (h2 : RState.aborting ∈ reserveTransitions s.obj.st.r →
      (rm2 s.cal (srcResv cfg s.obj) (dstResv cfg s.obj)).2 = none → ∀ t tm', s.clk ≤ t → EndTimer ref s.obj tm' →
      Q { (s.put (s.obj.withR .start)) with
        tm := tm', clk := t, cal := (rm2 s.cal (srcResv cfg s.obj) (dstResv cfg s.obj)).1 } (.ok ()))
    (h3 : RState.aborting ∈ reserveTransitions s.obj.st.r →
      (rm2 s.cal (srcResv cfg s.obj) (dstResv cfg s.obj)).2 = none → s.obj.st.l = .created →
      ∀ t e, s.clk ≤ t → s.obj.end_ = some e → e < t →
      Q { (s.put ((s.obj.withR .start).withL .passedEnd)) with
        tm := none, clk := t, cal := (rm2 s.cal (srcResv cfg s.obj) (dstResv cfg s.obj)).1 } (.ok ())) :
    LAll cid ref (doReserveRollback cfg ref) Q s := by
  unfold doReserveRollback
  rw [LAll_tryCatch]
  apply L_bind
  apply L_switchReserve (by exact hc)
  · intro hx t1 ht1
    obtain ⟨hact, hall⟩ := hna hx
    simp only [cont_ok]
    apply L_getObj; intro t2 ht2
    simp only [withR_cid, hc]
    apply L_cancel; intro t3 ht3
    apply L_bind
    apply L_removeBoth
    intro t4 ht4
    simp only [srcResv_withR, dstResv_withR]
    have h2 := h2 hx
    have h3 := h3 hx
    have h1 := h1 hx
    cases hrm : (rm2 s.cal (srcResv cfg s.obj) (dstResv cfg s.obj)).2 with
    | some e =>
      simp only [resOf, cont_error, caught_error, LAll]
      exact h1 (by rw [hrm]; simp) t4 (by simp only at *; omega)
    | none =>
      simp only [resOf, cont_ok]
      apply L_bind
      apply L_switchReserve (by exact hc)
      · intro _ t5 ht5
        simp only [cont_ok]
        apply L_now; intro t6 ht6
        cases he : s.obj.end_ with
        | none =>
          simp only [withR_end, he]
          exact h2 hrm t6 none (by simp only at *; omega) (Or.inl rfl)
        | some e =>
          simp only [withR_end, he]
          by_cases hlate : t6 > e
          · rw [if_pos hlate]
            apply L_doEndtime (by exact hc)
            · intro _ t7 ht7
              exact h2 hrm t7 none (by simp only at *; omega) (Or.inl rfl)
            · intro _ ha; rw [show s.obj.active = true from ha] at hact; exact absurd hact (by simp)
            · intro _ _ ha
              rcases ha with ha | ha
              · rw [show s.obj.allocated = true from ha] at hall; exact absurd hall (by simp)
              · exact absurd ha (by simp [Row.withR])
            · intro hl _ _ _ t7 ht7
              exact h3 hrm hl t7 e (by simp only at *; omega) he (by simp only at *; omega)
          · rw [if_neg hlate]
            apply L_sched rfl
            · intro t7 ht7 _
              exact h2 hrm t7 _ (by simp only at *; omega) (Or.inr ⟨e, max e t7, he, by omega, rfl⟩)
            · intro t7 ht7 _
              simp only [caught_error, LAll]
              exact h2 hrm t7 none (by simp only at *; omega) (Or.inl rfl)
      · intro hx2
        exact absurd (by simp [Row.withR, reserveTransitions]) hx2
  · intro hx t1 ht1
    exact h0 hx t1 ht1

theorem L_schedEnd {e? : Option Time} {Q : S → Except Err Unit → Prop} {s : S} (hb : busy s.tm = false)
    (h0 : e? = none → Q s (.ok ()))
    (h1 : ∀ e t, e? = some e → s.clk ≤ t → t ≤ e + second →
      Q { s with tm := some ⟨max e t, .endtime, ref, false⟩, clk := t } (.ok ()))
    (h2 : ∀ e t, e? = some e → s.clk ≤ t → e + second < t → Q (s.at t) (.error .assertion)) :
    LAll cid ref (schedEnd cid e? ref) Q s := by
  cases e? with
  | none => exact h0 rfl
  | some e => exact L_sched hb (h1 e · rfl) (h2 e · rfl)

theorem L_doReserveTimeout {cfg : Cfg} {Q : S → Except Err Unit → Prop} {s : S} (hc : s.obj.cid = cid)
    (hh : s.obj.st.r = .held) (hact : s.obj.active = false) (hall : s.obj.allocated = false)
    (h1 : (rm2 s.cal (srcResv cfg s.obj) (dstResv cfg s.obj)).2 ≠ none → ∀ t n, s.clk ≤ t →
      Q { (s.put (s.obj.withR .aborting)) with
        tm := none, clk := t, out := s.out ++ [.reserveTimeout cid n],
        cal := (rm2 s.cal (srcResv cfg s.obj) (dstResv cfg s.obj)).1 } (.ok ()))
    (h2 : (rm2 s.cal (srcResv cfg s.obj) (dstResv cfg s.obj)).2 = none → ∀ t tm' n, s.clk ≤ t → EndTimer ref s.obj tm' →
      Q { (s.put (s.obj.withR .start)) with
        tm := tm', clk := t, out := s.out ++ [.reserveTimeout cid n],
        cal := (rm2 s.cal (srcResv cfg s.obj) (dstResv cfg s.obj)).1 } (.ok ()))
    (h3 : (rm2 s.cal (srcResv cfg s.obj) (dstResv cfg s.obj)).2 = none → s.obj.st.l = .created →
      ∀ t e n, s.clk ≤ t → s.obj.end_ = some e → e < t →
      Q { (s.put ((s.obj.withR .start).withL .passedEnd)) with
        tm := none, clk := t, out := s.out ++ [.reserveTimeout cid n],
        cal := (rm2 s.cal (srcResv cfg s.obj) (dstResv cfg s.obj)).1 } (.ok ())) :
    LAll cid ref (doReserveTimeout cfg ref) Q s := by
  unfold doReserveTimeout
  rw [LAll_tryCatch]
  apply L_bind
  apply L_switchReserve (by exact hc)
  · intro _ t1 ht1
    simp only [cont_ok]
    apply L_bind
    apply L_doReserveRollback (by exact hc)
    · intro _; exact ⟨hact, hall⟩
    · intro hx; exact absurd (by simp [Row.withR, reserveTransitions]) hx
    · intro _ hrm t2 ht2
      simp only [cont_ok]
      apply L_getObj; intro t3 ht3
      apply L_notif; intro t4 n ht4
      apply L_tell; intro t5 ht5
      simp only [withR_cid, hc]
      exact h1 hrm t5 n (by simp only at *; omega)
    · intro _ hrm t2 tm' ht2 htm
      simp only [cont_ok]
      apply L_getObj; intro t3 ht3
      apply L_notif; intro t4 n ht4
      apply L_tell; intro t5 ht5
      simp only [withR_cid, hc]
      exact h2 hrm t5 tm' n (by simp only at *; omega) htm
    · intro _ hrm hl t2 e ht2 he hlt
      simp only [cont_ok]
      apply L_getObj; intro t3 ht3
      apply L_notif; intro t4 n ht4
      apply L_tell; intro t5 ht5
      simp only [withR_cid, withL_cid, hc]
      exact h3 hrm hl t5 e n (by simp only at *; omega) he (by simp only at *; omega)
  · intro hx
    exact absurd (by rw [hh]; decide) hx

/-- Outcome of an activation on timer and messages. -/
def Activated (cid : Str) (ref : Nat) (end_ : Option Time) (up up' a : Bool) (tm tm' : Option Timer) (out' : List Msg)
    (t : Time) : Prop :=
  (a = true ∧ up' = true ∧
      ((∃ n, out' = [.dataPlane cid n true] ∧ (end_ = none ∧ tm' = tm ∨
        ∃ e due, end_ = some e ∧ e ≤ due ∧ (due ≤ e ∨ due ≤ t) ∧ tm' = some ⟨due, .endtime, ref, false⟩)) ∨
      -- the end time passed by more than a second in between: no end call is scheduled, and no message sent
      (out' = [] ∧ tm' = tm ∧ ∃ e, end_ = some e ∧ e + second < t))) ∨
  (a = false ∧ (up = true → up' = true) ∧ tm' = tm ∧ ∃ n, out' = [.activateFailed cid n])

theorem Activated.mono {cid : Str} {ref : Nat} {end_ : Option Time} {up up' a : Bool} {tm tm' : Option Timer} {out' : List Msg}
    {t t' : Time} (h : Activated cid ref end_ up up' a tm tm' out' t) (ht : t ≤ t') :
    Activated cid ref end_ up up' a tm tm' out' t' := by
  rcases h with ⟨h1, h2, ⟨n, h3, h4 | ⟨e, due, h4, h5, h6, h7⟩⟩ | ⟨h3, h4, e, h5, h6⟩⟩ | h
  · exact Or.inl ⟨h1, h2, Or.inl ⟨n, h3, Or.inl h4⟩⟩
  · exact Or.inl ⟨h1, h2, Or.inl ⟨n, h3, Or.inr ⟨e, due, h4, h5, by omega, h7⟩⟩⟩
  · exact Or.inl ⟨h1, h2, Or.inr ⟨h3, h4, e, h5, by omega⟩⟩
  · exact Or.inr h

theorem L_doActivate {Q : S → Except Err Unit → Prop} {s : S} (hc : s.obj.cid = cid) (hb : busy s.tm = false)
    (h : ∀ t up' a tm' out', s.clk ≤ t → Activated cid ref s.obj.end_ s.up up' a s.tm tm' out' t →
      Q { (s.put (s.obj.withA a)) with up := up', tm := tm', out := s.out ++ out', clk := t } (.ok ())) :
    LAll cid ref (doActivate ref) Q s := by
  unfold doActivate
  apply L_getObj; intro t1 ht1
  simp only [bind_eq]
  rw [LAll_bind, LAll_tryCatch, LAll_bind, LAll_issue]
  refine ⟨hc, fun t2 ht2 => ⟨?_, fun b => ?_⟩⟩
  · simp only [cont_ok, LAll, caught_ok, if_true]
    rw [LAll_tryCatch]
    apply L_bind
    apply L_setActive (by exact hc)
    intro t3 ht3
    simp only [cont_ok]
    apply L_now; intro t4 ht4
    rw [hc]
    apply L_bind
    apply L_schedEnd (by exact hb)
    · intro he
      simp only [cont_ok]
      apply L_notif; intro t5 n ht5
      apply L_tell; intro t6 ht6
      refine h t6 true true s.tm _ (by simp only at *; omega) (Or.inl ⟨rfl, rfl, Or.inl ⟨n, rfl, Or.inl ⟨?_, rfl⟩⟩⟩)
      simpa using he
    · intro e t5 he ht5 hle
      simp only [cont_ok]
      apply L_notif; intro t6 n ht6
      apply L_tell; intro t7 ht7
      simp only [Option.map_eq_some_iff] at he
      obtain ⟨e0, he0, he⟩ := he
      refine h t7 true true _ _ (by simp only at *; omega) (Or.inl ⟨rfl, rfl, Or.inl ⟨n, rfl, Or.inr ⟨e0, _, he0, ?_, ?_, rfl⟩⟩⟩)
      · split at he <;> omega
      · simp only at *; split at he <;> omega
    · intro e t5 he ht5 hlt
      simp only [cont_error, caught_error, LAll]
      have := h t5 true true s.tm [] (by simp only at *; omega) (Or.inl ⟨rfl, rfl, Or.inr ⟨rfl, rfl, ?_⟩⟩)
      · simpa using this
      · simp only [Option.map_eq_some_iff] at he
        obtain ⟨e0, he0, he⟩ := he
        refine ⟨e0, he0, ?_⟩
        split at he <;> omega
  · simp only [cont_error, LAll, caught_error, cont_ok]
    rw [if_neg (by simp)]
    apply L_bind
    apply L_setActive (by exact hc)
    intro t3 ht3
    apply L_notif; intro t4 n ht4
    apply L_tell; intro t5 ht5
    rw [hc]
    refine h t5 (b || s.up) false s.tm _ (by simp only at *; omega) (Or.inr ⟨rfl, ?_, rfl, n, rfl⟩)
    intro hu; simp [hu]

/-- What `_doReserve` leaves: the reservation is held; with a timeout call unless it could not be scheduled. -/
theorem L_doReserve {corr : Str} {Q : S → Except Err Unit → Prop} {s : S} (hc : s.obj.cid = cid)
    (hh : s.obj.st.r = .start)
    (h1 : ∀ t due res out', s.clk ≤ t → due ≤ t + tpcTimeout → (∀ e, s.obj.end_ = some e → due ≤ e + second) →
      (s.clk + tpcTimeout ≤ due ∨ ∃ e, s.obj.end_ = some e ∧ e ≤ due) →
      out' = [.reserveConfirmed corr cid s.obj.srcLabel s.obj.dstLabel s.obj.start s.obj.end_] →
      res = .ok () ∨ res = .error .parent →
      Q { (s.put (s.obj.withR .held)) with
          clk := t, out := s.out ++ out', tm := some ⟨due, .reserveTimeout, ref, false⟩ } res)
    (h2 : ∀ t e, s.clk ≤ t → s.obj.end_ = some e → e + second < t →
      Q { (s.put (s.obj.withR .held)) with clk := t, tm := none } (.error .assertion))
    (h3 : ∀ t, s.clk + tpcTimeout + second < t →
      Q { (s.put (s.obj.withR .held)) with clk := t, tm := none } (.error .assertion)) :
    LAll cid ref (doReserve ref corr) Q s := by
  unfold doReserve
  apply L_bind
  apply L_multiSwitch2 (by exact hc)
  · intro _ _ t1 ht1
    simp only [cont_ok]
    apply L_getObj; intro t2 ht2
    simp only [bind_eq, withR_cid, hc]
    rw [LAll_bind, LAll_issue]
    refine ⟨rfl, fun t3 ht3 => ?_⟩
    simp only [cont_ok]
    have main : ∀ t4, t3 ≤ t4 → LAll cid ref ((issue Cmd.now).bind fun now =>
        (issue (Cmd.sched cid
          (match (s.obj.withR .held).end_ with | none => now + tpcTimeout | some e => min (now + tpcTimeout) e)
          Act.reserveTimeout ref)).bind fun _ =>
        issue (Cmd.call (Msg.reserveConfirmed corr cid (s.obj.withR .held).srcLabel (s.obj.withR .held).dstLabel
          (s.obj.withR .held).start (s.obj.withR .held).end_))) Q
        { (s.put (s.obj.withR .held)) with clk := t4, tm := none } := by
      intro t4 ht4
      apply L_now; intro t5 ht5
      apply L_bind
      apply L_sched rfl
      · intro t6 ht6 hle
        simp only [cont_ok]
        rw [LAll_issue]
        intro t7 ht7
        have hsec : (0 : Int) ≤ second := by decide
        have htpc : (0 : Int) ≤ tpcTimeout := by decide
        simp only [withR_end] at hle ⊢
        have key : ∀ res, res = .ok () ∨ res = .error .parent → Q _ res := fun res hres => h1 t7
          (max (match s.obj.end_ with | none => t5 + tpcTimeout | some e => min (t5 + tpcTimeout) e) t6) res _
          (by simp only at *; omega)
          (by cases s.obj.end_ <;> simp only at * <;> omega)
          (by intro e he; rw [he] at hle ⊢; simp only at *; omega)
          (by
            cases he : s.obj.end_ with
            | none => left; simp only at *; omega
            | some e =>
              by_cases hm : e ≤ t5 + tpcTimeout
              · right; exact ⟨e, rfl, by simp only; omega⟩
              · left; simp only at *; omega)
          rfl hres
        exact ⟨key _ (Or.inl rfl), key _ (Or.inr rfl)⟩
      · intro t6 ht6 hlt
        simp only [cont_error]
        cases he : s.obj.end_ with
        | none =>
          rw [withR_end, he] at hlt
          exact h3 t6 (by simp only at *; omega)
        | some e =>
          rw [withR_end, he] at hlt
          simp only at hlt
          by_cases hm : e ≤ t5 + tpcTimeout
          · exact h2 t6 e (by simp only at *; omega) he (by simp only at *; omega)
          · exact h3 t6 (by simp only at *; omega)
    cases htm : s.tm with
    | none =>
      simp only [Option.isSome_none, whenP, Bool.false_eq_true, if_false, Prog.bind]
      exact main t3 (Int.le_refl _)
    | some tm =>
      simp only [Option.isSome_some, whenP, if_true]
      apply L_cancel
      intro t4 ht4
      exact main t4 (by simp only at *; omega)
  · rintro (hx | hx)
    · exact absurd (by rw [hh]; decide) hx
    · exact absurd (by decide) hx

end

end OpenNSA.Backend
