import Verif.Backend.ConcRows
/-
The coroutines under the invariant of ConcRows.lean.
-/
namespace OpenNSA.Backend
open OpenNSA Py Prog

variable {a : Asked}

/-- Facts that stay true. -/
def Stable (A : World → Prop) : Prop := ∀ {w w'}, RowsK w w' → A w → A w'

/-- The coroutine is safe whenever `A` holds at its beginning. -/
def Calm (a : Asked) (A : World → Prop) {α : Type} (p : Prog α) : Prop :=
  ∀ w, RowsI a w → A w → Safe (RowsI a) RowsK RowsD p (fun w' _ => RowsI a w' ∧ RowsK w w') w

section rules
variable {A : World → Prop} {α β : Type}

theorem Calm.pure (x : α) : Calm a A (Prog.pure x) := fun w hi _ => ⟨hi, .refl w⟩
theorem Calm.throw (e : Err) : Calm a A (Prog.throw e : Prog α) := fun w hi _ => ⟨hi, .refl w⟩
theorem Calm.ofExcept (r : Except Err α) : Calm a A (ofExcept r) := by
  cases r
  · exact Calm.throw _
  · exact Calm.pure _

theorem Calm.weaken {A' : World → Prop} {p : Prog α} (h : Calm a A p) (hA : ∀ w, A' w → A w) : Calm a A' p := fun w hi ha => h w hi (hA w ha)

theorem Calm.later {w w' : World} {p : Prog α} (h : Calm a A p) (hi : RowsI a w') (ha : A w') (hk : RowsK w w') :
    Safe (RowsI a) RowsK RowsD p (fun v _ => RowsI a v ∧ RowsK w v) w' :=
  Safe_mono (fun _ _ x => ⟨x.1, hk.trans x.2⟩) (h w' hi ha)

theorem Calm.bind {p : Prog α} {f : α → Prog β} (hs : Stable A) (hp : Calm a A p) (hf : ∀ x, Calm a A (f x)) : Calm a A (p.bind f) := by
  intro w hi ha
  refine Safe_bind (Safe_mono ?_ (hp w hi ha))
  intro w' r h
  cases r with
  | ok x => exact (hf x).later h.1 (hs h.2 ha) h.2
  | error e => exact h

theorem Calm.tryCatch {p : Prog α} {f : Err → Prog α} (hs : Stable A) (hp : Calm a A p) (hf : ∀ e, Calm a A (f e)) : Calm a A (p.tryCatch f) := by
  intro w hi ha
  refine Safe_tryCatch (Safe_mono ?_ (hp w hi ha))
  intro w' r h
  cases r with
  | ok x => exact h
  | error e => exact (hf e).later h.1 (hs h.2 ha) h.2

theorem Calm.spawn {p : Prog Unit} {k : Prog α} (hs : Stable A) (hp : Calm a A p) (hk : Calm a A k) : Calm a A (Prog.spawn p k) :=
  fun w hi ha => ⟨Safe_mono (fun _ _ _ => trivial) (hp w hi ha), fun _ h1 h2 => hk.later h2 (hs h1 ha) h1⟩

/-- A command without suspension. -/
theorem Calm.sync {c : Cmd β} (hc : c.isAsync = false) (h : ∀ w, RowsI a w → A w → SafeCmd (RowsI a) RowsK c w) : Calm a A (issue c) :=
  fun w hi ha => Safe_sync hc (h w hi ha) fun t o ht => h w hi ha t o ht

/-- A command with suspension. -/
theorem Calm.async {c : Cmd β} (hc : c.isAsync = true) (hd : c.isDevice = false) (hs : Stable A)
    (h : ∀ w, RowsI a w → A w → SafeCmd (RowsI a) RowsK c w) : Calm a A (issue c) := by
  intro w hi ha
  refine Safe_async hc ?_ ?_ fun w2 h1 h2 => ⟨h2, h1⟩
  · intro w1 h1 h2
    simp only [Upto, hd, Bool.false_eq_true, if_false] at h1
    exact h w1 h2 (hs h1 ha)
  · intro w1 h1 h2 t o ht w2 h3 h4
    exact ⟨h4, (h1.trans (h w1 h2 (hs h1 ha) t o ht).2).trans h3⟩

theorem Calm.device {c : Cmd β} (hc : c.isAsync = true) (hd : c.isDevice = true)
    (h : ∀ w, RowsI a w → A w → ∀ w1, RowsD w w1 → RowsI a w1 → SafeCmd (RowsI a) RowsK c w1) : Calm a A (issue c) := by
  intro w hi ha
  refine Safe_async hc ?_ ?_ fun w2 h1 h2 => ⟨h2, h1⟩
  · intro w1 h1 h2
    simp only [Upto, hd, if_true] at h1
    exact h w hi ha w1 h1 h2
  · intro w1 h1 h2 t o ht w2 h3 h4
    exact ⟨h4, (h1.trans (h w hi ha w1 (rowsRelies.weak (I := RowsI a) h1) h2 t o ht).2).trans h3⟩

/-- Reading the clock. -/
theorem Calm.now {f : Time → Prog β} (hs : Stable A) (h : ∀ n, Calm a (fun w => A w ∧ n ≤ w.clk) (f n)) : Calm a A ((issue .now).bind f) := by
  intro w hi ha
  refine Safe_bind (Safe_sync rfl (tame_now w hi) fun t o ht => ?_)
  have := tame_now w hi t o ht
  exact (h t).later this.1 ⟨hs this.2 ha, Int.le_refl _⟩ this.2

end rules

/-- The object `ref` stands for the stored connection `x`. -/
def Has (ref : Nat) (x : Row) (w : World) : Prop := ∃ o, w.heap[ref]? = some o ∧ o.isNew = false ∧ x.Same o.row

theorem stable_has {ref : Nat} {x : Row} : Stable (Has ref x) := by
  rintro w w' hk ⟨o, h1, h2, h3⟩
  obtain ⟨o', k1, k2, k3⟩ := hk.heap ref o h1
  exact ⟨o', k1, k3 h2, h3.trans k2⟩

theorem stable_clk {A : World → Prop} (hs : Stable A) {n : Time} : Stable (fun w => A w ∧ n ≤ w.clk) :=
  fun hk h => ⟨hs hk h.1, Int.le_trans h.2 hk.clk⟩

/-- `A` includes that the object stands for the connection. -/
class Knows (A : World → Prop) (ref : outParam Nat) (x : outParam Row) : Prop where
  stable : Stable A
  has : ∀ {w}, A w → Has ref x w

instance {ref : Nat} {x : Row} : Knows (Has ref x) ref x := ⟨stable_has, id⟩
instance {A : World → Prop} {ref : Nat} {x : Row} {n : Time} [k : Knows A ref x] : Knows (fun w => A w ∧ n ≤ w.clk) ref x :=
  ⟨stable_clk k.stable, fun h => k.has h.1⟩

section ops
variable {A : World → Prop} {ref : Nat} {x : Row} [kn : Knows A ref x]
include kn

theorem Knows.row {w : World} (hi : RowsI a w) (h : A w) : ∃ r ∈ w.rows, x.Same r := by
  obtain ⟨o, h1, h2, h3⟩ := kn.has h
  obtain ⟨r, k1, k2⟩ := hi.saved o (List.mem_of_getElem? h1) h2
  exact ⟨r, k1, h3.trans k2.symm⟩

/-- Reading an object. -/
theorem Calm.get {β : Type} {f : Row → Prog β} (h : ∀ row, x.Same row → RowI a row → Calm a A (f row)) : Calm a A ((issue (.getObj ref)).bind f) := by
  intro w hi ha
  refine Safe_bind (Safe_sync rfl (tame_getObj ref w hi) fun t o ht => ?_)
  have hk := tame_getObj ref w hi t o ht
  obtain ⟨ob, h1, h2, h3⟩ := kn.has ha
  have e : execAt (w.env t o) (.getObj ref) = (w.env t o, .ok ob.row) := by simp only [execAt, h1]
  rw [e] at hk ⊢
  exact (h ob.row h3 (hi.heap _ (List.mem_of_getElem? h1))).later hk.1 (kn.stable hk.2 ha) hk.2

theorem Calm.set {row : Row} (hs : x.Same row) (hr : RowI a row) : Calm a A (issue (.setObj ref row)) := by
  refine Calm.sync rfl fun w hi ha => safe_setObj hi fun o ho => ⟨?_, hr⟩
  obtain ⟨ob, h1, h2, h3⟩ := kn.has ha
  rw [ho] at h1
  simp only [Option.some.injEq] at h1
  subst h1
  exact h3.symm.trans hs

theorem Calm.save (r : Nat) : Calm a A (issue (.save r)) := Calm.async rfl rfl kn.stable fun w hi _ => tame_save r w hi
omit kn in
theorem Calm.cancel (cid : Str) : Calm a A (issue (.cancel cid)) := Calm.sync rfl fun w hi _ => tame_cancel cid w hi
omit kn in
theorem Calm.hasCall (cid : Str) : Calm a A (issue (.hasCall cid)) := Calm.sync rfl fun w hi _ => tame_hasCall cid w hi
omit kn in
theorem Calm.notifId : Calm a A (issue .notifId) := Calm.sync rfl fun w hi _ => tame_notifId w hi
omit kn in
theorem Calm.calAdd (r : Resv) : Calm a A (issue (.calAdd r)) := Calm.sync rfl fun w hi _ => tame_calAdd r w hi
omit kn in
theorem Calm.calRemove (r : Resv) : Calm a A (issue (.calRemove r)) := Calm.sync rfl fun w hi _ => tame_calRemove r w hi
omit kn in
theorem Calm.teardown (cid : Str) : Calm a A (issue (.teardown cid)) := Calm.device rfl rfl fun _ _ _ w1 _ h => tame_teardown cid w1 h
theorem Calm.sched {cid : Str} {t : Time} {act : Act} (h : act = .activate → MayUp a t x) : Calm a A (issue (.sched cid t act ref)) := by
  refine Calm.sync rfl fun w hi ha => safe_sched hi ?_
  obtain ⟨o, h1, h2, h3⟩ := kn.has ha
  exact ⟨o, h1, h2, fun e => (h e).same h3 (Int.le_refl _)⟩
theorem Calm.tell {m : Msg} (h : MsgI a x m) : Calm a A (issue (.tell m)) :=
  Calm.sync rfl fun w hi ha => safe_tell hi (by
    obtain ⟨r, h1, h2⟩ := kn.row hi ha
    exact ⟨r, h1, h.same h2⟩)
theorem Calm.call {m : Msg} (h : MsgI a x m) : Calm a A (issue (.call m)) :=
  Calm.async rfl rfl kn.stable fun w hi ha => safe_call hi (by
    obtain ⟨r, h1, h2⟩ := kn.row hi ha
    exact ⟨r, h1, h.same h2⟩)

/-- Sequencing. -/
theorem Calm.seq {α β : Type} {p : Prog α} {f : α → Prog β} (hp : Calm a A p) (hf : ∀ x, Calm a A (f x)) : Calm a A (p.bind f) :=
  Calm.bind kn.stable hp hf

theorem calm_switchReserve (s : RState) : Calm a A (switchReserve ref s) := by
  unfold switchReserve
  simp only [bind_eq]
  refine Calm.get fun row hs hr => ?_
  split
  · exact Calm.throw _
  · rename_i st hst
    have hp : st.p = row.st.p := by
      unfold switchR at hst
      split at hst
      · simp only [Option.some.injEq] at hst; subst hst; rfl
      · cases hst
    have h2 : row.Same { row with st } := ⟨rfl, rfl, rfl, rfl, rfl, rfl, rfl, rfl, rfl⟩
    exact (Calm.set (hs.trans h2) (hr.same h2 rfl hp)).seq fun _ => Calm.save ref

theorem calm_multiSwitchLoop : ∀ ss : List RState, Calm a A (multiSwitchLoop ref ss)
  | [] => Calm.pure _
  | s :: ss => by
    unfold multiSwitchLoop
    simp only [bind_eq]
    refine Calm.get fun row hs hr => ?_
    split
    · exact Calm.throw _
    · rename_i st hst
      have hp : st.p = row.st.p := by
        unfold switchR at hst
        split at hst
        · simp only [Option.some.injEq] at hst; subst hst; rfl
        · cases hst
      have h2 : row.Same { row with st } := ⟨rfl, rfl, rfl, rfl, rfl, rfl, rfl, rfl, rfl⟩
      exact (Calm.set (hs.trans h2) (hr.same h2 rfl hp)).seq fun _ => calm_multiSwitchLoop ss

theorem calm_multiSwitch (ss : List RState) : Calm a A (multiSwitch ref ss) := (calm_multiSwitchLoop ss).seq fun _ => Calm.save ref

theorem calm_switchLifecycle (s : LState) : Calm a A (switchLifecycle ref s) := by
  unfold switchLifecycle
  simp only [bind_eq]
  refine Calm.get fun row hs hr => ?_
  split
  · exact Calm.throw _
  · rename_i st hst
    have hp : st.p = row.st.p := by
      unfold switchL at hst
      split at hst
      · simp only [Option.some.injEq] at hst; subst hst; rfl
      · cases hst
    have h2 : row.Same { row with st } := ⟨rfl, rfl, rfl, rfl, rfl, rfl, rfl, rfl, rfl⟩
    exact (Calm.set (hs.trans h2) (hr.same h2 rfl hp)).seq fun _ => Calm.save ref

/-- A provision state is only entered on request. -/
theorem calm_switchProvision {s : PState} (h : s = .provisioning ∨ s = .provisioned → a.A .provision x ∧ a.A .commit x) :
    Calm a A (switchProvision ref s) := by
  unfold switchProvision
  simp only [bind_eq]
  refine Calm.get fun row hs hr => ?_
  split
  · exact Calm.throw _
  · rename_i st hst
    have hp : st.p = s := by
      unfold switchP at hst
      split at hst
      · simp only [Option.some.injEq] at hst; subst hst; rfl
      · cases hst
    have h2 : row.Same { row with st } := ⟨rfl, rfl, rfl, rfl, rfl, rfl, rfl, rfl, rfl⟩
    refine (Calm.set (hs.trans h2) ⟨hr.born.imp fun _ => a.sameB h2, fun h0 => a.sameA h2 (hr.alloc h0), fun h0 => ?_⟩).seq fun _ => Calm.save ref
    exact (h (hp ▸ h0)).imp (a.sameA (hs.trans h2)) (a.sameA (hs.trans h2))

theorem calm_setActive (b : Bool) : Calm a A (setActive ref b) := by
  unfold setActive
  simp only [bind_eq]
  refine Calm.get fun row hs hr => ?_
  have h2 : row.Same { row with active := b } := ⟨rfl, rfl, rfl, rfl, rfl, rfl, rfl, rfl, rfl⟩
  exact (Calm.set (hs.trans h2) (hr.same h2 rfl rfl)).seq fun _ => Calm.save ref

theorem calm_removeBoth (cfg : Cfg) : Calm a A (removeBoth cfg ref) := by
  unfold removeBoth
  simp only [bind_eq]
  exact Calm.get fun row _ _ => (Calm.calRemove _).seq fun _ => Calm.calRemove _

theorem calm_schedEnd (cid : Str) (e : Option Time) : Calm a A (schedEnd cid e ref) := by
  unfold schedEnd
  split
  · exact Calm.pure _
  · exact Calm.sched fun h => by cases h

omit kn in
theorem calm_whenP {b : Bool} {p : Prog Unit} (h : Calm a A p) : Calm a A (whenP b p) := by
  unfold whenP
  split
  · exact h
  · exact Calm.pure _

theorem calm_doTeardown : Calm a A (doTeardown ref) := by
  unfold doTeardown
  simp only [bind_eq]
  refine Calm.get fun row hs hr => Calm.seq (Calm.tryCatch kn.stable ((Calm.teardown _).seq fun _ => Calm.pure _) fun _ => Calm.pure _) fun up => ?_
  split
  · exact Calm.tryCatch kn.stable ((calm_setActive _).seq fun _ => Calm.notifId.seq fun n => Calm.tell hs.1.symm) fun _ => Calm.pure _
  · exact (calm_setActive _).seq fun _ => Calm.notifId.seq fun n => Calm.tell hs.1.symm

theorem calm_doFreeResource (cfg : Cfg) : Calm a A (doFreeResource cfg ref) := by
  unfold doFreeResource
  simp only [bind_eq]
  refine Calm.get fun row _ _ => ?_
  split
  · exact calm_doTeardown.seq fun _ => calm_removeBoth cfg
  · split
    · exact calm_removeBoth cfg
    · exact Calm.pure _

theorem calm_doEndtime (cfg : Cfg) : Calm a A (doEndtime cfg ref) := by
  unfold doEndtime
  simp only [bind_eq]
  refine Calm.get fun row _ _ => ?_
  split
  · exact Calm.throw _
  · exact (Calm.cancel _).seq fun _ => (calm_switchLifecycle _).seq fun _ => calm_doFreeResource cfg

theorem calm_doReserveRollback (cfg : Cfg) : Calm a A (doReserveRollback cfg ref) := by
  unfold doReserveRollback
  simp only [bind_eq]
  refine Calm.tryCatch kn.stable ((calm_switchReserve _).seq fun _ => Calm.get fun row _ _ => (Calm.cancel _).seq fun _ =>
    (calm_removeBoth cfg).seq fun _ => (calm_switchReserve _).seq fun _ => Calm.now kn.stable fun n => ?_) fun _ => Calm.pure _
  split
  · exact Calm.pure _
  · split
    · exact calm_doEndtime cfg
    · exact Calm.sched fun h => by cases h

theorem calm_doReserveTimeout (cfg : Cfg) : Calm a A (doReserveTimeout cfg ref) := by
  unfold doReserveTimeout
  simp only [bind_eq]
  exact Calm.tryCatch kn.stable ((calm_switchReserve _).seq fun _ => (calm_doReserveRollback cfg).seq fun _ => Calm.get fun row hs _ =>
    Calm.notifId.seq fun n => Calm.tell hs.1.symm) fun _ => Calm.pure _

theorem calm_doReserve {corr : Str} (h : a.B corr x) : Calm a A (doReserve ref corr) := by
  unfold doReserve
  simp only [bind_eq]
  refine (calm_multiSwitch _).seq fun _ => Calm.get fun row hs _ => (Calm.hasCall _).seq fun b => (calm_whenP (Calm.cancel _)).seq fun _ =>
    Calm.now kn.stable fun n => (Calm.sched fun h => by cases h).seq fun _ => Calm.call ?_
  obtain ⟨a1, a2, a3, a4, a5, a6, a7, a8, a9⟩ := hs
  exact ⟨a1.symm, a5.symm, a7.symm, a8.symm, a9.symm, h⟩

end ops

/-- Activation: the start time has come, provisioning was requested. -/
theorem calm_doActivate {A : World → Prop} {ref : Nat} {x : Row} [kn : Knows A ref x] (hup : ∀ w, A w → MayUp a w.clk x) :
    Calm a A (doActivate ref) := by
  unfold doActivate
  simp only [bind_eq]
  refine Calm.get fun row hs hr => Calm.seq (Calm.tryCatch kn.stable (Calm.seq ?_ fun _ => Calm.pure _) fun _ => Calm.pure _) fun up => ?_
  · refine Calm.device rfl rfl fun w hi ha w1 hd h1 => safe_setup h1 ?_
    obtain ⟨r, k1, k2⟩ := kn.row hi ha
    obtain ⟨r', k3, k4⟩ := hd.rows r k1
    exact ⟨r', k3, k4.1.trans (k2.1.trans hs.1.symm), (hup w ha).same (k2.trans k4) hd.clk⟩
  · have ask : ∀ w, A w → a.A .provision x := fun w h => (hup w h).asked.1
    have msg : ∀ m, (∀ w, A w → MsgI a x m) → Calm a A (issue (.tell m)) := fun m h => fun w hi ha => Calm.tell (h w ha) w hi ha
    split
    · refine Calm.tryCatch kn.stable ((calm_setActive _).seq fun _ => Calm.now kn.stable fun n => (calm_schedEnd _ _).seq fun _ =>
        Calm.notifId.seq fun m => (msg _ fun w h => ?_).weaken fun w h => h.1) fun _ => Calm.pure _
      exact ⟨hs.1.symm, ask w h⟩
    · refine (calm_setActive _).seq fun _ => Calm.notifId.seq fun m => msg _ fun w h => ?_
      exact ⟨hs.1.symm, ask w h⟩

end OpenNSA.Backend
