import Verif.Backend.Conc
import Verif.Backend.Run
/-
Reasoning about interleaved execution: a coroutine is safe if each of its commands keeps the invariant `I` and changes the world
only as `K` allows, whatever other coroutines do while it is suspended, as long as they do the same. `D` is what remains of `K`
over a restart: it concerns commands given to the device.
-/
namespace OpenNSA.Backend
open OpenNSA Py Prog

/-- World with another clock and other choices of the environment. -/
abbrev World.env (w : World) (t : Time) (o : Oracle) : World := { w with clk := t, orc := o }

section
variable (I : World → Prop) (K D : World → World → Prop)

/-- Executing the command in `w` keeps the invariant and is allowed. -/
def SafeCmd {β : Type} (c : Cmd β) (w : World) : Prop :=
  ∀ t o, w.clk ≤ t → I (execAt (w.env t o) c).1 ∧ K w (execAt (w.env t o) c).1

/-- What is assumed about the worlds in which a command may be executed that was issued in another. -/
def Upto {β : Type} (c : Cmd β) : World → World → Prop := if c.isDevice then D else K

/-- `w` is the current world. -/
def Safe {α : Type} : Prog α → (World → Except Err α → Prop) → World → Prop
  | .pure a, Q, w => Q w (.ok a)
  | .throw e, Q, w => Q w (.error e)
  | .cmd c k, Q, w =>
    if c.isAsync then
      (∀ w1, Upto K D c w w1 → I w1 → SafeCmd I K c w1) ∧
      (∀ w1, K w w1 → I w1 → ∀ t o, w1.clk ≤ t → ∀ w2, K (execAt (w1.env t o) c).1 w2 → I w2 →
        Safe (k (execAt (w1.env t o) c).2) Q w2) ∧
      (∀ w2, K w w2 → I w2 → Safe (k (.error .runtime)) Q w2)
    else SafeCmd I K c w ∧ ∀ t o, w.clk ≤ t → Safe (k (execAt (w.env t o) c).2) Q (execAt (w.env t o) c).1
  | .spawn p k, Q, w => Safe p (fun _ _ => True) w ∧ ∀ w2, K w w2 → I w2 → Safe k Q w2

variable {I K D}

theorem Safe_mono {α : Type} {p : Prog α} : ∀ {Q Q' : World → Except Err α → Prop} {w : World},
    (∀ w r, Q w r → Q' w r) → Safe I K D p Q w → Safe I K D p Q' w := by
  induction p with
  | pure a => intro Q Q' w hq h; exact hq _ _ h
  | throw e => intro Q Q' w hq h; exact hq _ _ h
  | cmd c k ih =>
    intro Q Q' w hq h
    simp only [Safe] at h ⊢
    split
    · rename_i hc
      rw [if_pos hc] at h
      exact ⟨h.1, fun w1 h1 h2 t o h3 w2 h4 h5 => ih _ hq (h.2.1 w1 h1 h2 t o h3 w2 h4 h5), fun w2 h1 h2 => ih _ hq (h.2.2 w2 h1 h2)⟩
    · rename_i hc
      rw [if_neg hc] at h
      exact ⟨h.1, fun t o ht => ih _ hq (h.2 t o ht)⟩
  | spawn p k _ ihk => intro Q Q' w hq h; exact ⟨h.1, fun w2 h1 h2 => ihk hq (h.2 w2 h1 h2)⟩

theorem Safe_bind {α β : Type} {p : Prog α} {f : α → Prog β} : ∀ {Q : World → Except Err β → Prop} {w : World},
    Safe I K D p (cont Q fun a w => Safe I K D (f a) Q w) w → Safe I K D (p.bind f) Q w := by
  induction p with
  | pure a => intro Q w h; exact h
  | throw e => intro Q w h; exact h
  | cmd c k ih =>
    intro Q w h
    simp only [Safe, Prog.bind] at h ⊢
    split
    · rename_i hc
      rw [if_pos hc] at h
      exact ⟨h.1, fun w1 h1 h2 t o h3 w2 h4 h5 => ih _ (h.2.1 w1 h1 h2 t o h3 w2 h4 h5), fun w2 h1 h2 => ih _ (h.2.2 w2 h1 h2)⟩
    · rename_i hc
      rw [if_neg hc] at h
      exact ⟨h.1, fun t o ht => ih _ (h.2 t o ht)⟩
  | spawn p k _ ihk => intro Q w h; exact ⟨h.1, fun w2 h1 h2 => ihk (h.2 w2 h1 h2)⟩

theorem Safe_bind' {α β : Type} {p : Prog α} {f : α → Prog β} {Q : World → Except Err β → Prop} {w : World}
    (h : Safe I K D p (cont Q fun a w => Safe I K D (f a) Q w) w) : Safe I K D (p >>= f) Q w := Safe_bind h

theorem Safe_tryCatch {α : Type} {p : Prog α} {f : Err → Prog α} : ∀ {Q : World → Except Err α → Prop} {w : World},
    Safe I K D p (caught Q fun e w => Safe I K D (f e) Q w) w → Safe I K D (p.tryCatch f) Q w := by
  induction p with
  | pure a => intro Q w h; exact h
  | throw e => intro Q w h; exact h
  | cmd c k ih =>
    intro Q w h
    simp only [Safe, Prog.tryCatch] at h ⊢
    split
    · rename_i hc
      rw [if_pos hc] at h
      exact ⟨h.1, fun w1 h1 h2 t o h3 w2 h4 h5 => ih _ (h.2.1 w1 h1 h2 t o h3 w2 h4 h5), fun w2 h1 h2 => ih _ (h.2.2 w2 h1 h2)⟩
    · rename_i hc
      rw [if_neg hc] at h
      exact ⟨h.1, fun t o ht => ih _ (h.2 t o ht)⟩
  | spawn p k _ ihk => intro Q w h; exact ⟨h.1, fun w2 h1 h2 => ihk (h.2 w2 h1 h2)⟩

/-- A command without suspension. -/
theorem Safe_sync {β : Type} {c : Cmd β} {Q : World → Except Err β → Prop} {w : World} (hc : c.isAsync = false)
    (hs : SafeCmd I K c w) (hq : ∀ t o, w.clk ≤ t → Q (execAt (w.env t o) c).1 (execAt (w.env t o) c).2) :
    Safe I K D (issue c) Q w := by
  simp only [Safe, issue, hc, Bool.false_eq_true, if_false]
  refine ⟨hs, fun t o ht => ?_⟩
  have := hq t o ht
  revert this
  generalize execAt _ c = r
  obtain ⟨w', r⟩ := r
  cases r <;> exact id

/-- A command with suspension. -/
theorem Safe_async {β : Type} {c : Cmd β} {Q : World → Except Err β → Prop} {w : World} (hc : c.isAsync = true)
    (hs : ∀ w1, Upto K D c w w1 → I w1 → SafeCmd I K c w1)
    (hq : ∀ w1, K w w1 → I w1 → ∀ t o, w1.clk ≤ t → ∀ w2, K (execAt (w1.env t o) c).1 w2 → I w2 → Q w2 (execAt (w1.env t o) c).2)
    (hx : ∀ w2, K w w2 → I w2 → Q w2 (.error .runtime)) : Safe I K D (issue c) Q w := by
  simp only [Safe, issue, hc, if_true]
  refine ⟨hs, fun w1 h1 h2 t o h3 w2 h4 h5 => ?_, fun w2 h1 h2 => hx w2 h1 h2⟩
  have := hq w1 h1 h2 t o h3 w2 h4 h5
  revert this
  generalize (execAt _ c).2 = r
  cases r <;> exact id

/-- At the end of a coroutine nothing is required. -/
abbrev Done {α : Type} : World → Except Err α → Prop := fun _ _ => True

/-- A suspended coroutine is safe as long as the others are. -/
def SafeTask (I : World → Prop) (K D : World → World → Prop) (w : World) : Susp → Prop
  | .waiting c k _ =>
      (∀ w1, Upto K D c w w1 → I w1 → SafeCmd I K c w1) ∧
      (∀ w1, K w w1 → I w1 → ∀ t o, w1.clk ≤ t → ∀ w2, K (execAt (w1.env t o) c).1 w2 → I w2 →
        Safe I K D (k (execAt (w1.env t o) c).2) Done w2) ∧
      (∀ w2, K w w2 → I w2 → Safe I K D (k (.error .runtime)) Done w2)
  | .performed k r _ => (∀ w2, K w w2 → I w2 → Safe I K D (k r) Done w2) ∧
      (∀ w2, K w w2 → I w2 → Safe I K D (k (.error .runtime)) Done w2)

/-- What `I`, `K` and `D` have to satisfy. -/
structure Relies (I : World → Prop) (K D : World → World → Prop) : Prop where
  refl : ∀ w, K w w
  trans : ∀ {a b c}, K a b → K b c → K a c
  weak : ∀ {a b}, K a b → D a b
  dtrans : ∀ {a b c}, D a b → D b c → D a c
  envI : ∀ {w : World} (t o), w.clk ≤ t → I w → I (w.env t o)
  envK : ∀ {w : World} (t o), w.clk ≤ t → K w (w.env t o)
  called : ∀ {w : World} {cid due act ref}, I w → dget w.tbl cid = some ⟨due, act, ref, false⟩ → due ≤ w.clk →
    I { w with tbl := dset w.tbl cid ⟨due, act, ref, true⟩ } ∧ K w { w with tbl := dset w.tbl cid ⟨due, act, ref, true⟩ }

theorem SafeTask.later (R : Relies I K D) {w w' : World} (hk : K w w') {t : Susp} (h : SafeTask I K D w t) : SafeTask I K D w' t := by
  cases t with
  | waiting c k fin =>
    refine ⟨fun w1 h1 => h.1 w1 ?_, fun w1 h1 => h.2.1 w1 (R.trans hk h1), fun w1 h1 => h.2.2 w1 (R.trans hk h1)⟩
    revert h1
    unfold Upto
    split
    · exact fun h1 => R.dtrans (R.weak hk) h1
    · exact fun h1 => R.trans hk h1
  | performed k r fin => exact ⟨fun w1 h1 => h.1 w1 (R.trans hk h1), fun w1 h1 => h.2 w1 (R.trans hk h1)⟩

theorem SafeTask.cancelled {w : World} {t : Task} (h : SafeTask I K D w t.susp) (n : Nat) : ∀ u ∈ t.cancelled n, SafeTask I K D w u.susp := by
  obtain ⟨id, owner, susp⟩ := t
  cases susp with
  | waiting c k fin =>
    intro u hu
    simp only [Task.cancelled, List.mem_cons, List.not_mem_nil, or_false] at hu
    rcases hu with rfl | rfl
    · exact ⟨h.2.2, h.2.2⟩
    · exact ⟨h.1, fun _ _ _ _ _ _ _ _ _ => trivial, fun _ _ _ => trivial⟩
  | performed k r fin =>
    intro u hu
    simp only [Task.cancelled, List.mem_cons, List.not_mem_nil, or_false] at hu
    subst hu
    exact ⟨h.2, h.2⟩

/-- The world is fine and all suspended coroutines are safe. -/
def SafeSys (I : World → Prop) (K D : World → World → Prop) (c : Conc) : Prop := I c.w ∧ ∀ t ∈ c.tasks, SafeTask I K D c.w t.susp

theorem SafeSys.cancelCall {c : Conc} (h : SafeSys I K D c) (cid : Str) : SafeSys I K D (c.cancelCall cid) := by
  refine ⟨h.1, ?_⟩
  intro t ht
  simp only [Conc.cancelCall, List.mem_flatMap] at ht
  obtain ⟨u, hu, ht⟩ := ht
  split at ht
  · exact (h.2 u hu).cancelled _ t ht
  · simp only [List.mem_cons, List.not_mem_nil, or_false] at ht
    subst ht
    exact h.2 _ hu

theorem SafeSys.disown {c : Conc} (h : SafeSys I K D c) (cid : Str) : SafeSys I K D (c.disown cid) := by
  refine ⟨h.1, ?_⟩
  intro t ht
  simp only [Conc.disown, List.mem_map] at ht
  obtain ⟨u, hu, rfl⟩ := ht
  split
  · exact h.2 u hu
  · exact h.2 u hu

theorem affect_w {β : Type} (c : Conc) (w : World) (ok : Bool) (x : Cmd β) : (c.affect w ok x).w = c.w := by
  cases x <;> simp only [Conc.affect] <;> try rfl
  all_goals (split <;> rfl)

theorem SafeSys.affect {β : Type} {c : Conc} (h : SafeSys I K D c) (w : World) (ok : Bool) (x : Cmd β) : SafeSys I K D (c.affect w ok x) := by
  cases x <;> simp only [Conc.affect] <;> try exact h
  all_goals split
  · exact h.disown _
  · exact h
  · exact h.cancelCall _
  · exact h

theorem SafeSys.move (R : Relies I K D) {c : Conc} (h : SafeSys I K D c) {w : World} (hi : I w) (hk : K c.w w) :
    SafeSys I K D { c with w := w } := ⟨hi, fun t ht => (h.2 t ht).later R hk⟩

/-- Running a safe coroutine up to its first suspension. -/
theorem Safe_runSync (R : Relies I K D) {α : Type} {p : Prog α} : ∀ (id : Nat) (owner : Option Str)
    (fin : Except Err α → Except Err (Option Str)) {c : Conc}, SafeSys I K D c → Safe I K D p Done c.w →
    SafeSys I K D (Conc.runSync id owner p fin c) ∧ K c.w (Conc.runSync id owner p fin c).w := by
  induction p with
  | pure a => intro id owner fin c h _; exact ⟨⟨h.1, h.2⟩, R.refl _⟩
  | throw e => intro id owner fin c h _; exact ⟨⟨h.1, h.2⟩, R.refl _⟩
  | cmd x k ih =>
    intro id owner fin c h hp
    simp only [Safe] at hp
    simp only [Conc.runSync]
    split
    · rename_i hc
      rw [if_pos hc] at hp
      refine ⟨⟨h.1, fun t ht => ?_⟩, R.refl _⟩
      rcases List.mem_append.mp ht with ht | ht
      · exact h.2 t ht
      · simp only [List.mem_cons, List.not_mem_nil, or_false] at ht
        subst ht
        exact hp
    · rename_i hc
      rw [if_neg hc] at hp
      obtain ⟨t, o, ht, he⟩ := advance_eq c.w
      have hs := hp.1 t o ht
      have hq := hp.2 t o ht
      have hw : exec c.w x = execAt (c.w.env t o) x := by simp only [exec, he]
      rw [← hw] at hs hq
      have hc2 : SafeSys I K D (c.sync x).1 := by
        unfold Conc.sync
        exact (h.move R hs.1 hs.2).affect _ _ _
      have hcw : (c.sync x).1.w = (exec c.w x).1 := by simp only [Conc.sync, affect_w]
      have hc3 : (c.sync x).2 = (exec c.w x).2 := rfl
      have := ih (c.sync x).2 id owner fin hc2 (by rw [hcw, hc3]; exact hq)
      exact ⟨this.1, R.trans hs.2 (hcw ▸ this.2)⟩
  | spawn p k ihp ihk =>
    intro id owner fin c h hp
    simp only [Conc.runSync]
    have h1 := ihp c.next none (fun _ => .ok none) (c := { c with next := c.next + 1 }) h hp.1
    have h2 := ihk id owner fin h1.1 (hp.2 _ h1.2 h1.1.1)
    exact ⟨h2.1, R.trans h1.2 h2.2⟩

theorem takeTask_mem {id : Nat} : ∀ {l : List Task} {t : Task} {rest : List Task}, takeTask id l = some (t, rest) →
    t ∈ l ∧ ∀ x ∈ rest, x ∈ l
  | [], _, _, h => by simp [takeTask] at h
  | x :: l, t, rest, h => by
    simp only [takeTask] at h
    split at h
    · simp only [Option.some.injEq, Prod.mk.injEq] at h
      obtain ⟨rfl, rfl⟩ := h
      exact ⟨by simp, fun y hy => by simp [hy]⟩
    · cases hr : takeTask id l with
      | none => simp [hr] at h
      | some p =>
        rw [hr] at h
        simp only [Option.map_some, Option.some.injEq, Prod.mk.injEq] at h
        obtain ⟨rfl, rfl⟩ := h
        obtain ⟨h1, h2⟩ := takeTask_mem (l := l) (t := p.1) (rest := p.2) hr
        exact ⟨by simp [h1], fun y hy => by
          rcases List.mem_cons.mp hy with rfl | hy
          · simp
          · simp [h2 y hy]⟩

/-- What has to be shown about the coroutines a scheduling step starts. -/
def StartSafe (I : World → Prop) (K D : World → World → Prop) (cfg : Cfg) : Choice → Prop
  | .start h q => ∀ w, I w → Safe I K D (q.prog cfg h) Done w
  | .fire _ => ∀ w due act ref, I w → (∃ cid, (cid, ⟨due, act, ref, true⟩) ∈ w.tbl) → due ≤ w.clk →
      Safe I K D (actProg cfg act ref) Done w
  | .restart => ∀ w, I w → I w.reboot ∧ D w w.reboot ∧ Safe I K D (buildSchedule cfg) Done w.reboot
  | _ => True

theorem dset_mem_self {β : Type} (l : List (Str × β)) (k : Str) (v : β) : (k, v) ∈ dset l k v := by
  induction l with
  | nil => simp [dset]
  | cons a l ih =>
    obtain ⟨k', v'⟩ := a
    simp only [dset]
    split
    · rename_i h; simp [h]
    · simp [ih]

/-- The invariant of the whole system is kept by every scheduling step; except over a restart, the world changes only as `K`
allows. -/
theorem SafeSys.step (R : Relies I K D) {cfg : Cfg} {c : Conc} (h : SafeSys I K D c) (o : Oracle) (ch : Choice)
    (hch : StartSafe I K D cfg ch) :
    SafeSys I K D (c.step cfg o ch) ∧ D c.w (c.step cfg o ch).w ∧ (ch ≠ .restart → K c.w (c.step cfg o ch).w) := by
  have ho : SafeSys I K D { c with w := { c.w with orc := o } } :=
    h.move R (R.envI c.w.clk o (Int.le_refl _) h.1) (R.envK c.w.clk o (Int.le_refl _))
  have hk : K c.w { c.w with orc := o } := R.envK c.w.clk o (Int.le_refl _)
  have fin : ∀ c' : Conc, SafeSys I K D c' → K { c.w with orc := o } c'.w →
      SafeSys I K D c' ∧ D c.w c'.w ∧ (ch ≠ .restart → K c.w c'.w) :=
    fun c' h1 h2 => ⟨h1, R.weak (R.trans hk h2), fun _ => R.trans hk h2⟩
  cases ch with
  | start hd q =>
    have := Safe_runSync R c.next none id (c := { c with w := { c.w with orc := o }, next := c.next + 1 }) ho (hch _ ho.1)
    exact fin _ this.1 this.2
  | fire cid =>
    simp only [Conc.step]
    split
    · rename_i due act ref hd
      split
      · rename_i hdue
        have hc := R.called ho.1 hd hdue
        have h2 := ho.move R hc.1 hc.2
        have := Safe_runSync R c.next (some cid) (fun r => r.map fun _ => none)
          (c := { c with w := { c.w with orc := o, tbl := dset c.w.tbl cid ⟨due, act, ref, true⟩ }, next := c.next + 1 })
          h2 (hch _ due act ref h2.1 ⟨cid, dset_mem_self _ _ _⟩ hdue)
        exact fin _ this.1 (R.trans hc.2 this.2)
      · exact fin _ ho (R.refl _)
    · exact fin _ ho (R.refl _)
  | perform n =>
    simp only [Conc.step]
    split
    · rename_i owner α β x k fn ts htk
      obtain ⟨hm, hr⟩ := takeTask_mem htk
      have hx := ho.2 _ hm
      obtain ⟨t, o', ht, he⟩ := advance_eq ({ c.w with orc := o } : World)
      have hself : Upto K D x { c.w with orc := o } { c.w with orc := o } := by
        unfold Upto
        split
        · exact R.weak (R.refl _)
        · exact R.refl _
      have hs := hx.1 _ hself ho.1 t o' ht
      have hw : exec ({ c.w with orc := o } : World) x = execAt (({ c.w with orc := o } : World).env t o') x := by simp only [exec, he]
      have hs' := hs
      rw [← hw] at hs'
      refine fin _ ⟨hs'.1, ?_⟩ hs'.2
      intro u hu
      rcases List.mem_append.mp hu with hu | hu
      · exact (ho.2 u (hr u hu)).later R hs'.2
      · simp only [List.mem_cons, List.not_mem_nil, or_false] at hu
        subst hu
        refine ⟨fun w2 h1 h2 => ?_, fun w2 h1 h2 => hx.2.2 w2 (R.trans hs'.2 h1) h2⟩
        have := hx.2.1 _ (R.refl _) ho.1 t o' ht w2 (by rw [← hw]; exact h1) h2
        rw [← hw] at this
        exact this
    · exact fin _ ho (R.refl _)
  | resume n =>
    simp only [Conc.step]
    split
    · rename_i owner α β k r fn ts htk
      obtain ⟨hm, hr⟩ := takeTask_mem htk
      have hx := ho.2 _ hm
      have := Safe_runSync R n owner fn (p := k r) (c := { c with w := { c.w with orc := o }, tasks := ts })
        ⟨ho.1, fun t ht => ho.2 t (hr t ht)⟩ (hx.1 _ (R.refl _) ho.1)
      exact fin _ this.1 this.2
    · exact fin _ ho (R.refl _)
  | wait us =>
    have hle : c.w.clk ≤ c.w.clk + (us : Int) := by omega
    have := ho.move R (R.envI (c.w.clk + (us : Int)) o hle h.1)
      (R.trans (R.refl _) (R.envK (w := { c.w with orc := o }) (c.w.clk + (us : Int)) o hle))
    exact fin _ this (R.envK (w := { c.w with orc := o }) (c.w.clk + (us : Int)) o hle)
  | restart =>
    have hb := hch _ ho.1
    have hs : SafeSys I K D { c with w := ({ c.w with orc := o } : World).reboot, tasks := c.tasks.filterMap Task.orphan, next := c.next + 1 } := by
      refine ⟨hb.1, ?_⟩
      intro t ht
      obtain ⟨u, hu, he⟩ := List.mem_filterMap.mp ht
      have hx := ho.2 u hu
      obtain ⟨id, owner, susp⟩ := u
      cases susp with
      | performed k r fn => simp [Task.orphan] at he
      | waiting x k fn =>
        simp only [Task.orphan] at he
        split at he
        · rename_i hdev
          simp only [Option.some.injEq] at he
          subst he
          refine ⟨fun w1 h1 => hx.1 w1 ?_, fun _ _ _ _ _ _ _ _ _ => trivial, fun _ _ _ => trivial⟩
          simp only [Upto, hdev, if_true] at h1 ⊢
          exact R.dtrans hb.2.1 h1
        · cases he
    have := Safe_runSync R c.next none (fun r => r.map fun _ => none)
      (c := { c with w := ({ c.w with orc := o } : World).reboot, tasks := c.tasks.filterMap Task.orphan, next := c.next + 1 }) hs hb.2.2
    refine ⟨this.1, R.dtrans (R.weak hk) (R.dtrans hb.2.1 (R.weak this.2)), fun h => absurd rfl h⟩

/-- So the invariant holds along every schedule. -/
theorem SafeSys.run (R : Relies I K D) {cfg : Cfg} : ∀ (s : List (Oracle × Choice)) {c : Conc}, SafeSys I K D c →
    (∀ x ∈ s, StartSafe I K D cfg x.2) → SafeSys I K D (Conc.run cfg c s) ∧ D c.w (Conc.run cfg c s).w
  | [], c, h, _ => ⟨h, R.weak (R.refl _)⟩
  | (o, ch) :: s, c, h, hs => by
    have h1 := h.step R o ch (hs (o, ch) (by simp))
    have h2 := SafeSys.run R s h1.1 (fun x hx => hs x (by simp [hx]))
    exact ⟨h2.1, R.dtrans h1.2.1 h2.2⟩

end
end OpenNSA.Backend
