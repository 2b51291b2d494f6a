import Verif.Backend.Up
/-
The data plane in all interleaved executions of the backend, restarts included (see Up.lean).
-/
namespace OpenNSA.Backend
open OpenNSA Py Prog

/-- The world agrees with `U`: links on the device, active data planes of row objects and rows, messages sent. -/
structure UpW (U : Facts) (w : World) : Prop where
  links : ∀ cid ∈ w.links, U.up cid
  heap : ∀ o ∈ w.heap, o.row.active = true → U.up o.row.cid
  rows : ∀ r ∈ w.rows, r.active = true → U.up r.cid
  out : ∀ m ∈ w.outbox, m.truthful U

/-- The row objects belong to the connections they are known to belong to. -/
def Known.holds (F : Known) (w : World) : Prop := ∀ ref c, F ref c → ∃ o : Obj, w.heap[ref]? = some o ∧ o.row.cid = c

/-- Row objects stay, and stay with their connection. -/
def Keeps (w w' : World) : Prop := ∀ (ref : Nat) (o : Obj), w.heap[ref]? = some o → ∃ o' : Obj, w'.heap[ref]? = some o' ∧ o'.row.cid = o.row.cid

theorem Keeps.refl (w : World) : Keeps w w := fun _ o h => ⟨o, h, rfl⟩
theorem Keeps.of_eq {w w' : World} (h : w'.heap = w.heap) : Keeps w w' := fun _ o ho => ⟨o, by rw [h]; exact ho, rfl⟩
theorem Keeps.trans {a b c : World} (h1 : Keeps a b) (h2 : Keeps b c) : Keeps a c := fun ref o ho => by
  obtain ⟨o1, h3, h4⟩ := h1 ref o ho
  obtain ⟨o2, h5, h6⟩ := h2 ref o1 h3
  exact ⟨o2, h5, h6.trans h4⟩
theorem Known.holds.keeps {F : Known} {w w' : World} (h : F.holds w) (hg : Keeps w w') : F.holds w' := fun ref c hc => by
  obtain ⟨o, h1, h2⟩ := h ref c hc
  obtain ⟨o', h3, h4⟩ := hg ref o h1
  exact ⟨o', h3, h4.trans h2⟩
theorem Keeps.append {w w' : World} {os : List Obj} (h : w'.heap = w.heap ++ os) : Keeps w w' := fun ref o ho =>
  ⟨o, by rw [h]; exact List.getElem?_append_left (List.getElem?_eq_some_iff.mp ho).1 ▸ ho, rfl⟩
theorem Keeps.set {w w' : World} {ref : Nat} {o o' : Obj} (ho : w.heap[ref]? = some o) (h : w'.heap = w.heap.set ref o') (hc : o'.row.cid = o.row.cid) : Keeps w w' := by
  intro i x hx
  rw [h]
  by_cases hi : ref = i
  · subst hi
    rw [ho] at hx
    obtain rfl := Option.some.inj hx
    exact ⟨o', by rw [List.getElem?_set_self (List.getElem?_eq_some_iff.mp ho).1], hc⟩
  · exact ⟨x, by rw [List.getElem?_set_ne hi]; exact hx, rfl⟩

theorem UpW.orc {U : Facts} {w w' : World} (h : UpW U w) (h1 : w'.links = w.links) (h2 : w'.heap = w.heap) (h3 : w'.rows = w.rows) (h4 : w'.outbox = w.outbox) : UpW U w' :=
  ⟨h1 ▸ h.links, h2 ▸ h.heap, h3 ▸ h.rows, h4 ▸ h.out⟩

theorem UpW.say {U : Facts} {w w' : World} (h : UpW U w) {m : Msg} (hm : m.truthful U) (h1 : w'.links = w.links) (h2 : w'.heap = w.heap) (h3 : w'.rows = w.rows)
    (h4 : w'.outbox = w.outbox ++ [m]) : UpW U w' :=
  ⟨h1 ▸ h.links, h2 ▸ h.heap, h3 ▸ h.rows, fun x hx => by
    rw [h4, List.mem_append, List.mem_singleton] at hx
    rcases hx with hx | rfl
    · exact h.out x hx
    · exact hm⟩

/-- If the command took down a link, that is known. -/
def Cmd.downs {β : Type} (U : Facts) (ok : Bool) : Cmd β → Prop
  | .teardown cid => ok = true → U.down cid
  | _ => True

/-- Executing a command as it may be issued. -/
theorem up_execAt {β : Type} {U : Facts} {F : Known} {w : World} {x : Cmd β} {post : Known → Except Err β → Prop} (h : UpW U w) (hF : F.holds w)
    (hx : x.fair U F post) (hl : ∀ cid ∈ (execAt w x).1.links, U.up cid) (hd : x.downs U (isOk (execAt w x).2)) :
    UpW U (execAt w x).1 ∧ Keeps w (execAt w x).1 ∧ ∃ F' : Known, F'.holds (execAt w x).1 ∧ post F' (execAt w x).2 := by
  have same : ∀ {w' : World} {r : Except Err β}, w'.links = w.links → w'.heap = w.heap → w'.rows = w.rows → w'.outbox = w.outbox → post F r →
      UpW U w' ∧ Keeps w w' ∧ ∃ F' : Known, F'.holds w' ∧ post F' r :=
    fun h1 h2 h3 h4 hr => ⟨h.orc h1 h2 h3 h4, .of_eq h2, F, hF.keeps (.of_eq h2), hr⟩
  cases x with
  | find cid =>
    simp only [execAt] at hl ⊢
    split
    · exact same rfl rfl rfl rfl (hx _)
    · rename_i r hr
      have hg : Keeps w { w with heap := w.heap ++ [⟨r, false⟩] } := .append rfl
      refine ⟨⟨h.links, fun o ho ha => ?_, h.rows, h.out⟩, hg, F, hF.keeps hg, hx _⟩
      simp only [List.mem_append, List.mem_singleton] at ho
      rcases ho with ho | rfl
      · exact h.heap o ho ha
      · exact h.rows r (List.mem_of_find?_eq_some hr) ha
  | findLive =>
    simp only [execAt] at hl ⊢
    have hg : Keeps w { w with heap := w.heap ++ (w.rows.filter fun r => r.st.l ≠ .terminated).map fun r => ⟨r, false⟩ } := .append rfl
    refine ⟨⟨h.links, fun o ho ha => ?_, h.rows, h.out⟩, hg, F, hF.keeps hg, hx _⟩
    simp only [List.mem_append, List.mem_map] at ho
    rcases ho with ho | ⟨r, hr, rfl⟩
    · exact h.heap o ho ha
    · exact h.rows r (List.mem_filter.mp hr).1 ha
  | save ref =>
    simp only [execAt] at hl ⊢
    split
    · exact same rfl rfl rfl rfl (hx _)
    · rename_i o ho
      have hm : o ∈ w.heap := List.mem_of_getElem? ho
      split
      · split
        · exact same rfl rfl rfl rfl (hx _)
        · have hg : Keeps w { w with rows := w.rows ++ [o.row], heap := w.heap.set ref ⟨o.row, false⟩ } := .set ho rfl rfl
          refine ⟨⟨h.links, fun y hy ha => ?_, fun r hr ha => ?_, h.out⟩, hg, F, hF.keeps hg, hx _⟩
          · rcases List.mem_or_eq_of_mem_set hy with hy | rfl
            · exact h.heap y hy ha
            · exact h.heap o hm ha
          · simp only [List.mem_append, List.mem_singleton] at hr
            rcases hr with hr | rfl
            · exact h.rows r hr ha
            · exact h.heap o hm ha
      · refine ⟨⟨h.links, h.heap, fun r hr ha => ?_, h.out⟩, .of_eq rfl, F, hF.keeps (.of_eq rfl), hx _⟩
        simp only [setRow, List.mem_map] at hr
        obtain ⟨r0, hr0, rfl⟩ := hr
        split at ha
        · rename_i hc; rw [if_pos hc]; exact h.heap o hm ha
        · rename_i hc; rw [if_neg hc]; exact h.rows r0 hr0 ha
  | setup cid =>
    have e1 : w.dev.2.links = w.links := by unfold World.dev; split <;> rfl
    have e2 : w.dev.2.heap = w.heap := by unfold World.dev; split <;> rfl
    have e3 : w.dev.2.rows = w.rows := by unfold World.dev; split <;> rfl
    have e4 : w.dev.2.outbox = w.outbox := by unfold World.dev; split <;> rfl
    revert e1 e2 e3 e4 hl
    simp only [execAt]
    generalize w.dev = d
    obtain ⟨d, w2⟩ := d
    intro hl e1 e2 e3 e4
    have hw2 := h.orc e1 e2 e3 e4
    cases d with
    | ok => exact ⟨⟨hl, hw2.heap, hw2.rows, hw2.out⟩, .of_eq e2, F, hF.keeps (.of_eq e2), hx.1 (hl cid (List.mem_cons_self ..))⟩
    | failed b => cases b <;> exact ⟨⟨hl, hw2.heap, hw2.rows, hw2.out⟩, .of_eq e2, F, hF.keeps (.of_eq e2), hx.2 _⟩
  | teardown cid =>
    have e2 : w.dev.2.heap = w.heap := by unfold World.dev; split <;> rfl
    have e3 : w.dev.2.rows = w.rows := by unfold World.dev; split <;> rfl
    have e4 : w.dev.2.outbox = w.outbox := by unfold World.dev; split <;> rfl
    revert e2 e3 e4 hl hd
    simp only [execAt]
    generalize w.dev = d
    obtain ⟨d, w2⟩ := d
    intro hl hd e2 e3 e4
    cases d with
    | ok => exact ⟨⟨hl, e2 ▸ h.heap, e3 ▸ h.rows, e4 ▸ h.out⟩, .of_eq e2, F, hF.keeps (.of_eq e2), hx.2.1 (hd rfl)⟩
    | failed b => cases b <;> exact ⟨⟨hl, e2 ▸ h.heap, e3 ▸ h.rows, e4 ▸ h.out⟩, .of_eq e2, F, hF.keeps (.of_eq e2), hx.2.2 _⟩
  | call m =>
    simp only [execAt] at hl ⊢
    split
    · exact ⟨h.say hx.1 rfl rfl rfl rfl, .of_eq rfl, F, hF.keeps (.of_eq rfl), hx.2 _⟩
    · exact ⟨h.say hx.1 rfl rfl rfl rfl, .of_eq rfl, F, hF.keeps (.of_eq rfl), hx.2 _⟩
  | tell m => exact ⟨h.say hx.1 rfl rfl rfl rfl, .of_eq rfl, F, hF.keeps (.of_eq rfl), hx.2 _⟩
  | getObj ref =>
    simp only [execAt] at hl ⊢
    split
    · exact same rfl rfl rfl rfl (hx.2 _)
    · rename_i o ho
      refine ⟨h, .refl w, F.add ref o.row.cid, ?_, hx.1 o.row (fun c hc => ?_) (h.heap o (List.mem_of_getElem? ho))⟩
      · rintro i c (hc | ⟨rfl, rfl⟩)
        · exact hF i c hc
        · exact ⟨o, ho, rfl⟩
      · obtain ⟨o2, h1, h2⟩ := hF ref c hc
        rw [ho] at h1
        obtain rfl := Option.some.inj h1
        exact h2
  | setObj ref row =>
    simp only [execAt] at hl ⊢
    split
    · exact same rfl rfl rfl rfl (hx.2.2 _)
    · rename_i o ho
      have hc : row.cid = o.row.cid := by
        obtain ⟨o2, h1, h2⟩ := hF ref _ hx.1
        rw [ho] at h1
        obtain rfl := Option.some.inj h1
        exact h2.symm
      have hg : Keeps w { w with heap := w.heap.set ref { o with row } } := .set ho rfl hc
      refine ⟨⟨h.links, fun y hy ha => ?_, h.rows, h.out⟩, hg, F, hF.keeps hg, hx.2.2 _⟩
      rcases List.mem_or_eq_of_mem_set hy with hy | rfl
      · exact h.heap y hy ha
      · exact hx.2.1 ha
  | newObj row =>
    have hg : Keeps w { w with heap := w.heap ++ [⟨row, true⟩] } := .append rfl
    refine ⟨⟨h.links, fun o ho ha => ?_, h.rows, h.out⟩, hg, F, hF.keeps hg, hx.2 _⟩
    simp only [execAt, List.mem_append, List.mem_singleton] at ho
    rcases ho with ho | rfl
    · exact h.heap o ho ha
    · rw [hx.1] at ha; cases ha
  | calRemove r =>
    simp only [execAt] at hl ⊢
    split <;> exact same rfl rfl rfl rfl (hx _)
  | sched cid t act ref =>
    simp only [execAt] at hl ⊢
    split
    · exact same rfl rfl rfl rfl (hx _)
    · split <;> exact same rfl rfl rfl rfl (hx _)
  | newId =>
    simp only [execAt]
    split <;> exact same rfl rfl rfl rfl (hx _)
  | _ => exact same rfl rfl rfl rfl (hx _)

theorem advance_fields (w : World) : w.advance.links = w.links ∧ w.advance.heap = w.heap ∧ w.advance.rows = w.rows ∧ w.advance.outbox = w.outbox := by
  unfold World.advance; split <;> exact ⟨rfl, rfl, rfl, rfl⟩

theorem up_exec {β : Type} {U : Facts} {F : Known} {w : World} {x : Cmd β} {post : Known → Except Err β → Prop} (h : UpW U w) (hF : F.holds w)
    (hx : x.fair U F post) (hl : ∀ cid ∈ (exec w x).1.links, U.up cid) (hd : x.downs U (isOk (exec w x).2)) :
    UpW U (exec w x).1 ∧ Keeps w (exec w x).1 ∧ ∃ F' : Known, F'.holds (exec w x).1 ∧ post F' (exec w x).2 := by
  obtain ⟨a1, a2, a3, a4⟩ := advance_fields w
  have := up_execAt (h.orc a1 a2 a3 a4) (hF.keeps (.of_eq a2)) hx hl hd
  exact ⟨this.1, (Keeps.of_eq a2).trans this.2.1, this.2.2⟩

/-- Commands that are executed at once do not reach the device. -/
theorem sync_links {β : Type} {w : World} {x : Cmd β} (hx : x.isAsync = false) : (exec w x).1.links = w.links := by
  have e : w.advance.links = w.links := (advance_fields w).1
  unfold exec
  cases x with
  | find | findLive | save | setup | teardown | call => cases hx
  | _ => simp only [execAt]; repeat' (first | exact e | split)

theorem sync_downs {β : Type} {U : Facts} {ok : Bool} {x : Cmd β} (hx : x.isAsync = false) : x.downs U ok := by
  cases x with
  | teardown => cases hx
  | _ => trivial

theorem fair_fails {β : Type} {U : Facts} {F : Known} {x : Cmd β} {post : Known → Except Err β → Prop} (ha : x.isAsync = true) (h : x.fair U F post) (e : Err) : post F (.error e) := by
  cases x with
  | find | findLive | save => exact h _
  | setup cid => exact h.2 e
  | teardown cid => exact h.2.2 e
  | call m => exact h.2 _
  | _ => cases ha

/-- A device command alone. -/
theorem fair_alone {β : Type} {U : Facts} {F G : Known} {x : Cmd β} {post : Known → Except Err β → Prop} (ha : x.isAsync = true) (h : x.fair U F post) :
    x.fair U G fun _ _ => True := by
  cases x with
  | find | findLive | save => exact fun _ => trivial
  | teardown cid => exact ⟨h.1, fun _ => trivial, fun _ => trivial⟩
  | setup cid => exact ⟨fun _ => trivial, fun _ => trivial⟩
  | call m => exact ⟨h.1, fun _ => trivial⟩
  | _ => cases ha

/-- A suspended coroutine goes on fairly. -/
def Task.fair (U : Facts) (w : World) (t : Task) : Prop :=
  match t.susp with
  | .waiting c k _ => c.isAsync = true ∧ ∃ F : Known, F.holds w ∧ c.fair U F fun F' r => Fair U (k r) F' fun _ _ => True
  | .performed k r _ => (∃ F : Known, F.holds w ∧ Fair U (k r) F fun _ _ => True) ∧ ∃ F : Known, F.holds w ∧ ∀ e, Fair U (k (.error e)) F fun _ _ => True

theorem Task.fair.keeps {U : Facts} {w w' : World} {t : Task} (h : t.fair U w) (hg : Keeps w w') : t.fair U w' := by
  unfold Task.fair at h ⊢
  split <;> rename_i hs <;> rw [hs] at h
  · obtain ⟨ha, F, h1, h2⟩ := h; exact ⟨ha, F, h1.keeps hg, h2⟩
  · obtain ⟨⟨F, h1, h2⟩, G, h3, h4⟩ := h; exact ⟨⟨F, h1.keeps hg, h2⟩, G, h3.keeps hg, h4⟩

/-- The whole state. -/
structure Ups (U : Facts) (c : Conc) : Prop where
  w : UpW U c.w
  tasks : ∀ t ∈ c.tasks, t.fair U c.w

theorem fair_cancelled {U : Facts} {w : World} {n : Nat} {t : Task} (h : t.fair U w) : ∀ u ∈ t.cancelled n, u.fair U w := by
  intro u hu
  unfold Task.cancelled at hu
  unfold Task.fair at h
  split at hu <;> rename_i hs <;> rw [hs] at h
  · obtain ⟨ha, F, h1, h2⟩ := h
    simp only [List.mem_cons, List.not_mem_nil, or_false] at hu
    rcases hu with rfl | rfl
    · exact ⟨⟨F, h1, fair_fails ha h2 _⟩, F, h1, fun _ => fair_fails ha h2 _⟩
    · exact ⟨ha, F, h1, fair_alone ha h2⟩
  · obtain ⟨_, F, h1, h2⟩ := h
    simp only [List.mem_cons, List.not_mem_nil, or_false] at hu
    subst hu
    exact ⟨⟨F, h1, h2 _⟩, F, h1, fun _ => h2 _⟩

theorem Ups.affect {β : Type} {U : Facts} {c : Conc} (h : Ups U c) (w : World) (ok : Bool) (x : Cmd β) : Ups U (c.affect w ok x) := by
  unfold Conc.affect
  split
  · split
    · refine ⟨h.w, fun t ht => ?_⟩
      simp only [Conc.cancelCall, List.mem_flatMap] at ht
      obtain ⟨u, hu, ht⟩ := ht
      split at ht
      · exact fair_cancelled (h.tasks u hu) t ht
      · simp only [List.mem_cons, List.not_mem_nil, or_false] at ht; subst ht; exact h.tasks _ hu
    · exact h
  · split
    · refine ⟨h.w, fun t ht => ?_⟩
      simp only [Conc.disown, List.mem_map] at ht
      obtain ⟨u, hu, rfl⟩ := ht
      split
      · exact h.tasks u hu
      · exact h.tasks u hu
    · exact h
  · exact h

theorem Ups.runSync {α : Type} {U : Facts} {p : Prog α} : ∀ (id : Nat) (owner : Option Str)
    (fin : Except Err α → Except Err (Option Str)) (c : Conc) (F : Known), Ups U c → F.holds c.w → Fair U p F (fun _ _ => True) →
    Ups U (Conc.runSync id owner p fin c) ∧ Keeps c.w (Conc.runSync id owner p fin c).w := by
  induction p with
  | pure a => intro id owner fin c F h _ _; exact ⟨⟨h.w, h.tasks⟩, .refl _⟩
  | throw e => intro id owner fin c F h _ _; exact ⟨⟨h.w, h.tasks⟩, .refl _⟩
  | cmd x k ih =>
    intro id owner fin c F h hF hp
    simp only [Conc.runSync]
    split
    · rename_i ha
      refine ⟨⟨h.w, fun t ht => ?_⟩, .refl _⟩
      simp only [List.mem_append, List.mem_cons, List.not_mem_nil, or_false] at ht
      rcases ht with ht | rfl
      · exact h.tasks t ht
      · exact ⟨ha, F, hF, hp⟩
    · rename_i ha
      obtain ⟨h1, h2, F', h3, h4⟩ := up_exec h.w hF hp (by rw [sync_links (by simpa using ha)]; exact h.w.links) (sync_downs (by simpa using ha))
      have hu : Ups U (c.sync x).1 := Ups.affect (c := { c with w := (exec c.w x).1 }) ⟨h1, fun t ht => (h.tasks t ht).keeps h2⟩ _ _ _
      have ew : (c.sync x).1.w = (exec c.w x).1 := affect_still _ _ _ _
      obtain ⟨h5, h6⟩ := ih _ id owner fin (c.sync x).1 F' hu (by rw [ew]; exact h3) h4
      exact ⟨h5, (ew ▸ h2 : Keeps c.w (c.sync x).1.w).trans h6⟩
  | spawn p k ihp ihk =>
    intro id owner fin c F h hF hp
    simp only [Conc.runSync]
    obtain ⟨h1, h2⟩ := ihp c.next none (fun _ => .ok none) { c with next := c.next + 1 } F ⟨h.w, h.tasks⟩ hF hp.1
    obtain ⟨h3, h4⟩ := ihk id owner fin _ F h1 (hF.keeps h2) hp.2
    exact ⟨h3, h2.trans h4⟩

theorem takeTask_of {n : Nat} : ∀ {ts : List Task} {t : Task} {us : List Task}, takeTask n ts = some (t, us) → t ∈ ts ∧ ∀ u ∈ us, u ∈ ts
  | [], _, _, h => by cases h
  | v :: vs, t, us, h => by
    simp only [takeTask] at h
    split at h
    · obtain ⟨rfl, rfl⟩ := Prod.mk.inj (Option.some.inj h)
      exact ⟨List.mem_cons_self .., fun u hu => List.mem_cons_of_mem _ hu⟩
    · cases h2 : takeTask n vs with
      | none => rw [h2] at h; cases h
      | some x =>
        rw [h2] at h
        obtain ⟨rfl, rfl⟩ := Prod.mk.inj (Option.some.inj h)
        have ih := takeTask_of h2
        refine ⟨List.mem_cons_of_mem _ ih.1, fun u hu => ?_⟩
        rcases List.mem_cons.mp hu with rfl | hu
        · exact List.mem_cons_self ..
        · exact List.mem_cons_of_mem _ (ih.2 u hu)

/-- If the step took down a link, that is known. -/
def Conc.downs (U : Facts) (c : Conc) (o : Oracle) : Choice → Prop
  | .perform n =>
    match takeTask n c.tasks with
    | some (⟨_, _, .waiting x _ _⟩, _) => x.downs U (isOk (exec { c.w with orc := o } x).2)
    | _ => True
  | _ => True

/-- Nothing is known. -/
def Known.nil : Known := fun _ _ => False
theorem Known.nil_holds (w : World) : Known.nil.holds w := fun _ _ h => h.elim

theorem Ups.step {U : Facts} {cfg : Cfg} {c : Conc} (h : Ups U c) (o : Oracle) (ch : Choice) (hl : ∀ cid ∈ (c.step cfg o ch).w.links, U.up cid)
    (hd : c.downs U o ch) : Ups U (c.step cfg o ch) := by
  have h0 : Ups U { c with w := { c.w with orc := o } } := ⟨h.w.orc rfl rfl rfl rfl, fun t ht => (h.tasks t ht).keeps (.of_eq rfl)⟩
  have hd0 : ∀ n, ch = .perform n → match takeTask n ({ c with w := { c.w with orc := o } } : Conc).tasks with
      | some (⟨_, _, .waiting x _ _⟩, _) => x.downs U (isOk (exec ({ c with w := { c.w with orc := o } } : Conc).w x).2)
      | _ => True := by
    rintro n rfl; exact hd
  revert h0 hl hd0
  unfold Conc.step
  generalize ({ c with w := { c.w with orc := o } } : Conc) = c
  intro hl h hd
  cases ch with
  | wait us => exact ⟨h.w.orc rfl rfl rfl rfl, fun t ht => (h.tasks t ht).keeps (.of_eq rfl)⟩
  | start h' q =>
    refine (Ups.runSync _ _ _ _ .nil ?_ (Known.nil_holds _) ((honest_req cfg h' q).fair _)).1
    exact ⟨h.w, h.tasks⟩
  | fire cid =>
    simp only
    split
    · split
      · refine (Ups.runSync _ _ _ _ .nil ?_ (Known.nil_holds _) ((honest_act cfg _ _).fair _)).1
        exact ⟨h.w.orc rfl rfl rfl rfl, fun t ht => (h.tasks t ht).keeps (.of_eq rfl)⟩
      · exact h
    · exact h
  | perform n =>
    simp only at hl ⊢
    split
    · rename_i x k fin ts hs
      rw [hs] at hl
      obtain ⟨h1, h2⟩ := takeTask_of hs
      have ht : Task.fair U c.w _ := h.tasks _ h1
      obtain ⟨ha, F, hF, hx⟩ := ht
      obtain ⟨h3, h4, F', h5, h6⟩ := up_exec h.w hF hx hl (by have := hd n rfl; rw [hs] at this; exact this)
      refine ⟨h3, fun t ht => ?_⟩
      simp only [List.mem_append, List.mem_cons, List.not_mem_nil, or_false] at ht
      rcases ht with ht | rfl
      · exact (h.tasks t (h2 t ht)).keeps h4
      · exact ⟨⟨F', h5, h6⟩, F, hF.keeps h4, fun e => fair_fails ha hx e⟩
    · exact h
  | resume n =>
    simp only
    split
    · rename_i hs
      obtain ⟨h1, h2⟩ := takeTask_of hs
      have ht : Task.fair U c.w _ := h.tasks _ h1
      obtain ⟨⟨F, hF, hx⟩, _⟩ := ht
      refine (Ups.runSync _ _ _ _ F ?_ ?_ hx).1
      · exact ⟨h.w, fun t ht => h.tasks t (h2 t ht)⟩
      · exact hF
    · exact h
  | restart =>
    refine (Ups.runSync _ _ _ _ .nil ?_ (Known.nil_holds _) ((honest_buildSchedule cfg).fair _)).1
    refine ⟨⟨h.w.links, fun o ho => (by cases ho), h.w.rows, h.w.out⟩, fun t ht => ?_⟩
    simp only [List.mem_filterMap] at ht
    obtain ⟨u, hu, ht⟩ := ht
    have hn := h.tasks u hu
    unfold Task.orphan at ht
    unfold Task.fair at hn
    split at ht <;> rename_i hs <;> rw [hs] at hn
    · split at ht
      · obtain ⟨ha, F, _, hx⟩ := hn
        rw [← Option.some.inj ht]
        exact ⟨ha, .nil, Known.nil_holds _, fair_alone ha hx⟩
      · cases ht
    · cases ht

end OpenNSA.Backend
