import Verif.Backend.Rely
import Verif.Backend.Inv
/-
Stored connections, timers, links and messages under interleaved execution.
-/
namespace OpenNSA.Backend
open OpenNSA Py Prog

/-- The two rows agree in everything that is fixed when the reservation is made. -/
def Row.Same (x y : Row) : Prop :=
  y.cid = x.cid ∧ y.requester = x.requester ∧ y.reserveTime = x.reserveTime ∧ y.srcPort = x.srcPort ∧
    y.srcLabel = x.srcLabel ∧ y.dstPort = x.dstPort ∧ y.dstLabel = x.dstLabel ∧ y.start = x.start ∧ y.end_ = x.end_

theorem Row.Same.refl (x : Row) : x.Same x := ⟨rfl, rfl, rfl, rfl, rfl, rfl, rfl, rfl, rfl⟩

theorem Row.Same.trans {x y z : Row} (h : x.Same y) (k : y.Same z) : x.Same z := by
  obtain ⟨a1, a2, a3, a4, a5, a6, a7, a8, a9⟩ := h
  obtain ⟨b1, b2, b3, b4, b5, b6, b7, b8, b9⟩ := k
  exact ⟨b1.trans a1, b2.trans a2, b3.trans a3, b4.trans a4, b5.trans a5, b6.trans a6, b7.trans a7, b8.trans a8, b9.trans a9⟩

theorem Row.Same.symm {x y : Row} (h : x.Same y) : y.Same x := by
  obtain ⟨a1, a2, a3, a4, a5, a6, a7, a8, a9⟩ := h
  exact ⟨a1.symm, a2.symm, a3.symm, a4.symm, a5.symm, a6.symm, a7.symm, a8.symm, a9.symm⟩

/-- Requests about an existing connection. -/
inductive Kind
  | commit | abort | provision | release | terminate
  deriving DecidableEq, Repr

/-- What is known about the requests made: `A k r`, there was a request of this kind for the connection; `B corr r`, the
connection was made for a reservation request with this correlation id. -/
structure Asked where
  A : Kind → Row → Prop
  B : Str → Row → Prop
  sameA : ∀ {k x y}, Row.Same x y → A k x → A k y
  sameB : ∀ {c x y}, Row.Same x y → B c x → B c y

variable (a : Asked)

/-- What is true of a row, stored or in memory. -/
structure RowI (r : Row) : Prop where
  born : ∃ corr, a.B corr r
  alloc : r.allocated = true → a.A .commit r
  prov : r.st.p = .provisioning ∨ r.st.p = .provisioned → a.A .provision r ∧ a.A .commit r

/-- The link may be set up: provisioning was requested, after commit, and the start time has come. -/
structure MayUp (t : Time) (r : Row) : Prop where
  start : ∀ s, r.start = some s → s ≤ t
  asked : a.A .provision r ∧ a.A .commit r

/-- What is true of a message about a connection. -/
def MsgI (r : Row) : Msg → Prop
  | .reserveConfirmed corr cid sl dl st en =>
    r.cid = cid ∧ r.srcLabel = sl ∧ r.dstLabel = dl ∧ r.start = st ∧ r.end_ = en ∧ a.B corr r
  | .reserveCommitConfirmed cid => r.cid = cid ∧ a.A .commit r
  | .reserveAbortConfirmed cid => r.cid = cid ∧ a.A .abort r
  | .provisionConfirmed cid => r.cid = cid ∧ a.A .provision r
  | .releaseConfirmed cid => r.cid = cid ∧ a.A .release r
  | .terminateConfirmed cid => r.cid = cid ∧ a.A .terminate r
  | .reserveTimeout cid _ => r.cid = cid
  | .activateFailed cid _ => r.cid = cid ∧ a.A .provision r
  | .deactivateFailed cid _ => r.cid = cid
  | .dataPlane cid _ true => r.cid = cid ∧ a.A .provision r
  | .dataPlane cid _ false => r.cid = cid

variable {a}

theorem RowI.same {x y : Row} (h : RowI a x) (hs : x.Same y) (h1 : y.allocated = x.allocated) (h2 : y.st.p = x.st.p) : RowI a y where
  born := h.born.imp fun _ => a.sameB hs
  alloc h0 := a.sameA hs (h.alloc (h1 ▸ h0))
  prov h0 := (h.prov (h2 ▸ h0)).imp (a.sameA hs) (a.sameA hs)

theorem MayUp.same {t t' : Time} {x y : Row} (h : MayUp a t x) (hs : x.Same y) (ht : t ≤ t') : MayUp a t' y where
  start s h0 := by
    have := h.start s (by rw [← h0]; exact hs.2.2.2.2.2.2.2.1.symm)
    omega
  asked := h.asked.imp (a.sameA hs) (a.sameA hs)

theorem MsgI.same {x y : Row} {m : Msg} (h : MsgI a x m) (hs : x.Same y) : MsgI a y m := by
  obtain ⟨a1, a2, a3, a4, a5, a6, a7, a8, a9⟩ := hs
  have hs : x.Same y := ⟨a1, a2, a3, a4, a5, a6, a7, a8, a9⟩
  cases m with
  | reserveConfirmed corr cid sl dl st en =>
    obtain ⟨h1, h2, h3, h4, h5, h6⟩ := h
    exact ⟨a1.trans h1, a5.trans h2, a7.trans h3, a8.trans h4, a9.trans h5, a.sameB hs h6⟩
  | dataPlane cid n b =>
    cases b
    · exact a1.trans h
    · exact ⟨a1.trans h.1, a.sameA hs h.2⟩
  | reserveTimeout cid n => exact a1.trans h
  | deactivateFailed cid n => exact a1.trans h
  | _ => exact ⟨a1.trans h.1, a.sameA hs h.2⟩

variable (a)

/-- The invariant. -/
structure RowsI (w : World) : Prop where
  nodup : (w.rows.map (·.cid)).Nodup
  rows : ∀ r ∈ w.rows, RowI a r
  heap : ∀ o ∈ w.heap, RowI a o.row
  saved : ∀ o ∈ w.heap, o.isNew = false → ∃ r ∈ w.rows, r.Same o.row
  timers : ∀ k due act ref b, (k, ⟨due, act, ref, b⟩) ∈ w.tbl →
    ∃ o, w.heap[ref]? = some o ∧ o.isNew = false ∧ (act = .activate → MayUp a due o.row)
  links : ∀ cid ∈ w.links, ∃ r ∈ w.rows, r.cid = cid ∧ MayUp a w.clk r
  outbox : ∀ m ∈ w.outbox, ∃ r ∈ w.rows, MsgI a r m

variable {a}

/-- What other coroutines leave as it is. -/
structure RowsK (w w' : World) : Prop where
  clk : w.clk ≤ w'.clk
  heap : ∀ (ref : Nat) (o : Obj), w.heap[ref]? = some o → ∃ o' : Obj, w'.heap[ref]? = some o' ∧ o.row.Same o'.row ∧ (o.isNew = false → o'.isNew = false)
  rows : ∀ r ∈ w.rows, ∃ r' ∈ w'.rows, r.Same r'

/-- What remains of that over a restart. -/
structure RowsD (w w' : World) : Prop where
  clk : w.clk ≤ w'.clk
  rows : ∀ r ∈ w.rows, ∃ r' ∈ w'.rows, r.Same r'

theorem RowsK.refl (w : World) : RowsK w w :=
  ⟨Int.le_refl _, fun _ o h => ⟨o, h, .refl _, id⟩, fun r h => ⟨r, h, .refl _⟩⟩

theorem RowsK.trans {u v w : World} (h : RowsK u v) (k : RowsK v w) : RowsK u w where
  clk := Int.le_trans h.clk k.clk
  heap ref o ho := by
    obtain ⟨o1, h1, h2, h3⟩ := h.heap ref o ho
    obtain ⟨o2, k1, k2, k3⟩ := k.heap ref o1 h1
    exact ⟨o2, k1, h2.trans k2, k3 ∘ h3⟩
  rows r hr := by
    obtain ⟨r1, h1, h2⟩ := h.rows r hr
    obtain ⟨r2, k1, k2⟩ := k.rows r1 h1
    exact ⟨r2, k1, h2.trans k2⟩

theorem RowsD.trans {u v w : World} (h : RowsD u v) (k : RowsD v w) : RowsD u w where
  clk := Int.le_trans h.clk k.clk
  rows r hr := by
    obtain ⟨r1, h1, h2⟩ := h.rows r hr
    obtain ⟨r2, k1, k2⟩ := k.rows r1 h1
    exact ⟨r2, k1, h2.trans k2⟩

/-- Nothing the invariant is about changes, apart from the clock. -/
theorem RowsK.of_eq {w w' : World} (hc : w.clk ≤ w'.clk) (hh : w'.heap = w.heap) (hr : w'.rows = w.rows) : RowsK w w' :=
  ⟨hc, fun _ o h => ⟨o, by rw [hh]; exact h, .refl _, id⟩, fun r h => ⟨r, by rw [hr]; exact h, .refl _⟩⟩

/-- How to show the invariant for a later world. -/
theorem RowsI.next {w w' : World} (h : RowsI a w) (k : RowsK w w') (hn : (w'.rows.map (·.cid)).Nodup) (hr : ∀ r ∈ w'.rows, RowI a r)
    (hh : ∀ o ∈ w'.heap, RowI a o.row) (hs : ∀ o ∈ w'.heap, o.isNew = false → ∃ r ∈ w'.rows, r.Same o.row)
    (ht : ∀ k due act ref b, (k, (⟨due, act, ref, b⟩ : Timer)) ∈ w'.tbl → (∃ b', (k, (⟨due, act, ref, b'⟩ : Timer)) ∈ w.tbl) ∨
      ∃ o, w'.heap[ref]? = some o ∧ o.isNew = false ∧ (act = .activate → MayUp a due o.row))
    (hl : ∀ c ∈ w'.links, c ∈ w.links ∨ ∃ r ∈ w'.rows, r.cid = c ∧ MayUp a w'.clk r)
    (ho : ∀ m ∈ w'.outbox, m ∈ w.outbox ∨ ∃ r ∈ w'.rows, MsgI a r m) : RowsI a w' where
  nodup := hn
  rows := hr
  heap := hh
  saved := hs
  timers key due act ref b hm := by
    rcases ht key due act ref b hm with ⟨b', hm⟩ | hm
    · obtain ⟨o, h1, h2, h3⟩ := h.timers key due act ref b' hm
      obtain ⟨o', k1, k2, k3⟩ := k.heap ref o h1
      exact ⟨o', k1, k3 h2, fun e => (h3 e).same k2 (Int.le_refl _)⟩
    · exact hm
  links c hc := by
    rcases hl c hc with hc | hc
    · obtain ⟨r, h1, h2, h3⟩ := h.links c hc
      obtain ⟨r', k1, k2⟩ := k.rows r h1
      exact ⟨r', k1, k2.1.trans h2, h3.same k2 k.clk⟩
    · exact hc
  outbox m hm := by
    rcases ho m hm with hm | hm
    · obtain ⟨r, h1, h2⟩ := h.outbox m hm
      obtain ⟨r', k1, k2⟩ := k.rows r h1
      exact ⟨r', k1, h2.same k2⟩
    · exact hm

/-- If rows and objects stay. -/
theorem RowsI.keep {w w' : World} (h : RowsI a w) (hc : w.clk ≤ w'.clk) (hh : w'.heap = w.heap) (hr : w'.rows = w.rows)
    (ht : ∀ k due act ref b, (k, (⟨due, act, ref, b⟩ : Timer)) ∈ w'.tbl → (∃ b', (k, (⟨due, act, ref, b'⟩ : Timer)) ∈ w.tbl) ∨
      ∃ o, w'.heap[ref]? = some o ∧ o.isNew = false ∧ (act = .activate → MayUp a due o.row))
    (hl : ∀ c ∈ w'.links, c ∈ w.links ∨ ∃ r ∈ w'.rows, r.cid = c ∧ MayUp a w'.clk r)
    (ho : ∀ m ∈ w'.outbox, m ∈ w.outbox ∨ ∃ r ∈ w'.rows, MsgI a r m) : RowsI a w' :=
  h.next (.of_eq hc hh hr) (hr ▸ h.nodup) (hr ▸ h.rows) (hh ▸ h.heap) (by rw [hh, hr]; exact h.saved) ht hl ho

theorem rowsRelies : Relies (RowsI a) RowsK RowsD where
  refl := .refl
  trans := .trans
  weak h := ⟨h.clk, h.rows⟩
  dtrans := .trans
  envI t o ht h := h.keep ht rfl rfl (fun _ _ _ _ b hm => .inl ⟨b, hm⟩) (fun _ hc => .inl hc) (fun _ hm => .inl hm)
  envK t o ht := .of_eq ht rfl rfl
  called h hg _ := by
    refine ⟨h.keep (Int.le_refl _) rfl rfl ?_ (fun _ hc => .inl hc) (fun _ hm => .inl hm), .of_eq (Int.le_refl _) rfl rfl⟩
    intro k due act ref b hm
    rcases mem_dset_of hm with hm | hm
    · simp only [Prod.mk.injEq, Timer.mk.injEq] at hm
      obtain ⟨rfl, rfl, rfl, rfl, rfl⟩ := hm
      exact .inl ⟨_, dget_some_mem hg⟩
    · exact .inl ⟨b, hm⟩

/-! ### Commands -/

/-- Always safe. -/
abbrev Tame {β : Type} (a : Asked) (c : Cmd β) : Prop := ∀ w, RowsI a w → SafeCmd (RowsI a) RowsK c w

theorem tame_env {β : Type} {c : Cmd β} (h : ∀ w, RowsI a w → RowsI a (execAt w c).1 ∧ RowsK w (execAt w c).1) : Tame a c := by
  intro w hi t o ht
  have h0 := (rowsRelies (a := a)).envI t o ht hi
  have := h _ h0
  exact ⟨this.1, .trans (v := w.env t o) (.of_eq ht rfl rfl) this.2⟩

/-- Commands that only touch what the invariant is not about. -/
theorem tame_same {β : Type} {c : Cmd β} (h : ∀ w, (execAt w c).1.clk = w.clk ∧ (execAt w c).1.heap = w.heap ∧ (execAt w c).1.rows = w.rows ∧
    (∀ x ∈ (execAt w c).1.tbl, x ∈ w.tbl) ∧ (∀ x ∈ (execAt w c).1.links, x ∈ w.links) ∧ (execAt w c).1.outbox = w.outbox) : Tame a c := by
  refine tame_env fun w hi => ?_
  obtain ⟨h1, h2, h3, h4, h5, h6⟩ := h w
  refine ⟨hi.keep (by rw [h1]; exact Int.le_refl _) h2 h3 (fun _ _ _ _ b hm => .inl ⟨b, h4 _ hm⟩) (fun _ hc => .inl (h5 _ hc)) (fun _ hm => .inl (h6 ▸ hm)),
    .of_eq (by rw [h1]; exact Int.le_refl _) h2 h3⟩

theorem tame_getObj (ref : Nat) : Tame a (.getObj ref) :=
  tame_same fun w => by simp only [execAt]; split <;> exact ⟨rfl, rfl, rfl, fun _ h => h, fun _ h => h, rfl⟩
theorem tame_now : Tame a .now := tame_same fun _ => ⟨rfl, rfl, rfl, fun _ h => h, fun _ h => h, rfl⟩
theorem tame_calCheck (r : Resv) : Tame a (.calCheck r) := tame_same fun _ => ⟨rfl, rfl, rfl, fun _ h => h, fun _ h => h, rfl⟩
theorem tame_calAdd (r : Resv) : Tame a (.calAdd r) := tame_same fun _ => ⟨rfl, rfl, rfl, fun _ h => h, fun _ h => h, rfl⟩
theorem tame_calRemove (r : Resv) : Tame a (.calRemove r) :=
  tame_same fun w => by simp only [execAt]; split <;> exact ⟨rfl, rfl, rfl, fun _ h => h, fun _ h => h, rfl⟩
theorem tame_cancel (cid : Str) : Tame a (.cancel cid) :=
  tame_same fun _ => ⟨rfl, rfl, rfl, fun x h => by
    obtain ⟨k, v⟩ := x
    exact (mem_ddel_iff.mp h).2, fun _ h => h, rfl⟩
theorem tame_hasCall (cid : Str) : Tame a (.hasCall cid) := tame_same fun _ => ⟨rfl, rfl, rfl, fun _ h => h, fun _ h => h, rfl⟩
theorem tame_newId : Tame a .newId :=
  tame_same fun w => by simp only [execAt]; split <;> exact ⟨rfl, rfl, rfl, fun _ h => h, fun _ h => h, rfl⟩
theorem tame_notifId : Tame a .notifId := tame_same fun _ => ⟨rfl, rfl, rfl, fun _ h => h, fun _ h => h, rfl⟩
theorem dev_eq (w : World) : ∃ o, w.dev.2 = { w with orc := o } := by
  unfold World.dev
  split
  · exact ⟨w.orc, rfl⟩
  · exact ⟨_, rfl⟩
theorem tame_teardown (cid : Str) : Tame a (.teardown cid) :=
  tame_same fun w => by
    obtain ⟨o, ho⟩ := dev_eq w
    simp only [execAt]
    revert ho
    generalize w.dev = d
    obtain ⟨d, w'⟩ := d
    rintro rfl
    cases d with
    | ok => exact ⟨rfl, rfl, rfl, fun _ h => h, fun _ h => (List.mem_filter.mp h).1, rfl⟩
    | failed b =>
      cases b
      · exact ⟨rfl, rfl, rfl, fun _ h => h, fun _ h => h, rfl⟩
      · exact ⟨rfl, rfl, rfl, fun _ h => h, fun _ h => (List.mem_filter.mp h).1, rfl⟩

/-- New objects for stored rows. -/
theorem load_ok {w : World} (h : RowsI a w) {l : List Row} (hl : ∀ r ∈ l, r ∈ w.rows) :
    RowsI a { w with heap := w.heap ++ l.map fun r => ⟨r, false⟩ } ∧ RowsK w { w with heap := w.heap ++ l.map fun r => ⟨r, false⟩ } := by
  have hk : RowsK w { w with heap := w.heap ++ l.map fun r => ⟨r, false⟩ } :=
    ⟨Int.le_refl _, fun ref o ho => ⟨o, by
      rw [List.getElem?_append_left (List.getElem?_eq_some_iff.mp ho).1]; exact ho, .refl _, id⟩, fun r hr => ⟨r, hr, .refl _⟩⟩
  have hm : ∀ o ∈ w.heap ++ l.map fun r => (⟨r, false⟩ : Obj), o ∈ w.heap ∨ o.row ∈ w.rows := by
    intro o ho
    rcases List.mem_append.mp ho with ho | ho
    · exact .inl ho
    · obtain ⟨r, hr, rfl⟩ := List.mem_map.mp ho
      exact .inr (hl r hr)
  refine ⟨h.next hk h.nodup h.rows ?_ ?_ (fun _ _ _ _ b hm => .inl ⟨b, hm⟩) (fun _ hc => .inl hc) (fun _ hm => .inl hm), hk⟩
  · intro o ho
    rcases hm o ho with ho | ho
    · exact h.heap o ho
    · exact h.rows _ ho
  · intro o ho hn
    rcases hm o ho with ho | ho
    · exact h.saved o ho hn
    · exact ⟨o.row, ho, .refl _⟩

theorem tame_find (cid : Str) : Tame a (.find cid) := by
  refine tame_env fun w hi => ?_
  simp only [execAt]
  split
  · exact ⟨hi, .refl _⟩
  · rename_i r hf
    exact load_ok hi (l := [r]) (by intro x hx; simp at hx; subst hx; exact List.mem_of_find?_eq_some hf)

theorem tame_findLive : Tame a .findLive := by
  refine tame_env fun w hi => ?_
  exact load_ok hi (fun r hr => (List.mem_filter.mp hr).1)

theorem tame_save (ref : Nat) : Tame a (.save ref) := by
  refine tame_env fun w hi => ?_
  simp only [execAt]
  split
  · exact ⟨hi, .refl _⟩
  · rename_i o ho
    have hmem : o ∈ w.heap := List.mem_of_getElem? ho
    split
    · split
      · exact ⟨hi, .refl _⟩
      · rename_i hid
        simp only [World.idTaken, Bool.or_eq_true, List.any_eq_true, decide_eq_true_eq, not_or, not_exists, not_and] at hid
        have hlt := (List.getElem?_eq_some_iff.mp ho).1
        have hk : RowsK w { w with rows := w.rows ++ [o.row], heap := w.heap.set ref ⟨o.row, false⟩ } := by
          refine ⟨Int.le_refl _, fun ref' o' ho' => ?_, fun r hr => ⟨r, by simp [hr], .refl _⟩⟩
          by_cases e : ref = ref'
          · subst e
            rw [ho] at ho'
            simp only [Option.some.injEq] at ho'
            subst ho'
            exact ⟨⟨o.row, false⟩, by simp [hlt], .refl _, fun _ => rfl⟩
          · exact ⟨o', by simp [e, ho'], .refl _, id⟩
        refine ⟨hi.next hk ?_ ?_ ?_ ?_ (fun _ _ _ _ b hm => .inl ⟨b, hm⟩) (fun _ hc => .inl hc) (fun _ hm => .inl hm), hk⟩
        · simp only [List.map_append, List.map_cons, List.map_nil, List.nodup_append]
          refine ⟨hi.nodup, by simp, ?_⟩
          intro x hx y hy
          simp only [List.mem_cons, List.not_mem_nil, or_false] at hy
          subst hy
          obtain ⟨r, hr, rfl⟩ := List.mem_map.mp hx
          exact hid.1 r hr
        · intro r hr
          rcases List.mem_append.mp hr with hr | hr
          · exact hi.rows r hr
          · simp only [List.mem_cons, List.not_mem_nil, or_false] at hr
            subst hr
            exact hi.heap o hmem
        · intro x hx
          rcases List.mem_or_eq_of_mem_set hx with hx | rfl
          · exact hi.heap x hx
          · exact hi.heap o hmem
        · intro x hx hn
          rcases List.mem_or_eq_of_mem_set hx with hx | rfl
          · obtain ⟨r, h1, h2⟩ := hi.saved x hx hn
            exact ⟨r, by simp [h1], h2⟩
          · exact ⟨o.row, by simp, .refl _⟩
    · rename_i hnew
      simp only [Bool.not_eq_true] at hnew
      obtain ⟨r0, hr0, hs0⟩ := hi.saved o hmem hnew
      have huniq : ∀ r ∈ w.rows, r.cid = o.row.cid → r = r0 := by
        intro r hr he
        exact eq_of_cid hi.nodup hr hr0 (he.trans hs0.1)
      have hsame : ∀ r ∈ w.rows, r.Same (if r.cid = o.row.cid then o.row else r) := by
        intro r hr
        split
        · rename_i he
          rw [huniq r hr he]; exact hs0
        · exact .refl _
      have hk : RowsK w { w with rows := setRow w.rows o.row } :=
        ⟨Int.le_refl _, fun _ o h => ⟨o, h, .refl _, id⟩, fun r hr => ⟨_, List.mem_map.mpr ⟨r, hr, rfl⟩, hsame r hr⟩⟩
      refine ⟨hi.next hk ?_ ?_ hi.heap ?_ (fun _ _ _ _ b hm => .inl ⟨b, hm⟩) (fun _ hc => .inl hc) (fun _ hm => .inl hm), hk⟩
      · have : (setRow w.rows o.row).map (·.cid) = w.rows.map (·.cid) := by
          simp only [setRow, List.map_map]
          refine List.map_congr_left fun r hr => ?_
          exact (hsame r hr).1
        rw [this]
        exact hi.nodup
      · intro r hr
        obtain ⟨r1, h1, rfl⟩ := List.mem_map.mp hr
        split
        · exact hi.heap o hmem
        · exact hi.rows r1 h1
      · intro x hx hn
        obtain ⟨r, h1, h2⟩ := hi.saved x hx hn
        obtain ⟨r', k1, k2⟩ := hk.rows r h1
        exact ⟨r', k1, k2.symm.trans h2⟩

/-- Attributes of an object may be changed, but not the fixed ones. -/
theorem safe_setObj {w : World} {ref : Nat} {row : Row} (hi : RowsI a w)
    (h : ∀ o, w.heap[ref]? = some o → o.row.Same row ∧ RowI a row) : SafeCmd (RowsI a) RowsK (.setObj ref row) w := by
  intro t o ht
  have hi := (rowsRelies (a := a)).envI t o ht hi
  have hk0 : RowsK w (w.env t o) := .of_eq ht rfl rfl
  simp only [execAt]
  split
  · exact ⟨hi, hk0⟩
  · rename_i x hx
    have hlt := (List.getElem?_eq_some_iff.mp hx).1
    have hxm : x ∈ w.heap := List.mem_of_getElem? hx
    obtain ⟨h1, h2⟩ := h x hx
    have hk : RowsK (w.env t o) { w.env t o with heap := w.heap.set ref { x with row } } := by
      refine ⟨Int.le_refl _, fun ref' o' ho' => ?_, fun r hr => ⟨r, hr, .refl _⟩⟩
      by_cases e : ref = ref'
      · subst e
        rw [hx] at ho'
        simp only [Option.some.injEq] at ho'
        subst ho'
        exact ⟨{ x with row }, by simp [hlt], h1, id⟩
      · exact ⟨o', by simp [e, ho'], .refl _, id⟩
    refine ⟨hi.next hk hi.nodup hi.rows ?_ ?_ (fun _ _ _ _ b hm => .inl ⟨b, hm⟩) (fun _ hc => .inl hc) (fun _ hm => .inl hm), .trans hk0 hk⟩
    · intro y hy
      rcases List.mem_or_eq_of_mem_set hy with hy | rfl
      · exact hi.heap y hy
      · exact h2
    · intro y hy hn
      rcases List.mem_or_eq_of_mem_set hy with hy | rfl
      · exact hi.saved y hy hn
      · obtain ⟨r, k1, k2⟩ := hi.saved x hxm hn
        exact ⟨r, k1, k2.trans h1⟩

theorem safe_newObj {row : Row} (h : RowI a row) : Tame a (.newObj row) := by
  refine tame_env fun w hi => ?_
  have hk : RowsK w { w with heap := w.heap ++ [⟨row, true⟩] } :=
    ⟨Int.le_refl _, fun ref o ho => ⟨o, by
      rw [List.getElem?_append_left (List.getElem?_eq_some_iff.mp ho).1]; exact ho, .refl _, id⟩, fun r hr => ⟨r, hr, .refl _⟩⟩
  refine ⟨hi.next hk hi.nodup hi.rows ?_ ?_ (fun _ _ _ _ b hm => .inl ⟨b, hm⟩) (fun _ hc => .inl hc) (fun _ hm => .inl hm), hk⟩
  · intro o ho
    rcases List.mem_append.mp ho with ho | ho
    · exact hi.heap o ho
    · simp only [List.mem_cons, List.not_mem_nil, or_false] at ho
      subst ho
      exact h
  · intro o ho hn
    rcases List.mem_append.mp ho with ho | ho
    · exact hi.saved o ho hn
    · simp only [List.mem_cons, List.not_mem_nil, or_false] at ho
      subst ho
      cases hn

/-- Scheduling: activation only at or after the start time. -/
theorem safe_sched {w : World} {cid : Str} {t : Time} {act : Act} {ref : Nat} (hi : RowsI a w)
    (h : ∃ o, w.heap[ref]? = some o ∧ o.isNew = false ∧ (act = .activate → MayUp a t o.row)) : SafeCmd (RowsI a) RowsK (.sched cid t act ref) w := by
  intro u o hu
  have hi' := (rowsRelies (a := a)).envI u o hu hi
  have hk0 : RowsK w (w.env u o) := .of_eq hu rfl rfl
  have hset : RowsI a { w.env u o with tbl := dset w.tbl cid ⟨max t u, act, ref, false⟩ } := by
    refine hi'.keep (Int.le_refl _) rfl rfl ?_ (fun _ hc => .inl hc) (fun _ hm => .inl hm)
    intro k due act' ref' b hm
    rcases mem_dset_of hm with hm | hm
    · simp only [Prod.mk.injEq, Timer.mk.injEq] at hm
      obtain ⟨rfl, rfl, rfl, rfl, rfl⟩ := hm
      obtain ⟨x, h1, h2, h3⟩ := h
      exact .inr ⟨x, h1, h2, fun e => (h3 e).same (.refl _) (by omega)⟩
    · exact .inl ⟨b, hm⟩
  simp only [execAt]
  split
  · exact ⟨hi', hk0⟩
  · split
    · exact ⟨hi', hk0⟩
    · exact ⟨hset, .of_eq hu rfl rfl⟩

theorem safe_setup {w : World} {cid : Str} (hi : RowsI a w) (h : ∃ r ∈ w.rows, r.cid = cid ∧ MayUp a w.clk r) :
    SafeCmd (RowsI a) RowsK (.setup cid) w := by
  intro t o ht
  have hi' := (rowsRelies (a := a)).envI t o ht hi
  have hk0 : RowsK w (w.env t o) := .of_eq ht rfl rfl
  obtain ⟨o', hd⟩ := dev_eq (w.env t o)
  have hup : RowsI a { w.env t o' with links := cid :: w.links } := by
    refine RowsI.keep (w := w.env t o') (rowsRelies.envI t o' ht hi) (Int.le_refl _) rfl rfl (fun _ _ _ _ b hm => .inl ⟨b, hm⟩) ?_ (fun _ hm => .inl hm)
    intro c hc
    rcases List.mem_cons.mp hc with rfl | hc
    · obtain ⟨r, h1, h2, h3⟩ := h
      exact .inr ⟨r, h1, h2, h3.same (.refl _) ht⟩
    · exact .inl hc
  simp only [execAt]
  revert hd
  generalize (w.env t o).dev = d
  obtain ⟨d, w'⟩ := d
  rintro rfl
  cases d with
  | ok => exact ⟨hup, .of_eq ht rfl rfl⟩
  | failed b =>
    cases b
    · exact ⟨rowsRelies.envI (w := w) t o' ht hi, .of_eq ht rfl rfl⟩
    · exact ⟨hup, .of_eq ht rfl rfl⟩

theorem outbox_ok {w : World} {m : Msg} (hi : RowsI a w) (h : ∃ r ∈ w.rows, MsgI a r m) :
    RowsI a { w with outbox := w.outbox ++ [m] } := by
  refine hi.keep (Int.le_refl _) rfl rfl (fun _ _ _ _ b hm => .inl ⟨b, hm⟩) (fun _ hc => .inl hc) ?_
  intro x hx
  rcases List.mem_append.mp hx with hx | hx
  · exact .inl hx
  · simp only [List.mem_cons, List.not_mem_nil, or_false] at hx
    subst hx
    exact .inr h

theorem safe_tell {w : World} {m : Msg} (hi : RowsI a w) (h : ∃ r ∈ w.rows, MsgI a r m) : SafeCmd (RowsI a) RowsK (.tell m) w := by
  intro t o ht
  exact ⟨outbox_ok (rowsRelies.envI t o ht hi) h, .of_eq ht rfl rfl⟩

theorem safe_call {w : World} {m : Msg} (hi : RowsI a w) (h : ∃ r ∈ w.rows, MsgI a r m) : SafeCmd (RowsI a) RowsK (.call m) w := by
  intro t o ht
  simp only [execAt]
  split
  · exact ⟨outbox_ok (rowsRelies.envI t o ht hi) h, .of_eq ht rfl rfl⟩
  · exact ⟨(rowsRelies (a := a)).envI t _ (Int.le_refl _) (outbox_ok (rowsRelies.envI t o ht hi) h), .of_eq ht rfl rfl⟩

end OpenNSA.Backend
