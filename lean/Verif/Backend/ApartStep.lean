import Verif.Backend.ApartPhase
/-
Interleaved execution, at most one operation at a time per connection: every step keeps the phases.
-/
namespace OpenNSA.Backend
open OpenNSA Py Prog

/-- The operation is over: the connection does not exist; or a reservation; or the operation did what it should. -/
def Outcome (T : Bool) (cfg : Cfg) (P : Str → Option (Row × Option Timer) → Prop) (c c' : Conc) (tc' : List (Str × Resv)) (k : Job) : Prop :=
  (k.kind.call = false ∧ c'.w.row? k.cid = none ∧ ∀ d ∈ c'.done, d ∈ c.done ∨ ∃ e, d.2 = .error e) ∨ k.kind = .reserve ∨
  ∃ (x : Ctx) (s : S), x.cid = k.cid ∧ x.kind = k.kind ∧ x.began = k.began ∧ View x c'.w tc' s ∧ Rested T cfg x s ∧ x.s0.row.cid = k.cid ∧
    (k.kind ≠ .reserve → ∃ tm, P k.cid (some (x.s0.row, tm))) ∧ (∃ a, Effect x s a) ∧ ∀ d ∈ c'.done, d ∈ c.done ∨ Effect x s d.2

/-- What a step leads to. -/
def Steps (T : Bool) (cfg : Cfg) (P : Str → Option (Row × Option Timer) → Prop) (L' : Nat → Job) (j : Option Job) (c c' : Conc) : Prop :=
  ∃ tc', Apart T cfg P L' c' tc' ∧ ∀ k, j = some k → c'.Idle L' k.cid → Outcome T cfg P c c' tc' k

section
variable {T : Bool} {cfg : Cfg} {P : Str → Option (Row × Option Timer) → Prop} {L L' : Nat → Job} {c : Conc} {tc : List (Str × Resv)}

theorem other (b : Str) : b ≠ 'x' :: b := fun h => by
  have := congrArg List.length h
  simp at this

theorem AtRest.tick {b : Str} {w : World} {t : Time} {o : Oracle} (h : AtRest T cfg b w tc) (ht : w.clk ≤ t) : AtRest T cfg b (w.at t o) tc :=
  h.others (Others.tick _ w tc o ht) (other b)

theorem Absent.tick {b : Str} {w : World} {t : Time} {o : Oracle} (h : Absent b w) (ht : w.clk ≤ t) : Absent b (w.at t o) :=
  h.others (Others.tick _ w [] o ht) (other b)

/-- Time passes. -/
theorem Apart.tick (h : Apart T cfg P L c tc) {t : Time} {o : Oracle} (ht : c.w.clk ≤ t) : Apart T cfg P L { c with w := c.w.at t o } tc where
  nd := h.nd
  cal := h.cal
  owned := h.owned
  ids := h.ids
  ph b := (h.ph b).others (Others.tick _ c.w tc o ht) (other b) h.cal fun _ _ => rfl

/-- New labels for tasks to come. -/
theorem Apart.relabel (h : Apart T cfg P L c tc) (hl : ∀ t ∈ c.tasks, L' t.id = L t.id) : Apart T cfg P L' c tc where
  nd := h.nd
  cal := h.cal
  owned t ht o ho := by
    have := h.owned t ht o ho
    unfold tags at this ⊢
    rw [hl t ht]; exact this
  ids := h.ids
  ph b := by
    rw [tasksOf_congr hl]
    exact (h.ph b).others (Others.refl ('x' :: b) c.w tc) (other b) h.cal fun t ht => hl t (mem_tasksOf.mp ht).1

theorem rejob_old {j : Option Job} {n : Nat} (h : n < c.next) : c.rejob L j n = L n := by simp [Conc.rejob, h]

theorem rejob_new {k : Job} {n : Nat} (h : c.next ≤ n) : c.rejob L (some k) n = k := by simp [Conc.rejob, Nat.not_lt.mpr h]

/-- After an operation ran. `c0`: before; `c`: when it started to run, its task taken away. -/
theorem steps_after {c0 c c' : Conc} {tc0 tc tc' : List (Str × Resv)} {k : Job} {x : Ctx} {s' : S} {id : Nat} {ow : Option Str} {mates new : List Task}
    {K : Str → OpKind → Prop} (hst : LastsOn K P) (hK : K k.cid k.kind) (hs : Apart T cfg P L c0 tc0) (hL : ∀ n, n < c0.next → L' n = L n) (hL' : ∀ n, n = id ∨ c0.next ≤ n → L' n = k)
    (ho : Others x.cid c0.w tc0 c.w tc) (hoth : ∀ b, b ≠ k.cid → tasksOf (tags L) b c.tasks = tasksOf (tags L) b c0.tasks)
    (hsub : ∀ t ∈ c.tasks, t ∈ c0.tasks) (hm : tasksOf (tags L) k.cid c.tasks = mates)
    (hml : ∀ t ∈ mates, (L t.id).kind = x.kind ∧ (L t.id).began = x.began) (hnext : c0.next ≤ c.next) (hid : id < c.next) (hdone : c.done = c0.done)
    (how : ow = none ∨ ow = some k.cid) (h : After x (Ends T cfg x) id ow mates c tc c' tc' s' new) (hxc : x.cid = k.cid) (hxk : x.kind = k.kind)
    (hxb : x.began = k.began) (hx0 : x.s0.row.cid = k.cid) (hP1 : x.kind = .reserve → ∀ r, P x.cid (some r)) (hP2 : x.kind ≠ .reserve → ∃ tm, P x.cid (some (x.s0.row, tm)) ∧ (x.kind.call = false → tm = x.s0.tm))
    (hf : Fine T L' (some k) c') : Steps T cfg P L' (some k) c0 c' := by
  have hlold : ∀ t ∈ c0.tasks, L' t.id = L t.id := fun t ht => hL _ (hs.ids t ht)
  have hlab : ∀ t ∈ new, L' t.id = k := by
    intro t ht
    refine hL' _ ?_
    rcases (h.ids t ht).1 with e | e
    · exact Or.inl e
    · exact Or.inr (Nat.le_trans hnext e.1)
  have hmine : ∀ b, tasksOf (tags L') b c'.tasks = tasksOf (tags L) b c.tasks ++ if k.cid = b then new else [] := by
    intro b
    rw [h.tasks, tasksOf_append, tasksOf_congr fun t ht => hlold t (hsub t ht)]
    congr 1
    unfold tasksOf
    split
    · rename_i e
      rw [List.filter_eq_self]
      intro t ht
      simp only [tags, hlab t ht, e, decide_true]
    · rename_i e
      rw [List.filter_eq_nil_iff]
      intro t ht
      simp only [tags, hlab t ht, e, decide_false, Bool.false_eq_true, not_false_eq_true]
  have hmk : tasksOf (tags L') k.cid c'.tasks = mates ++ new := by rw [hmine, if_pos rfl, hm]
  have hown : Owned (tags L') c'.tasks := by
    intro t ht o hto
    rw [h.tasks] at ht
    rcases List.mem_append.mp ht with ht | ht
    · have := hs.owned t (hsub t ht) o hto
      unfold tags at this ⊢
      rw [hlold t (hsub t ht)]; exact this
    · unfold tags
      simp only [hlab t ht]
      rcases (h.ids t ht).2 with e | e
      · rw [e] at hto; cases hto
      · rw [e] at hto
        rcases how with e' | e'
        · rw [e'] at hto; cases hto
        · rw [e'] at hto; exact Option.some.inj hto
  have hids : ∀ t ∈ c'.tasks, t.id < c'.next := by
    intro t ht
    rw [h.tasks] at ht
    rcases List.mem_append.mp ht with ht | ht
    · exact Nat.lt_of_lt_of_le (hs.ids t (hsub t ht)) (Nat.le_trans hnext h.next)
    · rcases (h.ids t ht).1 with e | e
      · rw [e]; exact Nat.lt_of_lt_of_le hid h.next
      · exact e.2
  have hoth' : ∀ b, b ≠ k.cid → tasksOf (tags L') b c'.tasks = tasksOf (tags L) b c0.tasks := by
    intro b hb
    rw [hmine, if_neg (Ne.symm hb), List.append_nil, hoth b hb]
  have hO : Others x.cid c0.w tc0 c'.w tc' := ho.trans h.others
  -- answers
  have htaken : ∀ d ∈ c'.done, d ∈ c0.done ∨ (x.kind = .terminate → d.2 ≠ .error .parent) := by
    intro d hd
    rcases h.done d hd with e | e
    · rw [hdone] at e; exact Or.inl e
    · refine Or.inr fun hk he => ?_
      obtain ⟨n, a⟩ := d
      simp only at he e
      subst he
      have := hf.taken n hd
      rw [hL' n (e.imp _root_.id fun e => Nat.le_trans hnext e), ← hxk] at this
      exact this hk
  have fin : mates ++ new = [] → (∃ a, (id, a) ∈ c'.done ∧ Ends T cfg x s' a) → Rested T cfg x s' ∧ AtRest T cfg x.cid c'.w tc' ∧ P x.cid (c'.w.seen x.cid) ∧ ∃ a, Effect x s' a := by
    rintro hnil ⟨a, ha, hE⟩
    have hr : Rested T cfg x s' ∧ Effect x s' a := by
      refine hE fun hk he => ?_
      subst he
      have := hf.taken id ha
      rw [hL' id (Or.inl rfl), ← hxk] at this
      exact this hk
    obtain ⟨hr, hef⟩ := hr
    refine ⟨hr, rested h.view hr fun hT hl => ?_, ?_, a, hef⟩
    · rw [hxk, hxb]
      refine hf.ontime hT k rfl (idle_iff.mpr (by rw [hmk, hnil])) _ ?_ hl
      rw [← hxc]; exact h.view.row
    · rw [World.seen_some h.view.row]
      by_cases hk : x.kind = .reserve
      · exact hP1 hk _
      · obtain ⟨tm, h1, h2⟩ := hP2 hk
        rw [h.view.tm]
        refine hst.ev x s' tm a (by rw [hxc, hxk]; exact hK) hk ⟨_, hr.row⟩ (hr.ev hk) (fun a b => ?_) hef h1
        obtain ⟨h3, h4⟩ := hr.held hk a b
        rw [h3, h2 h4]
  refine ⟨tc', hs.join hO h.view.all (cid := x.cid) (by rw [hxc]; exact hoth') hlold hown hids ?_, ?_⟩
  · rw [hxc, hmk, ← hxc]
    rcases h.ends with ⟨hnil, ha⟩ | hg
    · rw [hnil]
      exact .rest (fin hnil ha).2.1 (fin hnil ha).2.2.1
    · refine .go h.view hg rfl (hx0.trans hxc.symm) hP1 hP2 ?_
      intro t ht
      rcases List.mem_append.mp ht with ht | ht
      · have : t ∈ c0.tasks := hsub t (mem_tasksOf.mp (hm ▸ ht)).1
        rw [hlold t this]
        exact hml t ht
      · rw [hlab t ht]
        exact ⟨hxk.symm, hxb.symm⟩
  · intro k' hk' hidle
    cases hk'
    rw [idle_iff, hmk] at hidle
    refine Or.inr (Or.inr ⟨x, s', hxc, hxk, hxb, h.view, ?_, hx0, fun hk => ?_, ?_, ?_⟩)
    · rcases h.ends with ⟨hnil, ha⟩ | hg
      · exact (fin hnil ha).1
      · rw [hidle] at hg; cases hg
    · obtain ⟨tm, h1, _⟩ := hP2 (by rw [hxk]; exact hk)
      exact ⟨tm, by rw [← hxc]; exact h1⟩
    · rcases h.ends with ⟨hnil, ha⟩ | hg
      · exact (fin hnil ha).2.2.2
      · rw [hidle] at hg; cases hg
    · intro d hd
      rcases h.said hidle d hd with e | e
      · rw [hdone] at e; exact Or.inl e
      · rcases htaken d hd with e' | e'
        · exact Or.inl e'
        · exact Or.inr (e e').2

/-! ### Bookkeeping -/

theorem single_split {u v : List Task} {t t' : Task} (h : u ++ t :: v = [t']) : u = [] ∧ v = [] ∧ t' = t := by
  cases u with
  | nil => simp at h; exact ⟨rfl, h.2, h.1.symm⟩
  | cons a u => simp at h

/-- The tasks of the connection, the given one taken out. -/
theorem split_of {n : Nat} {t : Task} {ts : List Task} (ht : takeTask n c.tasks = some (t, ts)) :
    ∃ u v, tasksOf (tags L) (L n).cid c.tasks = u ++ t :: v ∧ tasksOf (tags L) (L n).cid ts = u ++ v ∧
      (∀ b, b ≠ (L n).cid → tasksOf (tags L) b ts = tasksOf (tags L) b c.tasks) ∧ (∀ y ∈ ts, y ∈ c.tasks) ∧ t ∈ c.tasks ∧ t.id = n := by
  obtain ⟨a, b, e1, e2, e3⟩ := takeTask_split ht
  refine ⟨tasksOf (tags L) (L n).cid a, tasksOf (tags L) (L n).cid b, ?_, ?_, ?_, ?_, by rw [e1]; simp, e3⟩
  · rw [e1, tasksOf_append, tasksOf_cons, if_pos (by simp only [tags, e3])]; rfl
  · rw [e2, tasksOf_append]
  · intro d hd
    rw [e1, e2, tasksOf_append, tasksOf_append, tasksOf_cons, if_neg (by simp only [tags, e3]; exact Ne.symm hd)]; rfl
  · intro y hy
    rw [e2] at hy
    rw [e1]
    simp only [List.mem_append, List.mem_cons] at hy ⊢
    exact hy.imp _root_.id Or.inr

/-- The tasks of other connections are not the connection's scheduled call. -/
theorem unowned_of {cid : Str} {ts : List Task} (ho : Owned (tags L) ts) (hn : ∀ t ∈ ts, (L t.id).cid = cid → t.owner ≠ some cid) : Unowned cid ts := by
  intro t ht hto
  exact hn t ht (ho t ht cid hto) hto

/-! ### Looking up -/

/-- An operation found its connection. -/
theorem found_view {cid : Str} {w : World} {r : Row} {kind : OpKind} {began : Time} (hr : AtRest T cfg cid w tc) (hc : w.cal.Perm (tc.map (·.2)))
    (hrow : w.row? cid = some r) (hb : began ≤ w.clk) :
    View ⟨cid, w.heap.length, kind, began, ⟨r, r, own cid tc, dget w.tbl cid, decide (cid ∈ w.links), [], w.clk⟩, w.outbox⟩ { w with heap := w.heap ++ [⟨r, false⟩] } tc
      ⟨r, r, own cid tc, dget w.tbl cid, decide (cid ∈ w.links), [], w.clk⟩ ∧
    StartAt T cfg ⟨cid, w.heap.length, kind, began, ⟨r, r, own cid tc, dget w.tbl cid, decide (cid ∈ w.links), [], w.clk⟩, w.outbox⟩
      ⟨r, r, own cid tc, dget w.tbl cid, decide (cid ∈ w.links), [], w.clk⟩ := by
  obtain ⟨h1, h2, h3, h4⟩ := hr.here r hrow
  have hcid := row?_cid hrow
  have htm : ∀ tm, dget w.tbl cid = some tm → tm.called = false → TimerOk r tm ∧ tm.ref ≠ w.heap.length ∧ w.heap[tm.ref]? = some ⟨r, false⟩ := by
    intro tm e hn
    obtain ⟨k1, k2⟩ := h1.timer tm (by rw [hcid]; exact e) hn
    refine ⟨k1, ?_, k2⟩
    intro e
    rw [e] at k2
    simp at k2
  refine ⟨?_, ?_⟩
  · exact
      { row := hrow
        ocid := hcid
        obj := by simp
        old := fun tm e hn => ⟨(htm tm e hn).2.1, by
          have := (htm tm e hn).2.2
          rw [List.getElem?_append_left]
          · exact this
          · rw [List.getElem?_eq_some_iff] at this; exact this.1⟩
        cal := rfl
        all := hc
        tm := rfl
        up := rfl
        out := fun m hm => by simpa using hm
        conf := fun h => by simpa using h
        clk := Int.le_refl _ }
  · exact
      { start :=
          { row := rfl
            obj := rfl
            out := rfl
            ok := h1.row
            timer := fun tm e hn => ⟨(htm tm e hn).1, (htm tm e hn).2.1⟩
            link := by have := h1.link; rw [hcid] at this; exact this
            cal := by rw [List.append_nil]; exact h3
            ghost := fun hg => absurd (h2.ended hg.1) (by rw [hg.2]; decide)
            nc := fun _ => ncVoid _ _ }
        ok := h2
        exp := fun _ => by have := h1.exp rfl; rw [hcid] at this; exact this
        due := fun hT _ => h4 hT
        cid := hcid
        s0 := rfl
        began := hb }

/-- A scheduled call begins. -/
theorem fire_view {cid : Str} {w : World} {r : Row} {due : Time} {act : Act} {ref : Nat} {kind : OpKind} (hr : AtRest T cfg cid w tc) (hc : w.cal.Perm (tc.map (·.2)))
    (hrow : w.row? cid = some r) (hk : kind.call = true) (ht : dget w.tbl cid = some ⟨due, act, ref, false⟩) :
    View ⟨cid, ref, kind, w.clk, ⟨r, r, own cid tc, some ⟨due, act, ref, true⟩, decide (cid ∈ w.links), [], w.clk⟩, w.outbox⟩ { w with tbl := dset w.tbl cid ⟨due, act, ref, true⟩ } tc
      ⟨r, r, own cid tc, some ⟨due, act, ref, true⟩, decide (cid ∈ w.links), [], w.clk⟩ ∧
    StartAt T cfg ⟨cid, ref, kind, w.clk, ⟨r, r, own cid tc, some ⟨due, act, ref, true⟩, decide (cid ∈ w.links), [], w.clk⟩, w.outbox⟩
      ⟨r, r, own cid tc, some ⟨due, act, ref, true⟩, decide (cid ∈ w.links), [], w.clk⟩ ∧ TimerOk r ⟨due, act, ref, false⟩ := by
  obtain ⟨h1, h2, h3, h4⟩ := hr.here r hrow
  have hcid := row?_cid hrow
  obtain ⟨k1, k2⟩ := h1.timer ⟨due, act, ref, false⟩ (by rw [hcid]; exact ht) rfl
  have hno : ∀ tm : Timer, some ⟨due, act, ref, true⟩ = some tm → tm.called = false → False := by
    intro tm e hn
    cases e
    cases hn
  refine ⟨?_, ?_, k1⟩
  · exact
      { row := hrow
        ocid := hcid
        obj := k2
        old := fun tm e hn => (hno tm e hn).elim
        cal := rfl
        all := hc
        tm := by simp [dget_dset]
        up := rfl
        out := fun m hm => by simpa using hm
        conf := fun h => by simpa using h
        clk := Int.le_refl _ }
  · exact
      { start :=
          { row := rfl
            obj := rfl
            out := rfl
            ok := h1.row
            timer := fun tm e hn => (hno tm e hn).elim
            link := by have := h1.link; rw [hcid] at this; exact this
            cal := by rw [List.append_nil]; exact h3
            ghost := fun hg => absurd (h2.ended hg.1) (by rw [hg.2]; decide)
            nc := fun _ => ncVoid _ _ }
        ok := h2
        exp := fun h => by rw [hk] at h; cases h
        due := fun _ h => by rw [hk] at h; cases h
        cid := hcid
        s0 := rfl
        began := Int.le_refl _ }

/-! ### The steps -/

/-- A task waits no more: it stays the connection's. -/
theorem not_idle {k : Job} {c' : Conc} {t : Task} (ht : t ∈ c'.tasks) (hl : (L' t.id).cid = k.cid) : ¬ c'.Idle L' k.cid := fun h => h t ht hl

theorem apart_perform {K : Str → OpKind → Prop} {α β : Type} {n : Nat} {ow : Option Str} {y : Cmd β} {id' : Nat}
    {k : Except Err β → Prog α} {fin : Except Err α → Except Err (Option Str)} {ts : List Task} (hst : LastsOn K P) (hs : Apart T cfg P L c tc)
    (ht : takeTask n c.tasks = some (⟨id', ow, .waiting y k fin⟩, ts))
    (hf : ∀ r ∈ (exec c.w y).1.rows, r.start = none → ∀ e, r.end_ = some e → r.reserveTime ≤ e) :
    ∃ tc', Apart T cfg P L { c with w := (exec c.w y).1, tasks := ts ++ [⟨n, ow, .performed k (exec c.w y).2 fin⟩] } tc' := by
  obtain ⟨u, v, e1, e2, e3, e4, e5, e6⟩ := split_of (L := L) ht
  simp only at e6
  subst e6
  have hlen : id' < c.next := hs.ids _ e5
  have howned : Owned (tags L) (ts ++ [⟨id', ow, .performed k (exec c.w y).2 fin⟩]) := by
    intro t ht o hto
    rcases List.mem_append.mp ht with ht | ht
    · exact hs.owned t (e4 t ht) o hto
    · simp only [List.mem_cons, List.not_mem_nil, or_false] at ht
      subst ht
      exact hs.owned _ e5 o hto
  have hids : ∀ t ∈ ts ++ [⟨id', ow, .performed k (exec c.w y).2 fin⟩], t.id < c.next := by
    intro t ht
    rcases List.mem_append.mp ht with ht | ht
    · exact hs.ids t (e4 t ht)
    · simp only [List.mem_cons, List.not_mem_nil, or_false] at ht
      subst ht
      exact hlen
  have hoth : ∀ b, b ≠ (L id').cid → tasksOf (tags L) b (ts ++ [⟨id', ow, .performed k (exec c.w y).2 fin⟩]) = tasksOf (tags L) b c.tasks := by
    intro b hb
    rw [tasksOf_append, e3 b hb, tasksOf_cons, if_neg (by simp only [tags]; exact Ne.symm hb)]
    simp [tasksOf]
  have hmine : tasksOf (tags L) (L id').cid (ts ++ [⟨id', ow, .performed k (exec c.w y).2 fin⟩]) = u ++ v ++ [⟨id', ow, .performed k (exec c.w y).2 fin⟩] := by
    rw [tasksOf_append, e2, tasksOf_cons, if_pos (by simp only [tags])]
    simp [tasksOf]
  have join : ∀ {tc'}, Others (L id').cid c.w tc (exec c.w y).1 tc' → (exec c.w y).1.cal.Perm (tc'.map (·.2)) →
      Ph T cfg P L (L id').cid (exec c.w y).1 tc' (u ++ v ++ [⟨id', ow, .performed k (exec c.w y).2 fin⟩]) →
      ∃ tc', Apart T cfg P L { c with w := (exec c.w y).1, tasks := ts ++ [⟨id', ow, .performed k (exec c.w y).2 fin⟩] } tc' := by
    intro tc' h1 h2 h3
    exact ⟨tc', hs.join (c' := { c with w := (exec c.w y).1, tasks := ts ++ [⟨id', ow, .performed k (exec c.w y).2 fin⟩] }) h1 h2 hoth (fun _ _ => rfl) howned hids (by rw [hmine]; exact h3)⟩
  have hph := hs.ph (L id').cid
  rw [e1] at hph
  generalize hl : u ++ (⟨id', ow, .waiting y k fin⟩ : Task) :: v = l at hph
  obtain ⟨t, o, ht0, he⟩ := advance_eq c.w
  cases hph with
  | rest h1 h2 => simp at hl
  | look h1 h2 h3 h4 hc h5 =>
    obtain ⟨rfl, rfl, rfl⟩ := single_split hl
    cases y with
    | find b =>
      obtain ⟨rfl, h6, h7⟩ := h5
      have hrest := h1.tick (o := o) ht0
      cases hrow : c.w.row? (L id').cid with
      | none =>
        have hx : exec c.w (.find (L id').cid) = (c.w.at t o, .ok none) := by
          unfold exec; rw [he]; simp only [execAt]; rw [show List.find? _ _ = none from hrow]
        rw [hx] at join ⊢
        refine join (Others.tick _ c.w tc o ht0) hs.cal (.missed (hrest.away hrow).1 (hrest.away hrow).2 (by rw [← World.seen_none hrow]; exact h2) h3 hc h6)
      | some r =>
        have hx : exec c.w (.find (L id').cid) = ({ c.w.at t o with heap := c.w.heap ++ [⟨r, false⟩] }, .ok (some c.w.heap.length)) := by
          unfold exec; rw [he]; simp only [execAt]; rw [show List.find? _ _ = some r from hrow]
        rw [hx] at join ⊢
        obtain ⟨v1, v2⟩ := found_view (kind := (L id').kind) (began := (L id').began) hrest hs.cal hrow (Int.le_trans h4.2 ht0)
        have hne : (L id').kind ≠ .reserve := h4.1
        refine join (tc' := tc) ?_ hs.cal (.go v1 (.one ?_) rfl (row?_cid hrow) (fun e => absurd e hne) (fun _ => ⟨_, by rw [World.seen_some hrow] at h2; exact h2, fun _ => rfl⟩) ?_)
        · exact { Others.tick _ c.w tc o ht0 with
            heap := fun i ob hi _ => by
              have := (List.getElem?_eq_some_iff.mp hi).1
              simp only [List.getElem?_append_left this]; exact hi
            len := by simp }
        · have := h7 _ _ rfl rfl rfl v2
          simp only at h3
          subst h3
          exact this
        · intro t ht
          simp only [List.nil_append, List.mem_cons, List.not_mem_nil, or_false] at ht
          subst ht
          exact ⟨rfl, rfl⟩
    | _ => exact h5.elim
  | missed h1 h2 h3 h4 hc h5 =>
    obtain ⟨rfl, rfl, rfl⟩ := single_split hl
    exact h5.elim
  | ask h1 h2 h3 h4 h5 h6 h7 =>
    obtain ⟨rfl, rfl, rfl⟩ := single_split hl
    cases y with
    | find b =>
      obtain ⟨rfl, h8⟩ := h7
      have hx : exec c.w (.find (L id').cid) = (c.w.at t o, .ok none) := by
        unfold exec; rw [he]; simp only [execAt]; rw [show List.find? _ _ = none from h1.row]
      rw [hx] at join ⊢
      exact join (Others.tick _ c.w tc o ht0) hs.cal (.ask (h1.tick ht0) h2 h3 h4 h5 h6 h8)
    | _ => exact h7.elim
  | @make _ row ref h1 h2 h3 h4 h5 h6 h7 h8 h9 h10 =>
    obtain ⟨rfl, rfl, rfl⟩ := single_split hl
    cases y with
    | save r =>
      obtain ⟨rfl, h11⟩ := h10
      have hfree : (c.w.at t o).idTaken row.cid = false := by
        have := h1.row
        simp only [World.idTaken, Bool.or_eq_false_iff, decide_eq_false_iff_not, h8]
        refine ⟨?_, h4⟩
        rw [World.row?, List.find?_eq_none] at this
        rw [List.any_eq_false]
        exact this
      have hx : exec c.w (.save r) = ({ c.w.at t o with rows := c.w.rows ++ [row], heap := c.w.heap.set r ⟨row, false⟩ }, .ok ()) := by
        unfold exec; rw [he]; simp only [execAt, h9, if_true, hfree, Bool.false_eq_true, if_false]
      rw [hx] at join hf ⊢
      have hr : r < c.w.heap.length := (List.getElem?_eq_some_iff.mp h9).1
      have hrow : ∀ b, ({ c.w.at t o with rows := c.w.rows ++ [row], heap := c.w.heap.set r ⟨row, false⟩ } : World).row? b = (c.w.row? b).or (if row.cid = b then some row else none) :=
        fun b => row?_append c.w row b
      have hall : ∀ tm, dget c.w.tbl (L id').cid = some tm → tm.called = true := h1.tm
      refine join (tc' := tc) ?_ hs.cal (.go (x := ⟨(L id').cid, r, .reserve, (L id').began, ⟨row, row, [srcResv cfg row, dstResv cfg row], dget c.w.tbl (L id').cid, false, [], t⟩, c.w.outbox⟩)
        (s := ⟨row, row, [srcResv cfg row, dstResv cfg row], dget c.w.tbl (L id').cid, false, [], t⟩) ?_ (.one ?_) rfl h8 (fun _ r => hst.new _ r h3) (fun h => absurd rfl h) ?_)
      · exact { Others.tick _ c.w tc o ht0 with
          row := fun b hb => by rw [hrow, h8, if_neg (Ne.symm hb)]; simp
          heap := fun i ob hi hne => by
            have : i ≠ r := by
              rintro rfl
              rw [h9] at hi
              cases hi
              exact hne h8
            simp only [List.getElem?_set_ne (Ne.symm this)]; exact hi
          len := by simp
          nd := fun h => by
            simp only [List.map_append, List.map_cons, List.map_nil]
            rw [List.nodup_append]
            refine ⟨h, by simp, ?_⟩
            intro a ha b hb
            simp only [List.mem_cons, List.not_mem_nil, or_false] at hb
            subst hb
            rintro rfl
            obtain ⟨q, hq, hq'⟩ := List.mem_map.mp ha
            have := h1.row
            rw [World.row?, List.find?_eq_none] at this
            exact this q hq (by simp [hq', h8]) }
      · exact
          { row := by rw [hrow, h1.row, h8]; simp
            ocid := h8
            obj := by simp [hr]
            old := fun tm e hn => by rw [hall tm e] at hn; cases hn
            cal := h2
            all := hs.cal
            tm := rfl
            up := by simp [h1.link]
            out := fun m hm => by simpa using hm
            conf := fun h => by simpa using h
            clk := Int.le_refl _ }
      · have := h11 ⟨(L id').cid, r, .reserve, (L id').began, ⟨row, row, [srcResv cfg row, dstResv cfg row], dget c.w.tbl (L id').cid, false, [], t⟩, c.w.outbox⟩
          ⟨row, row, [srcResv cfg row, dstResv cfg row], dget c.w.tbl (L id').cid, false, [], t⟩ rfl rfl
          { new := { h7 with made := Int.le_trans h7.made ht0 }
            timely := hf row (by simp)
            cid := h8
            obj := rfl
            cal := rfl
            tm := hall
            up := rfl
            out := rfl
            conf := h1.conf
            kind := rfl }
        simp only at h5
        subst h5
        exact this
      · intro t ht
        simp only [List.nil_append, List.mem_cons, List.not_mem_nil, or_false] at ht
        subst ht
        exact ⟨h6, rfl⟩
    | _ => exact h10.elim
  | go h1 h2 h3 h4 h5 h6 h7 =>
    subst hl
    obtain ⟨s', tc', v1, o1, g1⟩ := going_perform h1 h2
    rw [h3] at o1
    refine join o1 v1.all (.go v1 g1 h3 h4 h5 h6 ?_)
    intro t ht
    simp only [List.mem_append, List.mem_cons, List.not_mem_nil, or_false] at ht
    rcases ht with (ht | ht) | ht
    · exact h7 t (by simp [ht])
    · exact h7 t (by simp [ht])
    · subst ht
      exact h7 ⟨id', ow, .waiting y k fin⟩ (by simp)

/-- The connection of a reservation that was refused does not exist. -/
theorem absent_rest {cid : Str} {w : World} (h : Absent cid w) (ho : own cid tc = []) : AtRest T cfg cid w tc where
  here r hr := by rw [h.row] at hr; cases hr
  away _ := ⟨h, ho⟩

/-- A reservation request after the check of the id. `c0`: before; `c`: when it runs, its task taken away. -/
theorem apart_body {c0 c c' : Conc} {k : Job} {n : Nat} {corr : Str} (hs : Apart T cfg P L c0 tc) (hL : ∀ n, n < c0.next → L' n = L n)
    (hL' : L' n = k) (hw : c.w = c0.w) (hoth : ∀ b, b ≠ k.cid → tasksOf (tags L) b c.tasks = tasksOf (tags L) b c0.tasks)
    (hsub : ∀ t ∈ c.tasks, t ∈ c0.tasks) (hm : tasksOf (tags L) k.cid c.tasks = []) (hnext : c0.next ≤ c.next) (hid : n < c.next)
    (hab : Absent k.cid c0.w) (hown : own k.cid tc = []) (hP : P k.cid none) (hids : k.cid ∉ c0.w.otherIds) (hk : k.kind = .reserve)
    (hb : (∃ t o e, c.w.clk ≤ t ∧ c' = { c with w := c.w.at t o, done := c.done ++ [(n, .error e)] }) ∨
      (∃ t o row, c.w.clk ≤ t ∧ NewOk row t ∧ row.cid = k.cid ∧
        c' = Conc.runSync n none (saveProg c.w.heap.length corr k.cid) _root_.id { c with w := c.w.made cfg t o row })) :
    Steps T cfg P L' (some k) c0 c' := by
  have hlold : ∀ t ∈ c0.tasks, L' t.id = L t.id := fun t ht => hL _ (hs.ids t ht)
  have howned : Owned (tags L') c.tasks := by
    intro t ht o hto
    have := hs.owned t (hsub t ht) o hto
    unfold tags at this ⊢
    rw [hlold t (hsub t ht)]; exact this
  have htasks : ∀ b, tasksOf (tags L') b c.tasks = tasksOf (tags L) b c.tasks := fun b => tasksOf_congr fun t ht => hlold t (hsub t ht)
  have hlt : ∀ t ∈ c.tasks, t.id < c.next := fun t ht => Nat.lt_of_lt_of_le (hs.ids t (hsub t ht)) hnext
  rw [hw] at hb
  rcases hb with ⟨t, o, e, ht, rfl⟩ | ⟨t, o, row, ht, hn, hc, rfl⟩
  · refine ⟨tc, hs.join (cid := k.cid) (Others.tick _ c0.w tc o ht) hs.cal (fun b hb => by rw [htasks]; exact hoth b hb) hlold howned hlt ?_,
      fun k' e _ => Or.inr (Or.inl (by cases e; exact hk))⟩
    rw [htasks, hm]
    exact .rest (absent_rest (hab.tick ht) hown) (by rw [World.seen_none (hab.tick (o := o) ht).row]; exact hP)
  · obtain ⟨kk, hrun, hkk⟩ : ∃ kk : Except Err Unit → Prog (Option Str), Conc.runSync n none (saveProg c0.w.heap.length corr k.cid) _root_.id { c with w := c0.w.made cfg t o row } =
        { c with w := c0.w.made cfg t o row, tasks := c.tasks ++ [⟨n, none, .waiting (.save c0.w.heap.length) kk _root_.id⟩] } ∧
        kk (.ok ()) = Prog.spawn (doReserve c0.w.heap.length corr) (Prog.pure (some k.cid)) := ⟨_, rfl, rfl⟩
    rw [hrun]
    have hO : Others k.cid c0.w tc (c0.w.made cfg t o row) (tc ++ [(k.cid, srcResv cfg row)] ++ [(k.cid, dstResv cfg row)]) :=
      { Others.tick k.cid c0.w tc o ht with
        heap := fun i ob hi _ => by
          have := (List.getElem?_eq_some_iff.mp hi).1
          simp only [World.made, List.getElem?_append_left this]; exact hi
        len := by simp [World.made]
        own := fun b hb => by rw [own_append, if_neg (Ne.symm hb), own_append, if_neg (Ne.symm hb)] }
    refine ⟨tc ++ [(k.cid, srcResv cfg row)] ++ [(k.cid, dstResv cfg row)], hs.join (cid := k.cid) hO ?_ ?_ hlold ?_ ?_ ?_, fun k' e _ => Or.inr (Or.inl (by cases e; exact hk))⟩
    · simp only [World.made, List.map_append, List.map_cons, List.map_nil]
      exact (hs.cal.append_right _).append_right _
    · intro b hb
      rw [tasksOf_append, htasks, tasksOf_cons, if_neg (by simp only [tags, hL']; exact Ne.symm hb), hoth b hb]
      simp [tasksOf]
    · intro t ht o hto
      rcases List.mem_append.mp ht with ht | ht
      · exact howned t ht o hto
      · simp only [List.mem_cons, List.not_mem_nil, or_false] at ht
        subst ht
        cases hto
    · intro t ht
      rcases List.mem_append.mp ht with ht | ht
      · exact hlt t ht
      · simp only [List.mem_cons, List.not_mem_nil, or_false] at ht
        subst ht
        exact hid
    · rw [tasksOf_append, htasks, hm, tasksOf_cons, if_pos (by simp only [tags, hL'])]
      refine .make (row := row) (ref := c0.w.heap.length) ⟨hab.row, hab.tm, hab.link, hab.conf⟩ ?_ hP hids rfl (by rw [hL']; exact hk) hn hc (by simp [World.made]) ?_
      · rw [own_append, if_pos rfl, own_append, if_pos rfl, hown]; rfl
      · refine ⟨rfl, fun x s h1 h2 h3 => ?_⟩
        have := reserve_ends (T := T) (corr := corr) h3
        rw [h1, h2] at this ⊢
        rw [hkk]
        exact this

theorem going_mates {x : Ctx} {D : S → Except Err (Option Str) → Prop} {s : S} {u v : List Task} {t : Task} (h : Going x D s (u ++ t :: v)) :
    ∀ m ∈ u ++ v, m.owner = none := by
  generalize hts : u ++ t :: v = ts at h
  cases h with
  | one _ => obtain ⟨rfl, rfl, _⟩ := single_split hts; simp
  | activ _ => obtain ⟨rfl, rfl, _⟩ := single_split hts; simp
  | conf _ _ _ => obtain ⟨rfl, rfl, _⟩ := single_split hts; simp
  | @both a b ha hb =>
    intro m hm
    have : m ∈ [a, b] := by
      rw [← hts]; simp only [List.mem_append, List.mem_cons] at hm ⊢; exact hm.imp _root_.id Or.inr
    simp only [List.mem_cons, List.not_mem_nil, or_false] at this
    rcases this with rfl | rfl
    · exact ha.1
    · exact hb.1
  | @both' a b ha hb =>
    intro m hm
    have : m ∈ [b, a] := by
      rw [← hts]; simp only [List.mem_append, List.mem_cons] at hm ⊢; exact hm.imp _root_.id Or.inr
    simp only [List.mem_cons, List.not_mem_nil, or_false] at this
    rcases this with rfl | rfl
    · exact hb.1
    · exact ha.1

theorem apart_resume {K : Str → OpKind → Prop} {α β : Type} {n : Nat} {ow : Option Str} {id' : Nat} {r : Except Err β}
    {k : Except Err β → Prog α} {fin : Except Err α → Except Err (Option Str)} {ts : List Task} (hst : LastsOn K P) (hK : K (L n).cid (L n).kind) (hs : Apart T cfg P L c tc)
    (ht : takeTask n c.tasks = some (⟨id', ow, .performed k r fin⟩, ts))
    (hf : Fine T (c.rejob L (some (L n))) (some (L n)) (Conc.runSync n ow (k r) fin { c with tasks := ts })) :
    Steps T cfg P (c.rejob L (some (L n))) (some (L n)) c (Conc.runSync n ow (k r) fin { c with tasks := ts }) := by
  obtain ⟨u, v, e1, e2, e3, e4, e5, e6⟩ := split_of (L := L) ht
  simp only at e6
  subst e6
  have hlen : id' < c.next := hs.ids _ e5
  have hL : ∀ m, m < c.next → c.rejob L (some (L id')) m = L m := fun m hm => rejob_old hm
  have hL' : ∀ m, m = id' ∨ c.next ≤ m → c.rejob L (some (L id')) m = L id' := by
    rintro m (rfl | hm)
    · exact rejob_old hlen
    · exact rejob_new hm
  have hph := hs.ph (L id').cid
  rw [e1] at hph
  generalize hl : u ++ (⟨id', ow, .performed k r fin⟩ : Task) :: v = l at hph
  cases hph with
  | rest h1 h2 => simp at hl
  | look h1 h2 h3 h4 hc h5 =>
    obtain ⟨rfl, rfl, rfl⟩ := single_split hl
    exact h5.elim
  | missed h1 h2 h3 h4 hc h5 =>
    obtain ⟨rfl, rfl, rfl⟩ := single_split hl
    obtain ⟨e, e', h6, h7⟩ := h5
    rw [h6]
    simp only [Conc.runSync, h7]
    have hlold : ∀ t ∈ c.tasks, c.rejob L (some (L id')) t.id = L t.id := fun t ht => hL _ (hs.ids t ht)
    have htasks : ∀ b, tasksOf (tags (c.rejob L (some (L id')))) b ts = tasksOf (tags L) b ts := fun b => tasksOf_congr fun t ht => hlold t (e4 t ht)
    refine ⟨tc, hs.join (cid := (L id').cid) (Others.refl _ c.w tc) hs.cal (fun b hb => by rw [htasks]; exact e3 b hb) hlold ?_ (fun t ht => hs.ids t (e4 t ht)) ?_, ?_⟩
    · intro t ht o hto
      have := hs.owned t (e4 t ht) o hto
      unfold tags at this ⊢
      rw [hlold t (e4 t ht)]; exact this
    · simp only
      rw [htasks, e2]
      exact .rest (absent_rest h1 h2) (by rw [World.seen_none h1.row]; exact h3)
    · rintro k' hk' _
      cases hk'
      refine Or.inl ⟨hc, h1.row, fun d hd => ?_⟩
      rcases List.mem_append.mp hd with hd | hd
      · exact Or.inl hd
      · simp only [List.mem_cons, List.not_mem_nil, or_false] at hd
        exact Or.inr ⟨e', by rw [hd]⟩
  | ask h1 h2 h3 h4 h5 h6 h7 =>
    obtain ⟨rfl, rfl, rfl⟩ := single_split hl
    obtain ⟨corr, h8⟩ := h7
    simp only at h5
    subst h5
    exact apart_body (c := { c with tasks := ts }) (corr := corr) hs hL (hL' _ (Or.inl rfl)) rfl e3 e4 e2 (Nat.le_refl _) hlen h1 h2 h3 h4 h6 (h8 id' { c with tasks := ts })
  | make h1 h2 h3 h4 h5 h6 h7 h8 h9 h10 =>
    obtain ⟨rfl, rfl, rfl⟩ := single_split hl
    exact h10.elim
  | @go x s _ h1 h2 h3 h4 h5 h6 h7 =>
    subst hl
    have how : ow = none ∨ ow = some (L id').cid := by
      cases ow with
      | none => exact Or.inl rfl
      | some o => exact Or.inr (by have := hs.owned _ e5 o rfl; simp only [tags] at this; rw [this])
    have hun : Unowned x.cid ts := by
      rw [h3]
      refine unowned_of (L := L) (fun t ht => hs.owned t (e4 t ht)) fun t ht hc => ?_
      have : t ∈ u ++ v := by rw [← e2]; exact mem_tasksOf.mpr ⟨ht, hc⟩
      rw [going_mates h2 t this]
      simp
    obtain ⟨tc', s', new, ha⟩ := going_resume (c := { c with tasks := ts }) h1 h2 hun
    have hkk := h7 ⟨id', ow, .performed k r fin⟩ (by simp)
    refine steps_after (c := { c with tasks := ts }) hst hK hs hL hL' (Others.refl _ c.w tc) e3 e4 e2 ?_ (Nat.le_refl _) hlen rfl how ha h3 hkk.1.symm hkk.2.symm h4 (by rw [h3]; exact h5) (by rw [h3]; exact h6) hf
    intro t ht
    refine h7 t ?_
    simp only [List.mem_append, List.mem_cons] at ht ⊢
    exact ht.imp _root_.id Or.inr

/-- A request begins, and is suspended at once. -/
theorem apart_susp {j : Job} {p : Prog (Option Str)} {b : Str} {k : Except Err (Option Nat) → Prog (Option Str)} (hs : Apart T cfg P L c tc) (hi : c.Idle L j.cid)
    (hp : p = .cmd (.find b) k) (hph : Ph T cfg P (c.rejob L (some j)) j.cid c.w tc [⟨c.next, none, .waiting (.find b) k _root_.id⟩]) :
    Steps T cfg P (c.rejob L (some j)) (some j) c (Conc.runSync c.next none p _root_.id { c with next := c.next + 1 }) := by
  rw [hp]
  have hrun : Conc.runSync c.next none (.cmd (.find b) k) _root_.id { c with next := c.next + 1 } =
      { c with next := c.next + 1, tasks := c.tasks ++ [⟨c.next, none, .waiting (.find b) k _root_.id⟩] } := rfl
  rw [hrun]
  have hlold : ∀ t ∈ c.tasks, c.rejob L (some j) t.id = L t.id := fun t ht => rejob_old (hs.ids t ht)
  have hnew : c.rejob L (some j) c.next = j := rejob_new (Nat.le_refl _)
  refine ⟨tc, hs.join (cid := j.cid) (Others.refl _ c.w tc) hs.cal ?_ hlold ?_ ?_ ?_, ?_⟩
  · intro b hb
    rw [tasksOf_append, tasksOf_congr hlold, tasksOf_cons, if_neg (by simp only [tags, hnew]; exact Ne.symm hb)]
    simp [tasksOf]
  · intro t ht o hto
    rcases List.mem_append.mp ht with ht | ht
    · have := hs.owned t ht o hto
      unfold tags at this ⊢
      rw [hlold t ht]; exact this
    · simp only [List.mem_cons, List.not_mem_nil, or_false] at ht
      subst ht
      cases hto
  · intro t ht
    rcases List.mem_append.mp ht with ht | ht
    · exact Nat.lt_succ_of_lt (hs.ids t ht)
    · simp only [List.mem_cons, List.not_mem_nil, or_false] at ht
      subst ht
      exact Nat.lt_succ_self _
  · rw [tasksOf_append, tasksOf_congr hlold, idle_iff.mp hi, tasksOf_cons, if_pos (by simp only [tags, hnew])]
    exact hph
  · intro k' hk' hidle
    cases hk'
    exact absurd (by rw [hnew]) (hidle ⟨c.next, none, .waiting (.find b) k _root_.id⟩ (by simp))

/-- A request that looks up its connection begins. -/
theorem apart_look {q : Req} {h : Hdr} {k : Except Err (Option Nat) → Prog (Option Str)} (hs : Apart T cfg P L c tc) (hi : c.Idle L (q.conn c.w.orc))
    (hq : q.kind ≠ .reserve) (hp : q.prog cfg h = .cmd (.find (q.conn c.w.orc)) k) (hn : ∃ e, k (.ok none) = .throw e)
    (hk : ∀ (x : Ctx) (s : S), x.cid = q.conn c.w.orc → x.kind = q.kind → StartAt T cfg x s →
      R1 x.cid x.ref none (fun s' => ∀ a, Ends T cfg x s' a) (k (.ok (some x.ref))) (fun s' r => Ends T cfg x s' r) s) :
    Steps T cfg P (c.rejob L (some ⟨q.conn c.w.orc, q.kind, c.w.clk⟩)) (some ⟨q.conn c.w.orc, q.kind, c.w.clk⟩) c
      (Conc.runSync c.next none (q.prog cfg h) _root_.id { c with next := c.next + 1 }) := by
  have hnew : c.rejob L (some ⟨q.conn c.w.orc, q.kind, c.w.clk⟩) c.next = ⟨q.conn c.w.orc, q.kind, c.w.clk⟩ := rejob_new (Nat.le_refl _)
  obtain ⟨hr, hP⟩ := (idle_iff.mp hi ▸ hs.ph (q.conn c.w.orc)).nil
  refine apart_susp (j := ⟨q.conn c.w.orc, q.kind, c.w.clk⟩) hs hi hp (.look hr hP rfl (by rw [hnew]; exact ⟨hq, Int.le_refl _⟩) (by rw [hnew]; cases q <;> rfl) ⟨rfl, ?_, ?_⟩)
  · obtain ⟨e, he⟩ := hn
    exact ⟨e, e, he, rfl⟩
  · intro x s h1 h2 _ h4
    simp only [hnew] at h2
    exact hk x s h1 h2 h4

theorem apart_start {q : Req} {h : Hdr} (hs : Apart T cfg P L c tc) (hm : c.May L c.w.orc (.start h q)) :
    Steps T cfg P (c.rejob L (some ⟨q.conn c.w.orc, q.kind, c.w.clk⟩)) (some ⟨q.conn c.w.orc, q.kind, c.w.clk⟩) c
      (Conc.runSync c.next none (q.prog cfg h) _root_.id { c with next := c.next + 1 }) := by
  obtain ⟨hi, hres⟩ := hm
  cases q with
  | commit cid =>
    refine apart_look hs hi (by simp [Req.kind]) rfl ⟨_, rfl⟩ ?_
    intro x s h1 h2 h3
    have := R1_req (ow := none) (D := fun s' => ∀ a, Ends T cfg x s' a) (commit_ends (hd := h) h3 h2)
    rw [h1] at this ⊢
    exact this
  | abort cid =>
    refine apart_look hs hi (by simp [Req.kind]) rfl ⟨_, rfl⟩ ?_
    intro x s h1 h2 h3
    have := R1_req (ow := none) (D := fun s' => ∀ a, Ends T cfg x s' a) (abort_ends (hd := h) h3 h2)
    rw [h1] at this ⊢
    exact this
  | provision cid =>
    refine apart_look hs hi (by simp [Req.kind]) rfl ⟨_, rfl⟩ ?_
    intro x s h1 h2 h3
    have := provision_ends (hd := h) h3 h2
    rw [h1] at this ⊢
    exact this
  | release cid =>
    refine apart_look hs hi (by simp [Req.kind]) rfl ⟨_, rfl⟩ ?_
    intro x s h1 h2 h3
    have := R1_req (ow := none) (D := fun s' => ∀ a, Ends T cfg x s' a) (release_ends (hd := h) h3 h2)
    rw [h1] at this ⊢
    exact this
  | terminate cid =>
    refine apart_look hs hi (by simp [Req.kind]) rfl ⟨_, rfl⟩ ?_
    intro x s h1 h2 h3
    have := R1_req (ow := none) (D := fun s' => ∀ a, Ends T cfg x s' a) (terminate_ends (hd := h) h3 h2)
    rw [h1] at this ⊢
    exact this
  | reserve cid? src dst st en =>
    have hfree := hres rfl
    obtain ⟨hrow, hids⟩ := idTaken_row hfree
    rw [decide_eq_true_iff] at hids
    obtain ⟨hr, hP⟩ := (idle_iff.mp hi ▸ hs.ph _).nil
    obtain ⟨hab, hown⟩ := hr.away hrow
    rw [World.seen_none hrow] at hP
    have body : ∀ {c'}, c' = Conc.runSync c.next none ((reserveBody cfg h cid? src dst st en).bind fun x => Prog.pure (some x)) _root_.id { c with next := c.next + 1 } →
        Steps T cfg P (c.rejob L (some ⟨Req.conn c.w.orc (.reserve cid? src dst st en), .reserve, c.w.clk⟩)) (some ⟨Req.conn c.w.orc (.reserve cid? src dst st en), .reserve, c.w.clk⟩) c c' := by
      intro c' hc'
      refine apart_body (c := { c with next := c.next + 1 }) (n := c.next) (corr := h.corr) hs (fun n hn => rejob_old hn) (rejob_new (Nat.le_refl _)) rfl (fun _ _ => rfl) (fun _ h => h)
        (idle_iff.mp hi) (Nat.le_succ _) (Nat.lt_succ_self _) hab hown hP hids rfl ?_
      rw [hc']
      exact run_body rfl
    cases cid? with
    | none => exact body rfl
    | some b =>
      by_cases hb : b = []
      · refine body ?_
        simp only [Req.prog, reserve, hb, if_true]
        rfl
      · have hnew : c.rejob L (some ⟨b, .reserve, c.w.clk⟩) c.next = ⟨b, .reserve, c.w.clk⟩ := rejob_new (Nat.le_refl _)
        have hp : ∃ k, Req.prog cfg h (.reserve (some b) src dst st en) = .cmd (.find b) k ∧
            k (.ok none) = (reserveBody cfg h (some b) src dst st en).bind fun x => Prog.pure (some x) := by
          simp only [Req.prog, reserve, hb, if_false]
          exact ⟨_, rfl, rfl⟩
        obtain ⟨k, hp, hk⟩ := hp
        refine apart_susp (j := ⟨b, .reserve, c.w.clk⟩) hs hi hp (.ask hab hown hP hids rfl (by rw [hnew]) ⟨rfl, ?_⟩)
        rw [hk]
        exact ⟨h.corr, fun n c => run_body rfl⟩

/-- A scheduled call. -/
theorem apart_fire {cid : Str} {due : Time} {act : Act} {ref : Nat} {K : Str → OpKind → Prop} (hst : LastsOn K P) (hK : K cid act.kind) (hs : Apart T cfg P L c tc) (hi : c.Idle L cid)
    (ht : dget c.w.tbl cid = some ⟨due, act, ref, false⟩) (hd : due ≤ c.w.clk)
    (hf : Fine T (c.rejob L (some ⟨cid, act.kind, c.w.clk⟩)) (some ⟨cid, act.kind, c.w.clk⟩) (Conc.runSync c.next (some cid) (actProg cfg act ref) (fun r => r.map fun _ => none)
      { c with w := { c.w with tbl := dset c.w.tbl cid ⟨due, act, ref, true⟩ }, next := c.next + 1 })) :
    Steps T cfg P (c.rejob L (some ⟨cid, act.kind, c.w.clk⟩)) (some ⟨cid, act.kind, c.w.clk⟩) c (Conc.runSync c.next (some cid) (actProg cfg act ref) (fun r => r.map fun _ => none)
      { c with w := { c.w with tbl := dset c.w.tbl cid ⟨due, act, ref, true⟩ }, next := c.next + 1 }) := by
  obtain ⟨hr, hP⟩ := (idle_iff.mp hi ▸ hs.ph cid).nil
  cases hrow : c.w.row? cid with
  | none =>
    have := (hr.away hrow).1.tm _ ht
    cases this
  | some r =>
    obtain ⟨v1, v2, v3⟩ := fire_view (kind := act.kind) hr hs.cal hrow (by cases act <;> rfl) ht
    have hun : Unowned cid c.tasks := unowned_of hs.owned fun t ht hc => absurd hc (hi t ht)
    have hO : Others cid c.w tc { c.w with tbl := dset c.w.tbl cid ⟨due, act, ref, true⟩ } tc :=
      { Others.refl cid c.w tc with tbl := fun b hb => by simp only; rw [dget_dset, if_neg (Ne.symm hb)] }
    have hR : R0 cid ref (actProg cfg act ref) (fun s' r' => Ends T cfg ⟨cid, ref, act.kind, c.w.clk, ⟨r, r, own cid tc, some ⟨due, act, ref, true⟩, decide (cid ∈ c.w.links), [], c.w.clk⟩, c.w.outbox⟩ s'
        (r'.map fun _ => none)) ⟨r, r, own cid tc, some ⟨due, act, ref, true⟩, decide (cid ∈ c.w.links), [], c.w.clk⟩ := by
      cases act with
      | reserveTimeout => exact timeout_ends v2 rfl v3.1 v3.2
      | endtime =>
        obtain ⟨h1, e, h2, h3⟩ := v3
        exact endtime_ends v2 rfl h1 h2 (Int.le_trans h3 hd)
      | activate =>
        obtain ⟨h1, h2, h3, h4, e, h5, h6⟩ := v3
        refine activate_ends v2 rfl h1 h2 h3 (fun y hy => ?_) (fun y hy => by cases hy; rfl)
        have : some e = some y := h5.symm.trans hy
        cases this
        exact Int.le_trans h6 hd
    obtain ⟨tc', s', new, ha⟩ := run1 c.next (some cid) (fun r => r.map fun _ => none)
      (c := { c with w := { c.w with tbl := dset c.w.tbl cid ⟨due, act, ref, true⟩ }, next := c.next + 1 }) v1 (R1_of_R0 hR) hun
    refine steps_after (c := { c with w := { c.w with tbl := dset c.w.tbl cid ⟨due, act, ref, true⟩ }, next := c.next + 1 }) hst hK hs (fun n hn => rejob_old hn) ?_ hO (fun _ _ => rfl) (fun _ h => h)
      (idle_iff.mp hi) (by simp) (Nat.le_succ _) (Nat.lt_succ_self _) rfl (Or.inr rfl) ha rfl rfl rfl (row?_cid hrow) ?_ ?_ hf
    · rintro n (rfl | hn)
      · exact rejob_new (Nat.le_refl _)
      · exact rejob_new hn
    · intro e
      cases act <;> cases e
    · intro _
      rw [World.seen_some hrow] at hP
      exact ⟨_, hP, fun e => by cases act <;> cases e⟩

theorem takeTask_none {n : Nat} : ∀ {l : List Task}, takeTask n l = none → l.any (fun t => t.id = n) = false
  | [], _ => rfl
  | u :: l, h => by
    simp only [takeTask] at h
    split at h
    · cases h
    · rename_i e
      simp only [Option.map_eq_none_iff] at h
      simp only [List.any_cons, e, decide_false, Bool.false_or]
      exact takeTask_none h

/-- Every step considered keeps the phases. -/
theorem apart_step_on {K : Str → OpKind → Prop} (hst : LastsOn K P) (hs : Apart T cfg P L c tc) {o : Oracle} {ch : Choice} (hK : ∀ k, c.job L o ch = some k → K k.cid k.kind) (hm : c.May L o ch)
    (hf : Fine T (c.rejob L (c.job L o ch)) (c.job L o ch) (c.step cfg o ch)) :
    Steps T cfg P (c.rejob L (c.job L o ch)) (c.job L o ch) c (c.step cfg o ch) := by
  have h0 : Apart T cfg P L { c with w := { c.w with orc := o } } tc := hs.tick (Int.le_refl _)
  have hlold : ∀ j, ∀ t ∈ c.tasks, c.rejob L j t.id = L t.id := fun j t ht => rejob_old (hs.ids t ht)
  have same : ∀ {j : Option Job}, (∀ k, j = some k → ¬ c.Idle (c.rejob L j) k.cid) → Steps T cfg P (c.rejob L j) j c { c with w := { c.w with orc := o } } :=
    fun {j} h => ⟨tc, h0.relabel (hlold j), fun k hk hi => absurd hi (h k hk)⟩
  cases ch with
  | start h q => exact apart_start h0 hm
  | fire cid =>
    cases ht : dget c.w.tbl cid with
    | none =>
      have e1 : c.job L o (.fire cid) = none := by simp only [Conc.job, ht]
      have e2 : c.step cfg o (.fire cid) = { c with w := { c.w with orc := o } } := by simp only [Conc.step, ht]
      rw [e1, e2]
      exact same fun k hk => by cases hk
    | some tm =>
      obtain ⟨due, act, ref, called⟩ := tm
      cases called with
      | true =>
        have e1 : c.job L o (.fire cid) = none := by simp only [Conc.job, ht]
        have e2 : c.step cfg o (.fire cid) = { c with w := { c.w with orc := o } } := by simp only [Conc.step, ht]
        rw [e1, e2]
        exact same fun k hk => by cases hk
      | false =>
        by_cases hd : due ≤ c.w.clk
        · have e1 : c.job L o (.fire cid) = some ⟨cid, act.kind, c.w.clk⟩ := by simp only [Conc.job, ht, hd, if_true]
          have e2 : c.step cfg o (.fire cid) = Conc.runSync c.next (some cid) (actProg cfg act ref) (fun r => r.map fun _ => none)
              { c with w := { c.w with orc := o, tbl := dset c.w.tbl cid ⟨due, act, ref, true⟩ }, next := c.next + 1 } := by
            simp only [Conc.step, ht, hd, if_true]
          rw [e1, e2] at hf ⊢
          exact apart_fire (c := { c with w := { c.w with orc := o } }) hst (hK _ e1) h0 (hm due act ref ht hd) ht hd hf
        · have e1 : c.job L o (.fire cid) = none := by simp only [Conc.job, ht, hd, if_false]
          have e2 : c.step cfg o (.fire cid) = { c with w := { c.w with orc := o } } := by simp only [Conc.step, ht, hd, if_false]
          rw [e1, e2]
          exact same fun k hk => by cases hk
  | perform n =>
    cases ht : takeTask n c.tasks with
    | none =>
      have e2 : c.step cfg o (.perform n) = { c with w := { c.w with orc := o } } := by simp only [Conc.step, ht]
      rw [e2]
      refine same fun k hk => ?_
      simp only [Conc.job, takeTask_none ht, Bool.false_eq_true, if_false] at hk
      cases hk
    | some p =>
      obtain ⟨⟨id', ow, su⟩, ts⟩ := p
      obtain ⟨_, _, e5, _, e6⟩ := takeTask_split ht
      have hj : c.job L o (.perform n) = some (L n) := by
        simp only [Conc.job]
        rw [if_pos]
        rw [List.any_eq_true]
        exact ⟨⟨id', ow, su⟩, by rw [e5]; simp, by simpa using e6⟩
      simp only at e6
      subst e6
      have hlt : id' < c.next := hs.ids ⟨id', ow, su⟩ (by rw [e5]; simp)
      rw [hj] at hf ⊢
      cases su with
      | performed k r fin =>
        have e2 : c.step cfg o (.perform id') = { c with w := { c.w with orc := o } } := by simp only [Conc.step, ht]
        rw [e2]
        refine same fun k hk => ?_
        cases hk
        exact fun h => h ⟨id', ow, .performed k r fin⟩ (by rw [e5]; simp) (by rw [rejob_old hlt])
      | waiting y k fin =>
        have e2 : c.step cfg o (.perform id') = { c with w := (exec { c.w with orc := o } y).1, tasks := ts ++ [⟨id', ow, .performed k (exec { c.w with orc := o } y).2 fin⟩] } := by
          simp only [Conc.step, ht]
        rw [e2] at hf ⊢
        obtain ⟨tc', h1⟩ := apart_perform (c := { c with w := { c.w with orc := o } }) hst h0 ht hf.timely
        refine ⟨tc', h1.relabel fun t ht => rejob_old (h1.ids t ht), fun k' hk' hi => ?_⟩
        cases hk'
        exact absurd (by rw [rejob_old hlt]) (hi ⟨id', ow, .performed k (exec { c.w with orc := o } y).2 fin⟩ (by simp))
  | resume n =>
    cases ht : takeTask n c.tasks with
    | none =>
      have e2 : c.step cfg o (.resume n) = { c with w := { c.w with orc := o } } := by simp only [Conc.step, ht]
      rw [e2]
      refine same fun k hk => ?_
      simp only [Conc.job, takeTask_none ht, Bool.false_eq_true, if_false] at hk
      cases hk
    | some p =>
      obtain ⟨⟨id', ow, su⟩, ts⟩ := p
      obtain ⟨_, _, e5, _, e6⟩ := takeTask_split ht
      have hj : c.job L o (.resume n) = some (L n) := by
        simp only [Conc.job]
        rw [if_pos]
        rw [List.any_eq_true]
        exact ⟨⟨id', ow, su⟩, by rw [e5]; simp, by simpa using e6⟩
      simp only at e6
      subst e6
      have hlt : id' < c.next := hs.ids ⟨id', ow, su⟩ (by rw [e5]; simp)
      rw [hj] at hf ⊢
      cases su with
      | waiting y k fin =>
        have e2 : c.step cfg o (.resume id') = { c with w := { c.w with orc := o } } := by simp only [Conc.step, ht]
        rw [e2]
        refine same fun k hk => ?_
        cases hk
        exact fun h => h ⟨id', ow, .waiting y k fin⟩ (by rw [e5]; simp) (by rw [rejob_old hlt])
      | performed k r fin =>
        have e2 : c.step cfg o (.resume id') = Conc.runSync id' ow (k r) fin { c with w := { c.w with orc := o }, tasks := ts } := by simp only [Conc.step, ht]
        rw [e2] at hf ⊢
        exact apart_resume (c := { c with w := { c.w with orc := o } }) hst (hK _ hj) h0 ht hf
  | wait us =>
    refine ⟨tc, (hs.tick (o := o) (t := c.w.clk + (us : Int)) (by omega)).relabel (hlold _), fun k hk => by cases hk⟩
  | restart => exact hm.elim

theorem apart_step (hst : Lasts P) (hs : Apart T cfg P L c tc) {o : Oracle} {ch : Choice} (hm : c.May L o ch)
    (hf : Fine T (c.rejob L (c.job L o ch)) (c.job L o ch) (c.step cfg o ch)) :
    Steps T cfg P (c.rejob L (c.job L o ch)) (c.job L o ch) c (c.step cfg o ch) := apart_step_on hst.on hs (fun _ _ => trivial) hm hf

/-- Every schedule considered keeps the phases. -/
theorem apart_run (hst : Lasts P) : ∀ (s : List (Oracle × Choice)) {c : Conc} {L : Nat → Job} {tc : List (Str × Resv)}, Apart T cfg P L c tc → OneByOne T cfg c L s →
    ∃ tc', Apart T cfg P (jobs cfg c L s) (c.run cfg s) tc'
  | [], _, _, tc, h, _ => ⟨tc, h⟩
  | (o, ch) :: s, _, _, _, h, hs => by
    obtain ⟨tc', h1, _⟩ := apart_step hst h hs.1 hs.2.1
    exact apart_run hst s h1 hs.2.2

/-- Something else about the connections at rest. -/
theorem Apart.swap {P' : Str → Option (Row × Option Timer) → Prop} {cid : Str} (h : Apart T cfg P L c tc) (hi : c.Idle L cid) (h1 : P' cid (c.w.seen cid)) (h2 : ∀ b o, b ≠ cid → P' b o) :
    Apart T cfg P' L c tc where
  nd := h.nd
  cal := h.cal
  owned := h.owned
  ids := h.ids
  ph b := by
    by_cases hb : b = cid
    · subst hb
      have := h.ph b
      rw [idle_iff.mp hi] at this ⊢
      exact .rest this.nil.1 h1
    · have h3 := h.ph b
      generalize tasksOf (tags L) b c.tasks = l at h3 ⊢
      cases h3 with
      | rest k1 k2 => exact .rest k1 (h2 b _ hb)
      | look k1 k2 k3 k4 k5 k6 => exact .look k1 (h2 b _ hb) k3 k4 k5 k6
      | missed k1 k2 k3 k4 k5 k6 => exact .missed k1 k2 (h2 b _ hb) k4 k5 k6
      | ask k1 k2 k3 k4 k5 k6 k7 => exact .ask k1 k2 (h2 b _ hb) k4 k5 k6 k7
      | make k1 k2 k3 k4 k5 k6 k7 k8 k9 k10 => exact .make k1 k2 (h2 b _ hb) k4 k5 k6 k7 k8 k9 k10
      | go k1 k2 k3 k4 k5 k6 k7 => exact .go k1 k2 k3 k4 (fun _ r => h2 b _ hb) (fun _ => ⟨_, h2 b _ hb, fun _ => rfl⟩) k7

/-- No operations yet. -/
def noJobs : Nat → Job := fun _ => ⟨[], .reserve, 0⟩

theorem apart_init (cfg : Cfg) (ids : List Str) (clk : Time) : Apart T cfg (fun _ _ => True) noJobs { w := World.init ids clk } [] where
  nd := by simp [World.init]
  cal := by simp [World.init]
  owned := by intro t ht; cases ht
  ids := by intro t ht; cases ht
  ph cid := by
    refine .rest (absent_rest ⟨rfl, fun tm h => ?_, ?_, ?_⟩ rfl) trivial
    · simp [World.init, dget] at h
    · simp [World.init]
    · rintro ⟨_, _, _, _, _, h⟩
      simp [World.init] at h

theorem lasts_true : Lasts fun _ _ => True := ⟨fun _ _ _ _ _ _ _ _ _ => trivial, fun _ _ _ => trivial⟩

/-- After every schedule from the start, every connection on which no operation is under way is at rest. -/
theorem atRest_of {ids : List Str} {clk : Time} {s : List (Oracle × Choice)} {cid : Str} (hs : OneByOne T cfg { w := World.init ids clk } noJobs s)
    (hi : (Conc.run cfg { w := World.init ids clk } s).Idle (jobs cfg { w := World.init ids clk } noJobs s) cid) :
    ∃ tc, (Conc.run cfg { w := World.init ids clk } s).w.cal.Perm (tc.map (·.2)) ∧ AtRest T cfg cid (Conc.run cfg { w := World.init ids clk } s).w tc := by
  obtain ⟨tc, h⟩ := apart_run lasts_true s (apart_init (T := T) cfg ids clk) hs
  exact ⟨tc, h.cal, (idle_iff.mp hi ▸ h.ph cid).nil.1⟩

end
end OpenNSA.Backend
