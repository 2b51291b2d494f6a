import Verif.Backend.ApartStep
import Verif.Backend.PropsLively
import Verif.Backend.PropsOwn
/-
Interleaved executions with restarts: the process is restarted when no operation is under way, and the connections are loaded
(`buildSchedule`) before further requests arrive.
-/
namespace OpenNSA.Backend
open OpenNSA Py Prog

/-! ### A coroutine on its own -/

/-- Only coroutines under way make progress, and time passes. -/
def Alone (s : List (Oracle × Choice)) : Prop := ∀ p ∈ s, ∃ n, p.2 = .perform n ∨ p.2 = .resume n ∨ p.2 = .wait n

theorem ns_doActivate (ref : Nat) : NoSpawn (doActivate ref) := by
  have h1 := ns_setActive ref true
  have h2 := ns_setActive ref false
  unfold doActivate; simp only [bind_eq]
  refine ns_bind (ns_issue _) fun row => ns_bind (ns_tryCatch (ns_bind (ns_issue _) fun _ => trivial) fun _ => trivial) fun up => ?_
  split
  · exact ns_tryCatch (ns_bind h1 fun _ => ns_bind (ns_issue _) fun _ => ns_bind (ns_schedEnd _ _ _) fun _ => ns_bind (ns_issue _) fun _ => ns_issue _) fun _ => trivial
  · exact ns_bind h2 fun _ => ns_bind (ns_issue _) fun _ => ns_issue _

theorem ns_buildOne (cfg : Cfg) (ref : Nat) : NoSpawn (buildOne cfg ref) := by
  have h1 := ns_doEndtime cfg ref
  have h2 := ns_doReserveRollback cfg ref
  have h3 := ns_doActivate ref
  have hs : ∀ row, NoSpawn (buildOne.started ref row) := by
    intro row
    have := ns_schedEnd row.cid row.end_ ref
    unfold buildOne.started
    split
    · split <;> assumption
    · split
      · assumption
      · trivial
  have hw : ∀ row s, NoSpawn (buildOne.waiting ref row s) := by
    intro row s
    unfold buildOne.waiting; simp only [bind_eq]
    split
    · refine ns_bind (ns_issue _) fun _ => ns_whenP trivial
    · split
      · split
        · trivial
        · exact ns_issue _
      · trivial
  unfold buildOne; simp only [bind_eq]
  refine ns_bind (ns_issue _) fun row => ns_bind (ns_issue _) fun b => ?_
  split
  · trivial
  refine ns_bind (ns_issue _) fun now => ?_
  split
  · trivial
  split
  · trivial
  refine ns_bind (ns_issue _) fun _ => ns_bind (ns_issue _) fun _ => ?_
  split
  · exact h1
  split
  · split
    · exact h2
    · exact ns_issue _
  split
  · exact hs _
  · split
    · exact hs _
    · split
      · exact hw _ _
      · trivial

theorem ns_buildLoop (cfg : Cfg) : ∀ refs, NoSpawn (buildLoop cfg refs)
  | [] => trivial
  | r :: rs => by
    unfold buildLoop; simp only [bind_eq]
    exact ns_bind (ns_buildOne cfg r) fun _ => ns_buildLoop cfg rs

theorem ns_buildSchedule (cfg : Cfg) : NoSpawn (buildSchedule cfg) := by
  unfold buildSchedule; simp only [bind_eq]
  exact ns_bind (ns_issue _) fun refs => ns_buildLoop cfg refs

section
variable {α : Type} {Q : World → Except Err α → Prop}

/-- The conclusion stays true as time passes. -/
def Stays (Q : World → Except Err α → Prop) : Prop := ∀ w r t o, w.clk ≤ t → Q w r → Q { w with clk := t, orc := o } r

theorem All_tick (hQ : Stays Q) : ∀ (p : Prog α) {w : World} {t : Time} {o : Oracle}, NoSpawn p → w.clk ≤ t → All p Q w →
    All p Q { w with clk := t, orc := o }
  | .pure _, _, _, _, _, ht, h => hQ _ _ _ _ ht h
  | .throw _, _, _, _, _, ht, h => hQ _ _ _ _ ht h
  | .cmd _ _, _, _, _, _, ht, h => fun t' o' ht' => h t' o' (Int.le_trans ht ht')
  | .spawn _ _, _, _, _, hn, _, _ => by cases hn

/-- The coroutine is suspended, or over. -/
inductive Solo (Q : World → Except Err α → Prop) (id : Nat) (fin : Except Err α → Except Err (Option Str)) (d0 : List (Nat × Except Err (Option Str))) (c : Conc) : Prop
  | waiting {β : Type} (x : Cmd β) (k : Except Err β → Prog α) : c.tasks = [⟨id, none, .waiting x k fin⟩] → (∀ r, NoSpawn (k r)) → All (.cmd x k) Q c.w → c.done = d0 → Solo Q id fin d0 c
  | performed {β : Type} (k : Except Err β → Prog α) (r : Except Err β) : c.tasks = [⟨id, none, .performed k r fin⟩] → (∀ r, NoSpawn (k r)) → All (k r) Q c.w → c.done = d0 → Solo Q id fin d0 c
  | over (r : Except Err α) : c.tasks = [] → Q c.w r → c.done = d0 ++ [(id, fin r)] → Solo Q id fin d0 c

theorem sync_alone {β : Type} (c : Conc) (x : Cmd β) (h : c.tasks = []) : (c.sync x).1.tasks = [] ∧ (c.sync x).1.done = c.done ∧
    (c.sync x).1.w = (exec c.w x).1 ∧ (c.sync x).2 = (exec c.w x).2 := by
  unfold Conc.sync Conc.affect
  cases x <;> simp only [h, and_self]
  all_goals
    split
    · simp [Conc.cancelCall, Conc.disown]
    · simp

theorem All_exec {β : Type} {x : Cmd β} {k : Except Err β → Prog α} {w : World} (h : All (.cmd x k) Q w) : All (k (exec w x).2) Q (exec w x).1 := by
  obtain ⟨t, o, ht, he⟩ := advance_eq w
  unfold exec
  rw [he]
  exact h t o ht

theorem solo_sync {id : Nat} {fin : Except Err α → Except Err (Option Str)} {d0 : List (Nat × Except Err (Option Str))} :
    ∀ (p : Prog α) (c : Conc), NoSpawn p → c.tasks = [] → c.done = d0 → All p Q c.w → Solo Q id fin d0 (Conc.runSync id none p fin c)
  | .pure a, c, _, ht, hd, h => .over (.ok a) ht h (by simp only [Conc.runSync, hd])
  | .throw e, c, _, ht, hd, h => .over (.error e) ht h (by simp only [Conc.runSync, hd])
  | .cmd x k, c, hn, ht, hd, h => by
    unfold Conc.runSync
    split
    · exact .waiting x k (by simp [ht]) hn h hd
    · obtain ⟨h1, h2, h3, h4⟩ := sync_alone c x ht
      refine solo_sync (k (c.sync x).2) (c.sync x).1 (hn _) h1 (h2.trans hd) ?_
      rw [h3, h4]
      exact All_exec h
  | .spawn _ _, _, hn, _, _, _ => by cases hn

theorem takeTask_one (n : Nat) (t : Task) : takeTask n [t] = if t.id = n then some (t, []) else none := by
  unfold takeTask; split <;> rfl

theorem Solo.tick (hQ : Stays Q) {id : Nat} {fin : Except Err α → Except Err (Option Str)} {d0 : List (Nat × Except Err (Option Str))} {c : Conc} (h : Solo Q id fin d0 c)
    {t : Time} {o : Oracle} (ht : c.w.clk ≤ t) : Solo Q id fin d0 { c with w := { c.w with clk := t, orc := o } } := by
  cases h with
  | waiting x k h1 h2 h3 h4 => exact .waiting x k h1 h2 (All_tick hQ _ h2 ht h3) h4
  | performed k r h1 h2 h3 h4 => exact .performed k r h1 h2 (All_tick hQ _ (h2 r) ht h3) h4
  | over r h1 h2 h3 => exact .over r h1 (hQ _ _ _ _ ht h2) h3

theorem Solo.step (hQ : Stays Q) (cfg : Cfg) {id : Nat} {fin : Except Err α → Except Err (Option Str)} {d0 : List (Nat × Except Err (Option Str))} {c : Conc}
    (h : Solo Q id fin d0 c) (o : Oracle) (ch : Choice) (hch : ∃ n, ch = .perform n ∨ ch = .resume n ∨ ch = .wait n) : Solo Q id fin d0 (c.step cfg o ch) := by
  have h : Solo Q id fin d0 { c with w := { c.w with orc := o } } := h.tick hQ (Int.le_refl _)
  obtain ⟨n, rfl | rfl | rfl⟩ := hch
  · simp only [Conc.step]
    cases h with
    | waiting x k h1 h2 h3 h4 =>
      have h1 : c.tasks = _ := h1
      rw [h1, takeTask_one]
      by_cases hn : id = n
      · subst hn
        simp only [if_true]
        exact .performed k _ rfl h2 (All_exec h3) h4
      · simp only [hn, if_false]
        exact .waiting x k rfl h2 h3 h4
    | performed k r h1 h2 h3 h4 =>
      have h1 : c.tasks = _ := h1
      rw [h1, takeTask_one]
      by_cases hn : id = n
      · subst hn
        simp only [if_true]
        exact .performed k r rfl h2 h3 h4
      · simp only [hn, if_false]
        exact .performed k r rfl h2 h3 h4
    | over r h1 h2 h3 =>
      have h1 : c.tasks = _ := h1
      rw [h1]
      exact .over r rfl h2 h3
  · simp only [Conc.step]
    cases h with
    | waiting x k h1 h2 h3 h4 =>
      have h1 : c.tasks = _ := h1
      rw [h1, takeTask_one]
      by_cases hn : id = n
      · subst hn
        simp only [if_true]
        exact .waiting x k rfl h2 h3 h4
      · simp only [hn, if_false]
        exact .waiting x k rfl h2 h3 h4
    | performed k r h1 h2 h3 h4 =>
      have h1 : c.tasks = _ := h1
      rw [h1, takeTask_one]
      by_cases hn : id = n
      · subst hn
        simp only [if_true]
        exact solo_sync (k r) _ (h2 r) rfl h4 h3
      · simp only [hn, if_false]
        exact .performed k r rfl h2 h3 h4
    | over r h1 h2 h3 =>
      have h1 : c.tasks = _ := h1
      rw [h1]
      exact .over r rfl h2 h3
  · exact h.tick hQ (by simp only; omega)

theorem Solo.run (hQ : Stays Q) (cfg : Cfg) {id : Nat} {fin : Except Err α → Except Err (Option Str)} {d0 : List (Nat × Except Err (Option Str))} :
    ∀ (s : List (Oracle × Choice)) {c : Conc}, Solo Q id fin d0 c → Alone s → Solo Q id fin d0 (c.run cfg s)
  | [], _, h, _ => h
  | (o, ch) :: s, _, h, ha => Solo.run hQ cfg s (h.step hQ cfg o ch (ha (o, ch) (by simp))) fun p hp => ha p (List.mem_cons_of_mem _ hp)

end

/-! ### Restarts -/

theorem Resumed.tick {w0 w : World} {x : Row} {t : Time} {o : Oracle} (h : Resumed w0 w x) (ht : w.clk ≤ t) : Resumed w0 { w with clk := t, orc := o } x := by
  rcases h with ⟨a, b⟩ | ⟨x0, a, b, c, d | ⟨now, d1, d2, d3⟩⟩
  · exact Or.inl ⟨a.mono ht fun _ h => h, b⟩
  · exact Or.inr ⟨x0, a, b, c, Or.inl d⟩
  · exact Or.inr ⟨x0, a, b, c, Or.inr ⟨now, d1, Int.le_trans d2 ht, d3⟩⟩

theorem stays_boot {N : Prop} {cfg : Cfg} {w : World} :
    Stays fun w' (r : Except Err Unit) => r = .ok () → GInvN N cfg allLoaded w' ∧ Restarted w w' := by
  intro w' r t o ht h hr
  obtain ⟨h1, h2⟩ := h hr
  refine ⟨?_, ⟨fun x hx => (h2.resumed x hx).tick ht, Int.le_trans h2.clk ht, h2.ev, h2.old, fun c hc => (h2.up c hc).imp id ?_, h2.quiet⟩⟩
  · have := h1.idle t o [] ht
    rwa [List.append_nil] at this
  · rintro ⟨x, a, b, d⟩
    exact ⟨x, a, b, d.mono ht⟩

/-- The process is restarted while no operation is under way, the connections are loaded, with whatever delays and failures of the
device, and loading raised no exception. -/
structure Boots (cfg : Cfg) (c c' : Conc) : Prop where
  idle : c.tasks = []
  loaded : ∃ o s, Alone s ∧ c' = c.run cfg ((o, .restart) :: s)
  over : c'.tasks = []
  ok : ∀ e, (c.next, Except.error e) ∉ c'.done

theorem Boots.restarted {N : Prop} {cfg : Cfg} {c c' : Conc} (h : Boots cfg c c') (hi : GInvN N cfg allLoaded c.w) :
    GInvN N cfg allLoaded c'.w ∧ Restarted c.w c'.w := by
  obtain ⟨h1, ⟨o, s, h2, rfl⟩, h3, h4⟩ := h
  have hall : All (buildSchedule cfg) (fun w' r => r = .ok () → GInvN N cfg allLoaded w' ∧ Restarted c.w w') (World.reboot { c.w with orc := o }) := by
    refine All_mono ?_ (restart_inv (N := N) (cfg := cfg) (w := { c.w with orc := o }) ?_)
    · intro w' r hq hr
      obtain ⟨a, b⟩ := hq hr
      exact ⟨a, ⟨b.resumed, b.clk, b.ev, b.old, b.up, b.quiet⟩⟩
    · have := hi.idle c.w.clk o [] (Int.le_refl _)
      rwa [List.append_nil] at this
  have hsolo : Solo (fun w' r => r = .ok () → GInvN N cfg allLoaded w' ∧ Restarted c.w w') c.next (fun r => r.map fun _ => none) c.done
      (c.step cfg o .restart) := by
    unfold Conc.step
    simp only [h1, List.filterMap_nil]
    exact solo_sync _ _ (ns_buildSchedule cfg) rfl rfl hall
  have := hsolo.run stays_boot cfg s h2
  have hrun : c.run cfg ((o, .restart) :: s) = (c.step cfg o .restart).run cfg s := rfl
  rw [hrun] at h3 h4 ⊢
  cases this with
  | waiting x k a => rw [h3] at a; cases a
  | performed k r a => rw [h3] at a; cases a
  | over r a b d =>
    cases r with
    | ok u => exact b rfl
    | error e => exact absurd (by rw [d]; simp [Except.map]) (h4 e)

section
variable {T : Bool} {cfg : Cfg} {P : Str → Option (Row × Option Timer) → Prop} {L : Nat → Job} {c : Conc} {tc : List (Str × Resv)}

/-- When no operation is under way, the invariant of the executions in sequence holds, but for clashes. -/
theorem Apart.inv (h : Apart T cfg P L c tc) (ht : c.tasks = []) : GInvN False cfg allLoaded c.w := by
  have rest : ∀ cid, AtRest T cfg cid c.w tc := fun cid => by
    have := h.ph cid
    rw [ht] at this
    exact (Ph.nil this).1
  have there : ∀ {cid}, ¬ Absent cid c.w → ∃ r ∈ c.w.rows, r.cid = cid := by
    intro cid hn
    cases hr : c.w.row? cid with
    | none => exact absurd ((rest cid).away hr).1 hn
    | some r =>
      unfold World.row? at hr
      exact ⟨r, List.mem_of_find?_eq_some hr, by simpa using List.find?_some hr⟩
  refine ⟨h.nd, fun r hr => ((rest r.cid).here r (row?_mem h.nd hr)).1, fun cid tm h1 h2 => ⟨rfl, there fun a => ?_⟩, fun cid hc => there fun a => a.link hc, ?_, fun a => a.elim,
    fun cid hc => there fun a => a.conf hc⟩
  · rw [a.tm tm h1] at h2; cases h2
  · refine h.cal.trans ?_
    have e : (c.w.rows.filter fun r => allLoaded r.cid) = c.w.rows := List.filter_eq_self.mpr fun _ _ => rfl
    rw [e]
    refine perm_rows c.w.rows tc h.nd (fun r hr => ((rest r.cid).here r (row?_mem h.nd hr)).2.2.1) fun cid hc => ?_
    refine ((rest cid).away ?_).2
    unfold World.row?
    rw [List.find?_eq_none]
    intro r hr e
    exact hc (List.mem_map.mpr ⟨r, hr, by simpa using e⟩)

/-- The entries of the connections, tagged. -/
def tagged (cfg : Cfg) (rows : List Row) : List (Str × Resv) := rows.flatMap fun r => (ents cfg r).map fun e => (r.cid, e)

theorem tagged_snd (cfg : Cfg) (rows : List Row) : (tagged cfg rows).map (·.2) = rows.flatMap (ents cfg) := by
  unfold tagged
  induction rows with
  | nil => rfl
  | cons r rows ih =>
    have e : ((ents cfg r).map fun e => (r.cid, e)).map (·.2) = ents cfg r := by rw [List.map_map]; exact List.map_id _
    simp only [List.flatMap_cons, List.map_append, ih, e]

theorem own_app (cid : Str) (a b : List (Str × Resv)) : own cid (a ++ b) = own cid a ++ own cid b := by simp [own]

theorem own_self (cid : Str) (es : List Resv) : own cid (es.map fun e => (cid, e)) = es := by
  induction es with
  | nil => rfl
  | cons e es ih => unfold own at *; simp_all

theorem own_other {cid b : Str} (h : b ≠ cid) (es : List Resv) : own cid (es.map fun e => (b, e)) = [] := by
  unfold own
  simp [List.filter_map, List.filter_eq_nil_iff, h]

theorem own_tagged_none (cfg : Cfg) (cid : Str) : ∀ rows : List Row, cid ∉ rows.map (·.cid) → own cid (tagged cfg rows) = []
  | [], _ => rfl
  | r :: rows, h => by
    simp only [List.map_cons, List.mem_cons, not_or] at h
    show own cid (_ ++ tagged cfg rows) = []
    rw [own_app, own_other (Ne.symm h.1), own_tagged_none cfg cid rows h.2]
    rfl

theorem own_tagged (cfg : Cfg) : ∀ (rows : List Row), (rows.map (·.cid)).Nodup → ∀ r ∈ rows, own r.cid (tagged cfg rows) = ents cfg r
  | [], _, _, hr => by cases hr
  | a :: rows, hn, r, hr => by
    simp only [List.map_cons, List.nodup_cons] at hn
    show own r.cid (_ ++ tagged cfg rows) = _
    rw [own_app]
    rcases List.mem_cons.mp hr with rfl | hr
    · rw [own_self, own_tagged_none cfg _ rows hn.1, List.append_nil]
    · rw [own_other (cid := r.cid) (b := a.cid) (fun e => hn.1 (by rw [e]; exact List.mem_map_of_mem hr)), own_tagged cfg rows hn.2 r hr, List.nil_append]

/-- From the invariant of the executions in sequence. -/
theorem apart_of_inv {N : Prop} (hi : GInvN N cfg allLoaded c.w) (ht : c.tasks = []) (hok : ∀ r ∈ c.w.rows, OkRow r)
    (hd : T = true → ∀ r ∈ c.w.rows, Due c.w.clk r (dget c.w.tbl r.cid) c.w.outbox) (hP : ∀ cid, P cid (c.w.seen cid)) :
    Apart T cfg P L c (tagged cfg c.w.rows) where
  nd := hi.nodup
  cal := by
    rw [tagged_snd]
    have e : (c.w.rows.filter fun r => allLoaded r.cid) = c.w.rows := List.filter_eq_self.mpr fun _ _ => rfl
    have := hi.cal
    rwa [e] at this
  owned := by rw [ht]; intro t h; cases h
  ids := by rw [ht]; intro t h; cases h
  ph cid := by
    rw [ht]
    refine .rest ⟨fun r hr => ?_, fun hr => ?_⟩ (hP cid)
    · unfold World.row? at hr
      have hm := List.mem_of_find?_eq_some hr
      have hc : r.cid = cid := by simpa using List.find?_some hr
      subst hc
      exact ⟨hi.conn r hm, hok r hm, by rw [own_tagged cfg _ hi.nodup r hm], fun hT => hd hT r hm⟩
    · have hno : cid ∉ c.w.rows.map (·.cid) := by
        intro hm
        obtain ⟨r, h1, h2⟩ := List.mem_map.mp hm
        rw [← h2, row?_mem hi.nodup h1] at hr
        cases hr
      have no : ¬ ∃ r ∈ c.w.rows, r.cid = cid := fun ⟨r, h1, h2⟩ => hno (List.mem_map.mpr ⟨r, h1, h2⟩)
      refine ⟨⟨hr, fun tm h1 => ?_, fun h1 => no (hi.links cid h1), fun h1 => no (hi.conf cid h1)⟩, own_tagged_none cfg cid _ hno⟩
      cases hc : tm.called with
      | true => rfl
      | false => exact absurd (hi.timers cid tm h1 hc).2 no

/-- The restart happened in time: the end of no reservation that is still held passed until it was over; with `T`, no start time, nor an
end time and the second after it, of a committed connection lies within it. -/
structure Fits (T : Bool) (c c' : Conc) : Prop where
  held : ∀ r ∈ c.w.rows, r.st.r = .held → ∀ e, r.end_ = some e → c'.w.clk ≤ e
  timely : T = true → ∀ r ∈ c.w.rows, r.st.l = .created → r.allocated = true →
    (∀ e, r.end_ = some e → e < c.w.clk ∨ c'.w.clk ≤ e + second) ∧ ∀ s, r.start = some s → s < c.w.clk ∨ c'.w.clk < s

/-- Calls after a restart. -/
theorem due_restarted {w w' : World} (hp : Restarted w w') (hn : (w.rows.map (·.cid)).Nodup) (hn' : (w'.rows.map (·.cid)).Nodup)
    (hrow : ∀ y ∈ w'.rows, RowOk w'.clk y) (ih : ∀ x ∈ w.rows, Due w.clk x (dget w.tbl x.cid) w.outbox)
    (ht : ∀ x ∈ w.rows, x.st.l = .created → x.allocated = true →
      (∀ e, x.end_ = some e → e < w.clk ∨ w'.clk ≤ e + second) ∧ ∀ s, x.start = some s → s < w.clk ∨ w'.clk < s) (y : Row) (hy : y ∈ w'.rows) :
    Due w'.clk y (dget w'.tbl y.cid) w'.outbox := by
  by_cases hl : y.st.l = .created
  · obtain ⟨x, hx, hxc⟩ := hp.old y hy
    obtain ⟨z, hz, hev⟩ := hp.ev x hx
    have := eq_of_cid hn' hz hy (hev.same.1.trans hxc)
    subst this
    have hxl : x.st.l = .created := Decidable.byContradiction fun a => hev.left a hl
    have hset := (ih x hx).settled hxl
    rcases hp.resumed z hy with ⟨a, b⟩ | ⟨x0, h1, h2, h3, h4⟩
    · obtain ⟨b1, b2⟩ := b x hx hxc
      refine ⟨fun _ => by rw [(b2 hl).1]; exact hset, fun c1 c2 c3 => ?_, a.activates⟩
      have hxal : x.allocated = true := by rw [← (b2 hl).2]; exact c2
      refine EndCall.due (a.ends c1 c2 c3) ?_
      intro e he
      rcases (ht x hx hxl hxal).1 e (by rw [← hev.same.2.2.2.2.2.2.2.2]; exact he) with d | d
      · rcases b1 e (by rw [← hev.same.2.2.2.2.2.2.2.2]; exact he) d with f | f
        · exact absurd hl f
        · rw [c2] at f; exact absurd f (by simp)
      · exact d
    · have := eq_of_cid hn h1 hx (h2.trans hxc.symm)
      subst this
      by_cases hxal : x0.allocated = true
      case neg =>
        have h5 := (hev.dropped h3 (by simpa using hxal)).2
        refine Due.idle h5 (Decidable.byContradiction fun hp => ?_)
        rw [(hrow z hy).pv hp] at h5; exact absurd h5 (by simp)
      exfalso
      rcases h4 with h4 | ⟨now, h5, h6, h7⟩
      · rcases hset with a | a <;> rw [a] at h4 <;> rcases h4 with b | b <;> exact absurd b (by simp)
      · rcases (ht x0 hx hxl hxal).2 now h7 with d | d <;> omega
  · exact Due.dead hl

/-- `P` stays true when the connections are loaded. -/
def LastsBoot (P : Str → Option (Row × Option Timer) → Prop) : Prop :=
  ∀ cid a tm b tm', (∃ t, RowOk t b) → Evolves a b → P cid (some (a, tm)) → P cid (some (b, tm'))

/-- A restart. -/
theorem apart_boot {c' : Conc} (hP : LastsBoot P) (h : Apart T cfg P L c tc) (hb : Boots cfg c c') (hf : Fits T c c') (L' : Nat → Job) :
    Apart T cfg P L' c' (tagged cfg c'.w.rows) := by
  have hi := h.inv hb.idle
  obtain ⟨hi', hr⟩ := hb.restarted hi
  have rest : ∀ cid, AtRest T cfg cid c.w tc ∧ P cid (c.w.seen cid) := fun cid => by
    have := h.ph cid
    rw [hb.idle] at this
    exact Ph.nil this
  have before : ∀ y ∈ c'.w.rows, ∃ x ∈ c.w.rows, x.cid = y.cid ∧ OkRow x ∧ Evolves x y ∧ (T = true → Due c.w.clk x (dget c.w.tbl x.cid) c.w.outbox) := by
    intro y hy
    obtain ⟨x, hx, hxc⟩ := hr.old y hy
    obtain ⟨z, hz, hev⟩ := hr.ev x hx
    have := eq_of_cid hi'.nodup hz hy (hev.same.1.trans hxc)
    subst this
    obtain ⟨_, h2, _, h3⟩ := (rest x.cid).1.here x (row?_mem h.nd hx)
    exact ⟨x, hx, hxc, h2, hev, h3⟩
  refine apart_of_inv hi' hb.over (fun y hy => ?_) (fun hT y hy => ?_) fun cid => ?_
  · obtain ⟨x, hx, hxc, hok, hev, _⟩ := before y hy
    have hro := (hi'.conn y hy).row
    have hst : y.st.r = .start ∨ y.st.r = .held := by
      rcases hro.rs with a | a | a
      · exact Or.inl a
      · exact Or.inr a.1
      · refine absurd a.1 (hr.quiet (fun x hx => ?_) y hy)
        rcases ((rest x.cid).1.here x (row?_mem h.nd hx)).2.1.state with b | b <;> rw [b] <;> simp
    refine ⟨fun ha => hro.pv (by rw [(hro.act ha).2.1]; simp), fun ha => ?_, hst, ?_, fun hl => ?_, hro.pv⟩
    · rcases hro.rs with a | a | a
      · exact a
      · rw [ha] at a; cases a.2
      · rw [ha] at a; cases a.2.2
    · intro e
      rcases hro.lc with a | a | a <;> rw [e] at a <;> cases a
    · refine hst.resolve_right fun hh => ?_
      obtain ⟨e, h1, _, h3⟩ := hro.ended hl
      have hxh : x.st.r = .held := by
        refine Classical.byContradiction fun hn => ?_
        cases ha : x.allocated with
        | false => exact (hev.dropped hn ha).1 hh
        | true =>
          have := hev.kept ha
          rcases hro.rs with a | a | a
          · rw [hh] at a; cases a
          · rw [this] at a; cases a.2
          · rw [this] at a; cases a.2.2
      have := hf.held x hx hxh e (by rw [← hev.same.2.2.2.2.2.2.2.2]; exact h1)
      have := h3 hh
      omega
  · refine due_restarted hr hi.nodup hi'.nodup (fun z hz => (hi'.conn z hz).row) (fun x hx => ?_) (hf.timely hT) y hy
    exact ((rest x.cid).1.here x (row?_mem h.nd hx)).2.2.2 hT
  · cases hy : c'.w.row? cid with
    | none =>
      rw [World.seen_none hy]
      have : c.w.row? cid = none := by
        cases hx : c.w.row? cid with
        | none => rfl
        | some x =>
          have hm : x ∈ c.w.rows := by unfold World.row? at hx; exact List.mem_of_find?_eq_some hx
          have hc : x.cid = cid := by unfold World.row? at hx; simpa using List.find?_some hx
          obtain ⟨z, hz, hev⟩ := hr.ev x hm
          have := row?_mem hi'.nodup hz
          rw [hev.same.1, hc, hy] at this
          cases this
      have hp := (rest cid).2
      rwa [World.seen_none this] at hp
    | some y =>
      rw [World.seen_some hy]
      have hm : y ∈ c'.w.rows := by unfold World.row? at hy; exact List.mem_of_find?_eq_some hy
      have hc : y.cid = cid := by unfold World.row? at hy; simpa using List.find?_some hy
      obtain ⟨x, hx, hxc, _, hev, _⟩ := before y hm
      have hp := (rest cid).2
      rw [World.seen_some (r := x) (by rw [← hc, ← hxc]; exact row?_mem h.nd hx)] at hp
      exact hP cid x _ y _ ⟨_, (hi'.conn y hm).row⟩ hev hp

end

/-- What executions lead to in which no two operations on a connection overlap, with restarts in between. -/
inductive Leads (T : Bool) (cfg : Cfg) (c : Conc) (L : Nat → Job) : Conc → (Nat → Job) → Prop
  | refl : Leads T cfg c L c L
  | run {c1 : Conc} {L1 : Nat → Job} (s : List (Oracle × Choice)) : Leads T cfg c L c1 L1 → OneByOne T cfg c1 L1 s →
      Leads T cfg c L (c1.run cfg s) (jobs cfg c1 L1 s)
  | boot {c1 c2 : Conc} {L1 : Nat → Job} : Leads T cfg c L c1 L1 → Boots cfg c1 c2 → Fits T c1 c2 → Leads T cfg c L c2 L1

theorem Leads.trans {T : Bool} {cfg : Cfg} {c c1 c2 : Conc} {L L1 L2 : Nat → Job} (h : Leads T cfg c L c1 L1) (k : Leads T cfg c1 L1 c2 L2) : Leads T cfg c L c2 L2 := by
  induction k with
  | refl => exact h
  | run s _ hs ih => exact .run s ih hs
  | boot _ hb hf ih => exact .boot ih hb hf

theorem apart_leads {T : Bool} {cfg : Cfg} {P : Str → Option (Row × Option Timer) → Prop} (hP : Lasts P) (hB : LastsBoot P) {c c' : Conc} {L L' : Nat → Job}
    {tc : List (Str × Resv)} (h : Apart T cfg P L c tc) (hl : Leads T cfg c L c' L') : ∃ tc', Apart T cfg P L' c' tc' := by
  induction hl with
  | refl => exact ⟨tc, h⟩
  | run s _ hs ih =>
    obtain ⟨tc', h'⟩ := ih
    exact apart_run hP s h' hs
  | boot _ hb hf ih =>
    obtain ⟨tc', h'⟩ := ih
    exact ⟨_, apart_boot hB h' hb hf _⟩

end OpenNSA.Backend
