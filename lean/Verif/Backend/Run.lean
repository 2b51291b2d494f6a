import Verif.Backend.Model
/-
Proof machinery for backend programs: a demonic weakest precondition over all environment choices, and a local version of it
for the part of a program that works on one connection only.
-/
namespace OpenNSA.Backend
open OpenNSA Py Prog

/-! ### Monad laws needed -/

@[simp] theorem bind_eq {α β : Type} (p : Prog α) (f : α → Prog β) : (p >>= f) = p.bind f := rfl
@[simp] theorem pure_eq {α : Type} (a : α) : (Pure.pure a : Prog α) = Prog.pure a := rfl

/-! ### Demonic precondition on worlds -/

/-- `p` started in `w` ends with `Q`, whatever the environment chooses at each command. -/
def All {α : Type} : Prog α → (World → Except Err α → Prop) → World → Prop
  | .pure a, Q, w => Q w (.ok a)
  | .throw e, Q, w => Q w (.error e)
  | .cmd c k, Q, w => ∀ (t : Time) (o : Oracle), w.clk ≤ t →
      All (k (execAt { w with clk := t, orc := o } c).2) Q (execAt { w with clk := t, orc := o } c).1
  | .spawn p k, Q, w => All p (fun w' _ => All k Q w') w

theorem advance_eq (w : World) : ∃ t o, w.clk ≤ t ∧ w.advance = { w with clk := t, orc := o } := by
  unfold World.advance
  split
  · exact ⟨w.clk, w.orc, Int.le_refl _, rfl⟩
  · rename_i t ts _
    exact ⟨w.clk + (t : Int), { w.orc with ticks := ts }, by omega, rfl⟩

theorem run_of_All {α : Type} {p : Prog α} : ∀ {Q : World → Except Err α → Prop} {w : World}, All p Q w →
    Q (p.run w).1 (p.run w).2 := by
  induction p with
  | pure a => intro Q w h; exact h
  | throw e => intro Q w h; exact h
  | cmd c k ih =>
    intro Q w h
    obtain ⟨t, o, ht, he⟩ := advance_eq w
    have := ih _ (h t o ht)
    simp only [Prog.run, exec, he]
    exact this
  | spawn p k ihp ihk => intro Q w h; exact ihk (ihp h)

theorem All_mono {α : Type} {p : Prog α} : ∀ {Q Q' : World → Except Err α → Prop} {w : World},
    (∀ w r, Q w r → Q' w r) → All p Q w → All p Q' w := by
  induction p with
  | pure a => intro Q Q' w hq h; exact hq _ _ h
  | throw e => intro Q Q' w hq h; exact hq _ _ h
  | cmd c k ih => intro Q Q' w hq h t o ht; exact ih _ hq (h t o ht)
  | spawn p k ihp ihk => intro Q Q' w hq h; exact ihp (fun w _ h => ihk hq h) h

/-- Continuation after a result. -/
def cont {σ α β : Type} (Q : σ → Except Err β → Prop) (f : α → σ → Prop) (s : σ) : Except Err α → Prop
  | .ok a => f a s
  | .error e => Q s (.error e)

/-- Handler after a result. -/
def caught {σ α : Type} (Q : σ → Except Err α → Prop) (f : Err → σ → Prop) (s : σ) : Except Err α → Prop
  | .ok a => Q s (.ok a)
  | .error e => f e s

@[simp] theorem cont_ok {σ α β : Type} (Q : σ → Except Err β → Prop) (f : α → σ → Prop) (s : σ) (a : α) :
    cont Q f s (.ok a) = f a s := rfl
@[simp] theorem cont_error {σ α β : Type} (Q : σ → Except Err β → Prop) (f : α → σ → Prop) (s : σ) (e : Err) :
    cont Q f s (.error e) = Q s (.error e) := rfl
@[simp] theorem caught_ok {σ α : Type} (Q : σ → Except Err α → Prop) (f : Err → σ → Prop) (s : σ) (a : α) :
    caught Q f s (.ok a) = Q s (.ok a) := rfl
@[simp] theorem caught_error {σ α : Type} (Q : σ → Except Err α → Prop) (f : Err → σ → Prop) (s : σ) (e : Err) :
    caught Q f s (.error e) = f e s := rfl

theorem All_bind {α β : Type} {p : Prog α} {f : α → Prog β} : ∀ {Q : World → Except Err β → Prop} {w : World},
    All (p.bind f) Q w ↔ All p (cont Q fun a w => All (f a) Q w) w := by
  induction p with
  | pure a => intro Q w; rfl
  | throw e => intro Q w; rfl
  | cmd c k ih =>
    intro Q w
    simp only [Prog.bind, All]
    exact forall_congr' fun t => forall_congr' fun o => forall_congr' fun _ => ih _
  | spawn p k ihp ihk =>
    intro Q w
    simp only [Prog.bind, All]
    constructor
    · exact All_mono fun _ _ h => ihk.mp h
    · exact All_mono fun _ _ h => ihk.mpr h

theorem All_tryCatch {α : Type} {p : Prog α} {f : Err → Prog α} : ∀ {Q : World → Except Err α → Prop} {w : World},
    All (p.tryCatch f) Q w ↔ All p (caught Q fun e w => All (f e) Q w) w := by
  induction p with
  | pure a => intro Q w; rfl
  | throw e => intro Q w; rfl
  | cmd c k ih =>
    intro Q w
    simp only [Prog.tryCatch, All]
    exact forall_congr' fun t => forall_congr' fun o => forall_congr' fun _ => ih _
  | spawn p k ihp ihk =>
    intro Q w
    simp only [Prog.tryCatch, All]
    constructor
    · exact All_mono fun _ _ h => ihk.mp h
    · exact All_mono fun _ _ h => ihk.mpr h

theorem All_issue {β : Type} {c : Cmd β} {Q : World → Except Err β → Prop} {w : World} :
    All (issue c) Q w ↔ ∀ (t : Time) (o : Oracle), w.clk ≤ t →
      Q (execAt { w with clk := t, orc := o } c).1 (execAt { w with clk := t, orc := o } c).2 := by
  simp only [issue, All]
  refine forall_congr' fun t => forall_congr' fun o => forall_congr' fun _ => ?_
  generalize execAt _ c = r
  obtain ⟨w', r⟩ := r
  cases r <;> rfl

/-! ### Local precondition -/

/-- What a program working on one connection sees: the stored row, its object in memory, calendar, the connection's timer,
whether its link is up, messages sent, clock. -/
structure S where
  row : Row
  obj : Row
  cal : Cal
  tm : Option Timer
  up : Bool
  out : List Msg
  clk : Time

/-- There is a call that has not been made yet. -/
def busy : Option Timer → Bool
  | some ⟨_, _, _, false⟩ => true
  | _ => false

/-- Result of `scheduleCall` on the connection's timer. -/
def schedRes (s : S) (t : Time) (act : Act) (ref : Nat) (K : S → Except Err Unit → Prop) : Prop :=
  if busy s.tm then K s (.error .assertion)
  else if t < s.clk - second then K s (.error .assertion)
  else K { s with tm := some ⟨max t s.clk, act, ref, false⟩ } (.ok ())

/-- A command on one connection; `False` for commands that are not local to it. -/
def LCmd (cid : Str) (ref : Nat) : {β : Type} → Cmd β → S → (S → Except Err β → Prop) → Prop
  | _, .find _, _, _ => False
  | _, .findLive, _, _ => False
  | _, .newObj _, _, _ => False
  | _, .newId, _, _ => False
  | _, .save r, s, K => r = ref ∧ ∀ t, s.clk ≤ t → K { s with row := s.obj, clk := t } (.ok ())
  | _, .setup c, s, K => c = cid ∧ ∀ t, s.clk ≤ t →
      K { s with up := true, clk := t } (.ok ()) ∧ ∀ b, K { s with up := b || s.up, clk := t } (.error .device)
  | _, .teardown c, s, K => c = cid ∧ ∀ t, s.clk ≤ t →
      K { s with up := false, clk := t } (.ok ()) ∧ ∀ b, K { s with up := !b && s.up, clk := t } (.error .device)
  | _, .call m, s, K => ∀ t, s.clk ≤ t →
      K { s with out := s.out ++ [m], clk := t } (.ok ()) ∧ K { s with out := s.out ++ [m], clk := t } (.error .parent)
  | _, .tell m, s, K => ∀ t, s.clk ≤ t → K { s with out := s.out ++ [m], clk := t } (.ok ())
  | _, .getObj r, s, K => r = ref ∧ ∀ t, s.clk ≤ t → K { s with clk := t } (.ok s.obj)
  | _, .setObj r row, s, K => r = ref ∧ row.cid = cid ∧ ∀ t, s.clk ≤ t → K { s with obj := row, clk := t } (.ok ())
  | _, .now, s, K => ∀ t, s.clk ≤ t → K { s with clk := t } (.ok t)
  | _, .calCheck r, s, K => ∀ t, s.clk ≤ t →
      K { s with clk := t } (match s.cal.check t r with | .ok _ => .ok () | .error e => .error (calErr e))
  | _, .calAdd r, s, K => ∀ t, s.clk ≤ t → K { s with cal := s.cal.add r, clk := t } (.ok ())
  | _, .calRemove r, s, K => ∀ t, s.clk ≤ t →
      match s.cal.remove r with
      | .ok c => K { s with cal := c, clk := t } (.ok ())
      | .error e => K { s with clk := t } (.error (calErr e))
  | _, .sched c t' act r, s, K => c = cid ∧ r = ref ∧ ∀ t, s.clk ≤ t → schedRes { s with clk := t } t' act r K
  | _, .cancel c, s, K => c = cid ∧ ∀ t, s.clk ≤ t → K { s with tm := none, clk := t } (.ok ())
  | _, .hasCall c, s, K => c = cid ∧ ∀ t, s.clk ≤ t → K { s with clk := t } (.ok s.tm.isSome)
  | _, .notifId, s, K => ∀ t n, s.clk ≤ t → K { s with clk := t } (.ok n)

/-- Local demonic precondition. -/
def LAll (cid : Str) (ref : Nat) {α : Type} : Prog α → (S → Except Err α → Prop) → S → Prop
  | .pure a, Q, s => Q s (.ok a)
  | .throw e, Q, s => Q s (.error e)
  | .cmd c k, Q, s => LCmd cid ref c s fun s' r => LAll cid ref (k r) Q s'
  | .spawn p k, Q, s => LAll cid ref p (fun s' _ => LAll cid ref k Q s') s

theorem LCmd_mono {cid : Str} {ref : Nat} {β : Type} {c : Cmd β} {s : S} {K K' : S → Except Err β → Prop}
    (hk : ∀ s r, K s r → K' s r) (h : LCmd cid ref c s K) : LCmd cid ref c s K' := by
  cases c <;> simp only [LCmd] at h ⊢ <;> try exact h
  all_goals first
    | exact ⟨h.1, fun t ht => hk _ _ (h.2 t ht)⟩
    | exact ⟨h.1, fun t ht => ⟨hk _ _ (h.2 t ht).1, fun b => hk _ _ ((h.2 t ht).2 b)⟩⟩
    | exact fun t ht => ⟨hk _ _ (h t ht).1, hk _ _ (h t ht).2⟩
    | exact fun t ht => hk _ _ (h t ht)
    | exact ⟨h.1, h.2.1, fun t ht => hk _ _ (h.2.2 t ht)⟩
    | exact fun t n ht => hk _ _ (h t n ht)
    | skip
  · intro t ht
    have := h t ht
    revert this
    cases s.cal.remove _ <;> exact hk _ _
  · refine ⟨h.1, h.2.1, fun t ht => ?_⟩
    have := h.2.2 t ht
    unfold schedRes at this ⊢
    split at this
    · rename_i e; rw [if_pos e]; exact hk _ _ this
    · rename_i e; rw [if_neg e]
      split at this
      · rename_i e; rw [if_pos e]; exact hk _ _ this
      · rename_i e; rw [if_neg e]; exact hk _ _ this

theorem LAll_mono {cid : Str} {ref : Nat} {α : Type} {p : Prog α} : ∀ {Q Q' : S → Except Err α → Prop} {s : S},
    (∀ s r, Q s r → Q' s r) → LAll cid ref p Q s → LAll cid ref p Q' s := by
  induction p with
  | pure a => intro Q Q' s hq h; exact hq _ _ h
  | throw e => intro Q Q' s hq h; exact hq _ _ h
  | cmd c k ih => intro Q Q' s hq h; exact LCmd_mono (fun s r h => ih r hq h) h
  | spawn p k ihp ihk => intro Q Q' s hq h; exact ihp (fun s _ h => ihk hq h) h

theorem LAll_bind {cid : Str} {ref : Nat} {α β : Type} {p : Prog α} {f : α → Prog β} :
    ∀ {Q : S → Except Err β → Prop} {s : S},
    LAll cid ref (p.bind f) Q s ↔ LAll cid ref p (cont Q fun a s => LAll cid ref (f a) Q s) s := by
  induction p with
  | pure a => intro Q s; rfl
  | throw e => intro Q s; rfl
  | cmd c k ih =>
    intro Q s
    simp only [Prog.bind, LAll]
    exact ⟨LCmd_mono fun _ _ => (ih _).mp, LCmd_mono fun _ _ => (ih _).mpr⟩
  | spawn p k ihp ihk =>
    intro Q s
    simp only [Prog.bind, LAll]
    exact ⟨LAll_mono fun _ _ h => ihk.mp h, LAll_mono fun _ _ h => ihk.mpr h⟩

theorem LAll_tryCatch {cid : Str} {ref : Nat} {α : Type} {p : Prog α} {f : Err → Prog α} :
    ∀ {Q : S → Except Err α → Prop} {s : S},
    LAll cid ref (p.tryCatch f) Q s ↔ LAll cid ref p (caught Q fun e s => LAll cid ref (f e) Q s) s := by
  induction p with
  | pure a => intro Q s; rfl
  | throw e => intro Q s; rfl
  | cmd c k ih =>
    intro Q s
    simp only [Prog.tryCatch, LAll]
    exact ⟨LCmd_mono fun _ _ => (ih _).mp, LCmd_mono fun _ _ => (ih _).mpr⟩
  | spawn p k ihp ihk =>
    intro Q s
    simp only [Prog.tryCatch, LAll]
    exact ⟨LAll_mono fun _ _ h => ihk.mp h, LAll_mono fun _ _ h => ihk.mpr h⟩

theorem LAll_issue {cid : Str} {ref : Nat} {β : Type} {c : Cmd β} {Q : S → Except Err β → Prop} {s : S} :
    LAll cid ref (issue c) Q s ↔ LCmd cid ref c s Q := by
  simp only [issue, LAll]
  constructor
  · refine LCmd_mono fun s r h => ?_
    cases r <;> exact h
  · refine LCmd_mono fun s r h => ?_
    cases r <;> exact h

/-! ### From local to global -/

/-- World `w`, reached from `w0` by working on connection `cid` through object `ref`, looks like `s`; everything about other
connections is as in `w0`. -/
structure Rel (w0 : World) (cid : Str) (ref : Nat) (w : World) (s : S) : Prop where
  rows : w.rows = setRow w0.rows s.row
  rcid : s.row.cid = cid
  ocid : s.obj.cid = cid
  obj : w.heap[ref]? = some ⟨s.obj, false⟩
  heap : ∀ i, i ≠ ref → w.heap[i]? = w0.heap[i]?
  cal : w.cal = s.cal
  tm : dget w.tbl cid = s.tm
  tbl : ∀ c, c ≠ cid → dget w.tbl c = dget w0.tbl c
  up : decide (cid ∈ w.links) = s.up
  links : ∀ c, c ≠ cid → (c ∈ w.links ↔ c ∈ w0.links)
  out : w.outbox = w0.outbox ++ s.out
  clk : w.clk = s.clk
  ids : w.otherIds = w0.otherIds

theorem setRow_setRow (rows : List Row) (a b : Row) (h : a.cid = b.cid) : setRow (setRow rows a) b = setRow rows b := by
  simp only [setRow, List.map_map]
  apply List.map_congr_left
  intro r _
  simp only [Function.comp]
  by_cases hr : r.cid = a.cid
  · rw [if_pos hr, if_pos h, if_pos (by rw [hr, h])]
  · rw [if_neg hr]

theorem dmem_eq {κ ν : Type} [DecidableEq κ] (d : List (κ × ν)) (k : κ) : dmem d k = (dget d k).isSome := rfl

theorem Rel_cmd {w0 : World} {cid : Str} {ref : Nat} {w : World} {s : S} (h : Rel w0 cid ref w s) {β : Type} (c : Cmd β)
    {K : S → Except Err β → Prop} (hl : LCmd cid ref c s K) (t : Time) (o : Oracle) (ht : w.clk ≤ t) :
    ∃ s', Rel w0 cid ref (execAt { w with clk := t, orc := o } c).1 s' ∧
      K s' (execAt { w with clk := t, orc := o } c).2 := by
  rw [h.clk] at ht
  have base : Rel w0 cid ref { w with clk := t, orc := o } { s with clk := t } :=
    { rows := h.rows, rcid := h.rcid, ocid := h.ocid, obj := h.obj, heap := h.heap, cal := h.cal, tm := h.tm, tbl := h.tbl,
      up := h.up, links := h.links, out := h.out, clk := rfl, ids := h.ids }
  have hlen : ref < w.heap.length := by
    have := h.obj
    rw [List.getElem?_eq_some_iff] at this
    exact this.1
  cases c with
  | find _ => exact absurd hl (by simp [LCmd])
  | findLive => exact absurd hl (by simp [LCmd])
  | newObj _ => exact absurd hl (by simp [LCmd])
  | newId => exact absurd hl (by simp [LCmd])
  | save r =>
    simp only [LCmd] at hl
    obtain ⟨rfl, hl⟩ := hl
    simp only [execAt, h.obj]
    refine ⟨_, ?_, hl t ht⟩
    exact { base with
      rows := by simp only [h.rows]; exact setRow_setRow _ _ _ (by rw [h.rcid, h.ocid])
      rcid := h.ocid }
  | setup c =>
    simp only [LCmd] at hl
    obtain ⟨rfl, hl⟩ := hl
    simp only [execAt, World.dev]
    have hup : ∀ (x : List Dev), Rel w0 c ref { w with clk := t, orc := { o with devs := x }, links := c :: w.links }
        { s with up := true, clk := t } := fun x =>
      { base with
        up := by simp
        links := by
          intro c' hc'
          simp only [List.mem_cons, hc', false_or]
          exact h.links c' hc' }
    cases hd : o.devs with
    | nil =>
      refine ⟨_, ?_, (hl t ht).1⟩
      have := hup []
      rw [show ({ o with devs := [] } : Oracle) = o by rw [← hd]] at this
      exact this
    | cons d ds =>
      cases d with
      | ok => exact ⟨_, hup ds, (hl t ht).1⟩
      | failed b =>
        refine ⟨_, ?_, (hl t ht).2 b⟩
        cases b with
        | true => simpa using hup ds
        | false => simp only [Bool.false_or]; exact { base with }
  | teardown c =>
    simp only [LCmd] at hl
    obtain ⟨rfl, hl⟩ := hl
    simp only [execAt, World.dev]
    have hup : ∀ (x : List Dev), Rel w0 c ref { w with clk := t, orc := { o with devs := x }, links := w.links.filter (· ≠ c) }
        { s with up := false, clk := t } := fun x =>
      { base with
        up := by simp
        links := by
          intro c' hc'
          simp only [List.mem_filter, ne_eq, hc', not_false_eq_true, decide_true, and_true]
          exact h.links c' hc' }
    cases hd : o.devs with
    | nil =>
      refine ⟨_, ?_, (hl t ht).1⟩
      have := hup []
      rw [show ({ o with devs := [] } : Oracle) = o by rw [← hd]] at this
      exact this
    | cons d ds =>
      cases d with
      | ok => exact ⟨_, hup ds, (hl t ht).1⟩
      | failed b =>
        refine ⟨_, ?_, (hl t ht).2 b⟩
        cases b with
        | true => simpa using hup ds
        | false => simp only [Bool.not_false, Bool.true_and]; exact { base with }
  | call m =>
    simp only [LCmd] at hl
    have hb : ∀ (x : List Bool), Rel w0 cid ref { w with clk := t, orc := { o with parents := x }, outbox := w.outbox ++ [m] }
        { s with out := s.out ++ [m], clk := t } := fun x =>
      { base with out := by simp [h.out] }
    simp only [execAt]
    cases hd : o.parents with
    | nil =>
      have := hb []
      rw [show ({ o with parents := [] } : Oracle) = o by rw [← hd]] at this
      exact ⟨_, this, (hl t ht).1⟩
    | cons b bs =>
      refine ⟨_, hb bs, ?_⟩
      cases b
      · exact (hl t ht).2
      · exact (hl t ht).1
  | tell m =>
    simp only [LCmd] at hl
    refine ⟨_, ?_, hl t ht⟩
    exact { base with out := by simp [execAt, h.out] }
  | getObj r =>
    simp only [LCmd] at hl
    obtain ⟨rfl, hl⟩ := hl
    simp only [execAt, h.obj]
    exact ⟨_, base, hl t ht⟩
  | setObj r row =>
    simp only [LCmd] at hl
    obtain ⟨rfl, hc, hl⟩ := hl
    simp only [execAt, h.obj]
    refine ⟨_, ?_, hl t ht⟩
    exact { base with
      ocid := hc
      obj := by simp [hlen]
      heap := by intro i hi; simp only; rw [List.getElem?_set_ne (Ne.symm hi)]; exact h.heap i hi }
  | now => exact ⟨_, base, hl t ht⟩
  | calCheck r =>
    simp only [LCmd] at hl
    refine ⟨_, base, ?_⟩
    have := hl t ht
    simp only [execAt]
    rw [h.cal]; exact this
  | calAdd r =>
    simp only [LCmd] at hl
    refine ⟨_, ?_, hl t ht⟩
    exact { base with cal := by simp [execAt, h.cal] }
  | calRemove r =>
    simp only [LCmd] at hl
    have := hl t ht
    simp only [execAt, h.cal]
    cases hr : s.cal.remove r with
    | ok c => rw [hr] at this; refine ⟨_, ?_, this⟩; exact { base with cal := rfl }
    | error e => rw [hr] at this; refine ⟨_, ?_, this⟩; exact { base with cal := rfl }
  | sched c t' act r =>
    simp only [LCmd] at hl
    obtain ⟨rfl, rfl, hl⟩ := hl
    have := hl t ht
    unfold schedRes at this
    simp only [execAt]
    rw [h.tm]
    split
    · rename_i e
      simp only [e, busy, if_true] at this
      rw [← e] at this
      exact ⟨_, base, this⟩
    · rename_i hn
      have hb : busy s.tm = false := by
        unfold busy
        split
        · rename_i e; exact absurd e (hn _ _ _)
        · rfl
      simp only [hb, Bool.false_eq_true, if_false] at this
      have hk := this
      by_cases hs : t' < t - second
      · simp only [if_pos hs] at hk ⊢; exact ⟨_, base, hk⟩
      · simp only [if_neg hs] at hk ⊢
        refine ⟨_, ?_, hk⟩
        exact { base with
          tm := by simp [dget_dset]
          tbl := by intro c' hc'; simp only; rw [dget_dset, if_neg (Ne.symm hc')]; exact h.tbl c' hc' }
  | cancel c =>
    simp only [LCmd] at hl
    obtain ⟨rfl, hl⟩ := hl
    refine ⟨_, ?_, hl t ht⟩
    exact { base with
      tm := by simp [execAt, dget_ddel]
      tbl := by intro c' hc'; simp only [execAt]; rw [dget_ddel, if_neg (Ne.symm hc')]; exact h.tbl c' hc' }
  | hasCall c =>
    simp only [LCmd] at hl
    obtain ⟨rfl, hl⟩ := hl
    refine ⟨_, base, ?_⟩
    simp only [execAt, dmem_eq, h.tm]
    exact hl t ht
  | notifId => exact ⟨_, { base with }, hl t _ ht⟩

/-- A local program run on a world looks like its local run. -/
theorem All_of_LAll {w0 : World} {cid : Str} {ref : Nat} {α : Type} {p : Prog α} :
    ∀ {Q : S → Except Err α → Prop} {w : World} {s : S}, LAll cid ref p Q s → Rel w0 cid ref w s →
      All p (fun w' r => ∃ s', Rel w0 cid ref w' s' ∧ Q s' r) w := by
  induction p with
  | pure a => intro Q w s h hr; exact ⟨s, hr, h⟩
  | throw e => intro Q w s h hr; exact ⟨s, hr, h⟩
  | cmd c k ih =>
    intro Q w s h hr t o ht
    obtain ⟨s', hr', hk⟩ := Rel_cmd hr c h t o ht
    exact ih _ hk hr'
  | spawn p k ihp ihk =>
    intro Q w s h hr
    refine All_mono (p := p) ?_ (ihp h hr)
    rintro w' r ⟨s', hr', hk⟩
    exact ihk hk hr'

end OpenNSA.Backend
