import Verif.Backend.ApartView
/-
Interleaved execution, at most one operation at a time per connection: running an operation up to its next suspension. Provisioning starts
the activation as a coroutine of its own; the two then run beside each other on the same row object.
-/
namespace OpenNSA.Backend
open OpenNSA Py Prog

/-! ### Operations that start another coroutine -/

/-- Neither asynchronous commands nor other coroutines. -/
def Quick {α : Type} : Prog α → Prop
  | .pure _ => True
  | .throw _ => True
  | .cmd c k => c.isAsync = false ∧ ∀ r, Quick (k r)
  | .spawn _ _ => False

/-- Stores the row object. -/
def _root_.OpenNSA.Backend.Cmd.stores {β : Type} : Cmd β → Bool
  | .save _ => true
  | _ => false

/-- Saves at most once, and is not suspended any more after that. -/
def Shape {α : Type} : Prog α → Prop
  | .pure _ => True
  | .throw _ => True
  | .cmd c k => match c with
    | .save _ => ∀ r, Quick (k r)
    | _ => ∀ r, Shape (k r)
  | .spawn _ _ => False

/-- Only sends messages, no confirmations of reservations. -/
def Tail {α : Type} : Prog α → Prop
  | .pure _ => True
  | .throw _ => True
  | .cmd c k => (match c with | .tell m => ∀ a b c d e f, m ≠ Msg.reserveConfirmed a b c d e f | _ => False) ∧ ∀ r, Tail (k r)
  | .spawn _ _ => False

/-- Saves the row object, and then only sends messages. -/
def SaveTail (ref : Nat) {α : Type} : Prog α → Prop
  | .cmd c k => (match c with | .save r => r = ref | _ => False) ∧ ∀ r, Tail (k r)
  | _ => False

/-- Up to the first asynchronous command. -/
def Head (cid : Str) (ref : Nat) {α : Type} : Prog α → (Prog α → S → Prop) → S → Prop
  | .cmd c k, G, s => if c.isAsync then G (.cmd c k) s else Rok cid c s ∧ LCmd cid ref c s fun s' r => Head cid ref (k r) G s'
  | _, _, _ => False

/-- Whatever the stored row, the coroutine ends with `D`, row and row object being the same; saves once. -/
def Lone (cid : Str) (ref : Nat) (D : S → Prop) {α : Type} (p : Prog α) (s : S) : Prop :=
  Shape p ∧ ∀ ρ, R0 cid ref p (fun s' _ => s'.row = s'.obj ∧ D s') { s with row := ρ }

/-- Local condition of an operation that may start another coroutine: a last one, or one that runs beside it until both have saved the row object. `D`: to hold in the end. -/
def R1 (cid : Str) (ref : Nat) (ow : Option Str) (D : S → Prop) {α : Type} : Prog α → (S → Except Err α → Prop) → S → Prop
  | .pure a, Q, s => Q s (.ok a)
  | .throw e, Q, s => Q s (.error e)
  | .cmd c k, Q, s => Rok cid c s ∧ LCmd cid ref c s fun s' r => R1 cid ref ow D (k r) Q s'
  | .spawn p k, _, s => ow = none ∧ (((∃ a, k = .pure a) ∧ R0 cid ref p (fun s' _ => D s') s) ∨
      Head cid ref p (fun a s1 => Head cid ref k (fun b s2 => Lone cid ref D a s2 ∧ SaveTail ref b) s1) s)

section
variable {cid : Str} {ref : Nat} {ow : Option Str} {D : S → Prop}

theorem R1_of_R0 {α : Type} {p : Prog α} : ∀ {Q : S → Except Err α → Prop} {s : S}, R0 cid ref p Q s → R1 cid ref ow D p Q s := by
  induction p with
  | pure a => intro Q s h; exact h
  | throw e => intro Q s h; exact h
  | cmd c k ih => intro Q s h; exact ⟨h.1, LCmd_mono (fun _ r h => ih r h) h.2⟩
  | spawn p k ihp ihk => intro Q s h; exact h.elim

theorem R1_bind {α β : Type} {p : Prog α} {f : α → Prog β} : ∀ {Q : S → Except Err β → Prop} {s : S},
    R0 cid ref p (cont Q fun a s => R1 cid ref ow D (f a) Q s) s → R1 cid ref ow D (p.bind f) Q s := by
  induction p with
  | pure a => intro Q s h; exact h
  | throw e => intro Q s h; exact h
  | cmd c k ih => intro Q s h; exact ⟨h.1, LCmd_mono (fun _ r h => ih r h) h.2⟩
  | spawn p k ihp ihk => intro Q s h; exact h.elim

theorem Head_mono {α : Type} {p : Prog α} : ∀ {G G' : Prog α → S → Prop} {s : S}, (∀ a s, G a s → G' a s) → Head cid ref p G s → Head cid ref p G' s := by
  induction p with
  | pure a => intro G G' s _ h; exact h
  | throw e => intro G G' s _ h; exact h
  | cmd c k ih =>
    intro G G' s hg h
    simp only [Head] at h ⊢
    split
    · rename_i hc; rw [if_pos hc] at h; exact hg _ _ h
    · rename_i hc; rw [if_neg hc] at h; exact ⟨h.1, LCmd_mono (fun _ r h => ih r hg h) h.2⟩
  | spawn p k _ _ => intro G G' s _ h; exact h

/-- Commands other than `save` do not see the stored row. -/
theorem LCmd_row {β : Type} {c : Cmd β} {s : S} {K : S → Except Err β → Prop} (hc : c.stores = false)
    (h : ∀ ρ, LCmd cid ref c { s with row := ρ } K) : LCmd cid ref c s fun s' r => ∀ ρ, K { s' with row := ρ } r := by
  cases c with
  | save r => simp [Cmd.stores] at hc
  | find _ => exact absurd (h s.row) (by simp [LCmd])
  | findLive => exact absurd (h s.row) (by simp [LCmd])
  | newObj _ => exact absurd (h s.row) (by simp [LCmd])
  | newId => exact absurd (h s.row) (by simp [LCmd])
  | getObj r => exact ⟨(h s.row).1, fun t ht ρ => (h ρ).2 t ht⟩
  | setObj r row => exact ⟨(h s.row).1, (h s.row).2.1, fun t ht ρ => (h ρ).2.2 t ht⟩
  | calRemove r =>
    simp only [LCmd] at h ⊢
    intro t ht
    revert h
    cases s.cal.remove r with
    | ok c => intro h ρ; exact h ρ t ht
    | error e => intro h ρ; exact h ρ t ht
  | sched b t' act r =>
    refine ⟨(h s.row).1, (h s.row).2.1, fun t ht => ?_⟩
    have h' := fun ρ => (h ρ).2.2 t ht
    unfold schedRes at h' ⊢
    split
    · rename_i e; intro ρ; have := h' ρ; rw [if_pos e] at this; exact this
    · rename_i e
      split
      · rename_i e2; intro ρ; have := h' ρ; rw [if_neg e, if_pos e2] at this; exact this
      · rename_i e2; intro ρ; have := h' ρ; rw [if_neg e, if_neg e2] at this; exact this
  | setup b => exact ⟨(h s.row).1, fun t ht => ⟨fun ρ => ((h ρ).2 t ht).1, fun b ρ => ((h ρ).2 t ht).2 b⟩⟩
  | teardown b => exact ⟨(h s.row).1, fun t ht => ⟨fun ρ => ((h ρ).2 t ht).1, fun b ρ => ((h ρ).2 t ht).2 b⟩⟩
  | call m => exact fun t ht => ⟨fun ρ => (h ρ t ht).1, fun ρ => (h ρ t ht).2⟩
  | cancel r => exact ⟨(h s.row).1, fun t ht ρ => (h ρ).2 t ht⟩
  | hasCall r => exact ⟨(h s.row).1, fun t ht ρ => (h ρ).2 t ht⟩
  | notifId => exact fun t n ht ρ => h ρ t n ht
  | tell m => exact fun t ht ρ => h ρ t ht
  | now => exact fun t ht ρ => h ρ t ht
  | calCheck r => exact fun t ht ρ => h ρ t ht
  | calAdd r => exact fun t ht ρ => h ρ t ht

end

/-! ### Running -/

/-- No scheduled call of the connection is suspended. -/
def Unowned (cid : Str) (ts : List Task) : Prop := ∀ t ∈ ts, t.owner ≠ some cid

theorem unowned_cancel {cid : Str} {ts : List Task} (h : Unowned cid ts) (n : Nat) :
    (ts.flatMap fun t => if t.owner = some cid then t.cancelled n else [t]) = ts := by
  induction ts with
  | nil => rfl
  | cons t ts ih =>
    simp only [List.flatMap_cons, if_neg (h t (by simp)), ih (fun x hx => h x (by simp [hx]))]
    rfl

theorem unowned_disown {cid : Str} {ts : List Task} (h : Unowned cid ts) :
    (ts.map fun t => if t.owner = some cid then { t with owner := none } else t) = ts := by
  induction ts with
  | nil => rfl
  | cons t ts ih => simp only [List.map_cons, if_neg (h t (by simp)), ih (fun x hx => h x (by simp [hx]))]

/-- Commands of a local operation leave the other tasks alone. -/
theorem sync_tasks {cid : Str} {ref : Nat} {β : Type} {c : Conc} {y : Cmd β} {s : S} {K : S → Except Err β → Prop} (hl : LCmd cid ref y s K)
    (hu : Unowned cid c.tasks) : (c.sync y).1.tasks = c.tasks ∧ c.next ≤ (c.sync y).1.next ∧ (c.sync y).1.done = c.done ∧
      (c.sync y).1.w = (exec c.w y).1 ∧ (c.sync y).2 = (exec c.w y).2 := by
  have hdone : ∀ {w : World} {b : Bool} {d : Conc}, (d.affect w b y).done = d.done := by
    intro w b d
    cases y <;> simp only [Conc.affect] <;> (try split) <;> rfl
  refine ⟨?_, ?_, ?_, by simp only [Conc.sync, affect_w], rfl⟩
  · cases y with
    | cancel a =>
      obtain ⟨rfl, _⟩ := hl
      simp only [Conc.sync, Conc.affect]
      split
      · exact unowned_cancel hu _
      · rfl
    | sched a t act r =>
      obtain ⟨rfl, _⟩ := hl
      simp only [Conc.sync, Conc.affect]
      split
      · exact unowned_disown hu
      · rfl
    | _ => rfl
  · cases y with
    | cancel a => simp only [Conc.sync, Conc.affect]; split <;> simp [Conc.cancelCall]
    | sched a t act r => simp only [Conc.sync, Conc.affect]; split <;> simp [Conc.disown]
    | _ => exact Nat.le_refl _
  · exact hdone

section
variable {x : Ctx}

/-- What a run that ends or is suspended leaves: `R` of the answer, or of the suspended coroutine. -/
structure Ran (x : Ctx) (c : Conc) (tc : List (Str × Resv)) (c' : Conc) (tc' : List (Str × Resv)) (s' : S) : Prop where
  view : View x c'.w tc' s'
  others : Others x.cid c.w tc c'.w tc'
  next : c.next ≤ c'.next

theorem run0 {α : Type} {p : Prog α} {Q : S → Except Err α → Prop} : ∀ (id : Nat) (ow : Option Str) (fin : Except Err α → Except Err (Option Str))
    {c : Conc} {tc : List (Str × Resv)} {s : S}, View x c.w tc s → R0 x.cid x.ref p Q s → Unowned x.cid c.tasks →
    ∃ tc' s', Ran x c tc (Conc.runSync id ow p fin c) tc' s' ∧
      ((∃ r, (Conc.runSync id ow p fin c).tasks = c.tasks ∧ (Conc.runSync id ow p fin c).done = c.done ++ [(id, fin r)] ∧ Q s' r) ∨
       (¬ Quick p ∧ ∃ (β : Type) (y : Cmd β) (k : Except Err β → Prog α), (Conc.runSync id ow p fin c).tasks = c.tasks ++ [⟨id, ow, .waiting y k fin⟩] ∧
        (Conc.runSync id ow p fin c).done = c.done ∧ y.isAsync = true ∧ R0 x.cid x.ref (.cmd y k) Q s')) := by
  induction p with
  | pure a => intro id ow fin c tc s hv hp hu; exact ⟨tc, s, ⟨hv, Others.refl _ _ _, Nat.le_refl _⟩, Or.inl ⟨.ok a, rfl, rfl, hp⟩⟩
  | throw e => intro id ow fin c tc s hv hp hu; exact ⟨tc, s, ⟨hv, Others.refl _ _ _, Nat.le_refl _⟩, Or.inl ⟨.error e, rfl, rfl, hp⟩⟩
  | cmd y k ih =>
    intro id ow fin c tc s hv hp hu
    simp only [Conc.runSync]
    split
    · rename_i ha
      exact ⟨tc, s, ⟨hv, Others.refl _ _ _, Nat.le_refl _⟩, Or.inr ⟨fun h => by simp [Quick, ha] at h, _, y, k, rfl, rfl, ha, hp⟩⟩
    · rename_i ha
      obtain ⟨e1, e2, e3, e4, e5⟩ := sync_tasks hp.2 hu
      obtain ⟨s1, tc1, v1, o1, k1⟩ := view_exec hv hp.1 hp.2
      obtain ⟨tc', s', h1, h2⟩ := ih (c.sync y).2 id ow fin (c := (c.sync y).1) (tc := tc1) (s := s1) (by rw [e4]; exact v1) (by rw [e5]; exact k1) (by rw [e1]; exact hu)
      refine ⟨tc', s', ⟨h1.view, o1.trans (by rw [← e4]; exact h1.others), Nat.le_trans e2 h1.next⟩, ?_⟩
      rw [e1, e3] at h2
      rcases h2 with h2 | ⟨h3, h4⟩
      · exact Or.inl h2
      · exact Or.inr ⟨fun h => h3 (h.2 _), h4⟩
  | spawn p k _ _ => intro id ow fin c tc s hv hp; exact hp.elim

/-- The activation beside its provision request, before it saves. -/
theorem runLone {D : S → Prop} {α : Type} {p : Prog α} : ∀ (id : Nat) (ow : Option Str) (fin : Except Err α → Except Err (Option Str))
    {c : Conc} {tc : List (Str × Resv)} {s : S}, View x c.w tc s → Lone x.cid x.ref D p s → Unowned x.cid c.tasks →
    ∃ tc' s', Ran x c tc (Conc.runSync id ow p fin c) tc' s' ∧
      ((∃ r, (Conc.runSync id ow p fin c).tasks = c.tasks ∧ (Conc.runSync id ow p fin c).done = c.done ++ [(id, fin r)] ∧ s'.row = s'.obj ∧ D s') ∨
       (∃ (β : Type) (y : Cmd β) (k : Except Err β → Prog α), (Conc.runSync id ow p fin c).tasks = c.tasks ++ [⟨id, ow, .waiting y k fin⟩] ∧
        (Conc.runSync id ow p fin c).done = c.done ∧ y.isAsync = true ∧ Lone x.cid x.ref D (.cmd y k) s')) := by
  induction p with
  | pure a =>
    intro id ow fin c tc s hv hp hu
    exact ⟨tc, s, ⟨hv, Others.refl _ _ _, Nat.le_refl _⟩, Or.inl ⟨.ok a, rfl, rfl, hp.2 s.row⟩⟩
  | throw e =>
    intro id ow fin c tc s hv hp hu
    exact ⟨tc, s, ⟨hv, Others.refl _ _ _, Nat.le_refl _⟩, Or.inl ⟨.error e, rfl, rfl, hp.2 s.row⟩⟩
  | cmd y k ih =>
    intro id ow fin c tc s hv hp hu
    simp only [Conc.runSync]
    split
    · rename_i ha
      exact ⟨tc, s, ⟨hv, Others.refl _ _ _, Nat.le_refl _⟩, Or.inr ⟨_, y, k, rfl, rfl, ha, hp⟩⟩
    · rename_i ha
      obtain ⟨hs, hp⟩ := hp
      have hns : y.stores = false := by
        cases y <;> first | (exact (ha rfl).elim) | rfl
      have hl := LCmd_row hns fun ρ => (hp ρ).2
      have hr : Rok x.cid y s := by
        have := (hp s.row).1
        exact this
      have hsh : ∀ r, Shape (k r) := by
        intro r
        cases y <;> first | exact (ha rfl).elim | exact hs r
      obtain ⟨e1, e2, e3, e4, e5⟩ := sync_tasks hl hu
      obtain ⟨s1, tc1, v1, o1, k1⟩ := view_exec hv hr hl
      obtain ⟨tc', s', h1, h2⟩ := ih (c.sync y).2 id ow fin (c := (c.sync y).1) (tc := tc1) (s := s1) (by rw [e4]; exact v1)
        ⟨hsh _, fun ρ => by rw [e5]; exact k1 ρ⟩ (by rw [e1]; exact hu)
      refine ⟨tc', s', ⟨h1.view, o1.trans (by rw [← e4]; exact h1.others), Nat.le_trans e2 h1.next⟩, ?_⟩
      rw [e1, e3] at h2
      exact h2
  | spawn p k _ _ => intro id ow fin c tc s hv hp; exact hp.1.elim

/-- Up to the first asynchronous command. -/
theorem runHead {α : Type} {p : Prog α} : ∀ {G : Prog α → S → Prop} (id : Nat) (ow : Option Str) (fin : Except Err α → Except Err (Option Str))
    {c : Conc} {tc : List (Str × Resv)} {s : S}, View x c.w tc s → Head x.cid x.ref p G s → Unowned x.cid c.tasks →
    ∃ tc' s', Ran x c tc (Conc.runSync id ow p fin c) tc' s' ∧
       (∃ (β : Type) (y : Cmd β) (k : Except Err β → Prog α), (Conc.runSync id ow p fin c).tasks = c.tasks ++ [⟨id, ow, .waiting y k fin⟩] ∧
        (Conc.runSync id ow p fin c).done = c.done ∧ y.isAsync = true ∧ G (.cmd y k) s') := by
  induction p with
  | pure a => intro G id ow fin c tc s hv hp hu; exact hp.elim
  | throw e => intro G id ow fin c tc s hv hp hu; exact hp.elim
  | cmd y k ih =>
    intro G id ow fin c tc s hv hp hu
    simp only [Head] at hp
    simp only [Conc.runSync]
    split
    · rename_i ha
      rw [if_pos ha] at hp
      exact ⟨tc, s, ⟨hv, Others.refl _ _ _, Nat.le_refl _⟩, _, y, k, rfl, rfl, ha, hp⟩
    · rename_i ha
      rw [if_neg ha] at hp
      obtain ⟨e1, e2, e3, e4, e5⟩ := sync_tasks hp.2 hu
      obtain ⟨s1, tc1, v1, o1, k1⟩ := view_exec hv hp.1 hp.2
      obtain ⟨tc', s', h1, h2⟩ := ih (c.sync y).2 id ow fin (c := (c.sync y).1) (tc := tc1) (s := s1) (by rw [e4]; exact v1) (by rw [e5]; exact k1) (by rw [e1]; exact hu)
      refine ⟨tc', s', ⟨h1.view, o1.trans (by rw [← e4]; exact h1.others), Nat.le_trans e2 h1.next⟩, ?_⟩
      rw [e1, e3] at h2
      exact h2
  | spawn p k _ _ => intro G id ow fin c tc s hv hp; exact hp.elim

/-- A message that the operation does not remember. -/
theorem View.murmur {w : World} {tc : List (Str × Resv)} {s : S} (h : View x w tc s) {m : Msg} {t : Time} {o : Oracle} (ht : w.clk ≤ t)
    (hm : ∀ a b c d e f, m ≠ Msg.reserveConfirmed a b c d e f) :
    View x { w with clk := t, orc := o, outbox := w.outbox ++ [m] } tc s ∧
    Others x.cid w tc { w with clk := t, orc := o, outbox := w.outbox ++ [m] } tc := by
  have hc : ∀ b, Confirmed (w.outbox ++ [m]) b → Confirmed w.outbox b := by
    rintro b ⟨corr, sl, dl, a, e, h⟩
    rcases List.mem_append.mp h with h | h
    · exact ⟨corr, sl, dl, a, e, h⟩
    · simp only [List.mem_cons, List.not_mem_nil, or_false] at h
      exact absurd h.symm (hm _ _ _ _ _ _)
  exact ⟨{ h with
      out := fun m' hm' => List.mem_append_left _ (h.out m' hm')
      conf := fun hcf => h.conf (hc _ hcf)
      clk := Int.le_trans h.clk ht },
    { Others.refl x.cid w tc with
      out := fun m' hm' => List.mem_append_left _ hm'
      conf := fun b _ hcf => hc _ hcf
      clk := ht }⟩

/-- The end of a provision request, after saving. -/
theorem runTail {α : Type} {p : Prog α} : ∀ (id : Nat) (ow : Option Str) (fin : Except Err α → Except Err (Option Str))
    {c : Conc} {tc : List (Str × Resv)} {s : S}, View x c.w tc s → Tail p →
    ∃ r, Ran x c tc (Conc.runSync id ow p fin c) tc s ∧ (Conc.runSync id ow p fin c).tasks = c.tasks ∧
      (Conc.runSync id ow p fin c).done = c.done ++ [(id, r)] := by
  induction p with
  | pure a => intro id ow fin c tc s hv hp; exact ⟨_, ⟨hv, Others.refl _ _ _, Nat.le_refl _⟩, rfl, rfl⟩
  | throw e => intro id ow fin c tc s hv hp; exact ⟨_, ⟨hv, Others.refl _ _ _, Nat.le_refl _⟩, rfl, rfl⟩
  | cmd y k ih =>
    intro id ow fin c tc s hv hp
    cases y with
    | tell m =>
      obtain ⟨hm, hk⟩ := hp
      obtain ⟨t, o, ht, he⟩ := advance_eq c.w
      obtain ⟨v1, o1⟩ := hv.murmur (o := o) ht hm
      have e : (exec c.w (.tell m)) = ({ c.w with clk := t, orc := o, outbox := c.w.outbox ++ [m] }, .ok ()) := by
        unfold exec; rw [he]; rfl
      simp only [Conc.runSync, Cmd.isAsync, Bool.false_eq_true, if_false, Conc.sync, Conc.affect, e]
      obtain ⟨r, h1, h2, h3⟩ := ih (.ok ()) id ow fin (c := { c with w := { c.w with clk := t, orc := o, outbox := c.w.outbox ++ [m] } }) (tc := tc) (s := s) v1 (hk _)
      exact ⟨r, ⟨h1.view, o1.trans h1.others, h1.next⟩, h2, h3⟩
    | _ => exact hp.1.elim
  | spawn p k _ _ => intro id ow fin c tc s hv hp; exact hp.elim

/-! ### Suspended operations -/

/-- The coroutine of an operation. -/
def OneOk (x : Ctx) (D : S → Except Err (Option Str) → Prop) (s : S) (t : Task) : Prop :=
  match t.susp with
  | .waiting y k fin => y.isAsync = true ∧ R1 x.cid x.ref t.owner (fun s => ∀ a, D s a) (.cmd y k) (fun s' r => D s' (fin r)) s
  | .performed k r fin => R1 x.cid x.ref t.owner (fun s => ∀ a, D s a) (k r) (fun s' r => D s' (fin r)) s

/-- The activation started by a provision request. -/
def ActivOk (x : Ctx) (D : S → Except Err (Option Str) → Prop) (s : S) (t : Task) : Prop :=
  t.owner = none ∧ match t.susp with
  | .waiting y k _ => y.isAsync = true ∧ Lone x.cid x.ref (fun s => ∀ a, D s a) (.cmd y k) s
  | .performed k r _ => Lone x.cid x.ref (fun s => ∀ a, D s a) (k r) s ∨
      (Quick (k r) ∧ s.row = s.obj ∧ R0 x.cid x.ref (k r) (fun s' _ => s'.row = s'.obj ∧ ∀ a, D s' a) s)

/-- The provision request beside it. -/
def ConfOk (x : Ctx) (t : Task) : Prop :=
  t.owner = none ∧ match t.susp with
  | .waiting y k _ => SaveTail x.ref (.cmd y k)
  | .performed k r _ => Tail (k r)

/-- The tasks of an operation. -/
inductive Going (x : Ctx) (D : S → Except Err (Option Str) → Prop) (s : S) : List Task → Prop
  | one {t : Task} : OneOk x D s t → Going x D s [t]
  | activ {t : Task} : ActivOk x D s t → Going x D s [t]
  | conf {t : Task} : ConfOk x t → s.row = s.obj → (∀ a, D s a) → Going x D s [t]
  | both {a b : Task} : ActivOk x D s a → ConfOk x b → Going x D s [a, b]
  | both' {a b : Task} : ActivOk x D s a → ConfOk x b → Going x D s [b, a]

/-- After a run: the operation is over, or suspended. `id` is the task that ran, `mates` the other tasks of the operation. -/
structure After (x : Ctx) (D : S → Except Err (Option Str) → Prop) (id : Nat) (ow : Option Str) (mates : List Task) (c : Conc) (tc : List (Str × Resv)) (c' : Conc)
    (tc' : List (Str × Resv)) (s' : S) (new : List Task) : Prop extends Ran x c tc c' tc' s' where
  tasks : c'.tasks = c.tasks ++ new
  ids : ∀ t ∈ new, (t.id = id ∨ (c.next ≤ t.id ∧ t.id < c'.next)) ∧ (t.owner = none ∨ t.owner = ow)
  ends : (mates ++ new = [] ∧ ∃ a, (id, a) ∈ c'.done ∧ D s' a) ∨ Going x D s' (mates ++ new)
  done : ∀ d ∈ c'.done, d ∈ c.done ∨ d.1 = id ∨ c.next ≤ d.1
  said : mates ++ new = [] → ∀ d ∈ c'.done, d ∈ c.done ∨ D s' d.2

theorem said_of {α : Type} {P : α → Prop} {a b l : List α} (h : a = b ++ l) (hp : ∀ d ∈ l, P d) : ∀ d ∈ a, d ∈ b ∨ P d := by
  subst h
  intro d hd
  exact (List.mem_append.mp hd).imp _root_.id (hp d)

theorem run1 {D : S → Except Err (Option Str) → Prop} {α : Type} {p : Prog α} : ∀ (id : Nat) (ow : Option Str) (fin : Except Err α → Except Err (Option Str))
    {c : Conc} {tc : List (Str × Resv)} {s : S}, View x c.w tc s →
    R1 x.cid x.ref ow (fun s => ∀ a, D s a) p (fun s' r => D s' (fin r)) s → Unowned x.cid c.tasks →
    ∃ tc' s' new, After x D id ow [] c tc (Conc.runSync id ow p fin c) tc' s' new := by
  induction p with
  | pure a =>
    intro id ow fin c tc s hv hp hu
    refine ⟨tc, s, [], { view := hv, others := Others.refl _ _ _, next := Nat.le_refl _, tasks := by simp [Conc.runSync], ids := by simp, ends := Or.inl ⟨rfl, _, by simp [Conc.runSync], hp⟩, said := fun _ => said_of (l := [_]) rfl (by simp; exact hp), done := ?_ }⟩
    intro d hd
    rcases List.mem_append.mp hd with h | h
    · exact Or.inl h
    · simp at h; exact Or.inr (Or.inl (by rw [h]))
  | throw e =>
    intro id ow fin c tc s hv hp hu
    refine ⟨tc, s, [], { view := hv, others := Others.refl _ _ _, next := Nat.le_refl _, tasks := by simp [Conc.runSync], ids := by simp, ends := Or.inl ⟨rfl, _, by simp [Conc.runSync], hp⟩, said := fun _ => said_of (l := [_]) rfl (by simp; exact hp), done := ?_ }⟩
    intro d hd
    rcases List.mem_append.mp hd with h | h
    · exact Or.inl h
    · simp at h; exact Or.inr (Or.inl (by rw [h]))
  | cmd y k ih =>
    intro id ow fin c tc s hv hp hu
    simp only [Conc.runSync]
    split
    · rename_i ha
      refine ⟨tc, s, [⟨id, ow, .waiting y k fin⟩], { view := hv, others := Others.refl _ _ _, next := Nat.le_refl _, tasks := rfl, ids := by simp, ends := Or.inr (.one ⟨ha, hp⟩), said := fun h => by simp at h, done := fun d hd => Or.inl hd }⟩
    · rename_i ha
      obtain ⟨e1, e2, e3, e4, e5⟩ := sync_tasks hp.2 hu
      obtain ⟨s1, tc1, v1, o1, k1⟩ := view_exec hv hp.1 hp.2
      obtain ⟨tc', s', new, h1⟩ := ih (c.sync y).2 id ow fin (c := (c.sync y).1) (tc := tc1) (s := s1) (by rw [e4]; exact v1) (by rw [e5]; exact k1) (by rw [e1]; exact hu)
      refine ⟨tc', s', new, { view := h1.view, others := o1.trans (by rw [← e4]; exact h1.others), next := Nat.le_trans e2 h1.next, tasks := by rw [h1.tasks, e1], ids := ?_, ends := h1.ends, said := e3 ▸ h1.said, done := ?_ }⟩
      · intro t ht
        obtain ⟨k1, k2⟩ := h1.ids t ht
        exact ⟨k1.imp _root_.id fun h => ⟨Nat.le_trans e2 h.1, h.2⟩, k2⟩
      · intro d hd
        rcases h1.done d hd with h | h | h
        · rw [e3] at h; exact Or.inl h
        · exact Or.inr (Or.inl h)
        · exact Or.inr (Or.inr (Nat.le_trans e2 h))
  | spawn p k _ _ =>
    intro id ow fin c tc s hv hp hu
    obtain ⟨rfl, hp⟩ := hp
    simp only [Conc.runSync]
    rcases hp with ⟨⟨a, rfl⟩, hp⟩ | hp
    · obtain ⟨tc', s', h1, h2⟩ := run0 c.next none (fun _ => .ok none) (c := { c with next := c.next + 1 }) (tc := tc) (s := s) hv hp hu
      have hn : c.next < (Conc.runSync c.next none p (fun _ => .ok none) { c with next := c.next + 1 }).next := h1.next
      rcases h2 with ⟨r, k1, k2, k3⟩ | ⟨_, β, y, kk, k1, k2, k3, k4⟩
      · refine ⟨tc', s', [], { view := h1.view, others := h1.others, next := Nat.le_of_lt hn, tasks := by simp [Conc.runSync, k1], ids := by simp, ends := Or.inl ⟨rfl, fin (.ok a), by simp [Conc.runSync], k3 _⟩, said := fun _ => said_of (by simp [Conc.runSync, k2]; rfl) (fun _ _ => k3 _), done := ?_ }⟩
        intro d hd
        simp only [Conc.runSync, k2] at hd
        rcases List.mem_append.mp hd with h | h
        · rcases List.mem_append.mp h with h | h
          · exact Or.inl h
          · simp at h; exact Or.inr (Or.inr (by rw [h]; exact Nat.le_refl _))
        · simp at h; exact Or.inr (Or.inl (by rw [h]))
      · refine ⟨tc', s', [⟨c.next, none, .waiting y kk fun _ => .ok none⟩], { view := h1.view, others := h1.others, next := Nat.le_of_lt hn, tasks := by simp [Conc.runSync, k1], ids := ?_, ends := Or.inr (.one ⟨k3, R1_of_R0 (R0_mono ?_ k4)⟩), said := fun h => by simp at h, done := ?_ }⟩
        · intro t ht
          simp only [List.mem_cons, List.not_mem_nil, or_false] at ht
          subst ht
          exact ⟨Or.inr ⟨Nat.le_refl _, hn⟩, Or.inl rfl⟩
        · intro s r h; exact h _
        · intro d hd
          simp only [Conc.runSync, k2] at hd
          rcases List.mem_append.mp hd with h | h
          · exact Or.inl h
          · simp at h; exact Or.inr (Or.inl (by rw [h]))
    · obtain ⟨tc1, s1, h1, β, y, kk, k1, k2, k3, k4⟩ := runHead c.next none (fun _ => .ok none) (c := { c with next := c.next + 1 }) (tc := tc) (s := s) hv hp hu
      have hn : c.next < (Conc.runSync c.next none p (fun _ => .ok none) { c with next := c.next + 1 }).next := h1.next
      obtain ⟨tc2, s2, h2, γ, z, kz, m1, m2, m3, m4, m5⟩ := runHead id none fin (c := Conc.runSync c.next none p (fun _ => .ok none) { c with next := c.next + 1 }) (tc := tc1) (s := s1)
        h1.view k4 (by
          rw [k1]
          intro t ht
          rcases List.mem_append.mp ht with h | h
          · exact hu t h
          · simp only [List.mem_cons, List.not_mem_nil, or_false] at h; subst h; simp)
      refine ⟨tc2, s2, [⟨c.next, none, .waiting y kk fun _ => .ok none⟩, ⟨id, none, .waiting z kz fin⟩], { view := h2.view, others := Others.trans (w := c.w) h1.others h2.others, next := by have := h2.next; omega, tasks := ?_, ids := ?_, ends := Or.inr (.both ⟨rfl, k3, m4⟩ ⟨rfl, m5⟩), said := fun h => by simp at h, done := ?_ }⟩
      · rw [m1, k1]; simp
      · intro t ht
        simp only [List.mem_cons, List.not_mem_nil, or_false] at ht
        rcases ht with rfl | rfl
        · exact ⟨Or.inr ⟨Nat.le_refl _, by have := h2.next; simp only; omega⟩, Or.inl rfl⟩
        · exact ⟨Or.inl rfl, Or.inl rfl⟩
      · intro d hd
        rw [m2, k2] at hd
        exact Or.inl hd

/-! ### Progress of suspended operations -/

/-- Storing the row object. -/
theorem View.resave {w : World} {tc : List (Str × Resv)} {s : S} (h : View x w tc s) :
    View x (exec w (.save x.ref)).1 tc { s with row := s.obj } ∧ Others x.cid w tc (exec w (.save x.ref)).1 tc := by
  obtain ⟨s', tc', h1, h2, t, ht, rfl⟩ := view_exec (K := fun s' _ => ∃ t, s.clk ≤ t ∧ s' = { s with row := s.obj, clk := t }) (c := .save x.ref) h trivial
    (show LCmd x.cid x.ref (.save x.ref) s _ from ⟨rfl, fun t ht => ⟨t, ht, rfl⟩⟩)
  have e : own x.cid tc' = own x.cid tc := h1.cal.trans h.cal.symm
  have hc : (exec w (.save x.ref)).1.cal = w.cal := by
    obtain ⟨u, o, _, he⟩ := advance_eq w
    unfold exec; rw [he]
    simp only [execAt, h.obj, Bool.false_eq_true, if_false]
  exact ⟨{ h1 with cal := h.cal, all := by rw [hc]; exact h.all, clk := Int.le_trans ht h1.clk },
    { h2 with own := fun b _ => rfl }⟩

theorem S.resaved {s : S} (h : s.row = s.obj) : { s with row := s.obj } = s := by
  obtain ⟨row, obj, cal, tm, up, out, clk⟩ := s
  simp only at h
  subst h
  rfl

theorem ActivOk.resave {D : S → Except Err (Option Str) → Prop} {s : S} {t : Task} (h : ActivOk x D s t) : ActivOk x D { s with row := s.obj } t := by
  obtain ⟨ho, h⟩ := h
  refine ⟨ho, ?_⟩
  split at h
  · exact ⟨h.1, h.2.1, fun ρ => h.2.2 ρ⟩
  · rcases h with h | ⟨h1, h2, h3⟩
    · exact Or.inl ⟨h.1, fun ρ => h.2 ρ⟩
    · refine Or.inr ?_
      rw [S.resaved h2]
      exact ⟨h1, h2, h3⟩

theorem activ_perform {D : S → Except Err (Option Str) → Prop} {w : World} {tc : List (Str × Resv)} {s : S} {α β : Type} {id : Nat} {ow : Option Str} {y : Cmd β}
    {k : Except Err β → Prog α} {fin : Except Err α → Except Err (Option Str)} (hv : View x w tc s) (h : ActivOk x D s ⟨id, ow, .waiting y k fin⟩) :
    ∃ s' tc', View x (exec w y).1 tc' s' ∧ Others x.cid w tc (exec w y).1 tc' ∧ ActivOk x D s' ⟨id, ow, .performed k (exec w y).2 fin⟩ := by
  obtain ⟨ho, ha, hs, hl⟩ := h
  cases y with
  | save r =>
    have h1 := (hl s.row).2
    obtain ⟨s', tc', v, o, h2⟩ := view_exec (K := fun s' r => s'.row = s'.obj ∧ R0 x.cid x.ref (k r) (fun s' _ => s'.row = s'.obj ∧ ∀ a, D s' a) s') hv (hl s.row).1
      ⟨h1.1, fun t ht => ⟨rfl, h1.2 t ht⟩⟩
    exact ⟨s', tc', v, o, ho, Or.inr ⟨hs _, h2.1, h2.2⟩⟩
  | setup r =>
    obtain ⟨s', tc', v, o, h2⟩ := view_exec hv (hl s.row).1 (LCmd_row rfl fun ρ => (hl ρ).2)
    exact ⟨s', tc', v, o, ho, Or.inl ⟨hs _, h2⟩⟩
  | teardown r =>
    obtain ⟨s', tc', v, o, h2⟩ := view_exec hv (hl s.row).1 (LCmd_row rfl fun ρ => (hl ρ).2)
    exact ⟨s', tc', v, o, ho, Or.inl ⟨hs _, h2⟩⟩
  | call r =>
    obtain ⟨s', tc', v, o, h2⟩ := view_exec hv (hl s.row).1 (LCmd_row rfl fun ρ => (hl ρ).2)
    exact ⟨s', tc', v, o, ho, Or.inl ⟨hs _, h2⟩⟩
  | find r => exact absurd (hl s.row).2 (by simp [LCmd])
  | findLive => exact absurd (hl s.row).2 (by simp [LCmd])
  | _ => simp [Cmd.isAsync] at ha

theorem conf_perform {w : World} {tc : List (Str × Resv)} {s : S} {α β : Type} {id : Nat} {ow : Option Str} {y : Cmd β}
    {k : Except Err β → Prog α} {fin : Except Err α → Except Err (Option Str)} (hv : View x w tc s) (h : ConfOk x ⟨id, ow, .waiting y k fin⟩) :
    View x (exec w y).1 tc { s with row := s.obj } ∧ Others x.cid w tc (exec w y).1 tc ∧ ConfOk x ⟨id, ow, .performed k (exec w y).2 fin⟩ := by
  obtain ⟨ho, hy, hk⟩ := h
  cases y with
  | save r =>
    have : r = x.ref := hy
    subst this
    exact ⟨hv.resave.1, hv.resave.2, ho, hk _⟩
  | _ => exact hy.elim

theorem going_perform {D : S → Except Err (Option Str) → Prop} {w : World} {tc : List (Str × Resv)} {s : S} {α β : Type} {id : Nat} {ow : Option Str} {y : Cmd β}
    {k : Except Err β → Prog α} {fin : Except Err α → Except Err (Option Str)} {u v : List Task} (hv : View x w tc s)
    (h : Going x D s (u ++ ⟨id, ow, .waiting y k fin⟩ :: v)) :
    ∃ s' tc', View x (exec w y).1 tc' s' ∧ Others x.cid w tc (exec w y).1 tc' ∧ Going x D s' (u ++ v ++ [⟨id, ow, .performed k (exec w y).2 fin⟩]) := by
  generalize hts : u ++ ⟨id, ow, .waiting y k fin⟩ :: v = ts at h
  cases h with
  | @one t h =>
    obtain ⟨rfl, rfl, rfl⟩ : u = [] ∧ v = [] ∧ t = ⟨id, ow, .waiting y k fin⟩ := by
      cases u with
      | nil => simp at hts; exact ⟨rfl, hts.2, hts.1.symm⟩
      | cons a u => simp at hts
    obtain ⟨s', tc', v, o, h2⟩ := view_exec hv h.2.1 h.2.2
    exact ⟨s', tc', v, o, .one h2⟩
  | @activ t h =>
    obtain ⟨rfl, rfl, rfl⟩ : u = [] ∧ v = [] ∧ t = ⟨id, ow, .waiting y k fin⟩ := by
      cases u with
      | nil => simp at hts; exact ⟨rfl, hts.2, hts.1.symm⟩
      | cons a u => simp at hts
    obtain ⟨s', tc', v, o, h2⟩ := activ_perform hv h
    exact ⟨s', tc', v, o, .activ h2⟩
  | @conf t h e hD =>
    obtain ⟨rfl, rfl, rfl⟩ : u = [] ∧ v = [] ∧ t = ⟨id, ow, .waiting y k fin⟩ := by
      cases u with
      | nil => simp at hts; exact ⟨rfl, hts.2, hts.1.symm⟩
      | cons a u => simp at hts
    obtain ⟨v, o, h2⟩ := conf_perform hv h
    rw [S.resaved e] at v
    exact ⟨s, tc, v, o, .conf h2 e hD⟩
  | @both a b ha hb =>
    cases u with
    | nil =>
      simp only [List.nil_append, List.cons.injEq] at hts
      obtain ⟨rfl, rfl⟩ := hts
      obtain ⟨s', tc', v, o, h2⟩ := activ_perform hv ha
      exact ⟨s', tc', v, o, .both' h2 hb⟩
    | cons a' u =>
      cases u with
      | nil =>
        simp only [List.cons_append, List.nil_append, List.cons.injEq] at hts
        obtain ⟨rfl, rfl, rfl⟩ := hts
        obtain ⟨v, o, h2⟩ := conf_perform hv hb
        exact ⟨_, tc, v, o, .both ha.resave h2⟩
      | cons b' u => simp at hts
  | @both' a b ha hb =>
    cases u with
    | nil =>
      simp only [List.nil_append, List.cons.injEq] at hts
      obtain ⟨rfl, rfl⟩ := hts
      obtain ⟨v, o, h2⟩ := conf_perform hv hb
      exact ⟨_, tc, v, o, .both ha.resave h2⟩
    | cons a' u =>
      cases u with
      | nil =>
        simp only [List.cons_append, List.nil_append, List.cons.injEq] at hts
        obtain ⟨rfl, rfl, rfl⟩ := hts
        obtain ⟨s', tc', v, o, h2⟩ := activ_perform hv ha
        exact ⟨s', tc', v, o, .both' h2 hb⟩
      | cons b' u => simp at hts

/-- The activation goes on; `b`: the provision request beside it. -/
theorem activ_resume {D : S → Except Err (Option Str) → Prop} {c : Conc} {tc : List (Str × Resv)} {s : S} {α β : Type} {id : Nat} {ow : Option Str}
    {k : Except Err β → Prog α} {r : Except Err β} {fin : Except Err α → Except Err (Option Str)} {bs : List Task} (hv : View x c.w tc s)
    (h : ActivOk x D s ⟨id, ow, .performed k r fin⟩) (hu : Unowned x.cid c.tasks) (hb : bs = [] ∨ ∃ b, bs = [b] ∧ ConfOk x b) :
    ∃ tc' s' new, After x D id ow bs c tc (Conc.runSync id ow (k r) fin c) tc' s' new := by
  obtain ⟨ho, h⟩ := h
  have key : ∃ tc' s', Ran x c tc (Conc.runSync id ow (k r) fin c) tc' s' ∧
      ((∃ r', (Conc.runSync id ow (k r) fin c).tasks = c.tasks ∧ (Conc.runSync id ow (k r) fin c).done = c.done ++ [(id, fin r')] ∧ s'.row = s'.obj ∧ ∀ a, D s' a) ∨
       (∃ (γ : Type) (y : Cmd γ) (k' : Except Err γ → Prog α), (Conc.runSync id ow (k r) fin c).tasks = c.tasks ++ [⟨id, ow, .waiting y k' fin⟩] ∧
        (Conc.runSync id ow (k r) fin c).done = c.done ∧ y.isAsync = true ∧ Lone x.cid x.ref (fun s => ∀ a, D s a) (.cmd y k') s')) := by
    rcases h with h | ⟨h1, _, h3⟩
    · exact runLone id ow fin hv h hu
    · obtain ⟨tc', s', g1, g2⟩ := run0 id ow fin hv h3 hu
      rcases g2 with g2 | g2
      · exact ⟨tc', s', g1, Or.inl g2⟩
      · exact absurd h1 g2.1
  obtain ⟨tc', s', g1, g2⟩ := key
  rcases g2 with ⟨r', e1, e2, e3, e4⟩ | ⟨γ, y, k', e1, e2, e3, e4⟩
  · refine ⟨tc', s', [], { toRan := g1, tasks := by simp [e1], ids := by simp, ends := ?_, said := fun _ => said_of e2 (fun _ _ => e4 _), done := ?_ }⟩
    · rcases hb with rfl | ⟨b, rfl, hb⟩
      · exact Or.inl ⟨rfl, fin r', by simp [e2], e4 _⟩
      · exact Or.inr (.conf hb e3 e4)
    · intro d hd
      rw [e2] at hd
      rcases List.mem_append.mp hd with h | h
      · exact Or.inl h
      · simp at h; exact Or.inr (Or.inl (by rw [h]))
  · refine ⟨tc', s', _, { toRan := g1, tasks := e1, ids := by simp, ends := Or.inr ?_, said := fun h => by simp at h, done := fun d hd => Or.inl (by rw [e2] at hd; exact hd) }⟩
    have ha : ActivOk x D s' ⟨id, ow, .waiting y k' fin⟩ := ⟨ho, e3, e4⟩
    rcases hb with rfl | ⟨b, rfl, hb⟩
    · exact .activ ha
    · exact .both' ha hb

theorem going_resume {D : S → Except Err (Option Str) → Prop} {c : Conc} {tc : List (Str × Resv)} {s : S} {α β : Type} {id : Nat} {ow : Option Str}
    {k : Except Err β → Prog α} {r : Except Err β} {fin : Except Err α → Except Err (Option Str)} {u v : List Task} (hv : View x c.w tc s)
    (h : Going x D s (u ++ ⟨id, ow, .performed k r fin⟩ :: v)) (hu : Unowned x.cid c.tasks) :
    ∃ tc' s' new, After x D id ow (u ++ v) c tc (Conc.runSync id ow (k r) fin c) tc' s' new := by
  generalize hts : u ++ ⟨id, ow, .performed k r fin⟩ :: v = ts at h
  cases h with
  | @one t h =>
    obtain ⟨rfl, rfl, rfl⟩ : u = [] ∧ v = [] ∧ t = ⟨id, ow, .performed k r fin⟩ := by
      cases u with
      | nil => simp at hts; exact ⟨rfl, hts.2, hts.1.symm⟩
      | cons a u => simp at hts
    exact run1 id ow fin hv h hu
  | @activ t h =>
    obtain ⟨rfl, rfl, rfl⟩ : u = [] ∧ v = [] ∧ t = ⟨id, ow, .performed k r fin⟩ := by
      cases u with
      | nil => simp at hts; exact ⟨rfl, hts.2, hts.1.symm⟩
      | cons a u => simp at hts
    exact activ_resume hv h hu (Or.inl rfl)
  | @conf t h e hD =>
    obtain ⟨rfl, rfl, rfl⟩ : u = [] ∧ v = [] ∧ t = ⟨id, ow, .performed k r fin⟩ := by
      cases u with
      | nil => simp at hts; exact ⟨rfl, hts.2, hts.1.symm⟩
      | cons a u => simp at hts
    obtain ⟨a, g1, g2, g3⟩ := runTail id ow fin hv h.2
    refine ⟨tc, s, [], { toRan := g1, tasks := by simp [g2], ids := by simp, ends := Or.inl ⟨rfl, a, by simp [g3], hD a⟩, said := fun _ => said_of g3 (fun _ _ => hD _), done := ?_ }⟩
    intro d hd
    rw [g3] at hd
    rcases List.mem_append.mp hd with h | h
    · exact Or.inl h
    · simp at h; exact Or.inr (Or.inl (by rw [h]))
  | @both a b ha hb =>
    cases u with
    | nil =>
      simp only [List.nil_append, List.cons.injEq] at hts
      obtain ⟨rfl, rfl⟩ := hts
      exact activ_resume hv ha hu (Or.inr ⟨b, rfl, hb⟩)
    | cons a' u =>
      cases u with
      | nil =>
        simp only [List.cons_append, List.nil_append, List.cons.injEq] at hts
        obtain ⟨rfl, rfl, rfl⟩ := hts
        obtain ⟨g, g1, g2, g3⟩ := runTail id ow fin hv hb.2
        refine ⟨tc, s, [], { toRan := g1, tasks := by simp [g2], ids := by simp, ends := Or.inr (.activ ha), said := fun h => by simp at h, done := ?_ }⟩
        intro d hd
        rw [g3] at hd
        rcases List.mem_append.mp hd with h | h
        · exact Or.inl h
        · simp at h; exact Or.inr (Or.inl (by rw [h]))
      | cons b' u => simp at hts
  | @both' a b ha hb =>
    cases u with
    | nil =>
      simp only [List.nil_append, List.cons.injEq] at hts
      obtain ⟨rfl, rfl⟩ := hts
      obtain ⟨g, g1, g2, g3⟩ := runTail id ow fin hv hb.2
      refine ⟨tc, s, [], { toRan := g1, tasks := by simp [g2], ids := by simp, ends := Or.inr (.activ ha), said := fun h => by simp at h, done := ?_ }⟩
      intro d hd
      rw [g3] at hd
      rcases List.mem_append.mp hd with h | h
      · exact Or.inl h
      · simp at h; exact Or.inr (Or.inl (by rw [h]))
    | cons a' u =>
      cases u with
      | nil =>
        simp only [List.cons_append, List.nil_append, List.cons.injEq] at hts
        obtain ⟨rfl, rfl, rfl⟩ := hts
        exact activ_resume hv ha hu (Or.inr ⟨_, rfl, hb⟩)
      | cons b' u => simp at hts

end
end OpenNSA.Backend
