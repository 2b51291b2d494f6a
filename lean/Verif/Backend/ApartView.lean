import Verif.Backend.Apart
/-
Interleaved execution, at most one operation at a time per connection: the view an operation has of its connection, and that a command
changes it as the local condition says and nothing for other connections.
-/
namespace OpenNSA.Backend
open OpenNSA Py Prog

/-! ### Local conditions and slices -/

/-- The slice and the local state agree. -/
structure Agree (ref : Nat) (sl : Slice) (s : S) : Prop where
  row : sl.row = some s.row
  obj : sl.objs ref = some ⟨s.obj, false⟩
  tm : sl.tm = s.tm
  mine : sl.mine = s.cal

theorem Agree.idle {ref : Nat} {sl : Slice} {s : S} (h : Agree ref sl s) : Agree ref sl.idle s := ⟨h.row, h.obj, h.tm, h.mine⟩

/-- A command that is fine for the slice and the local state changes both in the same way. -/
theorem agree_cmd {cid : Str} {ref : Nat} {rm : Bool} {β : Type} {c : Cmd β} {sl : Slice} {s : S} {K : S → Except Err β → Prop} (hm : Agree ref sl s)
    (hp : PlainC cid rm c) (hok : Ok cid c sl) (hl : LCmd cid ref c s K) :
    Rok cid c s ∧ LCmd cid ref c s fun s' r => K s' r ∧ ∃ sl', Eff cid c sl sl' r ∧ Agree ref sl' s' := by
  cases c with
  | find _ => exact absurd hl (by simp [LCmd])
  | findLive => exact absurd hl (by simp [LCmd])
  | newObj _ => exact absurd hl (by simp [LCmd])
  | newId => exact absurd hl (by simp [LCmd])
  | save r =>
    simp only [LCmd] at hl ⊢
    obtain ⟨rfl, hl⟩ := hl
    refine ⟨trivial, rfl, fun t ht => ⟨hl t ht, _, ⟨rfl, _, hm.obj, rfl⟩, ?_⟩⟩
    simp only [Bool.false_eq_true, if_false]
    exact ⟨by simp [hm.row], hm.obj, hm.tm, hm.mine⟩
  | setup b =>
    simp only [LCmd] at hl ⊢
    obtain ⟨rfl, hl⟩ := hl
    exact ⟨trivial, rfl, fun t ht => ⟨⟨(hl t ht).1, sl, rfl, ⟨hm.row, hm.obj, hm.tm, hm.mine⟩⟩, fun b => ⟨(hl t ht).2 b, sl, rfl, ⟨hm.row, hm.obj, hm.tm, hm.mine⟩⟩⟩⟩
  | teardown b =>
    simp only [LCmd] at hl ⊢
    obtain ⟨rfl, hl⟩ := hl
    exact ⟨trivial, rfl, fun t ht => ⟨⟨(hl t ht).1, sl, rfl, ⟨hm.row, hm.obj, hm.tm, hm.mine⟩⟩, fun b => ⟨(hl t ht).2 b, sl, rfl, ⟨hm.row, hm.obj, hm.tm, hm.mine⟩⟩⟩⟩
  | call m =>
    simp only [LCmd] at hl ⊢
    exact ⟨hp, fun t ht => ⟨⟨(hl t ht).1, sl, rfl, ⟨hm.row, hm.obj, hm.tm, hm.mine⟩⟩, ⟨(hl t ht).2, sl, rfl, ⟨hm.row, hm.obj, hm.tm, hm.mine⟩⟩⟩⟩
  | tell m =>
    simp only [LCmd] at hl ⊢
    exact ⟨hp, fun t ht => ⟨hl t ht, sl, ⟨rfl, rfl⟩, ⟨hm.row, hm.obj, hm.tm, hm.mine⟩⟩⟩
  | getObj r =>
    simp only [LCmd] at hl ⊢
    obtain ⟨rfl, hl⟩ := hl
    exact ⟨trivial, rfl, fun t ht => ⟨hl t ht, sl, ⟨rfl, _, hm.obj, rfl⟩, ⟨hm.row, hm.obj, hm.tm, hm.mine⟩⟩⟩
  | setObj r row =>
    simp only [LCmd] at hl ⊢
    obtain ⟨rfl, hc, hl⟩ := hl
    exact ⟨trivial, rfl, hc, fun t ht => ⟨hl t ht, _, ⟨rfl, _, hm.obj, rfl⟩, ⟨hm.row, by simp, hm.tm, hm.mine⟩⟩⟩
  | now =>
    simp only [LCmd] at hl ⊢
    exact ⟨trivial, fun t ht => ⟨hl t ht, sl, ⟨rfl, _, rfl⟩, ⟨hm.row, hm.obj, hm.tm, hm.mine⟩⟩⟩
  | calCheck r => exact hp.elim
  | calAdd r => exact hp.elim
  | calRemove r =>
    have hmem : r ∈ s.cal := hm.mine ▸ hok
    simp only [LCmd] at hl ⊢
    refine ⟨hmem, fun t ht => ?_⟩
    have := hl t ht
    simp only [Cal.remove, if_pos hmem] at this ⊢
    exact ⟨this, _, ⟨rfl, rfl⟩, ⟨hm.row, hm.obj, hm.tm, by rw [← hm.mine]⟩⟩
  | sched b t' act r =>
    simp only [LCmd] at hl ⊢
    obtain ⟨rfl, rfl, hl⟩ := hl
    refine ⟨trivial, rfl, rfl, fun t ht => ?_⟩
    have := hl t ht
    unfold schedRes at this ⊢
    split at this
    · rename_i e; rw [if_pos e]; exact ⟨this, sl, Or.inr ⟨rfl, _, rfl⟩, ⟨hm.row, hm.obj, hm.tm, hm.mine⟩⟩
    · rename_i e; rw [if_neg e]
      split at this
      · rename_i e; rw [if_pos e]; exact ⟨this, sl, Or.inr ⟨rfl, _, rfl⟩, ⟨hm.row, hm.obj, hm.tm, hm.mine⟩⟩
      · rename_i e; rw [if_neg e]; exact ⟨this, _, Or.inl ⟨_, rfl, rfl⟩, ⟨hm.row, hm.obj, rfl, hm.mine⟩⟩
  | cancel b =>
    simp only [LCmd] at hl ⊢
    obtain ⟨rfl, hl⟩ := hl
    exact ⟨trivial, rfl, fun t ht => ⟨hl t ht, _, ⟨rfl, rfl⟩, ⟨hm.row, hm.obj, rfl, hm.mine⟩⟩⟩
  | hasCall b =>
    simp only [LCmd] at hl ⊢
    obtain ⟨rfl, hl⟩ := hl
    exact ⟨trivial, rfl, fun t ht => ⟨hl t ht, sl, ⟨rfl, _, rfl⟩, ⟨hm.row, hm.obj, hm.tm, hm.mine⟩⟩⟩
  | notifId =>
    simp only [LCmd] at hl ⊢
    exact ⟨trivial, fun t n ht => ⟨hl t n ht, sl, ⟨rfl, _, rfl⟩, ⟨hm.row, hm.obj, hm.tm, hm.mine⟩⟩⟩

theorem got_of {cid : Str} {ref : Nat} {β : Type} {c : Cmd β} {s : S} {K : S → Except Err β → Prop} (hc : s.obj.cid = cid) (hl : LCmd cid ref c s K) :
    LCmd cid ref c s fun s' r => K s' r ∧ Got cid c r ∧ s'.obj.cid = cid := by
  cases c with
  | find _ => exact absurd hl (by simp [LCmd])
  | findLive => exact absurd hl (by simp [LCmd])
  | newObj _ => exact absurd hl (by simp [LCmd])
  | newId => exact absurd hl (by simp [LCmd])
  | getObj r => exact ⟨hl.1, fun t ht => ⟨hl.2 t ht, hc, hc⟩⟩
  | setObj r row => exact ⟨hl.1, hl.2.1, fun t ht => ⟨hl.2.2 t ht, trivial, hl.2.1⟩⟩
  | calRemove r =>
    simp only [LCmd] at hl ⊢
    intro t ht
    have := hl t ht
    revert this
    cases s.cal.remove r <;> exact fun h => ⟨h, trivial, hc⟩
  | sched b t' act r =>
    refine ⟨hl.1, hl.2.1, fun t ht => ?_⟩
    have := hl.2.2 t ht
    unfold schedRes at this ⊢
    split at this
    · rename_i e; rw [if_pos e]; exact ⟨this, trivial, hc⟩
    · rename_i e; rw [if_neg e]
      split at this
      · rename_i e; rw [if_pos e]; exact ⟨this, trivial, hc⟩
      · rename_i e; rw [if_neg e]; exact ⟨this, trivial, hc⟩
  | setup b => exact ⟨hl.1, fun t ht => ⟨⟨(hl.2 t ht).1, trivial, hc⟩, fun b => ⟨(hl.2 t ht).2 b, trivial, hc⟩⟩⟩
  | teardown b => exact ⟨hl.1, fun t ht => ⟨⟨(hl.2 t ht).1, trivial, hc⟩, fun b => ⟨(hl.2 t ht).2 b, trivial, hc⟩⟩⟩
  | call m => exact fun t ht => ⟨⟨(hl t ht).1, trivial, hc⟩, ⟨(hl t ht).2, trivial, hc⟩⟩
  | save r => exact ⟨hl.1, fun t ht => ⟨hl.2 t ht, trivial, hc⟩⟩
  | cancel r => exact ⟨hl.1, fun t ht => ⟨hl.2 t ht, trivial, hc⟩⟩
  | hasCall r => exact ⟨hl.1, fun t ht => ⟨hl.2 t ht, trivial, hc⟩⟩
  | notifId => exact fun t n ht => ⟨hl t n ht, trivial, hc⟩
  | tell m => exact fun t ht => ⟨hl t ht, trivial, hc⟩
  | now => exact fun t ht => ⟨hl t ht, trivial, hc⟩
  | calCheck r => exact fun t ht => ⟨hl t ht, trivial, hc⟩
  | calAdd r => exact fun t ht => ⟨hl t ht, trivial, hc⟩

/-- The calendar entries an operation removes are the connection's own. -/
theorem R0_of_sym {cfg : Cfg} {cid : Str} {ref : Nat} {α : Type} {p : Prog α} {Qs : Slice → Except Err α → Prop} {Q : S → Except Err α → Prop} :
    ∀ {sl : Slice} {s : S}, Plain cid true p → Sym cfg cid p Qs sl → LAll cid ref p Q s → Agree ref sl s → s.obj.cid = cid →
      R0 cid ref p (fun s' r => Q s' r ∧ ∃ sl', Agree ref sl' s' ∧ Qs sl' r) s := by
  induction p with
  | pure a => intro sl s _ hs hl hm _; exact ⟨hl, sl, hm, hs⟩
  | throw e => intro sl s _ hs hl hm _; exact ⟨hl, sl, hm, hs⟩
  | cmd c k ih =>
    intro sl s hp hs hl hm hc
    simp only [Sym] at hs
    by_cases ha : c.isAsync
    · rw [if_pos ha] at hs
      obtain ⟨h1, h2⟩ := agree_cmd hm.idle hp.1 hs.2.1 hl
      refine ⟨h1, LCmd_mono ?_ (got_of hc h2)⟩
      rintro s' r ⟨⟨h3, sl', h4, h5⟩, h6, h7⟩
      exact ih r (hp.2 r h6) (hs.2.2 sl' r h4).2 h3 h5.idle h7
    · rw [if_neg ha] at hs
      obtain ⟨h1, h2⟩ := agree_cmd hm hp.1 hs.1 hl
      refine ⟨h1, LCmd_mono ?_ (got_of hc h2)⟩
      rintro s' r ⟨⟨h3, sl', h4, h5⟩, h6, h7⟩
      exact ih r (hp.2 r h6) (hs.2 sl' r h4) h3 h5 h7
  | spawn p k _ _ => intro sl s hp; exact hp.elim

/-- An operation that removes none. -/
theorem R0_of_plain {cid : Str} {ref : Nat} {α : Type} {p : Prog α} {Q : S → Except Err α → Prop} :
    ∀ {s : S}, Plain cid false p → LAll cid ref p Q s → s.obj.cid = cid → R0 cid ref p Q s := by
  induction p with
  | pure a => intro s _ hl _; exact hl
  | throw e => intro s _ hl _; exact hl
  | cmd c k ih =>
    intro s hp hl hc
    refine ⟨?_, LCmd_mono ?_ (got_of hc hl)⟩
    · cases c <;> first | exact trivial | exact hp.1 | exact absurd hp.1 (by simp [PlainC])
    · rintro s' r ⟨h3, h6, h7⟩
      exact ih r (hp.2 r h6) h3 h7
  | spawn p k _ _ => intro s hp; exact hp.elim

/-! ### The view of an operation -/

/-- Kinds of operations. -/
inductive OpKind
  | reserve | commit | abort | provision | release | terminate | timeout | endtime | activate
  deriving DecidableEq, Repr

/-- Scheduled calls. -/
def OpKind.call : OpKind → Bool
  | .timeout | .endtime | .activate => true
  | _ => false

/-- An operation on a connection: its row object, what it is, when it began, the connection when it was looked up, and the messages
sent until then. -/
structure Ctx where
  cid : Str
  ref : Nat
  kind : OpKind
  began : Time
  s0 : S
  out0 : List Msg

/-- What the operation knows about the world. -/
structure View (x : Ctx) (w : World) (tc : List (Str × Resv)) (s : S) : Prop where
  row : w.row? x.cid = some s.row
  ocid : s.obj.cid = x.cid
  obj : w.heap[x.ref]? = some ⟨s.obj, false⟩
  old : ∀ tm, x.s0.tm = some tm → tm.called = false → tm.ref ≠ x.ref ∧ w.heap[tm.ref]? = some ⟨x.s0.row, false⟩
  cal : own x.cid tc = s.cal
  all : w.cal.Perm (tc.map (·.2))
  tm : dget w.tbl x.cid = s.tm
  up : decide (x.cid ∈ w.links) = s.up
  out : ∀ m ∈ x.out0 ++ s.out, m ∈ w.outbox
  conf : Confirmed w.outbox x.cid → Confirmed (x.out0 ++ s.out) x.cid
  clk : s.clk ≤ w.clk

/-- Nothing happened to other connections. -/
structure Others (cid : Str) (w : World) (tc : List (Str × Resv)) (w' : World) (tc' : List (Str × Resv)) : Prop where
  row : ∀ b, b ≠ cid → w'.row? b = w.row? b
  heap : ∀ (i : Nat) o, w.heap[i]? = some o → o.row.cid ≠ cid → w'.heap[i]? = some o
  len : w.heap.length ≤ w'.heap.length
  tbl : ∀ b, b ≠ cid → dget w'.tbl b = dget w.tbl b
  links : ∀ b, b ≠ cid → (b ∈ w'.links ↔ b ∈ w.links)
  own : ∀ b, b ≠ cid → own b tc' = own b tc
  out : ∀ m ∈ w.outbox, m ∈ w'.outbox
  conf : ∀ b, b ≠ cid → Confirmed w'.outbox b → Confirmed w.outbox b
  clk : w.clk ≤ w'.clk
  nd : (w.rows.map (·.cid)).Nodup → (w'.rows.map (·.cid)).Nodup
  ids : w'.otherIds = w.otherIds

theorem Others.refl (cid : Str) (w : World) (tc : List (Str × Resv)) : Others cid w tc w tc :=
  ⟨fun _ _ => rfl, fun _ _ h _ => h, Nat.le_refl _, fun _ _ => rfl, fun _ _ => Iff.rfl, fun _ _ => rfl, fun _ h => h, fun _ _ h => h, Int.le_refl _, fun h => h, rfl⟩

theorem Others.trans {cid : Str} {w w' w'' : World} {tc tc' tc'' : List (Str × Resv)} (h : Others cid w tc w' tc') (k : Others cid w' tc' w'' tc'') :
    Others cid w tc w'' tc'' where
  row b hb := (k.row b hb).trans (h.row b hb)
  heap i o hi ho := k.heap i o (h.heap i o hi ho) ho
  len := Nat.le_trans h.len k.len
  tbl b hb := (k.tbl b hb).trans (h.tbl b hb)
  links b hb := (k.links b hb).trans (h.links b hb)
  own b hb := (k.own b hb).trans (h.own b hb)
  out m hm := k.out m (h.out m hm)
  conf b hb hc := h.conf b hb (k.conf b hb hc)
  clk := Int.le_trans h.clk k.clk
  nd h0 := k.nd (h.nd h0)
  ids := k.ids.trans h.ids

section
variable {x : Ctx} {w : World} {tc : List (Str × Resv)} {s : S}

/-- The view of an operation on another connection stays. -/
theorem View.others {cid : Str} {w' : World} {tc' : List (Str × Resv)} (h : View x w tc s) (ho : Others cid w tc w' tc') (hne : x.cid ≠ cid)
    (h0 : x.s0.row.cid = x.cid) (hall : w'.cal.Perm (tc'.map (·.2))) : View x w' tc' s where
  row := by rw [ho.row _ hne]; exact h.row
  ocid := h.ocid
  obj := ho.heap _ _ h.obj (by simp only [h.ocid]; exact hne)
  old tm h1 h2 := ⟨(h.old tm h1 h2).1, ho.heap _ _ (h.old tm h1 h2).2 (by simp only [h0]; exact hne)⟩
  cal := by rw [ho.own _ hne]; exact h.cal
  all := hall
  tm := by rw [ho.tbl _ hne]; exact h.tm
  up := by rw [← h.up]; simp [ho.links _ hne]
  out m hm := ho.out m (h.out m hm)
  conf hc := h.conf (ho.conf _ hne hc)
  clk := Int.le_trans h.clk ho.clk

theorem conf_push {out : List Msg} {m : Msg} {cid b : Str} (hm : AboutConf cid m) (hb : b ≠ cid) (h : Confirmed (out ++ [m]) b) : Confirmed out b := by
  obtain ⟨corr, sl, dl, a, e, h⟩ := h
  rcases List.mem_append.mp h with h | h
  · exact ⟨corr, sl, dl, a, e, h⟩
  · simp only [List.mem_cons, List.not_mem_nil, or_false] at h
    exact absurd (hm _ _ _ _ _ _ h.symm) hb

/-- A message. -/
theorem View.say (h : View x w tc s) {m : Msg} {t : Time} {o : Oracle} (ht : w.clk ≤ t) (hm : AboutConf x.cid m) :
    View x { w with clk := t, orc := o, outbox := w.outbox ++ [m] } tc { s with out := s.out ++ [m], clk := t } ∧
    Others x.cid w tc { w with clk := t, orc := o, outbox := w.outbox ++ [m] } tc := by
  refine ⟨{ h with out := ?_, conf := ?_, clk := Int.le_refl _ }, { Others.refl x.cid w tc with out := ?_, conf := ?_, clk := ht }⟩
  · intro m' hm'
    simp only [← List.append_assoc] at hm'
    rcases List.mem_append.mp hm' with h' | h'
    · exact List.mem_append_left _ (h.out _ h')
    · exact List.mem_append_right _ h'
  · rintro ⟨corr, sl, dl, b, e, hc⟩
    rcases List.mem_append.mp hc with hc | hc
    · obtain ⟨corr, sl, dl, b, e, hc⟩ := h.conf ⟨corr, sl, dl, b, e, hc⟩
      exact ⟨corr, sl, dl, b, e, by simp only [← List.append_assoc]; exact List.mem_append_left _ hc⟩
    · exact ⟨corr, sl, dl, b, e, by simp only [← List.append_assoc]; exact List.mem_append_right _ hc⟩
  · intro m' hm'; exact List.mem_append_left _ hm'
  · intro b hb hc; exact conf_push hm hb hc

/-- A command executed. -/
theorem view_exec {β : Type} {c : Cmd β} {K : S → Except Err β → Prop} (h : View x w tc s) (hr : Rok x.cid c s) (hl : LCmd x.cid x.ref c s K) :
    ∃ s' tc', View x (exec w c).1 tc' s' ∧ Others x.cid w tc (exec w c).1 tc' ∧ K s' (exec w c).2 := by
  obtain ⟨t, o, ht0, he⟩ := advance_eq w
  unfold exec
  rw [he]
  have ht : s.clk ≤ t := Int.le_trans h.clk ht0
  have base : View x { w with clk := t, orc := o } tc { s with clk := t } := { h with clk := Int.le_refl _ }
  have obase : ∀ o', Others x.cid w tc { w with clk := t, orc := o' } tc := fun o' => { Others.refl x.cid w tc with clk := ht0 }
  have hlen : x.ref < w.heap.length := by
    have := h.obj
    rw [List.getElem?_eq_some_iff] at this
    exact this.1
  cases c with
  | find _ => exact absurd hl (by simp [LCmd])
  | findLive => exact absurd hl (by simp [LCmd])
  | newObj _ => exact absurd hl (by simp [LCmd])
  | newId => exact absurd hl (by simp [LCmd])
  | calCheck r => exact hr.elim
  | calAdd r => exact hr.elim
  | save r =>
    simp only [LCmd] at hl
    obtain ⟨rfl, hl⟩ := hl
    simp only [execAt, h.obj, Bool.false_eq_true, if_false]
    have hrow : ∀ b, ({ w with clk := t, orc := o, rows := setRow w.rows s.obj } : World).row? b = if s.obj.cid = b then (w.row? b).map fun _ => s.obj else w.row? b :=
      fun b => row?_set w s.obj b
    refine ⟨{ s with row := s.obj, clk := t }, tc, { base with row := ?_ }, { obase o with row := ?_, nd := ?_ }, hl t ht⟩
    · refine (hrow _).trans ?_
      rw [if_pos h.ocid, h.row]; rfl
    · intro b hb
      refine (hrow _).trans ?_
      rw [if_neg (by rw [h.ocid]; exact Ne.symm hb)]
    · intro hn; simp only [map_cid_setRow]; exact hn
  | setup c =>
    simp only [LCmd] at hl
    obtain ⟨rfl, hl⟩ := hl
    simp only [execAt, World.dev]
    have hup : ∀ (y : List Dev), View x { w with clk := t, orc := { o with devs := y }, links := x.cid :: w.links } tc { s with up := true, clk := t } ∧
        Others x.cid w tc { w with clk := t, orc := { o with devs := y }, links := x.cid :: w.links } tc := fun y =>
      ⟨{ base with up := by simp }, { obase o with links := fun b hb => by simp [hb] }⟩
    cases hd : o.devs with
    | nil =>
      have := hup []
      rw [show ({ o with devs := [] } : Oracle) = o by rw [← hd]] at this
      exact ⟨_, tc, this.1, this.2, (hl t ht).1⟩
    | cons d ds =>
      cases d with
      | ok => exact ⟨_, tc, (hup ds).1, (hup ds).2, (hl t ht).1⟩
      | failed b =>
        cases b with
        | true => exact ⟨{ s with up := true || s.up, clk := t }, tc, by simpa using (hup ds).1, by simpa using (hup ds).2, (hl t ht).2 true⟩
        | false =>
          refine ⟨{ s with up := false || s.up, clk := t }, tc, ?_, obase _, (hl t ht).2 false⟩
          simp only [Bool.false_or]; exact { base with }
  | teardown c =>
    simp only [LCmd] at hl
    obtain ⟨rfl, hl⟩ := hl
    simp only [execAt, World.dev]
    have hup : ∀ (y : List Dev), View x { w with clk := t, orc := { o with devs := y }, links := w.links.filter (· ≠ x.cid) } tc { s with up := false, clk := t } ∧
        Others x.cid w tc { w with clk := t, orc := { o with devs := y }, links := w.links.filter (· ≠ x.cid) } tc := fun y =>
      ⟨{ base with up := by simp }, { obase o with links := fun b hb => by simp [List.mem_filter, hb] }⟩
    cases hd : o.devs with
    | nil =>
      have := hup []
      rw [show ({ o with devs := [] } : Oracle) = o by rw [← hd]] at this
      exact ⟨_, tc, this.1, this.2, (hl t ht).1⟩
    | cons d ds =>
      cases d with
      | ok => exact ⟨_, tc, (hup ds).1, (hup ds).2, (hl t ht).1⟩
      | failed b =>
        cases b with
        | true => exact ⟨{ s with up := !true && s.up, clk := t }, tc, by simpa using (hup ds).1, by simpa using (hup ds).2, (hl t ht).2 true⟩
        | false =>
          refine ⟨{ s with up := !false && s.up, clk := t }, tc, ?_, obase _, (hl t ht).2 false⟩
          simp only [Bool.not_false, Bool.true_and]; exact { base with }
  | call m =>
    simp only [LCmd] at hl
    simp only [execAt]
    cases hd : o.parents with
    | nil =>
      have hb := h.say (o := o) ht0 hr
      exact ⟨_, tc, hb.1, hb.2, (hl t ht).1⟩
    | cons b bs =>
      have hb := h.say (o := { o with parents := bs }) ht0 hr
      refine ⟨_, tc, hb.1, hb.2, ?_⟩
      cases b
      · exact (hl t ht).2
      · exact (hl t ht).1
  | tell m =>
    simp only [LCmd] at hl
    have hb := h.say (o := o) ht0 hr
    exact ⟨_, tc, hb.1, hb.2, hl t ht⟩
  | getObj r =>
    simp only [LCmd] at hl
    obtain ⟨rfl, hl⟩ := hl
    simp only [execAt, h.obj]
    exact ⟨_, tc, base, obase o, hl t ht⟩
  | setObj r row =>
    simp only [LCmd] at hl
    obtain ⟨rfl, hc, hl⟩ := hl
    simp only [execAt, h.obj]
    refine ⟨{ s with obj := row, clk := t }, tc, { base with ocid := hc, obj := by simp [hlen], old := ?_ }, { obase o with heap := ?_, len := by simp }, hl t ht⟩
    · intro tm h1 h2
      obtain ⟨h3, h4⟩ := h.old tm h1 h2
      exact ⟨h3, by simp only; rw [List.getElem?_set_ne (Ne.symm h3)]; exact h4⟩
    · intro i ob hi hne
      have : i ≠ x.ref := by
        rintro rfl
        rw [h.obj] at hi
        simp only [Option.some.injEq] at hi
        subst hi
        exact hne h.ocid
      simp only
      rw [List.getElem?_set_ne (Ne.symm this)]
      exact hi
  | now => exact ⟨_, tc, base, obase o, hl t ht⟩
  | calRemove r =>
    simp only [LCmd] at hl
    have hk := hl t ht
    have hm : r ∈ s.cal := hr
    have hown : (x.cid, r) ∈ tc := mem_own.mp (h.cal ▸ hm)
    have hc : r ∈ w.cal := h.all.symm.subset (List.mem_map.mpr ⟨_, hown, rfl⟩)
    simp only [execAt]
    rw [Cal.remove, if_pos hm] at hk
    rw [Cal.remove, if_pos hc]
    refine ⟨{ s with cal := s.cal.erase r, clk := t }, tc.erase (x.cid, r), { base with cal := ?_, all := ?_ }, { obase o with own := ?_ }, hk⟩
    · rw [own_erase, if_pos rfl, h.cal]
    · have h1 : (tc.map (·.2)).Perm (r :: (tc.erase (x.cid, r)).map (·.2)) := by
        have := (List.perm_cons_erase hown).map (·.2)
        simpa using this
      have h2 := (h.all.trans h1).erase r
      simpa using h2
    · intro b hb; rw [own_erase, if_neg (Ne.symm hb)]
  | sched c t' act r =>
    simp only [LCmd] at hl
    obtain ⟨rfl, rfl, hl⟩ := hl
    have hk := hl t ht
    unfold schedRes at hk
    simp only [execAt]
    rw [h.tm]
    split
    · rename_i e
      simp only [e, busy, if_true] at hk
      rw [← e] at hk
      exact ⟨_, tc, base, obase o, hk⟩
    · rename_i hn
      have hb : busy s.tm = false := by
        unfold busy
        split
        · rename_i e; exact absurd e (hn _ _ _)
        · rfl
      simp only [hb, Bool.false_eq_true, if_false] at hk
      by_cases hs : t' < t - second
      · simp only [if_pos hs] at hk ⊢; exact ⟨_, tc, base, obase o, hk⟩
      · simp only [if_neg hs] at hk ⊢
        refine ⟨{ s with tm := some ⟨max t' t, act, x.ref, false⟩, clk := t }, tc, { base with tm := by simp [dget_dset] }, { obase o with tbl := ?_ }, hk⟩
        intro c' hc'; simp only; rw [dget_dset, if_neg (Ne.symm hc')]
  | cancel c =>
    simp only [LCmd] at hl
    obtain ⟨rfl, hl⟩ := hl
    refine ⟨{ s with tm := none, clk := t }, tc, { base with tm := by simp [execAt, dget_ddel] }, { obase o with tbl := ?_ }, hl t ht⟩
    intro c' hc'; simp only [execAt]; rw [dget_ddel, if_neg (Ne.symm hc')]
  | hasCall c =>
    simp only [LCmd] at hl
    obtain ⟨rfl, hl⟩ := hl
    refine ⟨_, tc, base, obase o, ?_⟩
    simp only [execAt, dmem_eq, h.tm]
    exact hl t ht
  | notifId => exact ⟨_, tc, { base with }, { obase o with }, hl t _ ht⟩

end
end OpenNSA.Backend
