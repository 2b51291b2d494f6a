import Verif.Backend.ConcCal
/-
Interleaved execution, connection by connection: the part of the world that belongs to one connection (its slice), and what each
command does to it. The calendar is shared; each of its entries is tagged with the connection it belongs to (`tc`).
-/
namespace OpenNSA.Backend
open OpenNSA Py Prog

/-- The part of the world belonging to one connection: stored row, row objects, entry of the scheduler's table, calendar entries;
`free`: its id is not in use by another backend; `chk`: reservations the calendar allowed since the last suspension; `fresh`: the
next generated id is this connection's. -/
structure Slice where
  row : Option Row
  objs : Nat → Option Obj
  tm : Option Timer
  mine : List Resv
  free : Bool
  chk : List Resv := []
  fresh : Bool := false

/-- What is left of it over a suspension. -/
def Slice.idle (s : Slice) : Slice := { s with chk := [], fresh := false }

/-- Changed at one point. -/
def upd (f : Nat → Option Obj) (n : Nat) (o : Obj) : Nat → Option Obj := fun m => if m = n then some o else f m

@[simp] theorem upd_self (f : Nat → Option Obj) (n : Nat) (o : Obj) : upd f n o n = some o := by simp [upd]
theorem upd_ne {f : Nat → Option Obj} {n m : Nat} {o : Obj} (h : m ≠ n) : upd f n o m = f m := by simp [upd, h]

/-- The command concerns this connection only and cannot go wrong in a way that leaves entries behind. -/
def Ok (cid : Str) {β : Type} (c : Cmd β) (s : Slice) : Prop :=
  match c with
  | .find c => c = cid
  | .findLive => False
  | .save ref => ∃ o, s.objs ref = some o ∧ (o.isNew = true → s.row = none ∧ s.free = true)
  | .getObj ref => ∃ o, s.objs ref = some o
  | .setObj ref row => (∃ o, s.objs ref = some o) ∧ row.cid = cid
  | .newObj row => row.cid = cid
  | .calAdd e => e ∈ s.chk
  | .calRemove e => e ∈ s.mine
  | .sched c _ _ _ => c = cid
  | .cancel c => c = cid
  | .newId => s.fresh = true
  | _ => True

/-- What the command may do to the slice, and with which result. -/
def Eff (cid : Str) {β : Type} (c : Cmd β) (s s' : Slice) (r : Except Err β) : Prop :=
  match c, r with
  | .find _, r => (s.row = none ∧ s' = s ∧ r = .ok none) ∨
      ∃ x n, s.row = some x ∧ s.objs n = none ∧ r = .ok (some n) ∧ s' = { s with objs := upd s.objs n ⟨x, false⟩ }
  | .findLive, _ => True
  | .save ref, r => r = .ok () ∧ ∃ o, s.objs ref = some o ∧
      s' = if o.isNew then { s with row := some o.row, objs := upd s.objs ref ⟨o.row, false⟩ }
        else { s with row := s.row.map fun _ => o.row }
  | .setup _, _ => s' = s
  | .teardown _, _ => s' = s
  | .call _, _ => s' = s
  | .tell _, r => s' = s ∧ r = .ok ()
  | .getObj ref, r => s' = s ∧ ∃ o, s.objs ref = some o ∧ r = .ok o.row
  | .setObj ref row, r => r = .ok () ∧ ∃ o, s.objs ref = some o ∧ s' = { s with objs := upd s.objs ref { o with row } }
  | .newObj row, r => ∃ n, s.objs n = none ∧ r = .ok n ∧ s' = { s with objs := upd s.objs n ⟨row, true⟩ }
  | .now, r => s' = s ∧ ∃ t, r = .ok t
  | .calCheck e, r => (r = .ok () ∧ s' = { s with chk := e :: s.chk }) ∨ (s' = s ∧ ∃ x, r = .error x)
  | .calAdd e, r => r = .ok () ∧ s' = { s with mine := s.mine ++ [e] }
  | .calRemove e, r => r = .ok () ∧ s' = { s with mine := s.mine.erase e }
  | .sched _ _ act ref, r => (∃ due, r = .ok () ∧ s' = { s with tm := some ⟨due, act, ref, false⟩ }) ∨ (s' = s ∧ ∃ x, r = .error x)
  | .cancel _, r => r = .ok () ∧ s' = { s with tm := none }
  | .hasCall _, r => s' = s ∧ ∃ b, r = .ok b
  | .newId, r => r = .ok cid ∧ s' = { s with fresh := false }
  | .notifId, r => s' = s ∧ ∃ n, r = .ok n

/-! ### The slice of a world -/

/-- The row objects of a connection. -/
def World.objsOf (w : World) (cid : Str) : Nat → Option Obj := fun ref => (w.heap[ref]?).filter fun o => o.row.cid = cid

/-- The entries tagged with a connection. -/
def own (cid : Str) (tc : List (Str × Resv)) : List Resv := (tc.filter fun p => p.1 = cid).map (·.2)

/-- The slice of a connection. -/
def slice (cid : Str) (w : World) (tc : List (Str × Resv)) : Slice :=
  { row := w.row? cid, objs := w.objsOf cid, tm := dget w.tbl cid, mine := own cid tc, free := decide (cid ∉ w.otherIds) }

/-- `s` is the slice of the connection, as known to a coroutine running without interruption. -/
structure At (cid : Str) (w : World) (tc : List (Str × Resv)) (s : Slice) : Prop where
  core : s.idle = slice cid w tc
  chk : ∀ e ∈ s.chk, (∀ st, e.start = some st → st ≤ year2095) ∧
    (w.clk < forever → ∀ p ∈ tc, p.1 ≠ cid → ¬ Share w.clk p.2 e)
  fresh : s.fresh = true → w.orc.ids.headD [] = cid

/-- The tags are in order: every entry has one, and entries of different connections do not share an instant. -/
structure Glob (w : World) (tc : List (Str × Resv)) : Prop where
  nodup : (w.rows.map (·.cid)).Nodup
  cal : w.cal.Perm (tc.map (·.2))
  starts : ∀ p ∈ tc, ∀ st, p.2.start = some st → st ≤ year2095
  apart : w.clk < forever → ∀ p ∈ tc, ∀ q ∈ tc, p.1 ≠ q.1 → ¬ Share w.clk p.2 q.2

/-- Nothing changed for other connections. -/
structure Frame (cid : Str) (w : World) (tc : List (Str × Resv)) (w' : World) (tc' : List (Str × Resv)) : Prop where
  same : ∀ b, b ≠ cid → slice b w' tc' = slice b w tc
  clk : w.clk ≤ w'.clk

theorem Frame.refl (cid : Str) (w : World) (tc : List (Str × Resv)) : Frame cid w tc w tc := ⟨fun _ _ => rfl, Int.le_refl _⟩
theorem Frame.trans {cid : Str} {w w' w'' : World} {tc tc' tc'' : List (Str × Resv)} (h : Frame cid w tc w' tc') (k : Frame cid w' tc' w'' tc'') :
    Frame cid w tc w'' tc'' := ⟨fun b hb => (k.same b hb).trans (h.same b hb), Int.le_trans h.clk k.clk⟩

theorem Share.symm {t : Time} {x y : Resv} (h : Share t x y) : Share t y x := by
  obtain ⟨e, u, h1, h2⟩ := h; exact ⟨e.symm, u, h2, h1⟩

section
variable {cid : Str} {w w' : World} {tc : List (Str × Resv)} {s : Slice}

theorem Glob.later (h : Glob w tc) (hr : w'.rows = w.rows) (hc : w'.cal = w.cal) (ht : w.clk ≤ w'.clk) : Glob w' tc :=
  ⟨by rw [hr]; exact h.nodup, by rw [hc]; exact h.cal, h.starts, fun hf p hp q hq hn hs => h.apart (by omega) p hp q hq hn (hs.earlier ht)⟩

theorem At.env (h : At cid w tc s) {t : Time} {o : Oracle} (ht : w.clk ≤ t) (ho : o.ids = w.orc.ids) : At cid (w.env t o) tc s :=
  ⟨h.core, fun e he => ⟨(h.chk e he).1, fun hf p hp hn hs => (h.chk e he).2 (by simp only at hf; omega) p hp hn (hs.earlier ht)⟩,
    fun hf => by simp only [ho]; exact h.fresh hf⟩

theorem At.row (h : At cid w tc s) : s.row = w.row? cid := congrArg Slice.row h.core
theorem At.objs (h : At cid w tc s) : s.objs = w.objsOf cid := congrArg Slice.objs h.core
theorem At.tm (h : At cid w tc s) : s.tm = dget w.tbl cid := congrArg Slice.tm h.core
theorem At.mine (h : At cid w tc s) : s.mine = own cid tc := congrArg Slice.mine h.core
theorem At.free (h : At cid w tc s) : s.free = decide (cid ∉ w.otherIds) := congrArg Slice.free h.core

theorem At.ofIdle (w : World) (tc : List (Str × Resv)) : At cid w tc (slice cid w tc) :=
  ⟨rfl, fun _ h => by simp [slice] at h, fun h => by simp [slice] at h⟩

theorem At.idle (h : At cid w tc s) : At cid w tc s.idle := h.core ▸ At.ofIdle w tc

theorem slice_keep (h1 : w'.rows = w.rows) (h2 : w'.heap = w.heap) (h3 : w'.tbl = w.tbl) (h4 : w'.otherIds = w.otherIds) (b : Str) :
    slice b w' tc = slice b w tc := by
  have h5 : w'.objsOf b = w.objsOf b := by funext m; simp only [World.objsOf, h2]
  simp only [slice, World.row?, h1, h3, h4, h5]

/-- Nothing relevant changed. -/
theorem At.keep (h : At cid w tc s) (h1 : w'.rows = w.rows) (h2 : w'.heap = w.heap) (h3 : w'.tbl = w.tbl) (h4 : w'.otherIds = w.otherIds)
    (h5 : w'.clk = w.clk) (h6 : w'.orc.ids = w.orc.ids) : At cid w' tc s where
  core := by rw [h.core, slice_keep h1 h2 h3 h4]
  chk e he := by rw [h5]; exact h.chk e he
  fresh hf := by rw [h6]; exact h.fresh hf

theorem objsOf_some {ref : Nat} {o : Obj} : w.objsOf cid ref = some o ↔ w.heap[ref]? = some o ∧ o.row.cid = cid := by
  simp only [World.objsOf, Option.filter_eq_some_iff, decide_eq_true_eq]

theorem objsOf_push (w : World) (o : Obj) (b : Str) : ({ w with heap := w.heap ++ [o] } : World).objsOf b =
    if o.row.cid = b then upd (w.objsOf b) w.heap.length o else w.objsOf b := by
  funext m
  by_cases hb : o.row.cid = b
  · rw [if_pos hb]
    by_cases hm : m = w.heap.length
    · subst hm
      simp [World.objsOf, upd, hb]
    · rw [upd_ne hm]
      by_cases hl : m < w.heap.length
      · simp [World.objsOf, List.getElem?_append_left hl]
      · have h1 : (w.heap ++ [o])[m]? = none := by rw [List.getElem?_eq_none]; simp; omega
        have h2 : w.heap[m]? = none := by rw [List.getElem?_eq_none]; omega
        simp only [World.objsOf, h1, h2]
  · rw [if_neg hb]
    by_cases hm : m = w.heap.length
    · subst hm
      simp [World.objsOf, hb]
    · by_cases hl : m < w.heap.length
      · simp [World.objsOf, List.getElem?_append_left hl]
      · have h1 : (w.heap ++ [o])[m]? = none := by rw [List.getElem?_eq_none]; simp; omega
        have h2 : w.heap[m]? = none := by rw [List.getElem?_eq_none]; omega
        simp only [World.objsOf, h1, h2]

theorem objsOf_fresh (w : World) (b : Str) : w.objsOf b w.heap.length = none := by simp [World.objsOf]

theorem objsOf_set {w : World} {ref : Nat} {o o' : Obj} (h : w.heap[ref]? = some o) (he : o'.row.cid = o.row.cid) (b : Str) :
    ({ w with heap := w.heap.set ref o' } : World).objsOf b = if o.row.cid = b then upd (w.objsOf b) ref o' else w.objsOf b := by
  have hl : ref < w.heap.length := by
    rcases Nat.lt_or_ge ref w.heap.length with hl | hl
    · exact hl
    · rw [List.getElem?_eq_none hl] at h; cases h
  funext m
  by_cases hm : m = ref
  · subst hm
    by_cases hb : o.row.cid = b
    · simp [World.objsOf, List.getElem?_set_self hl, he, hb]
    · have h1 : (w.heap.set m o')[m]? = some o' := List.getElem?_set_self hl
      have h2 : ¬ o'.row.cid = b := by rw [he]; exact hb
      simp [World.objsOf, h1, h, Option.filter, hb, h2]
  · have h1 : (w.heap.set ref o')[m]? = w.heap[m]? := List.getElem?_set_ne (Ne.symm hm)
    by_cases hb : o.row.cid = b
    · rw [if_pos hb, upd_ne hm]; simp only [World.objsOf, h1]
    · rw [if_neg hb]; simp only [World.objsOf, h1]

theorem row?_append (w : World) (r : Row) (b : Str) : ({ w with rows := w.rows ++ [r] } : World).row? b =
    (w.row? b).or (if r.cid = b then some r else none) := by
  simp only [World.row?, List.find?_append]
  congr 1
  by_cases h : r.cid = b <;> simp [h]

theorem row?_cid {r : Row} (h : w.row? cid = some r) : r.cid = cid := by
  have := List.find?_some h
  simpa using this

theorem row?_set (w : World) (r : Row) (b : Str) : ({ w with rows := setRow w.rows r } : World).row? b =
    if r.cid = b then (w.row? b).map fun _ => r else w.row? b := by
  simp only [World.row?, setRow]
  induction w.rows with
  | nil => simp
  | cons x l ih =>
    simp only [List.map_cons, List.find?_cons]
    by_cases hx : x.cid = r.cid
    · by_cases hb : r.cid = b
      · simp [hx, hb]
      · have : ¬ x.cid = b := by rw [hx]; exact hb
        simp only [if_neg hb] at ih ⊢
        simp [hx, hb, ih]
    · rw [if_neg hx]
      by_cases hb : r.cid = b
      · have : ¬ x.cid = b := by rw [← hb]; exact hx
        simp only [this, decide_false]
        exact ih
      · simp only [if_neg hb] at ih ⊢
        by_cases hxb : x.cid = b <;> simp [hxb, ih]

theorem setRow_cids (rows : List Row) (r : Row) : (setRow rows r).map (·.cid) = rows.map (·.cid) := by
  simp only [setRow, List.map_map]
  apply List.map_congr_left
  intro x _
  simp only [Function.comp]
  split
  · rename_i h; exact h.symm
  · rfl

/-! Tags -/

theorem own_append (b : Str) (tc : List (Str × Resv)) (c : Str) (e : Resv) :
    own b (tc ++ [(c, e)]) = if c = b then own b tc ++ [e] else own b tc := by
  by_cases h : c = b <;> simp [own, h]

theorem own_erase (tc : List (Str × Resv)) (c : Str) (e : Resv) (b : Str) :
    own b (tc.erase (c, e)) = if c = b then (own b tc).erase e else own b tc := by
  induction tc with
  | nil => simp [own]
  | cons p l ih =>
    obtain ⟨c', e'⟩ := p
    simp only [List.erase_cons]
    by_cases hp : (c', e') = (c, e)
    · simp only [Prod.mk.injEq] at hp
      obtain ⟨rfl, rfl⟩ := hp
      by_cases hb : c' = b <;> simp [own, hb]
    · have hp' : ((c', e') == (c, e)) = false := by simpa using hp
      rw [hp']
      by_cases hc' : c' = b
      · subst hc'
        have e1 : own c' ((c', e') :: l.erase (c, e)) = e' :: own c' (l.erase (c, e)) := by simp [own]
        have e2 : own c' ((c', e') :: l) = e' :: own c' l := by simp [own]
        simp only [Bool.false_eq_true, if_false]
        rw [e1, e2, ih]
        by_cases hc : c = c'
        · subst hc
          have : (e' == e) = false := by
            have : ¬ e' = e := fun h => hp (by rw [h])
            simpa using this
          simp [this]
        · simp [hc]
      · have e1 : own b ((c', e') :: l.erase (c, e)) = own b (l.erase (c, e)) := by simp [own, hc']
        have e2 : own b ((c', e') :: l) = own b l := by simp [own, hc']
        simp only [Bool.false_eq_true, if_false]
        rw [e1, e2, ih]

theorem mem_own {b : Str} {tc : List (Str × Resv)} {e : Resv} : e ∈ own b tc ↔ (b, e) ∈ tc := by
  simp only [own, List.mem_map, List.mem_filter, decide_eq_true_eq, Prod.exists]
  constructor
  · rintro ⟨a, c, ⟨h1, rfl⟩, rfl⟩; exact h1
  · intro h; exact ⟨b, e, ⟨h, rfl⟩, rfl⟩

/-! ### Executing a command -/

/-- What is to be shown of a command executed in `w`, giving `x`. -/
def Goes (cid : Str) {β : Type} (c : Cmd β) (w : World) (tc : List (Str × Resv)) (s : Slice) (x : World × Except Err β) : Prop :=
  ∃ tc' s', Glob x.1 tc' ∧ At cid x.1 tc' s' ∧ Frame cid w tc x.1 tc' ∧ Eff cid c s s' x.2

theorem Goes.keep {β : Type} {c : Cmd β} {x : World × Except Err β} (hg : Glob w tc) (ha : At cid w tc s) (h1 : x.1.rows = w.rows)
    (h2 : x.1.heap = w.heap) (h3 : x.1.tbl = w.tbl) (h4 : x.1.otherIds = w.otherIds) (h5 : x.1.clk = w.clk) (h6 : x.1.orc.ids = w.orc.ids)
    (h7 : x.1.cal = w.cal) (he : Eff cid c s s x.2) : Goes cid c w tc s x :=
  ⟨tc, s, hg.later h1 h7 (by omega), ha.keep h1 h2 h3 h4 h5 h6, ⟨fun b _ => slice_keep h1 h2 h3 h4 b, by omega⟩, he⟩

theorem dev_keep (w : World) : w.dev.2.rows = w.rows ∧ w.dev.2.heap = w.heap ∧ w.dev.2.tbl = w.tbl ∧ w.dev.2.otherIds = w.otherIds ∧
    w.dev.2.clk = w.clk ∧ w.dev.2.orc.ids = w.orc.ids ∧ w.dev.2.cal = w.cal := by
  unfold World.dev; split <;> exact ⟨rfl, rfl, rfl, rfl, rfl, rfl, rfl⟩

/-- The slices after one of them changed in rows, objects and timer. -/
theorem At.change {s' : Slice} (ha : At cid w tc s) (hi : s'.idle = slice cid w' tc) (h1 : w'.clk = w.clk) (h2 : w'.orc = w.orc)
    (h3 : s'.chk = s.chk) (h4 : s'.fresh = s.fresh) : At cid w' tc s' :=
  ⟨hi, fun e he => by rw [h1]; exact ha.chk e (h3 ▸ he), fun hf => by rw [h2]; exact ha.fresh (h4 ▸ hf)⟩

theorem goes_execAt {β : Type} (c : Cmd β) (hg : Glob w tc) (ha : At cid w tc s) (hok : Ok cid c s) : Goes cid c w tc s (execAt w c) := by
  cases c with
  | find b =>
    cases (show b = cid from hok)
    simp only [execAt]
    cases hf : w.rows.find? (fun r => r.cid = cid) with
    | none => exact Goes.keep hg ha rfl rfl rfl rfl rfl rfl rfl (Or.inl ⟨by rw [ha.row]; exact hf, rfl, rfl⟩)
    | some r =>
      have hr : w.row? cid = some r := hf
      have hc := row?_cid hr
      refine ⟨tc, { s with objs := upd s.objs w.heap.length ⟨r, false⟩ }, hg.later rfl rfl (Int.le_refl _), ?_, ⟨?_, Int.le_refl _⟩, Or.inr ⟨r, w.heap.length, ?_, ?_, rfl, rfl⟩⟩
      · refine ha.change ?_ rfl rfl rfl rfl
        have := ha.core
        simp only [Slice.idle, slice, Slice.mk.injEq, and_true] at this ⊢
        refine ⟨this.1, ?_, this.2.2⟩
        rw [objsOf_push, if_pos hc, this.2.1]
      · intro a hab
        simp only [slice, objsOf_push]
        rw [if_neg (by rw [hc]; exact Ne.symm hab)]
        rfl
      · rw [ha.row]; exact hr
      · rw [ha.objs]; exact objsOf_fresh w cid
  | findLive => exact absurd hok (by simp [Ok])
  | save ref =>
    obtain ⟨o, ho, hn⟩ := hok
    have ho' := ho
    rw [ha.objs] at ho'
    obtain ⟨hh, hc⟩ := objsOf_some.mp ho'
    simp only [execAt, hh]
    split
    · rename_i hnew
      obtain ⟨hrow, hfree⟩ := hn hnew
      have hrow' : w.row? cid = none := by rw [← ha.row]; exact hrow
      have hfree' : cid ∉ w.otherIds := by rw [ha.free] at hfree; simpa using hfree
      have hno : ∀ r ∈ w.rows, r.cid ≠ cid := by
        intro r hr he
        have := List.find?_eq_none.mp hrow' r hr
        simp [he] at this
      have hid : w.idTaken o.row.cid = false := by
        simp only [World.idTaken, hc, Bool.or_eq_false_iff, List.any_eq_false, decide_eq_true_eq, decide_eq_false_iff_not]
        exact ⟨hno, hfree'⟩
      rw [hid]
      simp only [Bool.false_eq_true, if_false]
      refine ⟨tc, { s with row := some o.row, objs := upd s.objs ref ⟨o.row, false⟩ }, ⟨?_, hg.cal, hg.starts, hg.apart⟩, ?_, ⟨?_, Int.le_refl _⟩, rfl, o, ho, by simp [hnew]⟩
      · simp only [List.map_append, List.map_cons, List.map_nil]
        rw [List.nodup_append]
        refine ⟨hg.nodup, by simp, ?_⟩
        intro a h1 b h2
        simp only [List.mem_cons, List.not_mem_nil, or_false] at h2
        obtain ⟨r, hr, rfl⟩ := List.mem_map.mp h1
        rw [h2, hc]
        exact hno r hr
      · refine ha.change ?_ rfl rfl rfl rfl
        have := ha.core
        simp only [Slice.idle, slice, Slice.mk.injEq, and_true] at this ⊢
        refine ⟨?_, ?_, this.2.2⟩
        · have := row?_append w o.row cid
          simp only [hrow', hc, if_true, Option.none_or] at this
          exact this.symm
        · have h1 := objsOf_set (w := { w with rows := w.rows ++ [o.row] }) (o' := ⟨o.row, false⟩) hh rfl cid
          rw [if_pos hc] at h1
          exact (h1.trans (by rw [this.2.1]; rfl)).symm
      · intro a hab
        have hne : ¬ o.row.cid = a := by rw [hc]; exact Ne.symm hab
        have h1 := objsOf_set (w := { w with rows := w.rows ++ [o.row] }) (o' := ⟨o.row, false⟩) hh rfl a
        have h2 := row?_append w o.row a
        rw [if_neg hne] at h1 h2
        have h3 : ({ w with rows := w.rows ++ [o.row] } : World).objsOf a = w.objsOf a := rfl
        rw [h3] at h1
        simp only [Option.or_none] at h2
        simp only [slice, Slice.mk.injEq, and_true]
        exact ⟨h2, h1⟩
    · rename_i hnew
      refine ⟨tc, { s with row := s.row.map fun _ => o.row }, ⟨by simp only [setRow_cids]; exact hg.nodup, hg.cal, hg.starts, hg.apart⟩, ?_, ⟨?_, Int.le_refl _⟩, rfl, o, ho, by simp [hnew]⟩
      · refine ha.change ?_ rfl rfl rfl rfl
        have := ha.core
        simp only [Slice.idle, slice, Slice.mk.injEq, and_true] at this ⊢
        refine ⟨?_, this.2.1, this.2.2⟩
        rw [row?_set, if_pos hc, ← this.1]
      · intro a hab
        have hne : ¬ o.row.cid = a := by rw [hc]; exact Ne.symm hab
        have h2 := row?_set w o.row a
        rw [if_neg hne] at h2
        simp only [slice, Slice.mk.injEq, and_true]
        exact ⟨h2, rfl⟩
  | setup b =>
    obtain ⟨h1, h2, h3, h4, h5, h6, h7⟩ := dev_keep w
    have key : (execAt w (.setup b)).1.rows = w.rows ∧ (execAt w (.setup b)).1.heap = w.heap ∧ (execAt w (.setup b)).1.tbl = w.tbl ∧
        (execAt w (.setup b)).1.otherIds = w.otherIds ∧ (execAt w (.setup b)).1.clk = w.clk ∧ (execAt w (.setup b)).1.orc.ids = w.orc.ids ∧
        (execAt w (.setup b)).1.cal = w.cal := by
      simp only [execAt]
      revert h1 h2 h3 h4 h5 h6 h7
      generalize w.dev = d
      obtain ⟨d, w'⟩ := d
      intro h1 h2 h3 h4 h5 h6 h7
      cases d with
      | ok => exact ⟨h1, h2, h3, h4, h5, h6, h7⟩
      | failed b => cases b <;> exact ⟨h1, h2, h3, h4, h5, h6, h7⟩
    obtain ⟨h1, h2, h3, h4, h5, h6, h7⟩ := key
    exact Goes.keep hg ha h1 h2 h3 h4 h5 h6 h7 rfl
  | teardown b =>
    obtain ⟨h1, h2, h3, h4, h5, h6, h7⟩ := dev_keep w
    have key : (execAt w (.teardown b)).1.rows = w.rows ∧ (execAt w (.teardown b)).1.heap = w.heap ∧ (execAt w (.teardown b)).1.tbl = w.tbl ∧
        (execAt w (.teardown b)).1.otherIds = w.otherIds ∧ (execAt w (.teardown b)).1.clk = w.clk ∧ (execAt w (.teardown b)).1.orc.ids = w.orc.ids ∧
        (execAt w (.teardown b)).1.cal = w.cal := by
      simp only [execAt]
      revert h1 h2 h3 h4 h5 h6 h7
      generalize w.dev = d
      obtain ⟨d, w'⟩ := d
      intro h1 h2 h3 h4 h5 h6 h7
      cases d with
      | ok => exact ⟨h1, h2, h3, h4, h5, h6, h7⟩
      | failed b => cases b <;> exact ⟨h1, h2, h3, h4, h5, h6, h7⟩
    obtain ⟨h1, h2, h3, h4, h5, h6, h7⟩ := key
    exact Goes.keep hg ha h1 h2 h3 h4 h5 h6 h7 rfl
  | call m =>
    simp only [execAt]
    split <;> exact Goes.keep hg ha rfl rfl rfl rfl rfl rfl rfl rfl
  | tell m => exact Goes.keep hg ha rfl rfl rfl rfl rfl rfl rfl ⟨rfl, rfl⟩
  | getObj ref =>
    obtain ⟨o, ho⟩ := hok
    have ho' := ho
    rw [ha.objs] at ho'
    obtain ⟨hh, hc⟩ := objsOf_some.mp ho'
    simp only [execAt, hh]
    exact Goes.keep hg ha rfl rfl rfl rfl rfl rfl rfl ⟨rfl, o, ho, rfl⟩
  | setObj ref row =>
    obtain ⟨⟨o, ho⟩, hcid⟩ := hok
    have ho' := ho
    rw [ha.objs] at ho'
    obtain ⟨hh, hc⟩ := objsOf_some.mp ho'
    simp only [execAt, hh]
    refine ⟨tc, { s with objs := upd s.objs ref { o with row } }, hg.later rfl rfl (Int.le_refl _), ?_, ⟨?_, Int.le_refl _⟩, rfl, o, ho, rfl⟩
    · refine ha.change ?_ rfl rfl rfl rfl
      have := ha.core
      simp only [Slice.idle, slice, Slice.mk.injEq, and_true] at this ⊢
      refine ⟨this.1, ?_, this.2.2⟩
      rw [objsOf_set hh (by rw [hc]; exact hcid), if_pos hc, this.2.1]
    · intro a hab
      have hne : ¬ o.row.cid = a := by rw [hc]; exact Ne.symm hab
      simp only [slice]
      rw [objsOf_set hh (by rw [hc]; exact hcid), if_neg hne]
      rfl
  | newObj row =>
    have hc : row.cid = cid := hok
    simp only [execAt]
    refine ⟨tc, { s with objs := upd s.objs w.heap.length ⟨row, true⟩ }, hg.later rfl rfl (Int.le_refl _), ?_, ⟨?_, Int.le_refl _⟩, w.heap.length, ?_, rfl, rfl⟩
    · refine ha.change ?_ rfl rfl rfl rfl
      have := ha.core
      simp only [Slice.idle, slice, Slice.mk.injEq, and_true] at this ⊢
      refine ⟨this.1, ?_, this.2.2⟩
      rw [objsOf_push, if_pos hc, this.2.1]
    · intro a hab
      simp only [slice, objsOf_push]
      rw [if_neg (by rw [hc]; exact Ne.symm hab)]
      rfl
    · rw [ha.objs]; exact objsOf_fresh w cid
  | now => exact Goes.keep hg ha rfl rfl rfl rfl rfl rfl rfl ⟨rfl, _, rfl⟩
  | calCheck e =>
    simp only [execAt]
    cases hk : w.cal.check w.clk e with
    | error x => exact Goes.keep hg ha rfl rfl rfl rfl rfl rfl rfl (Or.inr ⟨rfl, _, rfl⟩)
    | ok u =>
      refine ⟨tc, { s with chk := e :: s.chk }, hg, ⟨ha.core, ?_, ha.fresh⟩, Frame.refl _ _ _, Or.inl ⟨rfl, rfl⟩⟩
      intro x hx
      rcases List.mem_cons.mp hx with rfl | hx
      · refine ⟨starts_of_check hk, fun hf p hp _ => ?_⟩
        refine not_share_of_check (hg.starts p hp) ?_ hk (Int.le_refl _) hf
        exact hg.cal.symm.subset (List.mem_map.mpr ⟨p, hp, rfl⟩)
      · exact ha.chk x hx
  | calAdd e =>
    have he : e ∈ s.chk := hok
    simp only [execAt, Cal.add]
    refine ⟨tc ++ [(cid, e)], { s with mine := s.mine ++ [e] }, ⟨hg.nodup, ?_, ?_, ?_⟩, ⟨?_, ?_, ha.fresh⟩, ⟨?_, Int.le_refl _⟩, rfl, rfl⟩
    · simp only [List.map_append, List.map_cons, List.map_nil]
      exact hg.cal.append_right _
    · intro p hp
      rcases List.mem_append.mp hp with hp | hp
      · exact hg.starts p hp
      · simp only [List.mem_cons, List.not_mem_nil, or_false] at hp
        subst hp
        exact (ha.chk e he).1
    · intro hf p hp q hq hn
      rcases List.mem_append.mp hp with hp | hp
      · rcases List.mem_append.mp hq with hq | hq
        · exact hg.apart hf p hp q hq hn
        · simp only [List.mem_cons, List.not_mem_nil, or_false] at hq
          subst hq
          exact (ha.chk e he).2 hf p hp hn
      · simp only [List.mem_cons, List.not_mem_nil, or_false] at hp
        subst hp
        rcases List.mem_append.mp hq with hq | hq
        · exact fun h => (ha.chk e he).2 hf q hq (Ne.symm hn) h.symm
        · simp only [List.mem_cons, List.not_mem_nil, or_false] at hq
          subst hq
          exact absurd rfl hn
    · have := ha.core
      simp only [Slice.idle, slice, Slice.mk.injEq, and_true] at this ⊢
      refine ⟨this.1, this.2.1, this.2.2.1, ?_, this.2.2.2.2⟩
      rw [own_append, if_pos rfl, this.2.2.2.1]
    · intro x hx
      refine ⟨(ha.chk x hx).1, fun hf p hp hn => ?_⟩
      rcases List.mem_append.mp hp with hp | hp
      · exact (ha.chk x hx).2 hf p hp hn
      · simp only [List.mem_cons, List.not_mem_nil, or_false] at hp
        subst hp
        exact absurd rfl hn
    · intro a hab
      simp only [slice]
      rw [own_append, if_neg (Ne.symm hab)]
      rfl
  | calRemove e =>
    have he : e ∈ s.mine := hok
    rw [ha.mine] at he
    have hm : (cid, e) ∈ tc := mem_own.mp he
    have hcal : e ∈ w.cal := hg.cal.symm.subset (List.mem_map.mpr ⟨_, hm, rfl⟩)
    simp only [execAt, Cal.remove, if_pos hcal]
    have hsub : ∀ p ∈ tc.erase (cid, e), p ∈ tc := fun p hp => List.mem_of_mem_erase hp
    refine ⟨tc.erase (cid, e), { s with mine := s.mine.erase e }, ⟨hg.nodup, ?_, fun p hp => hg.starts p (hsub p hp),
      fun hf p hp q hq => hg.apart hf p (hsub p hp) q (hsub q hq)⟩, ⟨?_, fun x hx => ⟨(ha.chk x hx).1, fun hf p hp => (ha.chk x hx).2 hf p (hsub p hp)⟩, ha.fresh⟩,
      ⟨?_, Int.le_refl _⟩, rfl, rfl⟩
    · have h1 : tc.Perm ((cid, e) :: tc.erase (cid, e)) := List.perm_cons_erase hm
      have h2 : w.cal.Perm (e :: (tc.erase (cid, e)).map (·.2)) := hg.cal.trans (h1.map _)
      have h3 := h2.erase e
      simpa using h3
    · have := ha.core
      simp only [Slice.idle, slice, Slice.mk.injEq, and_true] at this ⊢
      refine ⟨this.1, this.2.1, this.2.2.1, ?_, this.2.2.2.2⟩
      rw [own_erase, if_pos rfl, this.2.2.2.1]
    · intro a hab
      simp only [slice]
      rw [own_erase, if_neg (Ne.symm hab)]
      rfl
  | sched b t act ref =>
    cases (show b = cid from hok)
    have hset : Goes cid (.sched cid t act ref) w tc s ({ w with tbl := dset w.tbl cid ⟨max t w.clk, act, ref, false⟩ }, .ok ()) := by
      refine ⟨tc, { s with tm := some ⟨max t w.clk, act, ref, false⟩ }, hg.later rfl rfl (Int.le_refl _), ?_, ⟨?_, Int.le_refl _⟩, Or.inl ⟨_, rfl, rfl⟩⟩
      · refine ha.change ?_ rfl rfl rfl rfl
        have := ha.core
        simp only [Slice.idle, slice, Slice.mk.injEq, and_true] at this ⊢
        exact ⟨this.1, this.2.1, by rw [dget_dset]; simp, this.2.2.2⟩
      · intro a hab
        simp only [slice]
        rw [dget_dset, if_neg (Ne.symm hab)]
        rfl
    simp only [execAt]
    split
    · exact Goes.keep hg ha rfl rfl rfl rfl rfl rfl rfl (Or.inr ⟨rfl, _, rfl⟩)
    · split
      · exact Goes.keep hg ha rfl rfl rfl rfl rfl rfl rfl (Or.inr ⟨rfl, _, rfl⟩)
      · exact hset
  | cancel b =>
    cases (show b = cid from hok)
    refine ⟨tc, { s with tm := none }, hg.later rfl rfl (Int.le_refl _), ?_, ⟨?_, Int.le_refl _⟩, rfl, rfl⟩
    · refine ha.change ?_ rfl rfl rfl rfl
      have := ha.core
      simp only [execAt, Slice.idle, slice, Slice.mk.injEq, and_true] at this ⊢
      exact ⟨this.1, this.2.1, by rw [dget_ddel]; simp, this.2.2.2⟩
    · intro a hab
      simp only [execAt, slice]
      rw [dget_ddel, if_neg (Ne.symm hab)]
      rfl
  | hasCall b => exact Goes.keep hg ha rfl rfl rfl rfl rfl rfl rfl ⟨rfl, _, rfl⟩
  | newId =>
    have hf : s.fresh = true := hok
    have hid := ha.fresh hf
    simp only [execAt]
    split
    · rename_i h
      rw [h] at hid
      refine ⟨tc, { s with fresh := false }, hg, ⟨ha.core, ha.chk, by simp⟩, Frame.refl _ _ _, ?_, rfl⟩
      rw [← hid]; rfl
    · rename_i i is h
      rw [h] at hid
      refine ⟨tc, { s with fresh := false }, hg.later rfl rfl (Int.le_refl _), ⟨ha.core, ha.chk, by simp⟩, ⟨fun _ _ => rfl, Int.le_refl _⟩, ?_, rfl⟩
      rw [← hid]; rfl
  | notifId => exact Goes.keep hg ha rfl rfl rfl rfl rfl rfl rfl ⟨rfl, _, rfl⟩

/-- The same, with time passing before. -/
theorem goes_exec {β : Type} (c : Cmd β) (hg : Glob w tc) (ha : At cid w tc s) (hok : Ok cid c s) : Goes cid c w tc s (exec w c) := by
  have hadv : ∃ t o, w.clk ≤ t ∧ o.ids = w.orc.ids ∧ w.advance = w.env t o := by
    unfold World.advance
    split
    · exact ⟨w.clk, w.orc, Int.le_refl _, rfl, rfl⟩
    · rename_i t ts _
      exact ⟨w.clk + (t : Int), { w.orc with ticks := ts }, by omega, rfl, rfl⟩
  obtain ⟨t, o, ht, ho, he⟩ := hadv
  unfold exec
  rw [he]
  obtain ⟨tc', s', h1, h2, h3, h4⟩ := goes_execAt c (hg.later (w' := w.env t o) rfl rfl ht) (ha.env ht ho) hok
  exact ⟨tc', s', h1, h2, ⟨h3.same, Int.le_trans ht h3.clk⟩, h4⟩

end
end OpenNSA.Backend
