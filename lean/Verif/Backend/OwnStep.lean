import Verif.Backend.OwnSys
import Verif.Backend.OwnReserve
/-
Interleaved execution, connection by connection: which schedules are considered, and that every step of them keeps the invariant.
-/
namespace OpenNSA.Backend
open OpenNSA Py Prog

/-! ### Schedules -/

/-- The connection a request is about; a new connection gets the next generated id unless the client gives one. -/
def Req.conn (o : Oracle) : Req → Str
  | .reserve cid? _ _ _ _ => cid?.getD (o.ids.headD [])
  | .commit cid | .abort cid | .provision cid | .release cid | .terminate cid => cid

/-- The request changes what the connection has booked. -/
def Req.books : Req → Bool
  | .provision _ | .release _ => false
  | _ => true

/-- So does the scheduled call. -/
def Act.books : Act → Bool
  | .activate => false
  | _ => true

/-- Connection and kind of the operation that makes progress; `lab` has those of the operations under way. -/
def Conc.about (c : Conc) (lab : Nat → Str × Bool) (o : Oracle) : Choice → Str × Bool
  | .start _ q => (q.conn o, q.books)
  | .fire cid => (cid, match dget c.w.tbl cid with | some t => t.act.books | none => false)
  | .perform n => lab n
  | .resume n => lab n
  | .wait _ => ([], false)
  | .restart => ([], false)

/-- New tasks belong to the operation that makes progress. -/
def Conc.relabel (c : Conc) (lab : Nat → Str × Bool) (x : Str × Bool) : Nat → Str × Bool := fun n => if n < c.next then lab n else x

/-- An operation of this kind may be started on the connection: none is under way, or all of them leave the bookings alone. -/
def Conc.Clear (c : Conc) (lab : Nat → Str × Bool) (cid : Str) (books : Bool) : Prop :=
  ∀ t ∈ c.tasks, (lab t.id).1 = cid → (lab t.id).2 = false ∧ books = false

/-- The steps considered. -/
def Conc.Allowed (c : Conc) (lab : Nat → Str × Bool) (o : Oracle) : Choice → Prop
  | .start _ q => c.Clear lab (q.conn o) q.books ∧
    match q with
    | .reserve _ _ _ _ _ => c.w.idTaken (q.conn o) = false
    | .terminate cid => ∀ r, c.w.row? cid = some r → r.st.l ≠ .terminating
    | _ => True
  | .fire cid => ∀ due act ref, dget c.w.tbl cid = some ⟨due, act, ref, false⟩ → due ≤ c.w.clk → c.Clear lab cid act.books
  | .restart => False
  | _ => True

/-- All steps are. -/
def Orderly (cfg : Cfg) : Conc → (Nat → Str × Bool) → List (Oracle × Choice) → Prop
  | _, _, [] => True
  | c, lab, (o, ch) :: s => c.Allowed lab o ch ∧ Orderly cfg (c.step cfg o ch) (c.relabel lab (c.about lab o ch)) s

/-- Labels in the end. -/
def labels (cfg : Cfg) : Conc → (Nat → Str × Bool) → List (Oracle × Choice) → (Nat → Str × Bool)
  | _, lab, [] => lab
  | c, lab, (o, ch) :: s => labels cfg (c.step cfg o ch) (c.relabel lab (c.about lab o ch)) s

/-! ### The invariant -/

/-- One connection: operations that share it, or a single one that has it for itself. -/
def Phase (cfg : Cfg) (cid : Str) (s : Slice) (lab : Nat → Str × Bool) (ts : List Task) : Prop :=
  (∃ r0, Calm1 cfg r0 s ∧ ∀ t ∈ ts, (lab t.id).2 = false ∧ SymTaskS cid r0 s t.susp) ∨
  ∃ t, ts = [t] ∧ (lab t.id).2 = true ∧ SymTask cfg cid s t.susp

/-- The whole system. -/
structure SysAt (cfg : Cfg) (lab : Nat → Str × Bool) (c : Conc) (tc : List (Str × Resv)) : Prop where
  glob : Glob c.w tc
  owned : Owned lab c.tasks
  ids : ∀ t ∈ c.tasks, t.id < c.next
  phase : ∀ cid, Phase cfg cid (slice cid c.w tc) lab (tasksOf lab cid c.tasks)

/-- One step of `nospawn`. -/
macro "nospawn1" : tactic => `(tactic| first
  | exact trivial
  | exact ns_ofExcept _
  | exact ns_issue _
  | assumption
  | (refine ns_bind ?_ fun _ => ?_)
  | split)

section
variable {cfg : Cfg} {cid : Str} {r0 : Option Row} {lab : Nat → Str × Bool} {c : Conc} {tc : List (Str × Resv)}

theorem calm_of_rest {s : Slice} (h : RestS cfg s) : Calm1 cfg s.row s := by
  refine ⟨h, ?_⟩
  cases e : s.row with
  | none => exact Or.inl ⟨rfl, rfl⟩
  | some r => exact Or.inr ⟨r, r, rfl, rfl, Core.refl r⟩

/-- Nobody works on the connection. -/
theorem Phase.quiet {s : Slice} (h : Phase cfg cid s lab []) : RestS cfg s := by
  rcases h with ⟨r0, h, _⟩ | ⟨t, h, _⟩
  · exact h.rest
  · cases h

theorem SysAt.shared (h : SysAt cfg lab c tc) (hc : ∀ t ∈ tasksOf lab cid c.tasks, (lab t.id).2 = false) : ∃ r0, SharedAt cfg lab cid r0 c tc := by
  rcases h.phase cid with ⟨r0, h1, h2⟩ | ⟨t, h1, h2, _⟩
  · exact ⟨r0, h.glob, h1, h2, h.owned, h.ids⟩
  · have := hc t (by rw [h1]; simp)
    rw [h2] at this
    cases this

theorem run_excl {α : Type} {p : Prog α} {s : Slice} {id : Nat} {owner : Option Str} {fin : Except Err α → Except Err (Option Str)}
    (hg : Glob c.w tc) (ho : Owned lab c.tasks) (hi : ∀ t ∈ c.tasks, t.id < c.next)
    (hph : ∀ b, b ≠ cid → Phase cfg b (slice b c.w tc) lab (tasksOf lab b c.tasks)) (hn : tasksOf lab cid c.tasks = [])
    (ha : At cid c.w tc s) (hp : Sym cfg cid p (Final cfg) s) (how : owner = none ∨ owner = some cid) (hid : id < c.next) (hl : lab id = (cid, true))
    (hl' : ∀ n, c.next ≤ n → lab n = (cid, true)) : ∃ tc', SysAt cfg lab (Conc.runSync id owner p fin c) tc' := by
  obtain ⟨tc', g1, g2, g3, g4⟩ := sym_runSync id owner fin hg ha hp ho hn hid hl hl'
  refine ⟨tc', g1, ?_, ?_, ?_⟩
  · rcases g4 with ⟨e, _⟩ | ⟨t, e, h1, h2, h3, h4⟩
    · rw [e]; exact ho
    · rw [e]
      intro u hu o huo
      rcases List.mem_append.mp hu with hu | hu
      · exact ho u hu o huo
      · simp only [List.mem_cons, List.not_mem_nil, or_false] at hu
        subst hu
        rw [h2]
        rcases h3 with h3 | h3
        · rw [h3] at huo; cases huo
        · rw [h3] at huo
          rcases how with how | how
          · rw [how] at huo; cases huo
          · rw [how] at huo; cases huo; rfl
  · rcases g4 with ⟨e, _⟩ | ⟨t, e, h1, h2, h3, h4⟩
    · rw [e]
      exact fun u hu => Nat.lt_of_lt_of_le (hi u hu) g3
    · rw [e]
      intro u hu
      rcases List.mem_append.mp hu with hu | hu
      · exact Nat.lt_of_lt_of_le (hi u hu) g3
      · simp only [List.mem_cons, List.not_mem_nil, or_false] at hu
        subst hu
        exact h1
  · intro b
    by_cases hb : b = cid
    · subst hb
      rcases g4 with ⟨e, h⟩ | ⟨t, e, h1, h2, h3, h4⟩
      · rw [e, hn]
        exact Or.inl ⟨_, calm_of_rest h, fun t ht => by cases ht⟩
      · rw [e, tasksOf_append, hn]
        have : tasksOf lab b [t] = [t] := by simp [tasksOf, h2]
        rw [this]
        exact Or.inr ⟨t, rfl, by rw [h2], h4⟩
    · rw [g2.same b hb]
      rcases g4 with ⟨e, h⟩ | ⟨t, e, h1, h2, h3, h4⟩
      · rw [e]; exact hph b hb
      · rw [e, tasksOf_append]
        have : tasksOf lab b [t] = [] := by simp [tasksOf, h2, Ne.symm hb]
        rw [this, List.append_nil]
        exact hph b hb

theorem sys_of_shared {c' : Conc} {tc' : List (Str × Resv)} (h : SharedAt cfg lab cid r0 c' tc') (hb : Beside lab cid r0 c tc c' tc')
    (hph : ∀ b, b ≠ cid → Phase cfg b (slice b c.w tc) lab (tasksOf lab b c.tasks)) : SysAt cfg lab c' tc' := by
  refine ⟨h.glob, h.owned, h.ids, fun b => ?_⟩
  by_cases e : b = cid
  · subst e
    exact Or.inl ⟨r0, h.calm, h.tasks⟩
  · rw [hb.frame.same b e, hb.others b e]
    exact hph b e

theorem run_shared {α : Type} {p : Prog α} {T : List Nat} {Q : List Nat → Except Err α → Prop} {id : Nat} {owner : Option Str}
    {fin : Except Err α → Except Err (Option Str)} (h : SharedAt cfg lab cid r0 c tc)
    (hph : ∀ b, b ≠ cid → Phase cfg b (slice b c.w tc) lab (tasksOf lab b c.tasks))
    (ht : Tracked r0 (slice cid c.w tc) T) (hp : SymS cid r0 p Q T) (how : owner = none ∨ owner = some cid) (hid : id < c.next) (hl : lab id = (cid, false))
    (hl' : ∀ n, c.next ≤ n → lab n = (cid, false)) : ∃ tc', SysAt cfg lab (Conc.runSync id owner p fin c) tc' := by
  obtain ⟨tc', g1, g2⟩ := symS_runSync id owner fin h ht hp how hid hl hl'
  exact ⟨tc', sys_of_shared g1 g2 hph⟩

/-! ### Bookkeeping -/

theorem tasksOf_relabel {x : Str × Bool} {b : Str} {ts : List Task} (h : ∀ t ∈ ts, t.id < c.next) :
    tasksOf (c.relabel lab x) b ts = tasksOf lab b ts := by
  unfold tasksOf
  exact List.filter_congr fun t ht => by simp only [Conc.relabel, h t ht, if_true]

theorem SysAt.relabel (h : SysAt cfg lab c tc) (x : Str × Bool) : SysAt cfg (c.relabel lab x) c tc where
  glob := h.glob
  owned t ht o hto := by simp only [Conc.relabel, h.ids t ht, if_true]; exact h.owned t ht o hto
  ids := h.ids
  phase b := by
    rw [tasksOf_relabel h.ids]
    rcases h.phase b with ⟨r0, h1, h2⟩ | ⟨t, h1, h2, h3⟩
    · refine Or.inl ⟨r0, h1, fun t ht => ?_⟩
      have := h.ids t (List.mem_filter.mp ht).1
      simp only [Conc.relabel, this, if_true]
      exact h2 t ht
    · refine Or.inr ⟨t, h1, ?_, h3⟩
      have : t ∈ tasksOf lab b c.tasks := by rw [h1]; simp
      have := h.ids t (List.mem_filter.mp this).1
      simp only [Conc.relabel, this, if_true]
      exact h2

theorem SysAt.world (h : SysAt cfg lab c tc) {w : World} (h1 : w.rows = c.w.rows) (h2 : w.heap = c.w.heap) (h3 : w.tbl = c.w.tbl)
    (h4 : w.otherIds = c.w.otherIds) (h5 : w.cal = c.w.cal) (h6 : c.w.clk ≤ w.clk) : SysAt cfg lab { c with w } tc :=
  ⟨h.glob.later h1 h5 h6, h.owned, h.ids, fun b => by rw [slice_keep h1 h2 h3 h4]; exact h.phase b⟩

theorem SysAt.next (h : SysAt cfg lab c tc) {n : Nat} (hn : c.next ≤ n) : SysAt cfg lab { c with next := n } tc :=
  ⟨h.glob, h.owned, fun t ht => Nat.lt_of_lt_of_le (h.ids t ht) hn, h.phase⟩

theorem SysAt.shareAt (h : SysAt cfg lab c tc) (h1 : Calm1 cfg r0 (slice cid c.w tc))
    (h2 : ∀ t ∈ tasksOf lab cid c.tasks, (lab t.id).2 = false ∧ SymTaskS cid r0 (slice cid c.w tc) t.susp) : SharedAt cfg lab cid r0 c tc :=
  ⟨h.glob, h1, h2, h.owned, h.ids⟩

theorem takeTask_split {n : Nat} : ∀ {l : List Task} {t : Task} {rest : List Task}, takeTask n l = some (t, rest) →
    ∃ a b, l = a ++ t :: b ∧ rest = a ++ b ∧ t.id = n
  | [], _, _, h => by simp [takeTask] at h
  | u :: l, t, rest, h => by
    simp only [takeTask] at h
    split at h
    · simp only [Option.some.injEq, Prod.mk.injEq] at h
      obtain ⟨rfl, rfl⟩ := h
      exact ⟨[], l, rfl, rfl, ‹_›⟩
    · simp only [Option.map_eq_some_iff, Prod.mk.injEq] at h
      obtain ⟨⟨v, vs⟩, h1, rfl, rfl⟩ := h
      obtain ⟨a, b, rfl, rfl, h2⟩ := takeTask_split h1
      exact ⟨u :: a, b, rfl, rfl, h2⟩

/-- A due call as the scheduler's table has it. -/
theorem slice_called (w : World) (tc : List (Str × Resv)) (cid : Str) (t : Timer) (b : Str) :
    slice b { w with tbl := dset w.tbl cid t } tc = if b = cid then { slice b w tc with tm := some t } else slice b w tc := by
  have : w.objsOf b = ({ w with tbl := dset w.tbl cid t } : World).objsOf b := rfl
  split
  · rename_i e
    subst e
    simp only [slice, World.row?, ← this, dget_dset, if_true]
  · rename_i e
    simp only [slice, World.row?, ← this, dget_dset, if_neg (Ne.symm e)]

theorem slice_cid (w : World) (tc : List (Str × Resv)) : ∀ r, (slice cid w tc).row = some r → r.cid = cid := fun _ h => row?_cid h

theorem idTaken_row {w : World} (h : w.idTaken cid = false) : w.row? cid = none ∧ decide (cid ∉ w.otherIds) = true := by
  simp only [World.idTaken, Bool.or_eq_false_iff, decide_eq_false_iff_not] at h
  refine ⟨?_, by simp [h.2]⟩
  rw [World.row?, List.find?_eq_none]
  intro x hx hc
  have := h.1
  rw [List.any_eq_false] at this
  exact this x hx hc

theorem ns_reserveCommit (cfg : Cfg) (h : Hdr) (cid : Str) : NoSpawn (reserveCommit cfg h cid) := by
  refine ns_bind (getConnection_ns cid) fun ref => ?_
  have h1 := ns_multiSwitch ref [.committing, .start]
  have h2 := fun e => ns_schedEnd cid e ref
  unfold commitOn
  simp only [bind_eq]
  repeat' first
    | exact h1
    | exact h2 _
    | nospawn1

theorem ns_reserveAbort (cfg : Cfg) (h : Hdr) (cid : Str) : NoSpawn (reserveAbort cfg h cid) := by
  refine ns_bind (getConnection_ns cid) fun ref => ?_
  have h1 := ns_doReserveRollback cfg ref
  unfold abortOn
  simp only [bind_eq]
  nospawn

theorem ns_terminate (cfg : Cfg) (h : Hdr) (cid : Str) : NoSpawn (terminate cfg h cid) := by
  refine ns_bind (getConnection_ns cid) fun ref => ?_
  have h1 := ns_switchLifecycle ref .terminating
  have h2 := ns_switchLifecycle ref .terminated
  have h3 := fun b => ns_whenP (b := b) (ns_doFreeResource cfg ref)
  unfold terminateOn
  simp only [bind_eq]
  repeat' first
    | exact h3 _
    | nospawn1

/-- Requests that change bookings. -/
theorem sym_req {o : Oracle} {h : Hdr} {q : Req} {s : Slice} (hq : q.books = true) (hc : q.conn o = cid) (h0 : RestS cfg s)
    (hcid : ∀ r, s.row = some r → r.cid = cid)
    (hall : match q with
      | .reserve cid? _ _ _ _ => s.row = none ∧ s.free = true ∧ (cid? = none → s.fresh = true)
      | .terminate _ => ∀ r, s.row = some r → r.st.l ≠ .terminating
      | _ => True) : Sym cfg cid (q.prog cfg h) (Final cfg) s := by
  have wrap : ∀ {p : Prog Unit}, NoSpawn p → Sym cfg cid p (Final cfg) s → Sym cfg cid (p.bind fun _ => Prog.pure none : Prog (Option Str)) (Final cfg) s := by
    intro p hn hp
    refine Sym_bind hn (Sym_mono ?_ hp)
    intro s r hr
    cases r <;> exact hr
  cases q with
  | reserve cid? src dst st en =>
    obtain ⟨h1, h2, h3⟩ := hall
    have hqt : Quiet s.tm := by
      intro due act ref ht
      obtain ⟨r, _, hr, _⟩ := h0.tm due act ref ht
      rw [h1] at hr
      cases hr
    refine sym_reserve h1 (h0.none h1) hqt h2 ?_
    cases cid? with
    | none => exact h3 rfl
    | some c => exact hc
  | commit b =>
    cases (show b = cid from hc)
    exact wrap (ns_reserveCommit cfg h _) (sym_reserveCommit h h0 hcid)
  | abort b =>
    cases (show b = cid from hc)
    exact wrap (ns_reserveAbort cfg h _) (sym_reserveAbort h h0 hcid)
  | terminate b =>
    cases (show b = cid from hc)
    exact wrap (ns_terminate cfg h _) (sym_terminate h h0 hcid hall)
  | provision b => cases hq
  | release b => cases hq

/-! ### Steps -/

theorem Clear.alone {x : Bool} (h : c.Clear lab cid x) (hx : x = true) : tasksOf lab cid c.tasks = [] := by
  simp only [tasksOf, List.filter_eq_nil_iff, decide_eq_true_eq]
  intro t ht hl
  have := (h t ht hl).2
  rw [hx] at this
  cases this

theorem Clear.calm {x : Bool} (h : c.Clear lab cid x) : ∀ t ∈ tasksOf lab cid c.tasks, (lab t.id).2 = false := by
  intro t ht
  simp only [tasksOf, List.mem_filter, decide_eq_true_eq] at ht
  exact (h t ht.1 ht.2).1

theorem Clear.relabel {x : Bool} {y : Str × Bool} (h : c.Clear lab cid x) (hi : ∀ t ∈ c.tasks, t.id < c.next) : c.Clear (c.relabel lab y) cid x := by
  intro t ht hl
  simp only [Conc.relabel, hi t ht, if_true] at hl ⊢
  exact h t ht hl

theorem relabel_new {y : Str × Bool} {n : Nat} (h : c.next ≤ n) : c.relabel lab y n = y := by
  simp only [Conc.relabel, if_neg (Nat.not_lt.mpr h)]

theorem step_start (hs : SysAt cfg lab c tc) (h : Hdr) (q : Req) (ha : c.Allowed lab c.w.orc (.start h q)) :
    ∃ tc', SysAt cfg (c.relabel lab (q.conn c.w.orc, q.books)) (Conc.runSync c.next none (q.prog cfg h) id { c with next := c.next + 1 }) tc' := by
  obtain ⟨hcl, hall⟩ := ha
  have h1 := (hs.relabel (q.conn c.w.orc, q.books)).next (Nat.le_succ c.next)
  have hcl' := Clear.relabel (y := (q.conn c.w.orc, q.books)) hcl hs.ids
  cases hb : q.books with
  | true =>
    rw [hb] at h1 hcl'
    have hn := Clear.alone hcl' rfl
    have hrest : RestS cfg (slice (q.conn c.w.orc) c.w tc) := by
      have := h1.phase (q.conn c.w.orc)
      rw [hn] at this
      exact this.quiet
    refine run_excl (s := { slice (q.conn c.w.orc) c.w tc with fresh := decide (c.w.orc.ids.headD [] = q.conn c.w.orc) }) h1.glob h1.owned h1.ids
      (fun b _ => h1.phase b) hn ⟨rfl, fun _ he => by simp [slice] at he, fun hf => of_decide_eq_true hf⟩ ?_ (Or.inl rfl) (Nat.lt_succ_self _) (relabel_new (Nat.le_refl _))
      (fun n hn => relabel_new (Nat.le_of_succ_le hn))
    refine sym_req (o := c.w.orc) hb rfl ⟨hrest.row, hrest.none, hrest.tm⟩ (slice_cid c.w tc) ?_
    cases q with
    | reserve cid? src dst st en =>
      obtain ⟨k1, k2⟩ := idTaken_row hall
      refine ⟨k1, k2, ?_⟩
      rintro rfl
      simp [Req.conn]
    | terminate b => exact hall
    | _ => trivial
  | false =>
    rw [hb] at h1 hcl'
    obtain ⟨r0, h2⟩ := h1.shared (cid := q.conn c.w.orc) (Clear.calm hcl')
    have hcid := h2.isCid
    have ht : Tracked r0 (slice (q.conn c.w.orc) c.w tc) [] := fun _ h => by cases h
    cases q with
    | provision b =>
      exact run_shared (cid := b) h2 (fun b _ => h1.phase b) ht (ss_provision cfg h hcid) (Or.inl rfl) (Nat.lt_succ_self _) (relabel_new (Nat.le_refl _))
        (fun n hn => relabel_new (Nat.le_of_succ_le hn))
    | release b =>
      exact run_shared (cid := b) h2 (fun b _ => h1.phase b) ht (ss_release cfg h) (Or.inl rfl) (Nat.lt_succ_self _) (relabel_new (Nat.le_refl _))
        (fun n hn => relabel_new (Nat.le_of_succ_le hn))
    | _ => cases hb

theorem contrib_core {x y : Row} (h : Core x y) : contrib cfg y = contrib cfg x := by unfold Core at h; rw [h]; rfl
theorem both_core {x y : Row} (h : Core x y) : both cfg y = both cfg x := by unfold Core at h; rw [h]; rfl
theorem Core.l {x y : Row} (h : Core x y) : y.st.l = x.st.l := by unfold Core at h; rw [h]

theorem step_fire (hs : SysAt cfg lab c tc) {due : Time} {act : Act} {ref : Nat} (ht : dget c.w.tbl cid = some ⟨due, act, ref, false⟩)
    (hcl : c.Clear lab cid act.books) (fin : Except Err Unit → Except Err (Option Str)) :
    ∃ tc', SysAt cfg (c.relabel lab (cid, act.books)) (Conc.runSync c.next (some cid) (actProg cfg act ref) fin
      { c with w := { c.w with tbl := dset c.w.tbl cid ⟨due, act, ref, true⟩ }, next := c.next + 1 }) tc' := by
  have h1 := (hs.relabel (cid, act.books)).next (Nat.le_succ c.next)
  have hcl' := Clear.relabel (y := (cid, act.books)) hcl hs.ids
  obtain ⟨r0, h2⟩ := h1.shared (cid := cid) (Clear.calm hcl')
  obtain ⟨r, o, k1, k2, k3, k4, k5, k6⟩ := h2.calm.rest.tm due act ref ht
  obtain ⟨hokr, hmine⟩ := h2.calm.rest.row r k1
  let w' : World := { c.w with tbl := dset c.w.tbl cid ⟨due, act, ref, true⟩ }
  have hsl : slice cid w' tc = { slice cid c.w tc with tm := some ⟨due, act, ref, true⟩ } := by
    rw [slice_called, if_pos rfl]
  have hrest : RestS cfg (slice cid w' tc) := by
    rw [hsl]
    exact ⟨h2.calm.rest.row, h2.calm.rest.none, fun _ _ _ he => by simp at he⟩
  have hg : Glob w' tc := h1.glob.later rfl rfl (Int.le_refl _)
  have hph : ∀ b, b ≠ cid → Phase cfg b (slice b w' tc) (c.relabel lab (cid, act.books)) (tasksOf (c.relabel lab (cid, act.books)) b c.tasks) := by
    intro b hb
    rw [slice_called, if_neg hb]
    exact h1.phase b
  have hocid : o.row.cid = cid := k4.cid_eq.trans (slice_cid c.w tc r k1)
  have ho : (slice cid w' tc).objs ref = some ⟨o.row, false⟩ := by
    rw [hsl]
    simp only [k2, Option.some.injEq]
    cases o
    simp only at k3
    rw [k3]
  have hhas : Has1 cfg cid ref o.row r (slice cid c.w tc).mine (some ⟨due, act, ref, true⟩) (slice cid c.w tc).objs (slice cid w' tc) :=
    ⟨ho, by rw [hsl]; exact k1, hocid, by rw [hsl], by rw [hsl], fun n _ => by rw [hsl], .of_perm hmine⟩
  cases act with
  | reserveTimeout =>
    refine run_excl (s := slice cid w' tc) hg h1.owned h1.ids hph (Clear.alone hcl' rfl) (At.ofIdle w' tc) ?_ (Or.inr rfl) (Nat.lt_succ_self _)
      (relabel_new (Nat.le_refl _)) (fun n hn => relabel_new (Nat.le_of_succ_le hn))
    refine sym_doReserveTimeout hhas k5 (by rw [k4.r]; exact k6.1) (by rw [k4.l]; exact k6.2) ?_
    rw [both_core k4]
    rw [contrib_eq, if_pos ⟨k6.2, Or.inl k6.1⟩] at hmine
    exact hmine
  | endtime =>
    refine run_excl (s := slice cid w' tc) hg h1.owned h1.ids hph (Clear.alone hcl' rfl) (At.ofIdle w' tc) ?_ (Or.inr rfl) (Nat.lt_succ_self _)
      (relabel_new (Nat.le_refl _)) (fun n hn => relabel_new (Nat.le_of_succ_le hn))
    refine sym_endtime hhas hrest k5 (by rw [k4.r]; exact k6) fun _ => ?_
    rw [contrib_core k4]
    exact hmine
  | activate =>
    rcases h2.calm.core with e | ⟨x, y, e1, e2, e3⟩
    · rw [k1] at e; cases e.2
    · rw [k1] at e2
      cases e2
      have htr : ∀ T, Tracked r0 (slice cid c.w tc) T → Tracked r0 (slice cid w' tc) T := by
        intro T hT
        rw [hsl]
        exact hT
      have hsh : SharedAt cfg (c.relabel lab (cid, Act.activate.books)) cid r0 { c with w := w', next := c.next + 1 } tc :=
        ⟨hg, ⟨hrest, by rw [hsl]; exact h2.calm.core⟩, fun t ht => ⟨(h2.tasks t ht).1, (h2.tasks t ht).2.stay htr⟩, h2.owned, h2.ids⟩
      refine run_shared hsh hph (T := [ref]) ?_ (ss_doActivate (by simp) e1 ?_ ?_ ?_) (Or.inr rfl) (Nat.lt_succ_self _)
        (relabel_new (Nat.le_refl _)) (fun n hn => relabel_new (Nat.le_of_succ_le hn))
      · refine htr _ fun ref' hr' => ?_
        simp only [List.mem_cons, List.not_mem_nil, or_false] at hr'
        subst hr'
        exact ⟨x, o, e1, k2, k3, e3.trans k4, k5⟩
      · exact e3.cid_eq.symm.trans (slice_cid c.w tc r k1)
      · rw [← e3.allocated]; exact k6
      · rw [← e3.r]; exact hokr.alloc k6

theorem tasksOf_cons (t : Task) (b : Str) (l : List Task) : tasksOf lab b (t :: l) = (if (lab t.id).1 = b then [t] else []) ++ tasksOf lab b l := by
  simp only [tasksOf, List.filter_cons, decide_eq_true_eq]
  split <;> rfl

theorem step_perform (hs : SysAt cfg lab c tc) {α β : Type} {n : Nat} {t : Task} {ts : List Task} (ht : takeTask n c.tasks = some (t, ts)) {x : Cmd β}
    {k : Except Err β → Prog α} {fin : Except Err α → Except Err (Option Str)} (hw : t.susp = .waiting x k fin) :
    ∃ tc', SysAt cfg lab { c with w := (exec c.w x).1, tasks := ts ++ [⟨n, t.owner, .performed k (exec c.w x).2 fin⟩] } tc' := by
  obtain ⟨a, b, e1, e2, e3⟩ := takeTask_split ht
  have hmem : t ∈ c.tasks := by rw [e1]; simp
  have hsub : ∀ u ∈ ts, u ∈ c.tasks := by
    intro u hu
    rw [e2] at hu
    rw [e1]
    simp only [List.mem_append, List.mem_cons] at hu ⊢
    rcases hu with h | h
    · exact Or.inl h
    · exact Or.inr (Or.inr h)
  let t' : Task := ⟨n, t.owner, .performed k (exec c.w x).2 fin⟩
  have hcid : t ∈ tasksOf lab (lab n).1 c.tasks := by
    simp only [tasksOf, List.mem_filter, decide_eq_true_eq]
    exact ⟨hmem, by rw [e3]⟩
  have hown : Owned lab (ts ++ [t']) := by
    intro u hu o huo
    rcases List.mem_append.mp hu with hu | hu
    · exact hs.owned u (hsub u hu) o huo
    · simp only [List.mem_cons, List.not_mem_nil, or_false] at hu
      subst hu
      have := hs.owned t hmem o huo
      rw [e3] at this
      exact this
  have hids : ∀ u ∈ ts ++ [t'], u.id < c.next := by
    intro u hu
    rcases List.mem_append.mp hu with hu | hu
    · exact hs.ids u (hsub u hu)
    · simp only [List.mem_cons, List.not_mem_nil, or_false] at hu
      subst hu
      have := hs.ids t hmem
      rw [e3] at this
      exact this
  have hoth : ∀ d, d ≠ (lab n).1 → tasksOf lab d (ts ++ [t']) = tasksOf lab d c.tasks := by
    intro d hd
    rw [e1, e2]
    simp only [tasksOf_append, tasksOf_cons, e3, t', if_neg (Ne.symm hd)]
    simp [tasksOf]
  rcases hs.phase (lab n).1 with ⟨r0, h1, h2⟩ | ⟨u, h1, h2, h3⟩
  · have hsh := hs.shareAt h1 h2
    have ht' := h2 t hcid
    rw [hw] at ht'
    obtain ⟨hl, hx, T, hT, hok, hk, hcan⟩ := ht'
    obtain ⟨tc', T', g1, g2, g3, g4⟩ := hsh.exec hT hok
    refine ⟨tc', sys_of_shared (cid := (lab n).1) (r0 := r0) (c := c) (tc := tc) ⟨g1.glob, g1.calm, ?_, hown, hids⟩ ⟨g2.frame, hoth, Nat.le_refl _, g2.stay⟩
      fun b _ => hs.phase b⟩
    intro u hu
    simp only [tasksOf, List.mem_filter, decide_eq_true_eq, List.mem_append] at hu
    rcases hu with ⟨hu | hu, hul⟩
    · exact g1.tasks u (by simp only [tasksOf, List.mem_filter, decide_eq_true_eq]; exact ⟨hsub u hu, hul⟩)
    · simp only [List.mem_cons, List.not_mem_nil, or_false] at hu
      subst hu
      rw [e3] at hl
      exact ⟨hl, ⟨T', g3, hk T' _ g4⟩, T, g2.stay T hT, hcan⟩
  · rw [h1] at hcid
    simp only [List.mem_cons, List.not_mem_nil, or_false] at hcid
    subst hcid
    rw [hw] at h3
    obtain ⟨-, hx, hok, hk⟩ := h3
    obtain ⟨tc', s', g1, g2, g3, g4⟩ := goes_exec x hs.glob (At.ofIdle c.w tc) hok
    refine ⟨tc', g1, hown, hids, fun d => ?_⟩
    by_cases hd : d = (lab n).1
    · subst hd
      have hnil : tasksOf lab (lab n).1 ts = [] := by
        rw [e1] at h1
        rw [e2]
        simp only [tasksOf_append, tasksOf_cons, e3, if_true] at h1 ⊢
        have := congrArg List.length h1
        simp only [List.length_append, List.length_cons, List.length_nil] at this
        have ha : (tasksOf lab (lab n).1 a).length = 0 := by omega
        have hb : (tasksOf lab (lab n).1 b).length = 0 := by omega
        rw [List.length_eq_zero_iff.mp ha, List.length_eq_zero_iff.mp hb]
        rfl
      simp only [tasksOf_append, hnil, tasksOf_cons, if_true]
      refine Or.inr ⟨t', by simp [tasksOf, t'], ?_, ?_⟩
      · rw [e3] at h2; exact h2
      · obtain ⟨q1, q2⟩ := hk s' _ g4
        have q1' : Cov cfg s'.idle := q1
        rw [g2.core] at q1' q2
        exact ⟨q1', q2⟩
    · show Phase cfg d _ lab (tasksOf lab d (ts ++ [t']))
      rw [hoth d hd]
      show Phase cfg d (slice d (exec c.w x).1 tc') lab _
      rw [g3.same d hd]
      exact hs.phase d

theorem step_resume (hs : SysAt cfg lab c tc) {α β : Type} {n : Nat} {t : Task} {ts : List Task} (ht : takeTask n c.tasks = some (t, ts))
    {k : Except Err β → Prog α} {r : Except Err β} {fin : Except Err α → Except Err (Option Str)} (hw : t.susp = .performed k r fin) :
    ∃ tc', SysAt cfg (c.relabel lab (lab n)) (Conc.runSync n t.owner (k r) fin { c with tasks := ts }) tc' := by
  obtain ⟨a, b, e1, e2, e3⟩ := takeTask_split ht
  have hs' := hs.relabel (lab n)
  have hmem : t ∈ c.tasks := by rw [e1]; simp
  have hsub : ∀ u ∈ ts, u ∈ c.tasks := by
    intro u hu
    rw [e2] at hu
    rw [e1]
    simp only [List.mem_append, List.mem_cons] at hu ⊢
    rcases hu with h | h
    · exact Or.inl h
    · exact Or.inr (Or.inr h)
  have hln : c.relabel lab (lab n) n = lab n := by
    unfold Conc.relabel
    split <;> rfl
  generalize hlab' : c.relabel lab (lab n) = lab' at hs' hln ⊢
  have hnew : ∀ m, c.next ≤ m → lab' m = lab n := by
    intro m hm
    rw [← hlab']
    exact relabel_new hm
  rw [← hln] at hnew
  have hcid : t ∈ tasksOf lab' (lab' n).1 c.tasks := by
    simp only [tasksOf, List.mem_filter, decide_eq_true_eq]
    exact ⟨hmem, by rw [e3]⟩
  have hown : Owned lab' ts := fun u hu => hs'.owned u (hsub u hu)
  have hids : ∀ u ∈ ts, u.id < c.next := fun u hu => hs'.ids u (hsub u hu)
  have hnlt : n < c.next := e3 ▸ hs'.ids t hmem
  have hoth : ∀ d, d ≠ (lab' n).1 → tasksOf lab' d ts = tasksOf lab' d c.tasks := by
    intro d hd
    rw [e1, e2]
    simp only [tasksOf_append, tasksOf_cons, e3, if_neg (Ne.symm hd)]
    rfl
  have howner : t.owner = none ∨ t.owner = some (lab' n).1 := by
    cases ho : t.owner with
    | none => exact Or.inl rfl
    | some o =>
      have := hs'.owned t hmem o ho
      rw [e3] at this
      exact Or.inr (by rw [this])
  have hph : ∀ d, d ≠ (lab' n).1 → Phase cfg d (slice d c.w tc) lab' (tasksOf lab' d ts) := by
    intro d hd
    rw [hoth d hd]
    exact hs'.phase d
  rcases hs'.phase (lab' n).1 with ⟨r0, h1, h2⟩ | ⟨u, h1, h2, h3⟩
  · have ht' := h2 t hcid
    rw [hw, e3] at ht'
    obtain ⟨hl, ⟨T, hT, hk⟩, _⟩ := ht'
    have hl' : lab' n = ((lab' n).1, false) := Prod.ext rfl hl
    refine run_shared (c := { c with tasks := ts }) (cid := (lab' n).1) ⟨hs'.glob, h1, ?_, hown, hids⟩ hph hT hk howner hnlt hl'
      (fun m hm => (hnew m hm).trans hl')
    intro u hu
    simp only [tasksOf, List.mem_filter, decide_eq_true_eq] at hu
    exact h2 u (by simp only [tasksOf, List.mem_filter, decide_eq_true_eq]; exact ⟨hsub u hu.1, hu.2⟩)
  · rw [h1] at hcid
    simp only [List.mem_cons, List.not_mem_nil, or_false] at hcid
    subst hcid
    rw [hw] at h3
    rw [e3] at h2
    have hl' : lab' n = ((lab' n).1, true) := Prod.ext rfl h2
    have hnil : tasksOf lab' (lab' n).1 ts = [] := by
      rw [e1] at h1
      rw [e2]
      simp only [tasksOf_append, tasksOf_cons, e3, if_true] at h1 ⊢
      have := congrArg List.length h1
      simp only [List.length_append, List.length_cons, List.length_nil] at this
      have ha : (tasksOf lab' (lab' n).1 a).length = 0 := by omega
      have hb : (tasksOf lab' (lab' n).1 b).length = 0 := by omega
      rw [List.length_eq_zero_iff.mp ha, List.length_eq_zero_iff.mp hb]
      rfl
    exact run_excl (c := { c with tasks := ts }) (cid := (lab' n).1) hs'.glob hown hids hph hnil (At.ofIdle c.w tc) h3.2 howner hnlt hl'
      (fun m hm => (hnew m hm).trans hl')

/-- Every step considered keeps the invariant. -/
theorem sys_step (hs : SysAt cfg lab c tc) {o : Oracle} {ch : Choice} (ha : c.Allowed lab o ch) :
    ∃ tc', SysAt cfg (c.relabel lab (c.about lab o ch)) (c.step cfg o ch) tc' := by
  have h0 : SysAt cfg lab { c with w := { c.w with orc := o } } tc := hs.world rfl rfl rfl rfl rfl (Int.le_refl _)
  have h1 := h0.relabel (c.about lab o ch)
  cases ch with
  | start h q => exact step_start h0 h q ha
  | fire cid =>
    simp only [Conc.step]
    split
    · rename_i due act ref ht
      have ht' : dget c.w.tbl cid = some ⟨due, act, ref, false⟩ := ht
      split
      · rename_i hdue
        have := step_fire h0 (cid := cid) ht (ha due act ref ht hdue) fun r => r.map fun _ => none
        have e : c.about lab o (.fire cid) = (cid, act.books) := by simp only [Conc.about, ht']
        rw [e]
        exact this
      · exact ⟨tc, h1⟩
    · exact ⟨tc, h1⟩
  | perform n =>
    simp only [Conc.step]
    split
    · rename_i id' owner α β x k fin ts ht
      exact step_perform h1 ht rfl
    · exact ⟨tc, h1⟩
  | resume n =>
    simp only [Conc.step]
    split
    · exact step_resume h0 ‹_› rfl
    · exact ⟨tc, h1⟩
  | wait us => exact ⟨tc, h1.world rfl rfl rfl rfl rfl (by simp only; omega)⟩
  | restart => exact ha.elim

theorem sys_run : ∀ (s : List (Oracle × Choice)) {c : Conc} {lab : Nat → Str × Bool} {tc : List (Str × Resv)}, SysAt cfg lab c tc → Orderly cfg c lab s →
    ∃ tc', SysAt cfg (labels cfg c lab s) (Conc.run cfg c s) tc'
  | [], _, _, tc, h, _ => ⟨tc, h⟩
  | (o, ch) :: s, c, lab, tc, h, ho => by
    obtain ⟨tc', h'⟩ := sys_step h ho.1
    exact sys_run s h' ho.2

end
end OpenNSA.Backend
