import Verif.Backend.Ops2
import Verif.Backend.Spec
import Verif.Calendar.Props
/-
The invariant of the backend under completed operations, and the lemma that lets a local operation preserve it.
-/
namespace OpenNSA.Backend
open OpenNSA Py Prog

/-- Calendar entries of a connection. -/
def ents (cfg : Cfg) (r : Row) : List Resv := if r.holds then [srcResv cfg r, dstResv cfg r] else []

/-- Held although its end time has passed: its entries are no longer in the calendar, but a rollback would remove them. -/
def Row.ghost (r : Row) : Prop := r.st.l = .passedEnd ∧ r.st.r = .held

/-- Has entries that an operation may still remove. -/
def Row.claims (r : Row) : Prop := r.holds = true ∨ r.ghost

/-- No resource of one is occupied at the same instant by the other. -/
def NoClash (cfg : Cfg) (a b : Row) : Prop := ∀ x ∈ a.books cfg, ∀ y ∈ b.books cfg, ¬ x.Clash y

/-- Facts about a stored row. -/
structure RowOk (clk : Time) (x : Row) : Prop where
  lc : x.st.l = .created ∨ x.st.l = .passedEnd ∨ x.st.l = .terminated
  rs : x.st.r = .start ∨ (x.st.r = .held ∧ x.allocated = false) ∨
    (x.st.r = .aborting ∧ x.st.l ≠ .created ∧ x.allocated = false)
  pv : x.st.p ≠ .released → x.allocated = true
  act : x.active = true → x.st.l = .created ∧ x.st.p = .provisioned ∧ ∀ s, x.start = some s → s ≤ clk
  ended : x.st.l = .passedEnd → ∃ e, x.end_ = some e ∧ e ≤ clk ∧ (x.st.r = .held → e < clk)
  order : ∀ s e, x.start = some s → x.end_ = some e → s ≤ e
  timely : x.start = none → ∀ e, x.end_ = some e → x.reserveTime ≤ e
  made : x.reserveTime ≤ clk
  s95 : ∀ s, x.start = some s → s ≤ year2095

/-- A pending call fits its row. -/
def TimerOk (r : Row) (tm : Timer) : Prop :=
  match tm.act with
  | .reserveTimeout => r.st.r = .held ∧ r.st.l = .created
  | .endtime => r.st.r = .start ∧ ∃ e, r.end_ = some e ∧ e ≤ tm.due
  | .activate => r.st.r = .start ∧ r.st.p = .provisioned ∧ r.st.l = .created ∧ r.active = false ∧
      ∃ s, r.start = some s ∧ s ≤ tm.due

/-- The link agrees with the row, or a failure was reported. -/
def LinkOk (r : Row) (up : Bool) (out : List Msg) : Prop :=
  (r.active = true → up = true) ∧ (up = true → r.active = true ∨ Reported out r.cid)

/-- The timeout call of a held reservation. -/
def ExpTimer (clk : Time) (r : Row) (tm : Option Timer) : Prop :=
  ∃ due ref, tm = some ⟨due, .reserveTimeout, ref, false⟩ ∧ due ≤ clk + tpcTimeout ∧ ∀ e, r.end_ = some e → due ≤ e + second

/-- A held, confirmed reservation has its timeout call. -/
def Expires (clk : Time) (r : Row) (tm : Option Timer) (out : List Msg) : Prop :=
  r.st.l = .created → r.st.r = .held → Confirmed out r.cid → ExpTimer clk r tm

/-- Facts about one connection. -/
structure ConnOk (ld : Bool) (w : World) (r : Row) : Prop where
  row : RowOk w.clk r
  timer : ∀ tm, dget w.tbl r.cid = some tm → tm.called = false → TimerOk r tm ∧ w.heap[tm.ref]? = some ⟨r, false⟩
  link : LinkOk r (decide (r.cid ∈ w.links)) w.outbox
  exp : ld = true → Expires w.clk r (dget w.tbl r.cid) w.outbox

/-- The invariant. `L`: which connections are loaded (all of them, except during a restart). `N`: whether clashes are considered. -/
structure GInvN (N : Prop) (cfg : Cfg) (L : Str → Bool) (w : World) : Prop where
  nodup : (w.rows.map (·.cid)).Nodup
  conn : ∀ r ∈ w.rows, ConnOk (L r.cid) w r
  timers : ∀ c tm, dget w.tbl c = some tm → tm.called = false → L c = true ∧ ∃ r ∈ w.rows, r.cid = c
  links : ∀ c ∈ w.links, ∃ r ∈ w.rows, r.cid = c
  cal : w.cal.Perm ((w.rows.filter fun r => L r.cid).flatMap (ents cfg))
  ncN : N → ∀ a ∈ w.rows, ∀ b ∈ w.rows, a.cid ≠ b.cid → a.claims → b.claims → NoClash cfg a b
  conf : ∀ c, Confirmed w.outbox c → ∃ r ∈ w.rows, r.cid = c

/-- The invariant, with clashes. -/
abbrev GInv (cfg : Cfg) (L : Str → Bool) (w : World) : Prop := GInvN True cfg L w

theorem GInvN.nc {cfg : Cfg} {L : Str → Bool} {w : World} (h : GInvN True cfg L w) :
    ∀ a ∈ w.rows, ∀ b ∈ w.rows, a.cid ≠ b.cid → a.claims → b.claims → NoClash cfg a b := h.ncN trivial

theorem RowOk.mono {c c' : Time} {r : Row} (h : RowOk c r) (hc : c ≤ c') : RowOk c' r :=
  { h with
    act := fun a => ⟨(h.act a).1, (h.act a).2.1, fun s hs => Int.le_trans ((h.act a).2.2 s hs) hc⟩
    ended := fun a => by
      obtain ⟨e, h1, h2, h3⟩ := h.ended a
      exact ⟨e, h1, by omega, fun x => by have := h3 x; omega⟩
    made := Int.le_trans h.made hc }

theorem Reported.mono {o o' : List Msg} {c : Str} (h : Reported o c) : Reported (o ++ o') c := by
  obtain ⟨n, h⟩ := h
  exact ⟨n, h.imp (List.mem_append_left _) (List.mem_append_left _)⟩

theorem LinkOk.mono {r : Row} {u : Bool} {o o' : List Msg} (h : LinkOk r u o) : LinkOk r u (o ++ o') :=
  ⟨h.1, fun x => (h.2 x).imp id Reported.mono⟩

theorem ExpTimer.mono {c c' : Time} {r : Row} {tm : Option Timer} (h : ExpTimer c r tm) (hc : c ≤ c') : ExpTimer c' r tm := by
  obtain ⟨due, ref, h1, h2, h3⟩ := h
  exact ⟨due, ref, h1, by omega, h3⟩

/-- Looking up a connection and waiting change nothing. -/
theorem GInvN.idle {N : Prop} {cfg : Cfg} {L : Str → Bool} {w : World} (h : GInvN N cfg L w) (t : Time) (o : Oracle) (hs : List Obj)
    (ht : w.clk ≤ t) : GInvN N cfg L { w with heap := w.heap ++ hs, clk := t, orc := o } := by
  refine { h with conn := fun r hr => ?_ }
  have hc := h.conn r hr
  exact
    { row := hc.row.mono ht
      timer := fun tm h1 h2 => by
        obtain ⟨h3, h4⟩ := hc.timer tm h1 h2
        refine ⟨h3, ?_⟩
        have hl : tm.ref < w.heap.length := by rw [List.getElem?_eq_some_iff] at h4; exact h4.1
        simp only
        rw [List.getElem?_append_left hl]; exact h4
      link := hc.link
      exp := fun a b c d => (hc.exp a b c d).mono ht }

/-! ### One row among many -/

theorem setRow_split {pre post : List Row} {a b : Row} (hn : ((pre ++ a :: post).map (·.cid)).Nodup) (hc : b.cid = a.cid) :
    setRow (pre ++ a :: post) b = pre ++ b :: post := by
  rw [List.map_append, List.map_cons, List.nodup_append] at hn
  obtain ⟨_, h2, h3⟩ := hn
  rw [List.nodup_cons] at h2
  unfold setRow
  rw [List.map_append, List.map_cons, if_pos hc.symm]
  congr 1
  · conv => rhs; rw [← List.map_id pre]
    apply List.map_congr_left
    intro r hr
    rw [if_neg]
    · rfl
    · rw [hc]; exact h3 _ (List.mem_map_of_mem hr) _ (by simp)
  · congr 1
    conv => rhs; rw [← List.map_id post]
    apply List.map_congr_left
    intro r hr
    rw [if_neg]
    · rfl
    · rw [hc]; intro e; exact h2.1 (by rw [← e]; exact List.mem_map_of_mem hr)

theorem mem_setRow {rows : List Row} {a b : Row} (hn : (rows.map (·.cid)).Nodup) (ha : a ∈ rows) (hc : b.cid = a.cid) (r : Row) :
    r ∈ setRow rows b ↔ r = b ∨ (r ∈ rows ∧ r.cid ≠ a.cid) := by
  obtain ⟨pre, post, rfl⟩ := List.append_of_mem ha
  rw [setRow_split hn hc]
  rw [List.map_append, List.map_cons, List.nodup_append] at hn
  obtain ⟨_, h2, h3⟩ := hn
  rw [List.nodup_cons] at h2
  constructor
  · intro h
    rcases List.mem_append.mp h with h | h
    · exact Or.inr ⟨by simp [h], h3 _ (List.mem_map_of_mem h) _ (by simp)⟩
    · rcases List.mem_cons.mp h with h | h
      · exact Or.inl h
      · refine Or.inr ⟨by simp [h], fun e => h2.1 (by rw [← e]; exact List.mem_map_of_mem h)⟩
  · rintro (h | ⟨h, hne⟩)
    · subst h; simp
    · rcases List.mem_append.mp h with h | h
      · simp [h]
      · rcases List.mem_cons.mp h with h | h
        · subst h; exact absurd rfl hne
        · simp [h]

theorem map_cid_setRow {rows : List Row} {b : Row} : (setRow rows b).map (·.cid) = rows.map (·.cid) := by
  unfold setRow
  rw [List.map_map]
  apply List.map_congr_left
  intro r _
  simp only [Function.comp]
  split
  · rename_i e; exact e.symm
  · rfl

theorem setRow_self {rows : List Row} {a : Row} (hn : (rows.map (·.cid)).Nodup) (ha : a ∈ rows) : setRow rows a = rows := by
  obtain ⟨pre, post, rfl⟩ := List.append_of_mem ha
  exact setRow_split hn rfl

theorem eq_of_cid {rows : List Row} (hn : (rows.map (·.cid)).Nodup) {a b : Row} (ha : a ∈ rows) (hb : b ∈ rows)
    (h : a.cid = b.cid) : a = b := by
  have := (mem_setRow hn ha rfl b).mp (by rw [setRow_self hn ha]; exact hb)
  rcases this with e | ⟨_, e⟩
  · exact e.symm
  · exact absurd h.symm e

/-- The entries of the other loaded connections. -/
def restEnts (cfg : Cfg) (L : Str → Bool) (rows : List Row) (cid : Str) : List Resv :=
  (rows.filter fun r => L r.cid && decide (r.cid ≠ cid)).flatMap (ents cfg)

/-- The entries of one connection, if loaded. -/
def ldEnts (cfg : Cfg) (b : Bool) (r : Row) : List Resv := if b then ents cfg r else []

theorem flatMap_split (cfg : Cfg) (L : Str → Bool) {rows : List Row} (hn : (rows.map (·.cid)).Nodup) {a : Row} (ha : a ∈ rows) :
    ((rows.filter fun r => L r.cid).flatMap (ents cfg)).Perm (ldEnts cfg (L a.cid) a ++ restEnts cfg L rows a.cid) := by
  obtain ⟨pre, post, rfl⟩ := List.append_of_mem ha
  rw [List.map_append, List.map_cons, List.nodup_append] at hn
  obtain ⟨_, h2, h3⟩ := hn
  rw [List.nodup_cons] at h2
  have e1 : (pre.filter fun r => L r.cid && decide (r.cid ≠ a.cid)) = pre.filter fun r => L r.cid := by
    apply List.filter_congr
    intro r hr
    have : r.cid ≠ a.cid := h3 _ (List.mem_map_of_mem hr) _ (by simp)
    simp [this]
  have e2 : (post.filter fun r => L r.cid && decide (r.cid ≠ a.cid)) = post.filter fun r => L r.cid := by
    apply List.filter_congr
    intro r hr
    have : r.cid ≠ a.cid := fun e => h2.1 (by rw [← e]; exact List.mem_map_of_mem hr)
    simp [this]
  unfold restEnts ldEnts
  rw [List.filter_append, List.filter_append, List.filter_cons, List.filter_cons, e1, e2]
  simp only [ne_eq, not_true_eq_false, decide_false, Bool.and_false, Bool.false_eq_true, if_false]
  cases L a.cid
  · simp
  · simp only [if_true, List.flatMap_append, List.flatMap_cons]
    rw [← List.append_assoc, ← List.append_assoc]
    exact List.Perm.append_right _ List.perm_append_comm

theorem restEnts_setRow (cfg : Cfg) (L L' : Str → Bool) {rows : List Row} (hn : (rows.map (·.cid)).Nodup) {a b : Row}
    (ha : a ∈ rows) (hc : b.cid = a.cid) (hL : ∀ c, c ≠ a.cid → L' c = L c) :
    restEnts cfg L' (setRow rows b) b.cid = restEnts cfg L rows a.cid := by
  obtain ⟨pre, post, rfl⟩ := List.append_of_mem ha
  rw [setRow_split hn hc]
  unfold restEnts
  congr 1
  rw [List.filter_append, List.filter_append, List.filter_cons, List.filter_cons]
  simp only [ne_eq, not_true_eq_false, decide_false, Bool.and_false, Bool.false_eq_true, if_false, hc]
  congr 1 <;>
  · apply List.filter_congr
    intro r _
    by_cases h : r.cid = a.cid
    · simp [h]
    · simp [h, hL _ h]

/-! ### Local operations preserve the invariant -/

/-- The link of such a connection may be set up. -/
def SetUpOk (clk : Time) (r : Row) : Prop :=
  r.allocated = true ∧ r.st.p = .provisioned ∧ r.st.l = .created ∧ ∀ x, r.start = some x → x ≤ clk

/-- What has to be shown of a local operation started in `s0` on a row `row0`, with messages so far `out0`; `rest` are the
calendar entries of the other connections. -/
structure Good (cfg : Cfg) (ref : Nat) (ld : Bool) (row0 : Row) (s0 : S) (out0 : List Msg) (rest : List Resv)
    (nc : Row → Prop) (s : S) : Prop where
  row : RowOk s.clk s.row
  timer : ∀ tm, s.tm = some tm → tm.called = false →
    TimerOk s.row tm ∧ ld = true ∧ ((s.tm = s0.tm ∧ s.row = row0 ∧ tm.ref ≠ ref) ∨ (tm.ref = ref ∧ s.obj = s.row))
  link : LinkOk s.row s.up (out0 ++ s.out)
  cal : s.cal.Perm (ldEnts cfg ld s.row ++ rest)
  claims : s.row.claims → nc s.row
  exp : ld = true → Expires s.clk s.row s.tm (out0 ++ s.out)
  conf : ∀ c, c ≠ row0.cid → Confirmed (out0 ++ s.out) c → Confirmed out0 c
  newUp : s.up = true → s0.up = true ∨ SetUpOk s.clk s.row
  later : s0.clk ≤ s.clk

/-- No other connection of `w` clashes with the row. -/
def NcOthers (cfg : Cfg) (w : World) (r : Row) : Prop :=
  ∀ b ∈ w.rows, b.cid ≠ r.cid → b.claims → NoClash cfg b r ∧ NoClash cfg r b

theorem GInvN.focus' {N : Prop} {cfg : Cfg} {L L' : Str → Bool} {w0 w : World} {row0 : Row} {ref : Nat} {s : S} {nc : Row → Prop} (h : GInvN N cfg L w0)
    (hr0 : row0 ∈ w0.rows) (hheap : w0.heap[ref]? = some ⟨row0, false⟩) (hrel : Rel w0 row0.cid ref w s)
    (hL : ∀ c, c ≠ row0.cid → L' c = L c) {s0 : S} (hclk0 : w0.clk ≤ s0.clk)
    (htm0 : ∀ tm, s0.tm = some tm → tm.called = false → dget w0.tbl row0.cid = some tm)
    (hg : Good cfg ref (L' row0.cid) row0 s0 w0.outbox (restEnts cfg L w0.rows row0.cid) nc s)
    (hN : N → ∀ r, nc r → NcOthers cfg w0 r) :
    GInvN N cfg L' w := by
  have hclk : w0.clk ≤ s.clk := Int.le_trans hclk0 hg.later
  have hmem : ∀ r, r ∈ w.rows ↔ r = s.row ∨ (r ∈ w0.rows ∧ r.cid ≠ row0.cid) := by
    intro r; rw [hrel.rows]; exact mem_setRow h.nodup hr0 hrel.rcid r
  have hother : ∀ r ∈ w0.rows, r.cid ≠ row0.cid → ∀ tm, dget w0.tbl r.cid = some tm → tm.called = false → tm.ref ≠ ref := by
    intro r hr hne tm h1 h2 e
    have h3 := ((h.conn r hr).timer tm h1 h2).2
    rw [e, hheap] at h3
    simp at h3
    exact hne (by rw [← h3])
  have hrow0 : ∀ r ∈ w0.rows, r.cid = row0.cid → r = row0 := fun r hr e => eq_of_cid h.nodup hr hr0 e
  constructor
  · rw [hrel.rows, map_cid_setRow]; exact h.nodup
  · intro r hr
    rcases (hmem r).mp hr with e | ⟨hr', hne⟩
    · subst e
      have hcid := hrel.rcid
      constructor
      · rw [hrel.clk]; exact hg.row
      · rw [hcid, hrel.tm]
        intro tm h1 h2
        obtain ⟨h3, hld, h4⟩ := hg.timer tm h1 h2
        refine ⟨h3, ?_⟩
        rcases h4 with ⟨h4, h5, hne⟩ | ⟨h4, h5⟩
        · rw [h5]
          have h6 := ((h.conn row0 hr0).timer tm (htm0 tm (by rw [← h4]; exact h1) h2) h2).2
          rw [hrel.heap _ hne]; exact h6
        · rw [h4, hrel.obj, h5]
      · rw [hcid, hrel.up, hrel.out]; exact hg.link
      · rw [hcid, hrel.tm, hrel.out, hrel.clk]; exact hg.exp
    · have hc := h.conn r hr'
      constructor
      · rw [hrel.clk]; exact hc.row.mono hclk
      · rw [hrel.tbl _ hne]
        intro tm h1 h2
        obtain ⟨h3, h4⟩ := hc.timer tm h1 h2
        exact ⟨h3, by rw [hrel.heap _ (hother r hr' hne tm h1 h2)]; exact h4⟩
      · have : decide (r.cid ∈ w.links) = decide (r.cid ∈ w0.links) := by
          have := hrel.links _ hne; simp [this]
        rw [this, hrel.out]
        exact hc.link.mono
      · rw [hL _ hne, hrel.tbl _ hne, hrel.clk, hrel.out]
        intro a b c d
        exact (hc.exp a b c (hg.conf _ hne d)).mono hclk
  · intro c tm h1 h2
    by_cases e : c = row0.cid
    · subst e
      rw [hrel.tm] at h1
      exact ⟨(hg.timer tm h1 h2).2.1, s.row, (hmem _).mpr (Or.inl rfl), hrel.rcid⟩
    · rw [hrel.tbl c e] at h1
      obtain ⟨h3, r, h4, h5⟩ := h.timers c tm h1 h2
      exact ⟨by rw [hL _ e]; exact h3, r, (hmem _).mpr (Or.inr ⟨h4, by rw [h5]; exact e⟩), h5⟩
  · intro c hc
    by_cases e : c = row0.cid
    · subst e; exact ⟨s.row, (hmem _).mpr (Or.inl rfl), hrel.rcid⟩
    · rw [hrel.links c e] at hc
      obtain ⟨r, h4, h5⟩ := h.links c hc
      exact ⟨r, (hmem _).mpr (Or.inr ⟨h4, by rw [h5]; exact e⟩), h5⟩
  · have hm' : s.row ∈ w.rows := (hmem _).mpr (Or.inl rfl)
    have hn' : (w.rows.map (·.cid)).Nodup := by rw [hrel.rows, map_cid_setRow]; exact h.nodup
    rw [hrel.cal]
    refine hg.cal.trans (List.Perm.trans ?_ (flatMap_split cfg L' hn' hm').symm)
    rw [hrel.rows, restEnts_setRow cfg L L' h.nodup hr0 hrel.rcid hL, hrel.rcid]
  · intro hn a ha b hb hab ca cb
    rcases (hmem a).mp ha with e | ⟨ha', hna⟩
    · rcases (hmem b).mp hb with e' | ⟨hb', hnb⟩
      · subst e e'; exact absurd rfl hab
      · subst e; exact (hN hn _ (hg.claims ca) b hb' (by rw [hrel.rcid]; exact hnb) cb).2
    · rcases (hmem b).mp hb with e' | ⟨hb', hnb⟩
      · subst e'; exact (hN hn _ (hg.claims cb) a ha' (by rw [hrel.rcid]; exact hna) ca).1
      · exact h.ncN hn a ha' b hb' hab ca cb
  · intro c hc
    by_cases e : c = row0.cid
    · subst e; exact ⟨s.row, (hmem _).mpr (Or.inl rfl), hrel.rcid⟩
    · rw [hrel.out] at hc
      obtain ⟨r, h4, h5⟩ := h.conf c (hg.conf c e hc)
      exact ⟨r, (hmem _).mpr (Or.inr ⟨h4, by rw [h5]; exact e⟩), h5⟩

theorem GInvN.focus {cfg : Cfg} {L L' : Str → Bool} {w0 w : World} {row0 : Row} {ref : Nat} {s : S} (h : GInvN True cfg L w0)
    (hr0 : row0 ∈ w0.rows) (hheap : w0.heap[ref]? = some ⟨row0, false⟩) (hrel : Rel w0 row0.cid ref w s)
    (hL : ∀ c, c ≠ row0.cid → L' c = L c) {s0 : S} (hclk0 : w0.clk ≤ s0.clk)
    (htm0 : ∀ tm, s0.tm = some tm → tm.called = false → dget w0.tbl row0.cid = some tm)
    (hg : Good cfg ref (L' row0.cid) row0 s0 w0.outbox (restEnts cfg L w0.rows row0.cid) (NcOthers cfg w0) s) :
    GInv cfg L' w := h.focus' hr0 hheap hrel hL hclk0 htm0 hg fun _ _ a => a

end OpenNSA.Backend
