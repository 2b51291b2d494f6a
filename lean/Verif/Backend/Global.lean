import Verif.Backend.Reserve2
/-
The invariant is preserved by every request and scheduled call, run to completion on the whole world.
-/
namespace OpenNSA.Backend
open OpenNSA Py Prog

/-- All connections are loaded. -/
abbrev allLoaded : Str → Bool := fun _ => true

/-- The local view of a connection. -/
abbrev World.view (w : World) (row : Row) : S :=
  ⟨row, row, w.cal, dget w.tbl row.cid, decide (row.cid ∈ w.links), [], w.clk⟩

theorem Booked.clash_same {x : Resv} {a b : Time} (h1 : ∀ s e, x.start = some s → x.end_ = some e → s ≤ e)
    (h2 : x.start = none → ∀ e, x.end_ = some e → a ≤ e ∧ b ≤ e) : Booked.Clash ⟨x, a⟩ ⟨x, b⟩ := by
  refine ⟨rfl, x.start.getD (max a b), ⟨?_, ?_⟩, ?_, ?_⟩
  all_goals
    simp only
    cases hs : x.start with
    | none =>
      simp only [Option.getD_none]
      first
      | omega
      | intro e he; have := h2 hs e he; omega
    | some s =>
      simp only [Option.getD_some]
      first
      | omega
      | intro e he; exact h1 s e hs he

theorem mem_ents {cfg : Cfg} {b : Row} {x : Resv} (h : x ∈ ents cfg b) :
    b.holds = true ∧ (⟨x, b.reserveTime⟩ : Booked) ∈ b.books cfg ∧ x.start = b.start ∧ x.end_ = b.end_ := by
  unfold ents at h
  split at h
  · rename_i hh
    refine ⟨hh, ?_⟩
    simp only [List.mem_cons, List.not_mem_nil, or_false] at h
    rcases h with h | h <;> subst h <;> simp [Row.books, srcResv, dstResv]
  · exact absurd h (by simp)

/-- The entries of a ghost are not in the calendar. -/
theorem GInvN.ghost_absent {cfg : Cfg} {w : World} {L : Str → Bool} (h : GInv cfg L w) {row : Row} (hr : row ∈ w.rows)
    (hg : row.ghost) : srcResv cfg row ∉ w.cal := by
  intro hm
  have hm := h.cal.subset hm
  rw [List.mem_flatMap] at hm
  obtain ⟨b, hb, hx⟩ := hm
  have hb := (List.mem_filter.mp hb).1
  obtain ⟨hh, hbook, hst, hen⟩ := mem_ents hx
  have hne : row.cid ≠ b.cid := by
    intro e
    have := eq_of_cid h.nodup hr hb e
    subst this
    rw [holds_iff] at hh
    rw [hg.1] at hh
    exact absurd hh.1 (by simp)
  have hok := (h.conn row hr).row
  have hok' := (h.conn b hb).row
  refine h.nc row hr b hb hne (Or.inr hg) (Or.inl hh) ⟨srcResv cfg row, row.reserveTime⟩ (by simp [Row.books, srcResv]) _ hbook ?_
  apply Booked.clash_same
  · exact hok.order
  · intro hs e he
    refine ⟨hok.timely hs e he, hok'.timely ?_ e ?_⟩
    · rw [← hst]; exact hs
    · rw [← hen]; exact he

theorem GInvN.start {cfg : Cfg} {w : World} (h : GInv cfg allLoaded w) {row : Row} (hr : row ∈ w.rows) {ref : Nat}
    (href : ∀ tm, dget w.tbl row.cid = some tm → tm.called = false → tm.ref ≠ ref) :
    Start cfg w ref row w.outbox (restEnts cfg allLoaded w.rows row.cid) (w.view row) where
  row := rfl
  obj := rfl
  out := rfl
  ok := (h.conn row hr).row
  timer := fun tm h1 h2 => ⟨((h.conn row hr).timer tm h1 h2).1, href tm h1 h2⟩
  link := (h.conn row hr).link
  cal := h.cal.trans (flatMap_split cfg allLoaded h.nodup hr)
  ghost := h.ghost_absent hr
  nc := fun hc b hb hne hcb => ⟨h.nc b hb row hr hne hcb hc, h.nc row hr b hb (Ne.symm hne) hc hcb⟩

theorem World.rel_view {w : World} (hn : (w.rows.map (·.cid)).Nodup) {row : Row} (hr : row ∈ w.rows) {ref : Nat}
    (href : w.heap[ref]? = some ⟨row, false⟩) : Rel w row.cid ref w (w.view row) where
  rows := (setRow_self hn hr).symm
  rcid := rfl
  ocid := rfl
  obj := href
  heap := fun _ _ => rfl
  cal := rfl
  tm := rfl
  tbl := fun _ _ => rfl
  up := rfl
  links := fun _ _ => Iff.rfl
  out := by simp
  clk := rfl
  ids := rfl

/-- The world after a connection was looked up. -/
abbrev World.looked (w : World) (row : Row) (t : Time) (o : Oracle) : World :=
  { w with heap := w.heap ++ [⟨row, false⟩], clk := t, orc := o }

theorem All_found {α : Type} {cid : Str} {k : Nat → Prog α} {Q : World → Except Err α → Prop} {w : World}
    (h1 : ∀ t o, w.clk ≤ t → (∀ r ∈ w.rows, r.cid ≠ cid) → Q (w.at t o) (.error .nonExistent))
    (h2 : ∀ t o row, w.clk ≤ t → row ∈ w.rows → row.cid = cid → All (k w.heap.length) Q (w.looked row t o)) :
    All ((getConnection cid).bind k) Q w := by
  unfold getConnection
  simp only [bind_eq]
  rw [All_bind]
  apply All_find
  · intro t o ht hn
    exact h1 t o ht hn
  · intro t o row ht hr hc
    exact h2 t o row ht hr hc

/-- Outcome of a request on one connection: there is none, or it was worked on. `P` relates the row found, the view before
and after, and the answer. -/
def ConnPost {α : Type} (cid : Str) (w w' : World) (r : Except Err α) (P : Row → S → S → Except Err α → Prop) : Prop :=
  ((∀ x ∈ w.rows, x.cid ≠ cid) ∧ r = .error .nonExistent ∧ ∃ t o, w.clk ≤ t ∧ w' = w.at t o) ∨
  ∃ row0 ∈ w.rows, row0.cid = cid ∧ ∃ t o s', w.clk ≤ t ∧ t ≤ s'.clk ∧ Rel (w.looked row0 t o) cid w.heap.length w' s' ∧
    P row0 ((w.looked row0 t o).view row0) s' r ∧ Evolves row0 s'.row ∧
    (s'.up = true → decide (cid ∈ w.links) = true ∨ SetUpOk s'.clk s'.row)

theorem on_conn {α : Type} {cfg : Cfg} {w : World} (h : GInv cfg allLoaded w) {cid : Str} {k : Nat → Prog α}
    {P : Row → S → S → Except Err α → Prop} {clean : Except Err α → Prop}
    (hk : ∀ w1 ref row0 out0 rest s, row0.cid = cid → Start cfg w1 ref row0 out0 rest s → Expires s.clk row0 s.tm out0 →
      LAll row0.cid ref (k ref) (fun s' r => clean r → GoodL cfg w1 ref row0 s out0 rest s' ∧ P row0 s s' r) s) :
    All ((getConnection cid).bind k) (fun w' r => clean r → GInv cfg allLoaded w' ∧ ConnPost cid w w' r P) w := by
  apply All_found
  · intro t o ht hn _
    refine ⟨?_, Or.inl ⟨hn, rfl, t, o, ht, rfl⟩⟩
    have := h.idle t o [] ht
    rw [List.append_nil] at this
    exact this
  · intro t o row ht hr hc
    have h1 : GInv cfg allLoaded (w.looked row t o) := h.idle t o [⟨row, false⟩] ht
    have hget : (w.looked row t o).heap[w.heap.length]? = some ⟨row, false⟩ := by simp
    have hstart := h1.start (row := row) hr (ref := w.heap.length) (by
      intro tm h2 h3 e
      have := ((h.conn row hr).timer tm h2 h3).2
      rw [List.getElem?_eq_some_iff] at this
      have := this.1
      omega)
    have hexp := (h1.conn row hr).exp rfl
    have hrel := World.rel_view h1.nodup hr hget
    have hl := hk _ _ _ _ _ _ hc hstart hexp
    refine All_mono ?_ (All_of_LAll hl hrel)
    rintro w' r ⟨s', hrel', hq⟩ hcl
    obtain ⟨hg, hp⟩ := hq hcl
    refine ⟨h1.focus hr hget hrel' (fun _ _ => rfl) (Int.le_refl _) (fun tm a _ => a) hg.toGood, Or.inr ⟨row, hr, hc, t, o, s', ht, hg.later, ?_, hp, hg.ev, ?_⟩⟩
    · rw [← hc]; exact hrel'
    · intro hu
      have := hg.newUp hu
      rw [← hc]
      exact this

/-! ### Requests on one connection -/

section
variable {cfg : Cfg} {h : Hdr} {w : World} {cid : Str}

/-- Results of a commit. -/
def CommitPost (cfg : Cfg) (h : Hdr) (row0 : Row) (s s' : S) (r : Except Err Unit) : Prop :=
  Refused s s' r (fun e => authorize cfg h row0.srcPort row0.dstPort = .error e ∨ (isGone row0 = true ∧ e = .gone) ∨
      (isGone row0 = false ∧ row0.st.r ≠ .held ∧ e = .internal)) ∨
  (isGone row0 = false ∧ row0.st.r = .held ∧ s'.row = row0.committed ∧ s'.up = s.up ∧ s'.cal = s.cal ∧
    EndCall row0.end_ s'.tm s'.clk)

/-- Results of an abort. -/
def AbortPost (cfg : Cfg) (h : Hdr) (row0 : Row) (s s' : S) (r : Except Err Unit) : Prop :=
  Refused s s' r (fun e => authorize cfg h row0.srcPort row0.dstPort = .error e ∨ (isGone row0 = true ∧ e = .gone)) ∨
  (isGone row0 = false ∧ row0.st.r ≠ .held ∧ r = .ok () ∧ s'.row = row0 ∧ s'.up = s.up ∧ s'.cal = s.cal ∧ s'.tm = s.tm) ∨
  (isGone row0 = false ∧ row0.st.r = .held ∧ r = .ok () ∧ s'.up = s.up ∧ s'.row.allocated = false ∧
    (row0.st.l = .created → s'.row.st.r = .start) ∧ s'.row.st.r ≠ .held)

/-- Results of a provision. -/
def ProvisionPost (cfg : Cfg) (h : Hdr) (row0 : Row) (s s' : S) (r : Except Err Unit) : Prop :=
  Refused s s' r (ProvRefused cfg h row0 s'.clk) ∨ Provisioned cfg h row0.cid row0 s s' r

/-- Results of a release. -/
def ReleasePost (cfg : Cfg) (h : Hdr) (row0 : Row) (s s' : S) (r : Except Err Unit) : Prop :=
  Refused s s' r (fun e => authorize cfg h row0.srcPort row0.dstPort = .error e ∨ (isGone row0 = true ∧ e = .gone) ∨
      (isGone row0 = false ∧ row0.st.p ≠ .provisioned ∧ row0.st.p ≠ .releasing ∧ e = .internal)) ∨
  Released row0.cid row0 s s' r

/-- Results of a terminate. -/
def TerminatePost (cfg : Cfg) (h : Hdr) (row0 : Row) (s s' : S) (r : Except Err Unit) : Prop :=
  Refused s s' r (fun e => authorize cfg h row0.srcPort row0.dstPort = .error e ∨ (row0.st.l = .terminated ∧ e = .attribute)) ∨
  Terminated row0.cid row0 s s' r

theorem commit_inv (hw : GInv cfg allLoaded w) : All (reserveCommit cfg h cid)
    (fun w' r => True → GInv cfg allLoaded w' ∧ ConnPost cid w w' r (CommitPost cfg h)) w := by
  apply on_conn hw
  intro w1 ref row0 out0 rest s hc hs he
  rw [← hc]
  exact LAll_mono (fun s' r hq _ => hq) (commit_good hs he)

theorem abort_inv (hw : GInv cfg allLoaded w) : All (reserveAbort cfg h cid)
    (fun w' r => True → GInv cfg allLoaded w' ∧ ConnPost cid w w' r (AbortPost cfg h)) w := by
  apply on_conn hw
  intro w1 ref row0 out0 rest s hc hs he
  rw [← hc]
  exact LAll_mono (fun s' r hq _ => hq) (abort_good hs he)

theorem provision_inv (hw : GInv cfg allLoaded w) : All (provision cfg h cid)
    (fun w' r => True → GInv cfg allLoaded w' ∧ ConnPost cid w w' r (ProvisionPost cfg h)) w := by
  apply on_conn hw
  intro w1 ref row0 out0 rest s hc hs he
  rw [← hc]
  exact LAll_mono (fun s' r hq _ => hq) (provision_good hs he)

theorem release_inv (hw : GInv cfg allLoaded w) : All (release cfg h cid)
    (fun w' r => True → GInv cfg allLoaded w' ∧ ConnPost cid w w' r (ReleasePost cfg h)) w := by
  apply on_conn hw
  intro w1 ref row0 out0 rest s hc hs he
  rw [← hc]
  exact LAll_mono (fun s' r hq _ => hq) (release_good hs he)

theorem terminate_inv (hw : GInv cfg allLoaded w) : All (terminate cfg h cid)
    (fun w' r => r ≠ .error .parent → GInv cfg allLoaded w' ∧ ConnPost cid w w' r (TerminatePost cfg h)) w := by
  apply on_conn (clean := fun r => r ≠ .error .parent) hw
  intro w1 ref row0 out0 rest s hc hs he
  rw [← hc]
  exact terminate_good hs he

/-! ### Scheduled calls -/

/-- Results of a scheduled call. -/
def FirePost (act : Act) (row0 : Row) (s s' : S) (r : Except Err Unit) : Prop :=
  match act with
  | .reserveTimeout => r = .ok () ∧ s'.row.st.r = .start ∧ s'.row.allocated = false ∧ s'.up = s.up ∧
      ∃ n, Msg.reserveTimeout row0.cid n ∈ s'.out
  | .endtime => row0.st.l = .created → r = .ok () ∧ s'.row.st.l = .passedEnd ∧ s'.row.active = false
  | .activate => r = .ok () ∧ ∃ a, s'.row = row0.withA a ∧ (a = true → s'.up = true ∧ EndCall row0.end_ s'.tm s'.clk) ∧
      (a = false → ∃ n, Msg.activateFailed row0.cid n ∈ s'.out)

/-- The world when a call has been taken from the table. -/
abbrev World.taken (w : World) (cid : Str) (tm : Timer) : World := { w with tbl := dset w.tbl cid { tm with called := true } }

theorem fire_inv (hw : GInv cfg allLoaded w) {tm : Timer} (ht : dget w.tbl cid = some tm) (hc : tm.called = false)
    (hdue : tm.due ≤ w.clk) :
    All (actProg cfg tm.act tm.ref) (fun w' r => GInv cfg allLoaded w' ∧ ∃ row0 ∈ w.rows, row0.cid = cid ∧ ∃ s',
      Rel w cid tm.ref w' s' ∧ FirePost tm.act row0 (w.view row0) s' r ∧ w.clk ≤ s'.clk ∧ TimerOk row0 tm ∧ Evolves row0 s'.row ∧
      (s'.up = true → decide (cid ∈ w.links) = true ∨ SetUpOk s'.clk s'.row)) (w.taken cid tm) := by
  obtain ⟨_, row0, hr, hcid⟩ := hw.timers cid tm ht hc
  obtain ⟨hok, hget⟩ := (hw.conn row0 hr).timer tm (by rw [hcid]; exact ht) hc
  let s : S := { w.view row0 with tm := some { tm with called := true } }
  have hstart : Start cfg w tm.ref row0 w.outbox (restEnts cfg allLoaded w.rows row0.cid) s :=
    { row := rfl
      obj := rfl
      out := rfl
      ok := (hw.conn row0 hr).row
      timer := fun x h1 h2 => by simp [s] at h1; subst h1; simp at h2
      link := (hw.conn row0 hr).link
      cal := hw.cal.trans (flatMap_split cfg allLoaded hw.nodup hr)
      ghost := hw.ghost_absent hr
      nc := fun hc b hb hne hcb => ⟨hw.nc b hb row0 hr hne hcb hc, hw.nc row0 hr b hb (Ne.symm hne) hc hcb⟩ }
  have hrel : Rel w row0.cid tm.ref (w.taken cid tm) s :=
    { rows := (setRow_self hw.nodup hr).symm
      rcid := rfl
      ocid := rfl
      obj := hget
      heap := fun _ _ => rfl
      cal := rfl
      tm := by simp only [s]; rw [hcid, dget_dset, if_pos rfl]
      tbl := fun c hne => by simp only; rw [dget_dset, if_neg (by rw [← hcid]; exact Ne.symm hne)]
      up := rfl
      links := fun _ _ => Iff.rfl
      out := by simp [s]
      clk := rfl
      ids := rfl }
  have fin : ∀ {p : Prog Unit} {P : S → Except Err Unit → Prop},
      LAll row0.cid tm.ref p (fun s' r => GoodL cfg w tm.ref row0 s w.outbox (restEnts cfg allLoaded w.rows row0.cid) s' ∧ P s' r) s →
      (∀ s' r, P s' r → FirePost tm.act row0 (w.view row0) s' r) →
      All p (fun w' r => GInv cfg allLoaded w' ∧ ∃ row0 ∈ w.rows, row0.cid = cid ∧ ∃ s',
        Rel w cid tm.ref w' s' ∧ FirePost tm.act row0 (w.view row0) s' r ∧ w.clk ≤ s'.clk ∧ TimerOk row0 tm ∧ Evolves row0 s'.row ∧
        (s'.up = true → decide (cid ∈ w.links) = true ∨ SetUpOk s'.clk s'.row)) (w.taken cid tm) := by
    intro p P hl hP
    refine All_mono ?_ (All_of_LAll hl hrel)
    rintro w' r ⟨s', hrel', hg, hp⟩
    refine ⟨hw.focus hr hget hrel' (fun _ _ => rfl) (s0 := s) (Int.le_refl _) ?_ hg.toGood, row0, hr, hcid, s', by rw [← hcid]; exact hrel', hP s' r hp,
      hg.later, hok, hg.ev, ?_⟩
    · intro x h1 h2; simp [s] at h1; subst h1; simp at h2
    · intro hu
      have := hg.newUp hu
      rw [← hcid]
      exact this
  obtain ⟨due, act, ref, called⟩ := tm
  simp only [TimerOk] at hok
  cases act with
  | reserveTimeout =>
    exact fin (timeout_good hstart hok.1 hok.2) (fun s' r hp => hp)
  | endtime =>
    obtain ⟨h1, e, h2, h3⟩ := hok
    exact fin (endtime_good hstart h1 h2 (by simp only [s] at *; omega)) (fun s' r hp => hp)
  | activate =>
    obtain ⟨h1, h2, h3, h4, x, h5, h6⟩ := hok
    exact fin (activate_good hstart h1 h2 h3 (by intro y hy; rw [h5] at hy; simp at hy; subst hy; simp only [s] at *; omega)
      (by intro x hx; simp [s] at hx; subst hx; rfl)) (fun s' r hp => hp)

end
end OpenNSA.Backend
