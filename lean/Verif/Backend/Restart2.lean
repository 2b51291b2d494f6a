import Verif.Backend.Restart
/-
Loading all connections after a restart.
-/
namespace OpenNSA.Backend
open OpenNSA Py Prog

theorem TimerFor.mono {c c' : Time} {x : Row} {tm : Option Timer} {o o' : List Msg} (h : TimerFor c x tm o) (hc : c ≤ c')
    (ho : ∀ m ∈ o, m ∈ o') : TimerFor c' x tm o' where
  held a b := by
    obtain ⟨due, ref, h1, h2, h3⟩ := h.held a b
    exact ⟨due, ref, h1, by omega, fun e he => by have := h3 e he; omega⟩
  ends a b d := (h.ends a b d).mono hc
  activates a b d := by
    rcases h.activates a b d with ⟨s, due, ref, h1, h2, h3, h4⟩ | ⟨n, hn⟩
    · exact Or.inl ⟨s, due, ref, h1, h2, by omega, h4⟩
    · exact Or.inr ⟨n, ho _ hn⟩

/-- A connection after the restart of `w0`: it has the call it needs, or it is one of the three cases. -/
def Resumed (w0 w : World) (x : Row) : Prop :=
  (TimerFor w.clk x (dget w.tbl x.cid) w.outbox ∧ ∀ x0 ∈ w0.rows, x0.cid = x.cid → Over w0.clk x0 x) ∨
  ∃ x0 ∈ w0.rows, x0.cid = x.cid ∧ x0.st.r ≠ .held ∧ ((x0.st.p = .provisioning ∨ x0.st.p = .releasing) ∨
    ∃ now, w0.clk ≤ now ∧ now ≤ w.clk ∧ x0.start = some now)

/-- The loop invariant: connections `pend` (object and row) remain to be loaded. -/
structure Loading (N : Prop) (cfg : Cfg) (w0 : World) (L : Str → Bool) (pend : List (Nat × Row)) (w : World) : Prop where
  inv : GInvN N cfg L w
  inv0 : (w0.rows.map (·.cid)).Nodup
  tbl : ∀ c, L c = false → dget w.tbl c = none
  mem : ∀ p ∈ pend, p.2 ∈ w.rows ∧ p.2 ∈ w0.rows ∧ w.heap[p.1]? = some ⟨p.2, false⟩ ∧ L p.2.cid = false ∧ p.2.st.l ≠ .terminated
  refs : (pend.map (·.1)).Nodup
  cids : (pend.map (·.2.cid)).Nodup
  rest : ∀ x ∈ w.rows, L x.cid = true ∨ x.st.l = .terminated ∨ ∃ p ∈ pend, p.2 = x
  done : ∀ x ∈ w.rows, L x.cid = true → Resumed w0 w x
  clk : w0.clk ≤ w.clk
  ev : ∀ x0 ∈ w0.rows, ∃ x ∈ w.rows, Evolves x0 x
  old : ∀ x ∈ w.rows, ∃ x0 ∈ w0.rows, x0.cid = x.cid
  up : ∀ c ∈ w.links, c ∈ w0.links ∨ (L c = true ∧ ∃ x ∈ w.rows, x.cid = c ∧ SetUpOk w.clk x)
  quiet : (∀ x ∈ w0.rows, x.st.r ≠ .aborting) → ∀ x ∈ w.rows, x.st.r ≠ .aborting

theorem SetUpOk.mono {c c' : Time} {x : Row} (h : SetUpOk c x) (hc : c ≤ c') : SetUpOk c' x :=
  ⟨h.1, h.2.1, h.2.2.1, fun s hs => Int.le_trans (h.2.2.2 s hs) hc⟩

theorem buildOne_loading {N : Prop} {cfg : Cfg} {w0 w : World} {L : Str → Bool} {ref : Nat} {row : Row} {pend : List (Nat × Row)}
    (h : Loading N cfg w0 L ((ref, row) :: pend) w) : All (buildOne cfg ref) (fun w' r => r = .ok () →
      (∃ L', Loading N cfg w0 L' pend w') ∧ ∀ x ∈ w.rows, ∃ y ∈ w'.rows, Evolves x y) w := by
  obtain ⟨hr, hr0, hget, hL, hnt⟩ := h.mem (ref, row) (by simp)
  simp only at hr hr0 hget hL hnt
  have hlive := h.refs
  have hcids := h.cids
  simp only [List.map_cons, List.nodup_cons] at hlive hcids
  obtain ⟨v, hv, hvN⟩ : ∃ v : World, (row.claims → NcOthers cfg v row) ∧ (N → v = w) := by
    by_cases hN : N
    · exact ⟨w, fun hc b hb hne hcb => ⟨h.inv.ncN hN b hb row hr hne hcb hc, h.inv.ncN hN row hr b hb (Ne.symm hne) hc hcb⟩, fun _ => rfl⟩
    · exact ⟨World.init [] 0, fun _ b hb => by simp [World.init] at hb, fun a => absurd a hN⟩
  have hst : Start0 cfg v row w.outbox (restEnts cfg L w.rows row.cid) w.cal (decide (row.cid ∈ w.links)) w.clk :=
    { ok := (h.inv.conn row hr).row
      link := (h.inv.conn row hr).link
      cal := by
        have := h.inv.cal.trans (flatMap_split cfg L h.inv.nodup hr)
        rw [hL] at this
        simpa [ldEnts] using this
      nc := hv }
  have hrel := World.rel_view h.inv.nodup hr hget
  rw [show w.view row = unloaded row w.cal (decide (row.cid ∈ w.links)) w.clk by
    simp [World.view, unloaded, h.tbl _ hL]] at hrel
  refine All_mono ?_ (All_of_LAll (buildOne_good (ref := ref) hst hnt) hrel)
  rintro w1 r ⟨s', hrel', hq⟩
  cases r with
  | error e => intro hx; exact absurd hx (by simp)
  | ok u =>
    intro _
    obtain ⟨hg, hres, hqu⟩ := hq rfl
    have hclk : w.clk ≤ w1.clk := by rw [hrel'.clk]; exact hg.later
    let L' : Str → Bool := fun c => L c || decide (c = row.cid)
    have hL' : ∀ c, c ≠ row.cid → L' c = L c := fun c hc => by simp [L', hc]
    have hself : L' row.cid = true := by simp [L']
    have hinv : GInvN N cfg L' w1 := h.inv.focus' hr hget hrel' hL'
      (s0 := unloaded row w.cal (decide (row.cid ∈ w.links)) w.clk) (Int.le_refl _) (fun tm a _ => absurd a (by simp)) (by rw [hself]; exact hg.toGood)
      (fun hN r hn => by rw [← hvN hN]; exact hn)
    have hmem : ∀ x, x ∈ w1.rows ↔ x = s'.row ∨ (x ∈ w.rows ∧ x.cid ≠ row.cid) := by
      intro x; rw [hrel'.rows]; exact mem_setRow h.inv.nodup hr hrel'.rcid x
    have endOf : ∀ {x0 : Row}, x0 ∈ w0.rows → x0.cid = row.cid → row.end_ = x0.end_ := by
      intro x0 hx0 hc0
      obtain ⟨x, hx, he⟩ := h.ev x0 hx0
      have := eq_of_cid h.inv.nodup hx hr (he.same.1.trans hc0)
      subst this
      exact he.same.2.2.2.2.2.2.2.2
    refine ⟨⟨L', ?_⟩, fun x hx => ?_⟩
    rotate_left
    · by_cases hc : x.cid = row.cid
      · have := eq_of_cid h.inv.nodup hx hr hc
        subst this
        exact ⟨s'.row, (hmem _).mpr (Or.inl rfl), hg.ev⟩
      · exact ⟨x, (hmem _).mpr (Or.inr ⟨hx, hc⟩), Evolves.refl x⟩
    constructor
    · exact hinv
    · exact h.inv0
    · intro c hc
      have hne : c ≠ row.cid := by intro e; subst e; rw [hself] at hc; exact absurd hc (by simp)
      rw [hL' c hne] at hc
      rw [hrel'.tbl c hne]; exact h.tbl c hc
    · intro p hp
      obtain ⟨h1, h2, h3, h4, h5⟩ := h.mem p (List.mem_cons_of_mem _ hp)
      have hne : p.2.cid ≠ row.cid := fun e => hcids.1 (by rw [← e]; exact List.mem_map_of_mem (f := fun p : Nat × Row => p.2.cid) hp)
      have hnr : p.1 ≠ ref := fun e => hlive.1 (by rw [← e]; exact List.mem_map_of_mem (f := fun p : Nat × Row => p.1) hp)
      refine ⟨(hmem _).mpr (Or.inr ⟨h1, hne⟩), h2, ?_, ?_, h5⟩
      · rw [hrel'.heap _ hnr]; exact h3
      · rw [hL' _ hne]; exact h4
    · exact hlive.2
    · exact hcids.2
    · intro x hx
      rcases (hmem x).mp hx with e | ⟨hx', hne⟩
      · left; rw [e, hrel'.rcid]; exact hself
      · rcases h.rest x hx' with a | a | ⟨p, hp, a⟩
        · left; rw [hL' _ hne]; exact a
        · exact Or.inr (Or.inl a)
        · refine Or.inr (Or.inr ⟨p, ?_, a⟩)
          rcases List.mem_cons.mp hp with e | hp
          · subst e; subst a; exact absurd rfl hne
          · exact hp
    · intro x hx hl
      rcases (hmem x).mp hx with e | ⟨hx', hne⟩
      · subst e
        rcases hres with ⟨a, a'⟩ | ⟨a0, a | ⟨now, a1, a2, a3⟩⟩
        · left
          refine ⟨?_, fun x0 hx0 hc0 => ⟨fun e he hlt => ?_, fun hcr => ?_⟩⟩
          · rw [hrel'.clk, hrel'.rcid, hrel'.tm, hrel'.out]
            exact a.mono (Int.le_refl _) (fun m hm => List.mem_append_right _ hm)
          · have := endOf hx0 (hc0.trans hrel'.rcid)
            rw [← this] at he
            exact a'.1 e he (by have := h.clk; simp only; omega)
          · rw [(a'.2 hcr).1, (a'.2 hcr).2, eq_of_cid h.inv0 hx0 hr0 (hc0.trans hrel'.rcid)]
            exact ⟨rfl, rfl⟩
        · exact Or.inr ⟨row, hr0, hrel'.rcid.symm, a0, Or.inl a⟩
        · refine Or.inr ⟨row, hr0, hrel'.rcid.symm, a0, Or.inr ⟨now, ?_, ?_, a3⟩⟩
          · have := h.clk; simp only at a1; omega
          · rw [hrel'.clk]; exact a2
      · rw [hL' _ hne] at hl
        rcases h.done x hx' hl with ⟨a, a'⟩ | ⟨x0, b1, b2, b0, b3⟩
        · left
          refine ⟨?_, a'⟩
          rw [hrel'.tbl _ hne]
          exact a.mono hclk (fun m hm => by rw [hrel'.out]; exact List.mem_append_left _ hm)
        · refine Or.inr ⟨x0, b1, b2, b0, b3.imp id ?_⟩
          rintro ⟨now, c1, c2, c3⟩
          exact ⟨now, c1, by omega, c3⟩
    · have := h.clk; omega
    · intro x0 hx0
      obtain ⟨x, hx, he⟩ := h.ev x0 hx0
      by_cases hc : x.cid = row.cid
      · have := eq_of_cid h.inv.nodup hx hr hc
        subst this
        exact ⟨s'.row, (hmem _).mpr (Or.inl rfl), he.trans hg.ev⟩
      · exact ⟨x, (hmem _).mpr (Or.inr ⟨hx, hc⟩), he⟩
    · intro x hx
      rcases (hmem x).mp hx with e | ⟨hx', _⟩
      · exact ⟨row, hr0, by rw [e, hrel'.rcid]⟩
      · exact h.old x hx'
    · intro c hc
      by_cases hcr : c = row.cid
      · subst hcr
        have hu := hg.newUp (by rw [← hrel'.up]; simpa using hc)
        rcases hu with hu | hu
        · have hu : row.cid ∈ w.links := by simpa using hu
          rcases h.up _ hu with hu | ⟨hu, _⟩
          · exact Or.inl hu
          · rw [hL] at hu; exact absurd hu (by simp)
        · exact Or.inr ⟨hself, s'.row, (hmem _).mpr (Or.inl rfl), hrel'.rcid, by rw [hrel'.clk]; exact hu⟩
      · rw [hrel'.links c hcr] at hc
        rcases h.up c hc with hc | ⟨hl, x, hx, hxc, hok⟩
        · exact Or.inl hc
        · exact Or.inr ⟨by rw [hL' _ hcr]; exact hl, x, (hmem _).mpr (Or.inr ⟨hx, by rw [hxc]; exact hcr⟩), hxc, hok.mono hclk⟩
    · intro h0 x hx
      rcases (hmem x).mp hx with e | ⟨hx', _⟩
      · subst e; exact fun e => h.quiet h0 row hr (hqu e)
      · exact h.quiet h0 x hx'

theorem buildLoop_inv {N : Prop} {cfg : Cfg} {w0 : World} : ∀ (pend : List (Nat × Row)) (L : Str → Bool) (w : World), Loading N cfg w0 L pend w →
    All (buildLoop cfg (pend.map (·.1))) (fun w' r => r = .ok () → ∃ L', Loading N cfg w0 L' [] w') w := by
  intro pend
  induction pend with
  | nil => intro L w h _; exact ⟨L, h⟩
  | cons p pend ih =>
    intro L w h
    obtain ⟨ref, row⟩ := p
    simp only [List.map_cons, buildLoop, bind_eq]
    rw [All_bind]
    refine All_mono ?_ (buildOne_loading h)
    intro w1 r hq
    cases r with
    | error e => intro hx; exact absurd hx (by simp)
    | ok u =>
      obtain ⟨⟨L', hl⟩, _⟩ := hq rfl
      exact ih L' w1 hl

/-- Loading is complete when nothing is pending. -/
theorem Loading.complete {N : Prop} {cfg : Cfg} {w0 w : World} {L : Str → Bool} (h : Loading N cfg w0 L [] w) :
    GInvN N cfg allLoaded w ∧ ∀ x ∈ w.rows, Resumed w0 w x := by
  have hdead : ∀ x ∈ w.rows, L x.cid = false → x.st.l = .terminated := by
    intro x hx hl
    rcases h.rest x hx with a | a | ⟨p, hp, _⟩
    · rw [hl] at a; exact absurd a (by simp)
    · exact a
    · exact absurd hp (by simp)
  refine ⟨{ h.inv with conn := fun x hx => ?_, timers := fun c tm a b => ⟨rfl, (h.inv.timers c tm a b).2⟩, cal := ?_ }, ?_⟩
  · refine { h.inv.conn x hx with exp := fun _ => ?_ }
    by_cases hl : L x.cid = true
    · exact (h.inv.conn x hx).exp hl
    · intro a; rw [hdead x hx (by simpa using hl)] at a; exact absurd a (by simp)
  · refine h.inv.cal.trans ?_
    have : (w.rows.filter fun r => L r.cid).flatMap (ents cfg) = (w.rows.filter fun r => allLoaded r.cid).flatMap (ents cfg) := by
      have key : ∀ rows : List Row, (∀ x ∈ rows, L x.cid = false → x.st.l = .terminated) →
          (rows.filter fun r => L r.cid).flatMap (ents cfg) = (rows.filter fun r => allLoaded r.cid).flatMap (ents cfg) := by
        intro rows
        induction rows with
        | nil => intro _; rfl
        | cons a rows ih =>
          intro hd
          have ih := ih fun x hx => hd x (List.mem_cons_of_mem _ hx)
          simp only [List.filter_cons, if_true]
          cases hl : L a.cid with
          | true => simp only [if_true, List.flatMap_cons, ih]
          | false =>
            have ha := hd a (by simp) hl
            simp only [Bool.false_eq_true, if_false, List.flatMap_cons]
            rw [ih, ents_free (holds_false fun h => by rw [ha] at h; exact absurd h.1 (by simp)), List.nil_append]
      exact key _ hdead
    rw [this]
  · intro x hx
    by_cases hl : L x.cid = true
    · exact h.done x hx hl
    · exact Or.inl ⟨TimerFor.dead (by rw [hdead x hx (by simpa using hl)]; simp),
        fun _ _ _ => ⟨fun _ _ _ => Or.inl (by rw [hdead x hx (by simpa using hl)]; simp),
        fun hcr => by rw [hdead x hx (by simpa using hl)] at hcr; exact absurd hcr (by simp)⟩⟩

theorem GInvN.reboot {N : Prop} {cfg : Cfg} {w : World} (h : GInvN N cfg allLoaded w) : GInvN N cfg (fun _ => false) w.reboot :=
  { h with
    conn := fun x hx =>
      { row := (h.conn x hx).row
        timer := fun tm a => absurd a (by simp [World.reboot, dget])
        link := (h.conn x hx).link
        exp := fun a => absurd a (by simp) }
    timers := fun c tm a => absurd a (by simp [World.reboot, dget])
    cal := by simp [World.reboot] }

theorem zip_ids {rows : List Row} (p : Nat × Row) (hp : p ∈ ((List.range rows.length).map fun i => 0 + i).zip rows) :
    rows[p.1]? = some p.2 := by
  obtain ⟨i, hi, e⟩ := List.mem_iff_getElem.mp hp
  rw [List.getElem_zip] at e
  subst e
  simp only [List.getElem_map, List.getElem_range, Nat.zero_add]
  rw [List.getElem?_eq_getElem]

/-- What a restart does: live connections have the calls they need, connections only evolve, and links are set up only for
connections that are to be up. -/
structure Restarted (w w' : World) : Prop where
  resumed : ∀ x ∈ w'.rows, Resumed w w' x
  clk : w.clk ≤ w'.clk
  ev : ∀ x ∈ w.rows, ∃ y ∈ w'.rows, Evolves x y
  old : ∀ y ∈ w'.rows, ∃ x ∈ w.rows, x.cid = y.cid
  up : ∀ c ∈ w'.links, c ∈ w.links ∨ ∃ x ∈ w'.rows, x.cid = c ∧ SetUpOk w'.clk x
  quiet : (∀ x ∈ w.rows, x.st.r ≠ .aborting) → ∀ x ∈ w'.rows, x.st.r ≠ .aborting

/-- The connections that are not terminated. -/
abbrev World.live (w : World) : List Row := w.rows.filter fun r => r.st.l ≠ .terminated

theorem restart_loading {N : Prop} {cfg : Cfg} {w : World} (h : GInvN N cfg allLoaded w) {t : Time} (o : Oracle) (ht : w.clk ≤ t) :
    ∃ pend : List (Nat × Row), pend.map (·.1) = (List.range w.live.length).map (fun i => 0 + i) ∧
      Loading N cfg w (fun _ => false) pend { w.reboot with heap := w.live.map fun r => ⟨r, false⟩, clk := t, orc := o } := by
  let live := w.rows.filter fun r => r.st.l ≠ .terminated
  let pend := ((List.range live.length).map fun i => 0 + i).zip live
  have hlen : ((List.range live.length).map fun i => 0 + i).length = live.length := by simp
  have hfst : pend.map (·.1) = (List.range live.length).map fun i => 0 + i :=
    List.map_fst_zip (by rw [hlen]; exact Nat.le_refl _)
  have hsnd : pend.map (·.2) = live := List.map_snd_zip (by rw [hlen]; exact Nat.le_refl _)
  have hlive : ∀ x, x ∈ live ↔ x ∈ w.rows ∧ x.st.l ≠ .terminated := by intro x; simp [live]
  refine ⟨pend, hfst, ?_⟩
  constructor
  · exact h.reboot.idle t o _ ht
  · exact h.nodup
  · intro c _; rfl
  · intro p hp
    have hm : p.2 ∈ live := by rw [← hsnd]; exact List.mem_map_of_mem hp
    have := zip_ids p hp
    obtain ⟨a, b⟩ := (hlive _).mp hm
    refine ⟨a, a, ?_, rfl, b⟩
    show (live.map fun r => (⟨r, false⟩ : Obj))[p.1]? = _
    rw [List.getElem?_map, this]; rfl
  · rw [hfst]
    simp only [Nat.zero_add, List.map_id']
    exact List.nodup_range
  · have : pend.map (fun p => p.2.cid) = live.map (·.cid) := by
      rw [← hsnd, List.map_map]; rfl
    rw [this]
    exact h.nodup.sublist (List.filter_sublist.map _)
  · intro x hx
    by_cases hl : x.st.l = .terminated
    · exact Or.inr (Or.inl hl)
    · have : x ∈ pend.map (·.2) := by rw [hsnd]; exact (hlive x).mpr ⟨hx, hl⟩
      obtain ⟨p, hp, e⟩ := List.mem_map.mp this
      exact Or.inr (Or.inr ⟨p, hp, e⟩)
  · intro x _ hx; exact absurd hx (by simp)
  · exact ht
  · exact fun x hx => ⟨x, hx, Evolves.refl x⟩
  · exact fun x hx => ⟨x, hx, rfl⟩
  · exact fun c hc => Or.inl hc
  · exact id

theorem restart_inv {N : Prop} {cfg : Cfg} {w : World} (h : GInvN N cfg allLoaded w) :
    All (buildSchedule cfg) (fun w' r => r = .ok () → GInvN N cfg allLoaded w' ∧ Restarted w w')
      w.reboot := by
  unfold buildSchedule
  simp only [bind_eq]
  rw [All_bind, All_issue]
  intro t o ht
  simp only [execAt, cont_ok]
  have hheap : w.reboot.heap = [] := rfl
  simp only [hheap, List.nil_append, List.length_nil]
  obtain ⟨pend, hfst, hl⟩ := restart_loading (cfg := cfg) h o ht
  have key := buildLoop_inv pend _ _ hl
  rw [hfst] at key
  refine All_mono ?_ key
  intro w' r hq hr
  obtain ⟨L', hl⟩ := hq hr
  exact ⟨hl.complete.1, hl.complete.2, hl.clk, hl.ev, hl.old, fun c hc => (hl.up c hc).imp id And.right, hl.quiet⟩

end OpenNSA.Backend
