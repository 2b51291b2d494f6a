import Verif.Backend.TraceOps
import Verif.Backend.History
/-
The device operations of whole histories.
-/
namespace OpenNSA.Backend
open OpenNSA Py Prog

/-- No failure of a device operation has been reported to the parent. -/
def Settled (w : World) : Prop := ∀ c, ¬ Reported w.outbox c

/-- The resources (one per end) the connection manager assigns to a connection. -/
def Row.resources (cfg : Cfg) (r : Row) : List Str :=
  [cfg.mgr.getResource r.srcPort r.srcLabel, cfg.mgr.getResource r.dstPort r.dstLabel]

/-- The connections have no resource in common. -/
def Separate (cfg : Cfg) (a b : Row) : Prop := ∀ x ∈ a.resources cfg, x ∉ b.resources cfg

/-- The device is told sensible things, given the links that are up at first: a link is set up only if it is not up, and if its
connection has no resource in common with those of the links then up; a link is torn down only if it is up. -/
def Sound (cfg : Cfg) (rows : List Row) : List Str → List DevOp → Prop
  | _, [] => True
  | l, o :: ops =>
    (if o.up then o.cid ∉ l ∧ ∃ a ∈ rows, a.cid = o.cid ∧ ∀ x ∈ l, ∃ b ∈ rows, b.cid = x ∧ Separate cfg a b
      else o.cid ∈ l) ∧ Sound cfg rows (replay1 l o) ops

/-- The same, except for the connections in `F`: their links may be set up at any time, and are not counted among those that are up when
another one is set up. -/
def SoundBut (F : Str → Prop) (cfg : Cfg) (rows : List Row) : List Str → List DevOp → Prop
  | _, [] => True
  | l, o :: ops =>
    (if o.up then ¬ F o.cid → o.cid ∉ l ∧ ∃ a ∈ rows, a.cid = o.cid ∧ ∀ x ∈ l, ¬ F x → ∃ b ∈ rows, b.cid = x ∧ Separate cfg a b
      else o.cid ∈ l) ∧ SoundBut F cfg rows (replay1 l o) ops

/-- Whenever a link is set up, neither its connection nor any of those whose links are then up is past its end. -/
def Punctual (rows : List Row) : List Str → List DevOp → Prop
  | _, [] => True
  | l, o :: ops =>
    (o.up = true → ∀ x ∈ o.cid :: l, ∀ a ∈ rows, a.cid = x → ∀ e, a.end_ = some e → o.at_ ≤ e) ∧ Punctual rows (replay1 l o) ops

/-- Whenever a link is set up while another one is up, neither of the two connections is past its end, except for the connections in `F`. -/
def PunctualBut (F : Str → Prop) (rows : List Row) : List Str → List DevOp → Prop
  | _, [] => True
  | l, o :: ops =>
    (o.up = true → ¬ F o.cid → ∀ x ∈ l, x ≠ o.cid → ¬ F x → ∀ a ∈ rows, a.cid = x ∨ a.cid = o.cid → ∀ e, a.end_ = some e → o.at_ ≤ e) ∧
      PunctualBut F rows (replay1 l o) ops

/-- Failures of device operations have been reported to the parent for the connections in `F` at most. -/
def SettledBut (F : Str → Prop) (w : World) : Prop := ∀ c, Reported w.outbox c → F c

theorem sound_iff {cfg : Cfg} {rows : List Row} : ∀ {l : List Str} {ops : List DevOp}, Sound cfg rows l ops ↔ SoundBut (fun _ => False) cfg rows l ops
  | _, [] => Iff.rfl
  | l, o :: ops => by simp only [Sound, SoundBut, sound_iff (ops := ops), not_false_eq_true, forall_const]

theorem Punctual.but {rows : List Row} : ∀ {l : List Str} {ops : List DevOp}, Punctual rows l ops → PunctualBut (fun _ => False) rows l ops
  | _, [], _ => trivial
  | l, o :: ops, h => by
    refine ⟨fun hu _ x hx _ _ a ha hax => ?_, h.2.but⟩
    rcases hax with rfl | hax
    · exact h.1 hu _ (List.mem_cons_of_mem _ hx) a ha rfl
    · exact h.1 hu _ List.mem_cons_self a ha hax

/-- Nothing is asked of a single connection. -/
theorem punctual_single {rows : List Row} (c : Str) : ∀ {l : List Str} {ops : List DevOp}, PunctualBut (· ≠ c) rows l ops
  | _, [] => trivial
  | l, o :: ops => ⟨fun _ h1 x _ h2 h3 => absurd ((Decidable.not_not.mp h3).trans (Decidable.not_not.mp h1).symm) h2, punctual_single c⟩

variable {F : Str → Prop}

theorem SoundBut_append {cfg : Cfg} {rows : List Row} : ∀ {l : List Str} {a b : List DevOp},
    SoundBut F cfg rows l (a ++ b) ↔ SoundBut F cfg rows l a ∧ SoundBut F cfg rows (replay l a) b
  | l, [], b => by simp [SoundBut, replay]
  | l, o :: a, b => by
    simp only [List.cons_append, SoundBut, SoundBut_append (a := a), replay, List.foldl_cons, and_assoc]

theorem PunctualBut_append {rows : List Row} : ∀ {l : List Str} {a b : List DevOp},
    PunctualBut F rows l (a ++ b) ↔ PunctualBut F rows l a ∧ PunctualBut F rows (replay l a) b
  | l, [], b => by simp [PunctualBut, replay]
  | l, o :: a, b => by
    simp only [List.cons_append, PunctualBut, PunctualBut_append (a := a), replay, List.foldl_cons, and_assoc]

/-- Static data stay, so soundness does when connections evolve. -/
theorem SoundBut.evolve {cfg : Cfg} {rows rows' : List Row} (hev : ∀ x ∈ rows, ∃ y ∈ rows', Evolves x y) :
    ∀ {l : List Str} {ops : List DevOp}, SoundBut F cfg rows l ops → SoundBut F cfg rows' l ops
  | _, [], _ => trivial
  | l, o :: ops, h => by
    refine ⟨?_, h.2.evolve hev⟩
    have h1 := h.1
    split at h1
    · rename_i hu
      rw [if_pos hu]
      intro hF
      obtain ⟨hn, a, ha, hac, hx⟩ := h1 hF
      obtain ⟨a', ha', ea⟩ := hev a ha
      refine ⟨hn, a', ha', ea.same.1.trans hac, fun x hxl hxF => ?_⟩
      obtain ⟨b, hb, hbc, hs⟩ := hx x hxl hxF
      obtain ⟨b', hb', eb⟩ := hev b hb
      refine ⟨b', hb', eb.same.1.trans hbc, ?_⟩
      have e1 : a'.resources cfg = a.resources cfg := by
        obtain ⟨_, _, _, h1, h2, h3, h4, _, _⟩ := ea.same; simp [Row.resources, h1, h2, h3, h4]
      have e2 : b'.resources cfg = b.resources cfg := by
        obtain ⟨_, _, _, h1, h2, h3, h4, _, _⟩ := eb.same; simp [Row.resources, h1, h2, h3, h4]
      unfold Separate
      rw [e1, e2]
      exact hs
    · rename_i hu
      rw [if_neg hu]; exact h1

theorem PunctualBut.before {rows rows' : List Row} (hev : ∀ x ∈ rows, ∃ y ∈ rows', Evolves x y) :
    ∀ {l : List Str} {ops : List DevOp}, PunctualBut F rows' l ops → PunctualBut F rows l ops
  | _, [], _ => trivial
  | l, o :: ops, h => by
    refine ⟨fun hu hF x hx hne hxF a ha hac e he => ?_, h.2.before hev⟩
    obtain ⟨a', ha', ea⟩ := hev a ha
    obtain ⟨h1, _, _, _, _, _, _, _, h9⟩ := ea.same
    exact h.1 hu hF x hx hne hxF a' ha' (by rw [h1]; exact hac) e (by rw [h9]; exact he)

theorem SettledBut.before {w w' : World} (h : SettledBut F w') (ho : ∃ ms, w'.outbox = w.outbox ++ ms) : SettledBut F w := by
  obtain ⟨ms, ho⟩ := ho
  intro c hc
  exact h c (by rw [ho]; exact hc.mono)

/-! ### One operation -/

/-- A connection whose link is up is active, and holds its resources. -/
theorem GInvN.active_of_up {cfg : Cfg} {L : Str → Bool} {w : World} (h : GInv cfg L w) (hs : SettledBut F w) {r : Row} (hr : r ∈ w.rows)
    (hF : ¬ F r.cid) (hu : r.cid ∈ w.links) : r.active = true ∧ r.holds = true := by
  have hc := h.conn r hr
  have ha : r.active = true := (hc.link.2 (by simpa using hu)).resolve_right fun h => hF (hs _ h)
  obtain ⟨h1, h2, _⟩ := hc.row.act ha
  exact ⟨ha, holds_iff.mpr ⟨h1, Or.inr (hc.row.pv (by rw [h2]; simp))⟩⟩

theorem Separate.of_noClash {cfg : Cfg} {a b : Row} (h : NoClash cfg a b) {t : Time} (ha : Begun a.start t) (hb : Begun b.start t)
    (ma : a.reserveTime ≤ t) (mb : b.reserveTime ≤ t) (ea : ∀ e, a.end_ = some e → t ≤ e) (eb : ∀ e, b.end_ = some e → t ≤ e) :
    Separate cfg a b := by
  have occ : ∀ {r : Row} {x : Booked}, x ∈ r.books cfg → Begun r.start t → r.reserveTime ≤ t → (∀ e, r.end_ = some e → t ≤ e) →
      x.Occupies t := by
    intro r x hx h1 h2 h3
    have h4 : x.resv.start = r.start ∧ x.resv.end_ = r.end_ ∧ x.made = r.reserveTime := by
      simp only [Row.books, List.mem_cons, List.not_mem_nil, or_false] at hx
      rcases hx with rfl | rfl <;> exact ⟨rfl, rfl, rfl⟩
    obtain ⟨e1, e2, e3⟩ := h4
    unfold Booked.Occupies
    rw [e1, e2, e3]
    refine ⟨?_, h3⟩
    cases hs : r.start with
    | none => exact h2
    | some s => exact h1 s hs
  have books : ∀ (r : Row), ∀ x ∈ r.resources cfg, ∃ y ∈ r.books cfg, y.resv.resource = x := by
    intro r x hx
    simp only [Row.resources, List.mem_cons, List.not_mem_nil, or_false] at hx
    rcases hx with rfl | rfl
    · exact ⟨_, List.mem_cons_self, rfl⟩
    · exact ⟨_, List.mem_cons_of_mem _ (List.mem_singleton.mpr rfl), rfl⟩
  intro x hx hx'
  obtain ⟨p, hp, ep⟩ := books a x hx
  obtain ⟨q, hq, eq⟩ := books b x hx'
  exact h p hp q hq ⟨ep.trans eq.symm, t, occ hp ha ma ea, occ hq hb mb eb⟩

/-- At most one operation under its condition, between worlds that satisfy the invariant: sound. -/
theorem OneOp.sound {cfg : Cfg} {L L' : Str → Bool} {w w' : World} {ops : List DevOp} {row0 : Row} (hw : GInv cfg L w)
    (hw' : GInv cfg L' w') (hs : SettledBut F w) (hs' : SettledBut F w') (hr : row0 ∈ w.rows) (h : OneOp (F row0.cid) row0.cid row0.start w ops)
    (hl : w'.links = replay w.links ops) (hev : ∀ x ∈ w.rows, ∃ y ∈ w'.rows, Evolves x y) (hp : PunctualBut F w'.rows w.links ops) :
    SoundBut F cfg w'.rows w.links ops := by
  rcases h with rfl | ⟨t, ht, ⟨rfl, hn, hb⟩ | ⟨rfl, hu⟩⟩
  · trivial
  · have hl : w'.links = row0.cid :: w.links := hl
    obtain ⟨a, ha, ea⟩ := hev row0 hr
    obtain ⟨s1, _, s3, _, _, _, _, s8, s9⟩ := ea.same
    have hua : a.cid ∈ w'.links := by rw [hl, s1]; exact List.mem_cons_self
    refine ⟨fun hF => ?_, trivial⟩
    have hF : ¬ F row0.cid := hF
    have hn := hn.resolve_left hF
    have hp := hp.1 rfl hF
    refine ⟨hn, a, ha, s1, fun x hx hxF => ?_⟩
    obtain ⟨b0, hb0, rfl⟩ := hw.links x hx
    obtain ⟨b, hbm, eb⟩ := hev b0 hb0
    obtain ⟨r1, _, r3, _, _, _, _, r8, r9⟩ := eb.same
    have hub : b.cid ∈ w'.links := by rw [hl, r1]; exact List.mem_cons_of_mem _ hx
    refine ⟨b, hbm, r1, ?_⟩
    have hne : a.cid ≠ b.cid := by rw [s1, r1]; rintro e; exact hn (by rw [e]; exact hx)
    have hne' : b0.cid ≠ row0.cid := by rw [← s1, ← r1]; exact Ne.symm hne
    have hnc := hw'.nc a ha b hbm hne (Or.inl (hw'.active_of_up hs' ha (by rw [s1]; exact hF) hua).2) (Or.inl (hw'.active_of_up hs' hbm (by rw [r1]; exact hxF) hub).2)
    have hb0ok := (hw.conn b0 hb0).row
    refine Separate.of_noClash hnc (t := t) (by rw [s8]; exact hb) ?_ ?_ ?_ ?_ ?_
    · rw [r8]
      exact Begun.mono ((hb0ok.act (hw.active_of_up hs hb0 hxF hx).1).2.2) ht
    · rw [s3]; exact Int.le_trans (hw.conn row0 hr).row.made ht
    · rw [r3]; exact Int.le_trans hb0ok.made ht
    · exact hp b0.cid hx hne' hxF a ha (Or.inr s1)
    · exact hp b0.cid hx hne' hxF b hbm (Or.inl r1)
  · exact ⟨hu, trivial⟩

/-! ### Operations of single events -/

theorem RowOk.held_idle {t : Time} {r : Row} (h : RowOk t r) (hh : r.st.r = .held) : r.active = false := by
  cases ha : r.active with
  | false => rfl
  | true =>
    have h1 := (h.act ha).2.1
    have h2 := h.pv (by rw [h1]; simp)
    rcases h.rs with e | e | e
    · rw [hh] at e; exact absurd e (by simp)
    · rw [h2] at e; exact absurd e.2 (by simp)
    · rw [hh] at e; exact absurd e.1 (by simp)

theorem RowOk.unprovisioned_idle {t : Time} {r : Row} (h : RowOk t r) (hh : PState.provisioning ∈ provisionTransitions r.st.p) :
    r.active = false := by
  cases ha : r.active with
  | false => rfl
  | true => rw [(h.act ha).2.1] at hh; exact absurd hh (by decide)

theorem OneOp.nil {w : World} {ops : List DevOp} (h : ∀ c, OneOp False c none w ops) : ops = [] := by
  rcases h [] with h1 | ⟨t, _, ⟨h1, _⟩ | ⟨h1, _⟩⟩
  · exact h1
  all_goals
    rcases h ['x'] with h2 | ⟨t, _, ⟨h2, _⟩ | ⟨h2, _⟩⟩
    · exact h2
    · rw [h1] at h2; simp at h2
    · rw [h1] at h2; simp at h2

/-- The link of an active connection is up. -/
theorem GInvN.up_of_active {cfg : Cfg} {L : Str → Bool} {w : World} (h : GInv cfg L w) {r : Row} (hr : r ∈ w.rows) (ha : r.active = true) :
    decide (r.cid ∈ w.links) = true := (h.conn r hr).link.1 ha

/-- The link of an inactive connection is not up, except after failures. -/
theorem GInvN.down_of_idle {cfg : Cfg} {L : Str → Bool} {w : World} (h : GInv cfg L w) (hs : SettledBut F w) {r : Row} (hr : r ∈ w.rows)
    (ha : r.active = false) : F r.cid ∨ decide (r.cid ∈ w.links) = false := by
  cases hd : decide (r.cid ∈ w.links) with
  | false => exact Or.inr rfl
  | true =>
    rcases (h.conn r hr).link.2 hd with h1 | h1
    · rw [h1] at ha; exact absurd ha (by simp)
    · exact Or.inl (hs _ h1)

theorem GInvN.up_eq {cfg : Cfg} {L : Str → Bool} {w : World} (h : GInv cfg L w) (hs : SettledBut F w) {r : Row} (hr : r ∈ w.rows)
    (hF : ¬ F r.cid) : decide (r.cid ∈ w.links) = r.active := by
  cases ha : r.active with
  | true => exact h.up_of_active hr ha
  | false => exact (h.down_of_idle hs hr ha).resolve_left hF

/-- A request on one connection. -/
theorem on_conn_ops {α β : Type} {cfg : Cfg} {w : World} (h : GInv cfg allLoaded w) (hs : SettledBut F w) {cid : Str} {k : Nat → Prog α}
    {f : α → Prog β} (hf : ∀ a, NoDev (f a))
    (hk : ∀ (ref : Nat) (row0 : Row) (s : S), row0.cid = cid → s.obj = row0 → RowOk s.clk row0 → (row0.active = true → s.up = true) → (row0.active = false → F row0.cid ∨ s.up = false) →
      LG (F row0.cid) row0.cid ref row0.start (k ref) s) :
    (((getConnection cid).bind k).bind f).devs w = [] ∨
      ∃ row0 ∈ w.rows, OneOp (F row0.cid) row0.cid row0.start w ((((getConnection cid).bind k).bind f).devs w) := by
  by_cases hex : ∃ r ∈ w.rows, r.cid = cid
  · obtain ⟨row0, hr, hc⟩ := hex
    refine Or.inr ⟨row0, hr, devs_of_WG (WG_post hf (WG_pre (NoDev_getConnection _) ?_))⟩
    have := All_found (cid := cid) (k := Prog.pure) (w := w)
      (Q := cont (fun _ (_ : Except Err α) => True) fun a w => WG (F row0.cid) row0.cid row0.start (k a) w)
      (fun _ _ _ _ => trivial) ?_
    · rw [All_bind] at this
      refine All_mono ?_ this
      intro w' r hq
      cases r <;> exact hq
    · intro t o row ht hr' hc'
      have := eq_of_cid h.nodup hr' hr (hc'.trans hc.symm)
      subst this
      have h1 : GInv cfg allLoaded (w.looked row t o) := h.idle t o [⟨row, false⟩] ht
      have hget : (w.looked row t o).heap[w.heap.length]? = some ⟨row, false⟩ := by simp
      exact WG_of_LG (hk _ row _ hc rfl (h1.conn row hr).row (h1.up_of_active hr) (h1.down_of_idle hs hr)) (World.rel_view h1.nodup hr hget)
  · refine Or.inl (OneOp.nil fun c => devs_of_WG (WG_post hf (WG_pre (NoDev_getConnection _) ?_)))
    have := All_found (cid := cid) (k := Prog.pure) (w := w)
      (Q := cont (fun _ (_ : Except Err α) => True) fun a w => WG False c none (k a) w)
      (fun _ _ _ _ => trivial) ?_
    · rw [All_bind] at this
      refine All_mono ?_ this
      intro w' r hq
      cases r <;> exact hq
    · intro t o row ht hr' hc'
      exact absurd ⟨row, hr', hc'⟩ hex

/-- What a scheduled call tells the device. -/
theorem fire_ops {cfg : Cfg} {w : World} (hw : GInv cfg allLoaded w) (hs : SettledBut F w) {cid : Str} {tm : Timer}
    (ht : dget w.tbl cid = some tm) (hc : tm.called = false) (hdue : tm.due ≤ w.clk) :
    ∃ row0 ∈ w.rows, OneOp (F row0.cid) row0.cid row0.start (w.taken cid tm) ((actProg cfg tm.act tm.ref).devs (w.taken cid tm)) := by
  obtain ⟨_, row0, hr, hcid⟩ := hw.timers cid tm ht hc
  obtain ⟨hok, hget⟩ := (hw.conn row0 hr).timer tm (by rw [hcid]; exact ht) hc
  let s : S := { w.view row0 with tm := some { tm with called := true } }
  have hrel : Rel w row0.cid tm.ref (w.taken cid tm) s :=
    { rows := (setRow_self hw.nodup hr).symm
      rcid := rfl
      ocid := rfl
      obj := hget
      heap := fun _ _ => rfl
      cal := rfl
      tm := by simp only [s]; rw [hcid, dget_dset, if_pos rfl]
      tbl := fun c hne => by simp only; rw [dget_dset, if_neg (by rw [← hcid]; exact Ne.symm hne)]
      up := rfl
      links := fun _ _ => Iff.rfl
      out := by simp [s]
      clk := rfl
      ids := rfl }
  refine ⟨row0, hr, devs_of_WG (WG_of_LG ?_ hrel)⟩
  have hup := fun ha => hw.up_of_active hr ha
  have hdn := fun ha => hw.down_of_idle hs hr ha
  have hrow := (hw.conn row0 hr).row
  obtain ⟨due, act, ref, called⟩ := tm
  simp only [TimerOk] at hok
  cases act with
  | reserveTimeout => exact LG_doReserveTimeout rfl fun _ => hrow.held_idle hok.1
  | endtime => exact LG_doEndtime rfl hup
  | activate =>
    obtain ⟨h1, h2, h3, h4, x, h5, h6⟩ := hok
    refine LG_doActivate rfl (hdn h4) ?_
    intro y hy
    rw [h5] at hy
    simp only [Option.some.injEq] at hy
    subst hy
    simp only [s] at *
    omega

theorem devs_bind {α β : Type} {p : Prog α} {f : α → Prog β} : ∀ w : World, (p.bind f).devs w = p.devs w ++
    (match (p.run w).2 with | .ok a => (f a).devs (p.run w).1 | .error _ => []) := by
  induction p with
  | pure a => intro w; rfl
  | throw e => intro w; rfl
  | cmd c k ih =>
    intro w
    simp only [Prog.bind, Prog.devs, Prog.run]
    rw [ih, List.append_assoc]
  | spawn p k _ ihk =>
    intro w
    simp only [Prog.bind, Prog.devs, Prog.run]
    rw [ihk, List.append_assoc]

theorem run_bind {α β : Type} {p : Prog α} {f : α → Prog β} : ∀ w : World, (p.bind f).run w =
    (match (p.run w).2 with | .ok a => (f a).run (p.run w).1 | .error e => ((p.run w).1, .error e)) := by
  induction p with
  | pure a => intro w; rfl
  | throw e => intro w; rfl
  | cmd c k ih => intro w; simp only [Prog.bind, Prog.run]; rw [ih]
  | spawn p k _ ihk => intro w; simp only [Prog.bind, Prog.run]; rw [ihk]

/-- What loading the remaining connections tells the device. -/
theorem buildLoop_ops {cfg : Cfg} {w0 : World} : ∀ (pend : List (Nat × Row)) (L : Str → Bool) (w : World), Loading True cfg w0 L pend w →
    ((buildLoop cfg (pend.map (·.1))).run w).2 = .ok () → SettledBut F ((buildLoop cfg (pend.map (·.1))).run w).1 →
    PunctualBut F ((buildLoop cfg (pend.map (·.1))).run w).1.rows w.links ((buildLoop cfg (pend.map (·.1))).devs w) →
    SoundBut F cfg ((buildLoop cfg (pend.map (·.1))).run w).1.rows w.links ((buildLoop cfg (pend.map (·.1))).devs w) ∧
    ∀ x ∈ w.rows, ∃ y ∈ ((buildLoop cfg (pend.map (·.1))).run w).1.rows, Evolves x y := by
  intro pend
  induction pend with
  | nil => intro L w _ _ _ _; exact ⟨trivial, fun x hx => ⟨x, hx, Evolves.refl x⟩⟩
  | cons p pend ih =>
    intro L w h
    obtain ⟨ref, row⟩ := p
    simp only [List.map_cons, buildLoop, bind_eq]
    rw [run_bind, devs_bind]
    have hone := run_of_All (buildOne_loading h)
    have hlinks := run_links (p := buildOne cfg ref) w
    have hout := run_outbox (p := buildOne cfg ref) w
    have hwg : SettledBut F w → OneOp (F row.cid) row.cid row.start w ((buildOne cfg ref).devs w) := by
      intro hs
      obtain ⟨hr, _, hget, hL, _⟩ := h.mem (ref, row) (by simp)
      simp only at hr hget hL
      have hrow := (h.inv.conn row hr).row
      refine devs_of_WG (WG_of_LG (LG_buildOne rfl (h.inv.up_of_active hr) (h.inv.down_of_idle hs hr)
        (fun hx => hrow.held_idle (aborting_held hrow hx)) rfl) (World.rel_view h.inv.nodup hr hget))
    have hr : row ∈ w.rows := (h.mem (ref, row) (by simp)).1
    revert hone hlinks hout hwg
    generalize (buildOne cfg ref).devs w = ops1
    generalize (buildOne cfg ref).run w = res
    obtain ⟨w1, r⟩ := res
    intro hone hlinks hout hwg hok hset hpun
    simp only at hone hlinks hout
    cases r with
    | error e => exact absurd hok (by simp)
    | ok u =>
      simp only at hok hset hpun ⊢
      obtain ⟨⟨L', hl⟩, hev1⟩ := hone rfl
      rw [PunctualBut_append] at hpun
      rw [← hlinks] at hpun
      obtain ⟨hp1, hp2⟩ := hpun
      obtain ⟨ih1, ih2⟩ := ih L' w1 hl hok hset hp2
      have hs1 : SettledBut F w1 := hset.before (run_outbox (p := buildLoop cfg _) w1)
      have hs : SettledBut F w := hs1.before hout
      have hsound := (hwg hs).sound h.inv hl.inv hs hs1 hr hlinks hev1 (hp1.before ih2)
      refine ⟨?_, ?_⟩
      · rw [SoundBut_append, ← hlinks]
        exact ⟨hsound.evolve ih2, ih1⟩
      · intro x hx
        obtain ⟨y, hy, e1⟩ := hev1 x hx
        obtain ⟨z, hz, e2⟩ := ih2 y hy
        exact ⟨z, hz, e1.trans e2⟩

/-- What an event other than a restart tells the device. -/
theorem event_ops {cfg : Cfg} {w : World} (h : GInv cfg allLoaded w) (hs : SettledBut F w) (o : Oracle) (e : Ev) (he : e ≠ .restart) :
    stepDevs cfg w o e = [] ∨ ∃ row0 ∈ w.rows, OneOp (F row0.cid) row0.cid row0.start w (stepDevs cfg w o e) := by
  have hw := h.with o
  show stepDevs cfg w o e = [] ∨ ∃ row0 ∈ w.rows, OneOp (F row0.cid) row0.cid row0.start (w.with o) (stepDevs cfg w o e)
  cases e with
  | req hd r =>
    cases r with
    | reserve cid? src dst st en =>
      refine Or.inl (devs_nil (NoDev_bind (NoDev_reserve _ _ _ _ _ _ _) fun _ => ?_) _)
      trivial
    | commit cid =>
      refine Or.inl (devs_nil (NoDev_bind (NoDev_bind (NoDev_getConnection _) fun _ => NoDev_commitOn _ _ _ _) fun _ => ?_) _)
      trivial
    | abort cid =>
      refine on_conn_ops hw hs (fun _ => trivial) ?_
      intro ref row0 s hcid ho hrow hup hdn
      subst hcid
      exact LG_abortOn (by rw [ho]) (by rw [ho]; exact fun hx => hrow.held_idle (aborting_held hrow hx))
    | provision cid =>
      refine on_conn_ops hw hs (fun _ => trivial) ?_
      intro ref row0 s hcid ho hrow hup hdn
      subst hcid
      exact LG_provisionOn (by rw [ho]) (by rw [ho]; exact fun hx => hdn (hrow.unprovisioned_idle hx)) (by rw [ho])
    | release cid =>
      refine on_conn_ops hw hs (fun _ => trivial) ?_
      intro ref row0 s hcid ho hrow hup hdn
      subst hcid
      exact LG_releaseOn (by rw [ho]) (by rw [ho]; exact hup)
    | terminate cid =>
      refine on_conn_ops hw hs (fun _ => trivial) ?_
      intro ref row0 s hcid ho hrow hup hdn
      subst hcid
      exact LG_terminateOn (by rw [ho]) (by rw [ho]; exact hup)
  | wait us => exact Or.inl rfl
  | fire cid =>
    simp only [stepDevs]
    cases ht : dget w.tbl cid with
    | none => exact Or.inl rfl
    | some tm =>
      obtain ⟨due, act, ref, called⟩ := tm
      cases called with
      | true => exact Or.inl rfl
      | false =>
        simp only
        by_cases hdue : due ≤ w.clk
        · rw [if_pos hdue]
          obtain ⟨row0, hr, h1⟩ := fire_ops hw hs (tm := ⟨due, act, ref, false⟩) ht rfl hdue
          exact Or.inr ⟨row0, hr, h1⟩
        · rw [if_neg hdue]; exact Or.inl rfl
  | restart => exact absurd rfl he

/-- What one event tells the device. -/
theorem step_ops {cfg : Cfg} {w : World} (h : Reach cfg w) (o : Oracle) (e : Ev)
    (hc : CleanStep e (step cfg w o e).1 (step cfg w o e).2) (hs' : SettledBut F (step cfg w o e).1)
    (hp : PunctualBut F (step cfg w o e).1.rows w.links (stepDevs cfg w o e)) :
    SoundBut F cfg (step cfg w o e).1.rows w.links (stepDevs cfg w o e) := by
  have hs : SettledBut F w := hs'.before (step_outbox cfg w o e)
  have hw := h.inv.with o
  have hw' := (Reach.step o e h hc).inv
  have hev := (h.evolves o e hc).1
  have hl := step_links cfg w o e
  have one : ∀ {row0 : Row}, row0 ∈ w.rows → OneOp (F row0.cid) row0.cid row0.start (w.with o) (stepDevs cfg w o e) →
      SoundBut F cfg (step cfg w o e).1.rows w.links (stepDevs cfg w o e) :=
    fun hr h1 => OneOp.sound (w := w.with o) hw hw' hs hs' hr h1 hl hev hp
  have opt : (stepDevs cfg w o e = [] ∨ ∃ row0 ∈ w.rows, OneOp (F row0.cid) row0.cid row0.start (w.with o) (stepDevs cfg w o e)) →
      SoundBut F cfg (step cfg w o e).1.rows w.links (stepDevs cfg w o e) := by
    rintro (h1 | ⟨row0, hr, h1⟩)
    · rw [h1]; trivial
    · exact one hr h1
  by_cases he : e ≠ .restart
  · exact opt (event_ops h.inv hs o e he)
  · simp only [ne_eq, Decidable.not_not] at he
    subst he
    obtain ⟨t, o2, ht, he⟩ := advance_eq (w.with o).reboot
    obtain ⟨pend, hfst, hload⟩ := restart_loading (cfg := cfg) hw o2 (t := t) ht
    have hrun : (buildSchedule cfg).run (w.with o).reboot = (buildLoop cfg (pend.map (·.1))).run
        { (w.with o).reboot with heap := (w.with o).live.map fun r => ⟨r, false⟩, clk := t, orc := o2 } := by
      unfold buildSchedule
      simp only [bind_eq]
      rw [run_bind, hfst]
      simp only [issue, Prog.run, exec, he, execAt]
      rfl
    have hdev : (buildSchedule cfg).devs (w.with o).reboot = (buildLoop cfg (pend.map (·.1))).devs
        { (w.with o).reboot with heap := (w.with o).live.map fun r => ⟨r, false⟩, clk := t, orc := o2 } := by
      unfold buildSchedule
      simp only [bind_eq]
      rw [devs_bind, hfst]
      simp only [issue, Prog.run, Prog.devs, exec, he, execAt, cmdDevs]
      rfl
    have hstep : (step cfg w o .restart).1 = ((buildSchedule cfg).run (w.with o).reboot).1 := rfl
    have hsd : stepDevs cfg w o .restart = (buildSchedule cfg).devs (w.with o).reboot := rfl
    have hok : ((buildSchedule cfg).run (w.with o).reboot).2 = .ok () := by
      obtain ⟨c, hc⟩ := hc
      simp only [step] at hc
      revert hc
      generalize (Prog.run (buildSchedule cfg) (World.reboot (w.with o))).2 = r
      cases r with
      | ok u => intro _; rfl
      | error e => intro hc; exact absurd hc (by simp [Except.map])
    rw [hstep, hrun] at hs' hp ⊢
    rw [hsd, hdev] at hp ⊢
    rw [hrun] at hok
    exact (buildLoop_ops pend _ _ hload hok hs' hp).1

/-- The links that are up are what the device operations left. -/
theorem Traced.links {cfg : Cfg} {w : World} {tr : List DevOp} (h : Traced cfg w tr) : w.links = replay [] tr := by
  induction h with
  | init ids clk => rfl
  | step o e _ _ ih => rw [step_links, replay_append, ← ih]

theorem Traced.sound {cfg : Cfg} {w : World} {tr : List DevOp} (h : Traced cfg w tr) (hs : SettledBut F w) (hp : PunctualBut F w.rows [] tr) :
    SoundBut F cfg w.rows [] tr := by
  induction h with
  | init ids clk => trivial
  | step o e ht hc ih =>
    have hev := (ht.reach.evolves o e hc).1
    rw [PunctualBut_append] at hp
    rw [SoundBut_append]
    refine ⟨(ih (hs.before (step_outbox _ _ o e)) (hp.1.before hev)).evolve hev, ?_⟩
    rw [← ht.links] at hp ⊢
    exact step_ops ht.reach o e hc hs hp.2

end OpenNSA.Backend
