import Verif.Backend.Step
import Verif.Backend.ReservePost
/-
Consequences of the invariant for single steps and histories.
-/
namespace OpenNSA.Backend
open OpenNSA Py Prog

theorem ents_books (cfg : Cfg) (r : Row) : ents cfg r = if r.holds then (r.books cfg).map (·.resv) else [] := rfl

theorem booked_eq (cfg : Cfg) (w : World) : (w.rows.filter fun r => allLoaded r.cid).flatMap (ents cfg) = w.booked cfg := by
  unfold World.booked
  generalize w.rows = rows
  induction rows with
  | nil => rfl
  | cons a rows ih =>
    simp only [List.filter_cons, if_true, List.flatMap_cons, ih]
    cases h : a.holds <;> simp [ents_books, h]

theorem ConnPost.evolves {α : Type} {cid : Str} {w w' : World} {r : Except Err α} {P : Row → S → S → Except Err α → Prop}
    (hn : (w.rows.map (·.cid)).Nodup) (h : ConnPost cid w w' r P) :
    (∀ x ∈ w.rows, ∃ y ∈ w'.rows, Evolves x y) ∧ (∀ c ∈ w'.links, c ∈ w.links ∨ ∃ x ∈ w'.rows, x.cid = c ∧ SetUpOk w'.clk x) ∧
    w.clk ≤ w'.clk ∨ (w'.rows = w.rows ∧ w'.links = w.links ∧ w'.tbl = w.tbl) := by
  rcases h with ⟨_, _, t, o, _, rfl⟩ | ⟨row0, hr, hc, t, o, s', ht, ht', hrel, _, hev, hup⟩
  · exact Or.inr ⟨rfl, rfl, rfl⟩
  · refine Or.inl ⟨?_, ?_, by rw [hrel.clk]; omega⟩
    · intro x hx
      by_cases e : x.cid = row0.cid
      · have := eq_of_cid hn hx hr e
        subst this
        exact ⟨s'.row, by rw [hrel.rows]; exact (mem_setRow hn hr (hrel.rcid.trans hc.symm) _).mpr (Or.inl rfl), hev⟩
      · exact ⟨x, by rw [hrel.rows]; exact (mem_setRow hn hr (hrel.rcid.trans hc.symm) _).mpr (Or.inr ⟨hx, e⟩), Evolves.refl x⟩
    · intro c hcl
      by_cases e : c = cid
      · subst e
        rcases hup (by rw [← hrel.up]; simpa using hcl) with h | h
        · exact Or.inl (by simpa using h)
        · exact Or.inr ⟨s'.row, by rw [hrel.rows]; exact (mem_setRow hn hr (hrel.rcid.trans hc.symm) _).mpr (Or.inl rfl),
            hrel.rcid, by rw [hrel.clk]; exact h⟩
      · exact Or.inl ((hrel.links c e).mp hcl)

/-- In a clean step connections evolve, and links are only set up for connections that are to be up. -/
theorem Reach.evolves {cfg : Cfg} {w : World} (h : Reach cfg w) (o : Oracle) (e : Ev)
    (hc : CleanStep e (Backend.step cfg w o e).1 (Backend.step cfg w o e).2) :
    (∀ x ∈ w.rows, ∃ y ∈ (Backend.step cfg w o e).1.rows, Evolves x y) ∧
    (∀ c ∈ (Backend.step cfg w o e).1.links, c ∈ w.links ∨
      ∃ x ∈ (Backend.step cfg w o e).1.rows, x.cid = c ∧ SetUpOk (Backend.step cfg w o e).1.clk x) := by
  have hp := h.post o e hc
  have hn := h.inv.nodup
  have conn : ∀ {cid : Str} {r' : Except Err Unit} {P : Row → S → S → Except Err Unit → Prop} {w' : World},
      ConnPost cid (w.with o) w' r' P → (∀ x ∈ w.rows, ∃ y ∈ w'.rows, Evolves x y) ∧
      (∀ c ∈ w'.links, c ∈ w.links ∨ ∃ x ∈ w'.rows, x.cid = c ∧ SetUpOk w'.clk x) := by
    intro cid r' P w' hcp
    rcases hcp.evolves hn with ⟨h1, h2, _⟩ | ⟨h1, h2, _⟩
    · exact ⟨h1, h2⟩
    · rw [h1, h2]; exact ⟨fun x hx => ⟨x, hx, Evolves.refl x⟩, fun c hc => Or.inl hc⟩
  revert hp
  generalize hs : Backend.step cfg w o e = res
  obtain ⟨w', r⟩ := res
  simp only
  intro hp
  cases e with
  | req hd q =>
    cases q with
    | reserve cid? src dst st en =>
      rcases hp with ⟨_, _, h1, _, h2, _⟩ | ⟨cid, row, _, ha⟩
      · rw [h1, h2]; exact ⟨fun x hx => ⟨x, hx, Evolves.refl x⟩, fun c hc => Or.inl hc⟩
      · refine ⟨fun x hx => ⟨x, by rw [ha.rows]; exact List.mem_append_left _ hx, Evolves.refl x⟩, fun c hcl => Or.inl ?_⟩
        rcases ha.links c hcl with h1 | h1
        · exact h1
        · subst h1; exact ha.up.mp hcl
    | commit cid => obtain ⟨r', _, h1⟩ := hp; exact conn h1
    | abort cid => obtain ⟨r', _, h1⟩ := hp; exact conn h1
    | provision cid => obtain ⟨r', _, h1⟩ := hp; exact conn h1
    | release cid => obtain ⟨r', _, h1⟩ := hp; exact conn h1
    | terminate cid => obtain ⟨r', _, h1⟩ := hp; exact conn h1
  | fire cid =>
    rcases hp with ⟨_, e⟩ | ⟨tm, r', _, htm, _, _, row0, hr, hcid, s', hrel, _, _, _, hev, hup⟩
    · subst e; exact ⟨fun x hx => ⟨x, hx, Evolves.refl x⟩, fun c hc => Or.inl hc⟩
    · refine ⟨?_, ?_⟩
      · intro x hx
        by_cases e : x.cid = row0.cid
        · have := eq_of_cid hn hx hr e
          subst this
          exact ⟨s'.row, by rw [hrel.rows]; exact (mem_setRow hn hr (hrel.rcid.trans hcid.symm) _).mpr (Or.inl rfl), hev⟩
        · exact ⟨x, by rw [hrel.rows]; exact (mem_setRow hn hr (hrel.rcid.trans hcid.symm) _).mpr (Or.inr ⟨hx, e⟩), Evolves.refl x⟩
      · intro c hcl
        by_cases e : c = cid
        · subst e
          rcases hup (by rw [← hrel.up]; simpa using hcl) with h | h
          · exact Or.inl (by simpa using h)
          · exact Or.inr ⟨s'.row, by rw [hrel.rows]; exact (mem_setRow hn hr (hrel.rcid.trans hcid.symm) _).mpr (Or.inl rfl),
              hrel.rcid, by rw [hrel.clk]; exact h⟩
        · exact Or.inl ((hrel.links c e).mp hcl)
  | wait us => obtain ⟨_, e⟩ := hp; subst e; exact ⟨fun x hx => ⟨x, hx, Evolves.refl x⟩, fun c hc => Or.inl hc⟩
  | restart => exact ⟨hp.ev, hp.up⟩

theorem Hist.evolves {cfg : Cfg} {w w' : World} (h : Reach cfg w) (k : Hist cfg w w') : ∀ x ∈ w.rows, ∃ y ∈ w'.rows, Evolves x y := by
  induction k with
  | refl => exact fun x hx => ⟨x, hx, Evolves.refl x⟩
  | step o e hk hc ih =>
    intro x hx
    obtain ⟨y, hy, h1⟩ := ih x hx
    obtain ⟨z, hz, h2⟩ := ((h.hist hk).evolves o e hc).1 y hy
    exact ⟨z, hz, h1.trans h2⟩

/-- The row of that id, after a history. -/
theorem Hist.row {cfg : Cfg} {w w' : World} (h : Reach cfg w) (k : Hist cfg w w') {x y : Row} (hx : x ∈ w.rows) (hy : y ∈ w'.rows)
    (hc : y.cid = x.cid) : Evolves x y := by
  obtain ⟨z, hz, he⟩ := k.evolves h x hx
  have := eq_of_cid (h.hist k).inv.nodup hz hy (he.same.1.trans hc.symm)
  subst this
  exact he

theorem Reach.clk_le {cfg : Cfg} {w : World} (h : Reach cfg w) (o : Oracle) (e : Ev)
    (hc : CleanStep e (Backend.step cfg w o e).1 (Backend.step cfg w o e).2) : w.clk ≤ (Backend.step cfg w o e).1.clk := by
  have hp := h.post o e hc
  have hn := h.inv.nodup
  revert hp
  generalize Backend.step cfg w o e = res
  obtain ⟨w', r⟩ := res
  simp only
  intro hp
  have conn : ∀ {cid : Str} {r' : Except Err Unit} {P : Row → S → S → Except Err Unit → Prop}, ConnPost cid (w.with o) w' r' P → w.clk ≤ w'.clk := by
    intro cid r' P hcp
    rcases hcp with ⟨_, _, t, o', ht, e⟩ | ⟨row0, _, _, t, o', s', h1, h2, hrel, _⟩
    · subst e; exact ht
    · rw [hrel.clk]; simp only at h1; omega
  cases e with
  | req hd q =>
    cases q with
    | reserve cid? src dst st en =>
      rcases hp with ⟨_, _, _, _, _, _, h1⟩ | ⟨cid, row, _, ha⟩
      · exact h1
      · obtain ⟨t0, t1, t2, _, _, _, h1, h2, h3, h4, _⟩ := ha.alloc
        simp only at h1; omega
    | commit cid => obtain ⟨r', _, h1⟩ := hp; exact conn h1
    | abort cid => obtain ⟨r', _, h1⟩ := hp; exact conn h1
    | provision cid => obtain ⟨r', _, h1⟩ := hp; exact conn h1
    | release cid => obtain ⟨r', _, h1⟩ := hp; exact conn h1
    | terminate cid => obtain ⟨r', _, h1⟩ := hp; exact conn h1
  | fire cid =>
    rcases hp with ⟨_, e⟩ | ⟨tm, r', _, htm, _, _, row0, hr, hcid, s', hrel, _, h1, _⟩
    · subst e; exact Int.le_refl _
    · rw [hrel.clk]; exact h1
  | wait us => obtain ⟨_, e⟩ := hp; subst e; simp only; omega
  | restart => exact hp.clk

/-! ### Requests on a stored connection -/

theorem ConnPost.found {α : Type} {cid : Str} {w w' : World} {r : Except Err α} {P : Row → S → S → Except Err α → Prop}
    (hn : (w.rows.map (·.cid)).Nodup) {x : Row} (hx : x ∈ w.rows) (hc : x.cid = cid) (h : ConnPost cid w w' r P) :
    ∃ t o s', w.clk ≤ t ∧ t ≤ s'.clk ∧ Rel (w.looked x t o) cid w.heap.length w' s' ∧ P x ((w.looked x t o).view x) s' r := by
  rcases h with ⟨h1, _⟩ | ⟨row0, hr, hc', t, o, s', ht, ht', hrel, hp, _⟩
  · exact absurd hc (h1 x hx)
  · have := eq_of_cid hn hr hx (hc'.trans hc.symm)
    subst this
    exact ⟨t, o, s', ht, ht', hrel, hp⟩

/-- The row of the connection after the request. -/
theorem Rel.row_mem {w w' : World} {cid : Str} {ref : Nat} {s' : S} (h : Rel w cid ref w' s') (hn : (w.rows.map (·.cid)).Nodup)
    {x : Row} (hx : x ∈ w.rows) (hc : x.cid = cid) : s'.row ∈ w'.rows := by
  rw [h.rows]; exact (mem_setRow hn hx (h.rcid.trans hc.symm) _).mpr (Or.inl rfl)

theorem Refused.unchanged {w w' : World} {cid : Str} {x : Row} {t : Time} {o : Oracle} {s' : S} {r : Except Err Unit} {why : Err → Prop}
    (hn : (w.rows.map (·.cid)).Nodup) (hx : x ∈ w.rows) (hc : x.cid = cid)
    (hrel : Rel (w.looked x t o) cid w.heap.length w' s') (h : Refused ((w.looked x t o).view x) s' r why) :
    Unchanged w w' ∧ ∃ e, r = .error e ∧ why e := by
  obtain ⟨h1, h2, h3, h4, h5, h6⟩ := h
  subst hc
  refine ⟨⟨?_, ?_, ?_, ?_, ?_⟩, h6⟩
  · rw [hrel.rows, h1]; exact setRow_self hn hx
  · rw [hrel.cal, h2]
  · rw [hrel.out, h5]; simp
  · intro c
    by_cases e : c = x.cid
    · subst e
      have := hrel.up
      rw [h4] at this
      simpa [World.up] using this
    · exact hrel.links c e
  · intro c
    unfold World.pending
    by_cases e : c = x.cid
    · subst e
      rw [hrel.tm, h3]
    · rw [hrel.tbl c e]

/-- The calendar loses exactly the entries of a connection that lets go of them. -/
theorem Reach.freed {cfg : Cfg} {w w' : World} {cid : Str} {ref : Nat} {s' : S} {x : Row} (h : Reach cfg w) (h' : Reach cfg w')
    (hx : x ∈ w.rows) (hc : x.cid = cid) {w1 : World} (hw1 : w1.rows = w.rows) (hrel : Rel w1 cid ref w' s') (hh : x.holds = true)
    (hf : s'.row.holds = false) : w.cal.Perm (srcResv cfg x :: dstResv cfg x :: w'.cal) := by
  subst hc
  have k1 := h.inv.cal.trans (flatMap_split cfg allLoaded h.inv.nodup hx)
  have hn1 : (w1.rows.map (·.cid)).Nodup := by rw [hw1]; exact h.inv.nodup
  have hx1 : x ∈ w1.rows := by rw [hw1]; exact hx
  have k2 := h'.inv.cal.trans (flatMap_split cfg allLoaded h'.inv.nodup (hrel.row_mem hn1 hx1 rfl))
  rw [show ldEnts cfg (allLoaded s'.row.cid) s'.row = [] by simp [ldEnts, ents_free hf], List.nil_append] at k2
  rw [show ldEnts cfg (allLoaded x.cid) x = [srcResv cfg x, dstResv cfg x] by simp [ldEnts, ents_holds hh]] at k1
  refine k1.trans ?_
  have e : restEnts cfg allLoaded w'.rows s'.row.cid = restEnts cfg allLoaded w.rows x.cid := by
    rw [hrel.rows, hw1]
    exact restEnts_setRow cfg allLoaded allLoaded h.inv.nodup hx hrel.rcid (fun _ _ => rfl)
  rw [e] at k2
  exact List.Perm.append_left [_, _] k2.symm

/-- A row that is held now was held before. -/
theorem held_before {clk : Time} {x y : Row} (h : RowOk clk y) (he : Evolves x y) (hl : y.st.l = .created) (hr : y.st.r = .held) :
    x.st.l = .created ∧ x.st.r = .held ∧ x.allocated = false := by
  have hal : y.allocated = false := by
    rcases h.rs with e | e | e
    · rw [e] at hr; exact absurd hr (by simp)
    · exact e.2
    · exact e.2.2
  have hxal : x.allocated = false := by
    cases hx : x.allocated with
    | false => rfl
    | true => rw [he.kept hx] at hal; exact absurd hal (by simp)
  refine ⟨Decidable.byContradiction fun hx => he.left hx hl, Decidable.byContradiction fun hx => ?_, hxal⟩
  exact (he.dropped hx hxal).1 hr

/-- The call of a connection that is and stays held is not touched, except by a restart, which schedules it again. -/
theorem Reach.held_timer {cfg : Cfg} {w : World} (h : Reach cfg w) (o : Oracle) (e : Ev)
    (hc : CleanStep e (Backend.step cfg w o e).1 (Backend.step cfg w o e).2) {x y : Row} (hx : x ∈ w.rows)
    (hy : y ∈ (Backend.step cfg w o e).1.rows) (hxy : y.cid = x.cid) (hl : y.st.l = .created) (hr : y.st.r = .held) :
    dget (Backend.step cfg w o e).1.tbl x.cid = dget w.tbl x.cid ∨
    TimerFor (Backend.step cfg w o e).1.clk y (dget (Backend.step cfg w o e).1.tbl x.cid) (Backend.step cfg w o e).1.outbox := by
  have hk : Hist cfg w (Backend.step cfg w o e).1 := .step o e .refl hc
  have hr' := h.hist hk
  have hev := hk.row h hx hy hxy
  obtain ⟨xl, xr, xa⟩ := held_before (hr'.inv.conn y hy).row hev hl hr
  have hn := h.inv.nodup
  have hn' := hr'.inv.nodup
  have hp := h.post o e hc
  have xok := (h.inv.conn x hx).row
  revert hp hn' hy hr'
  generalize Backend.step cfg w o e = res
  obtain ⟨w', r⟩ := res
  simp only
  intro hy hr' hn' hp
  have conn : ∀ {cid : Str} {r' : Except Err Unit} {P : Row → S → S → Except Err Unit → Prop},
      ConnPost cid (w.with o) w' r' P →
      (∀ t o s s', s = (w.with o).looked x t o → P x (s.view x) s' r' → s'.tm = (s.view x).tm ∨ ¬ (s'.row.st.l = .created ∧ s'.row.st.r = .held)) →
      dget w'.tbl x.cid = dget w.tbl x.cid := by
    intro cid r' P hcp hPP
    by_cases hcid : x.cid = cid
    · obtain ⟨t, o', s', _, _, hrel, hpp⟩ := hcp.found hn hx hcid
      rcases hPP t o' _ s' rfl hpp with a | a
      · rw [hcid, hrel.tm, a, ← hcid]
      · have : s'.row = y := eq_of_cid hn' (hrel.row_mem hn hx hcid) hy (by rw [hrel.rcid, hxy, hcid])
        rw [this] at a
        exact absurd ⟨hl, hr⟩ a
    · rcases hcp with ⟨_, _, t, o', _, e⟩ | ⟨row0, _, _, t, o', s', _, _, hrel, _⟩
      · subst e; rfl
      · exact hrel.tbl _ hcid
  have noP : x.st.p = .released := Decidable.byContradiction fun hp => by
    rw [xok.pv hp] at xa; exact absurd xa (by simp)
  cases e with
  | req hd q =>
    cases q with
    | reserve cid? src dst st en =>
      rcases hp with ⟨_, _, _, _, _, h1, _⟩ | ⟨cid, row, _, ha⟩
      · left; rw [h1]
      · left
        apply ha.tbl
        intro e
        have := ha.fresh
        rw [← e] at this
        exact (idTaken_false this).1 x hx rfl
    | commit cid =>
      obtain ⟨r', _, h1⟩ := hp
      refine Or.inl (conn h1 ?_)
      rintro t o' s s' rfl (h2 | ⟨_, _, h2, _⟩)
      · exact Or.inl h2.2.2.1
      · right; rw [h2]; rintro ⟨_, a⟩; exact absurd a (by simp [Row.committed])
    | abort cid =>
      obtain ⟨r', _, h1⟩ := hp
      refine Or.inl (conn h1 ?_)
      rintro t o' s s' rfl (h2 | ⟨_, h2, _⟩ | h2)
      · exact Or.inl h2.2.2.1
      · exact absurd xr h2
      · exact Or.inr fun a => h2.2.2.2.2.2.2 a.2
    | provision cid =>
      obtain ⟨r', _, h1⟩ := hp
      refine Or.inl (conn h1 ?_)
      rintro t o' s s' rfl (h2 | ⟨now, _, _, h2, _⟩)
      · exact Or.inl h2.2.2.1
      · have := h2.alloc; rw [xa] at this; exact absurd this (by simp)
    | release cid =>
      obtain ⟨r', _, h1⟩ := hp
      refine Or.inl (conn h1 ?_)
      rintro t o' s s' rfl (h2 | ⟨_, h2, _⟩)
      · exact Or.inl h2.2.2.1
      · rw [noP] at h2; rcases h2 with h2 | h2 <;> exact absurd h2 (by simp)
    | terminate cid =>
      obtain ⟨r', _, h1⟩ := hp
      refine Or.inl (conn h1 ?_)
      rintro t o' s s' rfl (h2 | ⟨_, _, h2, _⟩)
      · exact Or.inl h2.2.2.1
      · right; rw [h2]; rintro ⟨a, _⟩; exact absurd a (by simp)
  | fire cid =>
    left
    rcases hp with ⟨_, e⟩ | ⟨tm, r', _, htm, _, _, row0, hr0, hcid, s', hrel, hfp, _, hok, _, _⟩
    · subst e; rfl
    · by_cases hcc : x.cid = cid
      · have := eq_of_cid hn hr0 hx (hcid.trans hcc.symm)
        subst this
        have hsy : s'.row = y := eq_of_cid hn' (hrel.row_mem hn hx hcid) hy (by rw [hrel.rcid, hxy, hcid])
        unfold FirePost at hfp
        unfold TimerOk at hok
        split at hfp
        · rw [hsy] at hfp; rw [hfp.2.1] at hr; exact absurd hr (by simp)
        · rename_i ha; rw [ha] at hok; rw [hok.1] at xr; exact absurd xr (by simp)
        · rename_i ha; rw [ha] at hok; rw [hok.1] at xr; exact absurd xr (by simp)
      · exact hrel.tbl _ hcc
  | wait us => obtain ⟨_, e⟩ := hp; subst e; left; rfl
  | restart =>
    rcases hp.resumed y hy with ⟨a, _⟩ | ⟨x0, h1, h2, h3, _⟩
    · right; rw [← hxy]; exact a
    · have := eq_of_cid hn h1 hx (h2.trans hxy)
      subst this
      exact absurd xr h3

end OpenNSA.Backend
