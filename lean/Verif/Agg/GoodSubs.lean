import Verif.Agg.Good
/- Look-up of all segments of a connection; updates of rows through cached objects. -/
namespace OpenNSA.Agg
open OpenNSA Py Coro

/-- Provider and id of a segment. -/
def SRow.pc (s : SRow) : Str × Str := (s.prov, s.cid)

theorem lookupSubs_run (w : World) : ∀ L : List SRow,
    (lookupSubs (L.map SRow.pc)).run machine w = (w, .ok (L.map fun s => dget w.scache s.cid))
  | [] => rfl
  | s :: L => by
    simp only [List.map_cons, lookupSubs, run_bind', run_issue, machine_exec, exec_cachedS, andThen_ok, lookupSubs_run w L, run_pure]
    rfl

/-- Segments to be returned, with the cached objects `cs` and the objects found `fs`. -/
inductive Pend (v : World) : List SRow → List (Option Nat) → List (Option Nat) → Prop
  | nil : Pend v [] [] []
  | hit {s L r cs fs} (h : LiveS v r s) (t : Pend v L cs fs) : Pend v (s :: L) (some r :: cs) fs
  | miss {s L r cs fs} (hm : s ∈ v.subs) (ho : v.sheap[r]? = some ⟨s, false⟩) (hn : dget v.scache s.cid = none) (t : Pend v L cs fs) :
      Pend v (s :: L) (none :: cs) (some r :: fs)

theorem good_sheap {w : World} (hg : Good w) (ext : List (Obj SRow)) :
    Look w { w with sheap := w.sheap ++ ext } ∧ Good { w with sheap := w.sheap ++ ext } := by
  refine ⟨⟨by constructor <;> rfl, rfl, fun _ _ h => ⟨h.obj, h.mem, h.cached⟩, fun _ _ h => ⟨getElem?_append_of h.obj, h.mem, h.cached⟩⟩, ?_⟩
  refine ⟨hg.ckeys, hg.ckeyb, hg.ccids, hg.skeys, hg.skeyb, hg.scids, hg.ccache, ?_, hg.sfk, hg.rfk, hg.qfk⟩
  intro cid ref h
  obtain ⟨r, h1, h2, h3⟩ := hg.scache _ _ h
  exact ⟨r, getElem?_append_of h1, h2, h3⟩

theorem findMissing_run : ∀ (L : List SRow) (w : World), Good w → (∀ s ∈ L, s ∈ w.subs) →
    ∃ (ext : List (Obj SRow)) (fs : List (Option Nat)),
      w.findSubs (missingSubs (L.map SRow.pc) (L.map fun s => dget w.scache s.cid)) = ({ w with sheap := w.sheap ++ ext }, fs) ∧
      Pend { w with sheap := w.sheap ++ ext } L (L.map fun s => dget w.scache s.cid) fs
  | [], w, _, _ => ⟨[], [], by simp [missingSubs, World.findSubs], .nil⟩
  | s :: L, w, hg, hm => by
    have hs : s ∈ w.subs := hm s (by simp)
    cases hc : dget w.scache s.cid with
    | some r =>
      obtain ⟨ext, fs, h1, h2⟩ := findMissing_run L w hg fun x hx => hm x (by simp [hx])
      refine ⟨ext, fs, ?_, ?_⟩
      · simpa [missingSubs, hc] using h1
      · simp only [List.map_cons, hc]
        refine .hit ?_ h2
        obtain ⟨row', hobj, hmem, hcid⟩ := hg.scache _ _ hc
        have : row' = s := nodup_map_inj hg.scids hmem hs hcid
        subst this
        exact ⟨getElem?_append_of hobj, hs, hc⟩
    | none =>
      have hg1 := (good_sheap hg [⟨s, false⟩]).2
      obtain ⟨ext, fs, h1, h2⟩ := findMissing_run L _ hg1 fun x hx => hm x (by simp [hx])
      refine ⟨⟨s, false⟩ :: ext, some w.sheap.length :: fs, ?_, ?_⟩
      · simp only [List.map_cons, hc, missingSubs, World.findSubs]
        rw [show SRow.pc s = (s.prov, s.cid) from rfl, findSub_hit hg hs]
        simp only [h1]
        simp
      · simp only [List.map_cons, hc]
        have h2' : Pend { w with sheap := w.sheap ++ ⟨s, false⟩ :: ext } L (L.map fun s => dget w.scache s.cid) fs := by
          have : w.sheap ++ ⟨s, false⟩ :: ext = w.sheap ++ [⟨s, false⟩] ++ ext := by simp
          rw [this]; exact h2
        exact .miss hs (by simp) hc h2'

theorem good_scache {v : World} (hg : Good v) {s : SRow} {r : Nat} (hm : s ∈ v.subs) (ho : v.sheap[r]? = some ⟨s, false⟩)
    (hn : dget v.scache s.cid = none) : Look v { v with scache := dset v.scache s.cid r } ∧
      Good { v with scache := dset v.scache s.cid r } ∧ LiveS { v with scache := dset v.scache s.cid r } r s := by
  refine ⟨⟨by constructor <;> rfl, rfl, fun _ _ h => ⟨h.obj, h.mem, h.cached⟩, ?_⟩, ?_, ?_⟩
  · intro ref x h
    refine ⟨h.obj, h.mem, ?_⟩
    show dget (dset v.scache s.cid _) x.cid = some ref
    rw [dget_dset]
    split
    · rename_i he
      have := h.cached; rw [← he, hn] at this; cases this
    · exact h.cached
  · refine ⟨hg.ckeys, hg.ckeyb, hg.ccids, hg.skeys, hg.skeyb, hg.scids, hg.ccache, ?_, hg.sfk, hg.rfk, hg.qfk⟩
    intro cid ref h
    change dget (dset v.scache s.cid r) cid = some ref at h
    rw [dget_dset] at h
    split at h
    · rename_i he
      simp only [Option.some.injEq] at h
      exact ⟨s, h ▸ ho, hm, he⟩
    · exact hg.scache _ _ h
  · refine ⟨ho, hm, ?_⟩
    show dget (dset v.scache s.cid _) s.cid = _
    rw [dget_dset, if_pos rfl]

theorem Pend.cache {v : World} {s : SRow} {r : Nat} (hn : dget v.scache s.cid = none) : ∀ {L : List SRow} {cs fs : List (Option Nat)},
    Pend v L cs fs → s.cid ∉ L.map (·.cid) → Pend { v with scache := dset v.scache s.cid r } L cs fs
  | _, _, _, .nil, _ => .nil
  | _, _, _, .hit (s := x) h t, hs => by
    have hne : s.cid ≠ x.cid := fun he => hs (by simp [he])
    refine .hit ⟨h.obj, h.mem, ?_⟩ (Pend.cache hn t fun hx => hs (by simp at hx ⊢; exact Or.inr hx))
    show dget (dset v.scache s.cid r) x.cid = _
    rw [dget_dset, if_neg hne]
    exact h.cached
  | _, _, _, .miss (s := x) hm ho hx t, hs => by
    have hne : s.cid ≠ x.cid := fun he => hs (by simp [he])
    refine .miss hm ho ?_ (Pend.cache hn t fun hx => hs (by simp at hx ⊢; exact Or.inr hx))
    show dget (dset v.scache s.cid r) x.cid = _
    rw [dget_dset, if_neg hne]
    exact hx

theorem mergeSubs_run : ∀ (L : List SRow) (cs fs : List (Option Nat)) (v : World), Good v → (L.map (·.cid)).Nodup → Pend v L cs fs →
    ∃ v' refs, (mergeSubs (L.map SRow.pc) cs fs).run machine v = (v', .ok refs) ∧ Look v v' ∧ Good v' ∧ List.Forall₂ (LiveS v') refs L
  | [], _, _, v, hg, _, .nil => ⟨v, [], rfl, .rfl, hg, .nil⟩
  | s :: L, some r :: cs, fs, v, hg, hn, .hit h t => by
    obtain ⟨v', refs, h1, h2, h3, h4⟩ := mergeSubs_run L cs fs v hg (by simp at hn; exact hn.2) t
    refine ⟨v', r :: refs, ?_, h2, h3, .cons (h2.s _ _ h) h4⟩
    simp only [List.map_cons, mergeSubs, run_bind', h1, andThen_ok, run_pure]
  | s :: L, none :: cs, some r :: fs, v, hg, hn, .miss hm ho hx t => by
    rw [List.map_cons, List.nodup_cons] at hn
    have hc := good_scache hg hm ho hx
    obtain ⟨v', refs, h1, h2, h3, h4⟩ := mergeSubs_run L cs fs _ hc.2.1 hn.2 (t.cache hx hn.1)
    refine ⟨v', r :: refs, ?_, hc.1.trans h2, h3, .cons (h2.s _ _ hc.2.2) h4⟩
    simp only [List.map_cons, mergeSubs, run_bind', run_issue, machine_exec, exec_cacheS, andThen_ok, SRow.pc] at h1 ⊢
    rw [h1]
    rfl

/-- The segments of a connection, as stored. -/
def World.segments (w : World) (key : Nat) : List SRow := w.subs.filter fun s => s.skey = key

theorem getSubConnections_run {w : World} (hg : Good w) (key : Nat) :
    ∃ w' refs, (getSubConnections key).run machine w = (w', .ok refs) ∧ Look w w' ∧ Good w' ∧ List.Forall₂ (LiveS w') refs (w.segments key) := by
  have hmem : ∀ s ∈ w.segments key, s ∈ w.subs := fun s hs => (List.mem_filter.mp hs).1
  have hnod : ((w.segments key).map (·.cid)).Nodup := hg.scids.sublist (List.filter_sublist.map _)
  obtain ⟨ext, fs, h1, h2⟩ := findMissing_run (w.segments key) w hg hmem
  obtain ⟨hl, hg1⟩ := good_sheap hg ext
  obtain ⟨w', refs, h3, h4, h5, h6⟩ := mergeSubs_run _ _ _ _ hg1 hnod h2
  refine ⟨w', refs, ?_, hl.trans h4, h5, h6⟩
  have hsel : exec w (.selectSubs key) = (w, .ok ((w.segments key).map SRow.pc)) := rfl
  simp only [getSubConnections, run_bind', run_issue, machine_exec, hsel, andThen_ok, lookupSubs_run]
  have hfm : (findMissing (missingSubs ((w.segments key).map SRow.pc) ((w.segments key).map fun s => dget w.scache s.cid))).run machine w
      = ({ w with sheap := w.sheap ++ ext }, .ok fs) := by
    unfold findMissing
    split
    · rename_i hnil
      rw [hnil] at h1
      simp only [World.findSubs, Prod.mk.injEq] at h1
      simp only [run_pure]
      rw [← h1.1, ← h1.2]
    · simp only [run_issue, machine_exec, exec_findSubs, h1]
  simp only [hfm, andThen_ok]
  exact h3

theorem getSs_run {w : World} : ∀ {refs : List Nat} {L : List SRow}, List.Forall₂ (LiveS w) refs L →
    (getSs refs).run machine w = (w, .ok L)
  | _, _, .nil => rfl
  | _, _, .cons h t => by
    simp only [getSs, run_bind', run_issue, machine_exec, exec_getS h.obj, andThen_ok, getSs_run t, run_pure]

theorem family_run {w : World} (hg : Good w) {row : CRow} (hr : row ∈ w.conns) :
    ∃ ref refs w', (family row.key).run machine w = (w', .ok (ref, refs)) ∧ Look w w' ∧ Good w' ∧ LiveC w' ref row ∧
      List.Forall₂ (LiveS w') refs (w.segments row.key) := by
  obtain ⟨ref, w1, h1, l1, g1, c1⟩ := getConnectionByKey_hit hg hr
  obtain ⟨w2, refs, h2, l2, g2, s2⟩ := getSubConnections_run g1 row.key
  refine ⟨ref, refs, w2, ?_, l1.trans l2, g2, l2.c _ _ c1, ?_⟩
  · simp only [family, run_bind', h1, andThen_ok, run_issue, machine_exec, exec_getC c1.obj, h2, run_pure]
  · rw [World.segments, l1.same.subs] at s2; exact s2

/-! ### Updates -/

theorem mem_setCRow {rows : List CRow} {row row' : CRow} (hk : (rows.map (·.key)).Nodup) (hr : row ∈ rows) (he : row'.key = row.key) (x : CRow) :
    x ∈ setCRow rows row' ↔ x = row' ∨ (x ∈ rows ∧ x ≠ row) := by
  unfold setCRow
  rw [List.mem_map]
  constructor
  · rintro ⟨y, hy, rfl⟩
    split
    · exact Or.inl rfl
    · rename_i hne
      exact Or.inr ⟨hy, fun h => hne (by rw [h, he])⟩
  · rintro (rfl | ⟨hx, hne⟩)
    · exact ⟨row, hr, by simp [he]⟩
    · refine ⟨x, hx, if_neg ?_⟩
      intro hk'
      exact hne (nodup_map_inj hk hx hr (hk'.trans he))

theorem map_setCRow {β : Type} (f : CRow → β) {rows : List CRow} {row row' : CRow} (hk : (rows.map (·.key)).Nodup) (hr : row ∈ rows)
    (he : row'.key = row.key) (hf : f row' = f row) : (setCRow rows row').map f = rows.map f := by
  unfold setCRow
  rw [List.map_map]
  refine List.map_congr_left fun x hx => ?_
  simp only [Function.comp]
  split
  · rename_i hxk
    rw [hf, nodup_map_inj hk hx hr (hxk.trans he)]
  · rfl

theorem mem_setSRow {rows : List SRow} {row row' : SRow} (hk : (rows.map (·.key)).Nodup) (hr : row ∈ rows) (he : row'.key = row.key) (x : SRow) :
    x ∈ setSRow rows row' ↔ x = row' ∨ (x ∈ rows ∧ x ≠ row) := by
  unfold setSRow
  rw [List.mem_map]
  constructor
  · rintro ⟨y, hy, rfl⟩
    split
    · exact Or.inl rfl
    · rename_i hne
      exact Or.inr ⟨hy, fun h => hne (by rw [h, he])⟩
  · rintro (rfl | ⟨hx, hne⟩)
    · exact ⟨row, hr, by simp [he]⟩
    · refine ⟨x, hx, if_neg ?_⟩
      intro hk'
      exact hne (nodup_map_inj hk hx hr (hk'.trans he))

theorem map_setSRow {β : Type} (f : SRow → β) {rows : List SRow} {row row' : SRow} (hk : (rows.map (·.key)).Nodup) (hr : row ∈ rows)
    (he : row'.key = row.key) (hf : f row' = f row) : (setSRow rows row').map f = rows.map f := by
  unfold setSRow
  rw [List.map_map]
  refine List.map_congr_left fun x hx => ?_
  simp only [Function.comp]
  split
  · rename_i hxk
    rw [hf, nodup_map_inj hk hx hr (hxk.trans he)]
  · rfl

/-- Assign and save a connection object. -/
def updC (w : World) (ref : Nat) (row' : CRow) : World :=
  { w with cheap := w.cheap.set ref ⟨row', false⟩, conns := setCRow w.conns row' }
/-- Assign and save a segment object. -/
def updS (w : World) (ref : Nat) (row' : SRow) : World :=
  { w with sheap := w.sheap.set ref ⟨row', false⟩, subs := setSRow w.subs row' }

theorem updC_good {w : World} (hg : Good w) {ref : Nat} {row row' : CRow} (hl : LiveC w ref row) (hk : row'.key = row.key)
    (hc : row'.cid = row.cid) :
    Good (updC w ref row') ∧ LiveC (updC w ref row') ref row' ∧ ∀ r s, LiveS w r s → LiveS (updC w ref row') r s := by
  have hm := mem_setCRow hg.ckeys hl.mem hk
  have hlt := lt_of_getElem? hl.obj
  have hkeys : ∀ k, (∃ r ∈ w.conns, r.key = k) → ∃ r ∈ setCRow w.conns row', r.key = k := by
    rintro k ⟨r, h1, h2⟩
    by_cases he : r = row
    · exact ⟨row', (hm row').mpr (Or.inl rfl), by rw [hk, ← he, h2]⟩
    · exact ⟨r, (hm r).mpr (Or.inr ⟨h1, he⟩), h2⟩
  have hobj : ∀ (ref' : Nat) (r : CRow), w.cheap[ref']? = some ⟨r, false⟩ → r ∈ w.conns → dget w.ccache r.cid = some ref' →
      ∃ r', (updC w ref row').cheap[ref']? = some ⟨r', false⟩ ∧ r' ∈ (updC w ref row').conns ∧ r'.cid = r.cid := by
    intro ref' r h1 h2 h3
    by_cases he : r = row
    · subst he
      rw [hl.cached] at h3
      cases h3
      exact ⟨row', by simp [updC, hlt], (hm row').mpr (Or.inl rfl), hc⟩
    · have hne : ref' ≠ ref := by
        rintro rfl
        rw [hl.obj] at h1
        cases h1
        exact he rfl
      exact ⟨r, by simp only [updC]; rw [List.getElem?_set_ne hne.symm]; exact h1, (hm r).mpr (Or.inr ⟨h2, he⟩), rfl⟩
  refine ⟨⟨?_, ?_, ?_, hg.skeys, hg.skeyb, hg.scids, ?_, hg.scache, ?_, ?_, ?_⟩, ⟨?_, ?_, ?_⟩, fun r s h => ⟨h.obj, h.mem, h.cached⟩⟩
  · show ((setCRow w.conns row').map (·.key)).Nodup
    rw [map_setCRow (·.key) hg.ckeys hl.mem hk hk]; exact hg.ckeys
  · intro r hr
    rcases (hm r).mp hr with rfl | ⟨h, _⟩
    · rw [hk]; exact hg.ckeyb _ hl.mem
    · exact hg.ckeyb _ h
  · show ((setCRow w.conns row').map (·.cid)).Nodup
    rw [map_setCRow (·.cid) hg.ckeys hl.mem hk hc]; exact hg.ccids
  · intro cid ref' h
    obtain ⟨r, h1, h2, h3⟩ := hg.ccache _ _ h
    obtain ⟨r', h4, h5, h6⟩ := hobj ref' r h1 h2 (h3 ▸ h)
    exact ⟨r', h4, h5, h6.trans h3⟩
  · exact fun s hs => hkeys _ (hg.sfk s hs)
  · exact fun e he => hkeys _ (hg.rfk e he)
  · intro e he
    obtain ⟨r, h1, h2, h3⟩ := hg.qfk e he
    obtain ⟨r', h4, h5, h6⟩ := hobj _ r h1 h2 h3
    exact ⟨r', h4, h5, h6 ▸ h3⟩
  · simp [updC, hlt]
  · exact (hm row').mpr (Or.inl rfl)
  · show dget w.ccache row'.cid = _
    rw [hc]; exact hl.cached

theorem updS_good {w : World} (hg : Good w) {ref : Nat} {row row' : SRow} (hl : LiveS w ref row) (hk : row'.key = row.key)
    (hc : row'.cid = row.cid) (hs : row'.skey = row.skey) :
    Good (updS w ref row') ∧ LiveS (updS w ref row') ref row' ∧ (∀ r c, LiveC w r c → LiveC (updS w ref row') r c) ∧
    ∀ r s, s ≠ row → LiveS w r s → LiveS (updS w ref row') r s := by
  have hm := mem_setSRow hg.skeys hl.mem hk
  have hlt := lt_of_getElem? hl.obj
  refine ⟨⟨hg.ckeys, hg.ckeyb, hg.ccids, ?_, ?_, ?_, hg.ccache, ?_, ?_, hg.rfk, hg.qfk⟩, ⟨?_, ?_, ?_⟩, fun r c h => ⟨h.obj, h.mem, h.cached⟩, ?_⟩
  · show ((setSRow w.subs row').map (·.key)).Nodup
    rw [map_setSRow (·.key) hg.skeys hl.mem hk hk]; exact hg.skeys
  · intro r hr
    rcases (hm r).mp hr with rfl | ⟨h, _⟩
    · rw [hk]; exact hg.skeyb _ hl.mem
    · exact hg.skeyb _ h
  · show ((setSRow w.subs row').map (·.cid)).Nodup
    rw [map_setSRow (·.cid) hg.skeys hl.mem hk hc]; exact hg.scids
  · intro cid ref' h
    change dget w.scache cid = some ref' at h
    obtain ⟨r, h1, h2, h3⟩ := hg.scache _ _ h
    by_cases he : r = row
    · subst he
      rw [← h3, hl.cached] at h
      cases h
      exact ⟨row', by simp [updS, hlt], (hm row').mpr (Or.inl rfl), hc.trans h3⟩
    · have hne : ref' ≠ ref := by
        rintro rfl
        rw [hl.obj] at h1
        cases h1
        exact he rfl
      exact ⟨r, by simp only [updS]; rw [List.getElem?_set_ne hne.symm]; exact h1, (hm r).mpr (Or.inr ⟨h2, he⟩), h3⟩
  · intro s hs'
    rcases (hm s).mp hs' with rfl | ⟨h, _⟩
    · rw [hs]; exact hg.sfk _ hl.mem
    · exact hg.sfk _ h
  · simp [updS, hlt]
  · exact (hm row').mpr (Or.inl rfl)
  · show dget w.scache row'.cid = _
    rw [hc]; exact hl.cached
  · intro r s hne h
    have hne' : r ≠ ref := by
      rintro rfl
      have := h.obj
      rw [hl.obj] at this
      cases this
      exact hne rfl
    exact ⟨by simp only [updS]; rw [List.getElem?_set_ne hne'.symm]; exact h.obj, (hm s).mpr (Or.inr ⟨h.mem, hne⟩), h.cached⟩

theorem setC_saveC_run {w : World} {ref : Nat} {row : CRow} (row' : CRow) (h : w.cheap[ref]? = some ⟨row, false⟩) :
    (do issue (.setC ref row'); issue (.saveC ref) : Prog Unit).run machine w = (updC w ref row', .ok ()) := by
  have hlt := lt_of_getElem? h
  simp only [run_bind', run_issue, machine_exec, exec_setC _ h, andThen_ok, exec_saveC]
  rw [saveC_old (row := row')]
  · rfl
  · simp [hlt]

theorem setS_saveS_run {w : World} {ref : Nat} {row : SRow} (row' : SRow) (h : w.sheap[ref]? = some ⟨row, false⟩) :
    (do issue (.setS ref row'); issue (.saveS ref) : Prog Unit).run machine w = (updS w ref row', .ok ()) := by
  have hlt := lt_of_getElem? h
  simp only [run_bind', run_issue, machine_exec, exec_setS _ h, andThen_ok, exec_saveS]
  rw [saveS_old (row := row')]
  · rfl
  · simp [hlt]

theorem switchC_upd {w : World} {ref : Nat} {row : CRow} (f : ConnStates → Option ConnStates) (h : w.cheap[ref]? = some ⟨row, false⟩) :
    (switchC ref f).run machine w = match f row.st with
      | none => (w, .error .internal)
      | some st => (updC w ref { row with st }, .ok ()) := switchC_run f h
theorem switchS_upd {w : World} {ref : Nat} {row : SRow} (f : ConnStates → Option ConnStates) (h : w.sheap[ref]? = some ⟨row, false⟩) :
    (switchS ref f).run machine w = match f row.st with
      | none => (w, .error .internal)
      | some st => (updS w ref { row with st }, .ok ()) := switchS_run f h

end OpenNSA.Agg
