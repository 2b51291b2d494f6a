import Verif.Agg.PropsHeld
/- C29 in executions handling one message after the other: the labels confirmed to the requester. -/
namespace OpenNSA.Agg
open OpenNSA Py Coro

/-- The source label of a connection is that of its first segment, once that has been confirmed. -/
def Labels (w : World) : Prop := ∀ row ∈ w.conns, ∀ s ∈ w.subs, s.skey = row.key → s.order = 0 → row.src.label = s.src.label

theorem confirmLabels_src (row : CRow) (o n : Nat) (c : Crit) : (o = 0 → (confirmLabels row o n c).src.label = c.src.label) ∧
    (o ≠ 0 → (confirmLabels row o n c).src = row.src) ∧ (o + 1 = n → (confirmLabels row o n c).dst.label = c.dst.label) := by
  unfold confirmLabels
  refine ⟨fun h => ?_, fun h => ?_, fun h => ?_⟩
  · simp only [if_pos h]; split <;> rfl
  · simp only [if_neg h]; split <;> rfl
  · have : (o : Int) = (n : Int) - 1 := by omega
    simp only [if_pos this]

theorem Labels.stored {w w' : World} (hl : Labels w) (hb : Books w) (hg : Good w) {corr : Str} {r : Resv} (hd : dget w.resv corr = some r) {scid : Str} {c : Crit}
    {row row' : CRow} {st : ConnStates} {n : Nat} (hr : row ∈ w.conns) (hk : row.key = r.skey) (hrow : row' = confirmLabels row r.order n c)
    (h1 : w'.subs = w.subs ++ [segRow w r scid c]) (h2 : w'.conns = setCRow w.conns { row' with st }) : Labels w' := by
  obtain ⟨f1, _⟩ := confirmLabels_frame row r.order n c
  obtain ⟨s1, s2, _⟩ := confirmLabels_src row r.order n c
  have hk' : ({ row' with st } : CRow).key = row.key := by rw [hrow]; exact f1
  intro x hx s hs hsk ho
  rw [h2] at hx
  rw [h1] at hs
  rcases (mem_setCRow hg.ckeys hr hk' x).mp hx with rfl | ⟨hx, hne⟩ <;> rcases List.mem_append.mp hs with hs | hs
  · have hsk : s.skey = r.skey := hsk.trans (hk'.trans hk)
    have hro : r.order ≠ 0 := fun h => hb.apart _ (dget_some_mem hd) s hs hsk (ho.trans h.symm)
    show row'.src.label = _
    rw [hrow, s2 hro]
    exact hl row hr s hs (hsk.trans hk.symm) ho
  · rw [List.mem_singleton.mp hs] at ho ⊢
    show row'.src.label = _
    rw [hrow, s1 ho]
    rfl
  · exact hl x hx s hs hsk ho
  · rw [List.mem_singleton.mp hs] at hsk
    exact absurd (nodup_map_inj hg.ckeys hx hr (hsk.symm.trans hk.symm)) hne

theorem eff_labels {cfg : Cfg} {w w' : World} (hg : Good w) (hb : Books w) (hl : Labels w) {r : Except Err (Option Str)} {m : Msg} (he : Eff cfg w w' r m) :
    Labels w' := by
  obtain ⟨outs, old, news, hs⟩ := eff_shape hg he
  have same : Same w w' → Labels w' := by
    intro h x hx s hs
    rw [h.conns] at hx
    rw [h.subs] at hs
    exact hl x hx s hs
  by_cases h1 : ∃ h cid c, m = .reserve h cid c
  · obtain ⟨h, cid, c, rfl⟩ := h1
    cases he with
    | nothing h => exact same h
    | made hkey _ _ _ _ _ _ _ _ _ h =>
      intro x hx s hs hsk ho
      rw [h.conns] at hx
      rw [h.subs] at hs
      rcases List.mem_append.mp hx with hx | hx
      · exact hl x hx s hs hsk ho
      · rw [List.mem_singleton.mp hx, hkey] at hsk
        obtain ⟨r, hr, hrk⟩ := hg.sfk s hs
        have := hg.ckeyb r hr
        omega
  have hrows := hs.rows' (fun h i c hm => h1 ⟨h, i, c, hm⟩)
  have rest : (∀ h i c, m ≠ .reserveConfirmed h i c) → List.Forall₂ SameSeg w.subs w'.subs → Labels w' := by
    intro hm hsub x' hx' s' hs' hsk ho
    obtain ⟨x, hx, hrs⟩ := forall₂_right_exists hrows _ hx'
    obtain ⟨s, hs, hss⟩ := forall₂_right_exists hsub _ hs'
    rcases hrs.ends with ⟨h, i, c, he⟩ | ⟨h, _⟩
    · exact absurd he (hm h i c)
    · rw [h, hss.src]
      exact hl x hx s hs (by rw [← hss.skey, hsk, hrs.key]) (hss.order.symm.trans ho)
  by_cases h2 : ∃ h cid c, m = .reserveConfirmed h cid c
  · obtain ⟨h, cid, c, rfl⟩ := h2
    cases he with
    | unknown _ h => exact same h
    | other _ _ h => exact same h
    | @stored r w1 row row' hd _ hw hr hk hrow _ h =>
      subst hw
      exact hl.stored hb hg hd hr hk hrow h.subs (st := row'.st) h.conns
    | told hd _ hw hr hk hrow _ _ h =>
      subst hw
      exact hl.stored hb hg hd hr hk hrow h.subs h.conns
  by_cases h3 : ∃ h, m = .reserveFailed h
  · obtain ⟨h, rfl⟩ := h3
    refine rest (by simp) ?_
    have : w'.subs = w.subs := by
      cases he with
      | unknown _ h => exact h.subs
      | other _ _ h => exact h.subs
      | late _ _ _ _ _ h => exact h.subs
      | told _ _ _ _ _ h => exact h.subs
    rw [this]
    exact List.forall₂_same.mpr fun _ _ => .rfl' _
  exact rest (fun h i c hm => h2 ⟨h, i, c, hm⟩)
    (eff_calm hg he (fun h i c hm => h1 ⟨h, i, c, hm⟩) (fun h i c hm => h2 ⟨h, i, c, hm⟩) (fun h hm => h3 ⟨h, hm⟩)).subs

theorem Runs.labels {cfg : Cfg} {ms : List Msg} {w : World} (h : Runs cfg ms w) : w.freshIds → Labels w := by
  induction h with
  | init => intro _; simp [Labels, World.init]
  | restart _ ih => exact fun hf => ih hf
  | step hr o m hn ih =>
    intro hf
    have hf' := freshIds_of_prefix (step_sent (cfg := cfg) hr.good o m hn) hf
    exact eff_labels (hr.good.frame o _ _ _ _) ((hr.books hf').orc o) (ih hf') (step_eff (cfg := cfg) hr.good o m hn).2

/-- The source label in reserveConfirmed is the one confirmed by the first segment. -/
theorem C29_source_partial {cfg : Cfg} {ms : List Msg} {w : World} (h : Runs cfg ms w) (o : Oracle) (m : Msg) (hn : NewSeg w m)
    (hf : (Agg.step cfg w o m).1.freshIds) {to_ cid : Str} {src dst : STP} {start end_ : Option Time} {bw : Int}
    (hout : .reserveConfirmed to_ cid src dst start end_ bw ∈ (Agg.step cfg w o m).1.outbox.drop w.outbox.length) :
    ∃ row ∈ (Agg.step cfg w o m).1.conns, row.cid = cid ∧ ∃ s ∈ (Agg.step cfg w o m).1.subs, s.skey = row.key ∧ s.order = 0 ∧ src.label = s.src.label := by
  have hfw := freshIds_of_prefix (step_sent (cfg := cfg) h.good o m hn) hf
  have hb := h.books hfw
  obtain ⟨row, hr, hcid, _, hseg⟩ := C28_all_held_partial h o m hn hf hout (cid := cid) (by simp [Out.isConfirm])
  obtain ⟨hh, scid, c, r, row0, row', hm, hd, hp, hr0, hcid0, hk, hck, hrow, ho, hnone, hheld, e1, e2, e3, e4⟩ :=
    confirm_told h o m hn hout (cid := cid) (by simp [Out.isConfirm])
  -- the row written
  obtain ⟨f1, f2, _⟩ := confirmLabels_frame row0 r.order ((storedSeg { w with orc := o } hh.corr r scid c).segments row0.key).length c
  have hk' : row'.key = row0.key := by rw [hrow]; exact f1
  have hrow1 : ({ row' with st := { row0.st with r := .held } } : CRow) ∈ (Agg.step cfg w o m).1.conns := by
    rw [e1]
    exact (mem_setCRow (row' := { row' with st := { row0.st with r := .held } }) h.good.ckeys hr0 hk' _).mpr (Or.inl rfl)
  have hrr : row = { row' with st := { row0.st with r := .held } } := by
    refine nodup_map_inj (step_eff (cfg := cfg) h.good o m hn).1.ccids hr hrow1 ?_
    rw [hcid]
    show cid = row'.cid
    rw [hrow]
    exact hcid0.symm.trans f2.symm
  obtain ⟨row2, hr2, hk2, c2, hc2, _⟩ := hb.call _ (dget_some_mem hd)
  have : row2 = row0 := nodup_map_inj h.good.ckeys hr2 hr0 (hk2.trans hk.symm)
  rw [this, hcid0] at hc2
  have hc2' : ((Agg.step cfg w o m).1.asked cid)[r.order]? = some c2 := by
    unfold World.asked
    rw [e4]
    exact hc2
  obtain ⟨c0, hc0⟩ : ∃ c0, ((Agg.step cfg w o m).1.asked cid)[0]? = some c0 := by
    cases hl : (Agg.step cfg w o m).1.asked cid with
    | nil => rw [hl] at hc2'; simp at hc2'
    | cons x xs => exact ⟨x, rfl⟩
  obtain ⟨s, hs, hsk, hso, _⟩ := hseg 0 c0 hc0
  refine ⟨row, hr, hcid, s, hs, hsk, hso, ?_⟩
  have hl := (h.step o m hn).labels hf row hr s hs hsk hso
  rw [← hl, hrr]
  have : src = row'.src := by
    injection ho
  rw [this]

/-- The destination label in reserveConfirmed is the one confirmed by the last segment, if its confirmation is the last one to arrive. -/
theorem C29_destination_partial {cfg : Cfg} {ms : List Msg} {w : World} (h : Runs cfg ms w) (o : Oracle) (hh : RHdr) (scid : Str) (c : Crit)
    (hn : NewSeg w (.reserveConfirmed hh scid c)) (hf : (Agg.step cfg w o (.reserveConfirmed hh scid c)).1.freshIds) {to_ cid : Str} {src dst : STP}
    {start end_ : Option Time} {bw : Int}
    (hout : .reserveConfirmed to_ cid src dst start end_ bw ∈ (Agg.step cfg w o (.reserveConfirmed hh scid c)).1.outbox.drop w.outbox.length)
    (hlast : ∀ r, dget w.resv hh.corr = some r → ∀ s ∈ w.subs, s.skey = r.skey → s.order < r.order) : dst.label = c.dst.label := by
  have hfw := freshIds_of_prefix (step_sent (cfg := cfg) h.good o _ hn) hf
  obtain ⟨row, hr, hcid, _, hseg⟩ := C28_all_held_partial h o _ hn hf hout (cid := cid) (by simp [Out.isConfirm])
  obtain ⟨hh', scid', c', r, row0, row', hm, hd, hp, hr0, hcid0, hk, hck, hrow, ho, hnone, hheld, e1, e2, e3, e4⟩ :=
    confirm_told h o _ hn hout (cid := cid) (by simp [Out.isConfirm])
  obtain ⟨rfl, rfl, rfl⟩ : hh = hh' ∧ scid = scid' ∧ c = c' := by simpa using hm
  have hlast := hlast r hd
  obtain ⟨f1, f2, _⟩ := confirmLabels_frame row0 r.order ((storedSeg { w with orc := o } hh.corr r scid c).segments row0.key).length c
  have hk' : row'.key = row0.key := by rw [hrow]; exact f1
  have hkey : row.key = row0.key := by
    have hrow1 : ({ row' with st := { row0.st with r := .held } } : CRow) ∈ (Agg.step cfg w o (.reserveConfirmed hh scid c)).1.conns := by
      rw [e1]
      exact (mem_setCRow (row' := { row' with st := { row0.st with r := .held } }) h.good.ckeys hr0 hk' _).mpr (Or.inl rfl)
    have : row = { row' with st := { row0.st with r := .held } } := by
      refine nodup_map_inj (step_eff (cfg := cfg) h.good o _ hn).1.ccids hr hrow1 ?_
      rw [hcid]
      show cid = row'.cid
      rw [hrow]
      exact hcid0.symm.trans f2.symm
    rw [this]
    exact hk'
  have hb' := (h.step o _ hn).books hf
  have hg' := (step_eff (cfg := cfg) h.good o _ hn).1
  have hasked : (Agg.step cfg w o (.reserveConfirmed hh scid c)).1.asked cid = w.asked cid := by unfold World.asked; rw [e4]
  let S := (w.subs ++ [segRow w r scid c]).filter fun s => s.skey = row0.key
  have hS : ∀ x, x ∈ S ↔ x ∈ (Agg.step cfg w o (.reserveConfirmed hh scid c)).1.subs ∧ x.skey = row0.key := by
    intro x; simp only [S, List.mem_filter, decide_eq_true_eq, e2]
  have hkeys : (S.map (·.key)).Nodup := by
    have := hg'.skeys
    rw [e2] at this
    exact this.sublist (List.filter_sublist.map _)
  have hnodup : (S.map (·.order)).Nodup := by
    refine List.Nodup.map_on (fun x hx y hy hxy => ?_) hkeys.of_map
    rw [hS] at hx hy
    exact nodup_map_inj hg'.skeys hx.1 hy.1 (hb'.one x hx.1 y hy.1 (hx.2.trans hy.2.symm) hxy)
  have hmem : ∀ i, i ∈ S.map (·.order) ↔ i ∈ List.range (r.order + 1) := by
    intro i
    rw [List.mem_range]
    constructor
    · intro hi
      obtain ⟨s, hs, rfl⟩ := List.mem_map.mp hi
      rw [hS, e2] at hs
      rcases List.mem_append.mp hs.1 with h1 | h1
      · have := hlast s h1 (hs.2.trans hk); omega
      · rw [List.mem_singleton.mp h1]; exact Nat.lt_succ_self _
    · intro hi
      obtain ⟨row2, hr2, hk2, c2, hc2, _⟩ := (h.books hfw).call _ (dget_some_mem hd)
      have : row2 = row0 := nodup_map_inj h.good.ckeys hr2 hr0 (hk2.trans hk.symm)
      rw [this, hcid0] at hc2
      have hlen : i < (w.asked cid).length := by
        have : r.order < (w.asked cid).length := by
          obtain ⟨h1, _⟩ := List.getElem?_eq_some_iff.mp hc2
          exact h1
        omega
      obtain ⟨s, hs, hsk, hso, _⟩ := hseg i (w.asked cid)[i] (by rw [hasked]; exact List.getElem?_eq_getElem hlen)
      exact List.mem_map.mpr ⟨s, (hS s).mpr ⟨hs, hsk.trans hkey⟩, hso⟩
  have hcount : r.order + 1 = S.length := by
    have := ((List.perm_ext_iff_of_nodup hnodup List.nodup_range).mpr hmem).length_eq
    simpa using this.symm
  have hd : dst = row'.dst := by injection ho
  rw [hd, hrow]
  exact (confirmLabels_src row0 r.order S.length c).2.2 hcount

/-- The hypotheses hold before the confirmation of the last of two segments; the labels differ from those requested. -/
example : let w := runMsgs Ex.cfg .init [Ex.reserve2, (Ex.nil, Ex.confA)]
    newSegs Ex.cfg .init [Ex.reserve2, (Ex.nil, Ex.confA), (Ex.nil, Ex.confB)] = true ∧ ((Agg.step Ex.cfg w Ex.nil Ex.confB).1.sent.map (·.corr)).Nodup ∧
    (Agg.step Ex.cfg w Ex.nil Ex.confB).1.outbox.drop w.outbox.length =
      [.reserveConfirmed ['u'] ['c', '1'] ⟨['A'], ['x'], Ex.vlan 3 3⟩ ⟨['B'], ['w'], Ex.vlan 7 7⟩ (some 100) (some 200) 50] ∧
    ∀ e ∈ w.resv, e.1 = ['2'] → ∀ s ∈ w.subs, s.skey = e.2.skey → s.order < e.2.order := by decide +kernel

end OpenNSA.Agg
