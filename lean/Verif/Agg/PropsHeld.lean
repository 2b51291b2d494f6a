import Verif.Agg.Books
/- C28, C29, C31 in executions handling one message after the other: what is confirmed as reserved is held. -/
namespace OpenNSA.Agg
open OpenNSA Py Coro

theorem Shape.rows' {m : Msg} {w w' : World} {outs : List Out} {old news : List CRow} (hs : Shape m w w' outs old news)
    (hm : ∀ h i c, m ≠ .reserve h i c) : List.Forall₂ (RowStep m outs) w.conns w'.conns := by
  have : news = [] := by
    rcases news with _ | ⟨r, rs⟩
    · rfl
    · obtain ⟨⟨h, i, c, he⟩, _⟩ := hs.new r (by simp)
      exact absurd he (hm h i c)
  rw [hs.conns, this, List.append_nil]
  exact hs.rows

theorem eff_sent {cfg : Cfg} {w w' : World} (hg : Good w) {r : Except Err (Option Str)} {m : Msg} (he : Eff cfg w w' r m) : w.sent <+: w'.sent := by
  by_cases h1 : ∃ h cid c, m = .reserve h cid c
  · obtain ⟨h, cid, c, rfl⟩ := h1
    cases he with
    | nothing h => rw [h.sent]; exact List.prefix_rfl
    | made _ _ _ _ _ _ _ _ _ _ h => rw [h.sent]; simp
  by_cases h2 : ∃ h cid c, m = .reserveConfirmed h cid c
  · obtain ⟨h, cid, c, rfl⟩ := h2
    cases he with
    | unknown _ h => rw [h.sent]; exact List.prefix_rfl
    | other _ _ h => rw [h.sent]; exact List.prefix_rfl
    | stored _ _ hw _ _ _ _ h => rw [h.sent, hw]; simp [storedSeg]
    | told _ _ hw _ _ _ _ _ h => rw [h.sent, hw]; simp [storedSeg]
  by_cases h3 : ∃ h, m = .reserveFailed h
  · obtain ⟨h, rfl⟩ := h3
    cases he with
    | unknown _ h => rw [h.sent]; exact List.prefix_rfl
    | other _ _ h => rw [h.sent]; exact List.prefix_rfl
    | late _ _ _ _ _ h => rw [h.sent]; exact List.prefix_rfl
    | told _ _ _ _ _ h => rw [h.sent]; exact List.prefix_rfl
  obtain ⟨calls, hc, _⟩ := (eff_calm hg he (fun h i c hm => h1 ⟨h, i, c, hm⟩) (fun h i c hm => h2 ⟨h, i, c, hm⟩) (fun h hm => h3 ⟨h, hm⟩)).sent
  rw [hc]
  exact List.prefix_append _ _

theorem freshIds_of_prefix {w w' : World} (h : w.sent <+: w'.sent) (hf : w'.freshIds) : w.freshIds := by
  unfold World.freshIds at hf ⊢
  exact hf.sublist (h.sublist.map _)

theorem eff_books {cfg : Cfg} {w w' : World} (hg : Good w) (hb : Books w) {r : Except Err (Option Str)} {m : Msg} (he : Eff cfg w w' r m)
    (hf : w'.freshIds) : Books w' := by
  have hfw : w.freshIds := freshIds_of_prefix (eff_sent hg he) hf
  obtain ⟨outs, old, news, hs⟩ := eff_shape hg he
  by_cases h1 : ∃ h cid c, m = .reserve h cid c
  · obtain ⟨h, cid, c, rfl⟩ := h1
    cases he with
    | nothing h =>
      exact hb.calm (.of h.resv h.subs h.sent) (m := .reserveFailed ⟨[], []⟩) (outs := [])
        (by rw [h.conns]; exact List.forall₂_same.mpr fun _ _ => .rfl' (by simp))
    | made hkey hnew _ _ _ _ _ hcalls _ hterms h => exact hb.made hg hkey hnew hcalls hterms hf h.conns h.subs h.sent h.resv
  have hrows := hs.rows' (fun h i c hm => h1 ⟨h, i, c, hm⟩)
  by_cases h2 : ∃ h cid c, m = .reserveConfirmed h cid c
  · obtain ⟨h, cid, c, rfl⟩ := h2
    cases he with
    | unknown _ h => exact hb.calm (.of h.resv h.subs h.sent) hrows
    | other _ _ h => exact hb.calm (.of h.resv h.subs h.sent) hrows
    | stored hd _ hw _ _ _ _ h =>
      refine (hb.stored hg hfw hd (s := segRow w _ cid c) rfl rfl rfl ?_ ?_ ?_ hrows).1
      · rw [h.resv, hw]; rfl
      · rw [h.subs, hw]; rfl
      · rw [h.sent, hw]; rfl
    | told hd _ hw _ _ _ _ _ h =>
      refine (hb.stored hg hfw hd (s := segRow w _ cid c) rfl rfl rfl ?_ ?_ ?_ hrows).1
      · rw [h.resv, hw]; rfl
      · rw [h.subs, hw]; rfl
      · rw [h.sent, hw]; rfl
  by_cases h3 : ∃ h, m = .reserveFailed h
  · obtain ⟨h, rfl⟩ := h3
    cases he with
    | unknown _ h => exact hb.calm (.of h.resv h.subs h.sent) hrows
    | other _ _ h => exact hb.calm (.of h.resv h.subs h.sent) hrows
    | late hd _ hr hk hst h =>
      refine hb.drop hd h.resv h.subs h.sent hrows ?_
      intro row hrow hrk
      rw [h.conns] at hrow
      rw [nodup_map_inj hg.ckeys hrow hr (hrk.trans hk.symm)]
      exact hst.1
    | told hd _ hr hk hst h =>
      refine hb.drop hd h.resv h.subs h.sent hrows ?_
      intro row hrow hrk
      rw [h.conns] at hrow
      rcases (mem_setCRow hg.ckeys hr (by rfl) row).mp hrow with rfl | ⟨h4, h5⟩
      · simp
      · exact absurd (nodup_map_inj hg.ckeys h4 hr (hrk.trans hk.symm)) h5
  exact hb.calm (eff_calm hg he (fun h i c hm => h1 ⟨h, i, c, hm⟩) (fun h i c hm => h2 ⟨h, i, c, hm⟩) (fun h hm => h3 ⟨h, hm⟩)) hrows

theorem Books.orc {w : World} (hb : Books w) (o : Oracle) : Books { w with orc := o } :=
  ⟨hb.keys, hb.call, hb.known, hb.one, hb.apart, hb.acc⟩

theorem step_sent {cfg : Cfg} {w : World} (hg : Good w) (o : Oracle) (m : Msg) (hn : NewSeg w m) : w.sent <+: (Agg.step cfg w o m).1.sent :=
  eff_sent (w := { w with orc := o }) (hg.frame o w.notif w.outbox w.sent w.qcalls) (step_eff (cfg := cfg) hg o m hn).2

theorem Runs.books {cfg : Cfg} {ms : List Msg} {w : World} (h : Runs cfg ms w) : w.freshIds → Books w := by
  induction h with
  | init => intro _; constructor <;> simp [World.init, dkeys]
  | restart _ ih => exact fun hf => (ih hf).restart
  | step hr o m hn ih =>
    intro hf
    exact eff_books (hr.good.frame o _ _ _ _) ((ih (freshIds_of_prefix (step_sent hr.good o m hn) hf)).orc o) (step_eff (cfg := cfg) hr.good o m hn).2 hf

theorem Tr.confirm_of {m : Msg} {cid to_ : Str} {s s' : ConnStates} {outs : List Out} (ht : Tr m cid to_ s s' outs) {o : Out} (ho : o ∈ outs)
    {c : Str} (hc : o.isConfirm c = true) : ∃ h scid cr, m = .reserveConfirmed h scid cr := by
  cases ht with
  | committed hm _ => rw [List.mem_singleton.mp ho] at hc; simp [Out.isConfirm] at hc
  | aborted hm _ => rw [List.mem_singleton.mp ho] at hc; simp [Out.isConfirm] at hc
  | provisioned hm _ => rw [List.mem_singleton.mp ho] at hc; simp [Out.isConfirm] at hc
  | released hm _ => rw [List.mem_singleton.mp ho] at hc; simp [Out.isConfirm] at hc
  | terminated hm _ => rw [List.mem_singleton.mp ho] at hc; simp [Out.isConfirm] at hc
  | held hm _ => exact ⟨_, _, _, hm⟩
  | failed hm _ => rw [List.mem_singleton.mp ho] at hc; simp [Out.isConfirm] at hc
  | note hn => rw [List.mem_singleton.mp ho, (isNote_counts hn c).1] at hc; cases hc
  | _ => simp at ho

/-- What is known when reserveConfirmed is sent. -/
theorem confirm_told {cfg : Cfg} {ms : List Msg} {w : World} (h : Runs cfg ms w) (o : Oracle) (m : Msg) (hn : NewSeg w m) {cid : Str}
    {out : Out} (hout : out ∈ (Agg.step cfg w o m).1.outbox.drop w.outbox.length) (hc : out.isConfirm cid = true) :
    ∃ hh scid c r row row', m = .reserveConfirmed hh scid c ∧ dget w.resv hh.corr = some r ∧ hh.prov = r.prov ∧ row ∈ w.conns ∧ row.cid = cid ∧
      row.key = r.skey ∧ row.st.r = .checking ∧ row' = labelled (storedSeg { w with orc := o } hh.corr r scid c) row r c ∧
      out = .reserveConfirmed row'.requester row'.cid row'.src row'.dst row'.start row'.end_ row'.bw ∧
      (∀ e ∈ ddel w.resv hh.corr, e.2.skey ≠ row.key) ∧
      (∀ s ∈ w.subs ++ [segRow w r scid c], s.skey = row.key → s.st.r = .held) ∧
      (Agg.step cfg w o m).1.conns = setCRow w.conns { row' with st := { row.st with r := .held } } ∧
      (Agg.step cfg w o m).1.subs = w.subs ++ [segRow w r scid c] ∧ (Agg.step cfg w o m).1.resv = ddel w.resv hh.corr ∧
      (Agg.step cfg w o m).1.sent = w.sent := by
  obtain ⟨outs, old, news, hs⟩ := step_shape (cfg := cfg) h.good o m hn
  rw [hs.outbox, List.drop_left] at hout
  obtain ⟨rw0, hr0, hrc0⟩ := hs.abt out hout cid (Out.isConfirm_about hc)
  obtain ⟨rw1, hr1, hrs⟩ := forall₂_left_exists hs.rows _ hr0
  obtain ⟨hh, scid, c, rfl⟩ := hrs.tr.confirm_of (o := out) (by simp [hout, Out.isConfirm_about hc, hrc0]) hc
  have he := (step_eff (cfg := cfg) h.good o (.reserveConfirmed hh scid c) hn).2
  have hquiet : ∀ {v}, Same v (Agg.step cfg w o (.reserveConfirmed hh scid c)).1 → v.outbox = w.outbox → outs = [] := by
    intro v hsame hv
    have := hsame.outbox.symm.trans hs.outbox
    rw [hv] at this
    simpa using this
  have hne : outs ≠ [] := List.ne_nil_of_mem hout
  cases he with
  | unknown _ hsame => exact absurd (hquiet hsame rfl) hne
  | other _ _ hsame => exact absurd (hquiet hsame rfl) hne
  | stored _ _ hw _ _ _ _ hsame => exact absurd (hquiet hsame (by rw [hw]; rfl)) hne
  | @told r w1 row row' hd hp hw hr hk hrow hck hq hsame =>
    have heq : outs = [.reserveConfirmed row'.requester row'.cid row'.src row'.dst row'.start row'.end_ row'.bw] := by
      have := hsame.outbox.symm.trans hs.outbox
      simpa using this.symm
    rw [heq, List.mem_singleton] at hout
    have hcid : row.cid = cid := by
      rw [hout] at hc
      have : row'.cid = cid := by simpa [Out.isConfirm] using hc
      rw [← this, hrow]
      exact (confirmLabels_frame row r.order _ c).2.1.symm
    subst hw
    refine ⟨hh, scid, c, r, row, row', rfl, hd, hp, hr, hcid, hk, hck, hrow, hout, hq.1, ?_, hsame.conns, hsame.subs, hsame.resv, hsame.sent⟩
    intro s hs hsk
    exact hq.2 s (by simpa [World.segments, storedSeg, hsk, segRow] using hs)

/-- With messages handled one after the other, unique segment ids and correlation ids: when the requester is sent reserveConfirmed, every segment asked
for has been confirmed by the provider asked, and is held. -/
theorem C28_all_held_partial {cfg : Cfg} {ms : List Msg} {w : World} (h : Runs cfg ms w) (o : Oracle) (m : Msg) (hn : NewSeg w m)
    (hf : (Agg.step cfg w o m).1.freshIds) {cid : Str} {out : Out} (hout : out ∈ (Agg.step cfg w o m).1.outbox.drop w.outbox.length)
    (hc : out.isConfirm cid = true) :
    ∃ row ∈ (Agg.step cfg w o m).1.conns, row.cid = cid ∧ row.st.r = .held ∧
      ∀ i c, ((Agg.step cfg w o m).1.asked cid)[i]? = some c →
        ∃ s ∈ (Agg.step cfg w o m).1.subs, s.skey = row.key ∧ s.order = i ∧ s.prov = c.prov ∧ s.st.r = .held := by
  have hfw := freshIds_of_prefix (step_sent (cfg := cfg) h.good o m hn) hf
  have hb := h.books hfw
  obtain ⟨outs, old, news, hs⟩ := step_shape (cfg := cfg) h.good o m hn
  obtain ⟨hh, scid, c, r, row, row', hm, hd, hp, hr, hcid, hk, hck, hrow, ho, hnone, hheld, e1, e2, e3, e4⟩ := confirm_told h o m hn hout hc
  subst hm
  have hrows := hs.rows' (by simp)
  obtain ⟨_, hacc⟩ := hb.stored h.good hfw hd (s := segRow w r scid c) rfl rfl rfl e3 e2 e4 hrows
  obtain ⟨f1, f2, f3, f4⟩ := confirmLabels_frame row r.order ((storedSeg { w with orc := o } hh.corr r scid c).segments row.key).length c
  have hk' : row'.key = row.key := by rw [hrow]; exact f1
  have hc' : row'.cid = row.cid := by rw [hrow]; exact f2
  refine ⟨{ row' with st := { row.st with r := .held } }, ?_, hc'.trans hcid, rfl, ?_⟩
  · rw [e1]
    exact (mem_setCRow (row' := { row' with st := { row.st with r := .held } }) h.good.ckeys hr hk' _).mpr (Or.inl rfl)
  · intro i pc hget
    rcases hacc row hr hk hck i pc (by rw [hcid]; exact hget) with ⟨e, he, _, hek⟩ | ⟨s, hsm, h1, h2, h3⟩
    · rw [e3] at he
      exact absurd hek (hnone e he)
    · exact ⟨s, hsm, by rw [h1]; exact hk'.symm, h2, h3, hheld s (by rw [e2] at hsm; exact hsm) h1⟩

/-- The hypotheses hold before the second of two confirmations. -/
example : let w := runMsgs Ex.cfg .init [Ex.reserve2, (Ex.nil, Ex.confB)]
    newSegs Ex.cfg .init [Ex.reserve2, (Ex.nil, Ex.confB), (Ex.nil, Ex.confA)] = true ∧ ((Agg.step Ex.cfg w Ex.nil Ex.confA).1.sent.map (·.corr)).Nodup ∧
    ((Agg.step Ex.cfg w Ex.nil Ex.confA).1.outbox.drop w.outbox.length).any (Out.isConfirm ['c', '1']) = true ∧
    ((Agg.step Ex.cfg w Ex.nil Ex.confA).1.asked ['c', '1']).length = 2 := by decide +kernel

end OpenNSA.Agg
