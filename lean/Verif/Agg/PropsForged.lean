import Verif.Agg.PropsHeld
/- C31: replies nobody asked for. -/
namespace OpenNSA.Agg
open OpenNSA Py Coro

/-- A reply to a reservation request, with its header. -/
def Msg.resvReply : Msg → Option RHdr
  | .reserveConfirmed h _ _ => some h
  | .reserveFailed h => some h
  | _ => none

/-- A message of a provider about one of its segments: sender and id of the segment. -/
def Msg.about : Msg → Option (Str × Str)
  | .commitConfirmed h cid | .abortConfirmed h cid | .provisionConfirmed h cid | .releaseConfirmed h cid | .terminateConfirmed h cid => some (h.prov, cid)
  | .timeout h cid _ | .dataPlane h cid _ _ _ | .errorEvent h cid _ => some (h.prov, cid)
  | _ => none

theorem takeResv_forged {w : World} {h : RHdr} (hf : ∀ r, dget w.resv h.corr = some r → r.prov ≠ h.prov) :
    ∃ e, (takeResv h).run machine w = (w, .error e) := by
  simp only [takeResv, run_bind', run_issue, machine_exec, exec_getResv, andThen_ok]
  cases hd : dget w.resv h.corr with
  | none => exact ⟨_, rfl⟩
  | some r =>
    simp only [if_pos (show h.prov ≠ r.prov from fun he => hf r hd he.symm)]
    exact ⟨_, rfl⟩

/-- A reserve reply with an unknown correlation id, or from a provider that was not asked, is refused and changes nothing: in every
state whatsoever. -/
theorem C31_forged_reservation (cfg : Cfg) (w : World) (o : Oracle) {m : Msg} {h : RHdr} (hm : m.resvReply = some h)
    (hf : ∀ r, dget w.resv h.corr = some r → r.prov ≠ h.prov) :
    (Agg.step cfg w o m).1 = { w with orc := o } ∧ ∃ e, (Agg.step cfg w o m).2 = .error e := by
  obtain ⟨e, he⟩ := takeResv_forged (w := { w with orc := o }) hf
  cases m <;> simp [Msg.resvReply] at hm
  all_goals subst hm
  all_goals simp only [Agg.step, Msg.prog, Agg.reserveConfirmed, Agg.reserveFailed, run_bind', he, andThen_error, true_and]
  all_goals exact ⟨e, rfl⟩

/-- The same when other messages are being handled at the time: no handler is left behind. -/
theorem C31_forged_reservation_interleaved (cfg : Cfg) (s : Sys) (o : Oracle) {m : Msg} {h : RHdr} (hm : m.resvReply = some h)
    (hf : ∀ r, dget s.w.resv h.corr = some r → r.prov ≠ h.prov) :
    (sysStep cfg s o (.start m)).w = { s.w with orc := o } ∧ (sysStep cfg s o (.start m)).tasks = s.tasks ∧
    ∃ e, (sysStep cfg s o (.start m)).done = s.done ++ [(s.next, .error e)] := by
  have key : ∀ (f : Resv → Prog (Option Str)) (c : Sys), (∀ r, dget c.w.resv h.corr = some r → r.prov ≠ h.prov) →
      ∃ e, Conc.runSync machine s.next ((takeResv h).bind f) c = { c with done := c.done ++ [(s.next, .error e)] } := by
    intro f c hf
    have hasync : machine.isAsync (Cmd.getResv h.corr) = false := rfl
    simp only [takeResv, issue, Bind.bind, Coro.bind, Conc.runSync, hasync, machine_exec, exec_getResv, Bool.false_eq_true, if_false]
    cases hd : dget c.w.resv h.corr with
    | none => exact ⟨_, rfl⟩
    | some r =>
      simp only [if_pos (show h.prov ≠ r.prov from fun he => hf r hd he.symm)]
      exact ⟨_, rfl⟩
  cases m <;> simp [Msg.resvReply] at hm
  all_goals
    subst hm
    simp only [sysStep, Conc.step, Msg.prog, Agg.reserveConfirmed, Agg.reserveFailed, Bind.bind]
    obtain ⟨e, he⟩ := key _ { s with w := { s.w with orc := o }, next := s.next + 1 } hf
    rw [he]
    exact ⟨rfl, rfl, _, rfl⟩

theorem getSub_none {w : World} {prov cid : Str} (hn : dget w.scache cid = none) (hs : ∀ s ∈ w.subs, s.cid = cid → s.prov ≠ prov) :
    (getSubConnection prov cid).run machine w = (w, .error .nonExistent) := by
  have hfind : w.subs.find? (fun r => r.prov = prov && r.cid = cid) = none := by
    rw [List.find?_eq_none]
    intro s h
    simp only [Bool.and_eq_true, decide_eq_true_eq, not_and]
    exact fun hp hc => hs s h hc hp
  simp only [getSubConnection, run_bind', run_issue, machine_exec, exec_cachedS, hn, andThen_ok, exec_findSubs, World.findSubs, World.findSub, hfind, run_throw]

/-- A message about a segment that its sender does not have is refused and changes nothing, as long as no segment with that id has
been loaded into memory. -/
theorem C31_foreign_segment_partial (cfg : Cfg) (w : World) (o : Oracle) {m : Msg} {prov cid : Str} (hm : m.about = some (prov, cid))
    (hn : dget w.scache cid = none) (hs : ∀ s ∈ w.subs, s.cid = cid → s.prov ≠ prov) :
    Agg.step cfg w o m = ({ w with orc := o }, .error .nonExistent) := by
  have h := getSub_none (w := { w with orc := o }) hn hs
  cases m <;> simp [Msg.about] at hm
  all_goals
    obtain ⟨rfl, rfl⟩ := hm
    simp only [Agg.step, Msg.prog, Agg.reserveCommitConfirmed, Agg.reserveAbortConfirmed, Agg.provisionConfirmed, Agg.releaseConfirmed,
      Agg.terminateConfirmed, Agg.reserveTimeout, Agg.dataPlaneStateChange, Agg.errorEvent, confirmSet, confirmSwitch, run_bind', h, andThen_error]

/-- What a message about a segment can change: the segment with that id, its connection, and what the owner of that is told. -/
structure Local (cid : Str) (w w' : World) : Prop where
  subs : List.Forall₂ (fun s s' => s.cid ≠ cid → s' = s) w.subs w'.subs
  conns : List.Forall₂ (fun r r' => (∀ s ∈ w.subs, s.cid = cid → s.skey ≠ r.key) → r' = r) w.conns w'.conns
  outbox : ∃ outs, w'.outbox = w.outbox ++ outs ∧ ∀ out ∈ outs, ∃ row ∈ w.conns, out.about = some row.cid ∧ ∃ s ∈ w.subs, s.cid = cid ∧ s.skey = row.key
  resv : w'.resv = w.resv
  sent : w'.sent = w.sent
  qreqs : w'.qreqs = w.qreqs
  qcalls : w'.qcalls = w.qcalls

theorem Local.of_same {cid : Str} {w w' : World} (h : Same w w') : Local cid w w' :=
  ⟨by rw [h.subs]; exact List.forall₂_same.mpr fun _ _ _ => rfl, by rw [h.conns]; exact List.forall₂_same.mpr fun _ _ _ => rfl,
    ⟨[], by simp [h.outbox], by simp⟩, h.resv, h.sent, h.qreqs, h.qcalls⟩

theorem Local.of_seg {cid : Str} {w w' : World} (hg : Good w) {s s' : SRow} (hs : s ∈ w.subs) (hc : s.cid = cid) (hk : s'.key = s.key)
    {row : CRow} (hr : row ∈ w.conns) (hrk : row.key = s.skey)
    (h1 : w'.subs = setSRow w.subs s') (h2 : w'.conns = w.conns ∨ ∃ row' : CRow, row'.key = row.key ∧ w'.conns = setCRow w.conns row')
    (h3 : ∃ outs, w'.outbox = w.outbox ++ outs ∧ ∀ out ∈ outs, out.about = some row.cid)
    (h4 : w'.resv = w.resv) (h5 : w'.sent = w.sent) (h6 : w'.qreqs = w.qreqs) (h7 : w'.qcalls = w.qcalls) : Local cid w w' := by
  refine ⟨?_, ?_, ?_, h4, h5, h6, h7⟩
  · rw [h1]
    unfold setSRow
    rw [List.forall₂_map_right_iff, List.forall₂_same]
    intro x hx hne
    rw [if_neg]
    intro he
    exact hne ((nodup_map_inj hg.skeys hx hs (he.trans hk)) ▸ hc)
  · rcases h2 with h2 | ⟨row', hk', h2⟩
    · rw [h2]; exact List.forall₂_same.mpr fun _ _ _ => rfl
    · rw [h2]
      unfold setCRow
      rw [List.forall₂_map_right_iff, List.forall₂_same]
      intro x hx hne
      rw [if_neg]
      intro he
      exact hne s hs hc (hrk.symm.trans (hk'.symm.trans he.symm))
  · obtain ⟨outs, ho, ha⟩ := h3
    exact ⟨outs, ho, fun out hm => ⟨row, hr, ha out hm, s, hs, hc, hrk.symm⟩⟩

theorem setSRow_self {rows : List SRow} {s : SRow} (hk : (rows.map (·.key)).Nodup) (hs : s ∈ rows) : setSRow rows s = rows := by
  unfold setSRow
  refine (List.map_congr_left (g := id) fun x hx => ?_).trans (List.map_id _)
  split
  · rename_i h
    exact (nodup_map_inj hk hx hs h).symm
  · rfl

theorem ReplyEff.local_ {prov cid : Str} {set : ConnStates → Option ConnStates} {there : ConnStates → Bool} {f : ConnStates → Option ConnStates}
    {msg : Str → Str → Out} (hmsg : ∀ a b, (msg a b).about = some b) {w w' : World} (hg : Good w) (h : ReplyEff prov cid set there f msg w w') :
    Local cid w w' := by
  cases h with
  | unknown _ h => exact .of_same h
  | refused _ _ _ h => exact .of_same h
  | @done s row st hs hc _ hr hk h =>
    unfold upEff at h
    split at h
    · cases hf : f row.st with
      | none =>
        rw [hf] at h
        exact .of_seg hg hs hc rfl hr hk (s' := { s with st }) h.subs (Or.inl h.conns) ⟨[], by rw [h.outbox]; exact (List.append_nil _).symm, by simp⟩ h.resv h.sent h.qreqs h.qcalls
      | some st' =>
        rw [hf] at h
        exact .of_seg hg hs hc rfl hr hk (s' := { s with st }) h.subs (Or.inr ⟨{ row with st := st' }, rfl, h.conns⟩) ⟨_, h.outbox, by simp [hmsg]⟩
          h.resv h.sent h.qreqs h.qcalls
    · exact .of_seg hg hs hc rfl hr hk (s' := { s with st }) h.subs (Or.inl h.conns) ⟨[], by rw [h.outbox]; exact (List.append_nil _).symm, by simp⟩ h.resv h.sent h.qreqs h.qcalls

/-- Whoever sends a message about a segment: it changes only the segment with that id and its connection, and only the owner of that
is told anything. -/
theorem C31_segment_only_partial {cfg : Cfg} {ms : List Msg} {w : World} (h : Runs cfg ms w) (o : Oracle) {m : Msg} {prov cid : Str}
    (hm : m.about = some (prov, cid)) : Local cid w (Agg.step cfg w o m).1 := by
  have hn : NewSeg w m := by cases m <;> trivial
  have he := (step_eff (cfg := cfg) h.good o m hn).2
  have hg : Good { w with orc := o } := h.good.frame o w.notif w.outbox w.sent w.qcalls
  suffices Local cid { w with orc := o } (Agg.step cfg w o m).1 from ⟨this.subs, this.conns, this.outbox, this.resv, this.sent, this.qreqs, this.qcalls⟩
  generalize (Agg.step cfg w o m).1 = w' at he
  cases m <;> simp [Msg.about] at hm
  all_goals obtain ⟨rfl, rfl⟩ := hm
  case commitConfirmed => exact ReplyEff.local_ (fun _ _ => rfl) hg he
  case abortConfirmed => exact ReplyEff.local_ (fun _ _ => rfl) hg he
  case provisionConfirmed => exact ReplyEff.local_ (fun _ _ => rfl) hg he
  case releaseConfirmed => exact ReplyEff.local_ (fun _ _ => rfl) hg he
  case terminateConfirmed => exact ReplyEff.local_ (fun _ _ => rfl) hg he
  case timeout =>
    cases he with
    | unknown _ h => exact .of_same h
    | refused _ _ _ h => exact .of_same h
    | @done s row st hs hc _ hr hk h =>
      exact .of_seg hg hs hc rfl hr hk (s' := { s with st }) h.subs (Or.inl h.conns) ⟨[], by rw [h.outbox]; exact (List.append_nil _).symm, by simp⟩ h.resv h.sent h.qreqs h.qcalls
    | @told s row st hs hc _ hr hk _ _ h =>
      exact .of_seg hg hs hc rfl hr hk (s' := { s with st }) h.subs (Or.inl h.conns) ⟨_, h.outbox, by simp [Out.about]⟩ h.resv h.sent h.qreqs h.qcalls
  case dataPlane =>
    cases he with
    | unknown _ h => exact .of_same h
    | @told s s' row hs hc hs' hr hk h =>
      exact .of_seg hg hs hc (by rw [hs']) hr hk (s' := s') h.subs (Or.inl h.conns) ⟨_, h.outbox, by simp [Out.about]⟩ h.resv h.sent h.qreqs h.qcalls
  case errorEvent =>
    cases he with
    | none h => exact .of_same h
    | @told s row hs hc hr hk h =>
      refine .of_seg hg hs hc rfl hr hk (s' := s) ?_ (Or.inl h.conns) ⟨_, h.outbox, by simp [Out.about]⟩ h.resv h.sent h.qreqs h.qcalls
      rw [h.subs]
      exact (setSRow_self hg.skeys hs).symm

/-! ### Each correlation id is accepted at most once -/

theorem eff_resv {cfg : Cfg} {w w' : World} (hg : Good w) {r : Except Err (Option Str)} {m : Msg} (he : Eff cfg w w' r m) :
    ∀ e ∈ w'.resv, e ∈ w.resv ∨ e.1 ∈ (w'.sent.drop w.sent.length).map (·.corr) := by
  intro e hmem
  by_cases h1 : ∃ h cid c, m = .reserve h cid c
  · obtain ⟨h, cid, c, rfl⟩ := h1
    cases he with
    | nothing h => rw [h.resv] at hmem; exact Or.inl hmem
    | made _ _ _ _ _ _ _ hcalls _ _ h =>
      rw [h.resv] at hmem
      rcases mem_dsets _ _ _ hmem with hm | hm
      · refine Or.inr ?_
        rw [h.sent]
        have := List.mem_map_of_mem (f := Prod.fst) hm
        rw [show (resvEntries _ 0 _).map Prod.fst = _ from (resvEntries_eq hcalls 0).1] at this
        simp only [List.append_assoc, List.drop_left, List.map_append]
        exact List.mem_append.mpr (Or.inl this)
      · exact Or.inl hm
  by_cases h2 : ∃ h cid c, m = .reserveConfirmed h cid c
  · obtain ⟨h, cid, c, rfl⟩ := h2
    cases he with
    | unknown _ h => rw [h.resv] at hmem; exact Or.inl hmem
    | other _ _ h => rw [h.resv] at hmem; exact Or.inl hmem
    | stored _ _ hw _ _ _ _ h => rw [h.resv, hw] at hmem; exact Or.inl (mem_ddel_iff.mp hmem).2
    | told _ _ hw _ _ _ _ _ h => rw [h.resv, hw] at hmem; exact Or.inl (mem_ddel_iff.mp hmem).2
  by_cases h3 : ∃ h, m = .reserveFailed h
  · obtain ⟨h, rfl⟩ := h3
    cases he with
    | unknown _ h => rw [h.resv] at hmem; exact Or.inl hmem
    | other _ _ h => rw [h.resv] at hmem; exact Or.inl hmem
    | late _ _ _ _ _ h => rw [h.resv] at hmem; exact Or.inl (mem_ddel_iff.mp hmem).2
    | told _ _ _ _ _ h => rw [h.resv] at hmem; exact Or.inl (mem_ddel_iff.mp hmem).2
  rw [(eff_calm hg he (fun h i c hm => h1 ⟨h, i, c, hm⟩) (fun h i c hm => h2 ⟨h, i, c, hm⟩) (fun h hm => h3 ⟨h, hm⟩)).resv] at hmem
  exact Or.inl hmem

/-- What can follow on a state, messages being handled one after the other and segment ids not reused. -/
inductive Later (cfg : Cfg) (w : World) : World → Prop
  | refl : Later cfg w w
  | step {w' : World} (h : Later cfg w w') (o : Oracle) (m : Msg) (hn : NewSeg w' m) : Later cfg w (Agg.step cfg w' o m).1
  | restart {w' : World} (h : Later cfg w w') : Later cfg w w'.restart

theorem Later.good {cfg : Cfg} {w w' : World} (h : Later cfg w w') (hg : Good w) : Good w' := by
  induction h with
  | refl => exact hg
  | step _ o m hn ih => exact (step_eff ih o m hn).1
  | restart _ ih => exact restart_good ih

theorem Later.sent {cfg : Cfg} {w w' : World} (h : Later cfg w w') (hg : Good w) : w.sent <+: w'.sent := by
  induction h with
  | refl => exact List.prefix_rfl
  | step h o m hn ih => exact ih.trans (step_sent (cfg := cfg) (h.good hg) o m hn)
  | restart _ ih => exact ih

/-- A correlation id that has been used and is not outstanding does not come back. -/
theorem Later.spent {cfg : Cfg} {w w' : World} (h : Later cfg w w') (hg : Good w) {corr : Str} (hu : corr ∈ w.sent.map (·.corr))
    (hd : dget w.resv corr = none) : w'.freshIds → dget w'.resv corr = none := by
  induction h with
  | refl => exact fun _ => hd
  | @step w' h o m hn ih =>
    intro hf
    have hpre := step_sent (cfg := cfg) (h.good hg) o m hn
    have hd' := ih (freshIds_of_prefix hpre hf)
    cases hq : dget (Agg.step cfg w' o m).1.resv corr with
    | none => rfl
    | some r =>
      exfalso
      have hgo : Good { w' with orc := o } := (h.good hg).frame o w'.notif w'.outbox w'.sent w'.qcalls
      rcases eff_resv hgo (step_eff (cfg := cfg) (h.good hg) o m hn).2 _ (dget_some_mem hq) with hm | hm
      · exact dget_none.mp hd' _ hm rfl
      · unfold World.freshIds at hf
        obtain ⟨rest, hrest⟩ := hpre
        rw [← hrest] at hm hf
        rw [List.map_append, List.nodup_append] at hf
        simp only [List.drop_left] at hm
        exact hf.2.2 corr ((h.sent hg).sublist.map _ |>.subset hu) corr hm rfl
  | restart _ ih => exact fun _ => rfl

/-- Each correlation id is accepted at most once: when a reply to it has been accepted, every later one is refused and changes
nothing. For messages handled one after the other only; `C31_accepted_once` is without that. -/
theorem C31_accepted_once_partial {cfg : Cfg} {ms : List Msg} {w : World} (hr : Runs cfg ms w) (o : Oracle) {m : Msg} {h : RHdr}
    (hm : m.resvReply = some h) {r : Resv} (hd : dget w.resv h.corr = some r) (hp : r.prov = h.prov) (hn : NewSeg w m)
    {w' : World} (hl : Later cfg (Agg.step cfg w o m).1 w') (hf : w'.freshIds) (o' : Oracle) {m' : Msg} {h' : RHdr}
    (hm' : m'.resvReply = some h') (hc : h'.corr = h.corr) :
    (Agg.step cfg w' o' m').1 = { w' with orc := o' } ∧ ∃ e, (Agg.step cfg w' o' m').2 = .error e := by
  have hpre := step_sent (cfg := cfg) hr.good o m hn
  have hg1 := (step_eff (cfg := cfg) hr.good o m hn).1
  have hfw := freshIds_of_prefix (hpre.trans (hl.sent hg1)) hf
  obtain ⟨row, _, _, c, hc1, hc2, _⟩ := (hr.books hfw).call _ (dget_some_mem hd)
  have hused : h.corr ∈ (Agg.step cfg w o m).1.sent.map (·.corr) := by
    refine (hpre.sublist.map _).subset (List.mem_map.mpr ⟨c, ?_, hc2⟩)
    exact (List.mem_filter.mp (List.mem_of_getElem? hc1)).1
  have hgone : dget (Agg.step cfg w o m).1.resv h.corr = none := by
    have he := (step_eff (cfg := cfg) hr.good o m hn).2
    generalize (Agg.step cfg w o m).1 = w1 at he
    have hdel : dget (ddel w.resv h.corr) h.corr = none := by rw [dget_ddel]; simp
    cases m <;> simp [Msg.resvReply] at hm
    all_goals subst hm
    · cases he with
      | unknown hd' _ => exact absurd (hd.symm.trans hd') (by simp)
      | other hd' hp' _ =>
        obtain rfl := Option.some.inj (hd.symm.trans hd')
        exact absurd hp.symm hp'
      | stored _ _ hw _ _ _ _ hs => rw [hs.resv, hw]; exact hdel
      | told _ _ hw _ _ _ _ _ hs => rw [hs.resv, hw]; exact hdel
    · cases he with
      | unknown hd' _ => exact absurd (hd.symm.trans hd') (by simp)
      | other hd' hp' _ =>
        obtain rfl := Option.some.inj (hd.symm.trans hd')
        exact absurd hp.symm hp'
      | late _ _ _ _ _ hs => rw [hs.resv]; exact hdel
      | told _ _ _ _ _ hs => rw [hs.resv]; exact hdel
  refine C31_forged_reservation cfg w' o' hm' fun r' hr' => ?_
  rw [hc, hl.spent hg1 hused hgone hf] at hr'
  cases hr'

/-- Two segments; the first confirmation of the first one is accepted, others (forged, repeated) are refused. -/
example : let w := runMsgs Ex.cfg .init [Ex.reserve2]
    (dget w.resv ['1']).map (·.prov) = some ['m'] ∧ newSegs Ex.cfg .init [Ex.reserve2, (Ex.nil, Ex.confA)] = true ∧
    ((Agg.step Ex.cfg w Ex.nil Ex.confA).1.sent.map (·.corr)).Nodup ∧
    (Agg.step Ex.cfg w Ex.nil Ex.confA).2 = .ok none ∧ (Agg.step Ex.cfg w Ex.nil (.reserveFailed ⟨['r'], ['1']⟩)).2 = .error .security ∧
    (Agg.step Ex.cfg (Agg.step Ex.cfg w Ex.nil Ex.confA).1 Ex.nil (.reserveFailed ⟨['m'], ['1']⟩)).2 = .error .nonExistent := by decide +kernel

/-- After a restart the segments are not in memory: a foreign provider is refused, the right one is not. -/
example : let w := (runMsgs Ex.cfg .init (Ex.held ++ [(Ex.o, .commit Ex.hdr ['c', '1'])])).restart
    (Agg.step Ex.cfg w Ex.nil (.commitConfirmed ⟨['r'], ['x']⟩ ['s', '1'])).2 = .error .nonExistent ∧ dget w.scache ['s', '1'] = none ∧
    (Agg.step Ex.cfg w Ex.nil (.commitConfirmed ⟨['m'], ['x']⟩ ['s', '1'])).1.subs ≠ w.subs := by decide +kernel

end OpenNSA.Agg
