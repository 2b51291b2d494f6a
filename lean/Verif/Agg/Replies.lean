import Verif.Agg.GoodSubs
/- Effect of replies and notifications about segments when messages are handled one after the other. -/
namespace OpenNSA.Agg
open OpenNSA Py Coro

theorem Good.frame {w : World} (hg : Good w) (o : Oracle) (n : Nat) (ob : List Out) (s : List PCall)
    (q : List (Str × (Str × Option (List Str)))) : Good { w with orc := o, notif := n, outbox := ob, sent := s, qcalls := q } :=
  ⟨hg.ckeys, hg.ckeyb, hg.ccids, hg.skeys, hg.skeyb, hg.scids, hg.ccache, hg.scache, hg.sfk, hg.rfk, hg.qfk⟩

/-- The segment a reply is taken to be about. -/
theorem getSub_cases {w : World} (hg : Good w) (prov cid : Str) :
    ((getSubConnection prov cid).run machine w = (w, .error .nonExistent) ∧ ∀ s ∈ w.subs, s.cid = cid → s.prov ≠ prov ∧ dget w.scache cid = none) ∨
    ∃ s ∈ w.subs, s.cid = cid ∧ (s.prov = prov ∨ (dget w.scache cid).isSome) ∧
      ∃ ref w', (getSubConnection prov cid).run machine w = (w', .ok ref) ∧ Look w w' ∧ Good w' ∧ LiveS w' ref s := by
  by_cases h : ∃ s ∈ w.subs, s.cid = cid ∧ (s.prov = prov ∨ (dget w.scache cid).isSome)
  · obtain ⟨s, hs, rfl, hp⟩ := h
    exact Or.inr ⟨s, hs, rfl, hp, getSubConnection_hit hg hs prov hp⟩
  · refine Or.inl ?_
    have : ∀ s ∈ w.subs, s.cid = cid → s.prov ≠ prov ∧ dget w.scache cid = none := by
      intro s hs hc
      refine ⟨fun hp => h ⟨s, hs, hc, Or.inl hp⟩, ?_⟩
      cases hd : dget w.scache cid with
      | none => rfl
      | some r => exact absurd ⟨s, hs, hc, Or.inr (by simp [hd])⟩ h
    exact ⟨getSubConnection_miss hg this, this⟩

/-- The connection is switched and the parent told, if all segments are there and the connection is not. -/
def upEff (w : World) (row : CRow) (there : ConnStates → Bool) (f : ConnStates → Option ConnStates) (msg : Str → Str → Out) : World :=
  if ((w.segments row.key).all fun s => there s.st) ∧ ¬ there row.st then
    match f row.st with
    | none => w
    | some st => { w with conns := setCRow w.conns { row with st }, outbox := w.outbox ++ [msg row.requester row.cid] }
  else w

/-- A segment row is written. -/
def segEff (w : World) (s : SRow) : World := { w with subs := setSRow w.subs s }

theorem Same.upEff {w w' : World} (h : Same w w') (row : CRow) (there : ConnStates → Bool) (f : ConnStates → Option ConnStates)
    (msg : Str → Str → Out) : Same (upEff w row there f msg) (upEff w' row there f msg) := by
  have hs : w'.segments row.key = w.segments row.key := by rw [World.segments, World.segments, h.subs]
  simp only [Agg.upEff, hs]
  split
  · split
    · exact h
    · exact ⟨by simp only [h.conns], h.subs, h.ckey, h.skey, h.resv, h.qreqs, h.qcalls, h.notif, by simp only [h.outbox], h.sent⟩
  · exact h

theorem confirmAll_run {w : World} (hg : Good w) {row : CRow} (hr : row ∈ w.conns) (there : ConnStates → Bool)
    (f : ConnStates → Option ConnStates) (msg : Str → Str → Out) :
    ∃ w' r, (confirmAll row.key there f msg).run machine w = (w', r) ∧ Good w' ∧ Same (upEff w row there f msg) w' := by
  obtain ⟨ref, refs, w1, h1, l1, g1, c1, s1⟩ := family_run hg hr
  have hseg : w1.segments row.key = w.segments row.key := by rw [World.segments, World.segments, l1.same.subs]
  have hup := l1.same.upEff row there f msg
  simp only [confirmAll, run_bind', h1, andThen_ok, getSs_run s1, run_issue, machine_exec, exec_getC c1.obj]
  split
  · rename_i hc
    simp only [run_bind', switchC_upd f c1.obj]
    cases hf : f row.st with
    | none =>
      refine ⟨w1, _, rfl, g1, ?_⟩
      simp only [upEff, hseg, hc, hf] at hup ⊢
      simpa using hup
    | some st =>
      have hu := updC_good g1 c1 (row' := { row with st }) rfl rfl
      simp only [andThen_ok, run_bind', run_issue, machine_exec, exec_getC hu.2.1.obj, exec_emit, run_pure]
      refine ⟨_, _, rfl, hu.1.frame _ _ _ _ _, ?_⟩
      simp only [upEff, hseg, hc, hf] at hup ⊢
      exact hup.trans (by constructor <;> simp [updC])
  · rename_i hc
    refine ⟨w1, _, rfl, g1, ?_⟩
    simp only [upEff]
    rw [if_neg hc]
    exact l1.same

theorem exists_conn {w : World} (hg : Good w) {s : SRow} (hs : s ∈ w.subs) : ∃ row ∈ w.conns, row.key = s.skey := hg.sfk s hs

/-- The effect of a reply that makes the segment `s` into `s'`. -/
theorem reply_run {w w1 : World} (hg1 : Good w1) (l : Look w w1) {ref : Nat} {s s' : SRow} (hl : LiveS w1 ref s)
    (hk : s'.key = s.key) (hc : s'.cid = s.cid) (hs : s'.skey = s.skey) (there : ConnStates → Bool)
    (f : ConnStates → Option ConnStates) (msg : Str → Str → Out) :
    ∃ row ∈ w.conns, row.key = s.skey ∧ ∃ w' r, (confirmAll s.skey there f msg).run machine (updS w1 ref s') = (w', r) ∧ Good w' ∧
      Same (upEff (segEff w s') row there f msg) w' := by
  have hu := updS_good hg1 hl hk hc hs
  have hmem : s ∈ w1.subs := hl.mem
  obtain ⟨row, hr, hrk⟩ := hg1.sfk s hmem
  have hr' : row ∈ w.conns := by rw [← l.same.conns]; exact hr
  obtain ⟨w', r, h1, h2, h3⟩ := confirmAll_run hu.1 (row := row) hr there f msg
  refine ⟨row, hr', hrk, w', r, ?_, h2, ?_⟩
  · rw [← hrk]; exact h1
  · refine Same.trans ?_ h3
    apply Same.upEff
    have h := l.same
    exact ⟨h.conns, by simp [updS, segEff, h.subs], h.ckey, h.skey, h.resv, h.qreqs, h.qcalls, h.notif, h.outbox, h.sent⟩

/-- The outcome of a reply about a segment: unknown, refused, or `set` applied to the segment and, if that completes the
operation, to the connection. -/
inductive ReplyEff (prov cid : Str) (set : ConnStates → Option ConnStates) (there : ConnStates → Bool) (f : ConnStates → Option ConnStates)
    (msg : Str → Str → Out) (w w' : World) : Prop
  | unknown (hu : ∀ s ∈ w.subs, s.cid = cid → s.prov ≠ prov) (h : Same w w')
  | refused {s} (hs : s ∈ w.subs) (hc : s.cid = cid) (hset : set s.st = none) (h : Same w w')
  | done {s row st} (hs : s ∈ w.subs) (hc : s.cid = cid) (hset : set s.st = some st) (hr : row ∈ w.conns) (hk : row.key = s.skey)
      (h : Same (upEff (segEff w { s with st }) row there f msg) w')

theorem confirmSwitch_run {w : World} (hg : Good w) (h : RHdr) (cid : Str) (g : ConnStates → Option ConnStates) (there : ConnStates → Bool)
    (f : ConnStates → Option ConnStates) (msg : Str → Str → Out) :
    Good ((confirmSwitch h cid g there f msg).run machine w).1 ∧
    ReplyEff h.prov cid g there f msg w ((confirmSwitch h cid g there f msg).run machine w).1 := by
  rcases getSub_cases hg h.prov cid with ⟨h1, h2⟩ | ⟨s, hs, hc, _, ref, w1, h1, l1, g1, s1⟩
  · simp only [confirmSwitch, run_bind', h1, andThen_error]
    exact ⟨hg, .unknown (fun s hs hc => (h2 s hs hc).1) .rfl⟩
  · simp only [confirmSwitch, run_bind', h1, andThen_ok, run_issue, machine_exec, exec_getS s1.obj, switchS_upd g s1.obj]
    cases hf : g s.st with
    | none => exact ⟨g1, .refused hs hc hf l1.same⟩
    | some st =>
      obtain ⟨row, hr, hrk, w', r, hrun, hg', hsame⟩ := reply_run g1 l1 s1 (s' := { s with st }) rfl rfl rfl there f msg
      simp only [andThen_ok, hrun]
      exact ⟨hg', .done hs hc hf hr hrk hsame⟩

theorem confirmSet_run {w : World} (hg : Good w) (h : RHdr) (cid : Str) (set : ConnStates → ConnStates) (there : ConnStates → Bool)
    (f : ConnStates → Option ConnStates) (msg : Str → Str → Out) :
    Good ((confirmSet h cid set there f msg).run machine w).1 ∧
    ReplyEff h.prov cid (fun s => some (set s)) there f msg w ((confirmSet h cid set there f msg).run machine w).1 := by
  rcases getSub_cases hg h.prov cid with ⟨h1, h2⟩ | ⟨s, hs, hc, _, ref, w1, h1, l1, g1, s1⟩
  · simp only [confirmSet, run_bind', h1, andThen_error]
    exact ⟨hg, .unknown (fun s hs hc => (h2 s hs hc).1) .rfl⟩
  · have hset := setS_saveS_run (w := w1) { s with st := set s.st } s1.obj
    simp only [run_bind', run_issue, machine_exec, exec_setS _ s1.obj, andThen_ok, exec_saveS] at hset
    simp only [confirmSet, run_bind', h1, andThen_ok, run_issue, machine_exec, exec_getS s1.obj, exec_setS _ s1.obj, exec_saveS, hset]
    obtain ⟨row, hr, hrk, w', r, hrun, hg', hsame⟩ := reply_run g1 l1 s1 (s' := { s with st := set s.st }) rfl rfl rfl there f msg
    simp only [hrun]
    exact ⟨hg', .done hs hc rfl hr hrk hsame⟩

/-! ### Timeouts, data plane changes, error events -/

/-- Effect of `reserveTimeout`. -/
inductive TimeoutEff (prov cid : Str) (n : Nat) (w w' : World) : Prop
  | unknown (hu : ∀ s ∈ w.subs, s.cid = cid → s.prov ≠ prov) (h : Same w w')
  | refused {s} (hs : s ∈ w.subs) (hc : s.cid = cid) (hset : switchR s.st .timeout = none) (h : Same w w')
  | done {s row st} (hs : s ∈ w.subs) (hc : s.cid = cid) (hset : switchR s.st .timeout = some st) (hr : row ∈ w.conns) (hk : row.key = s.skey)
      (h : Same (segEff w { s with st }) w')
      (hq : row.st.r = .failed ∨ (((segEff w { s with st }).segments row.key).filter fun s => s.st.r = .timeout).length ≠ 1)
  | told {s row st} (hs : s ∈ w.subs) (hc : s.cid = cid) (hset : switchR s.st .timeout = some st) (hr : row ∈ w.conns) (hk : row.key = s.skey)
      (hn : row.st.r ≠ .failed) (hq : (((segEff w { s with st }).segments row.key).filter fun s => s.st.r = .timeout).length = 1)
      (h : Same { segEff w { s with st } with outbox := w.outbox ++ [.reserveTimeout row.requester row.cid n] } w')

theorem reserveTimeout_run {w : World} (hg : Good w) (h : RHdr) (cid : Str) (n : Nat) :
    Good ((reserveTimeout h cid n).run machine w).1 ∧ TimeoutEff h.prov cid n w ((reserveTimeout h cid n).run machine w).1 := by
  rcases getSub_cases hg h.prov cid with ⟨h1, h2⟩ | ⟨s, hs, hc, _, ref, w1, h1, l1, g1, s1⟩
  · simp only [reserveTimeout, run_bind', h1, andThen_error]
    exact ⟨hg, .unknown (fun s hs hc => (h2 s hs hc).1) .rfl⟩
  · simp only [reserveTimeout, run_bind', h1, andThen_ok, switchS_upd _ s1.obj]
    cases hf : switchR s.st .timeout with
    | none => exact ⟨g1, .refused hs hc hf l1.same⟩
    | some st =>
      obtain ⟨g2, s2, _⟩ := updS_good g1 s1 (row' := { s with st }) rfl rfl rfl
      obtain ⟨row, hr, hrk⟩ := g1.sfk s s1.mem
      obtain ⟨cref, refs, w3, h3, l3, g3, c3, s3⟩ := family_run g2 (row := row) hr
      have hr' : row ∈ w.conns := by rw [← l1.same.conns]; exact hr
      have h3' : (family s.skey).run machine (updS w1 ref { s with st }) = (w3, .ok (cref, refs)) := by rw [hrk] at h3; exact h3
      have hsame : Same (segEff w { s with st }) w3 := by
        refine Same.trans ?_ l3.same
        have h := l1.same
        exact ⟨h.conns, by simp [updS, segEff, h.subs], h.ckey, h.skey, h.resv, h.qreqs, h.qcalls, h.notif, h.outbox, h.sent⟩
      have hseg : (updS w1 ref { s with st }).segments row.key = (segEff w { s with st }).segments row.key := by
        simp [World.segments, updS, segEff, l1.same.subs]
      simp only [andThen_ok, run_bind', run_issue, machine_exec, exec_getS s2.obj, h3', getSs_run s3, exec_getC c3.obj, hseg]
      split
      · rename_i hfail
        exact ⟨g3, .done hs hc hf hr' hrk hsame (Or.inl hfail)⟩
      · rename_i hfail
        split
        · rename_i hone
          simp only [run_bind', run_issue, machine_exec, exec_emit, andThen_ok, run_pure]
          refine ⟨g3.frame _ _ _ _ _, .told hs hc hf hr' hrk hfail hone ?_⟩
          exact ⟨hsame.conns, hsame.subs, hsame.ckey, hsame.skey, hsame.resv, hsame.qreqs, hsame.qcalls, hsame.notif,
            by simp only [hsame.outbox]; rfl, hsame.sent⟩
        · rename_i hone
          exact ⟨g3, .done hs hc hf hr' hrk hsame (Or.inr hone)⟩

/-- Effect of `dataPlaneStateChange`. -/
inductive DataPlaneEff (prov cid : Str) (a : Bool) (v : Int) (c : Bool) (w w' : World) : Prop
  | unknown (hu : ∀ s ∈ w.subs, s.cid = cid → s.prov ≠ prov) (h : Same w w')
  | told {s s' row} (hs : s ∈ w.subs) (hc : s.cid = cid) (hs' : s' = { s with dpActive := a, dpVersion := some v, dpCons := some c })
      (hr : row ∈ w.conns) (hk : row.key = s.skey)
      (h : Same { segEff w s' with outbox := w.outbox ++ [.dataPlane row.requester row.cid 0 (changeStatus ((segEff w s').segments row.key))] } w')

theorem dataPlane_run {w : World} (hg : Good w) (h : RHdr) (cid : Str) (a : Bool) (v : Int) (c : Bool) :
    Good ((dataPlaneStateChange h cid a v c).run machine w).1 ∧
    DataPlaneEff h.prov cid a v c w ((dataPlaneStateChange h cid a v c).run machine w).1 := by
  rcases getSub_cases hg h.prov cid with ⟨h1, h2⟩ | ⟨s, hs, hc, _, ref, w1, h1, l1, g1, s1⟩
  · simp only [dataPlaneStateChange, run_bind', h1, andThen_error]
    exact ⟨hg, .unknown (fun s hs hc => (h2 s hs hc).1) .rfl⟩
  · obtain ⟨s', hs'⟩ : ∃ s', s' = { s with dpActive := a, dpVersion := some v, dpCons := some c } := ⟨_, rfl⟩
    have hset := setS_saveS_run (w := w1) s' s1.obj
    simp only [run_bind', run_issue, machine_exec, exec_setS _ s1.obj, andThen_ok, exec_saveS] at hset
    have hkey : s'.key = s.key ∧ s'.cid = s.cid ∧ s'.skey = s.skey := by rw [hs']; exact ⟨rfl, rfl, rfl⟩
    obtain ⟨g2, s2, _⟩ := updS_good g1 s1 (row' := s') hkey.1 hkey.2.1 hkey.2.2
    obtain ⟨row, hr, hrk⟩ := g1.sfk s s1.mem
    obtain ⟨cref, refs, w3, h3, l3, g3, c3, s3⟩ := family_run g2 (row := row) hr
    have hr' : row ∈ w.conns := by rw [← l1.same.conns]; exact hr
    have h3' : (family s.skey).run machine (updS w1 ref s') = (w3, .ok (cref, refs)) := by rw [hrk] at h3; exact h3
    have hsame : Same (segEff w s') w3 := by
      refine Same.trans ?_ l3.same
      have h := l1.same
      exact ⟨h.conns, by simp [updS, segEff, h.subs], h.ckey, h.skey, h.resv, h.qreqs, h.qcalls, h.notif, h.outbox, h.sent⟩
    have hseg : (updS w1 ref s').segments row.key = (segEff w s').segments row.key := by
      simp [World.segments, updS, segEff, l1.same.subs]
    simp only [dataPlaneStateChange, run_bind', h1, andThen_ok, run_issue, machine_exec, exec_getS s1.obj, ← hs', exec_setS _ s1.obj,
      exec_saveS, hset, h3', getSs_run s3, exec_getC c3.obj, exec_emit, run_pure, hseg]
    refine ⟨g3.frame _ _ _ _ _, .told hs hc hs' hr' hrk ?_⟩
    exact ⟨hsame.conns, hsame.subs, hsame.ckey, hsame.skey, hsame.resv, hsame.qreqs, hsame.qcalls, hsame.notif,
      by simp only [hsame.outbox]; rfl, hsame.sent⟩

/-- Effect of `errorEvent`. -/
inductive ErrorEff (prov cid : Str) (n : Nat) (w w' : World) : Prop
  | none (h : Same w w')
  | told {s row} (hs : s ∈ w.subs) (hc : s.cid = cid) (hr : row ∈ w.conns) (hk : row.key = s.skey)
      (h : Same { w with outbox := w.outbox ++ [.errorEvent row.requester row.cid n] } w')

theorem errorEvent_run {w : World} (hg : Good w) (h : RHdr) (cid : Str) (n : Nat) :
    Good ((errorEvent h cid n).run machine w).1 ∧ ErrorEff h.prov cid n w ((errorEvent h cid n).run machine w).1 := by
  rcases getSub_cases hg h.prov cid with ⟨h1, h2⟩ | ⟨s, hs, hc, _, ref, w1, h1, l1, g1, s1⟩
  · simp only [errorEvent, run_bind', h1, andThen_error]
    exact ⟨hg, .none .rfl⟩
  · obtain ⟨row, hr, hrk⟩ := g1.sfk s s1.mem
    obtain ⟨cref, refs, w3, h3, l3, g3, c3, s3⟩ := family_run g1 (row := row) hr
    have hr' : row ∈ w.conns := by rw [← l1.same.conns]; exact hr
    have h3' : (family s.skey).run machine w1 = (w3, .ok (cref, refs)) := by rw [hrk] at h3; exact h3
    simp only [errorEvent, run_bind', h1, andThen_ok, run_issue, machine_exec, exec_getS s1.obj, h3', exec_getC c3.obj]
    have hsame := l1.same.trans l3.same
    split
    · simp only [run_bind', run_issue, machine_exec, exec_emit, andThen_ok, run_pure]
      refine ⟨g3.frame _ _ _ _ _, .told hs hc hr' hrk ?_⟩
      exact ⟨hsame.conns, hsame.subs, hsame.ckey, hsame.skey, hsame.resv, hsame.qreqs, hsame.qcalls, hsame.notif,
        by simp only [hsame.outbox], hsame.sent⟩
    · exact ⟨g3, .none hsame⟩

end OpenNSA.Agg
