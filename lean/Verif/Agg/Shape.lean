import Verif.Agg.Serial
/- What one message does to each connection and what the parent is told, in executions handling one message after the other. -/
namespace OpenNSA.Agg
open OpenNSA Py Coro

/-- The connection an answer or notification is about (query results: none). -/
def Out.about : Out → Option Str
  | .reserveConfirmed _ cid .. => some cid
  | .reserveFailed _ cid => some cid
  | .reserveCommitConfirmed _ cid => some cid
  | .reserveAbortConfirmed _ cid => some cid
  | .provisionConfirmed _ cid => some cid
  | .releaseConfirmed _ cid => some cid
  | .terminateConfirmed _ cid => some cid
  | .reserveTimeout _ cid _ => some cid
  | .dataPlane _ cid .. => some cid
  | .errorEvent _ cid _ => some cid
  | .querySummary .. => none
  | .queryRecursive .. => none

/-- A notification that is not an answer. -/
def Out.isNote : Out → Bool
  | .reserveTimeout .. => true
  | .dataPlane .. => true
  | .errorEvent .. => true
  | _ => false

/-- What a message does to the states of a connection, with what the parent is told about it. -/
inductive Tr (m : Msg) (cid to_ : Str) : ConnStates → ConnStates → List Out → Prop
  | same (s) : Tr m cid to_ s s []
  | commit {h s s'} (hm : m = .commit h cid) (hs : switchR s .committing = some s') : Tr m cid to_ s s' []
  | abort {h s s'} (hm : m = .abort h cid) (hs : switchR s .aborting = some s') : Tr m cid to_ s s' []
  | provision {h s s'} (hm : m = .provision h cid) (hs : switchP s .provisioning = some s') : Tr m cid to_ s s' []
  | release {h s s'} (hm : m = .release h cid) (hs : switchP s .releasing = some s') : Tr m cid to_ s s' []
  | terminate {h s s'} (hm : m = .terminate h cid) (hs : switchL s .terminating = some s') : Tr m cid to_ s s' []
  | held {h scid c s src dst st en bw} (hm : m = .reserveConfirmed h scid c) (hs : s.r = .checking) : Tr m cid to_ s { s with r := .held } [.reserveConfirmed to_ cid src dst st en bw]
  | failed {h s} (hm : m = .reserveFailed h) (hs : s.r = .checking ∨ s.r = .failed) : Tr m cid to_ s { s with r := .failed } [.reserveFailed to_ cid]
  | committed {h scid s s'} (hm : m = .commitConfirmed h scid) (hs : switchR s .start = some s') : Tr m cid to_ s s' [.reserveCommitConfirmed to_ cid]
  | aborted {h scid s s'} (hm : m = .abortConfirmed h scid) (hs : switchR s .start = some s') : Tr m cid to_ s s' [.reserveAbortConfirmed to_ cid]
  | provisioned {h scid s s'} (hm : m = .provisionConfirmed h scid) (hs : switchP s .provisioned = some s') : Tr m cid to_ s s' [.provisionConfirmed to_ cid]
  | released {h scid s s'} (hm : m = .releaseConfirmed h scid) (hs : switchP s .released = some s') : Tr m cid to_ s s' [.releaseConfirmed to_ cid]
  | terminated {h scid s s'} (hm : m = .terminateConfirmed h scid) (hs : switchL s .terminated = some s') : Tr m cid to_ s s' [.terminateConfirmed to_ cid]
  | note {s o} (ho : o.isNote = true) : Tr m cid to_ s s [o]

/-- A connection before and after. -/
structure RowStep (m : Msg) (outs : List Out) (row row' : CRow) : Prop where
  key : row'.key = row.key
  cid : row'.cid = row.cid
  requester : row'.requester = row.requester
  ends : (∃ h i c, m = .reserveConfirmed h i c) ∨ (row'.src = row.src ∧ row'.dst = row.dst)
  tr : Tr m row.cid row.requester row.st row'.st (outs.filter fun o => o.about = some row.cid)

/-- The connections and the messages to the parent before and after a message. -/
structure Shape (m : Msg) (w w' : World) (outs : List Out) (old news : List CRow) : Prop where
  outbox : w'.outbox = w.outbox ++ outs
  conns : w'.conns = old ++ news
  rows : List.Forall₂ (RowStep m outs) w.conns old
  new : ∀ row ∈ news, (∃ h i c, m = .reserve h i c) ∧ row.key = w.ckey ∧ (∀ r ∈ w.conns, r.cid ≠ row.cid) ∧ row.st.r = .checking ∧ row.st.p = .released ∧ outs = []
  abt : ∀ o ∈ outs, ∀ cid, o.about = some cid → ∃ row ∈ w.conns, row.cid = cid

theorem RowStep.rfl' {m : Msg} {outs : List Out} {row : CRow} (h : ∀ o ∈ outs, o.about ≠ some row.cid) : RowStep m outs row row := by
  refine ⟨rfl, rfl, rfl, Or.inr ⟨rfl, rfl⟩, ?_⟩
  have : outs.filter (fun o => o.about = some row.cid) = [] := by
    rw [List.filter_eq_nil_iff]
    intro o ho
    simpa using h o ho
  rw [this]
  exact .same _

theorem Shape.quiet {m : Msg} {w w' : World} (h : Same w w') : ∃ outs old news, Shape m w w' outs old news :=
  ⟨[], w.conns, [], ⟨by simp [h.outbox], by simp [h.conns], List.forall₂_same.mpr fun _ _ => .rfl' (by simp), by simp, by simp⟩⟩

/-- Messages about no connection. -/
theorem Shape.query {m : Msg} {w w' : World} {o : Out} (ho : o.about = none) (h1 : w'.conns = w.conns) (h2 : w'.outbox = w.outbox ++ [o]) :
    ∃ outs old news, Shape m w w' outs old news :=
  ⟨[o], w.conns, [], ⟨h2, by simp [h1], List.forall₂_same.mpr fun _ _ => .rfl' (by simp [ho]), by simp, by simp [ho]⟩⟩

theorem setCRow_forall₂ {rows : List CRow} {row row' : CRow} (hk : (rows.map (·.key)).Nodup) (hr : row ∈ rows) (he : row'.key = row.key) :
    List.Forall₂ (fun x x' => (x ≠ row ∧ x' = x) ∨ (x = row ∧ x' = row')) rows (setCRow rows row') := by
  unfold setCRow
  rw [List.forall₂_map_right_iff, List.forall₂_same]
  intro x hx
  split
  · rename_i h
    exact Or.inr ⟨nodup_map_inj hk hx hr (h.trans he), rfl⟩
  · rename_i h
    refine Or.inl ⟨?_, rfl⟩
    rintro rfl
    exact h he.symm

/-- One connection changes and the parent is told something about it. -/
theorem Shape.one {m : Msg} {w w' : World} (hg : Good w) {row row' : CRow} (hr : row ∈ w.conns) {outs : List Out}
    (hk : row'.key = row.key) (hc : row'.cid = row.cid) (hq : row'.requester = row.requester)
    (hends : (∃ h i c, m = .reserveConfirmed h i c) ∨ (row'.src = row.src ∧ row'.dst = row.dst))
    (ho : ∀ o ∈ outs, o.about = some row.cid) (ht : Tr m row.cid row.requester row.st row'.st outs)
    (h1 : w'.conns = setCRow w.conns row') (h2 : w'.outbox = w.outbox ++ outs) : ∃ outs old news, Shape m w w' outs old news := by
  refine ⟨outs, setCRow w.conns row', [], h2, by simp [h1], ?_, by simp, ?_⟩
  · have h := setCRow_forall₂ hg.ckeys hr hk
    -- membership in the rows is needed to tell ids apart
    have hmem : List.Forall₂ (fun x x' => x ∈ w.conns ∧ ((x ≠ row ∧ x' = x) ∨ (x = row ∧ x' = row'))) w.conns (setCRow w.conns row') := by
      have : ∀ (L L' : List CRow), List.Forall₂ (fun x x' => (x ≠ row ∧ x' = x) ∨ (x = row ∧ x' = row')) L L' → (∀ x ∈ L, x ∈ w.conns) →
          List.Forall₂ (fun x x' => x ∈ w.conns ∧ ((x ≠ row ∧ x' = x) ∨ (x = row ∧ x' = row'))) L L' := by
        intro L L' h
        induction h with
        | nil => intro _; exact .nil
        | cons h1 _ ih => intro hm; exact .cons ⟨hm _ (by simp), h1⟩ (ih fun x hx => hm x (by simp [hx]))
      exact this _ _ h fun _ hx => hx
    refine hmem.imp ?_
    rintro x x' ⟨hx, ⟨hne, rfl⟩ | ⟨rfl, rfl⟩⟩
    · refine .rfl' fun o hmem hab => hne (nodup_map_inj hg.ccids hx hr ?_)
      rw [ho o hmem] at hab
      simpa using hab.symm
    · refine ⟨hk, hc, hq, hends, ?_⟩
      rw [List.filter_eq_self.mpr (by simpa using ho)]
      exact ht
  · intro o hmem cid hab
    rw [ho o hmem] at hab
    exact ⟨row, hr, by simpa using hab⟩

theorem Shape.upEff {m : Msg} {w w1 w' : World} (hg : Good w) {row : CRow} (hr : row ∈ w.conns) {there : ConnStates → Bool}
    {f : ConnStates → Option ConnStates} {msg : Str → Str → Out} (hab : ∀ t c, (msg t c).about = some c)
    (hf : ∀ st, f row.st = some st → Tr m row.cid row.requester row.st st [msg row.requester row.cid]) (h1 : w1.conns = w.conns) (h2 : w1.outbox = w.outbox)
    (hs : Same (Agg.upEff w1 row there f msg) w') : ∃ outs old news, Shape m w w' outs old news := by
  have hquiet : ∀ v : World, v.conns = w.conns → v.outbox = w.outbox → Same v w' → ∃ outs old news, Shape m w w' outs old news := by
    intro v e1 e2 hs
    refine ⟨[], w.conns, [], ⟨by simp [hs.outbox, e2], by simp [hs.conns, e1], List.forall₂_same.mpr fun _ _ => .rfl' (by simp), by simp, by simp⟩⟩
  unfold Agg.upEff at hs
  split at hs
  · split at hs
    · exact hquiet _ h1 h2 hs
    · rename_i st hst
      refine Shape.one hg hr (row' := { row with st }) (outs := [msg row.requester row.cid]) rfl rfl rfl (Or.inr ⟨rfl, rfl⟩) (by simpa using hab _ _) (hf st hst) ?_ ?_
      · rw [hs.conns, h1]
      · rw [hs.outbox, h2]
  · exact hquiet _ h1 h2 hs

theorem Shape.reply {m : Msg} {w w' : World} (hg : Good w) {prov cid : Str} {set : ConnStates → Option ConnStates} {there : ConnStates → Bool}
    {f : ConnStates → Option ConnStates} {msg : Str → Str → Out} (hab : ∀ t c, (msg t c).about = some c)
    (hf : ∀ cid t s st, f s = some st → Tr m cid t s st [msg t cid]) (he : ReplyEff prov cid set there f msg w w') :
    ∃ outs old news, Shape m w w' outs old news := by
  cases he with
  | unknown _ h => exact Shape.quiet h
  | refused _ _ _ h => exact Shape.quiet h
  | done _ _ _ hr _ h => exact Shape.upEff hg hr hab (fun st => hf _ _ _ st) (w1 := segEff w _) rfl rfl h

theorem Shape.req {m : Msg} {cfg : Cfg} {w w' : World} (hg : Good w) {cid : Str} {f g : ConnStates → Option ConnStates} {op : Str → POp}
    {r : Except Err (Option Str)} (hf : ∀ t s st, f s = some st → Tr m cid t s st []) (he : ReqEff cfg cid f g op w w' r) :
    ∃ outs old news, Shape m w w' outs old news := by
  cases he with
  | refused _ _ h => exact Shape.quiet h
  | @done row st _ _ _ hrow hc _ hst _ _ _ _ h =>
    refine Shape.one hg hrow (outs := []) (row' := { row with st }) rfl rfl rfl (Or.inr ⟨rfl, rfl⟩) (by simp) (by rw [hc]; exact hf _ _ _ hst) ?_ ?_
    · rw [h.conns]
    · rw [h.outbox]; simp

theorem Shape.noteOne {m : Msg} {w w' : World} (hg : Good w) {row : CRow} (hr : row ∈ w.conns) {o : Out} (ho : o.about = some row.cid)
    (hn : o.isNote = true) (h1 : w'.conns = w.conns) (h2 : w'.outbox = w.outbox ++ [o]) : ∃ outs old news, Shape m w w' outs old news :=
  Shape.one hg hr (row' := row) (outs := [o]) rfl rfl rfl (Or.inr ⟨rfl, rfl⟩) (by simpa using ho) (.note hn) (by rw [h1, setCRow_self hg.ckeys hr]) h2

theorem eff_shape {cfg : Cfg} {w w' : World} (hg : Good w) {r : Except Err (Option Str)} {m : Msg} (he : Eff cfg w w' r m) :
    ∃ outs old news, Shape m w w' outs old news := by
  cases m with
  | reserve h cid c =>
    cases he with
    | nothing h => exact Shape.quiet h
    | made hkey hnew hreq hst hends hpath hpre hcalls hcorr hterms hs =>
      refine ⟨[], w.conns, [_], by simp [hs.outbox], hs.conns, List.forall₂_same.mpr fun _ _ => .rfl' (by simp), ?_, by simp⟩
      intro row hrow
      rw [List.mem_singleton.mp hrow]
      exact ⟨⟨_, _, _, rfl⟩, hkey, hnew, hst.1, hst.2, rfl⟩
  | commit h cid => exact Shape.req hg (fun _ _ _ h => .commit rfl h) he
  | abort h cid => exact Shape.req hg (fun _ _ _ h => .abort rfl h) he
  | provision h cid => exact Shape.req hg (fun _ _ _ h => .provision rfl h) he
  | release h cid => exact Shape.req hg (fun _ _ _ h => .release rfl h) he
  | terminate h cid => exact Shape.req hg (fun _ _ _ h => .terminate rfl h) he
  | querySummary h cids gids =>
    cases he with
    | refused _ _ h => exact Shape.quiet h
    | told _ _ h => exact Shape.query (o := .querySummary ..) rfl h.conns h.outbox
  | queryRecursive h cids gids =>
    cases he with
    | refused _ h => exact Shape.quiet h
    | asked _ _ _ _ _ _ _ _ h =>
      exact ⟨[], w.conns, [], by simp [h.outbox], by simp [h.conns], List.forall₂_same.mpr fun _ _ => .rfl' (by simp), by simp, by simp⟩
  | reserveConfirmed h cid c =>
    cases he with
    | unknown _ h => exact Shape.quiet h
    | other _ _ h => exact Shape.quiet h
    | stored _ _ hw hr hk hrow _ h =>
      rename_i r w1 row row' _ _ _
      obtain ⟨e1, e2, e3, e4⟩ := confirmLabels_frame row r.order (w1.segments row.key).length c
      have hl : row' = confirmLabels row r.order (w1.segments row.key).length c := hrow
      refine Shape.one hg hr (row' := row') (outs := []) (by rw [hl]; exact e1) (by rw [hl]; exact e2) (by rw [hl]; exact e4) (Or.inl ⟨_, _, _, rfl⟩) (by simp) ?_ h.conns ?_
      · rw [hl, e3]; exact .same _
      · rw [h.outbox, hw]; simp [storedSeg]
    | told _ _ hw hr hk hrow hc _ h =>
      rename_i r w1 row row' _ _ _
      obtain ⟨e1, e2, e3, e4⟩ := confirmLabels_frame row r.order (w1.segments row.key).length c
      have hl : row' = confirmLabels row r.order (w1.segments row.key).length c := hrow
      have hcid : row'.cid = row.cid := by rw [hl]; exact e2
      have hq : row'.requester = row.requester := by rw [hl]; exact e4
      refine Shape.one hg hr (row' := { row' with st := { row.st with r := .held } }) (outs := [_]) (by rw [hl]; exact e1) hcid hq (Or.inl ⟨_, _, _, rfl⟩) ?_ ?_ h.conns h.outbox
      · simp [Out.about, hcid]
      · rw [hcid, hq]; exact .held rfl hc
  | reserveFailed h =>
    cases he with
    | unknown _ h => exact Shape.quiet h
    | other _ _ h => exact Shape.quiet h
    | late _ _ _ _ _ h =>
      exact ⟨[], w.conns, [], by simp [h.outbox], by simp [h.conns], List.forall₂_same.mpr fun _ _ => .rfl' (by simp), by simp, by simp⟩
    | told _ _ hr _ hst h =>
      rename_i row _ _ _
      exact Shape.one hg hr (row' := { row with st := { row.st with r := .failed } }) (outs := [.reserveFailed row.requester row.cid]) rfl rfl rfl (Or.inr ⟨rfl, rfl⟩) (by simp [Out.about]) (.failed rfl hst) h.conns h.outbox
  | commitConfirmed h cid => exact Shape.reply hg (fun _ _ => rfl) (fun _ _ _ _ h => .committed rfl h) he
  | abortConfirmed h cid => exact Shape.reply hg (fun _ _ => rfl) (fun _ _ _ _ h => .aborted rfl h) he
  | provisionConfirmed h cid => exact Shape.reply hg (fun _ _ => rfl) (fun _ _ _ _ h => .provisioned rfl h) he
  | releaseConfirmed h cid => exact Shape.reply hg (fun _ _ => rfl) (fun _ _ _ _ h => .released rfl h) he
  | terminateConfirmed h cid => exact Shape.reply hg (fun _ _ => rfl) (fun _ _ _ _ h => .terminated rfl h) he
  | timeout h cid n =>
    cases he with
    | unknown _ h => exact Shape.quiet h
    | refused _ _ _ h => exact Shape.quiet h
    | done _ _ _ _ _ h _ =>
      exact ⟨[], w.conns, [], by simp [h.outbox, segEff], by simp [h.conns, segEff], List.forall₂_same.mpr fun _ _ => .rfl' (by simp), by simp, by simp⟩
    | told _ _ _ hr _ _ _ h => exact Shape.noteOne hg hr (o := .reserveTimeout ..) rfl rfl h.conns h.outbox
  | dataPlane h cid a v c =>
    cases he with
    | unknown _ h => exact Shape.quiet h
    | told _ _ _ hr _ h => exact Shape.noteOne hg hr (o := .dataPlane ..) rfl rfl h.conns h.outbox
  | errorEvent h cid n =>
    cases he with
    | none h => exact Shape.quiet h
    | told _ _ hr _ h => exact Shape.noteOne hg hr (o := .errorEvent ..) rfl rfl h.conns h.outbox
  | queryConfirmed h res =>
    cases he with
    | ignored _ h => exact Shape.quiet h
    | orphan _ _ _ h => exact ⟨[], w.conns, [], by simp [h.outbox], by simp [h.conns], List.forall₂_same.mpr fun _ _ => .rfl' (by simp), by simp, by simp⟩
    | waiting _ _ _ _ h => exact ⟨[], w.conns, [], by simp [h.outbox], by simp [h.conns], List.forall₂_same.mpr fun _ _ => .rfl' (by simp), by simp, by simp⟩
    | failed _ _ _ _ _ _ h => exact ⟨[], w.conns, [], by simp [h.outbox], by simp [h.conns], List.forall₂_same.mpr fun _ _ => .rfl' (by simp), by simp, by simp⟩
    | told _ _ _ _ _ _ h => exact Shape.query (o := .queryRecursive ..) rfl h.conns h.outbox

theorem step_shape {cfg : Cfg} {w : World} (hg : Good w) (o : Oracle) (m : Msg) (hn : NewSeg w m) :
    ∃ outs old news, Shape m w (Agg.step cfg w o m).1 outs old news := by
  obtain ⟨outs, old, news, h⟩ := eff_shape (hg.frame o w.notif w.outbox w.sent w.qcalls) (step_eff (cfg := cfg) hg o m hn).2
  exact ⟨outs, old, news, h.outbox, h.conns, h.rows, h.new, h.abt⟩

/-- An invariant of the connections: it relates the states of a connection to what the parent has been told about it and to the
messages handled so far. -/
theorem Runs.conn_inv {cfg : Cfg} (I : List Msg → Str → ConnStates → List Out → Prop)
    (hnew : ∀ ms cid st, st.r = .checking → st.p = .released → I ms cid st [])
    (hstep : ∀ ms m cid to_ s s' outs new, I ms cid s outs → Tr m cid to_ s s' new → I (ms ++ [m]) cid s' (outs ++ new))
    {ms : List Msg} {w : World} (h : Runs cfg ms w) :
    (∀ row ∈ w.conns, I ms row.cid row.st (w.outbox.filter fun o => o.about = some row.cid)) ∧
    ∀ o ∈ w.outbox, ∀ cid, o.about = some cid → ∃ row ∈ w.conns, row.cid = cid := by
  induction h with
  | init => simp [World.init]
  | restart _ ih => exact ih
  | @step ms w hr oo m hn ih =>
    obtain ⟨outs, old, news, hs⟩ := step_shape (cfg := cfg) hr.good oo m hn
    obtain ⟨ih1, ih2⟩ := ih
    constructor
    · intro row hrow
      rw [hs.conns] at hrow
      rw [hs.outbox, List.filter_append]
      rcases List.mem_append.mp hrow with hrow | hrow
      · obtain ⟨x, hx, hxr⟩ := forall₂_right_exists hs.rows _ hrow
        rw [hxr.cid]
        exact hstep _ _ _ _ _ _ _ _ (ih1 x hx) hxr.tr
      · obtain ⟨_, _, h2, h3, h4, h5⟩ := hs.new row hrow
        have : List.filter (fun o => decide (o.about = some row.cid)) w.outbox = [] := by
          rw [List.filter_eq_nil_iff]
          intro o ho
          simp only [decide_eq_true_eq]
          intro hab
          obtain ⟨r, hr, hc⟩ := ih2 o ho _ hab
          exact h2 r hr hc
        rw [this, h5]
        exact hnew _ _ _ h3 h4
    · intro o ho cid hab
      have key : ∀ r ∈ w.conns, ∃ row ∈ (Agg.step cfg w oo m).1.conns, row.cid = r.cid := by
        intro r hr
        obtain ⟨x', hx', hxr⟩ := forall₂_left_exists hs.rows _ hr
        exact ⟨x', by rw [hs.conns]; exact List.mem_append_left _ hx', hxr.cid⟩
      rw [hs.outbox] at ho
      rcases List.mem_append.mp ho with ho | ho
      · obtain ⟨r, hr, rfl⟩ := ih2 o ho _ hab
        exact key r hr
      · obtain ⟨r, hr, rfl⟩ := hs.abt o ho _ hab
        exact key r hr

end OpenNSA.Agg
