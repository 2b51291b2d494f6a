import Verif.Agg.PropsConfirm
/- Bookkeeping of reservations in executions handling one message after the other: which segments have been asked for, which answers
are outstanding, which segments are stored. -/
namespace OpenNSA.Agg
open OpenNSA Py Coro

/-- The connection a reservation request to a provider is made for. -/
def PCall.reserveFor (c : PCall) : Option Str :=
  match c.op with
  | .reserve cid _ _ _ _ _ => some cid
  | _ => none

/-- The segments asked for, in order. -/
def World.asked (w : World) (cid : Str) : List PCall := w.sent.filter fun c => c.reserveFor = some cid

/-- No correlation id has been used twice. -/
def World.freshIds (w : World) : Prop := (w.sent.map (·.corr)).Nodup

/-- A segment whose fixed attributes have not changed. -/
structure SameSeg (s s' : SRow) : Prop where
  key : s'.key = s.key
  skey : s'.skey = s.skey
  cid : s'.cid = s.cid
  prov : s'.prov = s.prov
  order : s'.order = s.order
  src : s'.src = s.src
  dst : s'.dst = s.dst

theorem SameSeg.rfl' (s : SRow) : SameSeg s s := ⟨rfl, rfl, rfl, rfl, rfl, rfl, rfl⟩

/-- Nothing happens to the segments and reservations. -/
structure Calm (w w' : World) : Prop where
  resv : w'.resv = w.resv
  subs : List.Forall₂ SameSeg w.subs w'.subs
  sent : ∃ calls, w'.sent = w.sent ++ calls ∧ ∀ c ∈ calls, c.reserveFor = none

theorem Calm.of {w w' : World} (h1 : w'.resv = w.resv) (h2 : w'.subs = w.subs) (h3 : w'.sent = w.sent) : Calm w w' :=
  ⟨h1, h2 ▸ List.forall₂_same.mpr fun _ _ => .rfl' _, [], by simp [h3], by simp⟩

theorem sameSeg_setSRow {rows : List SRow} {s s' : SRow} (hk : (rows.map (·.key)).Nodup) (hs : s ∈ rows) (h : SameSeg s s') :
    List.Forall₂ SameSeg rows (setSRow rows s') := by
  refine (setSRow_forall₂ hk hs h.key).imp ?_
  rintro x x' (⟨_, rfl⟩ | ⟨rfl, rfl⟩)
  · exact .rfl' _
  · exact h

theorem opFor_reserveFor {cfg : Cfg} {op : Str → POp} (hop : ∀ i, PCall.reserveFor ⟨0, [], [], op i⟩ = none) {calls : List PCall} {pre : List SRow}
    (h : List.Forall₂ (OpFor cfg op) calls pre) : ∀ c ∈ calls, c.reserveFor = none := by
  intro c hc
  obtain ⟨s, _, hs⟩ := forall₂_left_exists h c hc
  have := hop s.cid
  simpa [PCall.reserveFor, hs.op] using this

theorem ReqEff.calm {cfg : Cfg} {w w' : World} {cid : Str} {f g : ConnStates → Option ConnStates} {op : Str → POp} {r : Except Err (Option Str)}
    (hop : ∀ i, PCall.reserveFor ⟨0, [], [], op i⟩ = none) (he : ReqEff cfg cid f g op w w' r) : Calm w w' := by
  cases he with
  | refused _ _ h => exact .of h.resv h.subs h.sent
  | done _ _ _ _ hsubs hcalls _ _ h =>
    refine ⟨h.resv, ?_, _, h.sent, opFor_reserveFor hop hcalls⟩
    rw [h.subs]
    refine hsubs.imp ?_
    rintro s s' (rfl | ⟨_, st, _, rfl⟩)
    · exact .rfl' _
    · exact ⟨rfl, rfl, rfl, rfl, rfl, rfl, rfl⟩

theorem upEff_frame (w : World) (row : CRow) (there : ConnStates → Bool) (f : ConnStates → Option ConnStates) (msg : Str → Str → Out) :
    (upEff w row there f msg).resv = w.resv ∧ (upEff w row there f msg).subs = w.subs ∧ (upEff w row there f msg).sent = w.sent := by
  unfold upEff
  split
  · split <;> exact ⟨rfl, rfl, rfl⟩
  · exact ⟨rfl, rfl, rfl⟩

theorem ReplyEff.calm {w w' : World} (hg : Good w) {prov cid : Str} {set : ConnStates → Option ConnStates} {there : ConnStates → Bool}
    {f : ConnStates → Option ConnStates} {msg : Str → Str → Out} (he : ReplyEff prov cid set there f msg w w') : Calm w w' := by
  cases he with
  | unknown _ h => exact .of h.resv h.subs h.sent
  | refused _ _ _ h => exact .of h.resv h.subs h.sent
  | @done s row st hs _ _ _ _ h =>
    obtain ⟨e1, e2, e3⟩ := upEff_frame (segEff w { s with st }) row there f msg
    refine ⟨h.resv.trans e1, ?_, [], by rw [h.sent.trans e3]; simp [segEff], by simp⟩
    rw [h.subs, e2]
    exact sameSeg_setSRow hg.skeys hs ⟨rfl, rfl, rfl, rfl, rfl, rfl, rfl⟩

/-- Only reservations and the answers to them touch segments and reservations. -/
theorem eff_calm {cfg : Cfg} {w w' : World} (hg : Good w) {r : Except Err (Option Str)} {m : Msg} (he : Eff cfg w w' r m)
    (h1 : ∀ h cid c, m ≠ .reserve h cid c) (h2 : ∀ h cid c, m ≠ .reserveConfirmed h cid c) (h3 : ∀ h, m ≠ .reserveFailed h) : Calm w w' := by
  cases m with
  | reserve h cid c => exact absurd rfl (h1 h cid c)
  | reserveConfirmed h cid c => exact absurd rfl (h2 h cid c)
  | reserveFailed h => exact absurd rfl (h3 h)
  | commit h cid => exact ReqEff.calm (fun _ => rfl) he
  | abort h cid => exact ReqEff.calm (fun _ => rfl) he
  | provision h cid => exact ReqEff.calm (fun _ => rfl) he
  | release h cid => exact ReqEff.calm (fun _ => rfl) he
  | terminate h cid => exact ReqEff.calm (fun _ => rfl) he
  | querySummary h cids gids =>
    cases he with
    | refused _ _ h => exact .of h.resv h.subs h.sent
    | told _ _ h => exact .of h.resv h.subs h.sent
  | queryRecursive h cids gids =>
    cases he with
    | refused _ h => exact .of h.resv h.subs h.sent
    | asked _ _ _ hcalls _ _ _ _ h =>
      exact ⟨h.resv, by rw [h.subs]; exact List.forall₂_same.mpr fun _ _ => .rfl' _, _, h.sent, opFor_reserveFor (fun _ => rfl) hcalls⟩
  | commitConfirmed h cid => exact ReplyEff.calm hg he
  | abortConfirmed h cid => exact ReplyEff.calm hg he
  | provisionConfirmed h cid => exact ReplyEff.calm hg he
  | releaseConfirmed h cid => exact ReplyEff.calm hg he
  | terminateConfirmed h cid => exact ReplyEff.calm hg he
  | timeout h cid n =>
    have key : ∀ (s : SRow) (st : ConnStates), s ∈ w.subs → List.Forall₂ SameSeg w.subs (setSRow w.subs { s with st }) :=
      fun s st hs => sameSeg_setSRow hg.skeys hs ⟨rfl, rfl, rfl, rfl, rfl, rfl, rfl⟩
    cases he with
    | unknown _ h => exact .of h.resv h.subs h.sent
    | refused _ _ _ h => exact .of h.resv h.subs h.sent
    | done hs _ _ _ _ h _ => exact ⟨h.resv, by rw [h.subs]; exact key _ _ hs, [], by simp [h.sent, segEff], by simp⟩
    | told hs _ _ _ _ _ _ h => exact ⟨h.resv, by rw [h.subs]; exact key _ _ hs, [], by simp [h.sent, segEff], by simp⟩
  | dataPlane h cid a v c =>
    cases he with
    | unknown _ h => exact .of h.resv h.subs h.sent
    | told hs _ hs' _ _ h =>
      refine ⟨h.resv, ?_, [], by simp [h.sent, segEff], by simp⟩
      rw [h.subs]
      exact sameSeg_setSRow hg.skeys hs (by rw [hs']; exact ⟨rfl, rfl, rfl, rfl, rfl, rfl, rfl⟩)
  | errorEvent h cid n =>
    cases he with
    | none h => exact .of h.resv h.subs h.sent
    | told _ _ _ _ h => exact .of h.resv h.subs h.sent
  | queryConfirmed h res =>
    cases he with
    | ignored _ h => exact .of h.resv h.subs h.sent
    | orphan _ _ _ h => exact .of h.resv h.subs h.sent
    | waiting _ _ _ _ h => exact .of h.resv h.subs h.sent
    | failed _ _ _ _ _ _ h => exact .of h.resv h.subs h.sent
    | told _ _ _ _ _ _ h => exact .of h.resv h.subs h.sent

/-- The books. -/
structure Books (w : World) : Prop where
  keys : (dkeys w.resv).Nodup
  /-- what is outstanding has been asked for -/
  call : ∀ e ∈ w.resv, ∃ row ∈ w.conns, row.key = e.2.skey ∧ ∃ c, (w.asked row.cid)[e.2.order]? = some c ∧ c.corr = e.1 ∧ c.prov = e.2.prov
  /-- segments are asked for existing connections -/
  known : ∀ c ∈ w.sent, ∀ cid, c.reserveFor = some cid → ∃ row ∈ w.conns, row.cid = cid
  one : ∀ s ∈ w.subs, ∀ s' ∈ w.subs, s.skey = s'.skey → s.order = s'.order → s.key = s'.key
  apart : ∀ e ∈ w.resv, ∀ s ∈ w.subs, s.skey = e.2.skey → s.order ≠ e.2.order
  /-- while a connection is being checked and something is outstanding, everything asked for is outstanding or stored -/
  acc : ∀ row ∈ w.conns, row.st.r = .checking → (∃ e ∈ w.resv, e.2.skey = row.key) → ∀ i c, (w.asked row.cid)[i]? = some c →
    (∃ e ∈ w.resv, e.1 = c.corr ∧ e.2.skey = row.key) ∨ ∃ s ∈ w.subs, s.skey = row.key ∧ s.order = i ∧ s.prov = c.prov

theorem Tr.checking {m : Msg} {cid to_ : Str} {s s' : ConnStates} {outs : List Out} (ht : Tr m cid to_ s s' outs) (h : s'.r = .checking) :
    s.r = .checking ∧ outs.countP (Out.isConfirm cid) = 0 := by
  cases ht with
  | same => exact ⟨h, rfl⟩
  | commit _ hs => rw [(switchR_r hs).1] at h; cases h
  | abort _ hs => rw [(switchR_r hs).1] at h; cases h
  | provision _ hs => exact ⟨(switchP_p hs).2.2.1 ▸ h, rfl⟩
  | release _ hs => exact ⟨(switchP_p hs).2.2.1 ▸ h, rfl⟩
  | terminate _ hs => exact ⟨(switchL_l hs).2.2.1 ▸ h, rfl⟩
  | held _ hs => cases h
  | failed _ hs => cases h
  | committed _ hs => rw [(switchR_r hs).1] at h; cases h
  | aborted _ hs => rw [(switchR_r hs).1] at h; cases h
  | provisioned _ hs => exact ⟨(switchP_p hs).2.2.1 ▸ h, rfl⟩
  | released _ hs => exact ⟨(switchP_p hs).2.2.1 ▸ h, rfl⟩
  | terminated _ hs => exact ⟨(switchL_l hs).2.2.1 ▸ h, rfl⟩
  | note hn => exact ⟨h, by simp [(isNote_counts hn cid).1]⟩

theorem asked_append {w w' : World} {calls : List PCall} (h : w'.sent = w.sent ++ calls) (hn : ∀ c ∈ calls, c.reserveFor = none) (cid : Str) :
    w'.asked cid = w.asked cid := by
  unfold World.asked
  rw [h, List.filter_append]
  have : calls.filter (fun c => decide (c.reserveFor = some cid)) = [] := by
    rw [List.filter_eq_nil_iff]
    intro c hc
    simp [hn c hc]
  rw [this, List.append_nil]

theorem Books.calm {w w' : World} (hb : Books w) (hc : Calm w w') {m : Msg} {outs : List Out} (hr : List.Forall₂ (RowStep m outs) w.conns w'.conns) :
    Books w' := by
  obtain ⟨calls, hsent, hnone⟩ := hc.sent
  have hask := asked_append hsent hnone
  refine ⟨hc.resv ▸ hb.keys, ?_, ?_, ?_, ?_, ?_⟩
  · intro e he
    rw [hc.resv] at he
    obtain ⟨row, h1, h2, c, h3, h4⟩ := hb.call e he
    obtain ⟨row', h1', hrs⟩ := forall₂_left_exists hr _ h1
    exact ⟨row', h1', hrs.key.trans h2, c, by rw [hask, hrs.cid]; exact h3, h4⟩
  · intro c hcm cid hcid
    rw [hsent] at hcm
    rcases List.mem_append.mp hcm with hcm | hcm
    · obtain ⟨row, h1, h2⟩ := hb.known c hcm cid hcid
      obtain ⟨row', h1', hrs⟩ := forall₂_left_exists hr _ h1
      exact ⟨row', h1', hrs.cid.trans h2⟩
    · rw [hnone c hcm] at hcid; cases hcid
  · intro s hs s' hs' hk ho
    obtain ⟨t, ht, hst⟩ := forall₂_right_exists hc.subs _ hs
    obtain ⟨t', ht', hst'⟩ := forall₂_right_exists hc.subs _ hs'
    rw [hst.key, hst'.key]
    exact hb.one t ht t' ht' (by rw [← hst.skey, ← hst'.skey, hk]) (by rw [← hst.order, ← hst'.order, ho])
  · intro e he s hs hk
    rw [hc.resv] at he
    obtain ⟨t, ht, hst⟩ := forall₂_right_exists hc.subs _ hs
    rw [hst.order]
    exact hb.apart e he t ht (by rw [← hst.skey, hk])
  · intro row' hr' hck hex i c hget
    obtain ⟨row, hrow, hrs⟩ := forall₂_right_exists hr _ hr'
    rw [hask, hrs.cid] at hget
    rw [hrs.key] at hex ⊢
    rw [hc.resv] at hex ⊢
    rcases hb.acc row hrow (hrs.tr.checking hck).1 hex i c hget with h | ⟨s, hs, h1, h2, h3⟩
    · exact Or.inl h
    · obtain ⟨s', hs', hss⟩ := forall₂_left_exists hc.subs _ hs
      exact Or.inr ⟨s', hs', hss.skey.trans h1, hss.order.trans h2, hss.prov.trans h3⟩

/-- An answer to a reservation request is accounted for, for a connection that is not being checked any more. -/
theorem Books.drop {w w' : World} (hb : Books w) {corr : Str} {r : Resv} (hd : dget w.resv corr = some r) (h1 : w'.resv = ddel w.resv corr)
    (h2 : w'.subs = w.subs) (h3 : w'.sent = w.sent) {m : Msg} {outs : List Out} (hr : List.Forall₂ (RowStep m outs) w.conns w'.conns)
    (hn : ∀ row ∈ w'.conns, row.key = r.skey → row.st.r ≠ .checking) : Books w' := by
  have hask : ∀ cid, w'.asked cid = w.asked cid := fun cid => by unfold World.asked; rw [h3]
  have hsub : ∀ e, e ∈ w'.resv → e ∈ w.resv := fun e he => by
    rw [h1] at he; exact (mem_ddel_iff.mp he).2
  refine ⟨h1 ▸ nodup_ddel hb.keys _, ?_, ?_, h2 ▸ hb.one, ?_, ?_⟩
  · intro e he
    obtain ⟨row, h1, h2, c, h3, h4⟩ := hb.call e (hsub e he)
    obtain ⟨row', h1', hrs⟩ := forall₂_left_exists hr _ h1
    exact ⟨row', h1', hrs.key.trans h2, c, by rw [hask, hrs.cid]; exact h3, h4⟩
  · intro c hcm cid hcid
    rw [h3] at hcm
    obtain ⟨row, h1, h2⟩ := hb.known c hcm cid hcid
    obtain ⟨row', h1', hrs⟩ := forall₂_left_exists hr _ h1
    exact ⟨row', h1', hrs.cid.trans h2⟩
  · intro e he s hs
    rw [h2] at hs
    exact hb.apart e (hsub e he) s hs
  · intro row' hr' hck hex i c hget
    obtain ⟨row, hrow, hrs⟩ := forall₂_right_exists hr _ hr'
    obtain ⟨e, he, hek⟩ := hex
    rw [hask, hrs.cid] at hget
    rw [h2]
    have hne : row'.key ≠ r.skey := fun hk => hn row' hr' hk hck
    rcases hb.acc row hrow (hrs.tr.checking hck).1 ⟨e, hsub e he, by rw [hek, hrs.key]⟩ i c hget with ⟨e', he', h4, h5⟩ | ⟨s, hs, h4, h5, h6⟩
    · refine Or.inl ⟨e', ?_, h4, by rw [h5, hrs.key]⟩
      rw [h1]
      refine mem_ddel_iff.mpr ⟨?_, he'⟩
      intro hcorr
      have := dget_of_mem_nodup hb.keys (k := e'.1) (v := e'.2) he'
      rw [hcorr, hd] at this
      have hr : r = e'.2 := by simpa using this
      rw [hr, h5] at hne
      exact hne hrs.key
    · exact Or.inr ⟨s, hs, by rw [h4, hrs.key], h5, h6⟩

/-- After a restart nothing is outstanding. -/
theorem Books.restart {w : World} (hb : Books w) : Books w.restart :=
  ⟨by simp [World.restart, dkeys], by simp [World.restart], hb.known, hb.one, by simp [World.restart], by simp [World.restart]⟩

theorem dsets_append {κ ν : Type} [DecidableEq κ] : ∀ (l d : List (κ × ν)), (dkeys (d ++ l)).Nodup → dsets d l = d ++ l
  | [], d, _ => by simp [dsets]
  | x :: l, d, h => by
    have hx : dset d x.1 x.2 = d ++ [x] := by
      have hnot : x.1 ∉ dkeys d := by
        intro hm
        simp only [dkeys, List.map_append, List.map_cons] at h
        rw [List.nodup_append] at h
        exact h.2.2 x.1 hm x.1 (by simp) rfl
      clear h
      induction d with
      | nil => simp [dset]
      | cons e d ih =>
        simp only [dkeys, List.map_cons, List.mem_cons, not_or] at hnot
        unfold dset
        rw [if_neg (fun h => hnot.1 h.symm), ih hnot.2]
        rfl
    have := dsets_append l (d ++ [x]) (by simpa using h)
    simp only [dsets, List.foldl_cons, hx] at this ⊢
    simpa using this

theorem resvEntries_eq {cfg : Cfg} {row : CRow} {start end_ : Option Time} {calls : List PCall} {ls : List Link}
    (h : List.Forall₂ (CallFor cfg row start end_) calls ls) : ∀ i, (dkeys (resvEntries row i calls) = calls.map (·.corr)) ∧
      (∀ e ∈ resvEntries row i calls, e.2.skey = row.key ∧ ∃ j c, calls[j]? = some c ∧ e.2.order = i + j ∧ c.corr = e.1 ∧ c.prov = e.2.prov) := by
  induction h with
  | nil => intro i; simp [resvEntries, dkeys]
  | @cons c l cs ls hc _ ih =>
    intro i
    obtain ⟨h1, h2⟩ := ih (i + 1)
    unfold resvEntries
    rw [hc.op]
    simp only
    refine ⟨?_, ?_⟩
    · simp only [dkeys, List.map_cons] at h1 ⊢
      rw [h1]
    · intro e he
      rcases List.mem_cons.mp he with rfl | he
      · exact ⟨rfl, 0, c, rfl, rfl, rfl, rfl⟩
      · obtain ⟨h3, j, d, h4, h5, h6⟩ := h2 e he
        exact ⟨h3, j + 1, d, by simpa using h4, by omega, h6⟩

theorem made_resv {cfg : Cfg} {w w' : World} (hb : Books w) {row : CRow} {calls terms : List PCall} {pre : List Link} {start end_ : Option Time}
    (hcalls : List.Forall₂ (CallFor cfg row start end_) calls pre) (hfresh : w'.freshIds) (h3 : w'.sent = w.sent ++ calls ++ terms)
    (h4 : w'.resv = dsets w.resv (resvEntries row 0 calls)) : w'.resv = w.resv ++ resvEntries row 0 calls := by
  obtain ⟨hent1, hent2⟩ := resvEntries_eq hcalls 0
  rw [h4]
  refine dsets_append _ _ ?_
  have : dkeys (w.resv ++ resvEntries row 0 calls) = dkeys w.resv ++ calls.map (·.corr) := by
    rw [← hent1]; simp [dkeys]
  rw [this]
  unfold World.freshIds at hfresh
  rw [h3, List.map_append, List.map_append] at hfresh
  have hf := (List.nodup_append.mp hfresh).1
  rw [List.nodup_append] at hf ⊢
  refine ⟨hb.keys, hf.2.1, ?_⟩
  intro a ha b hb' hab
  obtain ⟨e, he, rfl⟩ := List.mem_map.mp ha
  obtain ⟨_, _, _, c, hc, hcc, _⟩ := hb.call e he
  have : c ∈ w.sent := (List.mem_filter.mp (List.mem_of_getElem? hc)).1
  exact hf.2.2 _ (List.mem_map_of_mem this) b hb' (hcc.trans hab)

/-- A new reservation. -/
theorem Books.made {cfg : Cfg} {w w' : World} (hb : Books w) (hg : Good w) {row : CRow} {calls terms : List PCall} {pre : List Link} {start end_ : Option Time}
    (hkey : row.key = w.ckey) (hnew : ∀ r ∈ w.conns, r.cid ≠ row.cid) (hcalls : List.Forall₂ (CallFor cfg row start end_) calls pre)
    (hterms : ∀ t ∈ terms, ∃ i, t.op = .terminate i) (hfresh : w'.freshIds)
    (h1 : w'.conns = w.conns ++ [row]) (h2 : w'.subs = w.subs) (h3 : w'.sent = w.sent ++ calls ++ terms)
    (h4 : w'.resv = dsets w.resv (resvEntries row 0 calls)) : Books w' := by
  obtain ⟨hent1, hent2⟩ := resvEntries_eq hcalls 0
  have hres := made_resv hb hcalls hfresh h3 h4
  have hfor : ∀ c ∈ calls, c.reserveFor = some row.cid := by
    intro c hc
    obtain ⟨l, _, hl⟩ := forall₂_left_exists hcalls c hc
    simp [PCall.reserveFor, hl.op]
  have hterm : ∀ t ∈ terms, t.reserveFor = none := by
    intro t ht
    obtain ⟨i, hi⟩ := hterms t ht
    simp [PCall.reserveFor, hi]
  have hold : w.asked row.cid = [] := by
    unfold World.asked
    rw [List.filter_eq_nil_iff]
    intro c hc
    simp only [decide_eq_true_eq]
    intro hcid
    obtain ⟨r, hr, hrc⟩ := hb.known c hc _ hcid
    exact hnew r hr hrc
  have hasknew : w'.asked row.cid = calls := by
    have : w'.asked row.cid = w.asked row.cid ++ calls := by
      unfold World.asked
      have e1 : calls.filter (fun c => decide (c.reserveFor = some row.cid)) = calls := List.filter_eq_self.mpr (by simpa using hfor)
      have e2 : terms.filter (fun c => decide (c.reserveFor = some row.cid)) = [] :=
        List.filter_eq_nil_iff.mpr (by intro t ht; simp [hterm t ht])
      rw [h3, List.filter_append, List.filter_append, e1, e2, List.append_nil]
    rw [this, hold, List.nil_append]
  have hask : ∀ cid, cid ≠ row.cid → w'.asked cid = w.asked cid := by
    intro cid hne
    unfold World.asked
    have e1 : calls.filter (fun c => decide (c.reserveFor = some cid)) = [] :=
      List.filter_eq_nil_iff.mpr (by intro t ht; simp [hfor t ht]; exact fun h => hne h.symm)
    have e2 : terms.filter (fun c => decide (c.reserveFor = some cid)) = [] :=
      List.filter_eq_nil_iff.mpr (by intro t ht; simp [hterm t ht])
    rw [h3, List.filter_append, List.filter_append, e1, e2, List.append_nil, List.append_nil]
  have hkeylt : ∀ r ∈ w.conns, r.key ≠ row.key := fun r hr => by
    have := hg.ckeyb r hr
    omega
  refine ⟨?_, ?_, ?_, h2 ▸ hb.one, ?_, ?_⟩
  · unfold World.freshIds at hfresh
    rw [hres]
    have : dkeys (w.resv ++ resvEntries row 0 calls) = dkeys w.resv ++ calls.map (·.corr) := by
      rw [← hent1]; simp [dkeys]
    rw [this]
    rw [h3, List.map_append, List.map_append] at hfresh
    have hf := (List.nodup_append.mp hfresh).1
    rw [List.nodup_append] at hf ⊢
    refine ⟨hb.keys, hf.2.1, ?_⟩
    intro a ha b hb' hab
    obtain ⟨e, he, rfl⟩ := List.mem_map.mp ha
    obtain ⟨_, _, _, c, hc, hcc, _⟩ := hb.call e he
    have : c ∈ w.sent := (List.mem_filter.mp (List.mem_of_getElem? hc)).1
    exact hf.2.2 _ (List.mem_map_of_mem this) b hb' (hcc.trans hab)
  · intro e he
    rw [hres] at he
    rcases List.mem_append.mp he with he | he
    · obtain ⟨r, hr, hrk, c, hc⟩ := hb.call e he
      exact ⟨r, by rw [h1]; simp [hr], hrk, c, by rw [hask _ (hnew r hr)]; exact hc⟩
    · obtain ⟨hk, j, c, hj, ho, hc⟩ := hent2 e he
      exact ⟨row, by rw [h1]; simp, hk.symm, c, by rw [hasknew, ho, Nat.zero_add]; exact hj, hc⟩
  · intro c hc cid hcid
    rw [h3] at hc
    rw [h1]
    rcases List.mem_append.mp hc with hc | hc
    · rcases List.mem_append.mp hc with hc | hc
      · obtain ⟨r, hr, hrc⟩ := hb.known c hc cid hcid
        exact ⟨r, by simp [hr], hrc⟩
      · rw [hfor c hc] at hcid
        exact ⟨row, by simp, by simpa using hcid⟩
    · rw [hterm c hc] at hcid; cases hcid
  · intro e he s hs hk
    rw [h2] at hs
    rw [hres] at he
    rcases List.mem_append.mp he with he | he
    · exact hb.apart e he s hs hk
    · obtain ⟨hk', _⟩ := hent2 e he
      obtain ⟨r, hr, hrk⟩ := hg.sfk s hs
      exact absurd (hrk.trans (hk.trans hk')) (hkeylt r hr)
  · intro r hr hck hex i c hget
    rw [h1] at hr
    rw [h2]
    rcases List.mem_append.mp hr with hr | hr
    · rw [hask _ (hnew r hr)] at hget
      have hex' : ∃ e ∈ w.resv, e.2.skey = r.key := by
        obtain ⟨e, he, hek⟩ := hex
        rw [hres] at he
        rcases List.mem_append.mp he with he | he
        · exact ⟨e, he, hek⟩
        · obtain ⟨hk', _⟩ := hent2 e he
          exact absurd (hek.symm.trans hk') (hkeylt r hr)
      rcases hb.acc r hr hck hex' i c hget with ⟨e, he, h⟩ | h
      · exact Or.inl ⟨e, by rw [hres]; simp [he], h⟩
      · exact Or.inr h
    · rw [List.mem_singleton.mp hr] at hget ⊢
      rw [hasknew] at hget
      left
      have hmem : c.corr ∈ dkeys (resvEntries row 0 calls) := by
        rw [hent1]; exact List.mem_map_of_mem (List.mem_of_getElem? hget)
      obtain ⟨e, he, hec⟩ := List.mem_map.mp hmem
      exact ⟨e, by rw [hres]; simp [he], hec, (hent2 e he).1⟩

theorem nodup_index {α β : Type} {f : α → β} {l : List α} (hn : (l.map f).Nodup) {i j : Nat} {a b : α} (hi : l[i]? = some a) (hj : l[j]? = some b)
    (h : f a = f b) : i = j ∧ a = b := by
  have h1 : (l.map f)[i]? = some (f a) := by simp [hi]
  have h2 : (l.map f)[j]? = some (f b) := by simp [hj]
  have hlt : i < (l.map f).length := by
    by_contra hc
    rw [List.getElem?_eq_none (by omega)] at h1
    cases h1
  have := (List.getElem?_inj hlt hn).mp (h1.trans (h ▸ h2.symm))
  subst this
  rw [hi] at hj
  exact ⟨rfl, by simpa using hj⟩

/-- A confirmed segment is stored. -/
theorem Books.stored {w w' : World} (hb : Books w) (hg : Good w) (hf : w.freshIds) {corr : Str} {r : Resv} (hd : dget w.resv corr = some r) {s : SRow}
    (hsk : s.skey = r.skey) (hso : s.order = r.order) (hsp : s.prov = r.prov)
    (h1 : w'.resv = ddel w.resv corr) (h2 : w'.subs = w.subs ++ [s]) (h3 : w'.sent = w.sent) {m : Msg} {outs : List Out}
    (hr : List.Forall₂ (RowStep m outs) w.conns w'.conns) :
    Books w' ∧ ∀ row ∈ w.conns, row.key = r.skey → row.st.r = .checking → ∀ i c, (w'.asked row.cid)[i]? = some c →
      (∃ e ∈ w'.resv, e.1 = c.corr ∧ e.2.skey = row.key) ∨ ∃ s ∈ w'.subs, s.skey = row.key ∧ s.order = i ∧ s.prov = c.prov := by
  have hask : ∀ cid, w'.asked cid = w.asked cid := fun cid => by unfold World.asked; rw [h3]
  have hmem : (corr, r) ∈ w.resv := dget_some_mem hd
  have hsub : ∀ e, e ∈ w'.resv → e ∈ w.resv ∧ e.1 ≠ corr := fun e he => by
    rw [h1] at he; exact ⟨(mem_ddel_iff.mp he).2, (mem_ddel_iff.mp he).1⟩
  have hacc : ∀ row ∈ w.conns, row.st.r = .checking → (∃ e ∈ w.resv, e.2.skey = row.key) → ∀ i c, (w.asked row.cid)[i]? = some c →
      (∃ e ∈ w'.resv, e.1 = c.corr ∧ e.2.skey = row.key) ∨ ∃ s ∈ w'.subs, s.skey = row.key ∧ s.order = i ∧ s.prov = c.prov := by
    intro row hrow hck hex i c hget
    rcases hb.acc row hrow hck hex i c hget with ⟨e, he, hec, hek⟩ | ⟨t, ht, h⟩
    · by_cases hcorr : e.1 = corr
      · right
        have : r = e.2 := by
          have := dget_of_mem_nodup hb.keys (k := e.1) (v := e.2) he
          rw [hcorr, hd] at this
          simpa using this
        obtain ⟨row2, hr2, hk2, c2, hc2, hcc, hcp⟩ := hb.call e he
        have hrr : row2 = row := nodup_map_inj hg.ckeys hr2 hrow (hk2.trans hek)
        rw [hrr] at hc2
        have hnd : ((w.asked row.cid).map (·.corr)).Nodup := hf.sublist (List.filter_sublist.map _)
        obtain ⟨h5, h6⟩ := nodup_index hnd hc2 hget (hcc.trans hec)
        refine ⟨s, by rw [h2]; simp, by rw [hsk, this, hek], by rw [hso, this, h5], by rw [hsp, this, ← hcp, h6]⟩
      · exact Or.inl ⟨e, by rw [h1]; exact mem_ddel_iff.mpr ⟨hcorr, he⟩, hec, hek⟩
    · exact Or.inr ⟨t, by rw [h2]; simp [ht], h⟩
  refine ⟨⟨h1 ▸ nodup_ddel hb.keys _, ?_, ?_, ?_, ?_, ?_⟩, ?_⟩
  · intro e he
    obtain ⟨row, h1, h2, c, h3, h4⟩ := hb.call e (hsub e he).1
    obtain ⟨row', h1', hrs⟩ := forall₂_left_exists hr _ h1
    exact ⟨row', h1', hrs.key.trans h2, c, by rw [hask, hrs.cid]; exact h3, h4⟩
  · intro c hcm cid hcid
    rw [h3] at hcm
    obtain ⟨row, h1, h2⟩ := hb.known c hcm cid hcid
    obtain ⟨row', h1', hrs⟩ := forall₂_left_exists hr _ h1
    exact ⟨row', h1', hrs.cid.trans h2⟩
  · intro a ha b hb' hk ho
    rw [h2] at ha hb'
    rcases List.mem_append.mp ha with ha | ha <;> rcases List.mem_append.mp hb' with hb' | hb'
    · exact hb.one a ha b hb' hk ho
    · rw [List.mem_singleton.mp hb'] at hk ho
      exact absurd (ho.trans hso) (hb.apart _ hmem a ha (hk.trans hsk))
    · rw [List.mem_singleton.mp ha] at hk ho
      exact absurd (ho.symm.trans hso) (hb.apart _ hmem b hb' (hk.symm.trans hsk))
    · rw [List.mem_singleton.mp ha, List.mem_singleton.mp hb']
  · intro e he t ht hk
    obtain ⟨he1, he2⟩ := hsub e he
    rw [h2] at ht
    rcases List.mem_append.mp ht with ht | ht
    · exact hb.apart e he1 t ht hk
    · rw [List.mem_singleton.mp ht] at hk ⊢
      intro ho
      obtain ⟨row1, hr1, hk1, c1, hc1, hcc1, _⟩ := hb.call e he1
      obtain ⟨row2, hr2, hk2, c2, hc2, hcc2, _⟩ := hb.call _ hmem
      have hrr : row1 = row2 := nodup_map_inj hg.ckeys hr1 hr2 (by rw [hk1, hk2, ← hk, hsk])
      rw [hrr, ← ho, hso, hc2] at hc1
      have : c2 = c1 := by simpa using hc1
      exact he2 (by rw [← hcc1, ← this, hcc2])
  · intro row' hr' hck hex i c hget
    obtain ⟨row, hrow, hrs⟩ := forall₂_right_exists hr _ hr'
    rw [hask, hrs.cid] at hget
    rw [hrs.key] at hex ⊢
    obtain ⟨e, he, hek⟩ := hex
    exact hacc row hrow (hrs.tr.checking hck).1 ⟨e, (hsub e he).1, hek⟩ i c hget
  · intro row hrow hk hck i c hget
    rw [hask] at hget
    exact hacc row hrow hck ⟨_, hmem, hk.symm⟩ i c hget

end OpenNSA.Agg
