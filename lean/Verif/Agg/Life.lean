import Verif.Agg.PropsHeld
/- Steps of one connection in executions handling one message after the other: what a message does to the connection, the states of its
segments and the answers sent for it. -/
namespace OpenNSA.Agg
open OpenNSA Py Coro

/-- The answers sent to the requester about the connection (not: notifications). -/
def World.told (w : World) (cid : Str) : List Out := w.outbox.filter fun o => decide (o.about = some cid) && !o.isNote

/-- A segment's id, provider and states. -/
def SRow.brief (s : SRow) : Str × Str × ConnStates := (s.cid, s.prov, s.st)

/-- The connection with key `key`: id, requester and states, its segments, and the answers sent. -/
structure At (w : World) (key : Nat) (cid req : Str) (st : ConnStates) (segs : List (Str × Str × ConnStates)) (outs : List Out) : Prop where
  row : ∃ row ∈ w.conns, row.key = key ∧ row.cid = cid ∧ row.requester = req ∧ row.st = st
  segs : (w.segments key).map SRow.brief = segs
  outs : w.told cid = outs

/-- A message that does not concern the connection, or only notifies of something. -/
def Foreign (w : World) (key : Nat) (cid : Str) : Msg → Prop
  | .reserve .. => True
  | .commit _ c => c ≠ cid
  | .abort _ c => c ≠ cid
  | .provision _ c => c ≠ cid
  | .release _ c => c ≠ cid
  | .terminate _ c => c ≠ cid
  | .querySummary .. => True
  | .queryRecursive .. => True
  | .reserveConfirmed h _ _ => ∀ r, dget w.resv h.corr = some r → r.skey ≠ key
  | .reserveFailed h => ∀ r, dget w.resv h.corr = some r → r.skey ≠ key
  | .commitConfirmed _ c => ∀ s ∈ w.subs, s.skey = key → s.cid ≠ c
  | .abortConfirmed _ c => ∀ s ∈ w.subs, s.skey = key → s.cid ≠ c
  | .provisionConfirmed _ c => ∀ s ∈ w.subs, s.skey = key → s.cid ≠ c
  | .releaseConfirmed _ c => ∀ s ∈ w.subs, s.skey = key → s.cid ≠ c
  | .terminateConfirmed _ c => ∀ s ∈ w.subs, s.skey = key → s.cid ≠ c
  | .timeout _ c _ => ∀ s ∈ w.subs, s.skey = key → s.cid ≠ c
  | .dataPlane .. => True
  | .errorEvent .. => True
  | .queryConfirmed .. => True

theorem At.same {w w' : World} {key : Nat} {cid req : Str} {st : ConnStates} {segs : List (Str × Str × ConnStates)} {outs : List Out}
    (h : At w key cid req st segs outs) (h1 : w'.conns = w.conns) (h2 : w'.subs = w.subs) (h3 : w'.outbox = w.outbox) : At w' key cid req st segs outs :=
  ⟨h1 ▸ h.row, by rw [World.segments, h2]; exact h.segs, by rw [World.told, h3]; exact h.outs⟩

theorem World.told_append {w w' : World} {l : List Out} (h : w'.outbox = w.outbox ++ l) (cid : Str) :
    w'.told cid = w.told cid ++ l.filter fun o => decide (o.about = some cid) && !o.isNote := by
  rw [World.told, h, List.filter_append]; rfl

/-- Another connection's row is written. -/
theorem other_row {rows : List CRow} {row' : CRow} {r : CRow} (hr : r ∈ rows) (hne : r.key ≠ row'.key) : r ∈ setCRow rows row' := by
  unfold setCRow
  refine List.mem_map.mpr ⟨r, hr, ?_⟩
  rw [if_neg hne]

theorem segs_set {rows : List SRow} (hk : (rows.map (·.key)).Nodup) {s s' : SRow} (hs : s ∈ rows) (he : s'.key = s.key) (hsk : s'.skey = s.skey) (key : Nat) :
    (setSRow rows s').filter (fun x => decide (x.skey = key)) = (rows.filter fun x => decide (x.skey = key)).map fun x => if x.key = s.key then s' else x := by
  unfold setSRow
  rw [List.filter_map, he]
  congr 1
  refine List.filter_congr fun x hx => ?_
  simp only [Function.comp]
  split
  · rename_i h
    rw [nodup_map_inj hk hx hs h, hsk]
  · rfl

variable {w w' : World} {key : Nat} {cid req : Str} {st : ConnStates} {segs : List (Str × Str × ConnStates)} {outs : List Out}

theorem At.frame (h : At w key cid req st segs outs)
    (hc : ∀ r ∈ w.conns, r.key = key → ∃ r' ∈ w'.conns, r'.key = r.key ∧ r'.cid = r.cid ∧ r'.requester = r.requester ∧ r'.st = r.st)
    (hs : (w'.segments key).map SRow.brief = (w.segments key).map SRow.brief) {l : List Out} (ho : w'.outbox = w.outbox ++ l)
    (hl : ∀ o ∈ l, o.about ≠ some cid ∨ o.isNote = true) : At w' key cid req st segs outs := by
  obtain ⟨r, h1, h2, h3, h4, h5⟩ := h.row
  obtain ⟨r', g1, g2, g3, g4, g5⟩ := hc r h1 h2
  refine ⟨⟨r', g1, g2.trans h2, g3.trans h3, g4.trans h4, g5.trans h5⟩, hs.trans h.segs, ?_⟩
  rw [World.told_append ho, h.outs]
  have : (l.filter fun o => decide (o.about = some cid) && !o.isNote) = [] := by
    rw [List.filter_eq_nil_iff]
    intro o hm
    rcases hl o hm with h | h <;> simp [h]
  rw [this, List.append_nil]

theorem segs_other (hg : Good w) {s s' : SRow} (hs : s ∈ w.subs) (he : s'.key = s.key) (hsk : s'.skey = s.skey) (hb : s.skey ≠ key ∨ s'.brief = s.brief) :
    ((segEff w s').segments key).map SRow.brief = (w.segments key).map SRow.brief := by
  unfold World.segments segEff
  rw [segs_set hg.skeys hs he hsk, List.map_map]
  refine List.map_congr_left fun x hx => ?_
  simp only [List.mem_filter, decide_eq_true_eq] at hx
  simp only [Function.comp]
  split
  · rename_i h
    have hxs := nodup_map_inj hg.skeys hx.1 hs h
    rcases hb with hb | hb
    · exact absurd (hxs ▸ hx.2) hb
    · rw [hb, hxs]
  · rfl

theorem At.cids (h : At w key cid req st segs outs) (hg : Good w) {row : CRow} (hr : row ∈ w.conns) (hk : row.key ≠ key) : row.cid ≠ cid := by
  obtain ⟨r, h1, h2, h3, _⟩ := h.row
  intro hc
  exact hk ((nodup_map_inj hg.ccids hr h1 (hc.trans h3.symm)) ▸ h2)

theorem At.upEff (h : At w key cid req st segs outs) (hg : Good w) {s : SRow} {row : CRow} {st' : ConnStates} {there : ConnStates → Bool}
    {f : ConnStates → Option ConnStates} {msg : Str → Str → Out} (hab : ∀ t c, (msg t c).about = some c) (hs : s ∈ w.subs) (hr : row ∈ w.conns)
    (hk : row.key = s.skey) (hne : s.skey ≠ key) (hsame : Same (Agg.upEff (segEff w { s with st := st' }) row there f msg) w') :
    At w' key cid req st segs outs := by
  have hsegs := segs_other (key := key) hg (s' := { s with st := st' }) hs rfl rfl (Or.inl hne)
  have quiet : Same (segEff w { s with st := st' }) w' → At w' key cid req st segs outs := by
    intro hsame
    refine h.frame (l := []) (fun r hr _ => ⟨r, by rw [hsame.conns]; exact hr, rfl, rfl, rfl, rfl⟩) ?_ (by rw [hsame.outbox]; simp [segEff]) (by simp)
    rw [← hsegs, World.segments, hsame.subs]; rfl
  unfold Agg.upEff at hsame
  split at hsame
  · split at hsame
    · exact quiet hsame
    · refine h.frame (l := [msg row.requester row.cid]) (fun r hr hrk => ⟨r, ?_, rfl, rfl, rfl, rfl⟩) ?_ hsame.outbox ?_
      · rw [hsame.conns]
        exact other_row hr (by rw [hrk]; exact fun h => hne (hk.symm.trans h.symm))
      · rw [← hsegs, World.segments, hsame.subs]; rfl
      · intro o ho
        rw [List.mem_singleton.mp ho, hab]
        exact Or.inl fun hc => h.cids hg hr (by rw [hk]; exact hne) (by simpa using hc)
  · exact quiet hsame

theorem At.reply_other (h : At w key cid req st segs outs) (hg : Good w) {prov c : Str} {set : ConnStates → Option ConnStates} {there : ConnStates → Bool}
    {f : ConnStates → Option ConnStates} {msg : Str → Str → Out} (hab : ∀ t c, (msg t c).about = some c)
    (hne : ∀ s ∈ w.subs, s.skey = key → s.cid ≠ c) (he : ReplyEff prov c set there f msg w w') : At w' key cid req st segs outs := by
  cases he with
  | unknown _ hs => exact h.same hs.conns hs.subs hs.outbox
  | refused _ _ _ hs => exact h.same hs.conns hs.subs hs.outbox
  | done hs hc _ hr hk hsame => exact h.upEff hg hab hs hr hk (fun hk => hne _ hs hk hc) hsame

theorem movedBy_segs {k : Nat} {g : ConnStates → Option ConnStates} {l m : List SRow} (hk : k ≠ key) (h : List.Forall₂ (MovedBy k g) l m) :
    (m.filter fun s => decide (s.skey = key)).map SRow.brief = (l.filter fun s => decide (s.skey = key)).map SRow.brief := by
  induction h with
  | nil => rfl
  | @cons a b _ _ hab _ ih =>
    rcases hab with rfl | ⟨ha, st', _, rfl⟩
    · simp only [List.filter_cons]
      split <;> simp [ih]
    · have : a.skey ≠ key := by rw [ha]; exact hk
      simp [this, ih]

theorem At.req_other (h : At w key cid req st segs outs) {cfg : Cfg} {c : Str} {f g : ConnStates → Option ConnStates} {op : Str → POp}
    {r : Except Err (Option Str)} (hne : c ≠ cid) (hg : Good w) (he : ReqEff cfg c f g op w w' r) : At w' key cid req st segs outs := by
  cases he with
  | refused _ _ hs => exact h.same hs.conns hs.subs hs.outbox
  | @done row st' subs calls pre hrow hc _ _ hsubs _ _ _ hs =>
    have hk : row.key ≠ key := by
      obtain ⟨r, h1, h2, h3, _⟩ := h.row
      intro hk
      rw [nodup_map_inj hg.ckeys hrow h1 (hk.trans h2.symm), h3] at hc
      exact hne hc.symm
    refine h.frame (l := []) (fun r hr hrk => ⟨r, ?_, rfl, rfl, rfl, rfl⟩) ?_ (by rw [hs.outbox]; simp) (by simp)
    · rw [hs.conns]
      exact other_row hr (by rw [hrk]; exact fun h => hk h.symm)
    · rw [World.segments, World.segments, hs.subs]
      exact movedBy_segs hk hsubs

theorem told_note {o : Out} (h : o.isNote = true) : ∀ x ∈ [o], x.about ≠ some cid ∨ x.isNote = true := by
  intro x hx
  rw [List.mem_singleton.mp hx]
  exact Or.inr h

theorem At.keep (h : At w key cid req st segs outs) (h1 : w'.conns = w.conns) (h2 : w'.subs = w.subs) {o : Out} (h3 : w'.outbox = w.outbox ++ [o])
    (ho : o.about = none ∨ o.isNote = true) : At w' key cid req st segs outs := by
  refine h.frame (l := [o]) (fun r hr _ => ⟨r, by rw [h1]; exact hr, rfl, rfl, rfl, rfl⟩) (by rw [World.segments, h2]; rfl) h3 ?_
  intro x hx
  rw [List.mem_singleton.mp hx]
  rcases ho with ho | ho
  · exact Or.inl (by simp [ho])
  · exact Or.inr ho

theorem foreign_eff (h : At w key cid req st segs outs) (hg : Good w) {cfg : Cfg} {m : Msg} {r : Except Err (Option Str)} (hf : Foreign w key cid m)
    (he : Eff cfg w w' r m) : At w' key cid req st segs outs := by
  cases m with
  | reserve hh i c =>
    cases he with
    | nothing hs => exact h.same hs.conns hs.subs hs.outbox
    | made _ _ _ _ _ _ _ _ _ _ hs =>
      refine h.frame (l := []) (fun r hr _ => ⟨r, ?_, rfl, rfl, rfl, rfl⟩) (by rw [World.segments, hs.subs]; rfl) (by rw [hs.outbox]; simp) (by simp)
      rw [hs.conns]
      exact List.mem_append_left _ hr
  | commit hh c => exact h.req_other hf hg he
  | abort hh c => exact h.req_other hf hg he
  | provision hh c => exact h.req_other hf hg he
  | release hh c => exact h.req_other hf hg he
  | terminate hh c => exact h.req_other hf hg he
  | querySummary hh cids gids =>
    cases he with
    | refused _ _ hs => exact h.same hs.conns hs.subs hs.outbox
    | told _ _ hs => exact h.keep hs.conns hs.subs hs.outbox (Or.inl rfl)
  | queryRecursive hh cids gids =>
    cases he with
    | refused _ hs => exact h.same hs.conns hs.subs hs.outbox
    | asked _ _ _ _ _ _ _ _ hs => exact h.same hs.conns hs.subs hs.outbox
  | reserveConfirmed hh c cr =>
    cases he with
    | unknown _ hs => exact h.same hs.conns hs.subs hs.outbox
    | other _ _ hs => exact h.same hs.conns hs.subs hs.outbox
    | @stored r w1 row row' hd _ hw hr hk hrow _ hs =>
      have hne := hf r hd
      subst hw
      have hk' : row'.key = row.key := by rw [hrow]; exact (confirmLabels_frame row r.order _ cr).1
      refine h.frame (l := []) (fun r hr hrk => ⟨r, ?_, rfl, rfl, rfl, rfl⟩) ?_ (by rw [hs.outbox]; simp [storedSeg]) (by simp)
      · rw [hs.conns]
        exact other_row hr (by rw [hrk, hk', hk]; exact fun h => hne h.symm)
      · rw [World.segments, hs.subs]
        simp [storedSeg, segRow, newSub, hne, World.segments]
    | @told r w1 row row' hd _ hw hr hk hrow _ _ hs =>
      have hne := hf r hd
      subst hw
      obtain ⟨f1, f2, _⟩ := confirmLabels_frame row r.order ((storedSeg w hh.corr r c cr).segments row.key).length cr
      have hk' : row'.key = row.key := by rw [hrow]; exact f1
      have hc' : row'.cid = row.cid := by rw [hrow]; exact f2
      refine h.frame (l := [_]) (fun r hr hrk => ⟨r, ?_, rfl, rfl, rfl, rfl⟩) ?_ hs.outbox ?_
      · rw [hs.conns]
        exact other_row (row' := { row' with st := { row.st with r := .held } }) hr (by simp only; rw [hrk, hk', hk]; exact fun h => hne h.symm)
      · rw [World.segments, hs.subs]
        simp [storedSeg, segRow, newSub, hne, World.segments]
      · intro o ho
        rw [List.mem_singleton.mp ho]
        refine Or.inl ?_
        simp only [Out.about, hc', ne_eq, Option.some.injEq]
        exact h.cids hg hr (by rw [hk]; exact hne)
  | reserveFailed hh =>
    cases he with
    | unknown _ hs => exact h.same hs.conns hs.subs hs.outbox
    | other _ _ hs => exact h.same hs.conns hs.subs hs.outbox
    | late _ _ _ _ _ hs => exact h.same hs.conns hs.subs hs.outbox
    | @told r row hd _ hr hk _ hs =>
      have hne := hf r hd
      refine h.frame (l := [_]) (fun r hr hrk => ⟨r, ?_, rfl, rfl, rfl, rfl⟩) (by rw [World.segments, hs.subs]; rfl) hs.outbox ?_
      · rw [hs.conns]
        exact other_row hr (by simp only; rw [hrk, hk]; exact fun h => hne h.symm)
      · intro o ho
        rw [List.mem_singleton.mp ho]
        refine Or.inl ?_
        simp only [Out.about, ne_eq, Option.some.injEq]
        exact h.cids hg hr (by rw [hk]; exact hne)
  | commitConfirmed hh c => exact h.reply_other hg (fun _ _ => rfl) hf he
  | abortConfirmed hh c => exact h.reply_other hg (fun _ _ => rfl) hf he
  | provisionConfirmed hh c => exact h.reply_other hg (fun _ _ => rfl) hf he
  | releaseConfirmed hh c => exact h.reply_other hg (fun _ _ => rfl) hf he
  | terminateConfirmed hh c => exact h.reply_other hg (fun _ _ => rfl) hf he
  | timeout hh c n =>
    cases he with
    | unknown _ hs => exact h.same hs.conns hs.subs hs.outbox
    | refused _ _ _ hs => exact h.same hs.conns hs.subs hs.outbox
    | @done s row st' hsm hc _ hr hk hs _ =>
      refine h.frame (l := []) (fun r hr _ => ⟨r, by rw [hs.conns]; exact hr, rfl, rfl, rfl, rfl⟩) ?_ (by rw [hs.outbox]; simp [segEff]) (by simp)
      rw [← segs_other (key := key) hg (s' := { s with st := st' }) hsm rfl rfl (Or.inl fun hk => hf s hsm hk hc), World.segments, hs.subs]; rfl
    | @told s row st' hsm hc _ hr hk _ _ hs =>
      refine h.frame (l := [_]) (fun r hr _ => ⟨r, by rw [hs.conns]; exact hr, rfl, rfl, rfl, rfl⟩) ?_ hs.outbox (told_note rfl)
      rw [← segs_other (key := key) hg (s' := { s with st := st' }) hsm rfl rfl (Or.inl fun hk => hf s hsm hk hc), World.segments, hs.subs]; rfl
  | dataPlane hh c a v cc =>
    cases he with
    | unknown _ hs => exact h.same hs.conns hs.subs hs.outbox
    | @told s s' row hsm hc hs' hr hk hs =>
      refine h.frame (l := [_]) (fun r hr _ => ⟨r, by rw [hs.conns]; exact hr, rfl, rfl, rfl, rfl⟩) ?_ hs.outbox (told_note rfl)
      rw [← segs_other (key := key) hg (s' := s') hsm (by rw [hs']) (by rw [hs']) (Or.inr (by rw [hs']; rfl)), World.segments, hs.subs]; rfl
  | errorEvent hh c n =>
    cases he with
    | none hs => exact h.same hs.conns hs.subs hs.outbox
    | told _ _ _ _ hs => exact h.keep hs.conns hs.subs hs.outbox (Or.inr rfl)
  | queryConfirmed hh res =>
    cases he with
    | ignored _ hs => exact h.same hs.conns hs.subs hs.outbox
    | orphan _ _ _ hs => exact h.same hs.conns hs.subs hs.outbox
    | waiting _ _ _ _ hs => exact h.same hs.conns hs.subs hs.outbox
    | failed _ _ _ _ _ _ hs => exact h.same hs.conns hs.subs hs.outbox
    | told _ _ _ _ _ _ hs => exact h.keep hs.conns hs.subs hs.outbox (Or.inl rfl)

/-- The segments after the one with id `c` has got states `s1`. -/
def setSeg (segs : List (Str × Str × ConnStates)) (c : Str) (s1 : ConnStates) : List (Str × Str × ConnStates) :=
  segs.map fun x => if x.1 = c then (x.1, x.2.1, s1) else x

theorem segs_own (hg : Good w) {s : SRow} (hs : s ∈ w.subs) (s1 : ConnStates) :
    ((segEff w { s with st := s1 }).segments key).map SRow.brief = setSeg ((w.segments key).map SRow.brief) s.cid s1 := by
  unfold World.segments segEff setSeg
  rw [segs_set hg.skeys (s' := { s with st := s1 }) hs rfl rfl, List.map_map, List.map_map]
  refine List.map_congr_left fun x hx => ?_
  simp only [List.mem_filter, decide_eq_true_eq] at hx
  simp only [Function.comp]
  by_cases h : x = s
  · subst h; simp [SRow.brief]
  · have h1 : x.key ≠ s.key := fun he => h (nodup_map_inj hg.skeys hx.1 hs he)
    have h2 : x.cid ≠ s.cid := fun he => h (nodup_map_inj hg.scids hx.1 hs he)
    simp [h1, h2, SRow.brief]

theorem all_brief (l : List SRow) (p : ConnStates → Bool) : (l.all fun s => p s.st) = ((l.map SRow.brief).all fun x => p x.2.2) := by
  rw [List.all_map]; rfl

/-- A segment of the connection confirms. -/
theorem At.reply (h : At w key cid req st segs outs) (hg : Good w) {k : Kind} {prov c : Str} {s0 s1 st' : ConnStates} (hm : (c, prov, s0) ∈ segs)
    (hmv : k.move s0 = some s1) (hnr : k.reached st = false) (hfin : k.finish st = some st')
    (he : ReplyEff prov c k.move k.reached k.finish k.answer w w') :
    if ((setSeg segs c s1).all fun x => k.reached x.2.2) then At w' key cid req st' (setSeg segs c s1) (outs ++ [k.answer req cid])
    else At w' key cid req st (setSeg segs c s1) outs := by
  rw [← h.segs] at hm
  obtain ⟨s, hs, hb⟩ := List.mem_map.mp hm
  simp only [World.segments, List.mem_filter, decide_eq_true_eq] at hs
  simp only [SRow.brief, Prod.mk.injEq] at hb
  obtain ⟨hb1, hb2, hb3⟩ := hb
  obtain ⟨row, hrow, hrk, hrc, hrq, hrs⟩ := h.row
  have hmv' : k.move s.st = some s1 := by rw [hb3]; exact hmv
  cases he with
  | unknown hu _ => exact absurd hb2 (hu s hs.1 hb1)
  | refused hs' hc hset _ =>
    rw [nodup_map_inj hg.scids hs' hs.1 (hc.trans hb1.symm), hmv'] at hset
    cases hset
  | @done s' row' st2 hs' hc hset hr' hk' hsame =>
    have hss : s' = s := nodup_map_inj hg.scids hs' hs.1 (hc.trans hb1.symm)
    subst hss
    have hrr : row' = row := nodup_map_inj hg.ckeys hr' hrow (by rw [hk', hrk, hs.2])
    subst hrr
    have hst2 : st2 = s1 := by rw [hmv'] at hset; simpa using hset.symm
    subst hst2
    have hsegs : ((segEff w { s' with st := st2 }).segments key).map SRow.brief = setSeg segs c st2 := by
      rw [segs_own hg hs.1, h.segs, hb1]
    subst hrk hrs
    unfold Agg.upEff at hsame
    rw [all_brief, hsegs, hnr, hfin] at hsame
    split
    · rename_i hall
      rw [if_pos ⟨hall, by simp⟩] at hsame
      refine ⟨⟨{ row' with st := st' }, ?_, rfl, hrc, hrq, rfl⟩, ?_, ?_⟩
      · rw [hsame.conns]
        exact (mem_setCRow hg.ckeys hrow (by rfl) _).mpr (Or.inl rfl)
      · rw [← hsegs, World.segments, hsame.subs]; rfl
      · rw [World.told_append (w := w) hsame.outbox, h.outs, hrq, hrc]
        congr 1
        cases k <;> simp [Kind.answer, Out.about, Out.isNote]
    · rename_i hall
      rw [if_neg (fun h => hall h.1)] at hsame
      refine ⟨⟨row', by rw [hsame.conns]; exact hrow, rfl, hrc, hrq, rfl⟩, ?_, ?_⟩
      · rw [← hsegs, World.segments, hsame.subs]; rfl
      · rw [← h.outs, World.told, hsame.outbox]; rfl

theorem went_segs {g : ConnStates → Option ConnStates} {l m : List SRow} (h : List.Forall₂ (MovedBy key g) l m) (h' : List.Forall₂ (Went key g) l m) :
    (m.filter fun s => decide (s.skey = key)).map SRow.brief =
      ((l.filter fun s => decide (s.skey = key)).map SRow.brief).map fun x => (x.1, x.2.1, (g x.2.2).getD x.2.2) := by
  induction h with
  | nil => rfl
  | @cons a b _ _ hab _ ih =>
    cases h' with
    | cons hw hw' =>
      by_cases hk : a.skey = key
      · have hb : b = { a with st := (g a.st).getD a.st } := by
          cases hg : g a.st with
          | none =>
            rcases hab with rfl | ⟨_, st', h1, _⟩
            · rfl
            · rw [hg] at h1; cases h1
          | some st' => exact hw hk st' hg
        subst hb
        simp [hk, ih hw', SRow.brief]
      · have hb : b = a := by
          rcases hab with rfl | ⟨ha, _⟩
          · rfl
          · exact absurd ha hk
        subst hb
        simp [hk, ih hw']

/-- A request for the connection is answered positively. -/
theorem At.request (h : At w key cid req st segs outs) (hg : Good w) {cfg : Cfg} {f g : ConnStates → Option ConnStates} {op : Str → POp}
    {i : Option Str} (hl : st.l ≠ .terminated) (he : ReqEff cfg cid f g op w w' (.ok i)) :
    ∃ st', f st = some st' ∧ At w' key cid req st' (segs.map fun x => (x.1, x.2.1, (g x.2.2).getD x.2.2)) outs ∧
      ∃ calls, w'.sent = w.sent ++ calls ∧ List.Forall₂ (fun (c : PCall) (x : Str × Str × ConnStates) => c.op = op x.1 ∧ c.prov = x.2.1) calls segs := by
  obtain ⟨row, hrow, hrk, hrc, hrq, hrs⟩ := h.row
  cases he with
  | refused _ hres _ =>
    rcases hres with ⟨e, he⟩ | ⟨row', h1, h2, h3⟩
    · cases he
    · rw [nodup_map_inj hg.ccids h1 hrow (h2.trans hrc.symm), hrs] at h3
      exact absurd h3 hl
  | @done row' st' subs calls pre hrow' hc' _ hf hsubs hcalls hpre hr hsame hall =>
    have hrr : row' = row := nodup_map_inj hg.ccids hrow' hrow (hc'.trans hrc.symm)
    subst hrr
    refine ⟨st', hrs ▸ hf, ⟨⟨{ row' with st := st' }, ?_, hrk, hrc, hrq, rfl⟩, ?_, ?_⟩, calls, hsame.sent, ?_⟩
    · rw [hsame.conns]
      exact (mem_setCRow hg.ckeys hrow (by rfl) _).mpr (Or.inl rfl)
    · rw [← h.segs, World.segments, World.segments, hsame.subs]
      rw [hrk] at hsubs hall
      exact went_segs hsubs (hall i rfl)
    · rw [← h.outs, World.told, hsame.outbox]; rfl
    · rw [← h.segs, List.forall₂_map_right_iff]
      have := (hr i rfl).2
      rw [hrk] at this
      rw [← this]
      exact hcalls.imp fun c s hs => ⟨hs.op, hs.prov⟩

/-- The request, by kind. -/
def Kind.request (k : Kind) (h : Hdr) (cid : Str) : Msg :=
  match k with
  | .commit => .commit h cid
  | .abort => .abort h cid
  | .provision => .provision h cid
  | .release => .release h cid
  | .terminate => .terminate h cid

/-- What a provider is asked, by kind. -/
def Kind.op : Kind → Str → POp
  | .commit => .commit
  | .abort => .abort
  | .provision => .provision
  | .release => .release
  | .terminate => .terminate

/-- The states of a connection, or of a segment, that has gone through the request. -/
def Kind.after : Kind → ConnStates → ConnStates
  | .commit, s => { s with r := .start }
  | .abort, s => { s with r := .start }
  | .provision, s => { s with p := .provisioned }
  | .release, s => { s with p := .released }
  | .terminate, s => { s with l := .terminated }

/-- What happens after a request for the connection with key `key` and id `cid`: the segments in `todo` (id and provider) confirm it in any
order, each once, among other messages not about the connection, notifications, and restarts. The list is that of the segments still to confirm. -/
inductive Course (cfg : Cfg) (k : Kind) (key : Nat) (cid : Str) (todo : List (Str × Str)) (w : World) : List (Str × Str) → World → Prop
  | start : Course cfg k key cid todo w todo w
  | other {rest v} (h : Course cfg k key cid todo w rest v) (o : Oracle) (m : Msg) (hn : NewSeg v m) (hf : Foreign v key cid m) :
      Course cfg k key cid todo w rest (Agg.step cfg v o m).1
  | restart {rest v} (h : Course cfg k key cid todo w rest v) : Course cfg k key cid todo w rest v.restart
  | reply {rest v} (h : Course cfg k key cid todo w rest v) (o : Oracle) (hdr : RHdr) (scid : Str) (hm : (scid, hdr.prov) ∈ rest) :
      Course cfg k key cid todo w (rest.erase (scid, hdr.prov)) (Agg.step cfg v o (k.reply hdr scid)).1

theorem newSeg_reply (v : World) (k : Kind) (h : RHdr) (c : Str) : NewSeg v (k.reply h c) := by cases k <;> trivial

theorem Course.runs {cfg : Cfg} {k : Kind} {todo rest : List (Str × Str)} {ms : List Msg} (hw : Runs cfg ms w) (h : Course cfg k key cid todo w rest w') :
    ∃ l, Runs cfg (ms ++ l) w' := by
  induction h with
  | start => exact ⟨[], by simpa using hw⟩
  | other _ o m hn _ ih => obtain ⟨l, ih⟩ := ih; exact ⟨l ++ [m], by rw [← List.append_assoc]; exact ih.step o m hn⟩
  | restart _ ih => obtain ⟨l, ih⟩ := ih; exact ⟨l, ih.restart⟩
  | @reply _ v _ o hdr scid _ ih => obtain ⟨l, ih⟩ := ih; exact ⟨l ++ [k.reply hdr scid], by rw [← List.append_assoc]; exact ih.step o _ (newSeg_reply _ _ _ _)⟩

theorem Course.good {cfg : Cfg} {k : Kind} {todo rest : List (Str × Str)} (hw : Good w) (h : Course cfg k key cid todo w rest w') : Good w' := by
  induction h with
  | start => exact hw
  | other _ o m hn _ ih => exact (step_eff ih o m hn).1
  | restart _ ih => exact restart_good ih
  | reply _ o hdr scid _ ih => exact (step_eff ih o _ (newSeg_reply _ _ _ _)).1

theorem At.orc (h : At w key cid req st segs outs) (o : Oracle) : At { w with orc := o } key cid req st segs outs := h.same rfl rfl rfl

theorem Kind.move_reached {k : Kind} {s s' : ConnStates} (h : k.move s = some s') : k.reached s' = true := by
  cases k <;> simp only [Kind.move, Option.some.injEq] at h <;> simp only [Kind.reached, decide_eq_true_eq]
  · rw [← h]
  · rw [← h]
  · exact (switchP_p h).1
  · exact (switchP_p h).1
  · rw [← h]

/-- The segments, those not in `rest` having confirmed. -/
def replied (k : Kind) (segs : List (Str × Str × ConnStates)) (rest : List (Str × Str)) : List (Str × Str × ConnStates) :=
  segs.map fun x => if (x.1, x.2.1) ∈ rest then x else (x.1, x.2.1, (k.move x.2.2).getD x.2.2)

theorem setSeg_replied {k : Kind} {rest : List (Str × Str)} (hn : (segs.map (·.1)).Nodup) (hr : rest.Nodup) {x : Str × Str × ConnStates}
    (hx : x ∈ segs) {s1 : ConnStates} (hmv : k.move x.2.2 = some s1) :
    setSeg (replied k segs rest) x.1 s1 = replied k segs (rest.erase (x.1, x.2.1)) := by
  unfold setSeg replied
  rw [List.map_map]
  refine List.map_congr_left fun y hy => ?_
  simp only [Function.comp]
  by_cases hxy : y.1 = x.1
  · have : y = x := nodup_map_inj hn hy hx hxy
    subst this
    rw [if_neg (fun h => hr.not_mem_erase h), hmv]
    split <;> simp
  · have hne : (y.1, y.2.1) ≠ (x.1, x.2.1) := fun h => hxy (by simpa using (congrArg Prod.fst h))
    have : (y.1, y.2.1) ∈ rest.erase (x.1, x.2.1) ↔ (y.1, y.2.1) ∈ rest := List.mem_erase_of_ne hne
    by_cases hm : (y.1, y.2.1) ∈ rest
    · simp [hm, this.mpr hm, hxy]
    · have hm' := fun h => hm (this.mp h)
      simp [hm, hxy]

/-- The course of a request. -/
theorem Course.at {cfg : Cfg} {k : Kind} {rest : List (Str × Str)} {st' : ConnStates} (hg : Good w) (ha : At w key cid req st segs outs) (hne : segs ≠ [])
    (hseg : ∀ x ∈ segs, k.reached x.2.2 = false ∧ (k.move x.2.2).isSome = true) (hnr : k.reached st = false) (hfin : k.finish st = some st')
    (h : Course cfg k key cid (segs.map fun x => (x.1, x.2.1)) w rest w') :
    rest.Nodup ∧ (∀ t ∈ rest, ∃ x ∈ segs, (x.1, x.2.1) = t) ∧
    At w' key cid req (if rest = [] then st' else st) (replied k segs rest) (if rest = [] then outs ++ [k.answer req cid] else outs) := by
  have hn : (segs.map (·.1)).Nodup := by
    rw [← ha.segs, List.map_map]
    exact hg.scids.sublist (List.Sublist.map _ (List.filter_sublist))
  induction h with
  | start =>
    refine ⟨?_, fun t ht => ?_, ?_⟩
    · refine List.Nodup.of_map Prod.fst ?_
      rw [List.map_map]; exact hn
    · obtain ⟨x, h1, h2⟩ := List.mem_map.mp ht; exact ⟨x, h1, h2⟩
    · have h1 : (segs.map fun x => (x.1, x.2.1)) ≠ [] := by simpa using hne
      rw [if_neg h1, if_neg h1]
      have : replied k segs (segs.map fun x => (x.1, x.2.1)) = segs := by
        unfold replied
        conv => rhs; rw [← List.map_id segs]
        refine List.map_congr_left fun x hx => ?_
        rw [if_pos (List.mem_map.mpr ⟨x, hx, rfl⟩)]; rfl
      rw [this]; exact ha
  | other hc o m hn' hf ih =>
    obtain ⟨i1, i2, i3⟩ := ih
    exact ⟨i1, i2, foreign_eff (i3.orc o) ((hc.good hg).frame o _ _ _ _) hf (step_eff (hc.good hg) o m hn').2⟩
  | restart hc ih =>
    obtain ⟨i1, i2, i3⟩ := ih
    exact ⟨i1, i2, i3.same rfl rfl rfl⟩
  | @reply rest v hc o hdr scid hm ih =>
    obtain ⟨i1, i2, i3⟩ := ih
    have hrne : rest ≠ [] := List.ne_nil_of_mem hm
    rw [if_neg hrne, if_neg hrne] at i3
    obtain ⟨x, hx, hxe⟩ := i2 _ hm
    obtain ⟨rfl, hp⟩ : x.1 = scid ∧ x.2.1 = hdr.prov := by simpa using hxe
    obtain ⟨s1, hs1⟩ := Option.isSome_iff_exists.mp (hseg x hx).2
    have hmem : (x.1, hdr.prov, x.2.2) ∈ replied k segs rest := by
      unfold replied
      refine List.mem_map.mpr ⟨x, hx, ?_⟩
      rw [if_pos (hp ▸ hm), ← hp]
    have hr := (i3.orc o).reply ((hc.good hg).frame o _ _ _ _) hmem hs1 hnr hfin (step_eff (cfg := cfg) (hc.good hg) o (k.reply hdr x.1) (newSeg_reply _ _ _ _)).2.reply
    rw [setSeg_replied hn i1 hx hs1, hp] at hr
    refine ⟨i1.erase _, fun t ht => i2 t (List.mem_of_mem_erase ht), ?_⟩
    have hall : ((replied k segs (rest.erase (x.1, hdr.prov))).all fun x => k.reached x.2.2) = true ↔ rest.erase (x.1, hdr.prov) = [] := by
      constructor
      · intro h
        rw [List.eq_nil_iff_forall_not_mem]
        intro t ht
        obtain ⟨y, hy, rfl⟩ := i2 t (List.mem_of_mem_erase ht)
        rw [List.all_eq_true] at h
        have := h y (List.mem_map.mpr ⟨y, hy, by rw [if_pos ht]⟩)
        rw [(hseg y hy).1] at this
        cases this
      · intro h
        rw [h, List.all_eq_true]
        intro z hz
        obtain ⟨y, hy, rfl⟩ := List.mem_map.mp hz
        obtain ⟨s2, hs2⟩ := Option.isSome_iff_exists.mp (hseg y hy).2
        simp only [List.not_mem_nil, if_false, hs2, Option.getD_some]
        exact Kind.move_reached hs2
    by_cases he : rest.erase (x.1, hdr.prov) = []
    · rw [if_pos (hall.mpr he)] at hr
      rw [if_pos he, if_pos he]; exact hr
    · rw [if_neg (fun h => he (hall.mp h))] at hr
      rw [if_neg he, if_neg he]; exact hr

end OpenNSA.Agg
