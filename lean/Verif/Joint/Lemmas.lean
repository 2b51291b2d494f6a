import Verif.Joint.Model
import Verif.Agg.PropsLabels
import Verif.Backend.PropsRows
/- What ties the segments of the aggregator to the connections of the backends. -/
namespace OpenNSA.Joint
open Py

/-! ### What a message does to the segments -/

open Agg in
/-- A segment after a message: as before, but for what the message says; or stored because the message confirms it. -/
inductive SegStep (m : Msg) (w : World) (s' : SRow) : Prop
  | old {s} (hs : s ∈ w.subs) (same : SameSeg s s')
      (r : s'.st.r = .start → s.st.r = .start ∨ ∃ h, m = .commitConfirmed h s.cid ∨ m = .abortConfirmed h s.cid)
      (p : s'.st.p = .provisioned → s.st.p = .provisioned ∨ ∃ h, m = .provisionConfirmed h s.cid)
      (l : s'.st.l = .terminated → s.st.l = .terminated ∨ ∃ h, m = .terminateConfirmed h s.cid)
      (d : s'.dpActive = true → s.dpActive = true ∨ ∃ h v c, m = .dataPlane h s.cid true v c)
  | new {h c r} (hm : m = .reserveConfirmed h s'.cid c) (hd : dget w.resv h.corr = some r) (hs : s' = segRow w r s'.cid c)

open Agg in
theorem SegStep.refl {m : Msg} {w : World} {s : SRow} (hs : s ∈ w.subs) : SegStep m w s :=
  .old hs (.rfl' s) Or.inl Or.inl Or.inl Or.inl

open Agg in
theorem reqEff_seg {cfg : Cfg} {w w' : World} {cid : Str} {f g : ConnStates → Option ConnStates} {op : Str → POp} {r : Except Err (Option Str)} {m : Msg}
    (hg : ∀ s st, g s = some st → (st.r = .start → s.r = .start) ∧ (st.p = .provisioned → s.p = .provisioned) ∧ (st.l = .terminated → s.l = .terminated))
    (he : ReqEff cfg cid f g op w w' r) : ∀ s' ∈ w'.subs, SegStep m w s' := by
  intro s' hs'
  cases he with
  | refused _ _ h => exact .refl (h.subs ▸ hs')
  | done _ _ _ _ hsubs _ _ _ h =>
    rw [h.subs] at hs'
    obtain ⟨s, hs, hm⟩ := forall₂_right_exists hsubs _ hs'
    rcases hm with rfl | ⟨_, st, hst, rfl⟩
    · exact .refl hs
    · obtain ⟨h1, h2, h3⟩ := hg _ _ hst
      exact .old hs ⟨rfl, rfl, rfl, rfl, rfl, rfl, rfl⟩ (fun h => Or.inl (h1 h)) (fun h => Or.inl (h2 h)) (fun h => Or.inl (h3 h)) Or.inl

open Agg in
theorem mem_setSRow_seg {w : World} {t s' : SRow} (hs' : s' ∈ setSRow w.subs t) : s' = t ∨ s' ∈ w.subs := by
  unfold setSRow at hs'
  obtain ⟨x, hx, rfl⟩ := List.mem_map.1 hs'
  split
  · exact Or.inl rfl
  · exact Or.inr hx

open Agg in
theorem replyEff_seg {w w' : World} {prov cid : Str} {set : ConnStates → Option ConnStates} {there : ConnStates → Bool}
    {f : ConnStates → Option ConnStates} {msg : Str → Str → Out} {m : Msg}
    (hset : ∀ s st, set s = some st →
      (st.r = .start → s.r = .start ∨ ∃ h, m = .commitConfirmed h cid ∨ m = .abortConfirmed h cid) ∧
      (st.p = .provisioned → s.p = .provisioned ∨ ∃ h, m = .provisionConfirmed h cid) ∧
      (st.l = .terminated → s.l = .terminated ∨ ∃ h, m = .terminateConfirmed h cid))
    (he : ReplyEff prov cid set there f msg w w') : ∀ s' ∈ w'.subs, SegStep m w s' := by
  intro s' hs'
  cases he with
  | unknown _ h => exact .refl (h.subs ▸ hs')
  | refused _ _ _ h => exact .refl (h.subs ▸ hs')
  | @done s row st hs hc hst _ _ h =>
    rw [h.subs, (upEff_frame _ _ _ _ _).2.1] at hs'
    rcases mem_setSRow_seg hs' with rfl | hs'
    · obtain ⟨h1, h2, h3⟩ := hset _ _ hst
      rw [← hc] at h1 h2 h3
      exact .old hs ⟨rfl, rfl, rfl, rfl, rfl, rfl, rfl⟩ h1 h2 h3 Or.inl
    · exact .refl hs'

open Agg in
theorem eff_seg {cfg : Cfg} {w w' : World} {r : Except Err (Option Str)} {m : Msg} (he : Eff cfg w w' r m) : ∀ s' ∈ w'.subs, SegStep m w s' := by
  have hR : ∀ s st x, x ≠ .start → switchR s x = some st →
      (st.r = .start → s.r = .start) ∧ (st.p = .provisioned → s.p = .provisioned) ∧ (st.l = .terminated → s.l = .terminated) := by
    intro s st x hx h
    have := switchR_r h
    refine ⟨fun h' => absurd (this.1.symm.trans h') hx, ?_, ?_⟩
    · intro h'; rw [← h']; unfold switchR at h; split at h <;> simp at h; rw [← h]
    · intro h'; rw [← h']; unfold switchR at h; split at h <;> simp at h; rw [← h]
  have hP : ∀ s st x, x ≠ .provisioned → switchP s x = some st →
      (st.r = .start → s.r = .start) ∧ (st.p = .provisioned → s.p = .provisioned) ∧ (st.l = .terminated → s.l = .terminated) := by
    intro s st x hx h
    have := switchP_p h
    refine ⟨?_, fun h' => absurd (this.1.symm.trans h') hx, ?_⟩
    · intro h'; rw [← h']; unfold switchP at h; split at h <;> simp at h; rw [← h]
    · intro h'; rw [← h']; unfold switchP at h; split at h <;> simp at h; rw [← h]
  intro s' hs'
  cases m with
  | reserve h cid c =>
    cases he with
    | nothing h => exact .refl (h.subs ▸ hs')
    | made _ _ _ _ _ _ _ _ _ _ h => exact .refl (by rw [h.subs] at hs'; exact hs')
  | reserveConfirmed h cid c =>
    cases he with
    | unknown _ h => exact .refl (h.subs ▸ hs')
    | other _ _ h => exact .refl (h.subs ▸ hs')
    | stored hd _ hw _ _ _ _ h =>
      rw [h.subs, hw] at hs'
      rcases List.mem_append.1 hs' with hs' | hs'
      · exact .refl hs'
      · rw [List.mem_singleton] at hs'
        subst hs'
        exact .new rfl hd rfl
    | told hd _ hw _ _ _ _ _ h =>
      rw [h.subs, hw] at hs'
      rcases List.mem_append.1 hs' with hs' | hs'
      · exact .refl hs'
      · rw [List.mem_singleton] at hs'
        subst hs'
        exact .new rfl hd rfl
  | reserveFailed h =>
    cases he with
    | unknown _ h => exact .refl (h.subs ▸ hs')
    | other _ _ h => exact .refl (h.subs ▸ hs')
    | late _ _ _ _ _ h => exact .refl (by rw [h.subs] at hs'; exact hs')
    | told _ _ _ _ _ h => exact .refl (by rw [h.subs] at hs'; exact hs')
  | commit h cid => exact reqEff_seg (fun _ _ h => by simp at h) he s' hs'
  | abort h cid => exact reqEff_seg (fun s st h => hR s st _ (by simp) h) he s' hs'
  | provision h cid => exact reqEff_seg (fun s st h => hP s st _ (by simp) h) he s' hs'
  | release h cid => exact reqEff_seg (fun s st h => hP s st _ (by simp) h) he s' hs'
  | terminate h cid => exact reqEff_seg (fun _ _ h => by simp at h) he s' hs'
  | querySummary h cids gids =>
    cases he with
    | refused _ _ h => exact .refl (h.subs ▸ hs')
    | told _ _ h => exact .refl (by rw [h.subs] at hs'; exact hs')
  | queryRecursive h cids gids =>
    cases he with
    | refused _ h => exact .refl (h.subs ▸ hs')
    | asked _ _ _ _ _ _ _ _ h => exact .refl (by rw [h.subs] at hs'; exact hs')
  | commitConfirmed h cid =>
    refine replyEff_seg ?_ he s' hs'
    intro s st hst
    simp only [Option.some.injEq] at hst
    subst hst
    exact ⟨fun _ => Or.inr ⟨h, Or.inl rfl⟩, Or.inl, Or.inl⟩
  | abortConfirmed h cid =>
    refine replyEff_seg ?_ he s' hs'
    intro s st hst
    simp only [Option.some.injEq] at hst
    subst hst
    exact ⟨fun _ => Or.inr ⟨h, Or.inr rfl⟩, Or.inl, Or.inl⟩
  | provisionConfirmed h cid =>
    refine replyEff_seg ?_ he s' hs'
    intro s st hst
    refine ⟨?_, fun _ => Or.inr ⟨h, rfl⟩, ?_⟩
    · intro h'; left; rw [← h']; unfold switchP at hst; split at hst <;> simp at hst; rw [← hst]
    · intro h'; left; rw [← h']; unfold switchP at hst; split at hst <;> simp at hst; rw [← hst]
  | releaseConfirmed h cid =>
    refine replyEff_seg ?_ he s' hs'
    intro s st hst
    obtain ⟨h1, h2, h3⟩ := hP s st _ (by simp) hst
    exact ⟨fun h => Or.inl (h1 h), fun h => Or.inl (h2 h), fun h => Or.inl (h3 h)⟩
  | terminateConfirmed h cid =>
    refine replyEff_seg ?_ he s' hs'
    intro s st hst
    simp only [Option.some.injEq] at hst
    subst hst
    exact ⟨Or.inl, Or.inl, fun _ => Or.inr ⟨h, rfl⟩⟩
  | timeout h cid n =>
    have key : ∀ (s : SRow) (st : ConnStates), s ∈ w.subs → switchR s.st .timeout = some st → s' ∈ setSRow w.subs { s with st } →
        SegStep (.timeout h cid n) w s' := by
      intro s st hs hst h'
      rcases mem_setSRow_seg h' with rfl | h'
      · obtain ⟨h1, h2, h3⟩ := hR _ _ _ (by simp) hst
        exact .old hs ⟨rfl, rfl, rfl, rfl, rfl, rfl, rfl⟩ (fun h => Or.inl (h1 h)) (fun h => Or.inl (h2 h)) (fun h => Or.inl (h3 h)) Or.inl
      · exact .refl h'
    cases he with
    | unknown _ h => exact .refl (h.subs ▸ hs')
    | refused _ _ _ h => exact .refl (h.subs ▸ hs')
    | done hs _ hst _ _ h _ => exact key _ _ hs hst (by rw [h.subs] at hs'; exact hs')
    | told hs _ hst _ _ _ _ h => exact key _ _ hs hst (by rw [h.subs] at hs'; exact hs')
  | dataPlane h cid a v c =>
    cases he with
    | unknown _ h => exact .refl (h.subs ▸ hs')
    | told hs hc ht _ _ h =>
      rw [h.subs] at hs'
      rcases mem_setSRow_seg hs' with rfl | hs'
      · subst ht
        refine .old hs ⟨rfl, rfl, rfl, rfl, rfl, rfl, rfl⟩ Or.inl Or.inl Or.inl ?_
        intro h'
        simp only at h'
        subst h'
        exact Or.inr ⟨_, _, _, by rw [hc]⟩
      · exact .refl hs'
  | errorEvent h cid n =>
    cases he with
    | none h => exact .refl (h.subs ▸ hs')
    | told _ _ _ _ h => exact .refl (by rw [h.subs] at hs'; exact hs')
  | queryConfirmed h res =>
    cases he with
    | ignored _ h => exact .refl (h.subs ▸ hs')
    | orphan _ _ _ h => exact .refl (by rw [h.subs] at hs'; exact hs')
    | waiting _ _ _ _ h => exact .refl (by rw [h.subs] at hs'; exact hs')
    | failed _ _ _ _ _ _ h => exact .refl (by rw [h.subs] at hs'; exact hs')
    | told _ _ _ _ _ _ h => exact .refl (by rw [h.subs] at hs'; exact hs')

/-! ### The data plane -/

open Agg in
/-- Nothing about the data plane is added to what the requesters are told. -/
def Mute (w w' : World) : Prop := ∃ l, w'.outbox = w.outbox ++ l ∧ ∀ x ∈ l, ∀ a b n d, x ≠ .dataPlane a b n d

open Agg in
theorem Mute.of {w w' : World} (h : w'.outbox = w.outbox) : Mute w w' := ⟨[], by rw [h, List.append_nil], by simp⟩

open Agg in
theorem Mute.one {w w' : World} {x : Out} (h : w'.outbox = w.outbox ++ [x]) (hx : ∀ a b n d, x ≠ .dataPlane a b n d) : Mute w w' :=
  ⟨[x], h, by simpa using hx⟩

open Agg in
theorem reqEff_mute {cfg : Cfg} {w w' : World} {cid : Str} {f g : ConnStates → Option ConnStates} {op : Str → POp} {r : Except Err (Option Str)}
    (he : ReqEff cfg cid f g op w w' r) : Mute w w' := by
  cases he with
  | refused _ _ h => exact .of h.outbox
  | done _ _ _ _ _ _ _ _ h => exact .of h.outbox

open Agg in
theorem replyEff_mute {w w' : World} {prov cid : Str} {set : ConnStates → Option ConnStates} {there : ConnStates → Bool}
    {f : ConnStates → Option ConnStates} {msg : Str → Str → Out} (hm : ∀ x y a b n d, msg x y ≠ .dataPlane a b n d)
    (he : ReplyEff prov cid set there f msg w w') : Mute w w' := by
  cases he with
  | unknown _ h => exact .of h.outbox
  | refused _ _ _ h => exact .of h.outbox
  | done _ _ _ _ _ h =>
    have h := h.outbox
    unfold upEff at h
    split at h
    · split at h
      · exact .of h
      · exact .one h (hm _ _)
    · exact .of h

open Agg in
/-- The requester is told about the data plane only when a provider says something about it. -/
theorem eff_mute {cfg : Cfg} {w w' : World} {r : Except Err (Option Str)} {m : Msg} (he : Eff cfg w w' r m)
    (hm : ∀ h cid a v c, m ≠ .dataPlane h cid a v c) : Mute w w' := by
  cases m with
  | reserve h cid c =>
    cases he with
    | nothing h => exact .of h.outbox
    | made _ _ _ _ _ _ _ _ _ _ h => exact .of h.outbox
  | reserveConfirmed h cid c =>
    cases he with
    | unknown _ h => exact .of h.outbox
    | other _ _ h => exact .of h.outbox
    | stored hd _ hw _ _ _ _ h => subst hw; exact .of h.outbox
    | told hd _ hw _ _ _ _ _ h => subst hw; exact .one h.outbox (by simp)
  | reserveFailed h =>
    cases he with
    | unknown _ h => exact .of h.outbox
    | other _ _ h => exact .of h.outbox
    | late _ _ _ _ _ h => exact .of h.outbox
    | told _ _ _ _ _ h => exact .one h.outbox (by simp)
  | commit h cid => exact reqEff_mute he
  | abort h cid => exact reqEff_mute he
  | provision h cid => exact reqEff_mute he
  | release h cid => exact reqEff_mute he
  | terminate h cid => exact reqEff_mute he
  | querySummary h cids gids =>
    cases he with
    | refused _ _ h => exact .of h.outbox
    | told _ _ h => exact .one h.outbox (by simp)
  | queryRecursive h cids gids =>
    cases he with
    | refused _ h => exact .of h.outbox
    | asked _ _ _ _ _ _ _ _ h => exact .of h.outbox
  | commitConfirmed h cid => exact replyEff_mute (by simp) he
  | abortConfirmed h cid => exact replyEff_mute (by simp) he
  | provisionConfirmed h cid => exact replyEff_mute (by simp) he
  | releaseConfirmed h cid => exact replyEff_mute (by simp) he
  | terminateConfirmed h cid => exact replyEff_mute (by simp) he
  | timeout h cid n =>
    cases he with
    | unknown _ h => exact .of h.outbox
    | refused _ _ _ h => exact .of h.outbox
    | done _ _ _ _ _ h _ => exact .of h.outbox
    | told _ _ _ _ _ _ _ h => exact .one h.outbox (by simp)
  | dataPlane h cid a v c => exact absurd rfl (hm h cid a v c)
  | errorEvent h cid n =>
    cases he with
    | none h => exact .of h.outbox
    | told _ _ _ _ h => exact .one h.outbox (by simp)
  | queryConfirmed h res =>
    cases he with
    | ignored _ h => exact .of h.outbox
    | orphan _ _ _ h => exact .of h.outbox
    | waiting _ _ _ _ h => exact .of h.outbox
    | failed _ _ _ _ _ _ h => exact .of h.outbox
    | told _ _ _ _ _ _ h => exact .one h.outbox (by simp)

open Agg in
/-- When the requester is told that the data plane is active, all segments of the connection are. -/
theorem told_active {cfg : Cfg} {w : World} (hg : Good w) (o : Oracle) (m : Msg) (hn : NewSeg w m) {to_ cid : Str} {n : Nat} {v : Int} {c : Bool}
    (hout : .dataPlane to_ cid n (true, v, c) ∈ (Agg.step cfg w o m).1.outbox.drop w.outbox.length) :
    ∃ row ∈ (Agg.step cfg w o m).1.conns, row.cid = cid ∧ ∀ s ∈ (Agg.step cfg w o m).1.subs, s.skey = row.key → s.dpActive = true := by
  have he := (step_eff (cfg := cfg) hg o m hn).2
  by_cases hm : ∃ h cid a v c, m = .dataPlane h cid a v c
  · obtain ⟨h, scid, a, v', c', rfl⟩ := hm
    cases he with
    | unknown _ h => rw [h.outbox] at hout; simp at hout
    | @told s s' row hs hc hs' hr hk h =>
      rw [h.outbox] at hout
      simp only [List.drop_left, List.mem_singleton, Out.dataPlane.injEq] at hout
      obtain ⟨_, rfl, _, hd⟩ := hout
      refine ⟨row, by rw [h.conns]; exact hr, rfl, ?_⟩
      intro x hx hxk
      rw [h.subs] at hx
      have hall : ((segEff { w with orc := o } s').segments row.key).all (·.dpActive) = true := (congrArg Prod.fst hd).symm
      rw [List.all_eq_true] at hall
      exact hall x (by simpa [World.segments, hxk] using hx)
  · obtain ⟨l, hl, hno⟩ := eff_mute he (fun h cid a v c e => hm ⟨h, cid, a, v, c, e⟩)
    rw [hl, List.drop_left] at hout
    exact absurd rfl (hno _ hout _ _ _ _)

/-! ### The connection of a segment -/

/-- The segment is the backend's connection. -/
structure Bound (cfg : Backend.Cfg) (l : List (Backend.Oracle × Backend.Choice)) (corr : Str) (s : Agg.SRow) (r : Backend.Row) : Prop where
  cid : r.cid = s.cid
  reserved : Backend.Reserved cfg l corr r
  src : s.src = ⟨cfg.network, r.srcPort, labelOf r.srcLabel⟩
  dst : s.dst = ⟨cfg.network, r.dstPort, labelOf r.dstLabel⟩
  start : s.st.r = .start → Backend.Requested cfg l .commit r ∨ Backend.Requested cfg l .abort r
  prov : s.st.p = .provisioned → Backend.Requested cfg l .provision r
  term : s.st.l = .terminated → Backend.Requested cfg l .terminate r
  up : s.dpActive = true → Backend.Requested cfg l .provision r

/-- The segment was asked for, of the provider it has; if that is a backend, the segment is a connection of it. -/
def Tied (sys : Sys) (w : Agg.World) (f : Scheds) (s : Agg.SRow) : Prop :=
  ∃ row ∈ w.conns, row.key = s.skey ∧ ∃ pc, (w.asked row.cid)[s.order]? = some pc ∧ pc.prov = s.prov ∧
    ∀ site, sys.site pc.handle = some site → ∃ r ∈ (site.at (f pc.handle)).rows, Bound site.cfg (f pc.handle) pc.corr s r

/-- The labels at the backends were parsed from text. -/
def Texts (sys : Sys) (f : Scheds) : Prop := ∀ b site, sys.site b = some site → Backend.TextSchedule site.cfg (f b)

theorem kept {cfg : Backend.Cfg} {ids : List Str} {clk : Time} {l l' : List (Backend.Oracle × Backend.Choice)}
    (ht : Backend.TextSchedule cfg (l ++ l')) : ∀ r ∈ (Site.at ⟨cfg, ids, clk⟩ l).rows, ∃ r' ∈ (Site.at ⟨cfg, ids, clk⟩ (l ++ l')).rows, r.Same r' := by
  have h1 := Backend.rows_asked cfg ht (s := l) (fun x hx => by simp [hx]) (Backend.init_safe ids clk)
  have h2 := Backend.rows_asked cfg ht (s := l') (fun x hx => by simp [hx]) h1.1
  unfold Site.at
  rw [Backend.Conc.run_append]
  exact h2.2.rows

theorem Requested.mono {cfg : Backend.Cfg} {l l' : List (Backend.Oracle × Backend.Choice)} (hl : ∀ x ∈ l, x ∈ l') {k : Backend.Kind} {r r' : Backend.Row}
    (hs : r.Same r') (h : Backend.Requested cfg l k r) : Backend.Requested cfg l' k r' := by
  obtain ⟨o, hd, hm, hu⟩ := (Backend.asked cfg l).sameA hs h
  exact ⟨o, hd, hl _ hm, hu⟩

theorem Reserved.mono {cfg : Backend.Cfg} {l l' : List (Backend.Oracle × Backend.Choice)} (hl : ∀ x ∈ l, x ∈ l') {c : Str} {r r' : Backend.Row}
    (hs : r.Same r') (h : Backend.Reserved cfg l c r) : Backend.Reserved cfg l' c r' := by
  obtain ⟨o, hd, ci, a, b, hm, hu⟩ := (Backend.asked cfg l).sameB hs h
  exact ⟨o, hd, ci, a, b, hl _ hm, hu⟩

theorem Bound.mono {cfg : Backend.Cfg} {l l' : List (Backend.Oracle × Backend.Choice)} (hl : ∀ x ∈ l, x ∈ l') {c : Str} {s : Agg.SRow} {r r' : Backend.Row}
    (hs : r.Same r') (h : Bound cfg l c s r) : Bound cfg l' c s r' := by
  have e := hs
  obtain ⟨a1, a2, a3, a4, a5, a6, a7, a8, a9⟩ := e
  exact ⟨a1.trans h.cid, Reserved.mono hl hs h.reserved, by rw [h.src, a4, a5], by rw [h.dst, a6, a7],
    fun hx => (h.start hx).imp (Requested.mono hl hs) (Requested.mono hl hs), fun hx => Requested.mono hl hs (h.prov hx), fun hx => Requested.mono hl hs (h.term hx),
    fun hx => Requested.mono hl hs (h.up hx)⟩

theorem Runs.agg {sys : Sys} {ms : List Agg.Msg} {w : Agg.World} {f : Scheds} (h : Runs sys ms w f) : Agg.Runs sys.agg ms w := by
  induction h with
  | init => exact .init
  | msg _ o m hn _ ih => exact ih.step o m hn
  | restart _ ih => exact ih.restart
  | act _ _ _ _ ih => exact ih

/-- Every request at a backend is a call of the aggregator. -/
theorem Runs.called {sys : Sys} {ms : List Agg.Msg} {w : Agg.World} {f : Scheds} (h : Runs sys ms w f) : ∀ b, ∀ x ∈ f b, Called sys w b x.2 := by
  have mono : ∀ {w w' : Agg.World} {b : Nat} {c : Backend.Choice}, (∀ x ∈ w.sent, x ∈ w'.sent) → Called sys w b c → Called sys w' b c := by
    intro w w' b c hw hc
    cases c with
    | start hd q =>
      obtain ⟨pc, h1, h2⟩ := hc
      exact ⟨pc, hw _ h1, h2⟩
    | _ => trivial
  induction h with
  | init => simp
  | msg h o m hn _ ih => exact fun b x hx => mono (Agg.step_sent h.agg.good o m hn).subset (ih b x hx)
  | restart _ ih => exact fun b x hx => mono (fun _ h => h) (ih b x hx)
  | act _ b x hc ih =>
    intro i y hy
    unfold Scheds.add at hy
    split at hy
    · rename_i hi
      subst hi
      rcases List.mem_append.1 hy with hy | hy
      · exact ih _ y hy
      · rw [List.mem_singleton.1 hy]; exact hc
    · exact ih _ y hy

theorem asked_prefix {w w' : Agg.World} (h : w.sent <+: w'.sent) {cid : Str} {i : Nat} {c : Agg.PCall} (hc : (w.asked cid)[i]? = some c) :
    (w'.asked cid)[i]? = some c := by
  unfold Agg.World.asked at hc ⊢
  obtain ⟨l, hl⟩ := h
  rw [← hl, List.filter_append]
  have hlt : i < (List.filter (fun c => decide (c.reserveFor = some cid)) w.sent).length := (List.getElem?_eq_some_iff.1 hc).1
  rw [List.getElem?_append_left hlt]
  exact hc

theorem row_unique {site : Site} {l : List (Backend.Oracle × Backend.Choice)} (ht : Backend.TextSchedule site.cfg l) {r r' : Backend.Row}
    (h : r ∈ (site.at l).rows) (h' : r' ∈ (site.at l).rows) (hc : r.cid = r'.cid) : r = r' :=
  Agg.nodup_map_inj (Backend.C74_unique site.cfg site.ids site.clk l ht) h h' hc

/-- Every segment is tied to what was asked for. -/
theorem Runs.tied {sys : Sys} {ms : List Agg.Msg} {w : Agg.World} {f : Scheds} (h : Runs sys ms w f) : w.freshIds → Texts sys f →
    ∀ s ∈ w.subs, Tied sys w f s := by
  induction h with
  | init => intro _ _ s hs; simp [Agg.World.init] at hs
  | restart _ ih => exact fun hf ht s hs => ih hf ht s hs
  | @act ms w f _ b x _ ih =>
    intro hf ht s hs
    have ht0 : Texts sys f := by
      intro i site hi o h cid? src dst st en hm
      refine ht i site hi o h cid? src dst st en ?_
      unfold Scheds.add
      split
      · exact List.mem_append_left _ hm
      · exact hm
    obtain ⟨row, h1, h2, pc, h3, h4, h5⟩ := ih hf ht0 s hs
    refine ⟨row, h1, h2, pc, h3, h4, ?_⟩
    intro site hsite
    obtain ⟨r, hr, hb⟩ := h5 site hsite
    have ht1 := ht pc.handle site hsite
    unfold Scheds.add at ht1 ⊢
    split
    · rename_i hi
      rw [if_pos hi] at ht1
      obtain ⟨r', hr', hs'⟩ := kept ht1 r hr
      exact ⟨r', hr', hb.mono (fun _ h => List.mem_append_left _ h) hs'⟩
    · exact ⟨r, hr, hb⟩
  | @msg ms w f h o m hn hgen ih =>
    intro hf ht s' hs'
    have hpre := Agg.step_sent (cfg := sys.agg) h.agg.good o m hn
    have hfw := Agg.freshIds_of_prefix hpre hf
    obtain ⟨outs, old, news, hsh⟩ := Agg.step_shape (cfg := sys.agg) h.agg.good o m hn
    have hrow : ∀ row ∈ w.conns, ∃ row' ∈ (Agg.step sys.agg w o m).1.conns, row'.key = row.key ∧ row'.cid = row.cid := by
      intro row hr
      obtain ⟨row', hr', hrs⟩ := Agg.forall₂_left_exists hsh.rows _ hr
      exact ⟨row', by rw [hsh.conns]; exact List.mem_append_left _ hr', hrs.key, hrs.cid⟩
    cases eff_seg (Agg.step_eff (cfg := sys.agg) h.agg.good o m hn).2 s' hs' with
    | old hs same hR hP hL hD =>
      rename_i s
      obtain ⟨row, h1, h2, pc, h3, h4, h5⟩ := ih hfw ht s hs
      obtain ⟨row', hr', hk, hc⟩ := hrow row h1
      refine ⟨row', hr', by rw [hk, h2, same.skey], pc, by rw [hc, same.order]; exact asked_prefix hpre h3, by rw [h4, same.prov], ?_⟩
      intro site hsite
      obtain ⟨r, hr, hb⟩ := h5 site hsite
      refine ⟨r, hr, ?_⟩
      have ht1 := ht _ site hsite
      have conc : ∃ x ∈ (site.at (f pc.handle)).rows, x.cid = s.cid := ⟨r, hr, hb.cid⟩
      have hmsg : ∀ bm, bm ∈ (site.at (f pc.handle)).outbox → _ := fun bm => Backend.C75_messages site.cfg site.ids site.clk _ ht1 bm
      have uniq : ∀ x ∈ (site.at (f pc.handle)).rows, x.cid = s.cid → x = r := fun x hx hxc => row_unique ht1 hx hr (hxc.trans hb.cid.symm)
      refine ⟨hb.cid.trans same.cid.symm, hb.reserved, same.src.trans hb.src, same.dst.trans hb.dst, ?_, ?_, ?_, ?_⟩
      · intro hx
        rcases hR hx with hx | ⟨hh, rfl | rfl⟩
        · exact hb.start hx
        · obtain ⟨x, hx, hxc, hxr⟩ := hmsg _ (hgen _ _ hsite conc)
          rw [← uniq x hx hxc]; exact Or.inl hxr
        · obtain ⟨x, hx, hxc, hxr⟩ := hmsg _ (hgen _ _ hsite conc)
          rw [← uniq x hx hxc]; exact Or.inr hxr
      · intro hx
        rcases hP hx with hx | ⟨hh, rfl⟩
        · exact hb.prov hx
        · obtain ⟨x, hx, hxc, hxr⟩ := hmsg _ (hgen _ _ hsite conc)
          rw [← uniq x hx hxc]; exact hxr
      · intro hx
        rcases hL hx with hx | ⟨hh, rfl⟩
        · exact hb.term hx
        · obtain ⟨x, hx, hxc, hxr⟩ := hmsg _ (hgen _ _ hsite conc)
          rw [← uniq x hx hxc]; exact hxr
      · intro hx
        rcases hD hx with hx | ⟨hh, v, c, rfl⟩
        · exact hb.up hx
        · obtain ⟨n, hn⟩ := hgen _ _ hsite conc
          obtain ⟨x, hx, hxc, hxr⟩ := hmsg _ hn
          rw [← uniq x hx hxc]; exact hxr rfl
    | @new hh c rv hm hd hseg =>
      obtain ⟨row, h1, h2, pc, h3, h4, h5⟩ := (h.agg.books hfw).call _ (dget_some_mem hd)
      obtain ⟨row', hr', hk, hc⟩ := hrow row h1
      have hsk : s'.skey = rv.skey ∧ s'.order = rv.order ∧ s'.prov = rv.prov ∧ s'.src = c.src ∧ s'.dst = c.dst ∧ s'.st = ⟨.held, .released, .created⟩ ∧
        s'.dpActive = false := by rw [hseg]; exact ⟨rfl, rfl, rfl, rfl, rfl, rfl, rfl⟩
      obtain ⟨e1, e2, e3, e4, e5, e6, e7⟩ := hsk
      refine ⟨row', hr', by rw [hk, e1]; exact h2, pc, by rw [hc, e2]; exact asked_prefix hpre h3, by rw [e3]; exact h5, ?_⟩
      intro site hsite
      have ht1 := ht _ site hsite
      subst hm
      have hpc : pc ∈ w.sent := (List.mem_filter.mp (List.mem_of_getElem? h3)).1
      obtain ⟨r, hr, hrc, hout, bw, hcr⟩ := hgen _ _ hsite ⟨pc, hpc, h4, rfl⟩
      obtain ⟨r2, hr2, hc2, _, _, _, _, hres⟩ := Backend.C75_messages site.cfg site.ids site.clk _ ht1 _ hout
      have : r2 = r := row_unique ht1 hr2 hr (hc2.trans hrc.symm)
      rw [this] at hres
      refine ⟨r, hr, hrc, h4 ▸ hres, by rw [e4, hcr]; rfl, by rw [e5, hcr]; rfl, ?_, ?_, ?_, ?_⟩
      · rw [e6]; simp
      · rw [e6]; simp
      · rw [e6]; simp
      · rw [e7]; simp

end OpenNSA.Joint
