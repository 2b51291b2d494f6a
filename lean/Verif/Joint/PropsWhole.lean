import Verif.Joint.Whole
/-
C86, in every interleaving of the handlers of the aggregator and of the operations of the backends, with restarts.
-/
namespace OpenNSA.Joint
open Py

variable {sys : Sys} {T : List (Agg.Msg × Agg.World)} {s : Agg.Sys} {f : Scheds} {to_ cid : Str}

/-- The segment was asked for on behalf of the connection, of the provider it has; and if that is a backend, it has stored the segment as asked for, and
one of these calls of the aggregator has reached it for that segment. -/
def Acts (sys : Sys) (w : Agg.World) (f : Scheds) (cid : Str) (y : Agg.SRow) (ks : List Backend.Kind) : Prop :=
  ∃ pc ∈ w.sent, pc.reserves cid ∧ pc.prov = y.prov ∧ ∀ site, sys.site pc.handle = some site →
    ∃ r ∈ (site.at (f pc.handle)).rows, r.cid = y.cid ∧ Holds sys site.cfg pc r ∧ ∃ k ∈ ks, Reached w site.cfg pc.handle (f pc.handle) k r

/-- The segment as stored, whose answer confirmed it. -/
theorem Trace.stored (h : Trace sys T s f) (hg : Honest sys T s.w f) (hf : s.w.freshIds) (ht : Texts sys f) {y : Agg.SRow} (hy : y ∈ s.w.subs)
    {row : Agg.CRow} (hr : row ∈ s.w.conns) (hk : y.skey = row.key) :
    ∃ pc ∈ s.w.sent, pc.reserves row.cid ∧ pc.prov = y.prov ∧ ∀ site, sys.site pc.handle = some site →
      ∃ r ∈ (site.at (f pc.handle)).rows, r.cid = y.cid ∧ Holds sys site.cfg pc r ∧ y.src = ⟨site.cfg.network, r.srcPort, labelOf r.srcLabel⟩ ∧
        y.dst = ⟨site.cfg.network, r.dstPort, labelOf r.dstLabel⟩ := by
  have hi := (h.agg.causes fun _ h => h).1
  obtain ⟨hd, c, w0, hT, hp, hsrc, hdst, row0, hr0, hk0, pc, hpc, h1, h2, h3⟩ := (hi.2.subs y hy).made
  have hl := h.lasting _ hT
  obtain ⟨row1, hr1, hk1, hc1⟩ := hl.conns row0 hr0
  have e : row1 = row := Agg.nodup_map_inj hi.1.ckeys hr1 hr (by rw [hk1, hk0, hk])
  have hpc' := hl.sent.subset hpc
  refine ⟨pc, hpc', by rw [← e, hc1]; exact h3, h2.trans hp, fun site hsite => ?_⟩
  have ht1 := ht _ site hsite
  obtain ⟨r, hrr, hrc, hout, bw, hcr⟩ := hg _ ⟨w0, hT⟩ _ _ hsite ⟨pc, hpc', h1, rfl⟩
  obtain ⟨r2, hr2, hc2, _, _, _, _, hres⟩ := Backend.C75_messages site.cfg site.ids site.clk _ ht1 _ hout
  rw [row_unique ht1 hr2 hrr (hc2.trans hrc.symm)] at hres
  exact ⟨r, hrr, hrc, holds_of h.called hf hpc' (h1 ▸ hres), by rw [hsrc, hcr]; rfl, by rw [hdst, hcr]; rfl⟩

/-- What the backend says it was asked for has reached it. -/
theorem Trace.acts (h : Trace sys T s f) (hg : Honest sys T s.w f) (hf : s.w.freshIds) (ht : Texts sys f) {y : Agg.SRow} (hy : y ∈ s.w.subs)
    {row : Agg.CRow} (hr : row ∈ s.w.conns) (hk : y.skey = row.key) {ks : List Backend.Kind}
    (hm : ∃ m, Agg.Heard T m ∧ (∀ w b v r, r ∈ Backend.World.rows v → r.cid = y.cid → Concerns w b v m) ∧
      ∀ site l, Sends site (site.at l) m → Backend.TextSchedule site.cfg l →
        ∃ r ∈ (site.at l).rows, r.cid = y.cid ∧ ∃ k ∈ ks, Backend.Requested site.cfg l k r) : Acts sys s.w f row.cid y ks := by
  obtain ⟨m, hm, hconc, hreq⟩ := hm
  obtain ⟨pc, hpc, h1, h2, h3⟩ := h.stored hg hf ht hy hr hk
  refine ⟨pc, hpc, h1, h2, fun site hsite => ?_⟩
  obtain ⟨r, hrr, hrc, hh, _⟩ := h3 site hsite
  obtain ⟨r2, hr2, hc2, k, hkk, hreq⟩ := hreq site _ (hg _ hm _ _ hsite (hconc _ _ _ r hrr hrc)) (ht _ site hsite)
  rw [row_unique (ht _ site hsite) hr2 hrr (hc2.trans hrc.symm)] at hreq
  exact ⟨r, hrr, hrc, hh, k, hkk, reached_of h.called hreq⟩

/-- A message about a segment of the connection was received; the backend concerned has been asked for it (`k`), and for all segments of
the connection that were stored when it was received, their backends have been asked for one of `ks`. -/
def Everywhere (sys : Sys) (T : List (Agg.Msg × Agg.World)) (w : Agg.World) (f : Scheds) (cid : Str) (m : Agg.RHdr → Str → Agg.Msg) (k : Backend.Kind)
    (ks : List Backend.Kind) : Prop :=
  ∃ row ∈ w.conns, row.cid = cid ∧ ∃ h, ∃ x ∈ w.subs, x.skey = row.key ∧ ∃ w0, (m h x.cid, w0) ∈ T ∧ Acts sys w f cid x [k] ∧
    ∀ y ∈ w0.subs, y.skey = row.key → Acts sys w f cid y ks

theorem Acts.same {w : Agg.World} {y y' : Agg.SRow} {ks : List Backend.Kind} (h1 : y'.cid = y.cid) (h2 : y'.prov = y.prov) (h : Acts sys w f cid y' ks) :
    Acts sys w f cid y ks := by
  unfold Acts at h ⊢
  rw [h1, h2] at h
  exact h

theorem Trace.everywhere (h : Trace sys T s f) (hg : Honest sys T s.w f) (hf : s.w.freshIds) (ht : Texts sys f) {m : Agg.RHdr → Str → Agg.Msg}
    {conf : Str → Prop} (hs : Agg.Spurred T s.w cid m conf) {k : Backend.Kind} {ks : List Backend.Kind}
    (hm : ∀ hd seg, (∀ w b v r, r ∈ Backend.World.rows v → r.cid = seg → Concerns w b v (m hd seg)) ∧
      ∀ site l, Sends site (site.at l) (m hd seg) → Backend.TextSchedule site.cfg l → ∃ r ∈ (site.at l).rows, r.cid = seg ∧ Backend.Requested site.cfg l k r)
    (hc : ∀ seg, conf seg → ∃ m, Agg.Heard T m ∧ (∀ w b v r, r ∈ Backend.World.rows v → r.cid = seg → Concerns w b v m) ∧
      ∀ site l, Sends site (site.at l) m → Backend.TextSchedule site.cfg l →
        ∃ r ∈ (site.at l).rows, r.cid = seg ∧ ∃ k ∈ ks, Backend.Requested site.cfg l k r) : Everywhere sys T s.w f cid m k ks := by
  obtain ⟨row, hr, rfl, hd, x, hx, hxk, w0, hT, hall⟩ := hs
  refine ⟨row, hr, rfl, hd, x, hx, hxk, w0, hT, ?_, fun y hy hyk => ?_⟩
  · refine h.acts hg hf ht hx hr hxk ⟨_, ⟨w0, hT⟩, (hm hd x.cid).1, fun site l h1 h2 => ?_⟩
    obtain ⟨r, h3, h4, h5⟩ := (hm hd x.cid).2 site l h1 h2
    exact ⟨r, h3, h4, k, by simp, h5⟩
  · obtain ⟨y', hy', h1, h2, h3⟩ := (h.lasting _ hT).subs y hy
    exact (h.acts hg hf ht hy' hr (h1.trans hyk) (h2 ▸ hc y.cid (hall y hy hyk))).same h2 h3

/-- C86: when the requester is told that the connection is provisioned, it was asked to be, and every backend that has a segment of it has been asked by
the aggregator to provision that segment. -/
theorem C86_provisioned (h : Trace sys T s f) (hg : Honest sys T s.w f) (hf : s.w.freshIds) (ht : Texts sys f)
    (ho : .provisionConfirmed to_ cid ∈ s.w.outbox) :
    (∃ hd, Agg.Heard T (.provision hd cid)) ∧ Everywhere sys T s.w f cid .provisionConfirmed .provision [.provision] := by
  have hc := Agg.C90_provision h.agg ho
  have key : ∀ hd seg, (∀ w b v r, r ∈ Backend.World.rows v → r.cid = seg → Concerns w b v (.provisionConfirmed hd seg)) ∧
      ∀ site l, Sends site (site.at l) (.provisionConfirmed hd seg) → Backend.TextSchedule site.cfg l →
        ∃ r ∈ (site.at l).rows, r.cid = seg ∧ Backend.Requested site.cfg l .provision r :=
    fun hd seg => ⟨fun w b v r h1 h2 => ⟨r, h1, h2⟩, fun site l h1 h2 => Backend.C75_messages site.cfg site.ids site.clk l h2 _ h1⟩
  refine ⟨hc.1, h.everywhere hg hf ht hc.2 key ?_⟩
  rintro seg ⟨hd, hh⟩
  refine ⟨_, hh, (key hd seg).1, fun site l h1 h2 => ?_⟩
  obtain ⟨r, h3, h4, h5⟩ := (key hd seg).2 site l h1 h2
  exact ⟨r, h3, h4, _, by simp, h5⟩

/-- C86: likewise for terminations. -/
theorem C86_terminated (h : Trace sys T s f) (hg : Honest sys T s.w f) (hf : s.w.freshIds) (ht : Texts sys f)
    (ho : .terminateConfirmed to_ cid ∈ s.w.outbox) : Everywhere sys T s.w f cid .terminateConfirmed .terminate [.terminate] := by
  have hc := Agg.C90_terminate h.agg ho
  have key : ∀ hd seg, (∀ w b v r, r ∈ Backend.World.rows v → r.cid = seg → Concerns w b v (.terminateConfirmed hd seg)) ∧
      ∀ site l, Sends site (site.at l) (.terminateConfirmed hd seg) → Backend.TextSchedule site.cfg l →
        ∃ r ∈ (site.at l).rows, r.cid = seg ∧ Backend.Requested site.cfg l .terminate r :=
    fun hd seg => ⟨fun w b v r h1 h2 => ⟨r, h1, h2⟩, fun site l h1 h2 => Backend.C75_messages site.cfg site.ids site.clk l h2 _ h1⟩
  refine h.everywhere hg hf ht hc key ?_
  rintro seg ⟨hd, hh⟩
  refine ⟨_, hh, (key hd seg).1, fun site l h1 h2 => ?_⟩
  obtain ⟨r, h3, h4, h5⟩ := (key hd seg).2 site l h1 h2
  exact ⟨r, h3, h4, _, by simp, h5⟩

/-- What the answers to commits and aborts tell of the backends. -/
theorem commit_abort {seg : Str} (hh : ∃ hd, Agg.Heard T (.commitConfirmed hd seg) ∨ Agg.Heard T (.abortConfirmed hd seg)) :
    ∃ m, Agg.Heard T m ∧ (∀ w b v r, r ∈ Backend.World.rows v → r.cid = seg → Concerns w b v m) ∧
      ∀ site l, Sends site (site.at l) m → Backend.TextSchedule site.cfg l →
        ∃ r ∈ (site.at l).rows, r.cid = seg ∧ ∃ k ∈ [Backend.Kind.commit, .abort], Backend.Requested site.cfg l k r := by
  obtain ⟨hd, hh | hh⟩ := hh
  · refine ⟨_, hh, fun w b v r h1 h2 => ⟨r, h1, h2⟩, fun site l h1 h2 => ?_⟩
    obtain ⟨r, h3, h4, h5⟩ := Backend.C75_messages site.cfg site.ids site.clk l h2 _ h1
    exact ⟨r, h3, h4, _, by simp, h5⟩
  · refine ⟨_, hh, fun w b v r h1 h2 => ⟨r, h1, h2⟩, fun site l h1 h2 => ?_⟩
    obtain ⟨r, h3, h4, h5⟩ := Backend.C75_messages site.cfg site.ids site.clk l h2 _ h1
    exact ⟨r, h3, h4, .abort, by simp, h5⟩

/-- C86: when the requester is told that the connection is committed, one of its backends has been asked to commit its segment, and all others to commit or
to abort theirs. (The aggregator does not tell the two apart, see C30_mixed_fails.) -/
theorem C86_committed (h : Trace sys T s f) (hg : Honest sys T s.w f) (hf : s.w.freshIds) (ht : Texts sys f)
    (ho : .reserveCommitConfirmed to_ cid ∈ s.w.outbox) :
    (∃ hd, Agg.Heard T (.commit hd cid) ∨ Agg.Heard T (.abort hd cid)) ∧ Everywhere sys T s.w f cid .commitConfirmed .commit [.commit, .abort] := by
  have hc := Agg.C90_commit h.agg ho
  exact ⟨hc.1, h.everywhere hg hf ht hc.2 (fun hd seg => ⟨fun w b v r h1 h2 => ⟨r, h1, h2⟩,
    fun site l h1 h2 => Backend.C75_messages site.cfg site.ids site.clk l h2 _ h1⟩) fun _ => commit_abort⟩

/-- C86: likewise for aborts. -/
theorem C86_aborted (h : Trace sys T s f) (hg : Honest sys T s.w f) (hf : s.w.freshIds) (ht : Texts sys f)
    (ho : .reserveAbortConfirmed to_ cid ∈ s.w.outbox) :
    (∃ hd, Agg.Heard T (.commit hd cid) ∨ Agg.Heard T (.abort hd cid)) ∧ Everywhere sys T s.w f cid .abortConfirmed .abort [.commit, .abort] := by
  have hc := Agg.C90_abort h.agg ho
  exact ⟨hc.1, h.everywhere hg hf ht hc.2 (fun hd seg => ⟨fun w b v r h1 h2 => ⟨r, h1, h2⟩,
    fun site l h1 h2 => Backend.C75_messages site.cfg site.ids site.clk l h2 _ h1⟩) fun _ => commit_abort⟩

/-- C86: when the requester is told that the connection is released, it was asked to be, and the backend of one of its segments was asked to release it. -/
theorem C86_released (h : Trace sys T s f) (hg : Honest sys T s.w f) (hf : s.w.freshIds) (ht : Texts sys f)
    (ho : .releaseConfirmed to_ cid ∈ s.w.outbox) : (∃ hd, Agg.Heard T (.release hd cid)) ∧
      ∃ row ∈ s.w.conns, row.cid = cid ∧ ∃ x ∈ s.w.subs, x.skey = row.key ∧ (∃ hd, Agg.Heard T (.releaseConfirmed hd x.cid)) ∧ Acts sys s.w f cid x [.release] := by
  obtain ⟨h1, row, hr, rfl, hd, x, hx, hxk, w0, hT, _⟩ := Agg.C90_release h.agg ho
  refine ⟨h1, row, hr, rfl, x, hx, hxk, ⟨hd, w0, hT⟩, h.acts hg hf ht hx hr hxk ⟨_, ⟨w0, hT⟩, fun w b v r h1 h2 => ⟨r, h1, h2⟩, fun site l h1 h2 => ?_⟩⟩
  obtain ⟨r, h3, h4, h5⟩ := Backend.C75_messages site.cfg site.ids site.clk l h2 _ h1
  exact ⟨r, h3, h4, _, by simp, h5⟩

/-- C86: when the requester is told that the data plane is active, every backend that has a segment of the connection has been asked by the aggregator to
provision it. -/
theorem C86_active (h : Trace sys T s f) (hg : Honest sys T s.w f) (hf : s.w.freshIds) (ht : Texts sys f) {n : Nat} {v : Int} {c : Bool}
    (ho : .dataPlane to_ cid n (true, v, c) ∈ s.w.outbox) :
    ∃ row ∈ s.w.conns, row.cid = cid ∧ ∃ m x w0, x ∈ s.w.subs ∧ x.skey = row.key ∧ (m, w0) ∈ T ∧ (∃ hd a v c, m = .dataPlane hd x.cid a v c) ∧
      ∀ y ∈ w0.subs, y.skey = row.key → Acts sys s.w f cid y [.provision] := by
  obtain ⟨a, v', c', row, hr, rfl, hd, x, hx, hxk, w0, hT, hall⟩ := Agg.C90_data_plane h.agg ho
  refine ⟨row, hr, rfl, _, x, w0, hx, hxk, hT, ⟨hd, a, v', c', rfl⟩, fun y hy hyk => ?_⟩
  obtain ⟨y', hy', h1, h2, h3⟩ := (h.lasting _ hT).subs y hy
  refine (h.acts hg hf ht hy' hr (h1.trans hyk) (ks := [.provision]) ?_).same h2 h3
  obtain ⟨hd2, v2, c2, hh⟩ := hall y hy hyk rfl
  refine ⟨_, hh, fun w b v r g1 g2 => ⟨r, g1, g2.trans h2⟩, fun site l ⟨nn, g1⟩ g2 => ?_⟩
  obtain ⟨r, h3, h4, h5⟩ := Backend.C75_messages site.cfg site.ids site.clk l g2 _ g1
  exact ⟨r, h3, h4.trans h2.symm, _, by simp, h5 rfl⟩

/-- C86: when the requester is told that the connection is reserved, then every backend that the aggregator had asked for a segment of it has stored
a connection as asked for. -/
theorem C86_reserved (h : Trace sys T s f) (hg : Honest sys T s.w f) (hf : s.w.freshIds) (ht : Texts sys f) {src dst : STP} {st en : Option Time} {bw : Int}
    (ho : .reserveConfirmed to_ cid src dst st en bw ∈ s.w.outbox) :
    ∃ hd seg crit w0, (Agg.Msg.reserveConfirmed hd seg crit, w0) ∈ T ∧ (∃ pc ∈ s.w.sent, pc.reserves cid ∧ pc.corr = hd.corr ∧ pc.prov = hd.prov) ∧
      ∀ pc ∈ w0.sent, pc.reserves cid → ∀ site, sys.site pc.handle = some site →
        ∃ r ∈ (site.at (f pc.handle)).rows, Holds sys site.cfg pc r ∧
          ∃ h' c, h'.corr = pc.corr ∧ Agg.Heard T (.reserveConfirmed h' r.cid c) ∧ ∃ bw, c = critOf site.cfg.network bw r := by
  obtain ⟨hd, seg, crit, w0, hT, h1, _, hall⟩ := Agg.C90_reserved h.agg ho
  refine ⟨hd, seg, crit, w0, hT, h1, fun pc hpc hres site hsite => ?_⟩
  have hpc' := (h.lasting _ hT).sent.subset hpc
  have ht1 := ht _ site hsite
  obtain ⟨h', hcorr, _, ⟨seg', crit', hh⟩ | hh⟩ := hall hf pc hpc hres
  · obtain ⟨r, hrr, hrc, hout, bw, hcr⟩ := hg _ hh _ _ hsite ⟨pc, hpc', hcorr.symm, rfl⟩
    obtain ⟨r2, hr2, hc2, _, _, _, _, hres2⟩ := Backend.C75_messages site.cfg site.ids site.clk _ ht1 _ hout
    rw [row_unique ht1 hr2 hrr (hc2.trans hrc.symm)] at hres2
    exact ⟨r, hrr, holds_of h.called hf hpc' (hcorr ▸ hres2), h', crit', hcorr, hrc ▸ hh, bw, hcr⟩
  · exact absurd (hg _ hh _ _ hsite ⟨pc, hpc', hcorr.symm, rfl⟩) id

end OpenNSA.Joint
