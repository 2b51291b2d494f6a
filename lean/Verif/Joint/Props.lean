import Verif.Joint.Lemmas
import Verif.Backend.Examples
/-
C86: what the requester is told has happened at the backends.
-/
namespace OpenNSA.Joint
open Py

/-- The connection is what the call asked for: it was accepted, in the name of the agent, with these ports and times, and labels among those given. -/
def Holds (sys : Sys) (cfg : Backend.Cfg) (pc : Agg.PCall) (r : Backend.Row) : Prop :=
  ∃ cid src dst bw, pc.op = .reserve cid src dst r.start r.end_ bw ∧ r.requester = sys.agg.urn ∧
    src.network = cfg.network ∧ dst.network = cfg.network ∧ r.srcPort = src.port ∧ r.dstPort = dst.port ∧
    (∃ h sp dp, Backend.Admissible cfg h src dst r.start r.end_ sp dp) ∧
    (Backend.Swaps cfg src dst → Backend.Wanted src.label r.srcLabel ∧ Backend.Wanted dst.label r.dstLabel) ∧
    (¬ Backend.Swaps cfg src dst → r.srcLabel = r.dstLabel ∧ Backend.WantedBoth src dst r.srcLabel)

theorem holds_of {sys : Sys} {w : Agg.World} {f : Scheds} (h : ∀ b, ∀ x ∈ f b, Called sys w b x.2) (hf : w.freshIds) {pc : Agg.PCall}
    (hpc : pc ∈ w.sent) {cfg : Backend.Cfg} {r : Backend.Row} (hr : Backend.Reserved cfg (f pc.handle) pc.corr r) : Holds sys cfg pc r := by
  obtain ⟨o, hd, cid?, src, dst, hm, hcorr, hreq, hsp, hdp, _, ⟨sp, dp, hadm⟩, hsw, hns⟩ := hr
  obtain ⟨c, hc, _, hcc, hur, hq⟩ := h _ _ hm
  have : c = pc := Agg.nodup_map_inj hf hc hpc (hcc.symm.trans hcorr)
  subst this
  cases hop : c.op with
  | reserve cid s d st en bw =>
    rw [hop] at hq
    simp only [request, Option.some.injEq, Backend.Req.reserve.injEq] at hq
    obtain ⟨_, rfl, rfl, rfl, rfl⟩ := hq
    exact ⟨cid, s, d, bw, hop, hreq.trans hur, hadm.networks.1, hadm.networks.2, hsp, hdp, ⟨hd, sp, dp, hadm⟩, hsw, hns⟩
  | _ => rw [hop] at hq; simp [request] at hq

/-- C86: the aggregator handling one message after the other, the backends in any interleaving: when the requester is told that its connection is
reserved, each backend that was asked for a segment has stored a connection as asked for, and the source label the requester is told is
the one that the first of them has stored. -/
theorem C86_reserved_partial {sys : Sys} {ms : List Agg.Msg} {w : Agg.World} {f : Scheds} (h : Runs sys ms w f) (o : Agg.Oracle) (m : Agg.Msg)
    (hn : Agg.NewSeg w m) (hg : Genuine sys w f m) (hf : (Agg.step sys.agg w o m).1.freshIds) (ht : Texts sys f) {to_ cid : Str} {src dst : STP}
    {start end_ : Option Time} {bw : Int}
    (hout : .reserveConfirmed to_ cid src dst start end_ bw ∈ (Agg.step sys.agg w o m).1.outbox.drop w.outbox.length) :
    ∀ i pc, ((Agg.step sys.agg w o m).1.asked cid)[i]? = some pc → ∀ site, sys.site pc.handle = some site →
      ∃ r ∈ (site.at (f pc.handle)).rows, Holds sys site.cfg pc r ∧ (i = 0 → src.label = labelOf r.srcLabel) := by
  have h' : Runs sys _ _ f := h.msg o m hn hg
  have hb := h'.agg.books hf
  obtain ⟨row, hr, hcid, _, hseg⟩ := Agg.C28_all_held_partial h.agg o m hn hf hout (cid := cid) (by simp [Agg.Out.isConfirm])
  obtain ⟨row2, hr2, hcid2, t, ht2, htk, hto, hlab⟩ := Agg.C29_source_partial h.agg o m hn hf hout
  have e1 : row2 = row := Agg.nodup_map_inj h'.agg.good.ccids hr2 hr (hcid2.trans hcid.symm)
  intro i pc hi site hsite
  obtain ⟨s, hs, hsk, hso, _⟩ := hseg i pc hi
  obtain ⟨row3, hr3, hk3, pc3, hpc3, _, hbound⟩ := h'.tied hf ht s hs
  have e2 : row3 = row := Agg.nodup_map_inj h'.agg.good.ckeys hr3 hr (hk3.trans hsk)
  rw [e2, hcid, hso, hi] at hpc3
  simp only [Option.some.injEq] at hpc3
  subst hpc3
  obtain ⟨r, hrr, hbd⟩ := hbound site hsite
  refine ⟨r, hrr, holds_of h'.called hf (List.mem_filter.mp (List.mem_of_getElem? hi)).1 hbd.reserved, ?_⟩
  intro h0
  have : t = s := Agg.nodup_map_inj h'.agg.good.skeys ht2 hs (hb.one t ht2 s hs (by rw [htk, hsk, e1]) (by rw [hto, hso, h0]))
  rw [hlab, this, hbd.src]

/-- The call of a provider, aggregator.py:477, 517, 567, 609, 649. -/
def opOf (cid : Str) : Backend.Kind → Agg.POp
  | .commit => .commit cid
  | .abort => .abort cid
  | .provision => .provision cid
  | .release => .release cid
  | .terminate => .terminate cid

/-- The aggregator has made this call for the connection at the backend, and the call has reached it, in the name of someone who may use the ports. -/
def Reached (w : Agg.World) (cfg : Backend.Cfg) (b : Nat) (l : List (Backend.Oracle × Backend.Choice)) (k : Backend.Kind) (r : Backend.Row) : Prop :=
  Backend.Requested cfg l k r ∧ ∃ c ∈ w.sent, c.handle = b ∧ c.op = opOf r.cid k

theorem reached_of {sys : Sys} {w : Agg.World} {f : Scheds} (h : ∀ b, ∀ x ∈ f b, Called sys w b x.2) {cfg : Backend.Cfg} {b : Nat} {k : Backend.Kind}
    {r : Backend.Row} (hr : Backend.Requested cfg (f b) k r) : Reached w cfg b (f b) k r := by
  refine ⟨hr, ?_⟩
  obtain ⟨o, hd, hm, _⟩ := hr
  obtain ⟨c, hc, hb, _, _, hq⟩ := h _ _ hm
  refine ⟨c, hc, hb, ?_⟩
  cases k <;> cases hop : c.op <;> rw [hop] at hq <;> simp_all [request, Backend.Kind.req, opOf]

/-- What a confirmation by the aggregator means for the connection of a backend. -/
def Followed (w : Agg.World) (cfg : Backend.Cfg) (b : Nat) (l : List (Backend.Oracle × Backend.Choice)) (r : Backend.Row) : Agg.Kind → Prop
  | .commit | .abort => Reached w cfg b l .commit r ∨ Reached w cfg b l .abort r
  | .provision => Reached w cfg b l .provision r
  | .terminate => Reached w cfg b l .terminate r
  | .release => True

/-- C86: when the requester is told that a request of theirs is done, every backend that has a segment of the connection has been asked the same for it by
the aggregator, which may use the ports. Missing: for commit and abort, either may have been asked; nothing is said of release, after which a
segment that never was provisioned is as it was. -/
theorem C86_done_partial {sys : Sys} {ms : List Agg.Msg} {w : Agg.World} {f : Scheds} (h : Runs sys ms w f) (o : Agg.Oracle) (m : Agg.Msg)
    (hn : Agg.NewSeg w m) (hg : Genuine sys w f m) (hf : (Agg.step sys.agg w o m).1.freshIds) (ht : Texts sys f) {k : Agg.Kind} {cid : Str} {out : Agg.Out}
    (hout : out ∈ (Agg.step sys.agg w o m).1.outbox.drop w.outbox.length) (hc : out.confirms k cid = true) :
    ∃ row ∈ (Agg.step sys.agg w o m).1.conns, row.cid = cid ∧ ∀ s ∈ (Agg.step sys.agg w o m).1.subs, s.skey = row.key →
      ∃ pc, ((Agg.step sys.agg w o m).1.asked cid)[s.order]? = some pc ∧ ∀ site, sys.site pc.handle = some site →
        ∃ r ∈ (site.at (f pc.handle)).rows, r.cid = s.cid ∧ Holds sys site.cfg pc r ∧ Followed (Agg.step sys.agg w o m).1 site.cfg pc.handle (f pc.handle) r k := by
  have h' : Runs sys _ _ f := h.msg o m hn hg
  obtain ⟨row, hr, hcid, _, hall⟩ := Agg.C30_all_segments_partial h.agg o m hn hout hc
  refine ⟨row, hr, hcid, fun s hs hsk => ?_⟩
  obtain ⟨row3, hr3, hk3, pc, hpc, _, hbound⟩ := h'.tied hf ht s hs
  have e2 : row3 = row := Agg.nodup_map_inj h'.agg.good.ckeys hr3 hr (hk3.trans hsk)
  rw [e2, hcid] at hpc
  refine ⟨pc, hpc, fun site hsite => ?_⟩
  obtain ⟨r, hrr, hbd⟩ := hbound site hsite
  refine ⟨r, hrr, hbd.cid, holds_of h'.called hf (List.mem_filter.mp (List.mem_of_getElem? hpc)).1 hbd.reserved, ?_⟩
  have hx := hall s hs hsk
  cases k <;> simp only [Agg.Kind.reached, decide_eq_true_eq] at hx
  · exact (hbd.start hx).imp (reached_of h'.called) (reached_of h'.called)
  · exact (hbd.start hx).imp (reached_of h'.called) (reached_of h'.called)
  · exact reached_of h'.called (hbd.prov hx)
  · trivial
  · exact reached_of h'.called (hbd.term hx)

/-- C86: when the requester is told that the data plane is active, every backend that has a segment of the connection has been asked to provision it. -/
theorem C86_active_partial {sys : Sys} {ms : List Agg.Msg} {w : Agg.World} {f : Scheds} (h : Runs sys ms w f) (o : Agg.Oracle) (m : Agg.Msg)
    (hn : Agg.NewSeg w m) (hg : Genuine sys w f m) (hf : (Agg.step sys.agg w o m).1.freshIds) (ht : Texts sys f) {to_ cid : Str} {n : Nat} {v : Int} {c : Bool}
    (hout : .dataPlane to_ cid n (true, v, c) ∈ (Agg.step sys.agg w o m).1.outbox.drop w.outbox.length) :
    ∃ row ∈ (Agg.step sys.agg w o m).1.conns, row.cid = cid ∧ ∀ s ∈ (Agg.step sys.agg w o m).1.subs, s.skey = row.key →
      ∃ pc, ((Agg.step sys.agg w o m).1.asked cid)[s.order]? = some pc ∧ ∀ site, sys.site pc.handle = some site →
        ∃ r ∈ (site.at (f pc.handle)).rows, r.cid = s.cid ∧ Holds sys site.cfg pc r ∧
          Reached (Agg.step sys.agg w o m).1 site.cfg pc.handle (f pc.handle) .provision r := by
  have h' : Runs sys _ _ f := h.msg o m hn hg
  obtain ⟨row, hr, hcid, hall⟩ := told_active h.agg.good o m hn hout
  refine ⟨row, hr, hcid, fun s hs hsk => ?_⟩
  obtain ⟨row3, hr3, hk3, pc, hpc, _, hbound⟩ := h'.tied hf ht s hs
  have e2 : row3 = row := Agg.nodup_map_inj h'.agg.good.ckeys hr3 hr (hk3.trans hsk)
  rw [e2, hcid] at hpc
  refine ⟨pc, hpc, fun site hsite => ?_⟩
  obtain ⟨r, hrr, hbd⟩ := hbound site hsite
  exact ⟨r, hrr, hbd.cid, holds_of h'.called hf (List.mem_filter.mp (List.mem_of_getElem? hpc)).1 hbd.reserved, reached_of h'.called (hbd.up (hall s hs hsk))⟩

end OpenNSA.Joint
