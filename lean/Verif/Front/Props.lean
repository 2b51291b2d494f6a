import Verif.Front.Lemmas
import Verif.Joint.PropsWhole
/-
C91: what a requester is told over the wire answers a request of its own, and has happened.
-/
namespace OpenNSA.Front
open Py Provider

variable {sys : Joint.Sys} {d : Desk} {T : List (Agg.Msg × Agg.World)} {s : Agg.Sys} {f : Joint.Scheds}

theorem Trace.joint (h : Trace sys d T s f) : Joint.Trace sys T s f := by
  induction h with
  | init => exact .init
  | ask _ o hdr m hd hm hr ih => exact ih.step o (.start m)
  | step _ o ch _ ih => exact ih.step o ch
  | restart _ ih => exact ih.restart
  | act _ b x hc ih => exact ih.act b x hc

theorem finished_asked : ∀ (l : List (Nat × Except Agg.Err (Option Str))) (d : Desk), (l.foldl Desk.finished d).asked = d.asked
  | [], _ => rfl
  | x :: l, d => by
    rw [List.foldl_cons, finished_asked l]
    unfold Desk.finished
    split
    · rfl
    · simp only
      split
      · rfl
      · rfl
      · split <;> rfl

theorem confirms_asked : ∀ (l : List (Conf × Str)) (d : Desk), (l.foldl (fun d x => d.tell (.confirmed x.1 x.2)) d).asked = d.asked
  | [], _ => rfl
  | x :: l, d => by rw [List.foldl_cons, confirms_asked l]; rfl

theorem follow_asked (d : Desk) (s s' : Agg.Sys) : (d.follow s s').asked = d.asked := by
  unfold Desk.follow
  rw [finished_asked, confirms_asked]

theorem receive_asked (d : Desk) (n : Nat) (hdr : Hdr) (m : Agg.Msg) : (d.receive n hdr m).asked = d.asked ++ (if opOf m = none then [] else [(hdr, m)]) := by
  unfold Desk.receive
  cases h : opOf m with
  | none => simp
  | some x =>
    obtain ⟨op, cid⟩ := x
    simp only
    split <;> simp [Desk.tell]

/-- The requests that were received are the messages the aggregator was given, with the requester named in their headers. -/
theorem Trace.asked (h : Trace sys d T s f) : ∀ x ∈ d.asked, Agg.Heard T x.2 ∧ ∃ hd, hdrOf x.2 = some hd ∧ hd.requester = x.1.requester := by
  induction h with
  | init => simp
  | @ask d T s f h o hdr m hd hm hr ih =>
    intro x hx
    rw [follow_asked, receive_asked] at hx
    rcases List.mem_append.1 hx with hx | hx
    · obtain ⟨⟨w, h1⟩, h2⟩ := ih x hx
      exact ⟨⟨w, List.mem_append_left _ h1⟩, h2⟩
    · split at hx
      · simp at hx
      · rw [List.mem_singleton.1 hx]
        exact ⟨⟨_, List.mem_append_right _ List.mem_cons_self⟩, hd, hm, hr⟩
  | step h o ch hch ih =>
    intro x hx
    rw [follow_asked] at hx
    obtain ⟨⟨w, h1⟩, h2⟩ := ih x hx
    exact ⟨⟨w, List.mem_append_left _ h1⟩, h2⟩
  | restart _ ih => exact ih
  | act _ _ _ _ ih => exact ih

theorem Trace.ok (h : Trace sys d T s f) : ∃ L, Agg.Answers sys.agg L s ∧ Ok s.w L d := by
  induction h with
  | init =>
    refine ⟨[], .init, ?_⟩
    refine ⟨⟨by simp [Prov.new], by simp [Prov.new], by simp [Prov.new], by simp [Prov.new], by simp [Prov.new]⟩, by simp [Told, Prov.new], by simp, by simp, by simp, [], ?_, by simp, by simp⟩
    constructor <;> simp [Prov.new, dkeys, Provider.confirmed, synced]
  | @ask d T s f h o hdr m hd hm hr ih =>
    obtain ⟨L, ha, hok⟩ := ih
    have hk := Joint.step_keeps h.joint.agg.hist.reach o (.start m)
    have ha' := ha.step' o (.start m)
    refine ⟨L ++ [m], ha', Ok.follow ?_ ha'⟩
    rw [ha.len]
    have := (hok.receive (m := m) (hdr := hdr)).world (L' := []) hk.1 hk.2.2.subset
    rwa [List.append_nil] at this
  | @step d T s f h o ch hch ih =>
    obtain ⟨L, ha, hok⟩ := ih
    have hk := Joint.step_keeps h.joint.agg.hist.reach o ch
    have ha' := ha.step' o ch
    exact ⟨_, ha', Ok.follow (hok.world hk.1 hk.2.2.subset) ha'⟩
  | restart h ih =>
    obtain ⟨L, ha, hok⟩ := ih
    exact ⟨[], .restart h.joint.agg.hist.reach, hok.restart⟩
  | act _ _ _ _ ih => exact ih

/-- The request asks for what the message of that kind about the connection confirms; a reserve request does if the connection was made for its
requester. -/
def Fits (w : Agg.World) (m : Agg.Msg) (cid : Str) : Conf → Prop
  | .reserveConfirmed | .reserveFailed => ∃ h c? c, m = .reserve h c? c ∧ Agg.Owns w cid h.requester
  | .commitConfirmed | .abortConfirmed => ∃ h, m = .commit h cid ∨ m = .abort h cid
  | .provisionConfirmed => ∃ h, m = .provision h cid
  | .releaseConfirmed => ∃ h, m = .release h cid
  | .terminateConfirmed => ∃ h, m = .terminate h cid

/-- C91: every confirmation that leaves, in every execution — requests of many requesters, messages of providers, restarts, arbitrary interleaving —
has the header of a request received from the wire (so its reply address and correlation id); the request asked for what is confirmed, of that
connection; for a reservation the connection was made for the requester named in that header; the message is one of the aggregator's. (A commit may
be confirmed to who asked for an abort and the other way round, see C41_commit_abort_fails.) -/
theorem C91_answers (h : Trace sys d T s f) {rid : Nat} {kind : Conf} {hdr : Hdr} {cid : Str} (ho : Out.conf rid kind hdr cid ∈ d.prov.out) :
    ∃ m hd, d.asked[rid]? = some (hdr, m) ∧ hdr.replies ∧ Agg.Heard T m ∧ hdrOf m = some hd ∧ hd.requester = hdr.requester ∧ Fits s.w m cid kind ∧
      ∃ o ∈ s.w.outbox, confOf o = some (kind, cid) := by
  obtain ⟨L, _, hok⟩ := h.ok
  obtain ⟨pre, hp, hr, op, hask, hresp⟩ := hok.told rid kind hdr cid ho
  have hout : Ground s.w d.asked (.confirmed kind cid) := hok.ground _ (hp.subset (by simp))
  have hpre : ∀ e ∈ pre, e ∈ d.log := fun e he => hp.subset (by simp [he])
  have key : ∀ m, d.asked[rid]? = some (hdr, m) → Fits s.w m cid kind →
      ∃ m hd, d.asked[rid]? = some (hdr, m) ∧ hdr.replies ∧ Agg.Heard T m ∧ hdrOf m = some hd ∧ hd.requester = hdr.requester ∧ Fits s.w m cid kind ∧
      ∃ o ∈ s.w.outbox, confOf o = some (kind, cid) := by
    intro m hm hf
    obtain ⟨h1, hd, h2, h3⟩ := h.asked _ (List.mem_of_getElem? hm)
    exact ⟨m, hd, hm, hr, h1, h2, h3, hf, hout⟩
  rcases hask with ⟨rfl, ha⟩ | ⟨hne, ha⟩
  · obtain ⟨hd, c?, c, h1, h2⟩ := hok.ground _ (hpre _ ha)
    refine key _ h1 ?_
    cases kind <;> simp [Op.resp, Conf.resp] at hresp <;> exact ⟨hd, c?, c, rfl, h2⟩
  · obtain ⟨m, h1, h2⟩ := hok.ground _ (hpre _ ha)
    refine key _ h1 ?_
    cases m <;> simp only [opOf, Option.some.injEq, Prod.mk.injEq, reduceCtorEq] at h2 <;> obtain ⟨rfl, h2⟩ := h2 <;>
      first
        | exact absurd rfl hne
        | (cases h2; cases kind <;> simp [Op.resp, Conf.resp] at hresp <;> first | exact ⟨_, rfl⟩ | exact ⟨_, Or.inl rfl⟩ | exact ⟨_, Or.inr rfl⟩)

/-- C91: it was sent after the request — for a reservation after the requester was told the connection id — and the message of the aggregator is
of the time after it. -/
theorem C91_after (h : Trace sys d T s f) {rid : Nat} {kind : Conf} {hdr : Hdr} {cid : Str} (ho : Out.conf rid kind hdr cid ∈ d.prov.out) :
    ∃ pre, pre ++ [.confirmed kind cid] <+: d.log ∧ (.reserveAcked rid hdr cid ∈ pre ∨ ∃ op, .request op rid hdr cid ∈ pre) := by
  obtain ⟨L, _, hok⟩ := h.ok
  obtain ⟨pre, hp, hr, op, hask, hresp⟩ := hok.told rid kind hdr cid ho
  exact ⟨pre, hp, hask.imp And.right fun h => ⟨op, h.2⟩⟩

/-- C91: no request is confirmed twice, whatever happens, restarts included. -/
theorem C91_once (h : Trace sys d T s f) : (Provider.confirmed d.prov.out).Nodup := by
  obtain ⟨L, _, hok⟩ := h.ok
  obtain ⟨used, h1, _⟩ := hok.once
  exact h1.out.1

/-- C91: who is told over the wire that the connection is reserved asked for it, the connection is theirs, and every backend that the aggregator had asked for
a segment of it has stored a connection as asked for. -/
theorem C91_reserved (h : Trace sys d T s f) (hg : Joint.Honest sys T s.w f) (hf : s.w.freshIds) (ht : Joint.Texts sys f) {rid : Nat} {hdr : Hdr} {cid : Str}
    (ho : Out.conf rid .reserveConfirmed hdr cid ∈ d.prov.out) :
    (∃ hd c? c, d.asked[rid]? = some (hdr, .reserve hd c? c) ∧ Agg.Owns s.w cid hdr.requester) ∧
    ∃ hd seg crit w0, (Agg.Msg.reserveConfirmed hd seg crit, w0) ∈ T ∧ (∃ pc ∈ s.w.sent, pc.reserves cid ∧ pc.corr = hd.corr ∧ pc.prov = hd.prov) ∧
      ∀ pc ∈ w0.sent, pc.reserves cid → ∀ site, sys.site pc.handle = some site →
        ∃ r ∈ (site.at (f pc.handle)).rows, Joint.Holds sys site.cfg pc r ∧
          ∃ h' c, h'.corr = pc.corr ∧ Agg.Heard T (.reserveConfirmed h' r.cid c) ∧ ∃ bw, c = Joint.critOf site.cfg.network bw r := by
  obtain ⟨m, hd, h1, _, _, h4, h5, ⟨hd', c?, c, rfl, h6⟩, o, h7, h8⟩ := C91_answers h ho
  cases h4
  refine ⟨⟨hd, c?, c, h1, h5 ▸ h6⟩, ?_⟩
  cases o <;> simp only [confOf, Option.some.injEq, Prod.mk.injEq, reduceCtorEq, true_and, false_and] at h8
  subst h8
  exact Joint.C86_reserved h.joint hg hf ht h7

/-- C91: who is told over the wire that the connection is provisioned asked for it, and every backend that has a segment of it has been asked to provision it. -/
theorem C91_provisioned (h : Trace sys d T s f) (hg : Joint.Honest sys T s.w f) (hf : s.w.freshIds) (ht : Joint.Texts sys f) {rid : Nat} {hdr : Hdr} {cid : Str}
    (ho : Out.conf rid .provisionConfirmed hdr cid ∈ d.prov.out) :
    (∃ hd, d.asked[rid]? = some (hdr, .provision hd cid) ∧ hd.requester = hdr.requester) ∧
    Joint.Everywhere sys T s.w f cid .provisionConfirmed .provision [.provision] := by
  obtain ⟨m, hd, h1, _, _, h4, h5, ⟨hd', rfl⟩, o, h7, h8⟩ := C91_answers h ho
  cases h4
  refine ⟨⟨hd, h1, h5⟩, ?_⟩
  cases o <;> simp only [confOf, Option.some.injEq, Prod.mk.injEq, reduceCtorEq, true_and, false_and] at h8
  subst h8
  exact (Joint.C86_provisioned h.joint hg hf ht h7).2

/-- C91: likewise for terminations. -/
theorem C91_terminated (h : Trace sys d T s f) (hg : Joint.Honest sys T s.w f) (hf : s.w.freshIds) (ht : Joint.Texts sys f) {rid : Nat} {hdr : Hdr} {cid : Str}
    (ho : Out.conf rid .terminateConfirmed hdr cid ∈ d.prov.out) :
    (∃ hd, d.asked[rid]? = some (hdr, .terminate hd cid) ∧ hd.requester = hdr.requester) ∧
    Joint.Everywhere sys T s.w f cid .terminateConfirmed .terminate [.terminate] := by
  obtain ⟨m, hd, h1, _, _, h4, h5, ⟨hd', rfl⟩, o, h7, h8⟩ := C91_answers h ho
  cases h4
  refine ⟨⟨hd, h1, h5⟩, ?_⟩
  cases o <;> simp only [confOf, Option.some.injEq, Prod.mk.injEq, reduceCtorEq, true_and, false_and] at h8
  subst h8
  exact Joint.C86_terminated h.joint hg hf ht h7

/-- C91: who is told over the wire that the connection is committed asked to commit or abort it, one of its backends has been asked to commit its segment and all
others to commit or to abort theirs. -/
theorem C91_committed (h : Trace sys d T s f) (hg : Joint.Honest sys T s.w f) (hf : s.w.freshIds) (ht : Joint.Texts sys f) {rid : Nat} {hdr : Hdr} {cid : Str}
    (ho : Out.conf rid .commitConfirmed hdr cid ∈ d.prov.out) :
    (∃ hd m, d.asked[rid]? = some (hdr, m) ∧ (m = .commit hd cid ∨ m = .abort hd cid) ∧ hd.requester = hdr.requester) ∧
    Joint.Everywhere sys T s.w f cid .commitConfirmed .commit [.commit, .abort] := by
  obtain ⟨m, hd, h1, _, _, h4, h5, ⟨hd', hm⟩, o, h7, h8⟩ := C91_answers h ho
  have he : hd' = hd := by rcases hm with rfl | rfl <;> simpa [hdrOf] using h4
  subst he
  refine ⟨⟨hd', m, h1, hm, h5⟩, ?_⟩
  cases o <;> simp only [confOf, Option.some.injEq, Prod.mk.injEq, reduceCtorEq, true_and, false_and] at h8
  subst h8
  exact (Joint.C86_committed h.joint hg hf ht h7).2

/-- C91: likewise for aborts. -/
theorem C91_aborted (h : Trace sys d T s f) (hg : Joint.Honest sys T s.w f) (hf : s.w.freshIds) (ht : Joint.Texts sys f) {rid : Nat} {hdr : Hdr} {cid : Str}
    (ho : Out.conf rid .abortConfirmed hdr cid ∈ d.prov.out) :
    (∃ hd m, d.asked[rid]? = some (hdr, m) ∧ (m = .commit hd cid ∨ m = .abort hd cid) ∧ hd.requester = hdr.requester) ∧
    Joint.Everywhere sys T s.w f cid .abortConfirmed .abort [.commit, .abort] := by
  obtain ⟨m, hd, h1, _, _, h4, h5, ⟨hd', hm⟩, o, h7, h8⟩ := C91_answers h ho
  have he : hd' = hd := by rcases hm with rfl | rfl <;> simpa [hdrOf] using h4
  subst he
  refine ⟨⟨hd', m, h1, hm, h5⟩, ?_⟩
  cases o <;> simp only [confOf, Option.some.injEq, Prod.mk.injEq, reduceCtorEq, true_and, false_and] at h8
  subst h8
  exact (Joint.C86_aborted h.joint hg hf ht h7).2

/-- C91: who is told over the wire that the connection is released asked for it, and a segment's provider confirmed it; if that is a backend, it was asked to. -/
theorem C91_released (h : Trace sys d T s f) (hg : Joint.Honest sys T s.w f) (hf : s.w.freshIds) (ht : Joint.Texts sys f) {rid : Nat} {hdr : Hdr} {cid : Str}
    (ho : Out.conf rid .releaseConfirmed hdr cid ∈ d.prov.out) :
    (∃ hd, d.asked[rid]? = some (hdr, .release hd cid) ∧ hd.requester = hdr.requester) ∧
    ∃ row ∈ s.w.conns, row.cid = cid ∧ ∃ x ∈ s.w.subs, x.skey = row.key ∧ (∃ hd, Agg.Heard T (.releaseConfirmed hd x.cid)) ∧ Joint.Acts sys s.w f cid x [.release] := by
  obtain ⟨m, hd, h1, _, _, h4, h5, ⟨hd', rfl⟩, o, h7, h8⟩ := C91_answers h ho
  cases h4
  refine ⟨⟨hd, h1, h5⟩, ?_⟩
  cases o <;> simp only [confOf, Option.some.injEq, Prod.mk.injEq, reduceCtorEq, true_and, false_and] at h8
  subst h8
  exact (Joint.C86_released h.joint hg hf ht h7).2

/-- C91: who is told over the wire that the reservation failed asked for it, the connection is theirs, and a provider has answered a reserve call made for it with a
failure. -/
theorem C91_failed (h : Trace sys d T s f) {rid : Nat} {hdr : Hdr} {cid : Str} (ho : Out.conf rid .reserveFailed hdr cid ∈ d.prov.out) :
    (∃ hd c? c, d.asked[rid]? = some (hdr, .reserve hd c? c) ∧ Agg.Owns s.w cid hdr.requester) ∧
    ∃ hd, Agg.Heard T (.reserveFailed hd) ∧ ∃ c ∈ s.w.sent, c.reserves cid ∧ c.corr = hd.corr ∧ c.prov = hd.prov := by
  obtain ⟨m, hd, h1, _, _, h4, h5, ⟨hd', c?, c, rfl, h6⟩, o, h7, h8⟩ := C91_answers h ho
  cases h4
  refine ⟨⟨hd, c?, c, h1, h5 ▸ h6⟩, ?_⟩
  cases o <;> simp only [confOf, Option.some.injEq, Prod.mk.injEq, reduceCtorEq, true_and, false_and] at h8
  subst h8
  exact Agg.C90_failed h.joint.agg h7

end OpenNSA.Front
