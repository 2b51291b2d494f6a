import Verif.Agg.PropsTimeout
import Verif.Agg.PropsStatus
/- C35: what the requester is told about the data plane, when messages are handled one after the other. -/
namespace OpenNSA.Agg
open OpenNSA Py Coro

/-- A segment's data plane changes: it is stored, and the requester of its connection is told once, of the status of the segments
stored for the connection afterwards. -/
theorem C35_told_partial {cfg : Cfg} {ms : List Msg} {w : World} (h : Runs cfg ms w) (o : Oracle) (hh : RHdr) (a : Bool) (v : Int) (c : Bool)
    {s : SRow} {row : CRow} (hs : s ∈ w.subs) (hp : s.prov = hh.prov) (hr : row ∈ w.conns) (hk : row.key = s.skey) :
    let w' := (Agg.step cfg w o (.dataPlane hh s.cid a v c)).1
    let segs := w'.subs.filter fun x => x.skey = row.key
    w'.subs = setSRow w.subs { s with dpActive := a, dpVersion := some v, dpCons := some c } ∧ w'.conns = w.conns ∧
    ∃ d : DPS, w'.outbox = w.outbox ++ [.dataPlane row.requester row.cid 0 d] ∧
      (d.1 = true ↔ ∀ x ∈ segs, x.dpActive = true) ∧ GreatestVersion segs d.2.1 ∧ (d.2.2 = true ↔ AllConsistent segs ∧ Agree segs) := by
  intro w' segs
  have hg := h.good
  have he := (step_eff (cfg := cfg) hg o (.dataPlane hh s.cid a v c) trivial).2
  cases he with
  | unknown hu _ => exact absurd hp (hu s hs rfl)
  | @told s0 s1 row0 hs0 hc0 hs1 hr0 hk0 hsame =>
    obtain rfl := nodup_map_inj hg.scids hs0 hs hc0
    obtain rfl := nodup_map_inj hg.ckeys hr0 hr (hk0.trans hk.symm)
    subst hs1
    have hsubs : w'.subs = setSRow w.subs { s0 with dpActive := a, dpVersion := some v, dpCons := some c } := hsame.subs
    refine ⟨hsubs, hsame.conns, _, hsame.outbox, ?_⟩
    have hseg : segs = World.segments (segEff { w with orc := o } { s0 with dpActive := a, dpVersion := some v, dpCons := some c }) row0.key := by
      simp only [segs, World.segments, segEff, hsubs]
    rw [← hseg]
    refine C35_notification segs ?_
    refine List.ne_nil_of_mem (a := { s0 with dpActive := a, dpVersion := some v, dpCons := some c }) (List.mem_filter.mpr ⟨?_, ?_⟩)
    · rw [hsubs]
      exact (mem_setSRow (row' := { s0 with dpActive := a, dpVersion := some v, dpCons := some c }) hg.skeys hs rfl _).mpr (Or.inl rfl)
    · simpa using hk.symm

/-- One of two segments is active; the other becomes active too, then the first is not any more. -/
example : let w := runMsgs Ex.cfg .init (Ex.held ++ [(Ex.nil, .dataPlane ⟨['m'], ['8']⟩ ['s', '1'] true 3 true)])
    (∃ s ∈ w.subs, s.cid = ['s', '2'] ∧ s.prov = ['m'] ∧ ∃ r ∈ w.conns, r.key = s.skey) ∧ newSegs Ex.cfg .init Ex.held = true ∧
    (runMsgs Ex.cfg w [(Ex.nil, .dataPlane ⟨['m'], ['8']⟩ ['s', '2'] true 1 true), (Ex.nil, .dataPlane ⟨['m'], ['9']⟩ ['s', '1'] false 4 true)]).outbox =
      w.outbox ++ [.dataPlane ['u'] ['c', '1'] 0 (true, 3, true), .dataPlane ['u'] ['c', '1'] 0 (false, 4, false)] := by decide +kernel

theorem summaryInfos_status (w : World) : ∀ (n : Nat) (rows : List CRow),
    List.Forall₂ (fun (i : Info) r => i.cid = r.cid ∧ i.dps = summaryStatus (w.segments r.key)) (summaryInfos w n rows) rows
  | _, [] => .nil
  | n, _ :: rs => .cons ⟨rfl, rfl⟩ (summaryInfos_status w (n + 1) rs)

/-- The answer to a summary query tells, of each stored connection that matches, the status of the segments stored for it (consistent if all
segments are, see `C35_consistent_fails`). -/
theorem C35_query_partial {cfg : Cfg} {ms : List Msg} {w : World} (hr : Runs cfg ms w) (o : Oracle) (h : Hdr) (cids gids : List Str)
    (hq : cids ≠ [] ∨ gids = []) :
    ∃ infos rows, (Agg.step cfg w o (.querySummary h cids gids)).1.outbox = w.outbox ++ [.querySummary h.requester h.corr infos] ∧
      (∀ r, r ∈ rows ↔ r ∈ w.conns ∧ (h.requester ∈ cfg.admins ∨ r.requester = h.requester) ∧ (cids = [] ∨ r.cid ∈ cids)) ∧
      List.Forall₂ (fun (i : Info) r => i.cid = r.cid ∧ ∀ segs, segs = w.subs.filter (fun s => s.skey = r.key) →
        (i.dps.1 = true ↔ segs ≠ [] ∧ ∀ s ∈ segs, s.dpActive = true) ∧ (segs ≠ [] → GreatestVersion segs i.dps.2.1) ∧
        (i.dps.2.2 = true ↔ segs ≠ [] ∧ AllConsistent segs)) infos rows := by
  have he := (step_eff hr.good o (.querySummary h cids gids) trivial (cfg := cfg)).2
  cases he with
  | refused hq' _ _ => rcases hq with hq | hq <;> simp [hq] at hq'
  | told _ hres hs =>
    refine ⟨_, World.selected { w with orc := o } cfg h.requester cids, hs.outbox, fun r => ?_,
      (summaryInfos_status _ _ _).imp fun i r hi => ⟨hi.1, fun segs he => ?_⟩⟩
    · simp [World.selected, List.mem_filter]
    · rw [hi.2, he]
      exact C35_summary _

/-- The status of the two segments of a connection, one of which is active. -/
example : let w := runMsgs Ex.cfg .init (Ex.held ++ [(Ex.nil, .dataPlane ⟨['m'], ['8']⟩ ['s', '1'] true 3 true)])
    ((Agg.step Ex.cfg w Ex.nil (.querySummary Ex.hdr [['c', '1']] [])).1.outbox.drop w.outbox.length).map (fun
      | .querySummary _ _ l => l.map fun i => (i.cid, i.dps) | _ => []) = [[(['c', '1'], (false, 3, false))]] := by decide +kernel

end OpenNSA.Agg
