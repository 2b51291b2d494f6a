import Verif.Agg.IdsRun
import Verif.Agg.Serial
import Verif.Agg.PropsReplyFails
/- C38, C57, C58: who is told what about connections. -/
namespace OpenNSA.Agg
open OpenNSA Py Coro Conc

/-! ### C57 -/

/-- In every interleaving, whatever is sent to a requester about a connection is sent to the requester that made the connection. -/
theorem C57_addressee {cfg : Cfg} {s : Sys} (h : Reach cfg s) {o : Out} (ho : o ∈ s.w.outbox) {cid to_ : Str} (hd : o.dest = some (cid, to_)) :
    (∃ row ∈ s.w.conns, row.cid = cid) ∧ ∀ row ∈ s.w.conns, row.cid = cid → row.requester = to_ := by
  obtain ⟨row, h1, h2, h3⟩ := (h.ids.out o ho).1 _ hd
  refine ⟨⟨row, h1, h2⟩, fun row' h1' h2' => ?_⟩
  obtain rfl := List.inj_on_of_nodup_map h.ids.ccids h1' h1 (h2'.trans h2.symm)
  exact h3

/-- In every interleaving, a connection is never forgotten and never gets another requester, key or id; this includes restarts. -/
theorem C57_requester_fixed {cfg : Cfg} {s : Sys} (h : Reach cfg s) {row : CRow} (hr : row ∈ s.w.conns) :
    (∀ o ch, ∃ row' ∈ (sysStep cfg s o ch).w.conns, row'.cid = row.cid ∧ row'.requester = row.requester ∧ row'.key = row.key) ∧
    row ∈ s.w.restart.conns := by
  refine ⟨fun o ch => ?_, hr⟩
  obtain ⟨r', h1, h2⟩ := (h.keep o ch).conns row hr
  simp only [CRow.id, Prod.mk.injEq] at h2
  exact ⟨r', h1, h2.2.1, h2.2.2, h2.1⟩

/-- No two connections have the same id, in every interleaving. -/
theorem C57_unique_ids {cfg : Cfg} {s : Sys} (h : Reach cfg s) : (s.w.conns.map (·.cid)).Nodup ∧ (s.w.conns.map (·.key)).Nodup :=
  ⟨h.ids.ccids, h.ids.ckeys⟩

/-- In every interleaving, every segment belongs to a connection. -/
theorem C57_segments_owned {cfg : Cfg} {s : Sys} (h : Reach cfg s) {sub : SRow} (hs : sub ∈ s.w.subs) : ∃ row ∈ s.w.conns, row.key = sub.skey :=
  h.ids.sfk sub hs

namespace Ex
/-- Somebody else. -/
def other : Hdr := ⟨['v'], ['p'], none, []⟩
/-- Two connections by two requesters, the second one stored while the confirmations of the first one are being handled. -/
def twoOwners : List (Oracle × Choice Msg) :=
  twice ++ startAll ({ o with cids := [['c', '2']] }, .reserve other none crit2) 3 4 ++
    [(nil, .start (.reserveFailed ⟨['m'], ['1']⟩))] ++ gos 4 6
end Ex

/-- Interleaved confirmations, and a failure of the connection of somebody else: three messages, to the right requesters. -/
example : (runSys Ex.cfg { w := .init } Ex.twoOwners).w.outbox.map Out.dest =
      [some (['c', '1'], ['u']), some (['c', '1'], ['u']), some (['c', '2'], ['v'])] ∧
    (runSys Ex.cfg { w := .init } Ex.twoOwners).w.conns.map (fun r => (r.cid, r.requester)) = [(['c', '1'], ['u']), (['c', '2'], ['v'])] := by decide +kernel

/-! ### C38 -/

/-- In every interleaving, a summary tells of connections that exist, with their requester, and if the asker is no administrator
all of them are the asker's. -/
theorem C38_private {cfg : Cfg} {s : Sys} (h : Reach cfg s) {to_ corr : Str} {infos : List Info} (ho : Out.querySummary to_ corr infos ∈ s.w.outbox)
    {i : Info} (hi : i ∈ infos) :
    (∃ row ∈ s.w.conns, row.cid = i.cid ∧ row.requester = i.requester) ∧ (to_ ∉ cfg.admins → i.requester = to_) := by
  obtain ⟨h1, h2⟩ := (h.ids.out _ ho).2.1 to_ corr infos rfl i hi
  exact ⟨h1, fun hn => h2.resolve_left hn⟩

theorem summaryInfos_rows (w : World) : ∀ (n : Nat) (rows : List CRow), List.Forall₂ (fun (i : Info) r => i.cid = r.cid ∧ i.requester = r.requester ∧ i.st = r.st ∧
    i.src = r.src ∧ i.dst = r.dst ∧ i.start = r.start ∧ i.end_ = r.end_) (summaryInfos w n rows) rows
  | _, [] => .nil
  | n, _ :: rs => .cons ⟨rfl, rfl, rfl, rfl, rfl, rfl, rfl⟩ (summaryInfos_rows w (n + 1) rs)

/-- When messages are handled one after the other: a summary query that does not select by global id only is answered with exactly
the stored connections that match, and changes nothing else. -/
theorem C38_exact_partial {cfg : Cfg} {ms : List Msg} {w : World} (hr : Runs cfg ms w) (o : Oracle) (h : Hdr) (cids gids : List Str)
    (hq : cids ≠ [] ∨ gids = []) :
    ∃ infos rows, (Agg.step cfg w o (.querySummary h cids gids)).2 = .ok none ∧
      (Agg.step cfg w o (.querySummary h cids gids)).1.outbox = w.outbox ++ [.querySummary h.requester h.corr infos] ∧
      (∀ r, r ∈ rows ↔ r ∈ w.conns ∧ (h.requester ∈ cfg.admins ∨ r.requester = h.requester) ∧ (cids = [] ∨ r.cid ∈ cids)) ∧
      rows.Sublist w.conns ∧
      List.Forall₂ (fun (i : Info) r => i.cid = r.cid ∧ i.requester = r.requester ∧ i.st = r.st ∧
        i.src = r.src ∧ i.dst = r.dst ∧ i.start = r.start ∧ i.end_ = r.end_) infos rows ∧
      (Agg.step cfg w o (.querySummary h cids gids)).1.conns = w.conns ∧ (Agg.step cfg w o (.querySummary h cids gids)).1.subs = w.subs ∧
      (Agg.step cfg w o (.querySummary h cids gids)).1.sent = w.sent := by
  have he := (step_eff hr.good o (.querySummary h cids gids) trivial (cfg := cfg)).2
  cases he with
  | refused hq' _ _ => rcases hq with hq | hq <;> simp [hq] at hq'
  | told _ hres hs =>
    refine ⟨_, World.selected { w with orc := o } cfg h.requester cids, hres, hs.outbox, fun r => ?_, List.filter_sublist, summaryInfos_rows _ _ _,
      hs.conns, hs.subs, hs.sent⟩
    simp [World.selected, List.mem_filter]

/-- A query selecting by global reservation id only is never answered. -/
theorem C38_global_id_fails : ¬ ∀ (w : World), SReach Ex.cfg w → ∀ o h cids gids, ∃ infos,
    (Agg.step Ex.cfg w o (.querySummary h cids gids)).1.outbox = w.outbox ++ [.querySummary h.requester h.corr infos] := by
  intro h
  obtain ⟨infos, hi⟩ := h .init .init Ex.nil Ex.hdr [] [['g']]
  have : (Agg.step Ex.cfg .init Ex.nil (.querySummary Ex.hdr [] [['g']])).1.outbox = [] := by decide +kernel
  rw [this] at hi
  simp [World.init] at hi

/-- Two connections of two requesters; one asks. -/
example : let w := runMsgs Ex.cfg .init [Ex.reserve2, ({ Ex.o with cids := [['c', '2']] }, .reserve Ex.other none Ex.crit2)]
    w.conns.length = 2 ∧ ((Agg.step Ex.cfg w Ex.nil (.querySummary Ex.other [] [])).1.outbox.map fun
      | .querySummary to_ corr l => (to_, corr, l.map (·.cid)) | _ => ([], [], [])) = [(['v'], ['p'], [['c', '2']])] ∧
    ((Agg.step { Ex.cfg with admins := [['v']] } w Ex.nil (.querySummary Ex.other [] [])).1.outbox.map fun
      | .querySummary to_ corr l => (to_, corr, l.map (·.cid)) | _ => ([], [], [])) = [(['v'], ['p'], [['c', '1'], ['c', '2']])] := by decide +kernel

/-! ### C58 -/

/-- Anybody can terminate a connection. -/
theorem C58_terminate_fails : ¬ ∀ (w : World), SReach Ex.cfg w → ∀ o h cid, (∀ row ∈ w.conns, row.cid = cid → row.requester ≠ h.requester) →
    (Agg.step Ex.cfg w o (.terminate h cid)).1.conns = w.conns ∧ (Agg.step Ex.cfg w o (.terminate h cid)).1.sent = w.sent := fun h =>
  absurd (h (runMsgs Ex.cfg .init Ex.held) (SReach.init.msgs _) Ex.o Ex.other ['c', '1'] (by decide +kernel)) (by decide +kernel)

/-- Anybody can have a connection answered by a recursive query. -/
theorem C58_query_fails : ¬ ∀ (w : World), SReach Ex.cfg w → ∀ to_ corr i, Out.queryRecursive to_ corr i ∈ w.outbox → to_ ∉ Ex.cfg.admins →
    i.requester = to_ := by
  intro h
  let w := runMsgs Ex.cfg .init (Ex.held ++ [(Ex.nil, .dataPlane ⟨['m'], ['9']⟩ ['s', '1'] true 1 true), (Ex.nil, .dataPlane ⟨['m'], ['9']⟩ ['s', '2'] true 1 true),
    ({ Ex.o with corrs := [['7'], ['8']] }, .queryRecursive Ex.other [['c', '1']] []),
    (Ex.nil, .queryConfirmed ⟨['m'], ['7']⟩ [['x']]), (Ex.nil, .queryConfirmed ⟨['m'], ['8']⟩ [['y']])])
  have h1 : ∃ i, Out.queryRecursive ['v'] ['p'] i ∈ w.outbox ∧ i.requester ≠ ['v'] :=
    ⟨⟨['c', '1'], ['u'], ⟨.held, .released, .created⟩, (true, 1, true), ⟨['A'], ['x'], Ex.vlan 3 3⟩, ⟨['B'], ['w'], Ex.vlan 7 7⟩, some 100, some 200, 0, [['x'], ['y']]⟩,
      by decide +kernel, by decide⟩
  obtain ⟨i, h2, h3⟩ := h1
  exact h3 (h w (SReach.init.msgs _) _ _ i h2 (by decide))

end OpenNSA.Agg
