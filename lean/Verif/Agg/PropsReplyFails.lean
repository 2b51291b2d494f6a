import Verif.Agg.Spec
import Verif.Agg.Examples
/- C28-C31, C36, C37, C39, C40: histories violating the properties. -/
namespace OpenNSA.Agg
open OpenNSA Py Coro Conc

namespace Ex
/-- From A to B: two segments. -/
def dstB : STP := ⟨['B'], ['w'], vlan 1 9⟩
def crit2 : Crit := ⟨src, dstB, some 100, some 200, 50⟩
def segA : Crit := ⟨⟨['A'], ['x'], vlan 3 3⟩, ⟨['A'], ['a', 'b'], vlan 12 12⟩, some 100, some 200, 50⟩
def segB : Crit := ⟨⟨['B'], ['b', 'a'], vlan 12 12⟩, ⟨['B'], ['w'], vlan 7 7⟩, some 100, some 200, 50⟩
def reserve2 : Oracle × Msg := (o, .reserve hdr none crit2)
def confA : Msg := .reserveConfirmed ⟨['m'], ['1']⟩ ['s', '1'] segA
def confB : Msg := .reserveConfirmed ⟨['m'], ['2']⟩ ['s', '2'] segB
def nil : Oracle := {}
/-- Perform and resume a task. -/
def go (id : Nat) : List (Oracle × Choice Msg) := [(nil, .perform id), (nil, .resume id)]
/-- The same several times. -/
def gos (id : Nat) : Nat → List (Oracle × Choice Msg)
  | 0 => []
  | n + 1 => go id ++ gos id n
def startAll (m : Oracle × Msg) (id n : Nat) : List (Oracle × Choice Msg) :=
  (m.1, .start m.2) :: (List.replicate n [(m.1, .perform id), (m.1, .resume id)]).flatten

/-- The reservation, scheduled without interleaving. -/
def reserved : List (Oracle × Choice Msg) := startAll reserve2 0 4

example : (runSys cfg { w := .init } reserved).done = [(0, .ok (some ['c', '1']))] := by decide +kernel
end Ex

/-- The message is a confirmation of the reservation of the connection. -/
def Out.isConfirm (cid : Str) : Out → Bool
  | .reserveConfirmed _ c _ _ _ _ _ => c = cid
  | _ => false

/-! ### C28 -/

namespace Ex
/-- Both confirmations look for the connection object before either has cached it: each gets its own. -/
def twice : List (Oracle × Choice Msg) :=
  reserved ++ [(nil, .start confA), (nil, .start confB)] ++ gos 1 2 ++ gos 2 2 ++
  [(nil, .perform 1), (nil, .perform 2), (nil, .resume 1), (nil, .resume 2)] ++ gos 1 6 ++ gos 2 6
/-- The failure of one segment is being handled while the confirmation of the other one is handled completely. -/
def despite : List (Oracle × Choice Msg) :=
  reserved ++ [(nil, .start (.reserveFailed ⟨['m'], ['2']⟩)), (nil, .start confA)] ++ gos 2 8 ++ gos 1 8
end Ex

/-- The requester can get reserveConfirmed twice. -/
theorem C28_twice_fails : ¬ ∀ s : Sys, Reach Ex.cfg s → ∀ cid, (s.w.outbox.filter (Out.isConfirm cid)).length ≤ 1 := fun h =>
  absurd (h _ (Reach.init.runs Ex.twice) ['c', '1']) (by decide +kernel)

/-- The number of segments requested for a connection. -/
def requested (w : World) (cid : Str) : Nat :=
  (w.sent.filter fun c => match c.op with | .reserve t _ _ _ _ _ => t = cid | _ => false).length
/-- The number of segments of a connection confirmed by their provider. -/
def confirmed (w : World) (cid : Str) : Nat :=
  (w.subs.filter fun s => w.conns.any fun r => r.key = s.skey && r.cid = cid).length

/-- The requester can get reserveConfirmed although a segment failed (and is not told of the failure). -/
theorem C28_despite_failure_fails : ¬ ∀ s : Sys, Reach Ex.cfg s → ∀ cid, (∃ m ∈ s.w.outbox, m.isConfirm cid = true) →
    requested s.w cid ≤ confirmed s.w cid := fun h =>
  absurd (h _ (Reach.init.runs Ex.despite) ['c', '1']
    ⟨.reserveConfirmed ['u'] ['c', '1'] ⟨['A'], ['x'], Ex.vlan 3 3⟩ ⟨['B'], ['w'], Ex.vlan 12 12⟩ (some 100) (some 200) 50, by decide +kernel, by decide⟩)
    (by decide +kernel)
example : (runSys Ex.cfg { w := .init } Ex.despite).done = [(0, .ok (some ['c', '1'])), (2, .ok none), (1, .error .internal)] ∧
    (runSys Ex.cfg { w := .init } Ex.despite).w.outbox.length = 1 := by decide +kernel

/-- The requester can get reserveConfirmed after the request was answered with an error: one provider did not acknowledge in time,
but confirms later. -/
theorem C28_after_error_fails : ¬ ∀ (w : World) (o : Oracle) (h : Hdr) (c : Crit) (e : Err) (l : List (Oracle × Msg)), SReach Ex.cfg w →
    (Agg.step Ex.cfg w o (.reserve h none c)).2 = .error e →
    ∀ m ∈ (runMsgs Ex.cfg (Agg.step Ex.cfg w o (.reserve h none c)).1 l).outbox, m ∈ w.outbox ∨ m.isConfirm (o.cids.headD []) = false := fun h =>
  absurd (h .init { Ex.o with acks := [.ok ['s', '1'], .error (.remote ['t'] [])] } Ex.hdr Ex.crit2 (.remote ['t'] [])
    [(Ex.nil, Ex.confA), (Ex.nil, Ex.confB)] .init (by decide +kernel)
    (.reserveConfirmed ['u'] ['c', '1'] ⟨['A'], ['x'], Ex.vlan 3 3⟩ ⟨['B'], ['w'], Ex.vlan 7 7⟩ (some 100) (some 200) 50) (by decide +kernel))
    (by decide +kernel)

/-! ### C29 -/

/-- The destination label confirmed is not that of the last segment if its confirmation does not come last. -/
theorem C29_destination_fails : ¬ ∀ w : World, SReach Ex.cfg w → ∀ to_ cid src dst start end_ bw,
    Out.reserveConfirmed to_ cid src dst start end_ bw ∈ w.outbox →
    ∃ r ∈ w.conns, r.cid = cid ∧ ∃ s ∈ w.subs, s.skey = r.key ∧ (∀ s' ∈ w.subs, s'.skey = r.key → s'.order ≤ s.order) ∧
      dst.label = s.dst.label := by
  intro h
  let w := runMsgs Ex.cfg .init [Ex.reserve2, (Ex.nil, Ex.confB), (Ex.nil, Ex.confA)]
  have := h w (SReach.init.msgs _) ['u'] ['c', '1'] ⟨['A'], ['x'], Ex.vlan 3 3⟩ ⟨['B'], ['w'], Ex.vlan 1 9⟩ (some 100) (some 200) 50
    (by decide +kernel)
  obtain ⟨_, _, _, s, hs, _, _, hl⟩ := this
  have hall : ∀ s ∈ w.subs, s.dst.label ≠ Ex.vlan 1 9 := by decide +kernel
  exact hall s hs hl.symm

/-- It can be the label of the inner end of the first segment. -/
example : (runMsgs Ex.cfg .init [(Ex.o, .reserve Ex.hdr none Ex.crit),
      (Ex.nil, .reserveConfirmed ⟨['m'], ['1']⟩ ['s', '1'] Ex.segA),
      (Ex.nil, .reserveConfirmed ⟨['r'], ['3']⟩ ['s', '3'] ⟨⟨['C'], ['c', 'b'], Ex.vlan 25 25⟩, ⟨['C'], ['z'], Ex.vlan 8 8⟩, none, none, 50⟩),
      (Ex.nil, .reserveConfirmed ⟨['m'], ['2']⟩ ['s', '2'] ⟨⟨['B'], ['b', 'a'], Ex.vlan 12 12⟩, ⟨['B'], ['b', 'c'], Ex.vlan 25 25⟩, none, none, 50⟩)]).outbox
    = [.reserveConfirmed ['u'] ['c', '1'] ⟨['A'], ['x'], Ex.vlan 3 3⟩ ⟨['C'], ['z'], Ex.vlan 12 12⟩ (some 100) (some 200) 50] := by
  decide +kernel

/-! ### C30 -/

namespace Ex
/-- Providers m (for A) and r (for B) give their segments the same id. -/
def cfgR : Cfg := { cfg with reg := [(['A'], (0, ['m'])), (['B'], (1, ['r']))] }
def clash : List (Oracle × Msg) :=
  [reserve2, (nil, .reserveConfirmed ⟨['m'], ['1']⟩ ['s'] segA), (nil, .reserveConfirmed ⟨['r'], ['2']⟩ ['s'] segB), (o, .commit hdr ['c', '1'])]
end Ex

/-- The commit of a connection can be confirmed before all its segments have been committed: segments of two providers with the same
id share one object, because the cache ignores the provider (aggregator.py:124). -/
theorem C30_premature_fails : ¬ ∀ (w : World) (o : Oracle) (m : Msg) (to_ cid : Str), SReach Ex.cfgR w →
    .reserveCommitConfirmed to_ cid ∈ (Agg.step Ex.cfgR w o m).1.outbox → .reserveCommitConfirmed to_ cid ∉ w.outbox →
    ∀ r ∈ (Agg.step Ex.cfgR w o m).1.conns, r.cid = cid → ∀ s ∈ (Agg.step Ex.cfgR w o m).1.subs, s.skey = r.key → s.st.r = .start := by
  intro h
  let w := runMsgs Ex.cfgR .init Ex.clash
  have := h w Ex.nil (.commitConfirmed ⟨['m'], ['9']⟩ ['s']) ['u'] ['c', '1'] (SReach.init.msgs _) (by decide +kernel) (by decide +kernel)
  revert this
  decide +kernel

namespace Ex
def held : List (Oracle × Msg) := [reserve2, (nil, confA), (nil, confB)]
/-- Scheduled: reservation, confirmations, commit. -/
def committing : List (Oracle × Choice Msg) :=
  reserved ++ startAll (nil, confA) 1 8 ++ startAll (nil, confB) 2 8 ++ startAll (o, .commit hdr ['c', '1']) 3 8
/-- After a restart, the two confirmations are handled at the same time: each loads its own connection object. -/
def confirming : List (Oracle × Choice Msg) :=
  [(nil, .start (.commitConfirmed ⟨['m'], ['8']⟩ ['s', '1'])), (nil, .start (.commitConfirmed ⟨['m'], ['9']⟩ ['s', '2']))] ++
  gos 0 3 ++ gos 1 3 ++ [(nil, .perform 0), (nil, .perform 1), (nil, .resume 0), (nil, .resume 1)] ++ gos 0 5 ++ gos 1 5
end Ex

/-- A commit can be confirmed twice. -/
theorem C30_twice_fails : ¬ ∀ s : Sys, Reach Ex.cfg s → ∀ cid,
    (s.w.outbox.filter fun m => match m with | .reserveCommitConfirmed _ c => c = cid | _ => false).length ≤ 1 := fun h =>
  absurd (h _ ((Reach.init.runs Ex.committing).restart.runs Ex.confirming) ['c', '1']) (by decide +kernel)

/-- A commit can be confirmed as an abort, if that is what the providers answer. -/
theorem C30_mixed_fails : ¬ ∀ (w : World) (to_ cid : Str) (l : List (Oracle × Msg)), w = runMsgs Ex.cfg .init l →
    .reserveAbortConfirmed to_ cid ∈ w.outbox → ∃ o h, (o, Msg.abort h cid) ∈ l := by
  intro h
  obtain ⟨o, hh, hm⟩ := h _ ['u'] ['c', '1'] (Ex.held ++ [(Ex.o, .commit Ex.hdr ['c', '1']), (Ex.nil, .abortConfirmed ⟨['m'], ['8']⟩ ['s', '1']),
    (Ex.nil, .abortConfirmed ⟨['m'], ['9']⟩ ['s', '2'])]) rfl (by decide +kernel)
  simp [Ex.held, Ex.reserve2, Ex.confA, Ex.confB] at hm

/-! ### C31 -/

/-- A provider can change the state of another provider's segment. -/
theorem C31_segment_fails : ¬ ∀ (w : World) (o : Oracle) (h : RHdr) (cid : Str), SReach Ex.cfg w →
    (∀ s ∈ w.subs, ¬ (s.prov = h.prov ∧ s.cid = cid)) → (Agg.step Ex.cfg w o (.commitConfirmed h cid)).1.subs = w.subs := fun h =>
  absurd (h (runMsgs Ex.cfg .init (Ex.held ++ [(Ex.o, .commit Ex.hdr ['c', '1'])])) Ex.nil ⟨['r'], ['x']⟩ ['s', '1'] (SReach.init.msgs _)
    (by decide +kernel)) (by decide +kernel)

/-! ### C36 -/

namespace Ex
def timeouts : List (Oracle × Choice Msg) :=
  reserved ++ startAll (nil, confA) 1 8 ++ startAll (nil, confB) 2 8 ++
  [(nil, .start (.timeout ⟨['m'], ['8']⟩ ['s', '1'] 5)), (nil, .start (.timeout ⟨['m'], ['9']⟩ ['s', '2'] 6))] ++
  gos 3 2 ++ gos 4 2 ++ gos 3 5 ++ gos 4 5
end Ex

/-- If the segments of a connection time out at the same time, the requester may not be notified at all. -/
theorem C36_unnoticed_fails : ¬ ∀ s : Sys, Reach Ex.cfg s → s.tasks.length = 0 → ∀ r ∈ s.w.conns, r.st.r ≠ .failed →
    (∃ x ∈ s.w.subs, x.skey = r.key ∧ x.st.r = .timeout) → ∃ n, .reserveTimeout r.requester r.cid n ∈ s.w.outbox := by
  intro h
  let s := runSys Ex.cfg { w := .init } Ex.timeouts
  obtain ⟨n, hn⟩ := h s (Reach.init.runs _) (by decide +kernel)
    ⟨1, ['c', '1'], ['u'], ⟨.held, .released, .created⟩, ⟨['A'], ['x'], Ex.vlan 3 3⟩, ⟨['B'], ['w'], Ex.vlan 7 7⟩, some 100, some 200, 50⟩
    (by decide +kernel) (by decide)
    ⟨⟨1, 1, ['s', '1'], ['m'], 0, ⟨.timeout, .released, .created⟩, false, none, none, Ex.segA.src, Ex.segA.dst⟩, by decide +kernel, rfl, rfl⟩
  have : ∀ m ∈ s.w.outbox, m.isConfirm ['c', '1'] = true := by decide +kernel
  exact absurd (this _ hn) (by simp [Out.isConfirm])

/-! ### C37 -/

namespace Ex
/-- Two connections of different requesters, each with one segment. -/
def critA : Crit := ⟨src, ⟨['A'], ['y'], vlan 1 9⟩, none, none, 5⟩
def o2 : Oracle := { cids := [['c', '2']], corrs := [['6']], acks := [.ok []] }
def two : List (Oracle × Msg) :=
  [(o, .reserve hdr none critA), (nil, .reserveConfirmed ⟨['m'], ['1']⟩ ['s', '1'] critA),
   (o2, .reserve ⟨['v'], ['p'], none, []⟩ none critA), (nil, .reserveConfirmed ⟨['m'], ['6']⟩ ['s', '2'] critA)]
/-- Both query their connection, with the same correlation id; the first query is answered. -/
def mixed : List (Oracle × Msg) := two ++
  [({ corrs := [['a']] }, .queryRecursive hdr [['c', '1']] []), ({ corrs := [['b']] }, .queryRecursive ⟨['v'], ['q'], none, []⟩ [['c', '2']] []),
   (nil, .queryConfirmed ⟨['m'], ['a']⟩ [['f', 'i', 'r', 's', 't']])]
end Ex

/-- What is answered to a query can be what the provider said about another requester's connection. -/
theorem C37_mixed_fails : ¬ ∀ (l : List (Oracle × Msg)) (to_ corr : Str) (i : Info), .queryRecursive to_ corr i ∈ (runMsgs Ex.cfg .init l).outbox →
    ∀ x ∈ i.children, ∃ o h res c, (o, Msg.queryConfirmed h res) ∈ l ∧ x ∈ res ∧ c ∈ (runMsgs Ex.cfg .init l).sent ∧ c.corr = h.corr ∧
      ∃ s ∈ (runMsgs Ex.cfg .init l).subs, c.op = .query s.cid ∧ ∃ r ∈ (runMsgs Ex.cfg .init l).conns, r.key = s.skey ∧ r.cid = i.cid := by
  intro h
  have hout : (runMsgs Ex.cfg .init Ex.mixed).outbox.getLast? = some (.queryRecursive ['v'] ['q']
      ⟨['c', '2'], ['v'], ⟨.held, .released, .created⟩, (false, 0, false), Ex.src, ⟨['A'], ['y'], Ex.vlan 1 9⟩, none, none, 0,
        [['f', 'i', 'r', 's', 't']]⟩) := by decide +kernel
  obtain ⟨o, hh, res, c, hm, hx, hc, hcorr, s, hs, hop, r, hr, hk, hcid⟩ := h Ex.mixed ['v'] ['q'] _ (List.mem_of_getLast? hout) _ (List.mem_singleton.mpr rfl)
  have h1 : hh.corr = ['a'] := by
    simp [Ex.mixed, Ex.two] at hm
    rw [hm.2.1]
  have h2 : ∀ c ∈ (runMsgs Ex.cfg .init Ex.mixed).sent, c.corr = ['a'] → c.op = .query ['s', '1'] := by decide +kernel
  rw [h2 c hc (hcorr.trans h1)] at hop
  have h3 : ∀ s ∈ (runMsgs Ex.cfg .init Ex.mixed).subs, POp.query ['s', '1'] = .query s.cid → s.skey = 1 := by decide +kernel
  have h4 : ∀ r ∈ (runMsgs Ex.cfg .init Ex.mixed).conns, r.key = 1 → r.cid ≠ ['c', '2'] := by decide +kernel
  exact h4 r hr (hk.trans (h3 s hs hop)) hcid

/-! ### C39 -/

/-- The operations on a connection. -/
def operations (h : Hdr) (cid : Str) : List Msg := [.commit h cid, .abort h cid, .provision h cid, .release h cid, .terminate h cid]

/-- Every operation is accepted from an NSA that did not reserve the connection. -/
theorem C39_fails : ∀ i : Fin 5, ¬ ∀ (w : World) (o : Oracle) (h : Hdr) (cid : Str) (r : CRow), SReach Ex.cfg w → r ∈ w.conns → r.cid = cid →
    h.requester ≠ r.requester → ∃ e, (Agg.step Ex.cfg w o ((operations h cid).get ⟨i, i.isLt⟩)).2 = .error e := by
  intro i h
  let other : Hdr := ⟨['z'], ['q'], none, []⟩
  have key : ∀ (l : List (Oracle × Msg)) (r : CRow), r ∈ (runMsgs Ex.cfg .init l).conns → r.cid = ['c', '1'] → other.requester ≠ r.requester →
      (Agg.step Ex.cfg (runMsgs Ex.cfg .init l) Ex.o ((operations other ['c', '1']).get ⟨i, i.isLt⟩)).2 = .ok (some ['c', '1']) → False := by
    intro l r hr hc ho hok
    obtain ⟨e, he⟩ := h _ Ex.o other ['c', '1'] r (SReach.init.msgs l) hr hc ho
    rw [hok] at he
    cases he
  let prov : List (Oracle × Msg) := Ex.held ++ [(Ex.o, .provision Ex.hdr ['c', '1']), (Ex.nil, .provisionConfirmed ⟨['m'], []⟩ ['s', '1']),
    (Ex.nil, .provisionConfirmed ⟨['m'], []⟩ ['s', '2'])]
  have row : ∃ r ∈ (runMsgs Ex.cfg .init Ex.held).conns, r.cid = ['c', '1'] ∧ other.requester ≠ r.requester := by decide +kernel
  have row' : ∃ r ∈ (runMsgs Ex.cfg .init prov).conns, r.cid = ['c', '1'] ∧ other.requester ≠ r.requester := by decide +kernel
  obtain ⟨r, h1, h2, h3⟩ := row
  obtain ⟨r', h1', h2', h3'⟩ := row'
  match i, key with
  | 0, key => exact key Ex.held r h1 h2 h3 (by decide +kernel)
  | 1, key => exact key Ex.held r h1 h2 h3 (by decide +kernel)
  | 2, key => exact key Ex.held r h1 h2 h3 (by decide +kernel)
  | 3, key => exact key prov r' h1' h2' h3' (by decide +kernel)
  | 4, key => exact key Ex.held r h1 h2 h3 (by decide +kernel)

/-! ### C40 -/

/-- The notification id of a data plane notification. -/
def Out.dataPlaneId : Out → Option Nat
  | .dataPlane _ _ n _ => some n
  | _ => none

/-- Data plane notifications all have the same notification id, 0 (aggregator.py:1184). -/
theorem C40_data_plane_fails : ¬ ∀ w : World, SReach Ex.cfg w → (w.outbox.filterMap Out.dataPlaneId).Nodup := fun h =>
  absurd (h (runMsgs Ex.cfg .init (Ex.held ++ [(Ex.nil, .dataPlane ⟨['m'], []⟩ ['s', '1'] true 1 true),
    (Ex.nil, .dataPlane ⟨['m'], []⟩ ['s', '2'] true 1 true)])) (SReach.init.msgs _)) (by decide +kernel)

end OpenNSA.Agg
