import Verif.Agg.OwnLife
/- C94: a connection is served independently of the others, however the handlers of messages are interleaved. -/
namespace OpenNSA.Agg
open OpenNSA Py Coro

/-- What belongs to the connection: its row, and the ids of its segments. -/
def CRow.mark (row : CRow) (w : World) : Mark := ⟨row.key, row.cid, row.requester, (w.segments row.key).map (·.cid)⟩

/-- The connection as stored, its segments, and what has been sent about it. -/
def World.view (w : World) (M : Mark) : List CRow × List SRow × List Out :=
  (w.conns.filter fun r => decide (r.key = M.key), w.segments M.key, w.outbox.filter fun o => decide (o.about = some M.cid))

theorem Mir.view {M : Mark} {P : Prs} {v u : World} (h : Mir M P v u) : u.view M = v.view M := by
  simp only [World.view, World.segments, h.conns, h.subs, h.outs, List.filter_filter, Bool.and_self]

theorem World.told_eq (w : World) (cid : Str) : w.told cid = (w.outbox.filter fun o => decide (o.about = some cid)).filter fun o => !o.isNote := by
  rw [World.told, List.filter_filter]
  congr 1; funext o; rw [Bool.and_comm]

theorem At.view {M : Mark} {v u : World} (h : u.view M = v.view M) {st : ConnStates} {segs : List (Str × Str × ConnStates)} {outs : List Out}
    {req : Str} (ha : At u M.key M.cid req st segs outs) : At v M.key M.cid req st segs outs := by
  simp only [World.view, Prod.mk.injEq] at h
  obtain ⟨h1, h2, h3⟩ := h
  refine ⟨?_, by rw [← h2]; exact ha.segs, by rw [World.told_eq, ← h3, ← World.told_eq]; exact ha.outs⟩
  obtain ⟨row, g1, g2, g3⟩ := ha.row
  have : row ∈ u.conns.filter fun r => decide (r.key = M.key) := List.mem_filter.mpr ⟨g1, by simpa using g2⟩
  rw [h1] at this
  exact ⟨row, (List.mem_filter.mp this).1, g2, g3⟩

variable {cfg : Cfg}

/-- Messages about a connection and its segments are handled one after the other, those about other connections at any time and in any interleaving with them.
When none about the connection is being handled, the stored connection and segments, what has been sent about it, and the answers to the messages about it
are as if those messages had been handled alone, on a system that has no other connection. The choices left to the outside (clock, ids, answers of
providers) are those of `tr`. -/
theorem C94_serial {M : Mark} {s0 s : Sys} {l : List (Nat × Msg)} (hr : Reach cfg s0) (ht : s0.tasks = []) (hs : Sep M s0.w) (h : Turns cfg M s0 l s)
    (hq : ∀ t ∈ s.tasks, t.1 ∉ nums l) :
    ∃ tr, tr.map Prod.snd = l.map Prod.snd ∧ (runMsgs cfg (s0.w.alone M) tr).view M = s.w.view M ∧ s0.done <+: s.done ∧
      (s.done.drop s0.done.length).filter (fun d => decide (d.1 ∈ nums l)) = (nums l).zip (runAnswers cfg (s0.w.alone M) tr) := by
  have hi : Inv2 cfg M s0.w := ⟨hr.ids, hs⟩
  obtain ⟨new, h1, _, h3⟩ := (h.sim hi ht (Mir.alone hi)).state
  rcases h3 with ⟨_, tr, P, hc⟩ | ⟨l', n, m, t, w1, tr, P, rfl, _, _, hm, _⟩
  · exact ⟨tr, hc.msgs, hc.mir.view, h1 ▸ List.prefix_append _ _, by rw [h1, List.drop_left]; exact hc.answers⟩
  · exact absurd (by simp) (hq _ hm)

/-- Messages about others do not change what is stored or has been sent about the connection, at any moment of their handling. -/
theorem C94_untouched {M : Mark} {s0 s : Sys} (hr : Reach cfg s0) (ht : s0.tasks = []) (hs : Sep M s0.w) (h : Turns cfg M s0 [] s) : s.w.view M = s0.w.view M := by
  obtain ⟨tr, h1, h2, _⟩ := C94_serial hr ht hs h (by simp)
  obtain rfl : tr = [] := by simpa using h1
  rw [← h2]
  obtain ⟨P, hm⟩ := Mir.alone (cfg := cfg) ⟨hr.ids, hs⟩
  exact hm.view

/-- The requester of a connection is told the truth whatever else is going on: the connection is led through a series of accepted requests, each of which is
confirmed by all segments before the next one; messages about other connections come at any time and are handled in any interleaving. Then the requester
has been sent exactly the confirmations of the requests, in their order, each when the last segment had confirmed and not before; and after the last
one, the connection and all its segments are in the states requested. -/
theorem C94_life {s0 s : Sys} {l : List (Nat × Msg)} {row : CRow} (hr : Reach cfg s0) (ht : s0.tasks = [])
    (hrow : row ∈ s0.w.conns) (hl : row.st.l ≠ .terminated) (hne : s0.w.segments row.key ≠ []) (huni : ∀ x ∈ s0.w.segments row.key, x.st = row.st)
    (hn : ((s0.w.segments row.key).map (·.cid)).Nodup) (hs : Sep (row.mark s0.w) s0.w) (hc : Current (row.mark s0.w) s0.w)
    (h : Turns cfg (row.mark s0.w) s0 l s) (hq : ∀ t ∈ s.tasks, t.1 ∉ nums l)
    {ks : List Kind} {rest : List (Str × Str)} (hst : Story row.cid (s0.w.parties row.key) ks rest (l.map Prod.snd))
    (hok : ∀ p ∈ l, (∃ (k : Kind) (h : Hdr), p.2 = k.request h row.cid) → ∀ r, (p.1, r) ∈ s.done.drop s0.done.length → ∃ i, r = .ok i) :
    s.w.told row.cid = s0.w.told row.cid ++ ((if rest = [] then ks else ks.dropLast).map fun k => k.answer row.requester row.cid) ∧
    (rest = [] → (∃ row' ∈ s.w.conns, row'.key = row.key ∧ row'.cid = row.cid ∧ row'.requester = row.requester ∧ row'.st = ks.foldl (fun s k => k.after s) row.st) ∧
      s.w.parties row.key = s0.w.parties row.key ∧ ∀ x ∈ s.w.segments row.key, x.st = ks.foldl (fun s k => k.after s) row.st) := by
  obtain ⟨tr, h1, h2, _, h4⟩ := C94_serial hr ht hs h hq
  have hi : Inv2 cfg (row.mark s0.w) s0.w := ⟨hr.ids, hs⟩
  have hg : Good (s0.w.alone (row.mark s0.w)) := Good.alone hi hc hn
  obtain ⟨P, hm⟩ := Mir.alone hi
  have ha : At (s0.w.alone (row.mark s0.w)) row.key row.cid row.requester row.st ((s0.w.segments row.key).map SRow.brief) (s0.w.told row.cid) :=
    At.view (M := row.mark s0.w) hm.view.symm (at_self hrow)
  have hacc : Accepted cfg row.cid (s0.w.alone (row.mark s0.w)) tr := by
    rintro ⟨m, r⟩ hx hk
    obtain ⟨j, hj⟩ := List.mem_iff_getElem?.mp hx
    rw [List.getElem?_zip_eq_some] at hj
    simp only [h1, List.getElem?_map, Option.map_eq_some_iff] at hj
    obtain ⟨⟨p, hp, rfl⟩, hj⟩ := hj
    refine hok p (List.mem_of_getElem? hp) hk r ?_
    have : (p.1, r) ∈ (s.done.drop s0.done.length).filter (fun d => decide (d.1 ∈ nums l)) := by
      rw [h4]
      refine List.mem_iff_getElem?.mpr ⟨j, ?_⟩
      rw [List.getElem?_zip_eq_some]
      exact ⟨by simp [nums, hp], hj⟩
    exact (List.mem_filter.mp this).1
  have hpar : s0.w.parties row.key = ((s0.w.segments row.key).map SRow.brief).map fun x => (x.1, x.2.1) := by
    rw [List.map_map]; rfl
  obtain ⟨g1, g2⟩ := Story.ends (cfg := cfg) hg ha hl (by simpa using hne) (by
    intro x hx
    obtain ⟨y, hy, rfl⟩ := List.mem_map.mp hx
    exact huni y hy) (tr := tr) (by rw [h1, ← hpar]; exact hst) hacc
  have htold : s.w.told row.cid = (runMsgs cfg (s0.w.alone (row.mark s0.w)) tr).told row.cid := by
    have h2 := h2
    simp only [World.view, Prod.mk.injEq] at h2
    rw [World.told_eq, World.told_eq]
    exact congrArg _ h2.2.2.symm
  refine ⟨by rw [htold, g1], fun hrest => ?_⟩
  have g3 := At.view (M := row.mark s0.w) h2 (g2 hrest)
  refine ⟨g3.row, ?_, ?_⟩
  · have := congrArg (List.map fun x : Str × Str × ConnStates => (x.1, x.2.1)) g3.segs
    rw [List.map_map, List.map_map, List.map_map] at this
    exact this
  · intro x hx
    have : x.brief ∈ ((s.w.segments row.key).map SRow.brief) := List.mem_map.mpr ⟨x, hx, rfl⟩
    have g4 : (s.w.segments row.key).map SRow.brief = _ := g3.segs
    rw [g4] at this
    obtain ⟨y, _, hy⟩ := List.mem_map.mp this
    have := congrArg (fun z => z.2.2) hy
    exact this.symm

/-- After a restart of the process, whatever was going on before: if no two segments have the same id, every connection fulfils the conditions of the other
theorems on what is in memory. -/
theorem C94_restart {s : Sys} (hn : (s.w.subs.map (·.cid)).Nodup) {row : CRow} (hrow : row ∈ s.w.conns) :
    Sep (row.mark s.w.restart) s.w.restart ∧ Current (row.mark s.w.restart) s.w.restart ∧ ((s.w.restart.segments row.key).map (·.cid)).Nodup := by
  refine ⟨⟨⟨row, hrow, rfl⟩, ?_, by simp [World.restart], by simp [World.restart], by simp [World.restart]⟩, ⟨by simp [World.restart, dget], by simp [World.restart, dget]⟩, ?_⟩
  · intro x hx
    constructor
    · intro hk
      exact List.mem_map.mpr ⟨x, List.mem_filter.mpr ⟨hx, by rw [decide_eq_true_eq]; exact hk⟩, rfl⟩
    · intro hk
      obtain ⟨y, hy, hyx⟩ := List.mem_map.mp hk
      obtain ⟨hy1, hy2⟩ := List.mem_filter.mp hy
      rw [nodup_map_inj hn hx hy1 hyx.symm]
      exact (by simpa using hy2 : y.skey = row.key)
  · exact hn.sublist (List.Sublist.map _ List.filter_sublist)

theorem runMsgs_good {w : World} (hg : Good w) {M : Mark} (tr : List (Oracle × Msg)) (h : ∀ m ∈ tr.map Prod.snd, m.mine M) : Good (runMsgs cfg w tr) := by
  induction tr generalizing w with
  | nil => exact hg
  | cons x xs ih =>
    have hx : x.2.mine M := h _ (by simp)
    refine ih (step_eff (cfg := cfg) hg x.1 x.2 ?_).1 fun m hm => h m (by simp [hm])
    cases hm : x.2 <;> first | trivial | (rw [hm] at hx; exact hx.elim)

theorem Turns.mine {M : Mark} {s0 s : Sys} {l : List (Nat × Msg)} (h : Turns cfg M s0 l s) : ∀ m ∈ l.map Prod.snd, m.mine M := by
  induction h with
  | nil => simp
  | other _ _ _ _ ih => exact ih
  | own _ _ _ hm _ ih =>
    intro m hx
    rw [List.map_append, List.mem_append] at hx
    rcases hx with hx | hx
    · exact ih m hx
    · rw [List.mem_singleton.mp hx]; exact hm
  | perform _ _ _ ih => exact ih
  | resume _ _ _ ih => exact ih

/-- The conditions of the other theorems on what is in memory hold again when no message about the connection is being handled. -/
theorem C94_again {M : Mark} {s0 s : Sys} {l : List (Nat × Msg)} (hr : Reach cfg s0) (ht : s0.tasks = []) (hs : Sep M s0.w) (hc : Current M s0.w)
    (hn : ((s0.w.segments M.key).map (·.cid)).Nodup) (h : Turns cfg M s0 l s) (hq : ∀ t ∈ s.tasks, t.1 ∉ nums l) :
    Sep M s.w ∧ Current M s.w ∧ ((s.w.segments M.key).map (·.cid)).Nodup := by
  have hi : Inv2 cfg M s0.w := ⟨hr.ids, hs⟩
  have hsim := h.sim hi ht (Mir.alone hi)
  obtain ⟨new, h1, _, h3⟩ := hsim.state
  rcases h3 with ⟨_, tr, P, hca⟩ | ⟨l', n, m, t, w1, tr, P, rfl, _, _, hm, _⟩
  · have hg := runMsgs_good (cfg := cfg) (M := M) (Good.alone hi hc hn) tr (by rw [hca.msgs]; exact h.mine)
    refine ⟨hsim.inv.2, ⟨fun ref hd => ?_, fun c hcm ref hd => ?_⟩, ?_⟩
    · rcases hca.mir.ccache with ⟨g1, _⟩ | ⟨i, j, g1, g2, g3⟩
      · rw [g1] at hd; cases hd
      · obtain rfl := Option.some.inj (g1.symm.trans hd)
        obtain ⟨o, k1, k2, _⟩ := hca.mir.cobj _ g3
        obtain ⟨row, k3, k4, _⟩ := hg.ccache _ _ g2
        obtain rfl := Option.some.inj (k2.symm.trans k3)
        rw [hca.mir.conns] at k4
        exact ⟨row, (List.mem_filter.mp k4).1, k1⟩
    · rcases hca.mir.scache c hcm with ⟨g1, _⟩ | ⟨i, j, g1, g2, g3⟩
      · rw [g1] at hd; cases hd
      · obtain rfl := Option.some.inj (g1.symm.trans hd)
        obtain ⟨o, k1, k2, _⟩ := hca.mir.sobj _ g3
        obtain ⟨row, k3, k4, _⟩ := hg.scache _ _ g2
        obtain rfl := Option.some.inj (k2.symm.trans k3)
        rw [hca.mir.subs] at k4
        exact ⟨row, (List.mem_filter.mp k4).1, k1⟩
    · have := hg.scids
      rw [hca.mir.subs] at this
      exact this
  · exact absurd (by simp) (hq _ hm)

/-! ### Examples -/

instance (M : Mark) : DecidablePred (Msg.mine M) := fun m => by cases m <;> (unfold Msg.mine; infer_instance)
instance (cfg : Cfg) (M : Mark) : DecidablePred (Msg.other cfg M) := fun m => by cases m <;> (unfold Msg.other; try unfold Spares) <;> infer_instance

/-- Whether a schedule takes turns; the messages about the connection. -/
def takesTurns (cfg : Cfg) (M : Mark) : Sys → List (Nat × Msg) → List (Oracle × Conc.Choice Msg) → Option (List (Nat × Msg))
  | _, l, [] => some l
  | s, l, (o, .start m) :: xs =>
    if m.other cfg M then takesTurns cfg M (sysStep cfg s o (.start m)) l xs
    else if m.mine M ∧ ∀ t ∈ s.tasks, t.1 ∉ l.map Prod.fst then takesTurns cfg M (sysStep cfg s o (.start m)) (l ++ [(s.next, m)]) xs
    else none
  | s, l, (o, .perform n) :: xs => takesTurns cfg M (sysStep cfg s o (.perform n)) l xs
  | s, l, (o, .resume n) :: xs => takesTurns cfg M (sysStep cfg s o (.resume n)) l xs

theorem Turns.of {M : Mark} {s0 : Sys} (xs : List (Oracle × Conc.Choice Msg)) : ∀ {s : Sys} {l l' : List (Nat × Msg)}, Turns cfg M s0 l s → takesTurns cfg M s l xs = some l' →
    Turns cfg M s0 l' (runSys cfg s xs) := by
  induction xs with
  | nil => intro s l l' h he; simp only [takesTurns, Option.some.injEq] at he; exact he ▸ h
  | cons x xs ih =>
    intro s l l' h he
    obtain ⟨o, ch⟩ := x
    cases ch with
    | start m =>
      simp only [takesTurns] at he
      split at he
      · exact ih (h.other o m ‹_›) he
      · split at he
        · rename_i hm
          exact ih (h.own o m hm.1 hm.2) he
        · cases he
    | perform n => exact ih (h.perform o n) he
    | resume n => exact ih (h.resume o n) he

namespace Ex
/-- A second connection. -/
def oo : Oracle := { cids := [['c', '2']], corrs := [['6'], ['7'], ['8'], ['9']], acks := [.ok ['t', '1'], .ok ['t', '2']] }
def both : List (Oracle × Conc.Choice Msg) :=
  reserved ++ startAll (nil, confA) 1 8 ++ startAll (nil, confB) 2 8 ++ startAll (oo, .reserve hdr none crit2) 3 8 ++
  startAll (nil, .reserveConfirmed ⟨['m'], ['6']⟩ ['t', '1'] segA) 4 8 ++ startAll (nil, .reserveConfirmed ⟨['m'], ['7']⟩ ['t', '2'] segB) 5 8
/-- After a restart, both are committed at the same time; the first segment of the other one is confirmed meanwhile. -/
def turns : List (Oracle × Conc.Choice Msg) :=
  [(o, .start (.commit hdr ['c', '1'])), (oo, .start (.commit hdr ['c', '2']))] ++
  (List.replicate 8 [(o, .perform 0), (oo, .perform 1), (oo, .resume 1), (o, .resume 0)]).flatten ++
  [(nil, .start (.commitConfirmed ⟨['m'], []⟩ ['t', '1'])), (nil, .start (.commitConfirmed ⟨['m'], []⟩ ['s', '2']))] ++
  (List.replicate 8 [(nil, .perform 2), (nil, .perform 3), (nil, .resume 2), (nil, .resume 3)]).flatten ++
  [(nil, .start (.commitConfirmed ⟨['m'], []⟩ ['s', '1'])), (nil, .start (.dataPlane ⟨['m'], []⟩ ['t', '1'] true 1 true))] ++
  (List.replicate 8 [(nil, .perform 4), (nil, .perform 5), (nil, .resume 5), (nil, .resume 4)]).flatten
def both1 : Sys := runSys Ex.cfg { w := .init } both
def both0 : Sys := { w := both1.w.restart }
theorem both0_reach : Reach Ex.cfg both0 := (Reach.init.runs _).restart
theorem both0_cids : (both1.w.subs.map (·.cid)).Nodup := by decide +kernel
/-- The first connection. -/
def row1 : CRow := both0.w.conns.headD ⟨0, [], [], heldStates, src, dst, none, none, 0⟩
theorem row1_mem : row1 ∈ both0.w.conns := by decide +kernel
theorem conds1 : Sep (row1.mark both0.w) both0.w ∧ Current (row1.mark both0.w) both0.w ∧ ((both0.w.segments row1.key).map (·.cid)).Nodup :=
  C94_restart (s := both1) both0_cids (row := row1) (show row1 ∈ both1.w.conns by decide +kernel)
/-- The messages about the first connection. -/
def own1 : List (Nat × Msg) :=
  [(0, .commit hdr ['c', '1']), (3, .commitConfirmed ⟨['m'], []⟩ ['s', '2']), (4, .commitConfirmed ⟨['m'], []⟩ ['s', '1'])]
theorem turns1 : Turns Ex.cfg (row1.mark both0.w) both0 own1 (runSys Ex.cfg both0 turns) := Turns.of _ .nil (by decide +kernel)
theorem story1 : Story row1.cid (both0.w.parties row1.key) [.commit] [] (own1.map Prod.snd) := by
  have h0 : Story row1.cid (both0.w.parties row1.key) ([] ++ [.commit]) (both0.w.parties row1.key) ([] ++ [Kind.commit.request hdr row1.cid]) :=
    .request .start (by simp) .commit hdr
  have h1 := Story.reply h0 ⟨['m'], []⟩ ['s', '2'] (by decide +kernel)
  have h2 := Story.reply h1 ⟨['m'], []⟩ ['s', '1'] (by decide +kernel)
  have e1 : ((both0.w.parties row1.key).erase (['s', '2'], ['m'])).erase (['s', '1'], ['m']) = [] := by decide +kernel
  have e2 : row1.cid = ['c', '1'] := by decide +kernel
  rw [e1] at h2
  rw [e2] at h2 ⊢
  exact h2
end Ex

/-- Two connections are committed at the same time after a restart: the conditions hold of the first one, the messages take turns, all are answered. -/
example : Reach Ex.cfg Ex.both0 ∧ Ex.both0.tasks.length = 0 ∧ Sep (Ex.row1.mark Ex.both0.w) Ex.both0.w ∧ Current (Ex.row1.mark Ex.both0.w) Ex.both0.w ∧
    Turns Ex.cfg (Ex.row1.mark Ex.both0.w) Ex.both0 Ex.own1 (runSys Ex.cfg Ex.both0 Ex.turns) ∧ (runSys Ex.cfg Ex.both0 Ex.turns).tasks.length = 0 ∧
    (runSys Ex.cfg Ex.both0 Ex.turns).done.map Prod.fst = [1, 0, 2, 3, 5, 4] ∧ (Ex.both0.w.conns.map (·.cid)) = [['c', '1'], ['c', '2']] :=
  have h := Ex.conds1
  ⟨Ex.both0_reach, by decide +kernel, h.1, h.2.1, Ex.turns1, by decide +kernel, by decide +kernel, by decide +kernel⟩

/-- The first one is committed, and its requester told so, whatever happens to the other one: the conclusion of `C94_life`. -/
example : (runSys Ex.cfg Ex.both0 Ex.turns).w.told Ex.row1.cid = Ex.both0.w.told Ex.row1.cid ++ [.reserveCommitConfirmed ['u'] ['c', '1']] := by
  have h := Ex.conds1
  have := C94_life Ex.both0_reach rfl Ex.row1_mem (by decide +kernel) (by decide +kernel) (by decide +kernel) h.2.2 h.1 h.2.1 Ex.turns1 (by decide +kernel) Ex.story1 (by
    have : ∀ d ∈ (runSys Ex.cfg Ex.both0 Ex.turns).done, d.2.toBool = true := by decide +kernel
    intro p _ _ r hr
    have := this _ (List.mem_of_mem_drop hr)
    cases r with
    | ok i => exact ⟨i, rfl⟩
    | error e => exact absurd this (by simp [Except.toBool]))
  have e2 : Kind.commit.answer Ex.row1.requester Ex.row1.cid = .reserveCommitConfirmed ['u'] ['c', '1'] := by decide +kernel
  have h1 := this.1
  rw [if_pos rfl, List.map_cons, List.map_nil, e2] at h1
  exact h1

namespace Ex
/-- Only the second connection is committed. -/
def others : List (Oracle × Conc.Choice Msg) := startAll (oo, .commit hdr ['c', '2']) 0 8 ++ [(nil, .start (.commitConfirmed ⟨['m'], []⟩ ['t', '2'])), (nil, .perform 1)]
theorem others1 : Turns Ex.cfg (row1.mark both0.w) both0 [] (runSys Ex.cfg both0 others) := Turns.of _ .nil (by decide +kernel)
end Ex

/-- The other one is changed, the first one is not. -/
example : (runSys Ex.cfg Ex.both0 Ex.others).w.view (Ex.row1.mark Ex.both0.w) = Ex.both0.w.view (Ex.row1.mark Ex.both0.w) ∧
    (runSys Ex.cfg Ex.both0 Ex.others).w.conns.map (fun r => (r.cid, decide (r.st.r = .held))) = [(['c', '1'], true), (['c', '2'], false)] ∧
    (runSys Ex.cfg Ex.both0 Ex.others).tasks.length = 1 :=
  ⟨C94_untouched Ex.both0_reach rfl Ex.conds1.1 Ex.others1, by decide +kernel, by decide +kernel⟩

namespace Ex
/-- After a restart, a notification that the data plane of a segment is up, and a commit: the notification looks for the connection before the commit changes
its state, and gets it afterwards. -/
def notified : List (Oracle × Conc.Choice Msg) :=
  [(nil, .start (.dataPlane ⟨['m'], []⟩ ['s', '1'] true 1 true))] ++ gos 0 3 ++ [(nil, .perform 0)] ++ startAll (o, .commit hdr ['c', '1']) 1 8 ++ [(nil, .resume 0)] ++ gos 0 10
end Ex

/-- C94 does not hold if messages about one connection are handled at the same time, be it a notification only: after a restart, the handler of a data plane
notification loads the connection from the database while a commit is requested, and stores its object in the cache although that of the commit is already
there (aggregator.py:98). Both handlers succeed, both providers confirm the commit one after the other, but the second confirmation finds the old state, and the
requester is never told that the connection is committed. -/
theorem C94_overlap_fails : ¬ ∀ (w : World) (l : List (Oracle × Conc.Choice Msg)) (m₁ m₂ : Msg) (h : Hdr) (r : RHdr) (cid scid : Str), SReach Ex.cfg w →
    startedMsgs l = [.dataPlane r scid true 1 true, .commit h cid] → (runSys Ex.cfg { w := w.restart } l).tasks.length = 0 →
    (runSys Ex.cfg { w := w.restart } l).done = [(1, .ok (some cid)), (0, .ok none)] →
    (∀ s ∈ w.subs, ∃ r, .commitConfirmed r s.cid ∈ [m₁, m₂] ∧ r.prov = s.prov) →
    (runMsgs Ex.cfg (runSys Ex.cfg { w := w.restart } l).w [(Ex.nil, m₁), (Ex.nil, m₂)]).told cid ≠ w.told cid := by
  intro hall
  refine hall (runMsgs Ex.cfg .init Ex.held) Ex.notified (.commitConfirmed ⟨['m'], []⟩ ['s', '1']) (.commitConfirmed ⟨['m'], []⟩ ['s', '2']) Ex.hdr ⟨['m'], []⟩ ['c', '1']
    ['s', '1'] (SReach.init.msgs _) (by decide +kernel) (by decide +kernel) (by decide +kernel) ?_ (by decide +kernel)
  have : ∀ s ∈ (runMsgs Ex.cfg .init Ex.held).subs, s.prov = ['m'] ∧ (s.cid = ['s', '1'] ∨ s.cid = ['s', '2']) := by decide +kernel
  intro s hs
  obtain ⟨h1, h2 | h2⟩ := this s hs
  · exact ⟨⟨['m'], []⟩, by simp [h2], h1.symm⟩
  · exact ⟨⟨['m'], []⟩, by simp [h2], h1.symm⟩

end OpenNSA.Agg
