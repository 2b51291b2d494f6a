import Verif.Front.Examples
/-
C91: requesters who are not told.
-/
namespace OpenNSA.Front
open Py Provider

/-- C91 has no converse for reservations: the reservation of a connection is confirmed by all its providers before the last of them has acknowledged the
request. The aggregator tells `Provider` then; the requester is told the connection id later, and never that the connection is reserved (provider.py:47-56). -/
theorem C91_lost_fails : ¬ ∀ (d : Desk) (T : List (Agg.Msg × Agg.World)) (s : Agg.Sys) (f : Joint.Scheds), Trace (Joint.sysOf Agg.Ex.cfg []) d T s f → s.tasks.length = 0 →
    ∀ rid hdr cid, .reserveAcked rid hdr cid ∈ d.log → hdr.replies → (∃ o ∈ s.w.outbox, confOf o = some (.reserveConfirmed, cid)) →
      Out.conf rid .reserveConfirmed hdr cid ∈ d.prov.out := by
  intro h
  let es : List Ev3 := Ex.steps ((Agg.Ex.startAll Agg.Ex.reserve2 0 3 ++ Agg.Ex.startAll (Agg.Ex.nil, Agg.Ex.confA) 1 8 ++ Agg.Ex.startAll (Agg.Ex.nil, Agg.Ex.confB) 2 8) ++
    [(Agg.Ex.reserve2.1, .perform 0), (Agg.Ex.reserve2.1, .resume 0)])
  have := h _ _ _ _ (Ex.traced es (by decide +kernel)) (by decide +kernel) 0 (Ex.reply Agg.Ex.hdr) ['c', '1'] (by decide +kernel) (by decide +kernel)
    (by decide +kernel)
  exact absurd this (by decide +kernel)

/-- C91 does not mean that the requester of the connection is told: another requester asks for the provision of the connection as well, and is sent the
confirmation in their place; the request of the owner stays unanswered (provider.py:122-123, the aggregator does not look at who asks either). -/
theorem C91_stranger_fails : ¬ ∀ (d : Desk) (T : List (Agg.Msg × Agg.World)) (s : Agg.Sys) (f : Joint.Scheds), Trace (Joint.sysOf Agg.Ex.cfg []) d T s f →
    ∀ rid hdr cid, Out.conf rid .provisionConfirmed hdr cid ∈ d.prov.out → Agg.Owns s.w cid hdr.requester := by
  intro h
  let es : List Ev3 := Ex.steps (Agg.Ex.oneByOne (Agg.Ex.life.take 7 ++ [(Agg.Ex.o, .provision ⟨['v'], ['x'], none, []⟩ ['c', '1'])] ++
    [(Agg.Ex.nil, .provisionConfirmed ⟨['m'], []⟩ ['s', '1']), (Agg.Ex.nil, .provisionConfirmed ⟨['m'], []⟩ ['s', '2'])]))
  obtain ⟨row, h1, h2, h3⟩ := h _ _ _ _ (Ex.traced es (by decide +kernel)) 3 (Ex.reply ⟨['v'], ['x'], none, []⟩) ['c', '1'] (by decide +kernel)
  have : ∀ r ∈ (Ex.done es).s.w.conns, r.requester = ['u'] := by decide +kernel
  rw [this row h1] at h3
  exact absurd h3 (by decide)

/-- C91 has no converse across restarts: the headers of requests are kept in memory only (provider.py:42). A connection whose provision was requested before a
restart and confirmed by all providers after it is provisioned, but the requester is never told. -/
theorem C91_restart_fails : ¬ ∀ (d : Desk) (T : List (Agg.Msg × Agg.World)) (s : Agg.Sys) (f : Joint.Scheds), Trace (Joint.sysOf Agg.Ex.cfg []) d T s f → s.tasks.length = 0 →
    ∀ (rid : Nat) (hdr : Hdr) (hd : Agg.Hdr) (cid : Str), d.asked[rid]? = some (hdr, .provision hd cid) → hdr.replies → (∃ o ∈ s.w.outbox, confOf o = some (.provisionConfirmed, cid)) →
      ∃ rid' hdr', Out.conf rid' .provisionConfirmed hdr' cid ∈ d.prov.out := by
  intro h
  let es : List Ev3 := Ex.steps (Agg.Ex.oneByOne (Agg.Ex.life.take 7)) ++ [.restart] ++ Ex.steps (Agg.Ex.oneByOne
    [(Agg.Ex.nil, .provisionConfirmed ⟨['m'], []⟩ ['s', '1']), (Agg.Ex.nil, .provisionConfirmed ⟨['m'], []⟩ ['s', '2'])])
  obtain ⟨rid', hdr', h1⟩ := h _ _ _ _ (Ex.traced es (by decide +kernel)) (by decide +kernel) 2 (Ex.reply Agg.Ex.hdr) Agg.Ex.hdr ['c', '1']
    (by decide +kernel) (by decide +kernel) ⟨.provisionConfirmed ['u'] ['c', '1'], by decide +kernel, rfl⟩
  have : ∀ o ∈ (Ex.done es).d.prov.out, (match o with | .conf _ .provisionConfirmed _ _ => false | _ => true) = true := by decide +kernel
  simpa using this _ h1

end OpenNSA.Front
