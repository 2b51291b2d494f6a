import Verif.Joint.PropsWhole
import Verif.Joint.ExamplesWhole
import Verif.Backend.PropsUp
/-
What the requester is told of the data plane, and the links of the backends (C99), in every interleaving of the handlers of the aggregator and of the
operations of the backends, with restarts.
-/
namespace OpenNSA.Joint
open Py

variable {sys : Sys} {T : List (Agg.Msg × Agg.World)} {s : Agg.Sys} {f : Scheds} {to_ cid : Str}

/-- C99: when the requester is told that the data plane of a connection is active, then every backend that has a segment of it (of those that were stored
when the message was received that made the aggregator say so) has stored that segment as asked for, and has had its link up on the device. -/
theorem C99_told (h : Trace sys T s f) (hg : Honest sys T s.w f) (hf : s.w.freshIds) (ht : Texts sys f) {n : Nat} {v : Int} {c : Bool}
    (ho : .dataPlane to_ cid n (true, v, c) ∈ s.w.outbox) :
    ∃ row ∈ s.w.conns, row.cid = cid ∧ ∃ m x w0, x ∈ s.w.subs ∧ x.skey = row.key ∧ (m, w0) ∈ T ∧ (∃ hd a v c, m = .dataPlane hd x.cid a v c) ∧
      ∀ y ∈ w0.subs, y.skey = row.key → ∃ pc ∈ s.w.sent, pc.reserves cid ∧ pc.prov = y.prov ∧ ∀ site, sys.site pc.handle = some site →
        (∃ r ∈ (site.at (f pc.handle)).rows, r.cid = y.cid ∧ Holds sys site.cfg pc r) ∧
          Backend.EverUp site.cfg site.ids site.clk (f pc.handle) y.cid := by
  obtain ⟨a, v', c', row, hr, rfl, hd, x, hx, hxk, w0, hT, hall⟩ := Agg.C90_data_plane h.agg ho
  refine ⟨row, hr, rfl, _, x, w0, hx, hxk, hT, ⟨hd, a, v', c', rfl⟩, fun y hy hyk => ?_⟩
  obtain ⟨y', hy', h1, h2, h3⟩ := (h.lasting _ hT).subs y hy
  obtain ⟨pc, hpc, k1, k2, k3⟩ := h.stored hg hf ht hy' hr (h1.trans hyk)
  refine ⟨pc, hpc, k1, k2.trans h3, fun site hsite => ?_⟩
  obtain ⟨r, hrr, hrc, hh, _⟩ := k3 site hsite
  obtain ⟨hd2, v2, c2, hh2⟩ := hall y hy hyk rfl
  obtain ⟨nn, g1⟩ := hg _ hh2 _ _ hsite ⟨r, hrr, hrc.trans h2⟩
  exact ⟨⟨r, hrr, hrc.trans h2, hh⟩, (Backend.C99_reported site.cfg site.ids site.clk _ _ _).1 g1⟩

namespace Ex

/-- An execution in which this happens (see ExamplesWhole.lean), with both segments at backends. -/
example : Trace (sysOf Agg.Ex.cfg sites) (over course).1 (over course).2.1 (over course).2.2 ∧ Honest (sysOf Agg.Ex.cfg sites) (over course).1 (over course).2.1.w (over course).2.2 ∧
    .dataPlane ['u'] ['c', '1'] 0 (true, 0, true) ∈ (over course).2.1.w.outbox ∧ (over course).2.1.w.sent.all (fun pc => (dget sites pc.handle).isSome) := by
  exact ⟨traced (by decide +kernel), honestB_sound (by decide +kernel), by decide +kernel, by decide +kernel⟩

end Ex
end OpenNSA.Joint
