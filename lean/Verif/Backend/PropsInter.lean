import Verif.Backend.ConcCal
import Verif.Backend.PropsConc
/-
The calendar in every interleaving: C21.
-/
namespace OpenNSA.Backend
open OpenNSA Py Prog

/-- `x` is the entry of both ends of a reservation requested in the schedule: the connection manager has one name for the two. -/
def BothEnds (cfg : Cfg) (s : List (Oracle × Choice)) (x : Resv) : Prop :=
  ∃ o h cid? src dst st en sl dl, (o, Choice.start h (.reserve cid? src dst st en)) ∈ s ∧
    x = ⟨cfg.mgr.getResource src.port sl, st, en⟩ ∧ x = ⟨cfg.mgr.getResource dst.port dl, st, en⟩

theorem calSys (cfg : Cfg) (ids : List Str) (clk : Time) (s : List (Oracle × Choice)) (hs : ∀ x ∈ s, x.2 ≠ .restart) :
    CalOk (BothEnds cfg s) (Conc.run cfg { w := World.init ids clk } s).w.clk (Conc.run cfg { w := World.init ids clk } s).w.cal := by
  refine (SafeSys.run (calRelies (BothEnds cfg s)) (cfg := cfg) s (c := { w := World.init ids clk }) ⟨⟨by simp [World.init], by simp [World.init], by simp [World.init]⟩, by simp⟩ ?_).1.1
  rintro ⟨o, ch⟩ hx
  cases ch with
  | start h q =>
    intro w hi
    refine safe_req h q ?_ hi
    rintro cid? src dst st en rfl sl dl he
    exact ⟨o, h, cid?, src, dst, st, en, sl, dl, hx, rfl, by rw [← he]⟩
  | fire cid => exact fun w due act ref hi _ _ => (neutral_actProg cfg act ref).safe hi fun _ _ _ => trivial
  | restart => exact absurd rfl (hs _ hx)
  | perform n => trivial
  | resume n => trivial
  | wait us => trivial

/-- C21, in every interleaving of requests, scheduled calls, database, device and parent operations, with whatever failures:
two entries of the calendar for the same resource have no common instant from now on, unless they are the two ends of one
reservation, which the connection manager gave the same name. No entry is there more than twice. Missing: restarts (the
calendar is then rebuilt from the stored connections, see C21_connections_fails); the time is before the year 9999. -/
theorem C21_interleaved_partial (cfg : Cfg) (ids : List Str) (clk : Time) (s : List (Oracle × Choice))
    (hs : ∀ x ∈ s, x.2 ≠ .restart) :
    let w := (Conc.run cfg { w := World.init ids clk } s).w
    (w.clk < forever → w.cal.Pairwise fun x y => x.resource = y.resource → ∀ t, x.OccupiesAt w.clk t → y.OccupiesAt w.clk t →
      x = y ∧ BothEnds cfg s x) ∧
    ∀ x, w.cal.count x ≤ 2 := by
  have h := calSys cfg ids clk s hs
  exact ⟨fun hc => (h.apart hc).imp fun k hr t h1 h2 => k ⟨hr, t, h1, h2⟩, h.twice⟩

/-- C21: so if the ports of each request have no resource in common, no two entries of the calendar ever do. -/
theorem C21_interleaved_ends_partial (cfg : Cfg) (ids : List Str) (clk : Time) (s : List (Oracle × Choice))
    (hs : ∀ x ∈ s, x.2 ≠ .restart)
    (hp : ∀ o h cid? src dst st en, (o, Choice.start h (.reserve cid? src dst st en)) ∈ s → ∀ sl dl,
      cfg.mgr.getResource src.port sl ≠ cfg.mgr.getResource dst.port dl) :
    let w := (Conc.run cfg { w := World.init ids clk } s).w
    w.clk < forever → w.cal.Pairwise fun x y => x.resource = y.resource → ∀ t, ¬ (x.OccupiesAt w.clk t ∧ y.OccupiesAt w.clk t) := by
  intro w hc
  refine ((C21_interleaved_partial cfg ids clk s hs).1 hc).imp ?_
  rintro x y k hr t ⟨h1, h2⟩
  obtain ⟨_, o, h, cid?, src, dst, st, en, sl, dl, hm, e1, e2⟩ := k hr t h1 h2
  exact hp o h cid? src dst st en hm sl dl (congrArg Resv.resource (e1.symm.trans e2))

namespace Ex

/-- Three reservations at the same time of vlans 12 to 13 between ports `a` and `b`: all three checked and added before any of
them is stored. -/
def racing : List (Oracle × Choice) :=
  let r : Choice := .start hdr (.reserve none (stp 'a' 12 13) (stp 'b' 12 13) (some (sec 2000)) (some (sec 3000)))
  [(ids 'x', r), (ids 'y', r), (ids 'z', r)] ++ go 0 ++ go 1

/-- Two of them are stored and being confirmed, the third was refused: vlans 12 and 13 are in the calendar on both ports. -/
example : (∀ x ∈ racing, x.2 ≠ .restart) ∧
    (Conc.run (cfg true) { w := w0 } racing).w.rows.length = 2 ∧
    (Conc.run (cfg true) { w := w0 } racing).w.cal.length = 4 ∧
    (2, Except.error Err.stpUnavailable) ∈ (Conc.run (cfg true) { w := w0 } racing).done ∧
    (Conc.run (cfg true) { w := w0 } racing).w.clk < forever := by
  refine ⟨?_, by decide +kernel, by decide +kernel, by decide +kernel, by decide +kernel⟩
  intro x hx
  simp [racing, go] at hx
  rcases hx with h | h | h | h | h | h | h <;> subst h <;> simp

/-- Its ports have no resource in common. -/
example : ∀ o h cid? src dst st en, (o, Choice.start h (.reserve cid? src dst st en)) ∈ racing → ∀ sl dl,
      (cfg true).mgr.getResource src.port sl ≠ (cfg true).mgr.getResource dst.port dl := by
  intro o h cid? src dst st en hm sl dl
  simp [racing, go] at hm
  have : src = stp 'a' 12 13 ∧ dst = stp 'b' 12 13 := by rcases hm with h | h | h <;> exact ⟨h.2.2.2.1, h.2.2.2.2.1⟩
  rw [this.1, this.2]
  cases sl <;> cases dl <;> simp [cfg, stp, getResource]

end Ex
end OpenNSA.Backend
