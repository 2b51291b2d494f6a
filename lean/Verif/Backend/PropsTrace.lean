import Verif.Backend.TraceInv
import Verif.Backend.Examples
/-
C84: what a backend tells its device in the course of its history.
-/
namespace OpenNSA.Backend
open OpenNSA Py Prog

/-- C84: throughout a history with failures of the device, in which no link is set up while another one is up and one of the two
connections is past its end, except for the connections with failures: the device is told sensible things only. No link of a connection
without failures is set up twice, or set up while one is up that shares a resource with it; no link at all is torn down that is not up. In
the end the links of the active connections are up, and no others, except for connections with failures. Missing: histories with links
that are set up late (see `C84_late_fails`), and what becomes of the links of connections with failures (see `C84_failed_fails`). -/
theorem C84_operations_partial {cfg : Cfg} {w : World} {tr : List DevOp} (h : Traced cfg w tr)
    (hp : PunctualBut (Reported w.outbox) w.rows [] tr) :
    SoundBut (Reported w.outbox) cfg w.rows [] tr ∧ (∀ c ∈ replay [] tr, ∃ r ∈ w.rows, r.cid = c) ∧
      ∀ r ∈ w.rows, (r.active = true → r.cid ∈ replay [] tr) ∧ (r.cid ∈ replay [] tr → r.active = true ∨ Reported w.outbox r.cid) := by
  refine ⟨h.sound (fun _ => id) hp, ?_, fun r hr => ?_⟩
  · rw [← h.links]; exact h.reach.inv.links
  · rw [← h.links]
    refine ⟨fun ha => of_decide_eq_true (h.reach.inv.up_of_active hr ha), fun hu => ?_⟩
    cases ha : r.active with
    | true => exact Or.inl rfl
    | false =>
      rcases h.reach.inv.down_of_idle (F := Reported w.outbox) (fun _ => id) hr ha with h1 | h1
      · exact Or.inr h1
      · exact absurd hu (of_decide_eq_false h1)

/-- C84: the same in a history without failures. -/
theorem C84_settled_partial {cfg : Cfg} {w : World} {tr : List DevOp} (h : Traced cfg w tr) (hs : Settled w)
    (hp : Punctual w.rows [] tr) :
    Sound cfg w.rows [] tr ∧ (∀ c ∈ replay [] tr, ∃ r ∈ w.rows, r.cid = c) ∧ ∀ r ∈ w.rows, r.cid ∈ replay [] tr ↔ r.active = true := by
  refine ⟨sound_iff.mpr (h.sound hs hp.but), ?_, fun r hr => ?_⟩
  · rw [← h.links]; exact h.reach.inv.links
  · have := h.reach.inv.up_eq (F := fun _ => False) hs hr id
    rw [← h.links, ← this, decide_eq_true_eq]

/-- Links are set up and torn down in turn, given whether the link is up at first. -/
def Alternates : Bool → List Bool → Prop
  | _, [] => True
  | up, b :: bs => b = !up ∧ Alternates b bs

theorem alternates_of_sound {cfg : Cfg} {rows : List Row} (c : Str) : ∀ {l : List Str} {ops : List DevOp}, SoundBut (· ≠ c) cfg rows l ops →
    Alternates (decide (c ∈ l)) ((ops.filter (·.cid = c)).map (·.up)) ∧
    ((ops.filter (·.cid = c)).map (·.up)).getLast?.getD (decide (c ∈ l)) = decide (c ∈ replay l ops)
  | l, [], _ => ⟨trivial, rfl⟩
  | l, o :: ops, h => by
    obtain ⟨ih1, ih2⟩ := alternates_of_sound c h.2
    have hr : replay l (o :: ops) = replay (replay1 l o) ops := rfl
    rw [hr]
    by_cases hc : o.cid = c
    · have hl : decide (c ∈ replay1 l o) = o.up := by
        unfold replay1
        cases ho : o.up with
        | true => simp [hc]
        | false => simp [hc]
      have hn : o.up = !decide (c ∈ l) := by
        have h1 := h.1
        cases ho : o.up with
        | true =>
          rw [if_pos ho] at h1
          have h2 := (h1 (by simp [hc])).1
          rw [hc] at h2
          simp [h2]
        | false =>
          rw [if_neg (by simp [ho]), hc] at h1
          simp [h1]
      rw [hl] at ih1 ih2
      rw [List.filter_cons_of_pos (by simp [hc]), List.map_cons]
      refine ⟨⟨hn, ih1⟩, ?_⟩
      rw [← ih2, List.getLast?_cons]
      rfl
    · have hl : decide (c ∈ replay1 l o) = decide (c ∈ l) := by
        unfold replay1
        cases ho : o.up with
        | true => simp [Ne.symm hc]
        | false => simp [Ne.symm hc]
      rw [hl] at ih1 ih2
      rw [List.filter_cons_of_neg (by simp [hc])]
      exact ⟨ih1, ih2⟩

/-- C84: whatever happens to other connections, and whenever links are set up: the link of a connection for which no device operation
failed is set up and torn down in turn, and was set up last if and only if the connection is active. -/
theorem C84_in_turn {cfg : Cfg} {w : World} {tr : List DevOp} (h : Traced cfg w tr) (r : Row) (hr : r ∈ w.rows)
    (hs : ¬ Reported w.outbox r.cid) :
    Alternates false ((tr.filter (·.cid = r.cid)).map (·.up)) ∧ ((tr.filter (·.cid = r.cid)).map (·.up)).getLast?.getD false = r.active := by
  have hF : SettledBut (· ≠ r.cid) w := fun c hc he => hs (he ▸ hc)
  have h1 := alternates_of_sound r.cid (h.sound hF (punctual_single r.cid))
  rw [← h.links, h.reach.inv.up_eq hF hr (fun hx => hx rfl)] at h1
  exact h1

/-- C84: an event other than a restart makes at most one operation on the device: a link is set up, at the start time of its connection or
later, and was not up unless an operation for it failed; or one that is up is torn down. -/
theorem C84_one {cfg : Cfg} {w : World} {tr : List DevOp} (h : Traced cfg w tr) (o : Oracle) (e : Ev)
    (he : e ≠ .restart) : stepDevs cfg w o e = [] ∨ ∃ r ∈ w.rows, ∃ t, w.clk ≤ t ∧
      ((stepDevs cfg w o e = [⟨true, r.cid, t⟩] ∧ (Reported w.outbox r.cid ∨ r.cid ∉ w.links) ∧ ∀ s, r.start = some s → s ≤ t) ∨
        (stepDevs cfg w o e = [⟨false, r.cid, t⟩] ∧ r.cid ∈ w.links)) := by
  rcases event_ops h.reach.inv (F := Reported w.outbox) (fun _ => id) o e he with h1 | ⟨r, hr, h1 | ⟨t, ht, ⟨h1, h2, h3⟩ | ⟨h1, h2⟩⟩⟩
  · exact Or.inl h1
  · exact Or.inl h1
  · exact Or.inr ⟨r, hr, t, ht, Or.inl ⟨h1, h2, h3⟩⟩
  · exact Or.inr ⟨r, hr, t, ht, Or.inr ⟨h1, h2⟩⟩

namespace Ex

/-- The device operations of a history. -/
def traceAll (cfg : Cfg) (w : World) : List (Oracle × Ev) → List DevOp
  | [] => []
  | (o, e) :: es => stepDevs cfg w o e ++ traceAll cfg (step cfg w o e).1 es

theorem traced_runAll {cfg : Cfg} : ∀ (es : List (Oracle × Ev)) {w : World} {tr : List DevOp}, Traced cfg w tr → cleanAll cfg w es = true →
    Traced cfg (runAll cfg w es) (tr ++ traceAll cfg w es)
  | [], _, _, h, _ => by simpa [runAll, traceAll] using h
  | (o, e) :: es, w, tr, h, hc => by
    simp only [cleanAll, Bool.and_eq_true] at hc
    have := traced_runAll es (.step o e h (cleanB_sound hc.1)) hc.2
    simpa [runAll, traceAll, List.append_assoc] using this

theorem traced {cfg : Cfg} {es : List (Oracle × Ev)} (hc : cleanAll cfg w0 es = true) : Traced cfg (runAll cfg w0 es) (traceAll cfg w0 es) := by
  exact traced_runAll es (Traced.init [] _) hc

/-- No failures, decided. -/
def settledB (w : World) : Bool := w.outbox.all fun m => match m with
  | .activateFailed _ _ => false
  | .deactivateFailed _ _ => false
  | _ => true

theorem settled {w : World} (h : settledB w = true) : Settled w := by
  rintro c ⟨n, hm | hm⟩
  · exact absurd (List.all_eq_true.1 h _ hm) (by simp)
  · exact absurd (List.all_eq_true.1 h _ hm) (by simp)

/-- A request for `a` to `b`, vlan 12, at the times given in seconds. -/
def rsvAt (s e : Int) : Ev := .req hdr (.reserve none (stp 'a' 12 12) (stp 'b' 12 12) (some (sec s)) (some (sec e)))

/-- Two connections one after the other on the same ports and vlan: `x` from 2000 s to 3000 s and `y` from 3001 s to 4000 s, both
provisioned; `x` is activated and ended, then `y` is activated. -/
def hTurns : List (Oracle × Ev) :=
  [(ids 'x', rsvAt 2000 3000), (ids 'y', rsvAt 3001 4000), (o0, req (.commit ['x'])), (o0, req (.commit ['y'])),
   (o0, req (.provision ['x'])), (o0, req (.provision ['y'])), (o0, .wait 1100000000), (o0, .fire ['x']), (o0, .wait 900000000),
   (o0, .fire ['x']), (o0, .wait 200000000), (o0, .fire ['y'])]

/-- The same with `y` reserved first, and a restart of the backend, which was down from 2500 s to 3500 s. -/
def hLate : List (Oracle × Ev) :=
  [(ids 'y', rsvAt 3001 4000), (ids 'x', rsvAt 2000 3000), (o0, req (.commit ['x'])), (o0, req (.commit ['y'])),
   (o0, req (.provision ['x'])), (o0, req (.provision ['y'])), (o0, .wait 1100000000), (o0, .fire ['x']), (o0, .wait 1400000000),
   (o0, .restart)]

/-- Decides `Punctual`. -/
def punctualB (rows : List Row) : List Str → List DevOp → Bool
  | _, [] => true
  | l, o :: ops =>
    (!o.up || (o.cid :: l).all fun x => rows.all fun a => a.cid ≠ x || match a.end_ with
      | none => true
      | some e => decide (o.at_ ≤ e)) && punctualB rows (replay1 l o) ops

theorem punctual {rows : List Row} : ∀ {l : List Str} {ops : List DevOp}, punctualB rows l ops = true → Punctual rows l ops
  | _, [], _ => trivial
  | l, o :: ops, h => by
    simp only [punctualB, Bool.and_eq_true] at h
    refine ⟨?_, punctual h.2⟩
    intro hu x hx a ha hax e he
    have h1 := h.1
    rw [hu] at h1
    simp only [Bool.not_true, Bool.false_or] at h1
    have h2 := List.all_eq_true.1 (List.all_eq_true.1 h1 x hx) a ha
    rw [he] at h2
    simpa [hax] using h2

/-- Hypotheses of `C84_settled_partial` hold for two connections on the same ports and vlan, one after the other. -/
example : Traced (cfg false) (runAll (cfg false) w0 hTurns) (traceAll (cfg false) w0 hTurns) ∧ Settled (runAll (cfg false) w0 hTurns) ∧
    Punctual (runAll (cfg false) w0 hTurns).rows [] (traceAll (cfg false) w0 hTurns) ∧
    traceAll (cfg false) w0 hTurns = [⟨true, ['x'], sec 2100⟩, ⟨false, ['x'], sec 3000⟩, ⟨true, ['y'], sec 3200⟩] :=
  ⟨traced (by decide +kernel), settled (by decide +kernel), punctual (by decide +kernel), by decide +kernel⟩

/-- `x` from 2000 s to 3000 s is active, and terminated at 2100 s, but the device fails; `y` on the same ports and vlan is reserved from
2200 s, and activated. -/
def hFailed : List (Oracle × Ev) :=
  [(ids 'x', rsvAt 2000 3000), (o0, req (.commit ['x'])), (o0, req (.provision ['x'])), (o0, .wait 1100000000), (o0, .fire ['x']),
   ({ devs := [.failed false] }, req (.terminate ['x'])), (ids 'y', rsvAt 2200 3000), (o0, req (.commit ['y'])), (o0, req (.provision ['y'])),
   (o0, .wait 200000000), (o0, .fire ['y'])]

theorem hFailed_trace : traceAll (cfg false) w0 hFailed = [⟨true, ['x'], sec 2100⟩, ⟨true, ['y'], sec 2300⟩] := by decide +kernel

theorem hFailed_reported : Reported (runAll (cfg false) w0 hFailed).outbox ['x'] := ⟨1, Or.inr (by decide +kernel)⟩

theorem hFailed_unreported : ¬ Reported (runAll (cfg false) w0 hFailed).outbox ['y'] := by
  rintro ⟨n, hn⟩
  have h : ((runAll (cfg false) w0 hFailed).outbox.all fun m => match m with
    | .activateFailed c _ => c ≠ ['y']
    | .deactivateFailed c _ => c ≠ ['y']
    | _ => true) = true := by decide +kernel
  rcases hn with hn | hn
  · exact absurd (List.all_eq_true.1 h _ hn) (by simp)
  · exact absurd (List.all_eq_true.1 h _ hn) (by simp)

/-- Hypotheses of `C84_operations_partial`, `C84_in_turn` and `C84_one` hold for a history with a failure. -/
example : Traced (cfg false) (runAll (cfg false) w0 hFailed) (traceAll (cfg false) w0 hFailed) ∧
    PunctualBut (Reported (runAll (cfg false) w0 hFailed).outbox) (runAll (cfg false) w0 hFailed).rows [] (traceAll (cfg false) w0 hFailed) ∧
    ¬ Reported (runAll (cfg false) w0 hFailed).outbox ['y'] ∧ ((runAll (cfg false) w0 hFailed).rows.map fun r => (r.cid, r.active)) =
      [(['x'], false), (['y'], true)] := by
  refine ⟨traced (by decide +kernel), ?_, hFailed_unreported, by decide +kernel⟩
  rw [hFailed_trace]
  refine ⟨fun _ _ x hx => absurd hx (by simp), fun _ _ x hx _ hn => ?_, trivial⟩
  have : x = ['x'] := by simpa [replay1] using hx
  exact absurd (this ▸ hFailed_reported) hn

end Ex

open Ex in
/-- C84 is violated when the device fails to tear down a link: the connection is recorded as inactive (genericbackend.py:713), its resources
are freed (lines 758-761), and the link, which is still up, is never torn down again. Another connection can then get the same ports and
labels at the same time, and its link is set up as well. The failure is reported. -/
theorem C84_failed_fails : ∃ (cfg : Cfg) (w : World) (tr : List DevOp) (x y : Row), Traced cfg w tr ∧ w.rows = [x, y] ∧ x.cid ≠ y.cid ∧
    x.resources cfg = y.resources cfg ∧ x.active = false ∧ x.st.l = .terminated ∧ y.active = true ∧ Reported w.outbox x.cid ∧
    ¬ Reported w.outbox y.cid ∧ replay [] tr = [y.cid, x.cid] := by
  refine ⟨cfg false, runAll (cfg false) w0 hFailed, traceAll (cfg false) w0 hFailed, (runAll (cfg false) w0 hFailed).rows[0]'(by decide +kernel),
    (runAll (cfg false) w0 hFailed).rows[1]'(by decide +kernel), traced (by decide +kernel), by decide +kernel, by decide +kernel, by decide +kernel,
    by decide +kernel, by decide +kernel, by decide +kernel, ?_, ?_, by decide +kernel⟩
  · rw [show ((runAll (cfg false) w0 hFailed).rows[0]'(by decide +kernel)).cid = ['x'] by decide +kernel]; exact hFailed_reported
  · rw [show ((runAll (cfg false) w0 hFailed).rows[1]'(by decide +kernel)).cid = ['y'] by decide +kernel]; exact hFailed_unreported

open Ex in
/-- C84 is violated by a backend that was down when a connection ended and another began: on restart the connections are loaded in the order
in which the database gives them (genericbackend.py:89), and the link of the second is set up (line 140) before that of the first is
torn down (line 113), although they have the same ports and labels; no call to the device fails. -/
theorem C84_late_fails : ∃ (cfg : Cfg) (w : World) (tr : List DevOp) (x y : Str) (s t : Time) (a b : Row), Traced cfg w tr ∧ Settled w ∧
    tr = [⟨true, x, s⟩, ⟨true, y, t⟩, ⟨false, x, t⟩] ∧ w.rows = [b, a] ∧ a.cid = x ∧ b.cid = y ∧ x ≠ y ∧
    a.resources cfg = b.resources cfg ∧ b.active = true ∧ ¬ Sound cfg w.rows [] tr := by
  refine ⟨cfg false, runAll (cfg false) w0 hLate, traceAll (cfg false) w0 hLate, ['x'], ['y'], sec 2100, sec 3500,
    (runAll (cfg false) w0 hLate).rows[1]'(by decide +kernel), (runAll (cfg false) w0 hLate).rows[0]'(by decide +kernel), traced (by decide +kernel), settled (by decide +kernel),
    by decide +kernel, by decide +kernel, by decide +kernel, by decide +kernel, by decide, by decide +kernel, by decide +kernel, ?_⟩
  have e : traceAll (cfg false) w0 hLate = [⟨true, ['x'], sec 2100⟩, ⟨true, ['y'], sec 3500⟩, ⟨false, ['x'], sec 3500⟩] := by decide +kernel
  have r : (runAll (cfg false) w0 hLate).rows.all (fun r => r.resources (cfg false) = ["a:12".toList, "b:12".toList]) = true := by decide +kernel
  rw [e]
  rintro ⟨_, ⟨⟨_, a, ha, _, h⟩, _⟩⟩
  obtain ⟨b, hb, _, hs⟩ := h ['x'] (by simp [replay1])
  have h1 := of_decide_eq_true (List.all_eq_true.1 r a ha)
  have h2 := of_decide_eq_true (List.all_eq_true.1 r b hb)
  refine hs "a:12".toList ?_ ?_
  · rw [h1]; exact List.mem_cons_self
  · rw [h2]; exact List.mem_cons_self

end OpenNSA.Backend
