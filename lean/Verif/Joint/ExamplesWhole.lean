import Verif.Joint.PropsWhole
import Verif.Joint.Examples
/- The execution of Examples.lean with the handlers of the aggregator interleaved. -/
namespace OpenNSA.Joint
open Py

/-- A step of the aggregator, or something happens at a backend. -/
inductive Ev2
  | agg (o : Agg.Oracle) (ch : Conc.Choice Agg.Msg)
  | act (b : Nat) (x : Backend.Oracle × Backend.Choice)

/-- The execution after a list of events. -/
def after2 (cfg : Agg.Cfg) : List (Agg.Msg × Agg.World) → Agg.Sys → Scheds → List Ev2 → List (Agg.Msg × Agg.World) × Agg.Sys × Scheds
  | T, s, f, [] => (T, s, f)
  | T, s, f, .agg o ch :: es => after2 cfg (T ++ Agg.Conc.Choice.events { s.w with orc := o } ch) (Agg.sysStep cfg s o ch) f es
  | T, s, f, .act b x :: es => after2 cfg T s (f.add b x) es

/-- The list is an execution. -/
def valid2 (cfg : Agg.Cfg) : Agg.Sys → Scheds → List Ev2 → Bool
  | _, _, [] => true
  | s, f, .agg o ch :: es => valid2 cfg (Agg.sysStep cfg s o ch) f es
  | s, f, .act b x :: es => calledB cfg.urn s.w b x.2 && valid2 cfg s (f.add b x) es

theorem calledB_sound {cfg : Agg.Cfg} {sites : List (Nat × Site)} {w : Agg.World} {b : Nat} {c : Backend.Choice} (h : calledB cfg.urn w b c = true) :
    Called (sysOf cfg sites) w b c := by
  cases c with
  | start hd q =>
    simp only [calledB, List.any_eq_true, Bool.and_eq_true, decide_eq_true_eq] at h
    obtain ⟨c, hc, h2⟩ := h
    exact ⟨c, hc, h2.1.1.1, h2.1.1.2, h2.1.2, h2.2⟩
  | _ => trivial

theorem trace_after {cfg : Agg.Cfg} {sites : List (Nat × Site)} : ∀ (es : List Ev2) {T : List (Agg.Msg × Agg.World)} {s : Agg.Sys} {f : Scheds},
    Trace (sysOf cfg sites) T s f → valid2 cfg s f es = true →
    Trace (sysOf cfg sites) (after2 cfg T s f es).1 (after2 cfg T s f es).2.1 (after2 cfg T s f es).2.2
  | [], _, _, _, h, _ => h
  | .agg o ch :: es, _, _, _, h, hv => trace_after es (h.step o ch) hv
  | .act b x :: es, _, _, _, h, hv => by
    simp only [valid2, Bool.and_eq_true] at hv
    exact trace_after es (h.act b x (calledB_sound hv.1)) hv.2

theorem mem_after2 {cfg : Agg.Cfg} {b : Nat} {x : Backend.Oracle × Backend.Choice} : ∀ (es : List Ev2) {T : List (Agg.Msg × Agg.World)} {s : Agg.Sys} {f : Scheds},
    x ∈ (after2 cfg T s f es).2.2 b → x ∈ f b ∨ ∃ b', Ev2.act b' x ∈ es
  | [], _, _, _, h => Or.inl h
  | .agg o m :: es, _, _, _, h => (mem_after2 es h).imp _root_.id fun ⟨b', h⟩ => ⟨b', List.mem_cons_of_mem _ h⟩
  | .act b' y :: es, _, _, f, h => by
    rcases mem_after2 es h with h | ⟨b', h⟩
    · unfold Scheds.add at h
      split at h
      · rcases List.mem_append.1 h with h | h
        · exact Or.inl h
        · rw [List.mem_singleton.1 h]; exact Or.inr ⟨b', List.mem_cons_self⟩
      · exact Or.inl h
    · exact Or.inr ⟨b', List.mem_cons_of_mem _ h⟩

/-- Decides `Texts`. -/
def textsB2 (cands : List Str) (sites : List (Nat × Site)) (es : List Ev2) : Bool :=
  (sites.all fun s => s.2.cfg.ports.all fun p => textB cands p.2.label) && es.all fun e => match e with
    | .act _ (_, .start _ (.reserve _ s d _ _)) => textB cands s.label && textB cands d.label
    | _ => true

theorem texts_after2 {cfg : Agg.Cfg} {sites : List (Nat × Site)} {cands : List Str} {es : List Ev2} {s : Agg.Sys} (h : textsB2 cands sites es = true) :
    Texts (sysOf cfg sites) (after2 cfg [] s (fun _ => []) es).2.2 := by
  simp only [textsB2, Bool.and_eq_true, List.all_eq_true] at h
  intro b site hs o hd cid? s d st en hm
  rcases mem_after2 es hm with h1 | ⟨b', h1⟩
  · simp at h1
  · have h2 := h.2 _ h1
    simp only [Bool.and_eq_true] at h2
    refine ⟨fun l hl => textB_sound (hl ▸ h2.1), fun l hl => textB_sound (hl ▸ h2.2), fun n p l hp hl => textB_sound (cands := cands) (hl ▸ ?_)⟩
    exact h.1 _ (dget_some_mem hs) _ (dget_some_mem hp)

theorem honestB_sound {cfg : Agg.Cfg} {sites : List (Nat × Site)} {T : List (Agg.Msg × Agg.World)} {w : Agg.World} {f : Scheds}
    (h : (T.map (·.1)).all (genuineB sites w f) = true) : Honest (sysOf cfg sites) T w f := by
  rintro m ⟨w0, hm⟩
  exact genuineB_sound (List.all_eq_true.1 h m (List.mem_map.2 ⟨_, hm, rfl⟩))

namespace Ex

/-- The same with the steps of the handlers; another handler, that of a query, is under way all the time. -/
def spread : List Ev → Nat → List Ev2
  | [], _ => []
  | .msg o m :: es, n => ((Agg.Ex.startAll (o, m) n 14).map fun x => .agg x.1 x.2) ++ spread es (n + 1)
  | .act b x :: es, n => .act b x :: spread es n

/-- From the reservation to the active data plane; then a termination, with the handlers of both confirmations under way at the same time. -/
def course : List Ev2 :=
  .agg {} (.start (.querySummary Agg.Ex.hdr [] [])) ::
  spread (activating ++ [.msg {} (.dataPlane ⟨['m'], ['8']⟩ ['s', '2'] true 0 true)] ++ asking 'a' 'b' 7 (.terminate Agg.Ex.hdr ['c', '1']) .terminate ++ ends 0 7 ++ ends 1 7) 1 ++
  [.agg {} (.start (.terminateConfirmed ⟨['m'], ['8']⟩ ['s', '1'])), .agg {} (.start (.terminateConfirmed ⟨['m'], ['8']⟩ ['s', '2']))] ++
  (List.replicate 12 [.agg {} (.perform 13), .agg {} (.perform 14), .agg {} (.resume 14), .agg {} (.resume 13)]).flatten

/-- The messages, the aggregator and the backends in the end. -/
def over (es : List Ev2) : List (Agg.Msg × Agg.World) × Agg.Sys × Scheds := after2 Agg.Ex.cfg [] { w := .init } (fun _ => []) es

theorem traced {es : List Ev2} (h : valid2 Agg.Ex.cfg { w := .init } (fun _ => []) es = true) :
    Trace (sysOf Agg.Ex.cfg sites) (over es).1 (over es).2.1 (over es).2.2 := trace_after es .init h

theorem texts2 {es : List Ev2} {cands : List Str} (h : textsB2 cands sites es = true) : Texts (sysOf Agg.Ex.cfg sites) (over es).2.2 := texts_after2 h

example : Trace (sysOf Agg.Ex.cfg sites) (over course).1 (over course).2.1 (over course).2.2 ∧ Honest (sysOf Agg.Ex.cfg sites) (over course).1 (over course).2.1.w (over course).2.2 ∧
    (over course).2.1.w.freshIds ∧ Texts (sysOf Agg.Ex.cfg sites) (over course).2.2 ∧
    (over course).2.1.w.outbox = [.reserveConfirmed ['u'] ['c', '1'] ⟨['A'], ['x'], Agg.Ex.vlan 1 1⟩ ⟨['B'], ['b', 'c'], Agg.Ex.vlan 20 20⟩ (some 100) (some 200) 50,
      .reserveCommitConfirmed ['u'] ['c', '1'], .provisionConfirmed ['u'] ['c', '1'], .dataPlane ['u'] ['c', '1'] 0 (false, 0, false),
      .dataPlane ['u'] ['c', '1'] 0 (true, 0, true), .terminateConfirmed ['u'] ['c', '1']] ∧
    (over course).2.1.w.subs.map (·.cid) = [['s', '1'], ['s', '2']] ∧ (over course).2.1.tasks.map (·.1) = [0] := by
  refine ⟨traced (by decide +kernel), honestB_sound (by decide +kernel), ?_,
    texts2 (cands := ["1-9".toList, "10-19".toList, "20-29".toList]) (by decide +kernel), by decide +kernel, by decide +kernel, by decide +kernel⟩
  unfold Agg.World.freshIds
  decide +kernel

end Ex
end OpenNSA.Joint
