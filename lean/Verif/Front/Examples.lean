import Verif.Front.Props
import Verif.Joint.ExamplesWhole
/- Executions for C91. -/
namespace OpenNSA.Front
open Py Provider

/-- The execution after a list of events; a step that starts a request is a request of the requester it names, with a reply address. -/
structure Run where
  d : Desk := {}
  T : List (Agg.Msg × Agg.World) := []
  s : Agg.Sys := { w := .init }
  f : Joint.Scheds := fun _ => []

inductive Ev3
  | ask (o : Agg.Oracle) (hdr : Hdr) (m : Agg.Msg)
  | agg (o : Agg.Oracle) (ch : Conc.Choice Agg.Msg)
  | act (b : Nat) (x : Backend.Oracle × Backend.Choice)
  | restart

def Run.next (cfg : Agg.Cfg) (r : Run) : Ev3 → Run
  | .ask o hdr m => ⟨(r.d.receive r.s.next hdr m).follow r.s (Agg.sysStep cfg r.s o (.start m)), r.T ++ [(m, { r.s.w with orc := o })], Agg.sysStep cfg r.s o (.start m), r.f⟩
  | .agg o ch => ⟨r.d.follow r.s (Agg.sysStep cfg r.s o ch), r.T ++ Agg.Conc.Choice.events { r.s.w with orc := o } ch, Agg.sysStep cfg r.s o ch, r.f⟩
  | .act b x => { r with f := r.f.add b x }
  | .restart => { r with d := r.d.restart, s := { w := r.s.w.restart } }

/-- The event can happen. -/
def Run.can (cfg : Agg.Cfg) (r : Run) : Ev3 → Bool
  | .ask _ hdr m => match hdrOf m with
    | some h => h.requester = hdr.requester
    | none => false
  | .agg _ (.start m) => (hdrOf m).isNone
  | .agg _ _ => true
  | .act b x => Joint.calledB cfg.urn r.s.w b x.2
  | .restart => true

def Run.go (cfg : Agg.Cfg) : Run → List Ev3 → Run
  | r, [] => r
  | r, e :: es => (r.next cfg e).go cfg es

def Run.valid (cfg : Agg.Cfg) : Run → List Ev3 → Bool
  | _, [] => true
  | r, e :: es => r.can cfg e && (r.next cfg e).valid cfg es

theorem Run.traced {cfg : Agg.Cfg} {sites : List (Nat × Joint.Site)} : ∀ (es : List Ev3) {r : Run},
    Trace (Joint.sysOf cfg sites) r.d r.T r.s r.f → r.valid cfg es = true →
    Trace (Joint.sysOf cfg sites) (r.go cfg es).d (r.go cfg es).T (r.go cfg es).s (r.go cfg es).f
  | [], _, h, _ => h
  | e :: es, r, h, hv => by
    simp only [Run.valid, Bool.and_eq_true] at hv
    refine Run.traced es (r := r.next cfg e) ?_ hv.2
    cases e with
    | ask o hdr m =>
      have hc := hv.1
      simp only [Run.can] at hc
      cases hm : hdrOf m with
      | none => simp [hm] at hc
      | some hd =>
        rw [hm] at hc
        exact h.ask o hdr m hd hm (by simpa using hc)
    | agg o ch =>
      refine h.step o ch fun m hm => ?_
      subst hm
      have hc := hv.1
      simpa [Run.can] using hc
    | act b x => exact h.act b x (Joint.calledB_sound hv.1)
    | restart => exact h.restart

namespace Ex
/-- A header with a reply address. -/
def reply (h : Agg.Hdr) : Hdr := ⟨some ['h', 't', 't', 'p'], h.requester, ['m'], some h.corr⟩

def lift (e : Joint.Ev2) : Ev3 :=
  match e with
  | .agg o (.start m) => match hdrOf m with
    | some h => .ask o (reply h) m
    | none => .agg o (.start m)
  | .agg o ch => .agg o ch
  | .act b x => .act b x

/-- The connection of Joint/ExamplesWhole.lean, from the reservation to the termination. -/
def course : List Ev3 := Joint.Ex.course.map lift

def done (es : List Ev3) : Run := Run.go Agg.Ex.cfg {} es

theorem traced {sites : List (Nat × Joint.Site)} (es : List Ev3) (h : Run.valid Agg.Ex.cfg {} es = true) :
    Trace (Joint.sysOf Agg.Ex.cfg sites) (done es).d (done es).T (done es).s (done es).f := Run.traced es (r := {}) .init h

theorem course_traced : Trace (Joint.sysOf Agg.Ex.cfg Joint.Ex.sites) (done course).d (done course).T (done course).s (done course).f :=
  traced course (by decide +kernel)

theorem go_lift : ∀ (es : List Joint.Ev2) (r : Run), ((r.go Agg.Ex.cfg (es.map lift)).T, (r.go Agg.Ex.cfg (es.map lift)).s, (r.go Agg.Ex.cfg (es.map lift)).f) =
    Joint.after2 Agg.Ex.cfg r.T r.s r.f es
  | [], _ => rfl
  | e :: es, r => by
    rw [List.map_cons, Run.go, go_lift es]
    cases e with
    | act b x => rfl
    | agg o ch =>
      cases ch with
      | start m =>
        simp only [lift]
        cases hdrOf m <;> rfl
      | _ => rfl

theorem course_same : ((done course).T, (done course).s, (done course).f) = Joint.Ex.over Joint.Ex.course := go_lift Joint.Ex.course {}

/-- The hypotheses of C91 are met, and there is something of each kind to confirm. -/
example : Trace (Joint.sysOf Agg.Ex.cfg Joint.Ex.sites) (done course).d (done course).T (done course).s (done course).f ∧
    Joint.Honest (Joint.sysOf Agg.Ex.cfg Joint.Ex.sites) (done course).T (done course).s.w (done course).f ∧ (done course).s.w.freshIds ∧
    Joint.Texts (Joint.sysOf Agg.Ex.cfg Joint.Ex.sites) (done course).f ∧
    (done course).d.prov.out = [.conf 0 .reserveConfirmed (reply Agg.Ex.hdr) ['c', '1'], .conf 1 .commitConfirmed (reply Agg.Ex.hdr) ['c', '1'],
      .conf 2 .provisionConfirmed (reply Agg.Ex.hdr) ['c', '1'], .conf 3 .terminateConfirmed (reply Agg.Ex.hdr) ['c', '1']] := by
  refine ⟨course_traced, ?_, ?_, ?_, by decide +kernel⟩
  · rw [show (done course).T = (Joint.Ex.over Joint.Ex.course).1 by rw [← course_same], show (done course).s = (Joint.Ex.over Joint.Ex.course).2.1 by rw [← course_same],
      show (done course).f = (Joint.Ex.over Joint.Ex.course).2.2 by rw [← course_same]]
    exact Joint.honestB_sound (by decide +kernel)
  · unfold Agg.World.freshIds
    decide +kernel
  · rw [show (done course).f = (Joint.Ex.over Joint.Ex.course).2.2 by rw [← course_same]]
    exact Joint.Ex.texts2 (cands := ["1-9".toList, "10-19".toList, "20-29".toList]) (by decide +kernel)

def steps (l : List (Agg.Oracle × Conc.Choice Agg.Msg)) : List Ev3 := l.map fun x => lift (.agg x.1 x.2)

/-- Reserved, committed, released and aborted connections, and a reservation that fails. -/
def others : List Ev3 := steps (Agg.Ex.oneByOne (Agg.Ex.life.take 13))
def aborted : List Ev3 := steps Agg.Ex.aborts
def failed : List Ev3 := steps Agg.Ex.fails

example : (done others).d.prov.out.drop 3 = [.conf 3 .releaseConfirmed (reply Agg.Ex.hdr) ['c', '1']] ∧ Run.valid Agg.Ex.cfg {} others = true ∧
    (done aborted).d.prov.out.drop 1 = [.conf 1 .abortConfirmed (reply Agg.Ex.hdr) ['c', '1']] ∧ Run.valid Agg.Ex.cfg {} aborted = true ∧
    (done failed).d.prov.out = [.conf 0 .reserveFailed (reply Agg.Ex.hdr) ['c', '1']] ∧ Run.valid Agg.Ex.cfg {} failed = true := by decide +kernel

end Ex

end OpenNSA.Front
