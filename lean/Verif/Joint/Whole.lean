import Verif.Joint.Props
import Verif.Agg.PropsCauses
/-
An agent with local backends, everything interleaved: the handlers of the aggregator (/repo/opennsa/aggregator.py, model in Agg), the operations
of the backends (/repo/opennsa/backends/common/genericbackend.py, model in Backend), restarts of either.
-/
namespace OpenNSA.Joint
open Py

/-- The executions: the messages the aggregator has received, each with the state in which it was received, the aggregator with the handlers that are
under way, and what happened at the backends. -/
inductive Trace (sys : Sys) : List (Agg.Msg × Agg.World) → Agg.Sys → Scheds → Prop
  | init : Trace sys [] { w := .init } fun _ => []
  | step {T s f} (h : Trace sys T s f) (o : Agg.Oracle) (ch : Conc.Choice Agg.Msg) :
      Trace sys (T ++ Agg.Conc.Choice.events { s.w with orc := o } ch) (Agg.sysStep sys.agg s o ch) f
  | restart {T s f} (h : Trace sys T s f) : Trace sys T { w := s.w.restart } f
  | act {T s f} (h : Trace sys T s f) (b : Nat) (x : Backend.Oracle × Backend.Choice) (hc : Called sys s.w b x.2) : Trace sys T s (f.add b x)

/-- Nobody but a backend has spoken for it: a message received so far that is an answer to a reservation asked of the backend, or is about a connection
that it has stored, has been sent by the backend. -/
def Honest (sys : Sys) (T : List (Agg.Msg × Agg.World)) (w : Agg.World) (f : Scheds) : Prop := ∀ m, Agg.Heard T m → Genuine sys w f m

variable {sys : Sys} {T : List (Agg.Msg × Agg.World)} {s : Agg.Sys} {f : Scheds}

theorem Trace.agg (h : Trace sys T s f) : Agg.Trace sys.agg true T s := by
  induction h with
  | init => exact .init
  | step _ o ch ih => exact ih.step o ch
  | restart _ ih => exact ih.restart rfl
  | act _ _ _ _ ih => exact ih

/-- A step of the aggregator forgets nothing that is stored, and no call. -/
theorem step_keeps {cfg : Agg.Cfg} {s : Agg.Sys} (h : Agg.Reach cfg s) (o : Agg.Oracle) (ch : Conc.Choice Agg.Msg) :
    Agg.Keep2 s.w (Agg.sysStep cfg s o ch).w :=
  (Agg.SafeSys.step Agg.Keep2.refl (fun _ _ _ => Agg.Keep2.trans) Agg.Ids.orc (fun w _ => ⟨.frame rfl rfl rfl rfl, Agg.Grow.refl w⟩)
    Agg.Spec.safe2 h.keepSys o ch).2

/-- What is stored stays. -/
structure Lasting (w w' : Agg.World) : Prop where
  sent : w.sent <+: w'.sent
  conns : ∀ r ∈ w.conns, ∃ r' ∈ w'.conns, r'.key = r.key ∧ r'.cid = r.cid
  subs : ∀ x ∈ w.subs, ∃ y ∈ w'.subs, y.skey = x.skey ∧ y.cid = x.cid ∧ y.prov = x.prov

theorem Lasting.rfl' {w w' : Agg.World} (h1 : w'.sent = w.sent) (h2 : w'.conns = w.conns) (h3 : w'.subs = w.subs) : Lasting w w' :=
  ⟨by rw [h1]; exact List.prefix_refl _, fun r h => ⟨r, by rw [h2]; exact h, rfl, rfl⟩, fun x h => ⟨x, by rw [h3]; exact h, rfl, rfl, rfl⟩⟩

theorem Lasting.trans {a b c : Agg.World} (h : Lasting a b) (h' : Lasting b c) : Lasting a c := by
  refine ⟨h.sent.trans h'.sent, fun r hr => ?_, fun x hx => ?_⟩
  · obtain ⟨r1, h1, h2, h3⟩ := h.conns r hr
    obtain ⟨r2, h4, h5, h6⟩ := h'.conns r1 h1
    exact ⟨r2, h4, h5.trans h2, h6.trans h3⟩
  · obtain ⟨r1, h1, h2, h3, h7⟩ := h.subs x hx
    obtain ⟨r2, h4, h5, h6, h8⟩ := h'.subs r1 h1
    exact ⟨r2, h4, h5.trans h2, h6.trans h3, h8.trans h7⟩

theorem Lasting.of {w w' : Agg.World} (h : Agg.Keep2 w w') : Lasting w w' := by
  refine ⟨h.2.1, fun r hr => ?_, fun x hx => ?_⟩
  · obtain ⟨r', h1, h2⟩ := h.1.conns r hr
    simp only [Agg.CRow.id, Prod.mk.injEq] at h2
    exact ⟨r', h1, h2.1, h2.2.1⟩
  · obtain ⟨y, h1, h2⟩ := List.mem_map.1 (h.1.spre.subset (List.mem_map_of_mem (f := Agg.SRow.id) hx))
    simp only [Agg.SRow.id, Prod.mk.injEq] at h2
    exact ⟨y, h1, h2.2.1, h2.2.2.1, h2.2.2.2.1⟩

theorem Trace.lasting (h : Trace sys T s f) : ∀ x ∈ T, Lasting x.2 s.w := by
  induction h with
  | init => simp
  | restart _ ih => exact fun x hx => (ih x hx).trans (.rfl' rfl rfl rfl)
  | act _ _ _ _ ih => exact ih
  | @step T s f h o ch ih =>
    have hk := Lasting.of (step_keeps h.agg.hist.reach o ch)
    intro x hx
    rcases List.mem_append.1 hx with hx | hx
    · exact (ih x hx).trans hk
    · cases ch with
      | start m =>
        simp only [Agg.Conc.Choice.events, List.mem_singleton] at hx
        subst hx
        exact Lasting.trans (b := s.w) (.rfl' rfl rfl rfl) hk
      | _ => simp [Agg.Conc.Choice.events] at hx

theorem Called.mono {w w' : Agg.World} (hw : ∀ x ∈ w.sent, x ∈ w'.sent) {b : Nat} {c : Backend.Choice} (hc : Called sys w b c) : Called sys w' b c := by
  cases c with
  | start hd q =>
    obtain ⟨pc, h1, h2⟩ := hc
    exact ⟨pc, hw _ h1, h2⟩
  | _ => trivial

/-- Every request at a backend is a call of the aggregator. -/
theorem Trace.called (h : Trace sys T s f) : ∀ b, ∀ x ∈ f b, Called sys s.w b x.2 := by
  induction h with
  | init => simp
  | step h o ch ih => exact fun b x hx => (ih b x hx).mono (step_keeps h.agg.hist.reach o ch).2.1.subset
  | restart _ ih => exact fun b x hx => (ih b x hx).mono fun _ h => h
  | act _ b x hc ih =>
    intro i y hy
    unfold Scheds.add at hy
    split at hy
    · rename_i hi
      subst hi
      rcases List.mem_append.1 hy with hy | hy
      · exact ih _ y hy
      · rw [List.mem_singleton.1 hy]; exact hc
    · exact ih _ y hy

end OpenNSA.Joint
