import Verif.Rest.Model
import Verif.Stp.Props
/-
C50: automatic commit and provision. C62: connections are made as the JSON says.
-/
namespace OpenNSA.Rest
open Py OpenNSA.Wire

/-! ### Specification -/

/-- The commands of a kind that the aggregator took. -/
def taken (c : Cmd) (l : List Sent) : Nat := (l.filter fun s => s.cmd = c && s.accepted).length

theorem taken_append (c : Cmd) (l m : List Sent) : taken c (l ++ m) = taken c l + taken c m := by simp [taken, List.filter_append]

/-! ### What a notification does -/

theorem commit_held (w : Watch) (h : w.conn.r = .held) :
    w.commit = if w.conn.l = .terminated then { w with sent := w.sent ++ [⟨.commit, false, w.conn⟩] }
      else { w with conn := { w.conn with r := .committing }, pending := w.pending + 1, sent := w.sent ++ [⟨.commit, true, w.conn⟩] } := by
  unfold Watch.commit switchR
  rw [h]
  simp [reserveTransitions]

theorem provision_released (w : Watch) (h : w.conn.p = .released) :
    w.provision = if w.conn.l = .terminated then { w with sent := w.sent ++ [⟨.provision, false, w.conn⟩] }
      else { w with conn := { w.conn with p := .provisioning }, pending := w.pending + 1, sent := w.sent ++ [⟨.provision, true, w.conn⟩] } := by
  unfold Watch.provision switchP
  rw [h]
  simp [provisionTransitions]

/-- The four cases of `stateUpdate`. -/
theorem stateUpdate_cases (auto : Bool) (w : Watch) :
    (w.conn.r = .held ∧ ∃ w', w' = w.commit ∧ w'.conn.p = w.conn.p ∧ w.stateUpdate auto = (if w.conn.p = .provisioned then { w' with subscribed := false } else w')) ∨
    (w.conn.r = .start ∧ w.conn.p = .released ∧ auto = true ∧ w.stateUpdate auto = w.provision) ∨
    (w.conn.r ≠ .held ∧ ¬ (w.conn.r = .start ∧ w.conn.p = .released ∧ auto = true) ∧
      w.stateUpdate auto = (if w.conn.p = .provisioned then { w with subscribed := false } else w)) := by
  by_cases h1 : w.conn.r = .held
  · refine Or.inl ⟨h1, w.commit, rfl, ?_, ?_⟩
    · rw [commit_held w h1]
      split <;> rfl
    · have hc := commit_held w h1
      unfold Watch.stateUpdate
      simp only [h1, if_true]
      rw [hc]
      by_cases ht : w.conn.l = .terminated
      · simp only [ht, if_true, h1, reduceCtorEq, false_and, if_false]
      · simp only [ht, if_false, reduceCtorEq, false_and]
  · by_cases h2 : w.conn.r = .start ∧ w.conn.p = .released ∧ auto = true
    · refine Or.inr (Or.inl ⟨h2.1, h2.2.1, h2.2.2, ?_⟩)
      have hc := provision_released w h2.2.1
      unfold Watch.stateUpdate
      simp only [if_neg h1]
      rw [if_pos h2, hc]
      by_cases ht : w.conn.l = .terminated
      · simp [ht, h2.2.1]
      · simp [ht]
    · refine Or.inr (Or.inr ⟨h1, h2, ?_⟩)
      unfold Watch.stateUpdate
      simp only [h1, h2, if_false]

/-- **C50, steps.** A notification of a held reservation commits it — once: exactly one message is sent, and it leaves the connection
committing, so that no other notification can do it again. A notification of a committed reservation provisions it, likewise, if that was
asked for; any other notification sends nothing. -/
theorem C50_steps (auto : Bool) (w : Watch) (hs : w.subscribed = true) (hp : 0 < w.pending) (hl : w.conn.l ≠ .terminated) :
    let w' := w.step auto .notify
    (w.conn.r = .held → w'.sent = w.sent ++ [⟨.commit, true, w.conn⟩] ∧ w'.conn = { w.conn with r := .committing }) ∧
    (w.conn.r = .start → w.conn.p = .released → auto = true →
      w'.sent = w.sent ++ [⟨.provision, true, w.conn⟩] ∧ w'.conn = { w.conn with p := .provisioning }) ∧
    (w.conn.r ≠ .held → ¬ (w.conn.r = .start ∧ w.conn.p = .released ∧ auto = true) → w'.sent = w.sent ∧ w'.conn = w.conn) ∧
    (w.conn.p = .provisioned → w'.subscribed = false) ∧
    (w.conn.p ≠ .provisioned → w'.subscribed = true) := by
  intro w'
  have hw : w' = ({ w with pending := w.pending - 1 } : Watch).stateUpdate auto := by
    show w.step auto .notify = _
    simp only [Watch.step, hs, if_true]
    rw [if_neg (by omega)]
  rw [hw]
  generalize hv : ({ w with pending := w.pending - 1 } : Watch) = v
  have e1 : v.conn = w.conn := by rw [← hv]
  have e2 : v.sent = w.sent := by rw [← hv]
  have e3 : v.subscribed = true := by rw [← hv]; exact hs
  rw [← e1, ← e2]
  rw [← e1] at hl
  rcases stateUpdate_cases auto v with ⟨h1, c, hc, hcp, hu⟩ | ⟨h1, h2, h3, hu⟩ | ⟨h1, h2, hu⟩
  · have hcc := commit_held v h1
    rw [if_neg hl] at hcc
    rw [hcc] at hc
    rw [hu]
    by_cases hpr : v.conn.p = .provisioned
    · rw [if_pos hpr, hc]
      simp [h1, hpr]
    · rw [if_neg hpr, hc]
      simp [h1, hpr, e3]
  · have hcc := provision_released v h2
    rw [if_neg hl] at hcc
    rw [hu, hcc]
    simp [h1, h2, h3, e3]
  · rw [hu]
    by_cases hpr : v.conn.p = .provisioned
    · rw [if_pos hpr]
      simp [h1, hpr]
    · rw [if_neg hpr]
      exact ⟨fun h => absurd h h1, fun a b c => absurd ⟨a, b, c⟩ h2, fun _ _ => ⟨rfl, rfl⟩, fun h => absurd h hpr, fun _ => e3⟩

/-! ### In every history -/

theorem step_switched_sent (w : Watch) (o : Option ConnStates) : (w.switched o).sent = w.sent := by cases o <;> rfl

/-- **C50, when.** In every history, a commit is only ever sent for a reservation that is held, and a provision only — if asked for — for
one in its start state that is released. -/
theorem C50_when (auto : Bool) (w : Watch) (hw : w.sent = []) (es : List Ev) :
    ∀ s ∈ (w.run auto es).sent, (s.cmd = .commit ∧ s.at_.r = .held) ∨ (s.cmd = .provision ∧ s.at_.r = .start ∧ s.at_.p = .released ∧ auto = true) := by
  have key : ∀ (es : List Ev) (w : Watch),
      (∀ s ∈ w.sent, (s.cmd = .commit ∧ s.at_.r = .held) ∨ (s.cmd = .provision ∧ s.at_.r = .start ∧ s.at_.p = .released ∧ auto = true)) →
      ∀ s ∈ (w.run auto es).sent, (s.cmd = .commit ∧ s.at_.r = .held) ∨ (s.cmd = .provision ∧ s.at_.r = .start ∧ s.at_.p = .released ∧ auto = true) := by
    intro es
    induction es with
    | nil => intro w h; exact h
    | cons e es ih =>
      intro w h
      refine ih (w.step auto e) ?_
      cases e with
      | reserve s => simpa only [Watch.step, step_switched_sent] using h
      | provision s => simpa only [Watch.step, step_switched_sent] using h
      | lifecycle s => simpa only [Watch.step, step_switched_sent] using h
      | subscribe => exact h
      | notify =>
        simp only [Watch.step]
        split
        · exact h
        · split
          · generalize hv : ({ w with pending := w.pending - 1 } : Watch) = v
            have e2 : v.sent = w.sent := by rw [← hv]
            rw [← e2] at h
            rcases stateUpdate_cases auto v with ⟨h1, c, hc, _, hu⟩ | ⟨h1, h2, h3, hu⟩ | ⟨_, _, hu⟩
            · have hcs : c.sent = v.sent ++ [⟨.commit, decide (v.conn.l ≠ .terminated), v.conn⟩] := by
                rw [hc, commit_held v h1]
                by_cases ht : v.conn.l = .terminated <;> simp [ht]
              have : (v.stateUpdate auto).sent = c.sent := by rw [hu]; split <;> rfl
              rw [this, hcs]
              intro s hs
              rcases List.mem_append.1 hs with hs | hs
              · exact h s hs
              · simp only [List.mem_singleton] at hs
                subst hs
                exact Or.inl ⟨rfl, h1⟩
            · have hcs : (v.stateUpdate auto).sent = v.sent ++ [⟨.provision, decide (v.conn.l ≠ .terminated), v.conn⟩] := by
                rw [hu, provision_released v h2]
                by_cases ht : v.conn.l = .terminated <;> simp [ht]
              rw [hcs]
              intro s hs
              rcases List.mem_append.1 hs with hs | hs
              · exact h s hs
              · simp only [List.mem_singleton] at hs
                subst hs
                exact Or.inr ⟨rfl, h1, h2, h3⟩
            · have : (v.stateUpdate auto).sent = v.sent := by rw [hu]; split <;> rfl
              rw [this]
              exact h
          · exact h
  exact key es w (by rw [hw]; simp)

/-- A quantity that only one kind of event increases, by one, is bounded by the number of these events. -/
theorem run_bound (auto : Bool) (f : Watch → Nat) (b : Ev) (hstep : ∀ w e, f (w.step auto e) ≤ f w + if e = b then 1 else 0) (w : Watch) (es : List Ev) :
    f (w.run auto es) ≤ f w + es.count b := by
  induction es generalizing w with
  | nil => simp [Watch.run]
  | cons e es ih =>
    have h1 := ih (w.step auto e)
    have h2 := hstep w e
    show f ((w.step auto e).run auto es) ≤ _
    rw [List.count_cons]
    by_cases he : e = b
    · simp [he] at *
      omega
    · simp [he] at *
      omega

/-- Effect of a notification on the two counts. -/
theorem notify_counts (auto : Bool) (w : Watch) :
    let w' := w.step auto .notify
    (taken .commit w'.sent = taken .commit w.sent ∧ w'.conn.r = w.conn.r ∨
      taken .commit w'.sent = taken .commit w.sent + 1 ∧ w.conn.r = .held ∧ w'.conn.r = .committing) ∧
    (taken .provision w'.sent = taken .provision w.sent ∧ w'.conn.p = w.conn.p ∨
      taken .provision w'.sent = taken .provision w.sent + 1 ∧ w.conn.p = .released ∧ w'.conn.p = .provisioning ∧ w.conn.r = .start ∧ w'.conn.r = .start) := by
  intro w'
  show (taken .commit (w.step auto .notify).sent = _ ∧ _ ∨ taken .commit (w.step auto .notify).sent = _ ∧ _) ∧
    (taken .provision (w.step auto .notify).sent = _ ∧ _ ∨ taken .provision (w.step auto .notify).sent = _ ∧ _)
  have hw' : w' = w.step auto .notify := rfl
  rw [hw']
  simp only [Watch.step]
  split
  · simp
  · split
    · generalize hv : ({ w with pending := w.pending - 1 } : Watch) = v
      have e1 : v.conn = w.conn := by rw [← hv]
      have e2 : v.sent = w.sent := by rw [← hv]
      rw [← e1, ← e2]
      rcases stateUpdate_cases auto v with ⟨h1, c, hc, _, hu⟩ | ⟨h1, h2, h3, hu⟩ | ⟨_, _, hu⟩
      · have hs : (v.stateUpdate auto).sent = c.sent ∧ (v.stateUpdate auto).conn = c.conn := by rw [hu]; split <;> exact ⟨rfl, rfl⟩
        rw [hs.1, hs.2, hc, commit_held v h1]
        by_cases ht : v.conn.l = .terminated <;> simp [ht, taken, h1]
      · rw [hu, provision_released v h2]
        by_cases ht : v.conn.l = .terminated <;> simp [ht, taken, h1, h2]
      · have hs : (v.stateUpdate auto).sent = v.sent ∧ (v.stateUpdate auto).conn = v.conn := by rw [hu]; split <;> exact ⟨rfl, rfl⟩
        rw [hs.1, hs.2]
        simp
    · simp

theorem switched_conn (w : Watch) (o : Option ConnStates) : (w.switched o).conn = o.getD w.conn := by cases o <;> rfl

/-- **C50, commit once.** In every history the aggregator takes at most as many commits as the reservation became held: each time it is
held it is committed at most once, however many notifications there are meanwhile, of whatever changes. -/
theorem C50_commit_once (auto : Bool) (es : List Ev) :
    taken .commit (Watch.new.run auto es).sent ≤ es.count (.reserve .held) := by
  have h := run_bound auto (fun w => taken .commit w.sent + if w.conn.r = .held then 1 else 0) (.reserve .held) (by
    intro w e
    cases e with
    | reserve s =>
      simp only [Watch.step, step_switched_sent, switched_conn]
      unfold switchR
      split
      · simp only [Option.getD_some]
        by_cases hh : s = .held
        · subst hh
          simp
        · simp only [hh, if_false, Ev.reserve.injEq]
          omega
      · simp only [Option.getD_none]
        omega
    | provision s =>
      simp only [Watch.step, step_switched_sent, switched_conn]
      unfold switchP
      split <;> simp
    | lifecycle s =>
      simp only [Watch.step, step_switched_sent, switched_conn]
      unfold switchL
      split <;> simp
    | subscribe => exact Nat.le_add_right _ _
    | notify =>
      rcases (notify_counts auto w).1 with ⟨h1, h2⟩ | ⟨h1, h2, h3⟩
      · simp [h1, h2]
      · simp [h1, h2, h3]) Watch.new es
  have : taken .commit Watch.new.sent + (if Watch.new.conn.r = .held then 1 else 0) = 0 := by decide
  omega

/-- **C50, provision once.** In every history the aggregator takes at most one provision more than the connection was released. -/
theorem C50_provision_once (auto : Bool) (es : List Ev) :
    taken .provision (Watch.new.run auto es).sent ≤ 1 + es.count (.provision .released) := by
  have h := run_bound auto (fun w => taken .provision w.sent + if w.conn.p = .released then 1 else 0) (.provision .released) (by
    intro w e
    cases e with
    | provision s =>
      simp only [Watch.step, step_switched_sent, switched_conn]
      unfold switchP
      split
      · simp only [Option.getD_some]
        by_cases hh : s = .released
        · subst hh
          simp
        · simp only [hh, if_false, Ev.provision.injEq]
          omega
      · simp only [Option.getD_none]
        omega
    | reserve s =>
      simp only [Watch.step, step_switched_sent, switched_conn]
      unfold switchR
      split <;> simp
    | lifecycle s =>
      simp only [Watch.step, step_switched_sent, switched_conn]
      unfold switchL
      split <;> simp
    | subscribe => exact Nat.le_add_right _ _
    | notify =>
      rcases (notify_counts auto w).2 with ⟨h1, h2⟩ | ⟨h1, h2, h3, _⟩
      · simp [h1, h2]
      · simp [h1, h2, h3]) Watch.new es
  have : taken .provision Watch.new.sent + (if Watch.new.conn.p = .released then 1 else 0) = 1 := by decide
  omega

/-- **C50, once.** A connection is reserved once (aggregator.py refuses to modify reservations, so that a reservation is not checked again); if
it is not released either, then in every history at most one commit and at most one provision is taken. -/
theorem C50_once_partial (auto : Bool) (es : List Ev) (hc : .reserve .checking ∉ es) (hr : .provision .released ∉ es) :
    taken .commit (Watch.new.run auto es).sent ≤ 1 ∧ taken .provision (Watch.new.run auto es).sent ≤ 1 := by
  constructor
  · have h := run_bound auto (fun w => taken .commit w.sent + if w.conn.r = .held ∨ w.conn.r = .checking then 1 else 0) (.reserve .checking) (by
      intro w e
      cases e with
      | reserve s =>
        simp only [Watch.step, step_switched_sent, switched_conn]
        unfold switchR
        split
        · rename_i hin
          simp only [Option.getD_some]
          cases hw : w.conn.r <;> rw [hw] at hin <;> simp [reserveTransitions] at hin <;> (try rcases hin with rfl | rfl | rfl) <;> (try rcases hin with rfl | rfl) <;> (try subst hin) <;> simp
        · simp only [Option.getD_none]
          omega
      | provision s =>
        simp only [Watch.step, step_switched_sent, switched_conn]
        unfold switchP
        split <;> simp
      | lifecycle s =>
        simp only [Watch.step, step_switched_sent, switched_conn]
        unfold switchL
        split <;> simp
      | subscribe => exact Nat.le_add_right _ _
      | notify =>
        rcases (notify_counts auto w).1 with ⟨h1, h2⟩ | ⟨h1, h2, h3⟩
        · simp [h1, h2]
        · simp [h1, h2, h3]) Watch.new es
    have h0 : taken .commit Watch.new.sent + (if Watch.new.conn.r = .held ∨ Watch.new.conn.r = .checking then 1 else 0) = 1 := by decide
    rw [List.count_eq_zero.2 hc] at h
    omega
  · have h := C50_provision_once auto es
    rw [List.count_eq_zero.2 hr] at h
    exact h

theorem quiet_unsubscribed (auto : Bool) (w : Watch) (es : List Ev) (hw : w.subscribed = false) (hs : .subscribe ∉ es) : (w.run auto es).sent = w.sent := by
  induction es generalizing w with
  | nil => rfl
  | cons e es ih =>
    have he : e ≠ .subscribe := fun h => hs (by simp [h])
    have h1 : (w.step auto e).sent = w.sent ∧ (w.step auto e).subscribed = false := by
      have hsw : ∀ o, (w.switched o).subscribed = false := by intro o; cases o <;> exact hw
      cases e with
      | reserve s => exact ⟨step_switched_sent _ _, hsw _⟩
      | provision s => exact ⟨step_switched_sent _ _, hsw _⟩
      | lifecycle s => exact ⟨step_switched_sent _ _, hsw _⟩
      | subscribe => exact absurd rfl he
      | notify =>
        simp only [Watch.step, hw]
        split
        · exact ⟨rfl, hw⟩
        · exact ⟨rfl, rfl⟩
    show ((w.step auto e).run auto es).sent = w.sent
    rw [ih _ h1.2 fun h => hs (List.mem_cons_of_mem _ h), h1.1]

/-- **C50, nothing after.** Once a notification saw the connection provisioned, nothing is sent any more, whatever happens. -/
theorem C50_nothing_after (auto : Bool) (w : Watch) (hs : w.subscribed = true) (hp : 0 < w.pending) (hl : w.conn.l ≠ .terminated)
    (hpr : w.conn.p = .provisioned) (hr : w.conn.r ≠ .held) (es : List Ev) (hes : .subscribe ∉ es) :
    ((w.step auto .notify).run auto es).sent = w.sent := by
  obtain ⟨_, _, h3, h4, _⟩ := C50_steps auto w hs hp hl
  rw [quiet_unsubscribed auto _ es (h4 hpr) hes]
  exact (h3 hr (by rintro ⟨_, h, _⟩; rw [hpr] at h; cases h)).1

/-- **C50, committed first.** If nobody aborts, a provision is only ever sent after the reservation was committed: after a switch from
committing to the start state. -/
theorem C50_committed_partial (auto : Bool) (es : List Ev) (ha : .reserve .aborting ∉ es) (s : Sent) (hs : s ∈ (Watch.new.run auto es).sent)
    (hc : s.cmd = .provision) : ∃ es1 es2, es = es1 ++ .reserve .start :: es2 ∧ (Watch.new.run auto es1).conn.r = .committing := by
  -- invariant along the history: in the start state, or with a provision sent, the switch has happened
  have key : ∀ (n : Nat) (es : List Ev), es.length = n → .reserve .aborting ∉ es →
      ((Watch.new.run auto es).conn.r = .start ∨ (∃ s ∈ (Watch.new.run auto es).sent, s.cmd = .provision) →
        ∃ es1 es2, es = es1 ++ .reserve .start :: es2 ∧ (Watch.new.run auto es1).conn.r = .committing) ∧
      (Watch.new.run auto es).conn.r ≠ .aborting := by
    intro n
    induction n with
    | zero =>
      intro es hl _
      have : es = [] := List.length_eq_zero_iff.1 hl
      subst this
      refine ⟨?_, by simp [Watch.run, Watch.new]⟩
      rintro (h | ⟨s, hs, _⟩)
      · simp [Watch.run, Watch.new] at h
      · simp [Watch.run, Watch.new] at hs
    | succ n ih =>
      intro es hl hna
      rcases List.eq_nil_or_concat es with rfl | ⟨l, e, rfl⟩
      · simp at hl
      · simp only [List.concat_eq_append] at *
        have hl' : l.length = n := by simpa using hl
        have hna' : Ev.reserve .aborting ∉ l := fun h => hna (List.mem_append_left _ h)
        obtain ⟨ih1, ih2⟩ := ih l hl' hna'
        have hrun : Watch.new.run auto (l ++ [e]) = (Watch.new.run auto l).step auto e := by simp [Watch.run]
        rw [hrun]
        generalize hw : Watch.new.run auto l = w at *
        have ext : (∃ es1 es2, l = es1 ++ .reserve .start :: es2 ∧ (Watch.new.run auto es1).conn.r = .committing) →
            ∃ es1 es2, l ++ [e] = es1 ++ .reserve .start :: es2 ∧ (Watch.new.run auto es1).conn.r = .committing := by
          rintro ⟨a, b, rfl, h⟩
          exact ⟨a, b ++ [e], by simp, h⟩
        cases e with
        | reserve s =>
          have hsa : s ≠ .aborting := by
            rintro rfl
            exact hna (by simp)
          simp only [Watch.step, step_switched_sent, switched_conn]
          unfold switchR
          split
          · rename_i hin
            simp only [Option.getD_some]
            refine ⟨?_, hsa⟩
            rintro (h | h)
            · subst h
              have hcm : w.conn.r = .committing := by
                cases hr : w.conn.r <;> rw [hr] at hin <;> simp [reserveTransitions] at hin
                exact absurd hr ih2
              exact ⟨l, [], rfl, by rw [hw]; exact hcm⟩
            · exact ext (ih1 (Or.inr h))
          · simp only [Option.getD_none]
            exact ⟨fun h => ext (ih1 h), ih2⟩
        | provision s =>
          have h1 : (w.step auto (.provision s)).conn.r = w.conn.r := by
            simp only [Watch.step, switched_conn]; unfold switchP; split <;> rfl
          have h2 : (w.step auto (.provision s)).sent = w.sent := by simp only [Watch.step, step_switched_sent]
          rw [h1, h2]
          exact ⟨fun h => ext (ih1 h), ih2⟩
        | lifecycle s =>
          have h1 : (w.step auto (.lifecycle s)).conn.r = w.conn.r := by
            simp only [Watch.step, switched_conn]; unfold switchL; split <;> rfl
          have h2 : (w.step auto (.lifecycle s)).sent = w.sent := by simp only [Watch.step, step_switched_sent]
          rw [h1, h2]
          exact ⟨fun h => ext (ih1 h), ih2⟩
        | subscribe => exact ⟨fun h => ext (ih1 h), ih2⟩
        | notify =>
          simp only [Watch.step]
          split
          · exact ⟨fun h => ext (ih1 h), ih2⟩
          · split
            · generalize hv : ({ w with pending := w.pending - 1 } : Watch) = v
              have e1 : v.conn = w.conn := by rw [← hv]
              have e2 : v.sent = w.sent := by rw [← hv]
              rw [← e1, ← e2] at ih1
              rw [← e1] at ih2
              rcases stateUpdate_cases auto v with ⟨h1, c, hc, _, hu⟩ | ⟨h1, h2, h3, hu⟩ | ⟨_, _, hu⟩
              · have hs : (v.stateUpdate auto).sent = c.sent ∧ (v.stateUpdate auto).conn = c.conn := by rw [hu]; split <;> exact ⟨rfl, rfl⟩
                rw [hs.1, hs.2, hc, commit_held v h1]
                have hno : ∀ b, (∃ s ∈ v.sent ++ [⟨.commit, b, v.conn⟩], s.cmd = Cmd.provision) → ∃ s ∈ v.sent, s.cmd = Cmd.provision := by
                  rintro b ⟨s, hs, hp⟩
                  rcases List.mem_append.1 hs with hs | hs
                  · exact ⟨s, hs, hp⟩
                  · simp only [List.mem_singleton] at hs
                    subst hs
                    cases hp
                split
                · refine ⟨?_, by rw [h1]; decide⟩
                  rintro (h | h)
                  · rw [h1] at h; cases h
                  · exact ext (ih1 (Or.inr (hno _ h)))
                · refine ⟨?_, by simp⟩
                  rintro (h | h)
                  · simp at h
                  · exact ext (ih1 (Or.inr (hno _ h)))
              · refine ⟨fun _ => ext (ih1 (Or.inl h1)), ?_⟩
                rw [hu, provision_released v h2]
                split <;> simp [h1]
              · have hs : (v.stateUpdate auto).sent = v.sent ∧ (v.stateUpdate auto).conn = v.conn := by rw [hu]; split <;> exact ⟨rfl, rfl⟩
                rw [hs.1, hs.2]
                exact ⟨fun h => ext (ih1 h), ih2⟩
            · exact ⟨fun h => ext (ih1 h), ih2⟩
  exact (key es.length es rfl ha).1 (Or.inr ⟨s, hs, hc⟩)

/-- **C50, flags.** A request for automatic provision without automatic commit is never reserved. -/
theorem C50_refused (uncommon) (fields : List (Str × JVal)) (hp : autoProvision fields = true) (hc : autoCommit fields = false) :
    ∃ code, post uncommon (.obj fields) = .answer code := by
  unfold post
  simp only [hp, hc]
  split
  · exact ⟨_, rfl⟩
  · split
    · exact ⟨_, rfl⟩
    · split
      · exact ⟨_, rfl⟩
      · split
        · exact ⟨_, rfl⟩
        · exact ⟨400, by simp⟩

/-- The course without incidents, with every notification: one commit, one provision, nothing after. -/
def smooth : List Ev := [.subscribe, .reserve .held, .notify, .notify, .reserve .start, .notify, .notify, .provision .provisioned, .notify,
  .provision .releasing, .notify, .provision .released, .notify, .lifecycle .terminating, .notify]

example : (Watch.new.run true smooth).sent =
    [⟨.commit, true, ⟨.held, .released, .created⟩⟩, ⟨.provision, true, ⟨.start, .released, .created⟩⟩] := by decide

/-- `C50_steps`, `C50_nothing_after`: the states they speak of are reached. -/
example : let w := Watch.new.run true [.subscribe, .reserve .held]
    w.subscribed = true ∧ 0 < w.pending ∧ w.conn.l ≠ .terminated ∧ w.conn.r = .held ∧ w.sent = [] := by decide
example : let w := Watch.new.run true (smooth.take 8)
    w.subscribed = true ∧ 0 < w.pending ∧ w.conn.l ≠ .terminated ∧ w.conn.p = .provisioned ∧ w.conn.r ≠ .held ∧ .subscribe ∉ smooth.drop 9 := by decide

/-- `C50_once_partial`, `C50_committed_partial` -/
example : Ev.reserve .checking ∉ smooth.take 10 ∧ .provision .released ∉ smooth.take 10 ∧ .reserve .aborting ∉ smooth ∧
    ⟨.provision, true, ⟨.start, .released, .created⟩⟩ ∈ (Watch.new.run true smooth).sent := by decide

/-- `C50_refused` -/
example : autoProvision [(kProvision, .bool true), (kCommit, .bool false)] = true ∧ autoCommit [(kProvision, .bool true), (kCommit, .bool false)] = false := by
  decide

/-! ### Violations -/

/-- **C50 is violated for a reservation that fails**: when it is aborted afterwards, it is back in its start state, which is taken for
committed, and nothing is reserved; it is provisioned. -/
theorem C50_abort_fails : ∃ es, .reserve .committing ∉ es ∧ (∀ s ∈ (Watch.new.run true es).sent, s.cmd ≠ .commit) ∧
    taken .provision (Watch.new.run true es).sent = 1 :=
  ⟨[.subscribe, .reserve .failed, .notify, .reserve .aborting, .notify, .reserve .start, .notify], by decide⟩

/-- **C50 is violated if a release follows closely**: a release that comes in before the observers are called for "provisioned" hides
that state from the watcher. When the connection is released, the watcher provisions it again, against the request. -/
theorem C50_released_fails : taken .provision (Watch.new.run true [.subscribe, .reserve .held, .notify, .notify, .reserve .start, .notify, .notify,
    .provision .provisioned, .provision .releasing, .notify, .notify, .provision .released, .notify]).sent = 2 := by decide

/-- **C50 is violated if the reservation is held at once**: the watcher is only subscribed after the reservation was acknowledged. If it
is held, and the observers called, before that, it is never committed; it runs into its timeout. -/
theorem C50_missed_fails : (Watch.new.run true [.reserve .held, .notify, .subscribe, .notify, .notify, .reserve .timeout, .notify]).sent = [] := by decide

/-! ### C62 -/

/-- **C62.** If something is reserved, it is what the fields say: the STPs and times they denote, the capacity as it stands there; times
that are not given are not given; commit is automatic unless there is a field that says no, and provision only if there is one
that says yes. -/
theorem C62_reserved (uncommon) (data : JVal) (q : Reserve) (h : post uncommon data = .reserve q) :
    ∃ fields, data = .obj fields ∧
      (∃ s, dget fields "source".toList = some (.str s) ∧ createSTP (if urnPrefix.isPrefixOf s then s else urnPrefix ++ s) = .ok q.source) ∧
      (∃ s, dget fields "destination".toList = some (.str s) ∧ createSTP (if urnPrefix.isPrefixOf s then s else urnPrefix ++ s) = .ok q.dest) ∧
      (match q.start with
        | none => dget fields "start_time".toList = none
        | some t => ∃ s, dget fields "start_time".toList = some (.str s) ∧ parseXMLTimestamp uncommon s = .ok t) ∧
      (match q.end_ with
        | none => dget fields "end_time".toList = none
        | some t => ∃ s, dget fields "end_time".toList = some (.str s) ∧ parseXMLTimestamp uncommon s = .ok t) ∧
      q.capacity = dget fields "capacity".toList ∧
      (q.autoCommit = false ↔ ∃ v, dget fields "auto_commit".toList = some v ∧ v.truthy = false) ∧
      (q.autoProvision = true ↔ ∃ v, dget fields "auto_provision".toList = some v ∧ v.truthy = true) ∧
      (q.autoProvision = true → q.autoCommit = true) := by
  have hstp : ∀ fields key stp, readStp fields key = .ok stp →
      ∃ s, dget fields key = some (.str s) ∧ createSTP (if urnPrefix.isPrefixOf s then s else urnPrefix ++ s) = .ok stp := by
    intro fields key stp h
    unfold readStp at h
    split at h
    · rename_i s hs
      split at h
      · rename_i x hx
        cases h
        exact ⟨s, hs, hx⟩
      · cases h
    · cases h
  have htime : ∀ fields key o, readTime uncommon fields key = .ok o → (match o with
        | none => dget fields key = none
        | some t => ∃ s, dget fields key = some (.str s) ∧ parseXMLTimestamp uncommon s = .ok t) := by
    intro fields key o h
    unfold readTime at h
    split at h
    · rename_i hn
      cases h
      exact hn
    · rename_i s hs
      split at h
      · rename_i t ht
        cases h
        exact ⟨s, hs, ht⟩
      · cases h
    · cases h
  cases data with
  | obj fields =>
    unfold post at h
    simp only at h
    split at h
    · cases h
    · rename_i src hsrc
      split at h
      · cases h
      · rename_i dst hdst
        split at h
        · cases h
        · rename_i st hst
          split at h
          · cases h
          · rename_i en hen
            split at h
            · cases h
            · rename_i hflags
              cases h
              refine ⟨fields, rfl, hstp _ _ _ hsrc, hstp _ _ _ hdst, htime _ _ _ hst, htime _ _ _ hen, rfl, ?_, ?_, ?_⟩
              · show autoCommit fields = false ↔ _
                unfold autoCommit kCommit
                cases dget fields "auto_commit".toList <;> simp
              · show autoProvision fields = true ↔ _
                unfold autoProvision kProvision
                cases dget fields "auto_provision".toList <;> simp
              · show autoProvision fields = true → autoCommit fields = true
                intro h1
                cases h2 : autoCommit fields with
                | true => rfl
                | false => exact absurd ⟨h1, by simp [h2]⟩ hflags
  | _ => simp [post] at h

/-- **C62, described.** What a connection is described by can be used to make another: the text of an end point is read as the same
end point (for end points that can be written at all, as in C07). -/
theorem C62_described (fields : List (Str × JVal)) (key : Str) (s : STP) (hn : s.WellNamed) (hl : s.WellLabelled)
    (hf : dget fields key = some (.str (stpText s))) : readStp fields key = .ok s := by
  have htext : urnPrefix ++ stpText s = s.urn := by
    unfold stpText STP.urn STP.baseURN
    cases hlab : s.label with
    | none => simp
    | some l =>
      have hno := known_no (hl l hlab).2
      simp only [labelSuffix, shortType_of_no_hash hno.2.2]
      simp [List.append_assoc]
  have hnp : urnPrefix.isPrefixOf (stpText s) = false := by
    cases hb : urnPrefix.isPrefixOf (stpText s) with
    | false => rfl
    | true =>
      exfalso
      have hpre : urnPrefix <+: stpText s := List.isPrefixOf_iff_prefix.1 hb
      refine hn.pref ?_
      cases hlab : s.label with
      | none =>
        have : stpText s = s.network ++ ':' :: s.port := by simp [stpText, hlab]
        rw [this] at hpre
        exact hpre.isInfix
      | some l =>
        have : stpText s = (s.network ++ ':' :: s.port) ++ '?' :: (l.type_ ++ '=' :: l.labelValue) := by simp [stpText, hlab, List.append_assoc]
        rw [this] at hpre
        -- the prefix has no question mark, so that it ends before the label
        have hq : '?' ∉ urnPrefix := by decide
        rcases List.prefix_or_prefix_of_prefix hpre (List.prefix_append (s.network ++ ':' :: s.port) _) with h | ⟨c, h⟩
        · exact h.isInfix
        · rw [← h, List.prefix_append_right_inj] at hpre
          cases c with
          | nil => rw [← h]; simp
          | cons x c =>
            obtain ⟨t, ht⟩ := hpre
            simp only [List.cons_append, List.cons.injEq] at ht
            exact absurd (by rw [← h, ← ht.1]; simp) hq
  unfold readStp
  rw [hf]
  simp only [hnp, Bool.false_eq_true, if_false, htext, C07_urn_roundtrip s hn hl]

/-- A request and what it reserves. -/
def sample : List (Str × JVal) :=
  [(kSource, .str "aruba:topology:bon?vlan=1780".toList), (kDest, .str "urn:ogf:network:bonaire:topology:aru?vlan=1780".toList),
   (kEnd, .str "2013-10-13T14:00:00Z".toList), (kProvision, .bool true)]

example : (match post (fun _ => .error .valueError) (.obj sample) with
    | .reserve q => decide (q.source = ⟨"aruba:topology".toList, "bon".toList, some ⟨tVlan, [(1780, 1780)], false⟩⟩) && q.autoCommit && q.autoProvision &&
        q.start.isNone && q.end_.isSome && q.capacity.isNone
    | .answer _ => false) = true := by decide +kernel

example : dget sample kSource = some (.str (stpText ⟨"aruba:topology".toList, "bon".toList, some ⟨tVlan, [(1780, 1780)], false⟩⟩)) := by
  simp [sample, dget, stpText]
  decide +kernel

/-- **C62, refusals.** A request that cannot be read is answered with 400 or 500; with 400 only if it is one to commit by hand and provision
automatically, or the first part that cannot be read is a text which is no end point or no time of the known forms. -/
theorem C62_refused (uncommon) (data : JVal) (c : Nat) (h : post uncommon data = .answer c) :
    (c = 400 ∨ c = 500) ∧
    (c = 400 → ∃ fields, data = .obj fields ∧
      ((∃ k s, (k = "source".toList ∨ k = "destination".toList) ∧ dget fields k = some (.str s) ∧
          createSTP (if urnPrefix.isPrefixOf s then s else urnPrefix ++ s) = .error .payload) ∨
       (∃ k s, (k = "start_time".toList ∨ k = "end_time".toList) ∧ dget fields k = some (.str s) ∧ parseXMLTimestamp uncommon s = .error .payloadError) ∨
       ((∃ v, dget fields "auto_provision".toList = some v ∧ v.truthy = true) ∧ ∃ v, dget fields "auto_commit".toList = some v ∧ v.truthy = false))) := by
  have hstp : ∀ fields k c, readStp fields k = .error c → (c = 400 ∨ c = 500) ∧
      (c = 400 → ∃ s, dget fields k = some (.str s) ∧ createSTP (if urnPrefix.isPrefixOf s then s else urnPrefix ++ s) = .error .payload) := by
    intro fields k c hc
    unfold readStp at hc
    split at hc
    · rename_i s hs
      split at hc
      · cases hc
      · rename_i e he
        cases hc
        refine ⟨by cases e <;> simp [stpCode], ?_⟩
        intro h4
        refine ⟨s, hs, ?_⟩
        cases e <;> first | exact he | cases h4
    · cases hc
      exact ⟨.inr rfl, fun h4 => by cases h4⟩
  have htime : ∀ fields k c, readTime uncommon fields k = .error c → (c = 400 ∨ c = 500) ∧
      (c = 400 → ∃ s, dget fields k = some (.str s) ∧ parseXMLTimestamp uncommon s = .error .payloadError) := by
    intro fields k c hc
    unfold readTime at hc
    split at hc
    · cases hc
    · rename_i s hs
      split at hc
      · cases hc
      · rename_i e he
        cases hc
        refine ⟨by cases e <;> simp [timeCode], ?_⟩
        intro h4
        refine ⟨s, hs, ?_⟩
        cases e <;> first | exact he | cases h4
    · cases hc
      exact ⟨.inr rfl, fun h4 => by cases h4⟩
  unfold post at h
  split at h
  · rename_i fields
    split at h
    · rename_i d hd
      cases h
      obtain ⟨h1, h2⟩ := hstp _ _ _ hd
      refine ⟨h1, fun h4 => ?_⟩
      obtain ⟨s, hs⟩ := h2 h4
      exact ⟨fields, rfl, .inl ⟨_, s, .inl rfl, hs⟩⟩
    split at h
    · rename_i d hd
      cases h
      obtain ⟨h1, h2⟩ := hstp _ _ _ hd
      refine ⟨h1, fun h4 => ?_⟩
      obtain ⟨s, hs⟩ := h2 h4
      exact ⟨fields, rfl, .inl ⟨_, s, .inr rfl, hs⟩⟩
    split at h
    · rename_i d hd
      cases h
      obtain ⟨h1, h2⟩ := htime _ _ _ hd
      refine ⟨h1, fun h4 => ?_⟩
      obtain ⟨s, hs⟩ := h2 h4
      exact ⟨fields, rfl, .inr (.inl ⟨_, s, .inl rfl, hs⟩)⟩
    split at h
    · rename_i d hd
      cases h
      obtain ⟨h1, h2⟩ := htime _ _ _ hd
      refine ⟨h1, fun h4 => ?_⟩
      obtain ⟨s, hs⟩ := h2 h4
      exact ⟨fields, rfl, .inr (.inl ⟨_, s, .inr rfl, hs⟩)⟩
    split at h
    · rename_i hb
      cases h
      refine ⟨.inl rfl, fun _ => ⟨fields, rfl, .inr (.inr ⟨?_, ?_⟩)⟩⟩
      · have hp := hb.1
        unfold autoProvision at hp
        split at hp
        · rename_i v hv
          exact ⟨v, hv, hp⟩
        · cases hp
      · have hp := Bool.eq_false_iff.2 hb.2
        unfold autoCommit at hp
        split at hp
        · rename_i v hv
          exact ⟨v, hv, hp⟩
        · cases hp
    · cases h
  · cases h
    exact ⟨.inr rfl, fun h4 => by cases h4⟩

example : (match post (fun _ => .error .valueError) (.obj [(kSource, .str "aruba".toList)]) with | .answer c => c | _ => 0) = 400 := by decide +kernel

/-- C62 is violated by descriptions of connections without start or end time: there the time is given as null, but a request with a null time is
answered with 500, though the same request without the field is accepted. -/
theorem C62_null_fails (uncommon) (fields : List (Str × JVal)) (k : Str) (hk : k = "start_time".toList ∨ k = "end_time".toList) (q : Reserve)
    (hq : post uncommon (.obj fields) = .reserve q) : post uncommon (.obj ((k, .null) :: fields)) = .answer 500 := by
  have hstp : ∀ k', k' = kSource ∨ k' = kDest → readStp ((k, .null) :: fields) k' = readStp fields k' := by
    intro k' hk'
    unfold readStp
    have hne : k ≠ k' := by rcases hk with rfl | rfl <;> rcases hk' with rfl | rfl <;> decide
    rw [show dget ((k, JVal.null) :: fields) k' = dget fields k' from if_neg hne]
  have hbad : readTime uncommon ((k, .null) :: fields) k = .error 500 := by simp [readTime, dget]
  unfold post at hq ⊢
  simp only [hstp _ (.inl rfl), hstp _ (.inr rfl)] at hq ⊢
  split at hq
  · cases hq
  rename_i s hs
  split at hq
  · cases hq
  rename_i d hd
  split at hq
  · cases hq
  rename_i t ht
  rcases hk with rfl | rfl
  · rw [show readTime uncommon (("start_time".toList, JVal.null) :: fields) kStart = .error 500 from hbad]
  · have : readTime uncommon (("end_time".toList, JVal.null) :: fields) kStart = readTime uncommon fields kStart := by
      unfold readTime
      rw [show dget (("end_time".toList, JVal.null) :: fields) kStart = dget fields kStart from if_neg (by decide)]
    rw [this, ht]
    simp only
    rw [show readTime uncommon (("end_time".toList, JVal.null) :: fields) kEnd = .error 500 from hbad]

example : ∃ q, post (fun _ => .error .valueError) (.obj sample) = .reserve q := by
  have h : (match post (fun _ => .error .valueError) (.obj sample) with | .reserve _ => true | .answer _ => false) = true := by decide +kernel
  cases e : post (fun _ => .error .valueError) (.obj sample) with
  | reserve q => exact ⟨q, rfl⟩
  | answer c => rw [e] at h; cases h

/-- C62 is violated by flags given as text: any text but the empty one counts as yes (resource.py:211-212), so that a request whose
`auto_commit` is the text `false` is committed automatically, and one whose `auto_provision` is the text `false` is provisioned. -/
theorem C62_text_fails (uncommon) (fields : List (Str × JVal)) (q : Reserve) (hq : post uncommon (.obj fields) = .reserve q) :
    (dget fields "auto_commit".toList = some (.str "false".toList) → q.autoCommit = true) ∧
    (dget fields "auto_provision".toList = some (.str "false".toList) → q.autoProvision = true) := by
  obtain ⟨f, hf, -, -, -, -, -, h1, h2, -⟩ := C62_reserved uncommon _ q hq
  obtain rfl : fields = f := by cases hf; rfl
  refine ⟨fun h => ?_, fun h => h2.mpr ⟨_, h, rfl⟩⟩
  cases hc : q.autoCommit with
  | true => rfl
  | false =>
    obtain ⟨v, hv, ht⟩ := h1.mp hc
    rw [h] at hv
    cases hv
    cases ht

example : (match post (fun _ => .error .valueError) (.obj (("auto_commit".toList, .str "false".toList) :: ("auto_provision".toList, .str "false".toList) :: sample)) with
    | .reserve q => q.autoCommit && q.autoProvision | .answer _ => false) = true := by decide +kernel

end OpenNSA.Rest
