import Verif.Scheduler.Model
import Verif.PyLemmas
/-
C12: the call scheduler.
-/
namespace OpenNSA
open Py

/-- Invariant: every pending call is the one in the table; table entries point to calls of that connection; a
call is due no earlier than it was requested for, and fired no earlier than due. -/
structure SchedInv (s : Sched) : Prop where
  pend : ∀ (i : Nat) (c : Call), s.calls[i]? = some c → c.st = .pending → dget s.tbl c.conn = some i
  tblOk : ∀ conn i, dget s.tbl conn = some i → ∃ c, s.calls[i]? = some c ∧ c.conn = conn
  due : ∀ (i : Nat) (c : Call), s.calls[i]? = some c → c.want ≤ c.due
  fired : ∀ (i : Nat) (c : Call) (t : Time), s.calls[i]? = some c → c.st = .fired t → c.due ≤ t ∧ t ≤ s.now

theorem getElem?_cancelIdx {calls : List Call} {i j : Nat} :
    (cancelIdx calls i)[j]? = (calls[j]?).map fun c => if i = j ∧ c.st = .pending then { c with st := .cancelled } else c := by
  unfold cancelIdx
  rw [List.getElem?_modify]
  by_cases h : i = j
  · simp [h]
  · simp [h]

/-- Cancelling keeps connection, times and any status other than pending. -/
theorem cancelIdx_get {calls : List Call} {i j : Nat} {c : Call} (h : (cancelIdx calls i)[j]? = some c) :
    ∃ c0, calls[j]? = some c0 ∧ c0.conn = c.conn ∧ c0.want = c.want ∧ c0.due = c.due ∧
      (c0.st = c.st ∨ (c0.st = .pending ∧ c.st = .cancelled ∧ i = j)) := by
  rw [getElem?_cancelIdx] at h
  rcases hc : calls[j]? with _ | c0
  · simp [hc] at h
  · simp only [hc, Option.map_some, Option.some.injEq] at h
    refine ⟨c0, rfl, ?_⟩
    split at h
    · rename_i h2; subst h; exact ⟨rfl, rfl, rfl, Or.inr ⟨h2.2, rfl, h2.1⟩⟩
    · subst h; exact ⟨rfl, rfl, rfl, Or.inl rfl⟩

theorem cancelFold_get (es : List (Str × Nat)) : ∀ {calls : List Call} {j : Nat} {c : Call},
    (es.foldl (fun cs e => cancelIdx cs e.2) calls)[j]? = some c →
    ∃ c0, calls[j]? = some c0 ∧ c0.conn = c.conn ∧ c0.want = c.want ∧ c0.due = c.due ∧
      (c0.st = c.st ∨ (c0.st = .pending ∧ c.st = .cancelled)) ∧ (c.st = .pending → ∀ e ∈ es, e.2 ≠ j) := by
  induction es with
  | nil => intro calls j c h; exact ⟨c, h, rfl, rfl, rfl, Or.inl rfl, by simp⟩
  | cons e es ih =>
    intro calls j c h
    obtain ⟨c1, h1, a1, a2, a3, a4, a5⟩ := ih h
    rw [getElem?_cancelIdx] at h1
    rcases hc : calls[j]? with _ | c0
    · simp [hc] at h1
    · simp only [hc, Option.map_some, Option.some.injEq] at h1
      refine ⟨c0, rfl, ?_⟩
      split at h1
      · rename_i h2
        subst h1
        simp only at a1 a2 a3 a4
        refine ⟨a1, a2, a3, ?_, ?_⟩
        · right; refine ⟨h2.2, ?_⟩
          rcases a4 with h | h
          · exact h.symm
          · simp at h
        · intro hp; rw [hp] at a4; simp at a4
      · rename_i h2
        subst h1
        refine ⟨a1, a2, a3, a4, ?_⟩
        intro hp e' he'
        rcases List.mem_cons.mp he' with rfl | he'
        · intro ej
          apply h2
          refine ⟨ej, ?_⟩
          rcases a4 with h | h
          · rw [h, hp]
          · exact h.1
        · exact a5 hp e' he'

theorem schedInv_step (s : Sched) (o : SchedOp) (h : SchedInv s) : SchedInv (s.step o).1 := by
  cases o with
  | schedule conn t =>
    unfold Sched.step
    simp only
    split
    · exact h
    · rename_i hu
      split
      · exact h
      · refine ⟨?_, ?_, ?_, ?_⟩
        · intro i c hi hp
          simp only at hi ⊢
          rw [dget_dset]
          rw [List.getElem?_append] at hi
          split at hi
          · rename_i hlt
            have := h.pend i c hi hp
            split
            · rename_i e
              exfalso; apply hu
              unfold Sched.hasUncalled
              rw [e, this]; simp [hi, hp]
            · exact this
          · rename_i hlt
            rcases hk : i - s.calls.length with _ | k
            · rw [hk] at hi; simp at hi; subst hi
              simp
              omega
            · rw [hk] at hi; simp at hi
        · intro conn' i hi
          simp only at hi ⊢
          rw [dget_dset] at hi
          split at hi
          · rename_i e; simp at hi; subst hi; subst e
            exact ⟨⟨conn, t, s.now + max (t - s.now) 0, .pending⟩, by simp, rfl⟩
          · obtain ⟨c, hc, hcc⟩ := h.tblOk conn' i hi
            have hlt : i < s.calls.length := by
              rcases Nat.lt_or_ge i s.calls.length with h' | h'
              · exact h'
              · rw [List.getElem?_eq_none h'] at hc; simp at hc
            exact ⟨c, by rw [List.getElem?_append_left hlt]; exact hc, hcc⟩
        · intro i c hi
          simp only at hi
          rw [List.getElem?_append] at hi
          split at hi
          · exact h.due i c hi
          · rcases hk : i - s.calls.length with _ | k
            · rw [hk] at hi; simp at hi; subst hi; simp only; omega
            · rw [hk] at hi; simp at hi
        · intro i c t' hi hf
          simp only at hi ⊢
          rw [List.getElem?_append] at hi
          split at hi
          · exact h.fired i c t' hi hf
          · rcases hk : i - s.calls.length with _ | k
            · rw [hk] at hi; simp at hi; subst hi; simp at hf
            · rw [hk] at hi; simp at hi
  | cancel conn =>
    unfold Sched.step
    simp only
    rcases ht : dget s.tbl conn with _ | k
    · exact h
    · refine ⟨?_, ?_, ?_, ?_⟩
      · intro i c hi hp
        simp only at hi ⊢
        obtain ⟨c0, h0, a1, _, _, a4⟩ := cancelIdx_get hi
        rcases a4 with a4 | a4
        · rw [dget_ddel]
          have hp0 := h.pend i c0 h0 (by rw [a4]; exact hp)
          rw [a1] at hp0
          split
          · rename_i e
            exfalso
            rw [← e, ht] at hp0
            simp at hp0; subst hp0
            rw [getElem?_cancelIdx, h0] at hi
            simp only [Option.map_some, Option.some.injEq] at hi
            rw [if_pos ⟨trivial, by rw [a4]; exact hp⟩] at hi
            subst hi; simp at hp
          · exact hp0
        · rw [hp] at a4; simp at a4
      · intro conn' i hi
        simp only at hi ⊢
        rw [dget_ddel] at hi
        split at hi
        · simp at hi
        · obtain ⟨c, hc, hcc⟩ := h.tblOk conn' i hi
          rw [getElem?_cancelIdx, hc]
          refine ⟨_, rfl, ?_⟩
          simp only
          split <;> exact hcc
      · intro i c hi
        obtain ⟨c0, h0, _, a2, a3, _⟩ := cancelIdx_get hi
        rw [← a2, ← a3]; exact h.due i c0 h0
      · intro i c t hi hf
        obtain ⟨c0, h0, _, _, a3, a4⟩ := cancelIdx_get hi
        rcases a4 with a4 | a4
        · rw [← a3]; exact h.fired i c0 t h0 (by rw [a4]; exact hf)
        · rw [hf] at a4; simp at a4
  | cancelAll =>
    unfold Sched.step
    refine ⟨?_, ?_, ?_, ?_⟩
    · intro i c hi hp
      exfalso
      obtain ⟨c0, h0, a1, _, _, a4, a5⟩ := cancelFold_get _ hi
      rcases a4 with a4 | a4
      · have := h.pend i c0 h0 (by rw [a4]; exact hp)
        exact a5 hp _ (dget_some_mem this) rfl
      · rw [hp] at a4; simp at a4
    · intro conn i hi; simp [dget] at hi
    · intro i c hi
      obtain ⟨c0, h0, _, a2, a3, _⟩ := cancelFold_get _ hi
      rw [← a2, ← a3]; exact h.due i c0 h0
    · intro i c t hi hf
      obtain ⟨c0, h0, _, _, a3, a4, _⟩ := cancelFold_get _ hi
      rcases a4 with a4 | a4
      · rw [← a3]; exact h.fired i c0 t h0 (by rw [a4]; exact hf)
      · rw [hf] at a4; simp at a4
  | tick t =>
    unfold Sched.step
    simp only
    split
    · refine ⟨h.pend, h.tblOk, h.due, ?_⟩
      intro i c t' hi hf
      have := h.fired i c t' hi hf
      simp only; omega
    · exact h
  | fire k =>
    unfold Sched.step
    simp only
    rcases hk : s.calls[k]? with _ | ck
    · exact h
    · simp only
      split
      · rename_i hcond
        have hget : ∀ j c, (s.calls.modify k fun c => { c with st := .fired s.now })[j]? = some c →
            (k = j ∧ c = { ck with st := .fired s.now }) ∨ (k ≠ j ∧ s.calls[j]? = some c) := by
          intro j c hj
          rw [List.getElem?_modify] at hj
          by_cases e : k = j
          · subst e; rw [hk] at hj; simp at hj; exact Or.inl ⟨rfl, hj.symm⟩
          · simp [e] at hj; exact Or.inr ⟨e, hj⟩
        refine ⟨?_, ?_, ?_, ?_⟩
        · intro i c hi hp
          rcases hget i c hi with ⟨_, rfl⟩ | ⟨_, h'⟩
          · simp at hp
          · exact h.pend i c h' hp
        · intro conn i hi
          obtain ⟨c, hc, hcc⟩ := h.tblOk conn i hi
          simp only
          rw [List.getElem?_modify]
          by_cases e : k = i
          · subst e; exact ⟨{ c with st := .fired s.now }, by simp [hc], hcc⟩
          · exact ⟨c, by simp [e, hc], hcc⟩
        · intro i c hi
          rcases hget i c hi with ⟨_, rfl⟩ | ⟨_, h'⟩
          · exact h.due k ck hk
          · exact h.due i c h'
        · intro i c t hi hf
          rcases hget i c hi with ⟨_, rfl⟩ | ⟨_, h'⟩
          · simp at hf; subst hf; exact ⟨hcond.2, by simp⟩
          · exact h.fired i c t h' hf
      · exact h

theorem schedInv_run (s : Sched) (os : List SchedOp) (h : SchedInv s) : SchedInv (s.run os) := by
  induction os generalizing s with
  | nil => exact h
  | cons o os ih => exact ih _ (schedInv_step s o h)

theorem schedInv_init (now : Time) : SchedInv (.init now) := by
  refine ⟨?_, ?_, ?_, ?_⟩ <;> simp [Sched.init, dget]

/-- C12. After any history a connection has at most one pending call. -/
theorem C12_one_pending (now : Time) (os : List SchedOp) (i j : Nat) (a b : Call)
    (hi : ((Sched.init now).run os).calls[i]? = some a) (hj : ((Sched.init now).run os).calls[j]? = some b)
    (ha : a.st = .pending) (hb : b.st = .pending) (hc : a.conn = b.conn) : i = j := by
  have h := schedInv_run _ os (schedInv_init now)
  have h1 := h.pend i a hi ha
  have h2 := h.pend j b hj hb
  rw [hc, h2] at h1
  simpa using h1.symm

/-- C12. Scheduling for a connection with a pending call, or for a time more than a second in the past, is refused
and changes nothing; otherwise it succeeds. -/
theorem C12_schedule_refused (now : Time) (os : List SchedOp) (conn : Str) (t : Time) :
    let s := (Sched.init now).run os
    (((∃ (i : Nat) (c : Call), s.calls[i]? = some c ∧ c.conn = conn ∧ c.st = .pending) ∨ t < s.now - second) →
      s.step (.schedule conn t) = (s, .assertion)) ∧
    (¬ ((∃ (i : Nat) (c : Call), s.calls[i]? = some c ∧ c.conn = conn ∧ c.st = .pending) ∨ t < s.now - second) →
      (s.step (.schedule conn t)).2 = .created s.calls.length ∧
      (s.step (.schedule conn t)).1.calls = s.calls ++ [⟨conn, t, max t s.now, .pending⟩]) := by
  intro s
  have h := schedInv_run _ os (schedInv_init now)
  have hu : s.hasUncalled conn = true ↔ ∃ (i : Nat) (c : Call), s.calls[i]? = some c ∧ c.conn = conn ∧ c.st = .pending := by
    unfold Sched.hasUncalled
    constructor
    · intro hh
      rcases ht : dget s.tbl conn with _ | i
      · simp [ht] at hh
      · rcases hc : s.calls[i]? with _ | c
        · simp [ht, hc] at hh
        · simp [ht, hc] at hh
          obtain ⟨c', hc', hcc⟩ := h.tblOk conn i ht
          have : c' = c := by
            have e : s.calls[i]? = some c' := hc'
            rw [hc] at e; simpa using e.symm
          subst this
          exact ⟨i, c', hc, hcc, hh⟩
    · rintro ⟨i, c, hi, rfl, hp⟩
      have h' : dget s.tbl c.conn = some i := h.pend i c hi hp
      simp [h', hi, hp]
  constructor
  · intro hh
    unfold Sched.step
    simp only
    rcases hh with hh | hh
    · rw [if_pos (hu.mpr hh)]
    · split
      · rfl
      · rw [if_pos (by omega)]
  · intro hh
    have h1 : ¬ s.hasUncalled conn = true := fun e => hh (Or.inl (hu.mp e))
    have h2 : t ≥ s.now - second := by
      have := fun e => hh (Or.inr e); omega
    unfold Sched.step
    simp only [h1, Bool.false_eq_true, if_false, h2, not_true_eq_false]
    refine ⟨trivial, ?_⟩
    congr 4
    omega

/-- A call that is no longer pending never changes again. -/
theorem done_stays (s : Sched) (o : SchedOp) (i : Nat) (c : Call) (h : s.calls[i]? = some c) (hp : c.st ≠ .pending) :
    (s.step o).1.calls[i]? = some c ∧ (s.step o).2 ≠ .ran i := by
  have cancelKeep : ∀ (calls : List Call) (k : Nat), calls[i]? = some c → (cancelIdx calls k)[i]? = some c := by
    intro calls k hc
    rw [getElem?_cancelIdx, hc]
    simp [hp]
  cases o with
  | schedule conn t =>
    unfold Sched.step; simp only
    split
    · exact ⟨h, by simp⟩
    · split
      · exact ⟨h, by simp⟩
      · refine ⟨?_, by simp⟩
        have hlt : i < s.calls.length := by
          rcases Nat.lt_or_ge i s.calls.length with h' | h'
          · exact h'
          · rw [List.getElem?_eq_none h'] at h; simp at h
        simp only
        rw [List.getElem?_append_left hlt]; exact h
  | cancel conn =>
    unfold Sched.step; simp only
    rcases dget s.tbl conn with _ | k
    · exact ⟨h, by simp⟩
    · exact ⟨cancelKeep _ _ h, by simp⟩
  | cancelAll =>
    unfold Sched.step
    refine ⟨?_, by simp⟩
    simp only
    generalize s.tbl = es
    revert h
    generalize s.calls = cs
    induction es generalizing cs with
    | nil => exact id
    | cons e es ih => intro h; exact ih _ (cancelKeep _ _ h)
  | tick t => unfold Sched.step; simp only; split <;> exact ⟨h, by simp⟩
  | fire k =>
    unfold Sched.step; simp only
    rcases hk : s.calls[k]? with _ | ck
    · exact ⟨h, by simp⟩
    · simp only
      split
      · rename_i hc
        have hne : k ≠ i := by
          intro e; subst e; rw [h] at hk; simp at hk; subst hk; exact hp hc.1
        refine ⟨?_, by simpa using hne⟩
        rw [List.getElem?_modify]
        simp [hne, h]
      · exact ⟨h, by simp⟩

/-- C12. A call that was cancelled (or has run) never runs afterwards, whatever happens. -/
theorem C12_done_never_runs (s : Sched) (os : List SchedOp) (i : Nat) (c : Call) (h : s.calls[i]? = some c)
    (hp : c.st ≠ .pending) : ∀ t, (t, SchedOut.ran i) ∉ s.outs os := by
  induction os generalizing s with
  | nil => simp [Sched.outs]
  | cons o os ih =>
    intro t hm
    have hd := done_stays s o i c h hp
    rcases List.mem_cons.mp hm with hm | hm
    · simp at hm; exact hd.2 hm.2.symm
    · exact ih _ hd.1 t hm

/-- C12. A call that runs was pending, had been requested for a time that has come, and is marked as run. -/
theorem step_ran {s : Sched} {o : SchedOp} {i : Nat} (h : (s.step o).2 = .ran i) :
    ∃ c, s.calls[i]? = some c ∧ c.st = .pending ∧ c.due ≤ s.now ∧
      (s.step o).1.calls[i]? = some { c with st := .fired s.now } := by
  cases o with
  | schedule conn t =>
    unfold Sched.step at h; simp only at h
    split at h
    · simp at h
    · split at h <;> simp at h
  | cancel conn => unfold Sched.step at h; simp only at h; split at h <;> simp at h
  | cancelAll => simp [Sched.step] at h
  | tick t => simp [Sched.step] at h
  | fire k =>
    unfold Sched.step at h ⊢; simp only at h ⊢
    rcases hk : s.calls[k]? with _ | ck
    · simp [hk] at h
    · simp only [hk] at h ⊢
      split at h
      · rename_i hc
        simp at h; subst h
        refine ⟨ck, hk, hc.1, hc.2, ?_⟩
        rw [if_pos hc, List.getElem?_modify]
        simp [hk]
      · simp at h

/-- C12. In every history a call runs at most once, and never before the time it was requested for. -/
theorem C12_runs_once_not_early (now : Time) (os : List SchedOp) (i : Nat) :
    ((((Sched.init now).outs os).filter fun e => decide (e.2 = SchedOut.ran i)).length ≤ 1) ∧
    (∀ t, (t, SchedOut.ran i) ∈ (Sched.init now).outs os →
      ∃ c, ((Sched.init now).run os).calls[i]? = some c ∧ c.st = .fired t ∧ c.want ≤ t) := by
  have keep : ∀ (os : List SchedOp) (s : Sched) (c : Call), s.calls[i]? = some c → c.st ≠ .pending →
      (s.run os).calls[i]? = some c := by
    intro os
    induction os with
    | nil => intro s c h _; exact h
    | cons o os ih => intro s c h hp; exact ih _ c (done_stays s o i c h hp).1 hp
  have key : ∀ (os : List SchedOp) (s : Sched), SchedInv s →
      (((s.outs os).filter fun e => decide (e.2 = SchedOut.ran i)).length ≤ 1) ∧
      (∀ t, (t, SchedOut.ran i) ∈ s.outs os → ∃ c, (s.run os).calls[i]? = some c ∧ c.st = .fired t ∧ c.want ≤ t) := by
    intro os
    induction os with
    | nil => intro s _; simp [Sched.outs]
    | cons o os ih =>
      intro s hinv
      have ih' := ih _ (schedInv_step s o hinv)
      by_cases hr : (s.step o).2 = .ran i
      · obtain ⟨c, hc, hp, hdue, hafter⟩ := step_ran hr
        have hno := C12_done_never_runs (s.step o).1 os i _ hafter (by simp)
        constructor
        · simp only [Sched.outs]
          rw [List.filter_cons_of_pos (by simp [hr])]
          have : ((s.step o).1.outs os).filter (fun e => decide (e.2 = SchedOut.ran i)) = [] := by
            rw [List.filter_eq_nil_iff]
            intro e he
            simp
            intro e2
            exact hno e.1 (by rw [← e2]; exact he)
          simp [this]
        · intro t ht
          simp only [Sched.outs] at ht
          rcases List.mem_cons.mp ht with ht | ht
          · simp at ht
            refine ⟨_, keep os _ _ hafter (by simp), by simp [ht.1], ?_⟩
            have := hinv.due i c hc
            simp only [ht.1]; omega
          · exact absurd ht (hno t)
      · constructor
        · simp only [Sched.outs]
          rw [List.filter_cons_of_neg (by simpa using hr)]
          exact ih'.1
        · intro t ht
          simp only [Sched.outs] at ht
          rcases List.mem_cons.mp ht with ht | ht
          · simp at ht; exact absurd ht.2.symm hr
          · exact ih'.2 t ht
  exact key os _ (schedInv_init now)

/-- C12. Cancelling a connection's call leaves it without a pending call, and so does cancelling all. -/
theorem C12_cancel_clears (now : Time) (os : List SchedOp) (conn : Str) :
    let s := (Sched.init now).run os
    (∀ (i : Nat) (c : Call), (s.step (.cancel conn)).1.calls[i]? = some c → c.conn = conn → c.st ≠ .pending) ∧
    (∀ (i : Nat) (c : Call), (s.step .cancelAll).1.calls[i]? = some c → c.st ≠ .pending) := by
  intro s
  have h := schedInv_run _ os (schedInv_init now)
  constructor
  · intro i c hi hc hp
    have hinv := schedInv_step s (.cancel conn) h
    have := hinv.pend i c hi hp
    rw [hc] at this
    unfold Sched.step at this
    simp only at this
    rcases ht : dget s.tbl conn with _ | k
    · rw [ht] at this; simp [ht] at this
    · rw [ht] at this; simp [dget_ddel] at this
  · intro i c hi hp
    have hinv := schedInv_step s .cancelAll h
    have := hinv.pend i c hi hp
    simp [Sched.step, dget] at this

/-- C12. A pending call whose time has come does run when the clock gets to it. -/
theorem C12_due_call_runs (s : Sched) (i : Nat) (c : Call) (h : s.calls[i]? = some c) (hp : c.st = .pending)
    (hd : c.due ≤ s.now) : (s.step (.fire i)).2 = .ran i := by
  unfold Sched.step
  simp [h, hp, hd]

example : ((Sched.init 0).outs [.schedule ['c'] 50, .schedule ['c'] 60, .fire 0, .tick 55, .fire 0, .fire 0,
      .schedule ['c'] 70, .cancel ['c'], .tick 80, .fire 1]).map (·.2)
    = [.created 0, .assertion, .none, .none, .ran 0, .none, .created 1, .none, .none, .none] := by decide

end OpenNSA
