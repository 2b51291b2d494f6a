import Verif.Requester.Model
import Mathlib.Data.List.Induction
/-
C42: the protocol requester.
-/
namespace OpenNSA.Requester
open Py

/-- Names of the calls of a history. -/
def callIds (evs : List Ev) : List Nat := evs.filterMap fun
  | .call id _ _ => some id
  | _ => none

/-- Keys of the calls of a history. -/
def callKeys (evs : List Ev) : List Key := evs.filterMap fun
  | .call _ key _ => some key
  | _ => none

/-- Which reply answers which request, as NSI 2 has it. -/
inductive Answers : Reply → Action → Prop
  | reserve : Answers .reserveConfirmed .reserve
  | reserveFailed : Answers .reserveFailed .reserve
  | commit : Answers .reserveCommitConfirmed .reserveCommit
  | commitFailed : Answers .reserveCommitFailed .reserveCommit
  | provision : Answers .provisionConfirmed .provision
  | release : Answers .releaseConfirmed .release
  | terminate : Answers .terminateConfirmed .terminate
  | query : Answers .queryRecursiveConfirmed .queryRecursive

theorem action_iff {r : Reply} {a : Action} : r.action = some a ↔ Answers r a ∧ r ≠ .reserveCommitFailed := by
  constructor
  · intro h
    cases r <;> simp only [Reply.action, Option.some.injEq, reduceCtorEq] at h <;> subst h <;> exact ⟨by constructor, by decide⟩
  · rintro ⟨h, hn⟩
    cases h <;> first | rfl | exact absurd rfl hn

/-- `res` is the outcome the history justifies for a call with this key and action: a reply with the key and
answering that action, a failed invocation of it, or a timer that ran for a call with this key and action. -/
def Justified (evs : List Ev) (key : Key) (act : Action) : Result → Prop
  | .reply r p => .reply r key p ∈ evs ∧ Answers r act
  | .invocationFailed e => .failed key act e ∈ evs
  | .timeout => ∃ id, .fire id ∈ evs ∧ .call id key act ∈ evs

theorem Justified.mono {evs evs' : List Ev} {key : Key} {act : Action} {res : Result} (h : Justified evs key act res)
    (hs : ∀ e ∈ evs, e ∈ evs') : Justified evs' key act res := by
  cases res with
  | reply r p => exact ⟨hs _ h.1, h.2⟩
  | invocationFailed e => exact hs _ h
  | timeout => obtain ⟨id, h1, h2⟩ := h; exact ⟨id, hs _ h1, hs _ h2⟩

/-- What holds after a history with distinct call names. -/
structure Inv (evs : List Ev) (s : Req) : Prop where
  keys : (dkeys s.calls).Nodup
  timers : (dkeys s.timers).Nodup
  done : (dkeys s.done).Nodup
  pending : ∀ key act id, dget s.calls key = some (act, id) →
    .call id key act ∈ evs ∧ dget s.timers id = some (key, act) ∧ id ∉ dkeys s.done
  timer : ∀ id key act, dget s.timers id = some (key, act) → .call id key act ∈ evs ∧ id ∉ dkeys s.done
  own : ∀ id res, (id, res) ∈ s.done → ∃ key act, .call id key act ∈ evs ∧ Justified evs key act res

theorem Inv.mono {evs evs' : List Ev} {s : Req} (h : Inv evs s) (hs : ∀ e ∈ evs, e ∈ evs') : Inv evs' s := by
  refine ⟨h.keys, h.timers, h.done, ?_, ?_, ?_⟩
  · intro key act id hp; obtain ⟨h1, h2⟩ := h.pending key act id hp; exact ⟨hs _ h1, h2⟩
  · intro id key act hp; obtain ⟨h1, h2⟩ := h.timer id key act hp; exact ⟨hs _ h1, h2⟩
  · intro id res hd; obtain ⟨key, act, h1, h2⟩ := h.own id res hd; exact ⟨key, act, hs _ h1, h2.mono hs⟩

theorem mem_callIds {evs : List Ev} {id : Nat} : id ∈ callIds evs ↔ ∃ key act, Ev.call id key act ∈ evs := by
  unfold callIds
  rw [List.mem_filterMap]
  constructor
  · rintro ⟨e, he, h⟩
    cases e <;> simp at h
    subst h
    exact ⟨_, _, he⟩
  · rintro ⟨key, act, h⟩; exact ⟨_, h, rfl⟩

theorem call_unique {evs : List Ev} (hn : (callIds evs).Nodup) {id : Nat} {k k' : Key} {a a' : Action}
    (h : Ev.call id k a ∈ evs) (h' : Ev.call id k' a' ∈ evs) : k = k' ∧ a = a' := by
  induction evs with
  | nil => simp at h
  | cons e evs ih =>
    rcases List.mem_cons.1 h with he | h1 <;> rcases List.mem_cons.1 h' with he' | h2
    · rw [← he'] at he
      simpa using he
    · subst he
      have := mem_callIds.2 ⟨_, _, h2⟩
      exact absurd this (List.nodup_cons.1 hn).1
    · subst he'
      have := mem_callIds.2 ⟨_, _, h1⟩
      exact absurd this (List.nodup_cons.1 hn).1
    · exact ih (by
        unfold callIds at hn ⊢
        rw [List.filterMap_cons] at hn
        split at hn
        · exact hn
        · exact (List.nodup_cons.1 hn).2) h1 h2

theorem not_mem_dkeys_of_dget_none {κ ν : Type} [DecidableEq κ] {d : List (κ × ν)} {k : κ} (h : dget d k = none) : k ∉ dkeys d := by
  rw [dget_none] at h
  simp only [dkeys, List.mem_map, not_exists, not_and]
  exact fun e he hk => h e he hk

/-- `triggerCall` keeps the invariant if the outcome is justified. -/
theorem Inv.trigger {evs : List Ev} {s : Req} (hu : (callIds evs).Nodup) (h : Inv evs s) {key : Key} {act : Action} {res : Result}
    (hj : Justified evs key act res) : Inv evs (s.triggerCall key act res) := by
  unfold Req.triggerCall
  split
  · exact h
  · rename_i ract id hc
    obtain ⟨hp1, hp2, hp3⟩ := h.pending _ _ _ hc
    have hcalls : ∀ key' act' id', dget (ddel s.calls key) key' = some (act', id') → key' ≠ key ∧ dget s.calls key' = some (act', id') := by
      intro key' act' id' hx
      rw [dget_ddel] at hx
      split at hx
      · exact absurd hx (by simp)
      · rename_i hne; exact ⟨fun e => hne e.symm, hx⟩
    simp only
    split
    · refine ⟨nodup_ddel h.keys _, h.timers, h.done, ?_, h.timer, h.own⟩
      intro key' act' id' hx
      exact h.pending _ _ _ (hcalls _ _ _ hx).2
    · rename_i hact
      simp only [ne_eq, Decidable.not_not] at hact
      subst hact
      have hmem : ∀ x, x ∈ dkeys (s.done ++ [(id, res)]) ↔ x ∈ dkeys s.done ∨ x = id := by
        intro x; simp [dkeys]
      have hne : ∀ key' act' id', Ev.call id' key' act' ∈ evs → key' ≠ key → id' ≠ id := by
        rintro key' act' id' hx hk rfl
        exact hk (call_unique hu hx hp1).1
      refine ⟨nodup_ddel h.keys _, nodup_ddel h.timers _, ?_, ?_, ?_, ?_⟩
      · simp only [dkeys, List.map_append, List.map_cons, List.map_nil]
        rw [List.nodup_append]
        refine ⟨h.done, by simp, ?_⟩
        rintro x hx y hy rfl
        simp only [List.mem_singleton] at hy
        subst hy
        exact hp3 hx
      · intro key' act' id' hx
        obtain ⟨hk, hx⟩ := hcalls _ _ _ hx
        obtain ⟨h1, h2, h3⟩ := h.pending _ _ _ hx
        have hi := hne _ _ _ h1 hk
        refine ⟨h1, by rw [dget_ddel, if_neg (fun e => hi e.symm)]; exact h2, ?_⟩
        rw [hmem]
        rintro (hm | hm)
        · exact h3 hm
        · exact hi hm
      · intro id' key' act' hx
        simp only at hx
        rw [dget_ddel] at hx
        split at hx
        · exact absurd hx (by simp)
        · rename_i hi
          obtain ⟨h1, h2⟩ := h.timer _ _ _ hx
          refine ⟨h1, ?_⟩
          rw [hmem]
          rintro (hm | hm)
          · exact h2 hm
          · exact hi hm.symm
      · intro id' res' hx
        rcases List.mem_append.1 hx with hx | hx
        · exact h.own _ _ hx
        · simp only [List.mem_singleton, Prod.mk.injEq] at hx
          obtain ⟨rfl, rfl⟩ := hx
          exact ⟨key, ract, hp1, hj⟩

theorem Inv.dropTimer {evs : List Ev} {s : Req} {id : Nat} {key : Key} {act : Action} {res : Result} (hu : (callIds evs).Nodup)
    (h : Inv evs s) (ht : dget s.timers id = some (key, act)) (hj : Justified evs key act res) :
    Inv evs ({ s with timers := ddel s.timers id }.triggerCall key act res) := by
  have ht1 := (h.timer _ _ _ ht).1
  cases hc : dget s.calls key with
  | none =>
    have : ({ s with timers := ddel s.timers id } : Req).triggerCall key act res = { s with timers := ddel s.timers id } := by
      simp [Req.triggerCall, hc]
    rw [this]
    refine ⟨h.keys, nodup_ddel h.timers _, h.done, ?_, ?_, h.own⟩
    · intro key' act' id' hx
      obtain ⟨h1, h2, h3⟩ := h.pending _ _ _ hx
      refine ⟨h1, ?_, h3⟩
      simp only
      rw [dget_ddel]
      split
      · rename_i he
        subst he
        rw [(call_unique hu h1 ht1).1] at hx
        rw [hc] at hx
        exact absurd hx (by simp)
      · exact h2
    · intro id' key' act' hx
      simp only at hx
      rw [dget_ddel] at hx
      split at hx
      · exact absurd hx (by simp)
      · exact h.timer _ _ _ hx
  | some a =>
    obtain ⟨ract, cid⟩ := a
    -- the timer is dropped after or before the call is handled: the same
    have hp := h.pending _ _ _ hc
    have base := h.trigger hu hj (key := key) (act := act) (res := res)
    unfold Req.triggerCall at base ⊢
    simp only [hc] at base ⊢
    split
    · rename_i hne
      rw [if_pos hne] at base
      refine ⟨base.keys, nodup_ddel h.timers _, base.done, ?_, ?_, base.own⟩
      · intro key' act' id' hx
        obtain ⟨h1, h2, h3⟩ := base.pending _ _ _ hx
        refine ⟨h1, ?_, h3⟩
        simp only
        rw [dget_ddel]
        split
        · rename_i he
          subst he
          have hk := (call_unique hu h1 ht1).1
          subst hk
          simp only at hx
          rw [dget_ddel, if_pos rfl] at hx
          exact absurd hx (by simp)
        · exact h2
      · intro id' key' act' hx
        simp only at hx
        rw [dget_ddel] at hx
        split at hx
        · exact absurd hx (by simp)
        · exact h.timer _ _ _ hx
    · rename_i hne
      rw [if_neg hne] at base
      refine ⟨base.keys, nodup_ddel (nodup_ddel h.timers _) _, base.done, ?_, ?_, base.own⟩
      · intro key' act' id' hx
        obtain ⟨h1, h2, h3⟩ := base.pending _ _ _ hx
        refine ⟨h1, ?_, h3⟩
        simp only at h2 ⊢
        rw [dget_ddel] at h2 ⊢
        split
        · rename_i he; rw [if_pos he] at h2; exact h2
        · rename_i hne2
          rw [if_neg hne2] at h2
          rw [dget_ddel]
          split
          · rename_i he
            subst he
            have hk := (call_unique hu h1 ht1).1
            subst hk
            simp only at hx
            rw [dget_ddel, if_pos rfl] at hx
            exact absurd hx (by simp)
          · exact h2
      · intro id' key' act' hx
        simp only at hx
        rw [dget_ddel] at hx
        split at hx
        · exact absurd hx (by simp)
        · rename_i hne2
          rw [dget_ddel] at hx
          split at hx
          · exact absurd hx (by simp)
          · refine base.timer id' key' act' ?_
            simp only
            rw [dget_ddel, if_neg hne2]
            exact hx

theorem callIds_append (a b : List Ev) : callIds (a ++ b) = callIds a ++ callIds b := by simp [callIds]

theorem Inv.step {evs : List Ev} {s : Req} (e : Ev) (hu : (callIds (evs ++ [e])).Nodup) (h : Inv evs s) :
    Inv (evs ++ [e]) (s.step e) := by
  have hm := h.mono (evs' := evs ++ [e]) (fun x hx => List.mem_append_left _ hx)
  have hlast : e ∈ evs ++ [e] := by simp
  cases e with
  | call id key act =>
    simp only [Req.step, Req.addCall]
    split
    · exact hm
    · rename_i hk
      simp only [dmem, Bool.not_eq_true, Option.isSome_eq_false_iff, Option.isNone_iff_eq_none] at hk
      have hfresh : id ∉ callIds evs := by
        rw [callIds_append, List.nodup_append] at hu
        exact fun hx => hu.2.2 id hx id (by simp [callIds]) rfl
      have hnodone : id ∉ dkeys s.done := by
        intro hx
        obtain ⟨⟨i, r⟩, hx', rfl⟩ := List.mem_map.1 hx
        obtain ⟨k, a, hc, -⟩ := h.own _ _ hx'
        exact hfresh (mem_callIds.2 ⟨k, a, hc⟩)
      refine ⟨nodup_dset h.keys _ _, nodup_dset h.timers _ _, h.done, ?_, ?_, hm.own⟩
      · intro key' act' id' hx
        simp only [Option.getD_some] at hx ⊢
        rw [dget_dset] at hx
        split at hx
        · rename_i hkk
          simp only [Option.some.injEq, Prod.mk.injEq] at hx
          obtain ⟨rfl, rfl⟩ := hx
          subst hkk
          exact ⟨hlast, by simp [dget_dset], hnodone⟩
        · obtain ⟨h1, h2, h3⟩ := h.pending _ _ _ hx
          refine ⟨List.mem_append_left _ h1, ?_, h3⟩
          rw [dget_dset]
          split
          · rename_i hi; subst hi; exact absurd (mem_callIds.2 ⟨_, _, h1⟩) hfresh
          · exact h2
      · intro id' key' act' hx
        simp only [Option.getD_some] at hx ⊢
        rw [dget_dset] at hx
        split at hx
        · rename_i hi
          simp only [Option.some.injEq, Prod.mk.injEq] at hx
          obtain ⟨rfl, rfl⟩ := hx
          subst hi
          exact ⟨hlast, hnodone⟩
        · exact hm.timer _ _ _ hx
  | failed key act err => exact hm.trigger hu (by exact hlast)
  | reply r key p =>
    simp only [Req.step]
    split
    · exact hm
    · rename_i act ha
      exact hm.trigger hu ⟨hlast, (action_iff.1 ha).1⟩
  | fire id =>
    simp only [Req.step]
    split
    · exact hm
    · rename_i key act ht
      exact hm.dropTimer hu ht ⟨id, hlast, (hm.timer _ _ _ ht).1⟩

theorem Req.run_snoc (s : Req) (evs : List Ev) (e : Ev) : s.run (evs ++ [e]) = (s.run evs).step e := by simp [Req.run]

theorem Req.run_append (s : Req) (a b : List Ev) : s.run (a ++ b) = (s.run a).run b := by simp [Req.run]

theorem inv_run (evs : List Ev) (hu : (callIds evs).Nodup) : Inv evs (Req.new.run evs) := by
  induction evs using List.reverseRecOn with
  | nil => exact ⟨List.nodup_nil, List.nodup_nil, List.nodup_nil, by simp [Req.run, Req.new, dget], by simp [Req.run, Req.new, dget], by simp [Req.run, Req.new]⟩
  | append_singleton evs e ih =>
    rw [Req.run_snoc]
    refine Inv.step e hu (ih ?_)
    rw [callIds_append, List.nodup_append] at hu
    exact hu.1

/-- **C42, at most once.** In every history of calls, replies, failed invocations and timeouts — with correlation ids
reused or forged at will — every call completes at most once, and a call that completed is no longer pending.
(`callIds` only names the calls: every call has its own deferred.) -/
theorem C42_at_most_once (evs : List Ev) (hu : (callIds evs).Nodup) :
    ((Req.new.run evs).done.map (·.1)).Nodup ∧
    ∀ key act id, dget (Req.new.run evs).calls key = some (act, id) → ∀ res, (id, res) ∉ (Req.new.run evs).done := by
  have h := inv_run evs hu
  exact ⟨h.done, fun key act id hp res hm => (h.pending _ _ _ hp).2.2 (List.mem_map.2 ⟨_, hm, rfl⟩)⟩

/-- **C42, its own reply.** What a call completes with is a reply carrying its NSA and correlation id and answering its
action, the failure to send it, or a timeout. -/
theorem C42_own_reply (evs : List Ev) (hu : (callIds evs).Nodup) (id : Nat) (res : Result) (h : (id, res) ∈ (Req.new.run evs).done) :
    ∃ key act, .call id key act ∈ evs ∧ Justified evs key act res := (inv_run evs hu).own id res h

theorem key_unique {evs : List Ev} (hn : (callKeys evs).Nodup) {key : Key} {i i' : Nat} {a a' : Action}
    (h : Ev.call i key a ∈ evs) (h' : Ev.call i' key a' ∈ evs) : i = i' := by
  induction evs with
  | nil => simp at h
  | cons e evs ih =>
    have hk : ∀ {i a}, Ev.call i key a ∈ evs → key ∈ callKeys evs := fun h => List.mem_filterMap.2 ⟨_, h, rfl⟩
    rcases List.mem_cons.1 h with he | h1 <;> rcases List.mem_cons.1 h' with he' | h2
    · rw [← he'] at he
      simp only [Ev.call.injEq] at he
      exact he.1
    · subst he; exact absurd (hk h2) (List.nodup_cons.1 hn).1
    · subst he'; exact absurd (hk h1) (List.nodup_cons.1 hn).1
    · exact ih (by
        unfold callKeys at hn ⊢
        rw [List.filterMap_cons] at hn
        split at hn
        · exact hn
        · exact (List.nodup_cons.1 hn).2) h1 h2

/-- **C42, its own timeout.** If correlation ids are not reused, a call that completes with a timeout does so because its
own timer ran. -/
theorem C42_own_timeout (evs : List Ev) (hu : (callIds evs).Nodup) (hk : (callKeys evs).Nodup) (id : Nat)
    (h : (id, Result.timeout) ∈ (Req.new.run evs).done) : .fire id ∈ evs := by
  obtain ⟨key, act, hc, id', hf, hc'⟩ := C42_own_reply evs hu id _ h
  rwa [key_unique hk hc hc']

/-- **C42, unknown replies.** A reply whose NSA and correlation id belong to no pending call — unknown, or answered before —
changes nothing at all. A reply never changes the state of other calls. -/
theorem C42_unknown_ignored (s : Req) (r : Reply) (key : Key) (p : Str) :
    (dget s.calls key = none → s.step (.reply r key p) = s) ∧
    (∀ key', key' ≠ key → dget (s.step (.reply r key p)).calls key' = dget s.calls key') := by
  constructor
  · intro h
    simp only [Req.step]
    split
    · rfl
    · simp [Req.triggerCall, h]
  · intro key' hne
    simp only [Req.step]
    split
    · rfl
    · unfold Req.triggerCall
      split
      · rfl
      · simp only
        split
        · simp only [dget_ddel]; rw [if_neg (fun e => hne e.symm)]
        · simp only [dget_ddel]; rw [if_neg (fun e => hne e.symm)]

/-- **C42, distinct keys.** Two pending calls never have the same NSA and correlation id: a second call with the key of a
pending one is refused and changes nothing. -/
theorem C42_no_shared_key (evs : List Ev) (hu : (callIds evs).Nodup) :
    ((Req.new.run evs).calls.map (·.1)).Nodup ∧
    ∀ key act id act' id', dget (Req.new.run evs).calls key = some (act, id) →
      (Req.new.run evs).addCall id' key act' = none := by
  refine ⟨(inv_run evs hu).keys, ?_⟩
  intro key act id act' id' h
  simp [Req.addCall, dmem, h]

/-- **C42, completion.** A pending call completes with the first reply that carries its key and answers its action (except for failed commits, see
`C42_commit_failed_fails`); the
timer of a pending call is running, and when it goes off the call completes with a timeout. -/
theorem C42_completes (evs : List Ev) (hu : (callIds evs).Nodup) (key : Key) (act : Action) (id : Nat)
    (hp : dget (Req.new.run evs).calls key = some (act, id)) :
    (∀ r p, Answers r act → r ≠ .reserveCommitFailed → ((Req.new.run evs).step (.reply r key p)).done = (Req.new.run evs).done ++ [(id, .reply r p)]) ∧
    ((Req.new.run evs).step (.fire id)).done = (Req.new.run evs).done ++ [(id, .timeout)] := by
  constructor
  · intro r p hr hn
    simp [Req.step, action_iff.2 ⟨hr, hn⟩, Req.triggerCall, hp]
  · have ht := ((inv_run evs hu).pending _ _ _ hp).2.1
    simp [Req.step, ht, Req.triggerCall, hp]

/-- Every reply in the history that carries the key answers this action (or has no method to go to). -/
def OnlyAnswers (evs : List Ev) (key : Key) (act : Action) : Prop :=
  (∀ r p a, Ev.reply r key p ∈ evs → r ≠ .reserveCommitFailed → Answers r a → a = act) ∧ (∀ a e, Ev.failed key a e ∈ evs → a = act)

theorem pending_or_done {evs : List Ev} {s : Req} {key : Key} {act : Action} {id : Nat} (e : Ev) (hi : Inv evs s)
    (hk : Ev.call id key act ∈ evs) (hku : (callKeys (evs ++ [e])).Nodup)
    (hr : (∀ r p a, e = .reply r key p → r.action = some a → a = act) ∧ (∀ a x, e = .failed key a x → a = act))
    (h : dget s.calls key = some (act, id) ∨ id ∈ dkeys s.done) :
    dget (s.step e).calls key = some (act, id) ∨ id ∈ dkeys (s.step e).done := by
  -- handling an outcome
  have trig : ∀ (s : Req) key' act' res, (dget s.calls key = some (act, id) ∨ id ∈ dkeys s.done) → (key' = key → act' = act) →
      (dget (s.triggerCall key' act' res).calls key = some (act, id) ∨ id ∈ dkeys (s.triggerCall key' act' res).done) := by
    intro s key' act' res h ha
    unfold Req.triggerCall
    split
    · exact h
    · rename_i ract i hc
      simp only
      by_cases hkk : key' = key
      · subst hkk
        obtain rfl := ha rfl
        rcases h with h | h
        · rw [hc] at h
          simp only [Option.some.injEq, Prod.mk.injEq] at h
          obtain ⟨rfl, rfl⟩ := h
          simp [dkeys]
        · split
          · exact .inr h
          · exact .inr (by simp only [dkeys, List.map_append, List.mem_append]; exact .inl h)
      · split
        · rcases h with h | h
          · exact .inl (by simp only [dget_ddel]; rw [if_neg hkk]; exact h)
          · exact .inr h
        · rcases h with h | h
          · exact .inl (by simp only [dget_ddel]; rw [if_neg hkk]; exact h)
          · exact .inr (by simp only [dkeys, List.map_append, List.mem_append]; exact .inl h)
  cases e with
  | call i k a =>
    simp only [Req.step, Req.addCall]
    split
    · exact h
    · rename_i hm
      rcases h with h | h
      · refine .inl ?_
        simp only [Option.getD_some]
        rw [dget_dset]
        split
        · rename_i he; subst he; simp [dmem, h] at hm
        · exact h
      · exact .inr h
  | failed k a x =>
    exact trig s k a _ h fun he => hr.2 a x (by rw [he])
  | reply r k p =>
    simp only [Req.step]
    split
    · exact h
    · rename_i a ha
      exact trig s k a _ h fun he => hr.1 r p a (by rw [he]) ha
  | fire i =>
    simp only [Req.step]
    split
    · exact h
    · rename_i k a ht
      refine trig _ k a _ h ?_
      intro he
      have hc := (hi.timer _ _ _ ht).1
      subst he
      have hku' : (callKeys evs).Nodup := by
        unfold callKeys at hku ⊢
        rw [List.filterMap_append, List.nodup_append] at hku
        exact hku.1
      have := key_unique hku' hc hk
      subst this
      -- the same call: the same action
      have hall : ∀ (l : List Ev), (callKeys l).Nodup → ∀ {i : Nat} {a a' : Action}, Ev.call i k a ∈ l → Ev.call i k a' ∈ l → a = a' := by
        intro l
        induction l with
        | nil => intro _ _ _ _ h; simp at h
        | cons e l ih =>
          intro hn i a a' h h'
          have hkk : ∀ {i a}, Ev.call i k a ∈ l → k ∈ callKeys l := fun h => List.mem_filterMap.2 ⟨_, h, rfl⟩
          rcases List.mem_cons.1 h with he | h1 <;> rcases List.mem_cons.1 h' with he' | h2
          · rw [← he'] at he
            simpa using he
          · subst he; exact absurd (hkk h2) (List.nodup_cons.1 hn).1
          · subst he'; exact absurd (hkk h1) (List.nodup_cons.1 hn).1
          · exact ih (by
              unfold callKeys at hn ⊢
              rw [List.filterMap_cons] at hn
              split at hn
              · exact hn
              · exact (List.nodup_cons.1 hn).2) h1 h2
      exact hall evs hku' hc hk

theorem run_pending_or_done {key : Key} {act : Action} {id : Nat} (before after : List Ev)
    (hu : (callIds (before ++ after)).Nodup) (hku : (callKeys (before ++ after)).Nodup)
    (hk : Ev.call id key act ∈ before) (hr : OnlyAnswers after key act)
    (h : dget (Req.new.run before).calls key = some (act, id)) :
    dget (Req.new.run (before ++ after)).calls key = some (act, id) ∨ id ∈ dkeys (Req.new.run (before ++ after)).done := by
  induction after using List.reverseRecOn with
  | nil => simpa using Or.inl h
  | append_singleton after e ih =>
    rw [← List.append_assoc] at hu hku ⊢
    have hu' : (callIds (before ++ after)).Nodup := by
      rw [callIds_append, List.nodup_append] at hu; exact hu.1
    have hku' : (callKeys (before ++ after)).Nodup := by
      unfold callKeys at hku ⊢
      rw [List.filterMap_append, List.nodup_append] at hku; exact hku.1
    have := ih hu' hku' ⟨fun r p a hm => hr.1 r p a (List.mem_append_left _ hm), fun a x hm => hr.2 a x (List.mem_append_left _ hm)⟩
    rw [Req.run_snoc]
    refine pending_or_done e (inv_run _ hu') (List.mem_append_left _ hk) hku ?_ this
    exact ⟨fun r p a he hra => hr.1 r p a (by rw [← he]; simp) (action_iff.1 hra).2 (action_iff.1 hra).1, fun a x he => hr.2 a x (by rw [← he]; simp)⟩

/-- **C42, every call completes.** A call that was accepted, whose timer ran at some later time, has completed — provided
correlation ids are not reused and every reply carrying its key answers its action. (Without the last condition:
`C42_lost_fails`.) -/
theorem C42_eventually_partial (before mid after : List Ev) (key : Key) (act : Action) (id : Nat)
    (hu : (callIds (before ++ mid ++ .fire id :: after)).Nodup) (hku : (callKeys (before ++ mid ++ .fire id :: after)).Nodup)
    (hr : OnlyAnswers (mid ++ .fire id :: after) key act)
    (h : dget (Req.new.run before).calls key = some (act, id)) :
    ∃ res, (id, res) ∈ (Req.new.run (before ++ mid ++ .fire id :: after)).done := by
  have key' : ∀ (s : Req) (evs : List Ev) x, x ∈ dkeys s.done → x ∈ dkeys (s.run evs).done := by
    intro s evs x hx
    induction evs generalizing s with
    | nil => exact hx
    | cons e evs ih =>
      refine ih (s.step e) ?_
      have trig : ∀ (s : Req) k a r, x ∈ dkeys s.done → x ∈ dkeys (s.triggerCall k a r).done := by
        intro s k a r hx
        unfold Req.triggerCall
        split
        · exact hx
        · simp only
          split
          · exact hx
          · simp only [dkeys, List.map_append, List.mem_append]; exact .inl hx
      cases e with
      | call i k a =>
        simp only [Req.step, Req.addCall]
        split <;> exact hx
      | failed k a e => exact trig _ _ _ _ hx
      | reply r k p => simp only [Req.step]; split <;> first | exact hx | exact trig _ _ _ _ hx
      | fire i => simp only [Req.step]; split <;> first | exact hx | exact trig _ _ _ _ hx
  have hu1 : (callIds (before ++ mid)).Nodup := by
    rw [callIds_append, List.nodup_append] at hu; exact hu.1
  have hku1 : (callKeys (before ++ mid)).Nodup := by
    unfold callKeys at hku ⊢
    rw [List.filterMap_append, List.nodup_append] at hku; exact hku.1
  have hub : (callIds before).Nodup := by
    rw [callIds_append, List.nodup_append] at hu1; exact hu1.1
  have hin := ((inv_run before hub).pending _ _ _ h).1
  have h1 := run_pending_or_done before mid hu1 hku1 hin
    ⟨fun r p a hm => hr.1 r p a (List.mem_append_left _ hm), fun a x hm => hr.2 a x (List.mem_append_left _ hm)⟩ h
  have h2 : id ∈ dkeys (Req.new.run (before ++ mid ++ [.fire id])).done := by
    rw [Req.run_snoc]
    rcases h1 with h1 | h1
    · rw [(C42_completes _ hu1 _ _ _ h1).2]
      simp [dkeys]
    · exact key' _ [.fire id] _ h1
  have h3 := key' _ after _ h2
  rw [← Req.run_append] at h3
  simp only [List.append_assoc, List.singleton_append] at h3
  rw [List.append_assoc]
  obtain ⟨⟨i, res⟩, hm, rfl⟩ := List.mem_map.1 h3
  exact ⟨res, hm⟩

/-! ### Examples -/
namespace Ex
/-- Two providers, two correlation ids. -/
def kA : Key := ("a:nsa".toList, "c1".toList)
def kB : Key := ("b:nsa".toList, "c2".toList)
/-- Two calls; the second is answered, a duplicate and a stray reply follow, then the timers run. -/
def hist : List Ev := [.call 0 kA .reserve, .call 1 kB .provision, .reply .provisionConfirmed kB "p".toList,
  .reply .provisionConfirmed kB "again".toList, .reply .reserveConfirmed ("b:nsa".toList, "c1".toList) "stray".toList, .fire 1, .fire 0,
  .reply .reserveConfirmed kA "late".toList]

/-- `C42_at_most_once`, `C42_own_reply`, `C42_own_timeout` -/
example : (callIds hist).Nodup ∧ (callKeys hist).Nodup ∧
    (Req.new.run hist).done = [(1, .reply .provisionConfirmed "p".toList), (0, .timeout)] := by decide +kernel
/-- `C42_completes`, `C42_no_shared_key`, `C42_unknown_ignored`: a pending call, and a key without one -/
example : dget (Req.new.run (hist.take 2)).calls kB = some (.provision, 1) ∧ Answers .provisionConfirmed .provision ∧
    dget (Req.new.run (hist.take 3)).calls kB = none := ⟨by decide +kernel, .provision, by decide +kernel⟩
/-- `C42_eventually_partial` -/
example : hist = hist.take 2 ++ (hist.drop 2).take 4 ++ .fire 0 :: hist.drop 7 ∧
    dget (Req.new.run (hist.take 2)).calls kA = some (.reserve, 0) ∧
    OnlyAnswers ((hist.drop 2).take 4 ++ .fire 0 :: hist.drop 7) kA .reserve := by
  refine ⟨by decide +kernel, by decide +kernel, ?_, ?_⟩
  · intro r p a hm _ ha
    simp only [hist, List.drop, List.take, List.cons_append, List.nil_append, List.mem_cons, Ev.reply.injEq, reduceCtorEq,
      List.not_mem_nil, or_false, false_or] at hm
    rcases hm with ⟨_, hk, _⟩ | ⟨_, hk, _⟩ | ⟨_, hk, _⟩ | ⟨rfl, _, _⟩
    · exact absurd hk (by decide +kernel)
    · exact absurd hk (by decide +kernel)
    · exact absurd hk (by decide +kernel)
    · cases ha; rfl
  · intro a e hm
    simp [hist] at hm
end Ex

/-- **C42 violated: a call can get lost.** A reply of another kind with the key of a pending call removes the call
(requester.py:57) before the assertion of line 63 fails: the call completes neither with the right reply, which arrives next,
nor with its timeout. -/
theorem C42_lost_fails : ∃ (evs : List Ev) (id : Nat) (key : Key) (act : Action) (r : Reply) (p : Str),
    (callIds evs).Nodup ∧ (callKeys evs).Nodup ∧ .call id key act ∈ evs ∧ .reply r key p ∈ evs ∧ Answers r act ∧
    .fire id ∈ evs ∧ (Req.new.run evs).done = [] ∧ (Req.new.run evs).timers = [] :=
  ⟨[.call 0 Ex.kA .reserve, .reply .provisionConfirmed Ex.kA [], .reply .reserveConfirmed Ex.kA [], .fire 0], 0, Ex.kA, .reserve,
    .reserveConfirmed, [], by decide +kernel, by decide +kernel, by decide +kernel, by decide +kernel, .reserve, by decide +kernel, by decide +kernel,
    by decide +kernel⟩

/-- **C42 violated: a failed commit is not reported.** `Requester` has no `reserveCommitFailed` (nor `reserveAbortConfirmed`):
the reply of the provider is lost and the call completes with the timeout. -/
theorem C42_commit_failed_fails (s : Req) (key : Key) (p : Str) :
    s.step (.reply .reserveCommitFailed key p) = s := rfl

/-- `C42_commit_failed_fails`: the call is pending, the reply to it arrives, the outcome is a timeout. -/
example : (Req.new.run [.call 0 Ex.kA .reserveCommit, .reply .reserveCommitFailed Ex.kA [], .fire 0]).done = [(0, .timeout)] := by
  decide +kernel

/-- **C42 violated with a reused correlation id**: the timer of a lost call ends a later call with the same key. -/
theorem C42_stale_timer_fails : ∃ (evs : List Ev) (id : Nat), (callIds evs).Nodup ∧ (id, Result.timeout) ∈ (Req.new.run evs).done ∧
    .fire id ∉ evs :=
  ⟨[.call 0 Ex.kA .reserve, .reply .provisionConfirmed Ex.kA [], .call 1 Ex.kA .reserve, .fire 0], 1, by decide +kernel⟩

end OpenNSA.Requester
