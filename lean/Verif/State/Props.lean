import Verif.State.Spec
/-
C08: state machines; C49: observers.
-/
namespace OpenNSA
open Py

theorem mem_reserveTransitions {a b : RState} : b ∈ reserveTransitions a ↔ REdge a b := by
  constructor
  · intro h; cases a <;> cases b <;> simp [reserveTransitions] at h <;> constructor
  · intro h; cases h <;> simp [reserveTransitions]

theorem mem_provisionTransitions {a b : PState} : b ∈ provisionTransitions a ↔ PEdge a b := by
  constructor
  · intro h; cases a <;> cases b <;> simp [provisionTransitions] at h <;> constructor
  · intro h; cases h <;> simp [provisionTransitions]

theorem mem_lifecycleTransitions {a b : LState} : b ∈ lifecycleTransitions a ↔ LEdge a b := by
  constructor
  · intro h
    cases a <;> cases b <;> simp [lifecycleTransitions] at h <;> first
      | exact .fail | exact .pass | exact .terminate _ (by simp) | exact .terminated _ (by simp)
  · intro h
    cases h with
    | fail => simp [lifecycleTransitions]
    | pass => simp [lifecycleTransitions]
    | terminate _ h => cases a <;> simp [lifecycleTransitions] at h ⊢
    | terminated _ h => rcases h with rfl | rfl <;> simp [lifecycleTransitions]

theorem NsiPath.append {c : ConnStates} {xs ys : List ConnStates} (h : NsiPath c xs)
    (h2 : NsiPath ((c :: xs).getLast (by simp)) ys) : NsiPath c (xs ++ ys) := by
  induction h with
  | nil => simpa using h2
  | cons hs _ ih => exact .cons hs (ih (by simpa using h2))

theorem multiLoop_path (c : ConnStates) (ss : List RState) : NsiPath c (multiLoop c ss).1 := by
  induction ss generalizing c with
  | nil => exact .nil
  | cons s ss ih =>
    unfold multiLoop switchR
    by_cases h : s ∈ reserveTransitions c.r
    · simp only [h, if_true]
      exact .cons (.r (mem_reserveTransitions.mp h)) (ih _)
    · simp only [h, if_false]
      exact .nil

theorem stateReq_path (c : ConnStates) (q : StateReq) : NsiPath c (stateReq c q).1 := by
  cases q with
  | multi ss => exact multiLoop_path c ss
  | reserve s =>
    simp only [stateReq, switchR]
    by_cases h : s ∈ reserveTransitions c.r
    · simp only [h, if_true]; exact .cons (.r (mem_reserveTransitions.mp h)) .nil
    · simp only [h, if_false]; exact .nil
  | provision s =>
    simp only [stateReq, switchP]
    by_cases h : s ∈ provisionTransitions c.p
    · simp only [h, if_true]; exact .cons (.p (mem_provisionTransitions.mp h)) .nil
    · simp only [h, if_false]; exact .nil
  | lifecycle s =>
    simp only [stateReq, switchL]
    by_cases h : s ∈ lifecycleTransitions c.l
    · simp only [h, if_true]; exact .cons (.l (mem_lifecycleTransitions.mp h)) .nil
    · simp only [h, if_false]; exact .nil

/-- C08. In every history of requests on a fresh connection, the states the connection goes through form a
path of the NSI state machines (one machine moving along one edge at a time). -/
theorem C08_trace_is_nsi_path (c : ConnStates) (qs : List StateReq) : NsiPath c (stateTrace c qs) := by
  induction qs generalizing c with
  | nil => exact .nil
  | cons q qs ih => exact (stateReq_path c q).append (ih _)

/-- C08. A single-target request is accepted exactly when its edge exists. -/
theorem C08_accept_iff (c : ConnStates) :
    (∀ s, (stateReq c (.reserve s)).2 = true ↔ REdge c.r s) ∧
    (∀ s, (stateReq c (.provision s)).2 = true ↔ PEdge c.p s) ∧
    (∀ s, (stateReq c (.lifecycle s)).2 = true ↔ LEdge c.l s) := by
  refine ⟨fun s => ?_, fun s => ?_, fun s => ?_⟩
  · rw [← mem_reserveTransitions]; simp only [stateReq, switchR]
    by_cases h : s ∈ reserveTransitions c.r <;> simp [h]
  · rw [← mem_provisionTransitions]; simp only [stateReq, switchP]
    by_cases h : s ∈ provisionTransitions c.p <;> simp [h]
  · rw [← mem_lifecycleTransitions]; simp only [stateReq, switchL]
    by_cases h : s ∈ lifecycleTransitions c.l <;> simp [h]

/-- C08. A refused request never changes the stored row; a refused single-target request does not change the
object either. -/
theorem C08_refused_no_change (o : ConnObj) (q : StateReq) (h : (stateReq o.mem q).2 = false) :
    (o.step q).db = o.db ∧ ((∀ ss, q ≠ .multi ss) → (o.step q).mem = o.mem) := by
  refine ⟨by simp [ConnObj.step, h], ?_⟩
  intro hm
  have : (stateReq o.mem q).1 = [] := by
    cases q with
    | multi ss => exact absurd rfl (hm ss)
    | reserve s =>
      simp only [stateReq] at h ⊢
      cases hs : switchR o.mem s <;> simp [hs] at h ⊢
    | provision s =>
      simp only [stateReq] at h ⊢
      cases hs : switchP o.mem s <;> simp [hs] at h ⊢
    | lifecycle s =>
      simp only [stateReq] at h ⊢
      cases hs : switchL o.mem s <;> simp [hs] at h ⊢
  simp [ConnObj.step, this]

/-- C08, limit of the previous theorem: a refused multi-state switch leaves the in-memory object in the last
intermediate state (the stored row is unchanged). -/
theorem C08_multi_refusal_moves_object :
    ∃ (o : ConnObj) (ss : List RState), (stateReq o.mem (.multi ss)).2 = false ∧ (o.step (.multi ss)).mem ≠ o.mem :=
  ⟨⟨.fresh, .fresh⟩, [.checking, .committing], by decide, by decide⟩

/-! Consequences for whole histories. -/

theorem NsiPath.split {c d : ConnStates} {pre post : List ConnStates} (h : NsiPath c (pre ++ d :: post)) :
    NsiStep ((c :: pre).getLast (by simp)) d ∧ NsiPath d post := by
  induction pre generalizing c with
  | nil => cases h with | cons h1 h2 => exact ⟨by simpa using h1, h2⟩
  | cons x xs ih => cases h with | cons h1 h2 => simpa using ih h2

/-- C08. A connection enters `start` again only from `committing` or from `aborting`, and `committing` only from
`held`, `held` only from `checking`. -/
theorem C08_start_only_via_commit_or_abort (c d : ConnStates) (qs : List StateReq) (pre post : List ConnStates)
    (h : stateTrace c qs = pre ++ d :: post) (b : ConnStates) (hb : b = (c :: pre).getLast (by simp)) (hne : b.r ≠ d.r) :
    (d.r = .start → b.r = .committing ∨ b.r = .aborting) ∧ (d.r = .committing → b.r = .held)
    ∧ (d.r = .held → b.r = .checking) ∧ (d.r = .timeout → b.r = .held) := by
  have hp := C08_trace_is_nsi_path c qs
  rw [h] at hp
  obtain ⟨hs, _⟩ := hp.split
  rw [← hb] at hs
  cases hs with
  | r he => cases hr : b.r <;> rw [hr] at he <;> cases he <;> simp
  | p he => simp at hne
  | l he => simp at hne

/-- C08. `provisioned` is entered only from `provisioning`, `released` only from `releasing`. -/
theorem C08_provisioned_only_from_provisioning (c d : ConnStates) (qs : List StateReq) (pre post : List ConnStates)
    (h : stateTrace c qs = pre ++ d :: post) (b : ConnStates) (hb : b = (c :: pre).getLast (by simp)) (hne : b.p ≠ d.p) :
    (d.p = .provisioned → b.p = .provisioning) ∧ (d.p = .released → b.p = .releasing) := by
  have hp := C08_trace_is_nsi_path c qs
  rw [h] at hp
  obtain ⟨hs, _⟩ := hp.split
  rw [← hb] at hs
  cases hs with
  | r he => simp at hne
  | p he => cases hr : b.p <;> rw [hr] at he <;> cases he <;> simp
  | l he => simp at hne

theorem NsiPath.lifecycle {c : ConnStates} {ds : List ConnStates} (h : NsiPath c ds) :
    (c.l = .terminated → ∀ d ∈ ds, d.l = .terminated) ∧ (c.l ≠ .created → ∀ d ∈ ds, d.l ≠ .created) := by
  induction h with
  | nil => simp
  | @cons c d ds hs _ ih =>
    have h1 : c.l = .terminated → d.l = .terminated := by
      intro hc
      cases hs with
      | r => exact hc
      | p => exact hc
      | l he => rw [hc] at he; cases he with
        | terminate _ h => exact absurd rfl h
        | terminated _ h => simp at h
    have h2 : c.l ≠ .created → d.l ≠ .created := by
      intro hc
      cases hs with
      | r => exact hc
      | p => exact hc
      | l he => simp only; generalize c.l = x at he; cases he <;> simp
    refine ⟨fun hc e he => ?_, fun hc e he => ?_⟩
    · rcases List.mem_cons.mp he with rfl | he
      · exact h1 hc
      · exact ih.1 (h1 hc) e he
    · rcases List.mem_cons.mp he with rfl | he
      · exact h2 hc
      · exact ih.2 (h2 hc) e he

/-- C08. Once `terminated`, always `terminated`; once not `created`, never `created` again. -/
theorem C08_lifecycle_final (c : ConnStates) (qs : List StateReq) :
    (c.l = .terminated → ∀ d ∈ stateTrace c qs, d.l = .terminated) ∧
    (c.l ≠ .created → ∀ d ∈ stateTrace c qs, d.l ≠ .created) :=
  (C08_trace_is_nsi_path c qs).lifecycle

/-- In a path from a state with `committing` not yet visited, `committing` is preceded by `held`. -/
theorem NsiPath.committing_after_held {c : ConnStates} {ds : List ConnStates} (h : NsiPath c ds)
    (hc : c.r ≠ .committing) : ∀ pre d post, ds = pre ++ d :: post → d.r = .committing → ∃ b ∈ c :: pre, b.r = .held := by
  intro pre d post e hd
  subst e
  have key : ∀ (pre : List ConnStates) (c : ConnStates), c.r ≠ .committing → NsiPath c (pre ++ d :: post) →
      ∃ b ∈ c :: pre, b.r = .held := by
    intro pre
    induction pre with
    | nil =>
      intro c hc h
      cases h with
      | cons hs _ =>
        refine ⟨c, by simp, ?_⟩
        cases hs with
        | r he => simp only at hd; subst hd; generalize c.r = x at he; cases he; rfl
        | p => exact absurd hd hc
        | l => exact absurd hd hc
    | cons x xs ih =>
      intro c hc h
      cases h with
      | cons hs h2 =>
        by_cases hx : x.r = .committing
        · refine ⟨c, by simp, ?_⟩
          cases hs with
          | r he => simp only at hx; subst hx; generalize c.r = x at he; cases he; rfl
          | p => exact absurd hx hc
          | l => exact absurd hx hc
        · obtain ⟨b, hb, hr⟩ := ih x hx h2
          exact ⟨b, by simp at hb ⊢; right; exact hb, hr⟩
  exact key pre c hc h

/-- C08. A fresh connection is committed only after it was held: every `committing` in any history is preceded by
`held`. -/
theorem C08_commit_after_held (qs : List StateReq) (pre post : List ConnStates) (d : ConnStates)
    (h : stateTrace .fresh qs = pre ++ d :: post) (hd : d.r = .committing) : ∃ b ∈ pre, b.r = .held := by
  obtain ⟨b, hb, hr⟩ := (C08_trace_is_nsi_path .fresh qs).committing_after_held (by decide) pre d post h hd
  rcases List.mem_cons.mp hb with rfl | hb
  · exact absurd hr (by decide)
  · exact ⟨b, hb, hr⟩

example : (stateTrace .fresh [.reserve .checking, .reserve .held, .provision .provisioned, .multi [.committing, .start],
      .provision .provisioning, .lifecycle .terminated, .lifecycle .terminating]).map (fun c => (c.r, c.p, c.l))
    = [(.checking, .released, .created), (.held, .released, .created), (.committing, .released, .created),
       (.start, .released, .created), (.start, .provisioning, .created), (.start, .provisioning, .terminated)] := by
  decide

example : (stateReq .fresh (.provision .provisioned)).2 = false := by decide

/-! ### C49 -/

section
variable {α : Type} [DecidableEq α]

theorem notifyLoop_none (rem : α → List α) (l : List α) (i : Nat) (h : ∀ f ∈ l, rem f = []) :
    notifyLoop rem l i = l.drop i := by
  by_cases hi : i < l.length
  · rw [notifyLoop, dif_pos hi]
    simp only [h l[i] (List.getElem_mem _), List.foldl_nil]
    rw [notifyLoop_none rem l (i + 1) h]
    exact (List.drop_eq_getElem_cons hi).symm
  · rw [notifyLoop, dif_neg hi, List.drop_eq_nil_of_le (by omega)]
termination_by l.length - i

/-- C49 (partial). If no observer unsubscribes anybody while being called, then all observers are called once, in
order of subscription. Missing: observers that unsubscribe during notification, see `C49_self_removal`. -/
theorem C49_all_notified_partial (rem : α → List α) (l : List α) (h : ∀ f ∈ l, rem f = []) : notifyAll rem l = l := by
  unfold notifyAll
  rw [notifyLoop_none rem l 0 h]
  simp

theorem notifyLoop_self (D : α → Bool) (rem : α → List α) :
    ∀ (n : Nat) (pre suf : List α), suf.length = n → (pre ++ suf).Nodup → (∀ f ∈ suf, rem f = if D f then [f] else []) →
      notifyLoop rem (pre ++ suf) pre.length = skipWalk D suf := by
  intro n
  induction n using Nat.strongRecOn with
  | ind n ih =>
    intro pre suf hlen hnd hrem
    cases suf with
    | nil => rw [notifyLoop, dif_neg (by simp)]; rfl
    | cons x xs =>
      have hi : pre.length < (pre ++ x :: xs).length := by simp
      have hx : (pre ++ x :: xs)[pre.length]'hi = x := by simp
      have hnx : x ∉ pre := by
        intro hm
        have := (List.nodup_append.mp hnd).2.2 x hm x (by simp)
        exact this rfl
      rw [notifyLoop, dif_pos hi]
      simp only [hx, hrem x (by simp)]
      cases hD : D x with
      | false =>
        simp only [Bool.false_eq_true, if_false, List.foldl_nil]
        have := ih xs.length (by simp at hlen; omega) (pre ++ [x]) xs rfl (by simpa using hnd)
          (fun f hf => hrem f (by simp [hf]))
        simp only [List.append_assoc, List.cons_append, List.nil_append, List.length_append, List.length_cons,
          List.length_nil, Nat.zero_add] at this
        rw [this]
        cases xs with
        | nil => simp [skipWalk]
        | cons y ys => simp [skipWalk, hD]
      | true =>
        simp only [if_true, List.foldl_cons, List.foldl_nil, desub]
        have he : (pre ++ x :: xs).erase x = pre ++ xs := by
          rw [List.erase_append_right _ hnx]; simp
        rw [he]
        cases xs with
        | nil =>
          rw [notifyLoop, dif_neg (by simp)]
          simp [skipWalk]
        | cons y ys =>
          have hsub : (pre ++ y :: ys).Nodup := by
            refine hnd.sublist ?_
            exact List.Sublist.append_left (List.sublist_cons_self x (y :: ys)) pre
          have := ih ys.length (by simp at hlen; omega) (pre ++ [y]) ys rfl (by simpa using hsub)
            (fun f hf => hrem f (by simp [hf]))
          simp only [List.append_assoc, List.cons_append, List.nil_append, List.length_append, List.length_cons,
            List.length_nil, Nat.zero_add] at this
          rw [this]
          simp [skipWalk, hD]

/-- C49, exact behaviour with observers that unsubscribe themselves (as the REST auto-commit observer does):
the observer following a self-removing one is passed over. -/
theorem C49_self_removal (D : α → Bool) (l : List α) (hnd : l.Nodup) :
    notifyAll (fun f => if D f then [f] else []) l = skipWalk D l := by
  have := notifyLoop_self D (fun f => if D f then [f] else []) l.length [] l rfl (by simpa using hnd) (by simp)
  simpa [notifyAll] using this

/-- C49 is violated by the code: whenever a self-removing observer is followed by another one, the latter is not
called. -/
theorem C49_fails (D : α → Bool) (pre : List α) (x y : α) (post : List α) (hnd : (pre ++ x :: y :: post).Nodup)
    (hpre : ∀ f ∈ pre, D f = false) (hx : D x = true) :
    y ∉ notifyAll (fun f => if D f then [f] else []) (pre ++ x :: y :: post) := by
  rw [C49_self_removal D _ hnd]
  have hsub : ∀ (n : Nat) (l : List α), l.length = n → ∀ a ∈ skipWalk D l, a ∈ l := by
    intro n
    induction n using Nat.strongRecOn with
    | ind n ih =>
      intro l hl a ha
      match l, hl, ha with
      | [], _, ha => simp [skipWalk] at ha
      | [z], _, ha => simpa [skipWalk] using ha
      | z :: w :: rest, hl, ha =>
        unfold skipWalk at ha
        split at ha
        · rcases List.mem_cons.mp ha with rfl | ha
          · simp
          · have := ih rest.length (by simp at hl; omega) rest rfl a ha; simp [this]
        · rcases List.mem_cons.mp ha with rfl | ha
          · simp
          · have := ih (rest.length + 1) (by simp at hl; omega) (w :: rest) rfl a ha
            simp at this ⊢; right; exact this
  have key : ∀ (pre : List α), (∀ f ∈ pre, D f = false) → skipWalk D (pre ++ x :: y :: post) = pre ++ x :: skipWalk D post := by
    intro pre
    induction pre with
    | nil => intro _; simp [skipWalk, hx]
    | cons z zs ih =>
      intro h
      have hz := h z (by simp)
      have := ih (fun f hf => h f (by simp [hf]))
      cases zs with
      | nil => simp [skipWalk, hz, hx]
      | cons w ws => simp only [List.cons_append] at this ⊢; simp [skipWalk, hz, this]
  rw [key pre hpre]
  intro hm
  have h1 := List.nodup_append.mp hnd
  have h2 := List.nodup_cons.mp h1.2.1
  have h3 := List.nodup_cons.mp h2.2
  rcases List.mem_append.mp hm with h | h
  · exact h1.2.2 y h y (by simp) rfl
  · rcases List.mem_cons.mp h with h | h
    · exact h2.1 (by simp [h])
    · exact h3.1 (hsub _ post rfl y h)

end

example : notifyAll (fun f => if f = 1 then [f] else []) [0, 1, 2, 3] = [0, 1, 3] := by
  rw [show (fun f => if f = 1 then [f] else []) = fun f : Nat => if (fun f => decide (f = 1)) f then [f] else [] by simp,
    C49_self_removal _ _ (by decide)]
  decide

end OpenNSA
