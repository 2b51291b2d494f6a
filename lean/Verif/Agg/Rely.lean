import Verif.Agg.ReachLemmas
/-
Reasoning about interleaved execution: a coroutine is safe if, whatever other coroutines do while it is suspended (as far as they
keep the invariant `I` and change the state only as `K` allows), each of its uninterrupted parts does the same.
-/
namespace OpenNSA.Agg
open OpenNSA Py Coro

section
variable (I : World → Prop) (K : World → World → Prop)

/-- `w0` is the state at the beginning of the uninterrupted part, `w` the current one. -/
def Safe {α : Type} : Prog α → World → World → (α → World → World → Prop) → Prop
  | .pure a, w0, w, Q => Q a w0 w
  | .throw _, w0, w, _ => I w ∧ K w0 w
  | .cmd c k, w0, w, Q =>
    if Cmd.isAsync c then
      I w ∧ K w0 w ∧ ∀ w1, K w w1 → I w1 →
        (I (exec w1 c).1 ∧ K w1 (exec w1 c).1 ∧ ∀ w2, K (exec w1 c).1 w2 → I w2 → Safe (k (exec w1 c).2) w2 w2 Q)
    else Safe (k (exec w c).2) w0 (exec w c).1 Q

variable {I K}

theorem Safe.mono {α : Type} {p : Prog α} : ∀ {w0 w : World} {Q Q' : α → World → World → Prop}, Safe I K p w0 w Q →
    (∀ a v0 v, Q a v0 v → Q' a v0 v) → Safe I K p w0 w Q' := by
  induction p with
  | pure a => intro w0 w Q Q' h hq; exact hq _ _ _ h
  | throw e => intro w0 w Q Q' h _; exact h
  | cmd c k ih =>
    intro w0 w Q Q' h hq
    simp only [Safe] at h ⊢
    split
    · rename_i hc
      rw [if_pos hc] at h
      exact ⟨h.1, h.2.1, fun w1 h1 h2 => ⟨(h.2.2 w1 h1 h2).1, (h.2.2 w1 h1 h2).2.1, fun w2 h3 h4 => ih _ ((h.2.2 w1 h1 h2).2.2 w2 h3 h4) hq⟩⟩
    · rename_i hc
      rw [if_neg hc] at h
      exact ih _ h hq

theorem Safe.bind {α β : Type} {p : Prog α} {f : α → Prog β} : ∀ {w0 w : World} {Q : β → World → World → Prop},
    Safe I K p w0 w (fun a v0 v => Safe I K (f a) v0 v Q) → Safe I K (p.bind f) w0 w Q := by
  induction p with
  | pure a => intro w0 w Q h; exact h
  | throw e => intro w0 w Q h; exact h
  | cmd c k ih =>
    intro w0 w Q h
    simp only [Safe, Coro.bind] at h ⊢
    split
    · rename_i hc
      rw [if_pos hc] at h
      exact ⟨h.1, h.2.1, fun w1 h1 h2 => ⟨(h.2.2 w1 h1 h2).1, (h.2.2 w1 h1 h2).2.1, fun w2 h3 h4 => ih _ ((h.2.2 w1 h1 h2).2.2 w2 h3 h4)⟩⟩
    · rename_i hc
      rw [if_neg hc] at h
      exact ih _ h

theorem Safe.bind' {α β : Type} {p : Prog α} {f : α → Prog β} {w0 w : World} {Q : β → World → World → Prop}
    (h : Safe I K p w0 w (fun a v0 v => Safe I K (f a) v0 v Q)) : Safe I K (p >>= f) w0 w Q := Safe.bind h

/-- A command without suspension. -/
theorem Safe.sync {β : Type} {c : Cmd β} {w0 w : World} {Q : β → World → World → Prop} (hc : c.isAsync = false)
    (hok : ∀ b, (exec w c).2 = .ok b → Q b w0 (exec w c).1) (herr : ∀ e, (exec w c).2 = .error e → I (exec w c).1 ∧ K w0 (exec w c).1) :
    Safe I K (issue c) w0 w Q := by
  simp only [Safe, issue, hc, Bool.false_eq_true, if_false]
  cases h : (exec w c).2 with
  | ok b => exact hok b h
  | error e => exact herr e h

/-- A command with suspension. -/
theorem Safe.async {β : Type} {c : Cmd β} {w0 w : World} {Q : β → World → World → Prop} (hc : c.isAsync = true) (hi : I w) (hk : K w0 w)
    (hex : ∀ w1, K w w1 → I w1 → I (exec w1 c).1 ∧ K w1 (exec w1 c).1)
    (hok : ∀ w1 b, K w w1 → I w1 → (exec w1 c).2 = .ok b → ∀ w2, K (exec w1 c).1 w2 → I w2 → Q b w2 w2)
    (hrefl : ∀ w, K w w) : Safe I K (issue c) w0 w Q := by
  simp only [Safe, issue, hc, if_true]
  refine ⟨hi, hk, fun w1 h1 h2 => ⟨(hex w1 h1 h2).1, (hex w1 h1 h2).2, fun w2 h3 h4 => ?_⟩⟩
  cases h : (exec w1 c).2 with
  | ok b => exact hok w1 b h1 h2 h w2 h3 h4
  | error e => exact ⟨h4, hrefl w2⟩

theorem Safe.ofExcept {α : Type} {r : Except Err α} {w0 w : World} {Q : α → World → World → Prop} (hi : I w) (hk : K w0 w)
    (hok : ∀ a, r = .ok a → Q a w0 w) : Safe I K (Coro.ofExcept r) w0 w Q := by
  cases r with
  | ok a => exact hok a rfl
  | error e => exact ⟨hi, hk⟩

/-- At the end of a coroutine. -/
def Post {α : Type} : α → World → World → Prop := fun _ w0 w => I w ∧ K w0 w

/-- A suspended coroutine is safe as long as the others are. -/
def SafeTask (w : World) : Susp Cmd Err (Option Str) → Prop
  | .waiting c k => ∀ w1, K w w1 → I w1 → (I (exec w1 c).1 ∧ K w1 (exec w1 c).1 ∧
      ∀ w2, K (exec w1 c).1 w2 → I w2 → Safe I K (k (exec w1 c).2) w2 w2 (Post (I := I) (K := K)))
  | .performed p => ∀ w2, K w w2 → I w2 → Safe I K p w2 w2 (Post (I := I) (K := K))

theorem SafeTask.later {w w' : World} (htr : ∀ a b c, K a b → K b c → K a c) (hk : K w w') {t : Susp Cmd Err (Option Str)}
    (h : SafeTask (I := I) (K := K) w t) : SafeTask (I := I) (K := K) w' t := by
  cases t with
  | waiting c k => exact fun w1 h1 h2 => h w1 (htr _ _ _ hk h1) h2
  | performed p => exact fun w1 h1 h2 => h w1 (htr _ _ _ hk h1) h2

theorem Safe.runSync {p : Prog (Option Str)} (id : Nat) (w0 : World) : ∀ {s : Sys},
    Safe I K p w0 s.w (Post (I := I) (K := K)) → I (Conc.runSync machine id p s).w ∧ K w0 (Conc.runSync machine id p s).w ∧
      ∃ new, (Conc.runSync machine id p s).tasks = s.tasks ++ new ∧ ∀ t ∈ new, SafeTask (I := I) (K := K) (Conc.runSync machine id p s).w t.2 := by
  induction p with
  | pure a => intro s h; exact ⟨h.1, h.2, [], by simp [Conc.runSync], by simp⟩
  | throw e => intro s h; exact ⟨h.1, h.2, [], by simp [Conc.runSync], by simp⟩
  | cmd c k ih =>
    intro s h
    simp only [Safe] at h
    simp only [Conc.runSync]
    by_cases hc : c.isAsync = true
    · rw [if_pos hc] at h
      rw [if_pos (show machine.isAsync c = true from hc)]
      exact ⟨h.1, h.2.1, [(id, .waiting c k)], rfl, by simpa [SafeTask] using h.2.2⟩
    · rw [if_neg hc] at h
      rw [if_neg (show ¬ machine.isAsync c = true from hc)]
      exact ih _ (s := { s with w := (exec s.w c).1 }) h

theorem takeTask_mem {τ : Type 1} {id : Nat} : ∀ {l : List (Nat × τ)} {t : τ} {rest : List (Nat × τ)}, Conc.takeTask id l = some (t, rest) →
    (id, t) ∈ l ∧ ∀ x ∈ rest, x ∈ l
  | [], _, _, h => by simp [Conc.takeTask] at h
  | x :: l, t, rest, h => by
    simp only [Conc.takeTask] at h
    split at h
    · rename_i hx
      simp only [Option.some.injEq, Prod.mk.injEq] at h
      obtain ⟨rfl, rfl⟩ := h
      exact ⟨by simp [← hx], fun y hy => by simp [hy]⟩
    · cases hr : Conc.takeTask id l with
      | none => simp [hr] at h
      | some p =>
        rw [hr] at h
        simp only [Option.map_some, Option.some.injEq, Prod.mk.injEq] at h
        obtain ⟨rfl, rfl⟩ := h
        obtain ⟨h1, h2⟩ := takeTask_mem (τ := τ) (l := l) (t := p.1) (rest := p.2) hr
        exact ⟨by simp [h1], fun y hy => by
          rcases List.mem_cons.mp hy with rfl | hy
          · simp
          · simp [h2 y hy]⟩

/-- Invariant of the whole system: the world is fine and all suspended coroutines are safe. -/
def SafeSys (I : World → Prop) (K : World → World → Prop) (s : Sys) : Prop := I s.w ∧ ∀ t ∈ s.tasks, SafeTask (I := I) (K := K) s.w t.2

/-- It is kept by every scheduling step, which changes the world only as `K` allows. -/
theorem SafeSys.step {cfg : Cfg} (hrefl : ∀ w, K w w) (htr : ∀ a b c, K a b → K b c → K a c)
    (ho : ∀ w o, I w → I { w with orc := o }) (hok : ∀ w o, K w { w with orc := o })
    (hp : ∀ (m : Msg) w, I w → Safe I K (m.prog cfg) w w (Post (I := I) (K := K))) {s : Sys} (ih : SafeSys I K s) (o : Oracle) (ch : Conc.Choice Msg) :
    SafeSys I K (sysStep cfg s o ch) ∧ K s.w (sysStep cfg s o ch).w := by
  have hi := ho _ o ih.1
  have ht : ∀ t ∈ s.tasks, SafeTask (I := I) (K := K) { s.w with orc := o } t.2 := fun t h => (ih.2 t h).later htr (hok _ o)
  cases ch with
  | start q =>
    have hs := hp q { s.w with orc := o } hi
    obtain ⟨h1, h2, new, h3, h4⟩ := Safe.runSync s.next { s.w with orc := o } (s := { s with w := { s.w with orc := o }, next := s.next + 1 }) hs
    refine ⟨⟨h1, ?_⟩, htr _ _ _ (hok _ o) h2⟩
    intro t htm
    rw [show (sysStep cfg s o (.start q)).tasks = _ from h3] at htm
    rcases List.mem_append.mp htm with htm | htm
    · exact (ht t htm).later htr h2
    · exact h4 t htm
  | perform n =>
    simp only [sysStep, Conc.step]
    cases hq : Conc.takeTask n s.tasks with
    | none => simp only; exact ⟨⟨hi, ht⟩, hok _ o⟩
    | some x =>
      obtain ⟨t, rest⟩ := x
      obtain ⟨hm1, hm2⟩ := takeTask_mem hq
      cases t with
      | performed p => simp only; exact ⟨⟨hi, ht⟩, hok _ o⟩
      | waiting c k =>
        simp only
        have hst := ht _ hm1 { s.w with orc := o } (hrefl _) hi
        refine ⟨⟨hst.1, ?_⟩, htr _ _ _ (hok _ o) hst.2.1⟩
        intro t htm
        rcases List.mem_append.mp htm with htm | htm
        · exact (ht t (hm2 t htm)).later htr hst.2.1
        · rw [List.mem_singleton.mp htm]
          exact hst.2.2
  | resume n =>
    simp only [sysStep, Conc.step]
    cases hq : Conc.takeTask n s.tasks with
    | none => simp only; exact ⟨⟨hi, ht⟩, hok _ o⟩
    | some x =>
      obtain ⟨t, rest⟩ := x
      obtain ⟨hm1, hm2⟩ := takeTask_mem hq
      cases t with
      | waiting c k => simp only; exact ⟨⟨hi, ht⟩, hok _ o⟩
      | performed p =>
        simp only
        have hst := ht _ hm1 { s.w with orc := o } (hrefl _) hi
        obtain ⟨h1, h2, new, h3, h4⟩ := Safe.runSync n { s.w with orc := o } (s := { s with w := { s.w with orc := o }, tasks := rest }) hst
        refine ⟨⟨h1, ?_⟩, htr _ _ _ (hok _ o) h2⟩
        intro t htm
        rw [h3] at htm
        rcases List.mem_append.mp htm with htm | htm
        · exact (ht t (hm2 t htm)).later htr h2
        · exact h4 t htm

/-- It holds in every reachable state. -/
theorem Reach.safeSys {cfg : Cfg} (hrefl : ∀ w, K w w) (htr : ∀ a b c, K a b → K b c → K a c)
    (h0 : I .init) (ho : ∀ w o, I w → I { w with orc := o }) (hok : ∀ w o, K w { w with orc := o }) (hr : ∀ w, I w → I w.restart)
    (hp : ∀ (m : Msg) w, I w → Safe I K (m.prog cfg) w w (Post (I := I) (K := K))) {s : Sys} (h : Reach cfg s) : SafeSys I K s := by
  induction h with
  | init => exact ⟨h0, by simp⟩
  | restart _ ih => exact ⟨hr _ ih.1, by simp⟩
  | step h o ch ih => exact (ih.step hrefl htr ho hok hp o ch).1

/-- The invariant holds in every reachable state. -/
theorem Reach.safe {cfg : Cfg} (hrefl : ∀ w, K w w) (htr : ∀ a b c, K a b → K b c → K a c)
    (h0 : I .init) (ho : ∀ w o, I w → I { w with orc := o }) (hok : ∀ w o, K w { w with orc := o }) (hr : ∀ w, I w → I w.restart)
    (hp : ∀ (m : Msg) w, I w → Safe I K (m.prog cfg) w w (Post (I := I) (K := K))) {s : Sys} (h : Reach cfg s) : I s.w :=
  (h.safeSys hrefl htr h0 ho hok hr hp).1

end

/-! ### Handling one message after the other is one of the schedules -/

theorem serial_schedule {cfg : Cfg} (id : Nat) (p : Prog (Option Str)) : ∀ s : Sys, s.tasks = [] → Reach cfg (Conc.runSync machine id p s) →
    ∃ s', Reach cfg s' ∧ s'.w = (p.run machine s.w).1 ∧ s'.tasks = [] := by
  induction p with
  | pure a => intro s hs h; exact ⟨_, h, rfl, hs⟩
  | throw e => intro s hs h; exact ⟨_, h, rfl, hs⟩
  | cmd c k ih =>
    intro s hs h
    simp only [Conc.runSync] at h
    by_cases hc : machine.isAsync c = true
    · rw [if_pos hc, hs] at h
      have h1 := (h.step s.w.orc (.perform id)).step (exec s.w c).1.orc (.resume id)
      simp only [sysStep, Conc.step, List.nil_append, Conc.takeTask, if_true, machine_exec] at h1
      exact ih _ _ rfl h1
    · rw [if_neg hc] at h
      exact ih _ { s with w := (exec s.w c).1 } hs h

theorem SReach.reach {cfg : Cfg} {w : World} (h : SReach cfg w) : ∃ s, Reach cfg s ∧ s.w = w ∧ s.tasks = [] := by
  induction h with
  | init => exact ⟨_, .init, rfl, rfl⟩
  | step _ o m ih =>
    obtain ⟨s, h, rfl, ht⟩ := ih
    exact serial_schedule s.next (m.prog cfg) { s with w := { s.w with orc := o }, next := s.next + 1 } ht (h.step o (.start m))
  | restart _ ih =>
    obtain ⟨s, h, rfl, ht⟩ := ih
    exact ⟨_, h.restart, rfl, rfl⟩

end OpenNSA.Agg
