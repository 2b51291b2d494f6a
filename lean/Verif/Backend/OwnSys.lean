import Verif.Backend.OwnRun
/-
Interleaved execution, connection by connection: the invariant of the whole system is kept by every step.
-/
namespace OpenNSA.Backend
open OpenNSA Py Prog

section
variable {cfg : Cfg} {cid : Str} {r0 : Option Row} {lab : Nat → Str × Bool}

theorem SymTaskS.stay {s s' : Slice} {u : Susp} (h : SymTaskS cid r0 s u) (k : ∀ T, Tracked r0 s T → Tracked r0 s' T) : SymTaskS cid r0 s' u := by
  cases u with
  | waiting c f fin =>
    obtain ⟨h1, T, h2, h3⟩ := h
    exact ⟨h1, T, k T h2, h3⟩
  | performed f r fin =>
    obtain ⟨⟨T, h1, h2⟩, T', h3, h4⟩ := h
    exact ⟨⟨T, k T h1, h2⟩, T', k T' h3, h4⟩

/-- One connection, with operations on it that share it. -/
structure SharedAt (cfg : Cfg) (lab : Nat → Str × Bool) (cid : Str) (r0 : Option Row) (c : Conc) (tc : List (Str × Resv)) : Prop where
  glob : Glob c.w tc
  calm : Calm1 cfg r0 (slice cid c.w tc)
  tasks : ∀ t ∈ tasksOf lab cid c.tasks, (lab t.id).2 = false ∧ SymTaskS cid r0 (slice cid c.w tc) t.susp
  owned : Owned lab c.tasks
  ids : ∀ t ∈ c.tasks, t.id < c.next

theorem SharedAt.isCid {c : Conc} {tc : List (Str × Resv)} (h : SharedAt cfg lab cid r0 c tc) : ∀ x, r0 = some x → x.cid = cid := by
  intro x hx
  rcases h.calm.core with k | ⟨a, y, k1, k2, k3⟩
  · rw [hx] at k; cases k.1
  · rw [hx] at k1
    simp only [Option.some.injEq] at k1
    subst k1
    have : y.cid = cid := row?_cid k2
    unfold Core at k3
    rw [k3] at this
    exact this

/-- What a sharing operation does to everything else. -/
structure Beside (lab : Nat → Str × Bool) (cid : Str) (r0 : Option Row) (c : Conc) (tc : List (Str × Resv)) (c' : Conc) (tc' : List (Str × Resv)) : Prop where
  frame : Frame cid c.w tc c'.w tc'
  others : ∀ b, b ≠ cid → tasksOf lab b c'.tasks = tasksOf lab b c.tasks
  next : c.next ≤ c'.next
  stay : ∀ T, Tracked r0 (slice cid c.w tc) T → Tracked r0 (slice cid c'.w tc') T

theorem Beside.refl (lab : Nat → Str × Bool) (cid : Str) (r0 : Option Row) (c : Conc) (tc : List (Str × Resv)) : Beside lab cid r0 c tc c tc :=
  ⟨Frame.refl _ _ _, fun _ _ => rfl, Nat.le_refl _, fun _ h => h⟩
theorem Beside.trans {c c' c'' : Conc} {tc tc' tc'' : List (Str × Resv)} (h : Beside lab cid r0 c tc c' tc') (k : Beside lab cid r0 c' tc' c'' tc'') :
    Beside lab cid r0 c tc c'' tc'' :=
  ⟨h.frame.trans k.frame, fun b hb => (k.others b hb).trans (h.others b hb), Nat.le_trans h.next k.next, fun T x => k.stay T (h.stay T x)⟩

/-! Cancelled calls -/

theorem cancelled_lab {t : Task} {n : Nat} (ht : (lab t.id).1 = cid) (hn : (lab n).1 = cid) : ∀ u ∈ t.cancelled n, (lab u.id).1 = cid ∧ u.owner = none := by
  intro u hu
  unfold Task.cancelled at hu
  split at hu
  · simp only [List.mem_cons, List.not_mem_nil, or_false] at hu
    rcases hu with rfl | rfl
    · exact ⟨ht, rfl⟩
    · exact ⟨hn, rfl⟩
  · simp only [List.mem_cons, List.not_mem_nil, or_false] at hu
    subst hu
    exact ⟨ht, rfl⟩

theorem cancelled_ids {t : Task} {n : Nat} : ∀ u ∈ t.cancelled n, u.id = t.id ∨ u.id = n := by
  intro u hu
  unfold Task.cancelled at hu
  split at hu
  · simp only [List.mem_cons, List.not_mem_nil, or_false] at hu
    rcases hu with rfl | rfl
    · exact Or.inl rfl
    · exact Or.inr rfl
  · simp only [List.mem_cons, List.not_mem_nil, or_false] at hu
    subst hu
    exact Or.inl rfl

theorem cancelled_safe {t : Task} {n : Nat} {s : Slice} (h : SymTaskS cid r0 s t.susp) : ∀ u ∈ t.cancelled n, SymTaskS cid r0 s u.susp := by
  intro u hu
  unfold Task.cancelled at hu
  split at hu
  · rename_i x k fin hw
    rw [hw] at h
    obtain ⟨h1, T, h2, h3, h4, h5⟩ := h
    simp only [List.mem_cons, List.not_mem_nil, or_false] at hu
    rcases hu with rfl | rfl
    · exact ⟨⟨T, h2, h5⟩, T, h2, h5⟩
    · exact ⟨h1, T, h2, h3, fun _ _ _ => trivial, trivial⟩
  · rename_i k r fin hw
    rw [hw] at h
    simp only [List.mem_cons, List.not_mem_nil, or_false] at hu
    subst hu
    exact ⟨h.2, h.2⟩

theorem cancel_others {ts : List Task} {n : Nat} (ho : Owned lab ts) (hn : (lab n).1 = cid) (b : Str) (hb : b ≠ cid) :
    tasksOf lab b (ts.flatMap fun t => if t.owner = some cid then t.cancelled n else [t]) = tasksOf lab b ts := by
  induction ts with
  | nil => rfl
  | cons t ts ih =>
    have ih' := ih fun x hx => ho x (by simp [hx])
    simp only [List.flatMap_cons, tasksOf_append, ih']
    rw [show t :: ts = [t] ++ ts from rfl, tasksOf_append]
    congr 1
    split
    · rename_i h
      have hl := ho t (by simp) cid h
      have e1 : tasksOf lab b (t.cancelled n) = [] := by
        simp only [tasksOf, List.filter_eq_nil_iff, decide_eq_true_eq]
        intro u hu he
        exact hb (he.symm.trans (cancelled_lab hl hn u hu).1)
      have e2 : tasksOf lab b [t] = [] := by
        simp only [tasksOf, List.filter_eq_nil_iff, decide_eq_true_eq, List.mem_cons, List.not_mem_nil, or_false]
        rintro u rfl he
        exact hb (he.symm.trans hl)
      rw [e1, e2]
    · rfl

theorem disown_others {ts : List Task} (ho : Owned lab ts) (b : Str) (hb : b ≠ cid) :
    tasksOf lab b (ts.map fun t => if t.owner = some cid then { t with owner := none } else t) = tasksOf lab b ts := by
  induction ts with
  | nil => rfl
  | cons t ts ih =>
    have ih' := ih fun x hx => ho x (by simp [hx])
    rw [List.map_cons, show ∀ (x : Task) l, x :: l = [x] ++ l from fun _ _ => rfl, tasksOf_append, ih', show t :: ts = [t] ++ ts from rfl, tasksOf_append]
    congr 1
    split
    · rename_i h
      have hl := ho t (by simp) cid h
      simp [tasksOf, hl, Ne.symm hb]
    · rfl

theorem SharedAt.cancelCall {c : Conc} {tc : List (Str × Resv)} (h : SharedAt cfg lab cid r0 c tc) (hl : ∀ n, c.next ≤ n → lab n = (cid, false)) :
    SharedAt cfg lab cid r0 (c.cancelCall cid) tc ∧ Beside lab cid r0 c tc (c.cancelCall cid) tc := by
  have hn : (lab c.next).1 = cid := by rw [hl _ (Nat.le_refl _)]
  refine ⟨⟨h.glob, h.calm, ?_, ?_, ?_⟩, Frame.refl _ _ _, fun b hb => cancel_others h.owned hn b hb, Nat.le_succ _, fun _ x => x⟩
  · intro t ht
    simp only [tasksOf, List.mem_filter, decide_eq_true_eq, Conc.cancelCall, List.mem_flatMap] at ht
    obtain ⟨⟨u, hu, ht⟩, hlt⟩ := ht
    split at ht
    · rename_i how
      have hul : (lab u.id).1 = cid := h.owned u hu cid how
      have hsu := h.tasks u (by simp only [tasksOf, List.mem_filter, decide_eq_true_eq]; exact ⟨hu, hul⟩)
      refine ⟨?_, cancelled_safe hsu.2 t ht⟩
      rcases cancelled_ids t ht with e | e
      · rw [e]; exact hsu.1
      · rw [e, hl _ (Nat.le_refl _)]
    · simp only [List.mem_cons, List.not_mem_nil, or_false] at ht
      subst ht
      exact h.tasks t (by simp only [tasksOf, List.mem_filter, decide_eq_true_eq]; exact ⟨hu, hlt⟩)
  · intro t ht o hto
    simp only [Conc.cancelCall, List.mem_flatMap] at ht
    obtain ⟨u, hu, ht⟩ := ht
    split at ht
    · rename_i how
      have hul : (lab u.id).1 = cid := h.owned u hu cid how
      have := (cancelled_lab hul hn t ht).2
      rw [this] at hto
      cases hto
    · simp only [List.mem_cons, List.not_mem_nil, or_false] at ht
      subst ht
      exact h.owned t hu o hto
  · intro t ht
    simp only [Conc.cancelCall, List.mem_flatMap] at ht
    obtain ⟨u, hu, ht⟩ := ht
    have := h.ids u hu
    split at ht
    · simp only [Conc.cancelCall]
      rcases cancelled_ids t ht with e | e <;> omega
    · simp only [List.mem_cons, List.not_mem_nil, or_false] at ht
      subst ht
      simp only [Conc.cancelCall]; omega

theorem SharedAt.disown {c : Conc} {tc : List (Str × Resv)} (h : SharedAt cfg lab cid r0 c tc) :
    SharedAt cfg lab cid r0 (c.disown cid) tc ∧ Beside lab cid r0 c tc (c.disown cid) tc := by
  refine ⟨⟨h.glob, h.calm, ?_, ?_, ?_⟩, Frame.refl _ _ _, fun b hb => disown_others h.owned b hb, Nat.le_refl _, fun _ x => x⟩
  · intro t ht
    simp only [tasksOf, List.mem_filter, decide_eq_true_eq, Conc.disown, List.mem_map] at ht
    obtain ⟨⟨u, hu, rfl⟩, hlt⟩ := ht
    have e : (if u.owner = some cid then { u with owner := none } else u).id = u.id := by split <;> rfl
    have e2 : (if u.owner = some cid then { u with owner := none } else u).susp = u.susp := by split <;> rfl
    rw [e] at hlt ⊢
    rw [e2]
    exact h.tasks u (by simp only [tasksOf, List.mem_filter, decide_eq_true_eq]; exact ⟨hu, hlt⟩)
  · intro t ht o hto
    simp only [Conc.disown, List.mem_map] at ht
    obtain ⟨u, hu, rfl⟩ := ht
    split at hto
    · cases hto
    · rename_i hne
      rw [if_neg hne]
      exact h.owned u hu o hto
  · intro t ht
    simp only [Conc.disown, List.mem_map] at ht
    obtain ⟨u, hu, rfl⟩ := ht
    have := h.ids u hu
    split <;> exact this

theorem SharedAt.affect {β : Type} {c : Conc} {tc : List (Str × Resv)} (h : SharedAt cfg lab cid r0 c tc) (hl : ∀ n, c.next ≤ n → lab n = (cid, false))
    {w : World} {b : Bool} {x : Cmd β} {T : List Nat} (hok : OkS cid r0 x T) :
    SharedAt cfg lab cid r0 (c.affect w b x) tc ∧ Beside lab cid r0 c tc (c.affect w b x) tc := by
  cases x with
  | cancel a =>
    cases (show a = cid from hok)
    simp only [Conc.affect]
    split
    · exact h.cancelCall hl
    · exact ⟨h, Beside.refl _ _ _ _ _⟩
  | sched a t act ref =>
    cases (show a = cid from hok.1)
    simp only [Conc.affect]
    split
    · exact h.disown
    · exact ⟨h, Beside.refl _ _ _ _ _⟩
  | _ => exact ⟨h, Beside.refl _ _ _ _ _⟩

/-- Executing a command of a sharing operation. -/
theorem SharedAt.exec {β : Type} {c : Conc} {tc : List (Str × Resv)} (h : SharedAt cfg lab cid r0 c tc) {x : Cmd β} {T : List Nat}
    (ht : Tracked r0 (slice cid c.w tc) T) (hok : OkS cid r0 x T) : ∃ tc' T', SharedAt cfg lab cid r0 { c with w := (Backend.exec c.w x).1 } tc' ∧
      Beside lab cid r0 c tc { c with w := (Backend.exec c.w x).1 } tc' ∧
      Tracked r0 (slice cid (Backend.exec c.w x).1 tc') T' ∧ EffS r0 x T T' (Backend.exec c.w x).2 := by
  obtain ⟨tc', s', h1, h2, h3, h4⟩ := goes_exec x h.glob (At.ofIdle c.w tc) (hok.ok h.isCid ht)
  obtain ⟨g1, g2, T', g3, g4⟩ := shared_eff h.calm ht hok h4
  have hid : ∀ T, Tracked r0 s' T → Tracked r0 (slice cid (Backend.exec c.w x).1 tc') T := by
    intro T hT
    rw [← h2.core]
    exact hT
  refine ⟨tc', T', ⟨h1, ?_, ?_, h.owned, h.ids⟩, ⟨h3, fun _ _ => rfl, Nat.le_refl _, fun T hT => hid T (g2 T hT)⟩, hid T' g3, g4⟩
  · rw [← h2.core]
    exact ⟨g1.rest.idle, g1.core⟩
  · intro t ht'
    exact ⟨(h.tasks t ht').1, (h.tasks t ht').2.stay fun T hT => hid T (g2 T hT)⟩

theorem symS_runSync {α : Type} {p : Prog α} : ∀ (id : Nat) (owner : Option Str) (fin : Except Err α → Except Err (Option Str))
    {c : Conc} {tc : List (Str × Resv)} {T : List Nat} {Q : List Nat → Except Err α → Prop}, SharedAt cfg lab cid r0 c tc →
    Tracked r0 (slice cid c.w tc) T → SymS cid r0 p Q T →
    (owner = none ∨ owner = some cid) → id < c.next → lab id = (cid, false) → (∀ n, c.next ≤ n → lab n = (cid, false)) →
    ∃ tc', SharedAt cfg lab cid r0 (Conc.runSync id owner p fin c) tc' ∧ Beside lab cid r0 c tc (Conc.runSync id owner p fin c) tc' := by
  induction p with
  | pure a =>
    intro id owner fin c tc T Q h ht hp ho hid hl hl'
    exact ⟨tc, ⟨h.glob, h.calm, h.tasks, h.owned, h.ids⟩, ⟨Frame.refl _ _ _, fun _ _ => rfl, Nat.le_refl _, fun _ x => x⟩⟩
  | throw e =>
    intro id owner fin c tc T Q h ht hp ho hid hl hl'
    exact ⟨tc, ⟨h.glob, h.calm, h.tasks, h.owned, h.ids⟩, ⟨Frame.refl _ _ _, fun _ _ => rfl, Nat.le_refl _, fun _ x => x⟩⟩
  | cmd x k ih =>
    intro id owner fin c tc T Q h ht hp ho hid hl hl'
    obtain ⟨hok, hk, hcan⟩ := hp
    simp only [Conc.runSync]
    split
    · rename_i hc
      refine ⟨tc, ⟨h.glob, h.calm, ?_, ?_, ?_⟩, ⟨Frame.refl _ _ _, ?_, Nat.le_refl _, fun _ x => x⟩⟩
      · intro t htm
        rw [tasksOf_append] at htm
        rcases List.mem_append.mp htm with htm | htm
        · exact h.tasks t htm
        · simp only [tasksOf, List.mem_filter, List.mem_cons, List.not_mem_nil, or_false] at htm
          obtain ⟨rfl, _⟩ := htm
          refine ⟨by rw [hl], hc, T, ht, hok, fun T' r he => SymS_any (hk T' r he), SymS_any (hcan hc)⟩
      · intro t htm o hto
        rcases List.mem_append.mp htm with htm | htm
        · exact h.owned t htm o hto
        · simp only [List.mem_cons, List.not_mem_nil, or_false] at htm
          subst htm
          simp only at hto ⊢
          rw [hl]
          rcases ho with ho | ho
          · rw [ho] at hto; cases hto
          · rw [ho] at hto
            simpa using hto
      · intro t htm
        rcases List.mem_append.mp htm with htm | htm
        · exact h.ids t htm
        · simp only [List.mem_cons, List.not_mem_nil, or_false] at htm
          subst htm
          exact hid
      · intro b hb
        simp only [tasksOf_append]
        have : tasksOf lab b [⟨id, owner, .waiting x k fin⟩] = [] := by simp [tasksOf, hl, Ne.symm hb]
        rw [this, List.append_nil]
    · rename_i hc
      obtain ⟨tc', T', h1, h2, h3, h4⟩ := h.exec ht hok
      obtain ⟨h5, h6⟩ := h1.affect (w := c.w) (b := isOk (Backend.exec c.w x).2) hl' hok
      have hcw : (c.sync x).1.w = (exec c.w x).1 := by simp only [Conc.sync, affect_w]
      have h6' : Beside lab cid r0 { c with w := (Backend.exec c.w x).1 } tc' (c.sync x).1 tc' := h6
      have hnx : c.next ≤ (c.sync x).1.next := h6.next
      obtain ⟨tc'', g1, g2⟩ := ih (c.sync x).2 id owner fin (c := (c.sync x).1) (tc := tc') (T := T') h5 (h6'.stay T' h3) (hk T' _ h4) ho (by omega) hl
        (fun n hh => hl' n (by omega))
      exact ⟨tc'', g1, h2.trans (h6'.trans g2)⟩
  | spawn p k ihp ihk =>
    intro id owner fin c tc T Q h ht hp ho hid hl hl'
    simp only [Conc.runSync]
    have h0 : SharedAt cfg lab cid r0 { c with next := c.next + 1 } tc :=
      ⟨h.glob, h.calm, h.tasks, h.owned, fun t ht => Nat.lt_succ_of_lt (h.ids t ht)⟩
    obtain ⟨tc', g1, g2⟩ := ihp c.next none (fun _ => .ok none) h0 ht hp.1 (Or.inl rfl) (by simp) (hl' _ (Nat.le_refl _))
      (fun n hh => hl' n (by simp only at hh; omega))
    have hnx := g2.next
    simp only at hnx
    obtain ⟨tc'', g3, g4⟩ := ihk id owner fin g1 (g2.stay T ht) hp.2 ho (by omega) hl (fun n hh => hl' n (by omega))
    refine ⟨tc'', g3, ?_⟩
    have : Beside lab cid r0 c tc { c with next := c.next + 1 } tc := ⟨Frame.refl _ _ _, fun _ _ => rfl, Nat.le_succ _, fun _ x => x⟩
    exact this.trans (g2.trans g4)
where
  SymS_any {α : Type} {p : Prog α} : ∀ {Q : List Nat → Except Err α → Prop} {T : List Nat}, SymS cid r0 p Q T → SymS cid r0 p AnyEnd T := by
    induction p with
    | pure a => intro Q T _; trivial
    | throw e => intro Q T _; trivial
    | cmd c k ih => intro Q T h; exact ⟨h.1, fun T' r he => ih r (h.2.1 T' r he), fun hc => ih _ (h.2.2 hc)⟩
    | spawn p k _ ihk => intro Q T h; exact ⟨h.1, ihk h.2⟩

end
end OpenNSA.Backend
