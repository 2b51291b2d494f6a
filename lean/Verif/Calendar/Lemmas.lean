import Verif.Calendar.Spec
namespace OpenNSA

theorem checkLoop_ok {now : Time} {res : Str} {s e : Option Time} {c : Cal} :
    checkLoop now res s e c = .ok () ↔ ∀ x ∈ c, x.resource = res → resourceOverlap now x.start x.end_ s e = .ok false := by
  induction c with
  | nil => simp [checkLoop]
  | cons x xs ih =>
    unfold checkLoop
    by_cases hr : res = x.resource
    · rw [if_pos hr]
      rcases ho : resourceOverlap now x.start x.end_ s e with err | b
      · simp [ho, hr]
      · cases b
        · simp only [ih, List.mem_cons, forall_eq_or_imp, ho, implies_true, true_and]
        · simp [ho, hr]
    · rw [if_neg hr, ih]
      simp only [List.mem_cons, forall_eq_or_imp]
      constructor
      · intro h; exact ⟨fun e => absurd e.symm hr, h⟩
      · exact fun h => h.2

theorem resourceOverlap_false {now : Time} {s1 e1 s2 e2 : Option Time} :
    resourceOverlap now s1 e1 s2 e2 = .ok false ↔
      s1.getD now < e1.getD forever ∧ s2.getD now < e2.getD forever ∧
      (e2.getD forever < s1.getD now ∨ e1.getD forever < s2.getD now) := by
  unfold resourceOverlap
  simp only
  split
  · rename_i h; simp only [reduceCtorEq, false_iff]; omega
  · split
    · rename_i h; simp only [reduceCtorEq, false_iff]; omega
    · split
      · rename_i h; simp only [true_iff]; omega
      · split
        · rename_i h; simp only [true_iff]; omega
        · simp only [Except.ok.injEq, Bool.true_eq_false, false_iff]; omega

theorem resourceOverlap_proper {now : Time} {s1 e1 s2 e2 : Option Time}
    (h1 : s1.getD now < e1.getD forever) (h2 : s2.getD now < e2.getD forever) :
    resourceOverlap now s1 e1 s2 e2 = .ok (decide (s1.getD now ≤ e2.getD forever ∧ s2.getD now ≤ e1.getD forever)) := by
  unfold resourceOverlap
  simp only [h1, h2, not_true_eq_false, if_false]
  split
  · rename_i h; congr 1; simp; omega
  · split
    · rename_i h; congr 1; simp; omega
    · congr 1; simp; omega

theorem check_ok {c : Cal} {now : Time} {r : Resv} :
    c.check now r = .ok () ↔ r.Sane now ∧ checkLoop now r.resource r.start r.end_ c = .ok () := by
  obtain ⟨res, s, e⟩ := r
  unfold Cal.check Resv.Sane
  cases s with
  | none => cases e <;> simp
  | some s =>
    cases e with
    | none =>
      simp only [Bool.false_eq_true, if_false, Option.some.injEq]
      split
      · simp only [reduceCtorEq, false_iff]
        rintro ⟨⟨_, h⟩, _⟩
        have := h s rfl; omega
      · split
        · simp only [reduceCtorEq, false_iff]
          rintro ⟨⟨_, h⟩, _⟩
          have := h s rfl; omega
        · constructor
          · intro h; refine ⟨⟨by simp, ?_⟩, h⟩
            intro s' e; subst e; omega
          · exact fun h => h.2
    | some e =>
      simp only [Option.some.injEq, decide_eq_true_eq]
      split
      · simp only [reduceCtorEq, false_iff]
        rintro ⟨⟨h, _⟩, _⟩
        have := h s e rfl rfl; omega
      · split
        · simp only [reduceCtorEq, false_iff]
          rintro ⟨⟨_, h⟩, _⟩
          have := h s rfl; omega
        · split
          · simp only [reduceCtorEq, false_iff]
            rintro ⟨⟨_, h⟩, _⟩
            have := h s rfl; omega
          · constructor
            · intro h; refine ⟨⟨?_, ?_⟩, h⟩
              · intro s' e' h1 h2; subst h1; subst h2; omega
              · intro s' e; subst e; omega
            · exact fun h => h.2

theorem check_insane {c : Cal} {now : Time} {r : Resv} (h : ¬ r.Sane now) : c.check now r = .error .payload := by
  obtain ⟨res, s, e⟩ := r
  unfold Cal.check
  unfold Resv.Sane at h
  cases s with
  | none => simp at h
  | some s =>
    cases e with
    | none =>
      simp only [Bool.false_eq_true, if_false]
      split
      · rfl
      · split
        · rfl
        · exfalso; apply h; refine ⟨by simp, ?_⟩
          intro s' e; simp at e; omega
    | some e =>
      simp only [decide_eq_true_eq]
      split
      · rfl
      · split
        · rfl
        · split
          · rfl
          · exfalso; apply h; refine ⟨?_, ?_⟩
            · intro s' e' h1 h2; simp at h1 h2; omega
            · intro s' e; simp at e; omega

theorem year2095_lt_forever : year2095 < forever := by decide

theorem check_sane_eq {c : Cal} {now : Time} {r : Resv} (h : r.Sane now) :
    c.check now r = checkLoop now r.resource r.start r.end_ c := by
  obtain ⟨res, s, e⟩ := r
  unfold Cal.check
  obtain ⟨h1, h2⟩ := h
  cases s with
  | none => cases e <;> simp
  | some s =>
    have := h2 s rfl
    have a1 : ¬ s < now := by omega
    have a2 : ¬ s > year2095 := by omega
    cases e with
    | none => simp [a1, a2]
    | some e =>
      have := h1 s e rfl rfl
      have a3 : ¬ s > e := by omega
      simp [a1, a2, a3]

end OpenNSA
