import Verif.Authz.Model
namespace OpenNSA

/-- A rule is satisfied by the presented credentials: a header rule by an attribute of the same type and value, a host rule
by the certificate's host name; rules of other types never. -/
def Rule.SatisfiedBy (r : Rule) (attrs : List SecAttr) (dn : Option Str) : Prop :=
  (r.type_ ∈ headerAttributes ∧ ∃ sa ∈ attrs, sa.type_ = r.type_ ∧ sa.value = r.value) ∨
  (r.type_ = "hostdn".toList ∧ dn = some r.value)

theorem hostDn_not_header : hostDn ∉ headerAttributes := by decide

theorem authzLoop_exact (d : Bool) (attrs : List SecAttr) (dn : Option Str) (rules : List Rule) :
    ∃ b, authzLoop d attrs (some dn) rules = some b ∧ (b = true ↔ d = true ∨ ∃ r ∈ rules, r.SatisfiedBy attrs dn) := by
  induction rules with
  | nil => exact ⟨d, rfl, by simp⟩
  | cons r rs ih =>
    obtain ⟨b, hb, hiff⟩ := ih
    unfold authzLoop
    by_cases h1 : r.type_ ∈ headerAttributes
    · rw [if_pos h1]
      by_cases h2 : attrs.any r.matches = true
      · rw [if_pos h2]
        refine ⟨true, rfl, ?_⟩
        simp only [true_iff]
        right
        obtain ⟨sa, hsa, hm⟩ := List.any_eq_true.mp h2
        simp only [Rule.matches, Bool.and_eq_true, decide_eq_true_eq] at hm
        exact ⟨r, by simp, Or.inl ⟨h1, sa, hsa, hm.1.symm, hm.2.symm⟩⟩
      · rw [if_neg h2]
        refine ⟨b, hb, hiff.trans (or_congr_right ?_)⟩
        constructor
        · rintro ⟨x, hx, hs⟩; exact ⟨x, by simp [hx], hs⟩
        · rintro ⟨x, hx, hs⟩
          rcases List.mem_cons.mp hx with rfl | hx
          · rcases hs with ⟨_, sa, hsa, e1, e2⟩ | ⟨e, _⟩
            · exact absurd (List.any_eq_true.mpr ⟨sa, hsa, by simp [Rule.matches, e1, e2]⟩) h2
            · rw [e] at h1; exact absurd h1 hostDn_not_header
          · exact ⟨x, hx, hs⟩
    · rw [if_neg h1]
      by_cases h2 : r.type_ = hostDn
      · rw [if_pos h2]
        simp only
        by_cases h3 : some r.value = dn
        · rw [if_pos h3]
          exact ⟨true, rfl, by simp only [true_iff]; right; exact ⟨r, by simp, Or.inr ⟨h2, h3.symm⟩⟩⟩
        · rw [if_neg h3]
          refine ⟨b, hb, hiff.trans (or_congr_right ?_)⟩
          constructor
          · rintro ⟨x, hx, hs⟩; exact ⟨x, by simp [hx], hs⟩
          · rintro ⟨x, hx, hs⟩
            rcases List.mem_cons.mp hx with rfl | hx
            · rcases hs with ⟨e, _⟩ | ⟨_, e⟩
              · exact absurd e h1
              · exact absurd e.symm h3
            · exact ⟨x, hx, hs⟩
      · rw [if_neg h2]
        refine ⟨b, hb, hiff.trans (or_congr_right ?_)⟩
        constructor
        · rintro ⟨x, hx, hs⟩; exact ⟨x, by simp [hx], hs⟩
        · rintro ⟨x, hx, hs⟩
          rcases List.mem_cons.mp hx with rfl | hx
          · rcases hs with ⟨e, _⟩ | ⟨e, _⟩
            · exact absurd e h1
            · exact absurd e h2
          · exact ⟨x, hx, hs⟩

/-- C17. A port without rules admits everything; a port with rules admits a request exactly when some rule is satisfied by
the credentials. -/
theorem C17_authorized_iff (rules : List Rule) (attrs : List SecAttr) (dn : Option Str) :
    isAuthorized rules attrs (some dn) = some true ↔ rules = [] ∨ ∃ r ∈ rules, r.SatisfiedBy attrs dn := by
  obtain ⟨b, hb, hiff⟩ := authzLoop_exact rules.isEmpty attrs dn rules
  unfold isAuthorized
  rw [hb]
  simp only [Option.some.injEq, hiff, List.isEmpty_iff]

/-- C17. The decision is never undefined when request information is present. -/
theorem C17_decides (rules : List Rule) (attrs : List SecAttr) (dn : Option Str) :
    (isAuthorized rules attrs (some dn)).isSome = true := by
  obtain ⟨b, hb, _⟩ := authzLoop_exact rules.isEmpty attrs dn rules
  unfold isAuthorized; rw [hb]; rfl

/-- C17. More credentials never revoke access: adding header attributes, or a certificate where there was none. -/
theorem C17_monotone (rules : List Rule) (attrs more : List SecAttr) (dn dn' : Option Str) (hdn : dn = none ∨ dn' = dn)
    (hsub : ∀ a ∈ attrs, a ∈ more) (h : isAuthorized rules attrs (some dn) = some true) :
    isAuthorized rules more (some dn') = some true := by
  rw [C17_authorized_iff] at h ⊢
  rcases h with h | ⟨r, hr, hs⟩
  · exact Or.inl h
  · refine Or.inr ⟨r, hr, ?_⟩
    rcases hs with ⟨h1, sa, h2, h3⟩ | ⟨h1, h2⟩
    · exact Or.inl ⟨h1, sa, hsub sa h2, h3⟩
    · rcases hdn with e | e
      · rw [e] at h2; simp at h2
      · exact Or.inr ⟨h1, by rw [e]; exact h2⟩

/-- C17. Without request information, access is granted exactly when the rules before the first host rule grant it. -/
theorem C17_no_request_info (rules : List Rule) (attrs : List SecAttr) :
    isAuthorized rules attrs none = some true ↔
      rules = [] ∨ ∃ pre r post, rules = pre ++ r :: post ∧ (∀ x ∈ pre, x.type_ ≠ hostDn) ∧ r.SatisfiedBy attrs none := by
  have key : ∀ (d : Bool) (rules : List Rule), authzLoop d attrs none rules = some true ↔
      (d = true ∧ ∀ x ∈ rules, x.type_ ≠ hostDn) ∨
      ∃ pre r post, rules = pre ++ r :: post ∧ (∀ x ∈ pre, x.type_ ≠ hostDn) ∧ r.SatisfiedBy attrs none := by
    intro d rules
    induction rules with
    | nil => simp [authzLoop]
    | cons r rs ih =>
      have shift : r.type_ ≠ hostDn → ¬ r.SatisfiedBy attrs none → (((d = true ∧ ∀ x ∈ rs, x.type_ ≠ hostDn) ∨
          ∃ pre r post, rs = pre ++ r :: post ∧ (∀ x ∈ pre, x.type_ ≠ hostDn) ∧ r.SatisfiedBy attrs none) ↔
          ((d = true ∧ ∀ x ∈ r :: rs, x.type_ ≠ hostDn) ∨
          ∃ pre x post, r :: rs = pre ++ x :: post ∧ (∀ x ∈ pre, x.type_ ≠ hostDn) ∧ x.SatisfiedBy attrs none)) := by
        intro hh hns
        constructor
        · rintro (⟨h1, h2⟩ | ⟨pre, x, post, h1, h2, h3⟩)
          · exact Or.inl ⟨h1, by intro x hx; rcases List.mem_cons.mp hx with rfl | hx <;> simp_all⟩
          · exact Or.inr ⟨r :: pre, x, post, by simp [h1], by
              intro y hy; rcases List.mem_cons.mp hy with rfl | hy <;> simp_all, h3⟩
        · rintro (⟨h1, h2⟩ | ⟨pre, x, post, h1, h2, h3⟩)
          · exact Or.inl ⟨h1, fun x hx => h2 x (by simp [hx])⟩
          · cases pre with
            | nil => simp at h1; obtain ⟨rfl, _⟩ := h1; exact absurd h3 hns
            | cons y pre =>
              simp at h1
              exact Or.inr ⟨pre, x, post, h1.2, fun z hz => h2 z (by simp [hz]), h3⟩
      unfold authzLoop
      by_cases h1 : r.type_ ∈ headerAttributes
      · have hh : r.type_ ≠ hostDn := by intro e; rw [e] at h1; exact hostDn_not_header h1
        rw [if_pos h1]
        by_cases h2 : attrs.any r.matches = true
        · rw [if_pos h2]
          simp only [true_iff]
          obtain ⟨sa, hsa, hm⟩ := List.any_eq_true.mp h2
          simp only [Rule.matches, Bool.and_eq_true, decide_eq_true_eq] at hm
          exact Or.inr ⟨[], r, rs, rfl, by simp, Or.inl ⟨h1, sa, hsa, hm.1.symm, hm.2.symm⟩⟩
        · rw [if_neg h2, ih]
          apply shift hh
          rintro (⟨_, sa, hsa, e1, e2⟩ | ⟨e, _⟩)
          · exact h2 (List.any_eq_true.mpr ⟨sa, hsa, by simp [Rule.matches, e1, e2]⟩)
          · exact hh e
      · rw [if_neg h1]
        by_cases h2 : r.type_ = hostDn
        · rw [if_pos h2]
          simp only [reduceCtorEq, false_iff]
          rintro (⟨_, h⟩ | ⟨pre, x, post, e1, e2, e3⟩)
          · exact h r (by simp) h2
          · cases pre with
            | nil =>
              simp at e1; obtain ⟨rfl, _⟩ := e1
              rcases e3 with ⟨h, _⟩ | ⟨_, h⟩
              · exact h1 h
              · simp at h
            | cons y pre => simp at e1; exact e2 y (by simp) (by rw [← e1.1]; exact h2)
        · rw [if_neg h2, ih]
          apply shift h2
          rintro (⟨e, _⟩ | ⟨e, _⟩)
          · exact h1 e
          · exact h2 e
  unfold isAuthorized
  rw [key]
  constructor
  · rintro (⟨h, _⟩ | h)
    · exact Or.inl (List.isEmpty_iff.mp h)
    · exact Or.inr h
  · rintro (rfl | h)
    · left; simp
    · exact Or.inr h

/-- A port with a user rule, a host rule and an unsupported rule. -/
def exRules : List Rule := [⟨['c', 'o', 'l'], ['x']⟩, ⟨['u', 's', 'e', 'r'], ['a']⟩, ⟨hostDn, ['h']⟩]

example : isAuthorized exRules [⟨['u', 's', 'e', 'r'], ['b']⟩] (some none) = some false ∧
    isAuthorized exRules [⟨['u', 's', 'e', 'r'], ['b']⟩] (some (some ['h'])) = some true ∧
    isAuthorized exRules [⟨['c', 'o', 'l'], ['x']⟩] (some none) = some false ∧
    isAuthorized exRules [⟨['u', 's', 'e', 'r'], ['a']⟩] none = some true ∧
    isAuthorized exRules [] none = none := by decide

end OpenNSA
