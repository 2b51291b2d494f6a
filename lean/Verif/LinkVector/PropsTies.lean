import Verif.LinkVector.Props
/-
C14: which of several networks at the same cost is visited next.
-/
namespace OpenNSA
open Py

/-- The order of texts by code points: a text comes before its continuations, and otherwise the first difference decides. -/
def TextBefore (s t : Str) : Prop :=
  (∃ r, r ≠ [] ∧ t = s ++ r) ∨ ∃ p a b s' t', s = p ++ a :: s' ∧ t = p ++ b :: t' ∧ a.toNat < b.toNat

theorem strLt_iff (s t : Str) : strLt s t = true ↔ TextBefore s t := by
  constructor
  · intro h
    induction s generalizing t with
    | nil =>
      cases t with
      | nil => cases h
      | cons b t => exact .inl ⟨b :: t, by simp, rfl⟩
    | cons a s ih =>
      cases t with
      | nil => cases h
      | cons b t =>
        simp only [strLt, Bool.or_eq_true, decide_eq_true_eq, Bool.and_eq_true] at h
        rcases h with h | ⟨rfl, h⟩
        · exact .inr ⟨[], a, b, s, t, rfl, rfl, h⟩
        · rcases ih t h with ⟨r, hr, rfl⟩ | ⟨p, x, y, s', t', rfl, rfl, hlt⟩
          · exact .inl ⟨r, hr, rfl⟩
          · exact .inr ⟨a :: p, x, y, s', t', rfl, rfl, hlt⟩
  · rintro (⟨r, hr, rfl⟩ | ⟨p, a, b, s', t', rfl, rfl, h⟩)
    · induction s with
      | nil =>
        cases r with
        | nil => exact absurd rfl hr
        | cons b r => rfl
      | cons a s ih => simp [strLt, ih]
    · induction p with
      | nil => simp [strLt, h]
      | cons x p ih => simp [strLt, ih]

theorem strLt_total (s t : Str) : strLt s t = true ∨ s = t ∨ strLt t s = true := by
  induction s generalizing t with
  | nil => cases t <;> simp [strLt]
  | cons a s ih =>
    cases t with
    | nil => simp [strLt]
    | cons b t =>
      simp only [strLt, Bool.or_eq_true, decide_eq_true_eq, Bool.and_eq_true, List.cons.injEq]
      rcases Nat.lt_trichotomy a.toNat b.toNat with h | h | h
      · exact .inl (.inl h)
      · have hab : a = b := Char.toNat_inj.1 h
        subst hab
        rcases ih t with h | rfl | h
        · exact .inl (.inr ⟨rfl, h⟩)
        · exact .inr (.inl ⟨rfl, rfl⟩)
        · exact .inr (.inr (.inr ⟨rfl, h⟩))
      · exact .inr (.inr (.inl h))

theorem strLt_trans {s t u : Str} (h : strLt s t = true) (h' : strLt t u = true) : strLt s u = true := by
  induction s generalizing t u with
  | nil =>
    cases t with
    | nil => cases h
    | cons b t =>
      cases u with
      | nil => cases h'
      | cons c u => rfl
  | cons a s ih =>
    cases t with
    | nil => cases h
    | cons b t =>
      cases u with
      | nil => cases h'
      | cons c u =>
        simp only [strLt, Bool.or_eq_true, decide_eq_true_eq, Bool.and_eq_true] at h h' ⊢
        rcases h with h | ⟨rfl, h⟩
        · rcases h' with h' | ⟨rfl, h'⟩
          · exact .inl (by omega)
          · exact .inl h
        · rcases h' with h' | ⟨rfl, h'⟩
          · exact .inl h'
          · exact .inr ⟨rfl, ih h h'⟩

/-- Order of pairs of cost and network. -/
def before (x y : Int × Str) : Bool := x.1 < y.1 || (x.1 = y.1 && strLt x.2 y.2)

theorem before_trans {x y z : Int × Str} (h : before x y = true) (h' : before y z = true) : before x z = true := by
  simp only [before, Bool.or_eq_true, decide_eq_true_eq, Bool.and_eq_true] at h h' ⊢
  rcases h with h | ⟨h1, h2⟩
  · rcases h' with h' | ⟨h1', h2'⟩
    · exact .inl (by omega)
    · exact .inl (by omega)
  · rcases h' with h' | ⟨h1', h2'⟩
    · exact .inl (by omega)
    · exact .inr ⟨by omega, strLt_trans h2 h2'⟩

theorem before_total (x y : Int × Str) : before x y = true ∨ x = y ∨ before y x = true := by
  obtain ⟨a, s⟩ := x
  obtain ⟨b, t⟩ := y
  simp only [before, Bool.or_eq_true, decide_eq_true_eq, Bool.and_eq_true, Prod.mk.injEq]
  rcases Int.lt_trichotomy a b with h | rfl | h
  · exact .inl (.inl h)
  · rcases strLt_total s t with h | rfl | h
    · exact .inl (.inr ⟨rfl, h⟩)
    · exact .inr (.inl ⟨rfl, rfl⟩)
    · exact .inr (.inr (.inr ⟨rfl, h⟩))
  · exact .inr (.inr (.inl h))

theorem minFold_least (l : List (Int × Str)) : ∀ m : Int × Str,
    let r := l.foldl (fun m x => if before x m then x else m) m
    (r = m ∨ before r m = true) ∧ ∀ x ∈ l, r = x ∨ before r x = true := by
  induction l with
  | nil => intro m; simp
  | cons y ys ih =>
    intro m
    simp only [List.foldl_cons]
    split
    · rename_i h
      obtain ⟨h1, h2⟩ := ih y
      refine ⟨?_, ?_⟩
      · rcases h1 with h1 | h1
        · rw [h1]; exact .inr h
        · exact .inr (before_trans h1 h)
      · intro x hx
        rcases List.mem_cons.1 hx with rfl | hx
        · exact h1
        · exact h2 x hx
    · rename_i h
      obtain ⟨h1, h2⟩ := ih m
      refine ⟨h1, ?_⟩
      intro x hx
      rcases List.mem_cons.1 hx with rfl | hx
      · rcases before_total m x with hm | hm | hm
        · rcases h1 with h1 | h1
          · rw [h1]; exact .inr hm
          · exact .inr (before_trans h1 hm)
        · rw [← hm]; exact h1
        · exact absurd hm h
      · exact h2 x hx

/-- **C14, ties.** The network that is visited next is the one at least cost and, among those at the same cost, the first by name (by code points); so
it does not depend on the order in which networks became known. -/
theorem C14_ties (l : List (Int × Str)) (m : Int × Str) (h : minCost l = some m) :
    m ∈ l ∧ ∀ x ∈ l, x = m ∨ m.1 < x.1 ∨ m.1 = x.1 ∧ TextBefore m.2 x.2 := by
  refine ⟨(minCost_some h).1, ?_⟩
  cases l with
  | nil => cases h
  | cons y ys =>
    simp only [minCost, Option.some.injEq] at h
    obtain ⟨h1, h2⟩ := minFold_least ys y
    have hm : ys.foldl (fun m x => if before x m then x else m) y = m := h
    rw [hm] at h1 h2
    simp only [before] at h1 h2
    have conv : ∀ x : Int × Str, (m = x ∨ (decide (m.1 < x.1) || (decide (m.1 = x.1) && strLt m.2 x.2)) = true) → x = m ∨ m.1 < x.1 ∨ m.1 = x.1 ∧ TextBefore m.2 x.2 := by
      rintro x (h | h)
      · exact .inl h.symm
      · simp only [Bool.or_eq_true, decide_eq_true_eq, Bool.and_eq_true] at h
        rcases h with h | ⟨h, h'⟩
        · exact .inr (.inl h)
        · exact .inr (.inr ⟨h, (strLt_iff _ _).1 h'⟩)
    intro x hx
    rcases List.mem_cons.1 hx with rfl | hx
    · exact conv x h1
    · exact conv x (h2 x hx)

example : minCost [(3, "b".toList), (3, "a:x".toList), (5, "".toList), (3, "a".toList)] = some (3, "a".toList) := by decide +kernel

end OpenNSA
