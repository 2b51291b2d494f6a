import Verif.Stp.Model
import Verif.Label.Props
namespace OpenNSA
open Py

theorem removeAll_of_not_infix {pat : Str} : ∀ {s : Str}, ¬ pat <:+: s → removeAll pat 0 s = s
  | [], _ => rfl
  | c :: cs, h => by
    unfold removeAll
    have h1 : ¬ (pat.isPrefixOf (c :: cs) = true) := by
      rw [List.isPrefixOf_iff_prefix]
      exact fun hp => h hp.isInfix
    rw [if_neg h1, removeAll_of_not_infix (fun hi => h (hi.trans (List.suffix_cons c cs).isInfix))]

theorem removeAll_skip {pat : Str} : ∀ (a b : Str), removeAll pat a.length (a ++ b) = removeAll pat 0 b
  | [], b => by simp
  | x :: xs, b => by
    simp only [List.length_cons, List.cons_append]
    rw [removeAll]
    exact removeAll_skip xs b

theorem removeAll_prefix {pat : Str} (hne : pat ≠ []) (b : Str) : removeAll pat 0 (pat ++ b) = removeAll pat 0 b := by
  cases pat with
  | nil => exact absurd rfl hne
  | cons c cs =>
    rw [List.cons_append]
    rw [removeAll]
    have : List.isPrefixOf (c :: cs) (c :: (cs ++ b)) = true := by
      rw [List.isPrefixOf_iff_prefix]
      exact ⟨b, by simp⟩
    rw [if_pos this]
    simp only [List.length_cons, Nat.add_sub_cancel]
    exact removeAll_skip cs b

/-- A pattern without the character `c` occurring in `a ++ c :: b` occurs in `a` or in `b`. -/
theorem infix_split {pat a b : Str} {c : Char} (hc : c ∉ pat) (h : pat <:+: a ++ c :: b) : pat <:+: a ∨ pat <:+: b := by
  obtain ⟨s, t, hst⟩ := h
  by_cases hlen : (s ++ pat).length ≤ a.length
  · left
    have hp : (s ++ pat) <+: a := by
      have h1 : (s ++ pat) <+: a ++ c :: b := ⟨t, hst⟩
      exact List.prefix_of_prefix_length_le h1 (List.prefix_append a (c :: b)) hlen
    obtain ⟨u, hu⟩ := hp
    exact ⟨s, u, hu⟩
  · by_cases hs : a.length < s.length
    · right
      have hp : a ++ [c] <+: s := by
        have h1 : a ++ [c] <+: a ++ c :: b := ⟨b, by simp⟩
        have h2 : s <+: a ++ c :: b := ⟨pat ++ t, by simpa using hst⟩
        exact List.prefix_of_prefix_length_le h1 h2 (by simp; omega)
      obtain ⟨u, hu⟩ := hp
      rw [← hu] at hst
      have : u ++ pat ++ t = b := by
        have h3 : (a ++ [c]) ++ (u ++ pat ++ t) = (a ++ [c]) ++ b := by simpa using hst
        exact List.append_cancel_left h3
      exact ⟨u, t, this⟩
    · exfalso
      apply hc
      have hlen' : a.length < (s ++ pat).length := by omega
      have hget : (s ++ pat ++ t)[a.length]? = some c := by
        rw [hst]
        simp
      rw [List.getElem?_append_left hlen', List.getElem?_append_right (by omega)] at hget
      exact List.mem_of_getElem? hget

theorem shortType_of_no_hash {t : Str} (h : '#' ∉ t) : shortType t = t := by
  unfold shortType
  simp [splitOn_no_sep h]

theorem splitOn_two {c : Char} {a b : Str} (ha : c ∉ a) (hb : c ∉ b) : splitOn c (a ++ c :: b) = [a, b] := by
  rw [splitOn_append b ha, splitOn_no_sep hb]

theorem splitOn_eq_two {c : Char} {s a b : Str} (h : splitOn c s = [a, b]) : c ∉ a ∧ c ∉ b ∧ s = a ++ c :: b := by
  have := splitOn_items c s
  rw [h] at this
  refine ⟨this.1 a (by simp), this.1 b (by simp), ?_⟩
  rw [← this.2]; simp [joinWith]

theorem mem_joinWith {c x : Char} : ∀ {parts : List Str}, x ∈ joinWith c parts → x = c ∨ ∃ p ∈ parts, x ∈ p
  | [], h => by simp [joinWith] at h
  | [p], h => by simp [joinWith] at h; exact Or.inr ⟨p, by simp, h⟩
  | p :: q :: rest, h => by
    simp only [joinWith, List.mem_append, List.mem_cons] at h
    rcases h with h | h | h
    · exact Or.inr ⟨p, by simp, h⟩
    · exact Or.inl h
    · rcases mem_joinWith h with h | ⟨p', hp, hx⟩
      · exact Or.inl h
      · exact Or.inr ⟨p', by simp [hp], hx⟩

theorem showInt_chars {i : Int} {c : Char} (h : c ∈ showInt i) : c = '-' ∨ ∃ d, d < 10 ∧ c = digitChar d := by
  cases i with
  | ofNat n => exact Or.inr (showNat_digits n c h)
  | negSucc n =>
    rcases List.mem_cons.mp h with h | h
    · exact Or.inl h
    · exact Or.inr (showNat_digits _ c h)

/-- The text of a label consists of digits, '-' and ','. -/
theorem labelValue_chars {l : Label} {c : Char} (h : c ∈ l.labelValue) :
    c = ',' ∨ c = '-' ∨ ∃ d, d < 10 ∧ c = digitChar d := by
  rcases mem_joinWith h with h | ⟨p, hp, hx⟩
  · exact Or.inl h
  · right
    obtain ⟨r, _, rfl⟩ := List.mem_map.mp hp
    unfold valueText at hx
    split at hx
    · exact showInt_chars hx
    · rcases List.mem_append.mp hx with h | h
      · exact showInt_chars h
      · rcases List.mem_cons.mp h with h | h
        · exact Or.inl h
        · exact showInt_chars h

theorem labelValue_no {l : Label} {c : Char} (h1 : c ≠ ',') (h2 : c ≠ '-') (h3 : ∀ d, d < 10 → c ≠ digitChar d) :
    c ∉ l.labelValue := by
  intro h
  rcases labelValue_chars h with h | h | ⟨d, hd, h⟩
  · exact h1 h
  · exact h2 h
  · exact h3 d hd h

theorem digitChar_ne_of {c : Char} (h : digitVal c = none) : ∀ d, d < 10 → c ≠ digitChar d := by
  intro d hd e
  rw [e, digitVal_digitChar hd] at h
  simp at h

theorem createSTPLoc_ok {loc : Str} {label : Option Label} {stp : STP} :
    createSTPLoc loc label = .ok stp ↔ loc = stp.network ++ ':' :: stp.port ∧ ':' ∉ stp.port ∧ stp.label = label := by
  unfold createSTPLoc
  split
  · rename_i h
    constructor
    · simp
    · rintro ⟨rfl, _⟩; simp at h
  · rename_i h
    rcases hc : cutLast ':' loc with _ | ⟨a, b⟩
    · exact absurd (cutLast_eq_none.mp hc) h
    · obtain ⟨h1, h2⟩ := cutLast_some hc
      constructor
      · intro h; simp at h; subst h; exact ⟨h1, h2, rfl⟩
      · rintro ⟨e1, e2, e3⟩
        rw [e1, cutLast_append _ e2] at hc
        simp at hc
        obtain ⟨rfl, rfl⟩ := hc
        cases stp; simp_all

end OpenNSA
