import Verif.Py
/- Lemmas about the Python primitives of `Verif.Py`. -/
namespace OpenNSA.Py

/-! ### splitting and joining -/

theorem splitOn_ne_nil (c : Char) (s : Str) : splitOn c s ≠ [] := by
  induction s with
  | nil => simp [splitOn]
  | cons x xs ih =>
    unfold splitOn
    split
    · simp
    · split <;> simp

theorem splitOn_no_sep {c : Char} {s : Str} (h : c ∉ s) : splitOn c s = [s] := by
  induction s with
  | nil => rfl
  | cons x xs ih =>
    simp only [List.mem_cons, not_or] at h
    unfold splitOn
    rw [if_neg (fun e => h.1 e.symm), ih h.2]

theorem splitOn_append {c : Char} {a : Str} (b : Str) (h : c ∉ a) :
    splitOn c (a ++ c :: b) = a :: splitOn c b := by
  induction a with
  | nil => simp [splitOn]
  | cons x xs ih =>
    simp only [List.mem_cons, not_or] at h
    rw [List.cons_append]
    conv => lhs; unfold splitOn
    rw [if_neg (fun e => h.1 e.symm), ih h.2]

theorem splitOn_joinWith {c : Char} : ∀ {parts : List Str}, parts ≠ [] → (∀ p ∈ parts, c ∉ p) →
    splitOn c (joinWith c parts) = parts
  | [], h, _ => absurd rfl h
  | [s], _, h => by simp [joinWith]; exact splitOn_no_sep (h s (by simp))
  | s :: t :: rest, _, h => by
    have h1 : c ∉ s := h s (by simp)
    rw [joinWith, splitOn_append _ h1,
      splitOn_joinWith (by simp) (fun p hp => h p (List.mem_cons_of_mem _ hp))]

theorem cutFirst_eq_none {c : Char} {s : Str} : cutFirst c s = none ↔ c ∉ s := by
  induction s with
  | nil => simp [cutFirst]
  | cons x xs ih =>
    unfold cutFirst
    split
    · rename_i e; simp [e]
    · rename_i e
      rcases hc : cutFirst c xs with _ | ⟨a, b⟩
      · simp [ih.mp hc, Ne.symm e]
      · simp only [reduceCtorEq, List.mem_cons, false_iff]
        intro hn
        have := ih.mpr (fun hm => hn (Or.inr hm))
        simp [hc] at this

theorem cutFirst_append {c : Char} {a : Str} (b : Str) (h : c ∉ a) :
    cutFirst c (a ++ c :: b) = some (a, b) := by
  induction a with
  | nil => simp [cutFirst]
  | cons x xs ih =>
    simp only [List.mem_cons, not_or] at h
    rw [List.cons_append]
    unfold cutFirst
    rw [if_neg (fun e => h.1 e.symm), ih h.2]

theorem cutFirst_some {c : Char} {s a b : Str} (h : cutFirst c s = some (a, b)) :
    s = a ++ c :: b ∧ c ∉ a := by
  induction s generalizing a b with
  | nil => simp [cutFirst] at h
  | cons x xs ih =>
    unfold cutFirst at h
    split at h
    · rename_i e; simp at h; obtain ⟨rfl, rfl⟩ := h; simp [e]
    · rename_i e
      rcases hc : cutFirst c xs with _ | ⟨a', b'⟩
      · simp [hc] at h
      · simp [hc] at h
        obtain ⟨rfl, rfl⟩ := h
        have := ih hc
        refine ⟨by rw [List.cons_append, ← this.1], ?_⟩
        simp [this.2, Ne.symm e]

theorem cutFirst_eq_some {c : Char} {s a b : Str} :
    cutFirst c s = some (a, b) ↔ s = a ++ c :: b ∧ c ∉ a :=
  ⟨cutFirst_some, fun ⟨h1, h2⟩ => h1 ▸ cutFirst_append b h2⟩

theorem cutLast_append {c : Char} (a : Str) {b : Str} (h : c ∉ b) :
    cutLast c (a ++ c :: b) = some (a, b) := by
  unfold cutLast
  have : (a ++ c :: b).reverse = b.reverse ++ c :: a.reverse := by simp
  rw [this, cutFirst_append _ (by simpa using h)]
  simp

theorem cutLast_some {c : Char} {s a b : Str} (h : cutLast c s = some (a, b)) :
    s = a ++ c :: b ∧ c ∉ b := by
  unfold cutLast at h
  rcases hc : cutFirst c s.reverse with _ | ⟨x, y⟩
  · simp [hc] at h
  · simp [hc] at h
    obtain ⟨rfl, rfl⟩ := h
    have := cutFirst_some hc
    refine ⟨?_, by simpa using this.2⟩
    have h2 := congrArg List.reverse this.1
    simpa using h2

theorem cutLast_eq_none {c : Char} {s : Str} : cutLast c s = none ↔ c ∉ s := by
  unfold cutLast
  rcases hc : cutFirst c s.reverse with _ | ⟨x, y⟩
  · simpa using cutFirst_eq_none.mp hc
  · have := (cutFirst_some hc).1
    simp only [reduceCtorEq, false_iff, Classical.not_not]
    have hm : c ∈ s.reverse := by rw [this]; simp
    simpa using hm

/-! ### numbers -/

theorem digitVal_digitChar {d : Nat} (h : d < 10) : digitVal (digitChar d) = some d := by
  have : d = 0 ∨ d = 1 ∨ d = 2 ∨ d = 3 ∨ d = 4 ∨ d = 5 ∨ d = 6 ∨ d = 7 ∨ d = 8 ∨ d = 9 := by omega
  rcases this with h | h | h | h | h | h | h | h | h | h <;> subst h <;> decide

theorem digitVal_some_isDigit {c : Char} {d : Nat} (h : digitVal c = some d) :
    c = digitChar d ∧ d < 10 := by
  unfold digitVal at h
  split at h
  · rename_i hc
    simp only [Option.some.injEq] at h
    have h0 : '0'.toNat ≤ c.toNat := hc.1
    have h9 : c.toNat ≤ '9'.toNat := hc.2
    have e0 : '0'.toNat = 48 := rfl
    have e9 : '9'.toNat = 57 := rfl
    refine ⟨?_, by omega⟩
    unfold digitChar
    have : '0'.toNat + d = c.toNat := by omega
    rw [this]
    simp
  · simp at h

/-- Every character of a decimal number is one of the ten digits. -/
theorem showNat_digits (n : Nat) : ∀ c ∈ showNat n, ∃ d, d < 10 ∧ c = digitChar d := by
  induction n using Nat.strongRecOn with
  | ind n ih =>
    intro c hc
    unfold showNat at hc
    split at hc
    · rename_i h; simp at hc; exact ⟨n, h, hc⟩
    · rename_i h
      simp only [List.mem_append, List.mem_singleton] at hc
      rcases hc with hc | hc
      · exact ih (n / 10) (by omega) c hc
      · exact ⟨n % 10, by omega, hc⟩

theorem showNat_ne_nil (n : Nat) : showNat n ≠ [] := by
  unfold showNat; split <;> simp

theorem readDigits_append_digit (s : Str) (hs : ∀ c ∈ s, ∃ d, d < 10 ∧ c = digitChar d) (hne : s ≠ [])
    {d : Nat} (hd : d < 10) : ∀ (acc : Nat) (b : Bool) (m : Nat), readDigits acc b s = some m →
    readDigits acc b (s ++ [digitChar d]) = some (m * 10 + d) := by
  induction s with
  | nil => exact absurd rfl hne
  | cons c cs ih =>
    intro acc b m h
    obtain ⟨e, he, hce⟩ := hs c (by simp)
    rw [List.cons_append]
    unfold readDigits at h ⊢
    rw [hce, digitVal_digitChar he] at h ⊢
    simp only at h ⊢
    rcases cs with _ | ⟨c2, cs2⟩
    · simp only [readDigits, if_true, Option.some.injEq] at h
      subst h
      simp [readDigits, digitVal_digitChar hd]
    · exact ih (fun c hc => hs c (List.mem_cons_of_mem _ hc)) (by simp) _ _ _ h

theorem readDigits_showNat (n : Nat) : readDigits 0 false (showNat n) = some n := by
  induction n using Nat.strongRecOn with
  | ind n ih =>
    unfold showNat
    split
    · rename_i h; simp [readDigits, digitVal_digitChar h]
    · rename_i h
      rw [readDigits_append_digit _ (showNat_digits _) (showNat_ne_nil _) (by omega) _ _ _ (ih (n / 10) (by omega))]
      congr 1; omega

theorem digitChar_not_space {d : Nat} (h : d < 10) : isSpace (digitChar d) = false := by
  have : d = 0 ∨ d = 1 ∨ d = 2 ∨ d = 3 ∨ d = 4 ∨ d = 5 ∨ d = 6 ∨ d = 7 ∨ d = 8 ∨ d = 9 := by omega
  rcases this with h | h | h | h | h | h | h | h | h | h <;> subst h <;> decide

theorem dropWhile_of_all_false {α} (p : α → Bool) (s : List α) (h : ∀ c ∈ s, p c = false) :
    s.dropWhile p = s := by
  cases s with
  | nil => rfl
  | cons x xs => simp [List.dropWhile, h x (by simp)]

theorem strip_of_no_space (s : Str) (h : ∀ c ∈ s, isSpace c = false) : strip s = s := by
  unfold strip
  rw [dropWhile_of_all_false _ _ h, dropWhile_of_all_false _ _ (by simpa using h)]
  simp

theorem digitChar_ne {d : Nat} (h : d < 10) :
    digitChar d ≠ '-' ∧ digitChar d ≠ '+' ∧ digitChar d ≠ ',' ∧ digitChar d ≠ '=' ∧ digitChar d ≠ '?' ∧
      digitChar d ≠ ':' ∧ digitChar d ≠ '#' := by
  have : d = 0 ∨ d = 1 ∨ d = 2 ∨ d = 3 ∨ d = 4 ∨ d = 5 ∨ d = 6 ∨ d = 7 ∨ d = 8 ∨ d = 9 := by omega
  rcases this with h | h | h | h | h | h | h | h | h | h <;> subst h <;> decide

theorem pyInt_showNat (n : Nat) : pyInt (showNat n) = some (n : Int) := by
  have hsp : ∀ c ∈ showNat n, isSpace c = false := fun c hc => by
    obtain ⟨d, hd, rfl⟩ := showNat_digits n c hc; exact digitChar_not_space hd
  have hrd := readDigits_showNat n
  have hdig := showNat_digits n
  unfold pyInt
  rw [strip_of_no_space _ hsp]
  rcases hs : showNat n with _ | ⟨c, cs⟩
  · exact absurd hs (showNat_ne_nil n)
  · rw [hs] at hrd hdig
    obtain ⟨d, hd, hc⟩ := hdig c (by simp)
    have hne := digitChar_ne hd
    rw [← hc] at hne
    simp [hne.1, hne.2.1, hrd]

theorem pyInt_showInt (i : Int) : pyInt (showInt i) = some i := by
  cases i with
  | ofNat n => exact pyInt_showNat n
  | negSucc n =>
    have hrd := readDigits_showNat (n + 1)
    have hsp : ∀ c ∈ '-' :: showNat (n + 1), isSpace c = false := fun c hc => by
      rcases List.mem_cons.mp hc with h | h
      · subst h; decide
      · obtain ⟨d, hd, rfl⟩ := showNat_digits _ c h; exact digitChar_not_space hd
    unfold pyInt showInt
    rw [strip_of_no_space _ hsp]
    simp only [if_true, hrd]
    rfl

theorem showNat_no (n : Nat) :
    '-' ∉ showNat n ∧ ',' ∉ showNat n ∧ '=' ∉ showNat n ∧ '?' ∉ showNat n ∧ ':' ∉ showNat n ∧ '#' ∉ showNat n := by
  have key : ∀ c, (∀ d, d < 10 → digitChar d ≠ c) → c ∉ showNat n := fun c h hc => by
    obtain ⟨d, hd, e⟩ := showNat_digits n c hc
    exact h d hd e.symm
  exact ⟨key _ fun d h => (digitChar_ne h).1, key _ fun d h => (digitChar_ne h).2.2.1,
    key _ fun d h => (digitChar_ne h).2.2.2.1, key _ fun d h => (digitChar_ne h).2.2.2.2.1,
    key _ fun d h => (digitChar_ne h).2.2.2.2.2.1, key _ fun d h => (digitChar_ne h).2.2.2.2.2.2⟩

theorem showInt_no (c : Char) (hc : c ≠ '-') (h : ∀ n, c ∉ showNat n) (i : Int) : c ∉ showInt i := by
  cases i with
  | ofNat n => exact h n
  | negSucc n => simp [showInt, hc, h (n + 1)]

theorem showInt_no_comma (i : Int) : ',' ∉ showInt i :=
  showInt_no _ (by decide) (fun n => (showNat_no n).2.1) i

/-- A number text without a minus sign denotes a non-negative number. -/
theorem pyInt_nonneg {s : Str} {i : Int} (hs : '-' ∉ s) (h : pyInt s = some i) : 0 ≤ i := by
  have hsub : ∀ c ∈ strip s, c ∈ s := by
    intro c hc
    unfold strip at hc
    have h1 := List.mem_reverse.mp hc
    have h2 := (List.dropWhile_sublist isSpace).subset h1
    have h3 := List.mem_reverse.mp h2
    exact (List.dropWhile_sublist isSpace).subset h3
  unfold pyInt at h
  rcases hst : strip s with _ | ⟨c, cs⟩
  · simp [hst] at h
  · rw [hst] at h
    have hcne : c ≠ '-' := fun e => hs (hsub '-' (by rw [hst, e]; simp))
    simp only [hcne, if_false] at h
    split at h
    · rcases hr : readDigits 0 false cs with _ | n <;> simp [hr] at h; omega
    · rcases hr : readDigits 0 false (c :: cs) with _ | n <;> simp [hr] at h; omega

/-! ### dictionaries -/

section dict
variable {κ ν : Type} [DecidableEq κ]

theorem dget_dset (d : List (κ × ν)) (k k' : κ) (v : ν) :
    dget (dset d k v) k' = if k = k' then some v else dget d k' := by
  induction d with
  | nil => simp [dset, dget]
  | cons e rest ih =>
    obtain ⟨a, b⟩ := e
    unfold dset
    split
    · rename_i h; subst h; simp only [dget]; split <;> rfl
    · rename_i h
      simp only [dget]
      split
      · rename_i h2; subst h2; simp [Ne.symm h]
      · rw [ih]

theorem dget_ddel (d : List (κ × ν)) (k k' : κ) :
    dget (ddel d k) k' = if k = k' then none else dget d k' := by
  unfold ddel
  induction d with
  | nil => simp [dget]
  | cons e rest ih =>
    obtain ⟨a, b⟩ := e
    simp only [List.filter]
    by_cases h : a = k
    · subst h
      simp only [ne_eq, not_true_eq_false, decide_false, ih, dget]
      split <;> rfl
    · simp only [ne_eq, h, not_false_eq_true, decide_true, dget, ih]
      split
      · rename_i h2; subst h2; simp [Ne.symm h]
      · rfl

theorem dget_some_mem {d : List (κ × ν)} {k : κ} {v : ν} (h : dget d k = some v) : (k, v) ∈ d := by
  induction d with
  | nil => simp [dget] at h
  | cons e rest ih =>
    obtain ⟨a, b⟩ := e
    unfold dget at h
    split at h
    · rename_i e; subst e; simp at h; simp [h]
    · exact List.mem_cons_of_mem _ (ih h)

theorem dget_none {d : List (κ × ν)} {k : κ} : dget d k = none ↔ ∀ e ∈ d, e.1 ≠ k := by
  induction d with
  | nil => simp [dget]
  | cons e rest ih =>
    obtain ⟨a, b⟩ := e
    unfold dget
    split
    · rename_i e; subst e; simp
    · rename_i e; simp [ih, e]

/-- Keys of a dictionary. -/
def dkeys (d : List (κ × ν)) : List κ := d.map Prod.fst

theorem dget_of_mem_nodup {d : List (κ × ν)} (hn : (dkeys d).Nodup) {k : κ} {v : ν} (h : (k, v) ∈ d) :
    dget d k = some v := by
  induction d with
  | nil => simp at h
  | cons e rest ih =>
    obtain ⟨a, b⟩ := e
    simp only [dkeys, List.map_cons, List.nodup_cons] at hn
    rcases List.mem_cons.mp h with h | h
    · cases h; simp [dget]
    · have hne : a ≠ k := fun e => hn.1 (e ▸ List.mem_map.mpr ⟨(k, v), h, rfl⟩)
      simp only [dget, hne, if_false]
      exact ih hn.2 h

theorem dkeys_dset (d : List (κ × ν)) (k : κ) (v : ν) :
    dkeys (dset d k v) = if k ∈ dkeys d then dkeys d else dkeys d ++ [k] := by
  induction d with
  | nil => simp [dset, dkeys]
  | cons e rest ih =>
    obtain ⟨a, b⟩ := e
    unfold dset
    split
    · rename_i h; subst h; simp [dkeys]
    · rename_i h
      simp only [dkeys, List.map_cons, List.mem_cons] at ih ⊢
      rw [ih]
      simp only [Ne.symm h, false_or]
      by_cases hm : k ∈ List.map Prod.fst rest <;> simp [hm]

theorem nodup_dset {d : List (κ × ν)} (hn : (dkeys d).Nodup) (k : κ) (v : ν) :
    (dkeys (dset d k v)).Nodup := by
  rw [dkeys_dset]
  split
  · exact hn
  · rename_i h
    rw [List.nodup_append]
    refine ⟨hn, by simp, ?_⟩
    intro a ha b hb
    simp at hb; subst hb
    exact fun e => h (e ▸ ha)

theorem nodup_ddel {d : List (κ × ν)} (hn : (dkeys d).Nodup) (k : κ) : (dkeys (ddel d k)).Nodup :=
  hn.sublist (List.Sublist.map _ List.filter_sublist)

theorem mem_dset_of {d : List (κ × ν)} {k : κ} {v : ν} {x : κ × ν} (h : x ∈ dset d k v) : x = (k, v) ∨ x ∈ d := by
  induction d with
  | nil => simp [dset] at h; exact Or.inl h
  | cons e d ih =>
    unfold dset at h
    split at h
    · rename_i he
      rcases List.mem_cons.mp h with h | h
      · left; rw [h, he]
      · right; simp [h]
    · rcases List.mem_cons.mp h with h | h
      · right; simp [h]
      · rcases ih h with h | h
        · exact Or.inl h
        · right; simp [h]

theorem mem_dset_iff {d : List (κ × ν)} (hn : (dkeys d).Nodup) {k k' : κ} {v v' : ν} :
    (k', v') ∈ dset d k v ↔ (k' = k ∧ v' = v) ∨ (k' ≠ k ∧ (k', v') ∈ d) := by
  constructor
  · intro h
    have := dget_of_mem_nodup (nodup_dset hn k v) h
    rw [dget_dset] at this
    split at this
    · rename_i e; subst e; simp at this; exact Or.inl ⟨rfl, this.symm⟩
    · rename_i e; exact Or.inr ⟨Ne.symm e, dget_some_mem this⟩
  · intro h
    apply dget_some_mem
    rw [dget_dset]
    rcases h with ⟨rfl, rfl⟩ | ⟨h1, h2⟩
    · simp
    · simp [Ne.symm h1, dget_of_mem_nodup hn h2]

theorem mem_ddel_iff {d : List (κ × ν)} {k k' : κ} {v' : ν} :
    (k', v') ∈ ddel d k ↔ (k' ≠ k ∧ (k', v') ∈ d) := by
  simp [ddel, List.mem_filter, and_comm]

end dict
end OpenNSA.Py
