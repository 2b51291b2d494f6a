import Verif.Nrm.Spec
import Verif.Label.Props
import Verif.Stp.Lemmas
import Verif.Discovery.Model
/-
C48: port description files.
-/
namespace OpenNSA.Nrm
open Py

theorem mem_takeWhile {p : Char → Bool} {s : Str} {c : Char} (h : c ∈ s.takeWhile p) : p c = true := by
  induction s with
  | nil => simp at h
  | cons x s ih =>
    by_cases hx : p x = true
    · simp only [List.takeWhile, hx, List.mem_cons] at h
      rcases h with rfl | h
      · exact hx
      · exact ih h
    · simp [List.takeWhile, hx] at h

theorem dropWhile_head? {p : Char → Bool} (s : Str) : ∀ c, (s.dropWhile p).head? = some c → p c = false := by
  induction s with
  | nil => simp
  | cons x s ih =>
    intro c hc
    by_cases hx : p x = true
    · simp only [List.dropWhile, hx] at hc
      exact ih c hc
    · simp only [List.dropWhile, hx] at hc
      simp at hc
      subst hc
      simpa using hx

/-! ### Fields -/

theorem tokens_nil : tokens [] = [] := rfl

theorem tokens_space (s : Str) : tokens (' ' :: s) = tokens s := by simp [tokens, splitOn]

theorem tokens_field {t s : Str} (ht : t ≠ []) (hn : ' ' ∉ t) (hs : s = [] ∨ ∃ s', s = ' ' :: s') : tokens (t ++ s) = t :: tokens s := by
  rcases hs with rfl | ⟨s', rfl⟩
  · simp [tokens, splitOn_no_sep hn, ht, splitOn]
  · simp [tokens, splitOn_append s' hn, ht, splitOn]

/-- The fields of a text are what the parser takes for them. -/
theorem fields_iff (s : Str) (l : List Str) : Fields s l ↔ tokens s = l := by
  constructor
  · intro h
    induction h with
    | nil => rfl
    | space _ ih => rw [tokens_space, ih]
    | field ht hn hs _ ih => rw [tokens_field ht hn hs, ih]
  · rintro rfl
    -- by induction on the length: a space, or a field up to the next space
    have key : ∀ (n : Nat) (s : Str), s.length ≤ n → Fields s (tokens s) := by
      intro n
      induction n with
      | zero =>
        intro s hs
        have : s = [] := List.length_eq_zero_iff.1 (by omega)
        subst this
        exact .nil
      | succ n ih =>
        intro s hs
        cases s with
        | nil => exact .nil
        | cons c s =>
          by_cases hc : c = ' '
          · subst hc
            rw [tokens_space]
            exact .space (ih s (by simpa using hs))
          · have hsplit : (c :: s).takeWhile (· ≠ ' ') ++ (c :: s).dropWhile (· ≠ ' ') = c :: s := List.takeWhile_append_dropWhile ..
            have ht : (c :: s).takeWhile (· ≠ ' ') ≠ [] := by simp [List.takeWhile, hc]
            have hn : ' ' ∉ (c :: s).takeWhile (· ≠ ' ') := by
              intro h
              have := mem_takeWhile h
              simp at this
            have hr : (c :: s).dropWhile (· ≠ ' ') = [] ∨ ∃ s', (c :: s).dropWhile (· ≠ ' ') = ' ' :: s' := by
              cases hd : (c :: s).dropWhile (· ≠ ' ') with
              | nil => exact Or.inl rfl
              | cons x r =>
                right
                have := dropWhile_head? (p := fun x : Char => decide (x ≠ ' ')) (c :: s) x (by rw [hd]; rfl)
                exact ⟨r, by simpa using this⟩
            have hlen : ((c :: s).dropWhile (· ≠ ' ')).length ≤ n := by
              have h1 := congrArg List.length hsplit
              rw [List.length_append] at h1
              have h2 : 0 < ((c :: s).takeWhile (· ≠ ' ')).length := List.length_pos_iff.2 ht
              omega
            rw [← hsplit, tokens_field ht hn hr]
            exact .field ht hn hr (ih _ hlen)
    exact key _ s (Nat.le_refl _)

/-! ### White space around a line -/

theorem dropWhile_all {p : Char → Bool} {a b : Str} (ha : ∀ c ∈ a, p c = true) : (a ++ b).dropWhile p = b.dropWhile p := by
  induction a with
  | nil => rfl
  | cons x a ih =>
    have : p x = true := ha x (by simp)
    simp only [List.cons_append, List.dropWhile, this]
    exact ih fun c hc => ha c (List.mem_cons_of_mem _ hc)

theorem dropWhile_head {p : Char → Bool} {a : Str} (h : ∀ c, a.head? = some c → p c = false) : a.dropWhile p = a := by
  cases a with
  | nil => rfl
  | cons x a => simp [List.dropWhile, h x rfl]

theorem split_dropWhile (p : Char → Bool) (s : Str) : ∃ a, s = a ++ s.dropWhile p ∧ ∀ c ∈ a, p c = true :=
  ⟨s.takeWhile p, List.takeWhile_append_dropWhile.symm, fun _ h => mem_takeWhile h⟩

/-- `strip` gives the core, and there is only one. -/
theorem core_iff (line core : Str) : Core line core ↔ strip line = core := by
  constructor
  · rintro ⟨a, b, rfl, ha, hb, hh, hl⟩
    unfold strip
    rw [List.append_assoc, dropWhile_all ha]
    by_cases hc : core = []
    · subst hc
      have h0 : b.dropWhile isSpace = [] := by
        have := dropWhile_all (p := isSpace) (b := []) hb
        simpa using this
      simp [h0]
    · have h1 : (core ++ b).dropWhile isSpace = core ++ b := dropWhile_head (by
        intro c h
        cases core with
        | nil => exact absurd rfl hc
        | cons x core => exact hh c (by simpa using h))
      rw [h1, List.reverse_append, dropWhile_all (by simpa using hb), dropWhile_head (by simpa using hl), List.reverse_reverse]
  · rintro rfl
    obtain ⟨a, h1, h2⟩ := split_dropWhile isSpace line
    obtain ⟨b, h3, h4⟩ := split_dropWhile isSpace (line.dropWhile isSpace).reverse
    have h5 : line.dropWhile isSpace = strip line ++ b.reverse := by
      have := congrArg List.reverse h3
      rw [List.reverse_reverse, List.reverse_append] at this
      exact this
    refine ⟨a, b.reverse, by rw [List.append_assoc, ← h5]; exact h1, h2, by simpa using h4, ?_, ?_⟩
    · intro c hc
      apply dropWhile_head? line c
      rw [h5]
      cases hs : strip line with
      | nil => rw [hs] at hc; simp at hc
      | cons x l => rw [hs] at hc; simpa using hc
    · intro c hc
      have := dropWhile_head? (p := isSpace) (line.dropWhile isSpace).reverse c
      apply this
      unfold strip at hc
      rwa [List.getLast?_reverse] at hc

theorem skipped_iff (line : Str) : skipped line = true ↔ Ignored line := by
  obtain ⟨a, b, h1, h2, h3, h4, h5⟩ := (core_iff line (strip line)).2 rfl
  unfold skipped
  simp only [Bool.or_eq_true, decide_eq_true_eq]
  constructor
  · rintro (h | h)
    · left
      rw [h1, h]
      intro c hc
      simp only [List.append_nil, List.mem_append] at hc
      exact hc.elim (h2 c) (h3 c)
    · right
      cases hs : strip line with
      | nil => rw [hs] at h; simp at h
      | cons x core =>
        rw [hs] at h
        simp at h
        subst h
        exact ⟨a, core ++ b, by rw [h1, hs]; simp, h2⟩
  · rintro (h | ⟨x, y, rfl, hx⟩)
    · left
      exact (core_iff line []).1 ⟨line, [], by simp, h, by simp, by simp, by simp⟩
    · right
      -- the first character that is no space
      have hd : (x ++ '#' :: y).dropWhile isSpace = '#' :: y := by
        rw [dropWhile_all hx]
        exact dropWhile_head (by simp; decide)
      have hd2 : (x ++ '#' :: y).dropWhile isSpace = strip (x ++ '#' :: y) ++ b := by
        conv => lhs; rw [h1, List.append_assoc, dropWhile_all h2]
        cases hc : strip (x ++ '#' :: y) with
        | nil =>
          exfalso
          rw [hc] at h1
          have : '#' ∈ a ++ [] ++ b := by rw [← h1]; simp
          simp only [List.append_nil, List.mem_append] at this
          exact absurd (this.elim (h2 _) (h3 _)) (by decide)
        | cons z core =>
          rw [hc] at h4
          exact dropWhile_head (by simpa using h4)
      cases hc : strip (x ++ '#' :: y) with
      | nil =>
        rw [hc, hd] at hd2
        exact absurd (h3 '#' (by rw [← List.nil_append b, ← hd2]; simp)) (by decide)
      | cons z core =>
        rw [hc, hd] at hd2
        simp only [List.cons_append, List.cons.injEq] at hd2
        simp [← hd2.1]

/-! ### Remote ports -/

theorem takeUpTo_iff {c : Char} {s i r : Str} : takeUpTo c s = some (i, r) ↔ s = i ++ c :: r ∧ i ≠ [] ∧ c ∉ i.tail := by
  cases s with
  | nil => simp [takeUpTo]
  | cons x s =>
    simp only [takeUpTo]
    cases h : cutFirst c s with
    | none =>
      have hn := cutFirst_eq_none.1 h
      simp only [false_iff, reduceCtorEq]
      rintro ⟨h1, h2, h3⟩
      cases i with
      | nil => exact h2 rfl
      | cons y i =>
        simp only [List.cons_append, List.cons.injEq] at h1
        exact hn (by rw [h1.2]; simp)
    | some v =>
      obtain ⟨a, b⟩ := v
      obtain ⟨h1, h2⟩ := cutFirst_some h
      simp only [Option.some.injEq, Prod.mk.injEq]
      constructor
      · rintro ⟨rfl, rfl⟩
        exact ⟨by simp [h1], by simp, by simpa using h2⟩
      · rintro ⟨e1, e2, e3⟩
        cases i with
        | nil => exact absurd rfl e2
        | cons y i =>
          simp only [List.cons_append, List.cons.injEq, List.tail_cons] at e1 e3
          have := cutFirst_append r e3
          rw [← e1.2, h] at this
          simp only [Option.some.injEq, Prod.mk.injEq] at this
          exact ⟨by rw [e1.1, this.1], this.2⟩

theorem takeSuffixes_iff {s i o : Str} :
    takeSuffixes s = some (i, o) ↔ ∃ rest, s = '(' :: (i ++ '|' :: (o ++ ')' :: rest)) ∧ i ≠ [] ∧ '|' ∉ i.tail ∧ o ≠ [] ∧ ')' ∉ o.tail := by
  constructor
  · intro h
    unfold takeSuffixes at h
    split at h
    · split at h
      · rename_i i' s' h1
        split at h
        · rename_i o' rest h2
          simp only [Option.some.injEq, Prod.mk.injEq] at h
          obtain ⟨rfl, rfl⟩ := h
          obtain ⟨e1, e2, e3⟩ := takeUpTo_iff.1 h1
          obtain ⟨e4, e5, e6⟩ := takeUpTo_iff.1 h2
          exact ⟨rest, by rw [e1, e4], e2, e3, e5, e6⟩
        · cases h
      · cases h
    · cases h
  · rintro ⟨rest, rfl, h1, h2, h3, h4⟩
    simp only [takeSuffixes]
    rw [takeUpTo_iff.2 ⟨rfl, h1, h2⟩]
    simp only
    rw [takeUpTo_iff.2 ⟨rfl, h3, h4⟩]

theorem takeWhile_no {c : Char} {a b : Str} (h : c ∉ a) : (a ++ c :: b).takeWhile (· ≠ c) = a ∧ (a ++ c :: b).dropWhile (· ≠ c) = c :: b := by
  induction a with
  | nil => simp
  | cons x a ih =>
    have hx : x ≠ c := fun h' => h (by simp [h'])
    have := ih fun h' => h (List.mem_cons_of_mem _ h')
    simp only [List.cons_append, List.takeWhile, List.dropWhile, hx, ne_eq, not_false_eq_true, decide_true, List.cons.injEq, true_and]
    exact this

/-- A remote port is understood exactly if it has the described form. -/
theorem parseRemote_iff (s : Str) (r : Option Remote) : parseRemote s = .ok r ↔ RemoteMeans s r := by
  unfold parseRemote
  split
  · rename_i h
    subst h
    cases r with
    | none => simp [RemoteMeans]
    | some r =>
      simp only [RemoteMeans, Except.ok.injEq, reduceCtorEq, false_iff]
      rintro ⟨i, o, rest, h, _⟩
      have : '#' ∈ ['-'] := by rw [h]; simp
      simp at this
  · rename_i hs
    cases r with
    | none =>
      simp only [RemoteMeans, hs, iff_false]
      intro h
      split at h <;> cases h
    | some r =>
      obtain ⟨net, port, rin, rout⟩ := r
      simp only [RemoteMeans]
      constructor
      · intro h
        split at h
        · cases h
        · cases h
        · rename_i net' port' i o hm
          simp only [Except.ok.injEq, Option.some.injEq, Remote.mk.injEq] at h
          obtain ⟨rfl, rfl, h3, h4⟩ := h
          unfold matchRemote at hm
          split at hm
          · cases hm
          · rename_i n1 s1 hn
            split at hm
            · cases hm
            · rename_i p1 s2 hp
              simp only [Option.some.injEq, Prod.mk.injEq] at hm
              obtain ⟨rfl, rfl, hsuf⟩ := hm
              obtain ⟨rest, e1, e2, e3, e4, e5⟩ := takeSuffixes_iff.1 hsuf
              unfold takeNetwork at hn
              split at hn
              · rename_i a b hcut
                split at hn
                · cases hn
                · rename_i ha
                  cases hn
                  obtain ⟨f1, f2⟩ := cutFirst_some hcut
                  unfold takePort at hp
                  simp only at hp
                  split at hp
                  · cases hp
                  · rename_i hpne
                    simp only [Option.some.injEq, Prod.mk.injEq] at hp
                    obtain ⟨g1, g2⟩ := hp
                    have hsplit : s1.takeWhile (· ≠ '(') ++ s1.dropWhile (· ≠ '(') = s1 := List.takeWhile_append_dropWhile ..
                    refine ⟨i, o, rest, ?_, ha, f2, by rw [← g1]; exact hpne, ?_, e2, e3, e4, e5, by rw [← h3]; simp, by rw [← h4]; simp⟩
                    · rw [f1, ← e1, ← g1, ← g2, hsplit]
                    · rw [← g1]
                      intro hmem
                      have := mem_takeWhile hmem
                      simp at this
              · cases hn
      · rintro ⟨i, o, rest, rfl, h1, h2, h3, h4, h5, h6, h7, h8, rfl, rfl⟩
        have hm : matchRemote (net ++ '#' :: (port ++ '(' :: (i ++ '|' :: (o ++ ')' :: rest)))) = some (net, port, some (i, o)) := by
          unfold matchRemote takeNetwork
          rw [cutFirst_append _ h2]
          simp only [h1, if_false]
          unfold takePort
          simp only [takeWhile_no h4, h3, if_false]
          rw [takeSuffixes_iff.2 ⟨rest, rfl, h5, h6, h7, h8⟩]
        simp [hm]

/-! ### Labels -/

theorem parseLabel_iff (s : Str) (l : Option Label) : parseLabel s = .ok l ↔ LabelMeans s l := by
  unfold parseLabel
  split
  · rename_i h
    subst h
    cases l with
    | none => simp [LabelMeans]
    | some l =>
      simp only [LabelMeans, Except.ok.injEq, reduceCtorEq, false_iff]
      rintro ⟨range, items, h, _⟩
      have : ':' ∈ ['-'] := by rw [h]; simp
      simp at this
  · rename_i hs
    cases l with
    | none =>
      simp only [LabelMeans, hs, iff_false]
      intro h
      split at h
      · cases h
      · split at h
        · split at h <;> cases h
        · cases h
    | some l =>
      simp only [LabelMeans]
      constructor
      · intro h
        split at h
        · cases h
        · rename_i al range hcut
          obtain ⟨f1, f2⟩ := cutFirst_some hcut
          split at h
          · rename_i hal
            split at h
            · rename_i l' hl
              simp only [Except.ok.injEq, Option.some.injEq] at h
              subst h
              obtain ⟨items, hi, _⟩ := C01_items_exist_unique range
              have hc := C01_label_parse al range items hi
              obtain ⟨t1, t2, t3, t4⟩ := hc.2.1 l' hl
              refine ⟨range, items, by rw [t1]; exact f1, by rw [t1]; exact hal, hi, hc.1.1 ⟨l', hl⟩, t2, t4, ?_⟩
              simp only [Label.mk'] at hl
              split at hl
              · cases hl
              · cases hl
                rfl
            · cases h
          · cases h
      · rintro ⟨range, items, rfl, h1, h2, h3, h4, h5, h6⟩
        have hno : ':' ∉ l.type_ := by rcases h1 with h | h <;> rw [h] <;> decide
        rw [cutFirst_append _ hno]
        simp only [h1, if_true]
        have hc := C01_label_parse l.type_ range items h2
        obtain ⟨l', hl⟩ := hc.1.2 h3
        obtain ⟨t1, t2, t3, t4⟩ := hc.2.1 l' hl
        have hlp : l'.listPairs = false := by
          simp only [Label.mk'] at hl
          split at hl
          · cases hl
          · cases hl
            rfl
        have hv : l'.values = l.values := Canonical.ext t2 h4 fun n => (t4 n).trans (h5 n).symm
        have : l' = l := by
          cases l'; cases l
          simp only at t1 hv hlp h6
          rw [t1, hv, hlp, h6]
        rw [hl, this]

/-! ### Attributes -/

/-- What an attribute adds. -/
def Attrs.add (a : Attrs) : Attr → Attrs
  | .rule k v => { a with authz := a.authz ++ [⟨k, v⟩] }
  | .vector n w => { a with vectors := dset a.vectors n w }
  | .restrict => { a with restricted := true }

theorem auth_no_eq {k : Str} (h : k ∈ headerAttributes ∨ k = hostDn) : '=' ∉ k := by
  rcases h with h | rfl
  · exact (by decide : ∀ k ∈ headerAttributes, '=' ∉ k) k h
  · decide

theorem addAttr_ok {a b : Attrs} {s : Str} : addAttr a s = .ok b ↔ ∃ x, Reads s x ∧ b = a.add x := by
  constructor
  · intro h
    unfold addAttr at h
    split at h
    · rename_i he
      split at h
      · rename_i ak av hsp
        obtain ⟨h1, h2, h3⟩ := splitOn_eq_two hsp
        split at h
        · rename_i hk
          cases h
          exact ⟨.rule ak av, by rw [h3]; exact .rule ak av hk h2, rfl⟩
        · split at h
          · rename_i hv
            split at h
            · cases h
            · rename_i n w hcut
              obtain ⟨f1, f2⟩ := cutFirst_some hcut
              split at h
              · cases h
              · rename_i k hk
                cases h
                refine ⟨.vector n k, ?_, rfl⟩
                rw [h3, hv, f1]
                rw [f1] at h2
                exact .vector n w k f2 (fun h => h2 (by simp [h])) (fun h => h2 (by simp [h])) hk
          · cases h
      · cases h
    · split at h
      · rename_i hr
        cases h
        exact ⟨.restrict, by rw [hr]; exact .restrict, rfl⟩
      · cases h
  · rintro ⟨x, hx, rfl⟩
    unfold addAttr
    cases hx with
    | rule k v hk hv =>
      have hk : k ∈ headerAttributes ∨ k = hostDn := hk
      rw [if_pos (by simp), splitOn_two (auth_no_eq hk) hv]
      simp [hk, Attrs.add]
    | vector n t w h1 h2 h3 h4 =>
      have hno : '=' ∉ n ++ '@' :: t := by
        simp only [List.mem_append, List.mem_cons, not_or]
        exact ⟨h2, by decide, h3⟩
      rw [if_pos (by simp), splitOn_two (by decide) hno]
      simp only
      rw [if_neg (by decide), if_pos trivial, cutFirst_append _ h1]
      simp [h4, Attrs.add]
    | restrict =>
      rw [if_neg (by decide), if_pos (show "restricttransit".toList = kRestrict from rfl)]
      rfl

theorem addAttrs_ok {l : List Str} : ∀ {a b : Attrs}, addAttrs a l = .ok b ↔
    ∃ xs, l.length = xs.length ∧ (∀ p ∈ l.zip xs, Reads p.1 p.2) ∧ b = xs.foldl Attrs.add a := by
  induction l with
  | nil =>
    intro a b
    simp only [addAttrs, Except.ok.injEq]
    constructor
    · rintro rfl
      exact ⟨[], rfl, by simp, rfl⟩
    · rintro ⟨xs, h1, _, h3⟩
      have : xs = [] := List.length_eq_zero_iff.1 (by simpa using h1.symm)
      subst this
      exact h3.symm
  | cons s l ih =>
    intro a b
    simp only [addAttrs]
    constructor
    · intro h
      split at h
      · cases h
      · rename_i c hc
        obtain ⟨x, hx, rfl⟩ := addAttr_ok.1 hc
        obtain ⟨xs, h1, h2, h3⟩ := ih.1 h
        refine ⟨x :: xs, by simp [h1], ?_, h3⟩
        intro p hp
        simp only [List.zip_cons_cons, List.mem_cons] at hp
        rcases hp with rfl | hp
        · exact hx
        · exact h2 p hp
    · rintro ⟨xs, h1, h2, h3⟩
      cases xs with
      | nil => simp at h1
      | cons x xs =>
        have hx : Reads s x := h2 (s, x) (by simp)
        rw [addAttr_ok.2 ⟨x, hx, rfl⟩]
        exact ih.2 ⟨xs, by simpa using h1, fun p hp => h2 p (by simp [hp]), h3⟩

theorem fold_add (xs : List Attr) : ∀ (a : Attrs),
    (xs.foldl Attrs.add a).authz = a.authz ++ (xs.filterMap fun | .rule k v => some ⟨k, v⟩ | _ => none) ∧
    (∀ n, dget (xs.foldl Attrs.add a).vectors n = match lastWeight n xs with | some w => some w | none => dget a.vectors n) ∧
    ((xs.foldl Attrs.add a).restricted = true ↔ a.restricted = true ∨ Attr.restrict ∈ xs) := by
  induction xs with
  | nil => intro a; simp [lastWeight]
  | cons x xs ih =>
    intro a
    obtain ⟨h1, h2, h3⟩ := ih (a.add x)
    simp only [List.foldl_cons]
    refine ⟨?_, ?_, ?_⟩
    · rw [h1]
      cases x <;> simp [Attrs.add]
    · intro n
      rw [h2 n]
      simp only [lastWeight]
      cases hw : lastWeight n xs with
      | some w => rfl
      | none =>
        cases x with
        | rule k v => rfl
        | restrict => rfl
        | vector m w =>
          simp only [Attrs.add, dget_dset]
          split <;> rfl
    · rw [h3]
      cases x <;> simp [Attrs.add]

theorem parseAttrs_ok {s : Str} {a : Attrs} (h : parseAttrs s = .ok a) : AttrsMean s a.authz a.vectors a.restricted := by
  unfold parseAttrs at h
  split at h
  · rename_i hs
    cases h
    exact Or.inl ⟨hs, rfl, rfl, rfl⟩
  · rename_i hs
    obtain ⟨xs, h1, h2, rfl⟩ := addAttrs_ok.1 h
    obtain ⟨f1, f2, f3⟩ := fold_add xs ⟨[], [], false⟩
    refine Or.inr ⟨hs, splitOn ',' s, xs, itemsOf_splitOn s, h1, h2, by rw [f1]; rfl, ?_, by simpa using f3⟩
    intro n
    rw [f2 n]
    cases lastWeight n xs <;> rfl

theorem parseAttrs_complete {s : Str} {rules : List Rule} {vectors : List (Str × Int)} {restricted : Bool} (h : AttrsMean s rules vectors restricted) :
    ∃ a, parseAttrs s = .ok a ∧ a.authz = rules ∧ (∀ n, dget a.vectors n = dget vectors n) ∧ a.restricted = restricted := by
  rcases h with ⟨rfl, rfl, rfl, rfl⟩ | ⟨hs, texts, xs, hi, hl, hr, h1, h2, h3⟩
  · exact ⟨⟨[], [], false⟩, rfl, rfl, fun _ => rfl, rfl⟩
  · obtain ⟨f1, f2, f3⟩ := fold_add xs ⟨[], [], false⟩
    refine ⟨xs.foldl Attrs.add ⟨[], [], false⟩, ?_, ?_, ?_, ?_⟩
    · unfold parseAttrs
      rw [if_neg hs, hi.splitOn_eq]
      exact addAttrs_ok.2 ⟨xs, hl, hr, rfl⟩
    · rw [f1, h1]; rfl
    · intro n
      rw [f2 n, h2 n]
      cases lastWeight n xs <;> rfl
    · rw [Bool.eq_iff_iff, f3, h3]
      simp

/-! ### Lines -/

/-- **C48, a line.** A port that the parser makes of a line is what the line means. -/
theorem C48_line (line : Str) (p : Port) (h : parseLine (strip line) = .ok p) : LineMeans line p := by
  unfold parseLine at h
  split at h
  · rename_i portType name remote label bandwidth interface authz ht
    split at h
    · cases h
    · rename_i hty
      split at h
      · cases h
      · split at h
        · cases h
        · rename_i lab hlab
          split at h
          · cases h
          · rename_i bw hbw
            split at h
            · cases h
            · rename_i rem hrem
              split at h
              · cases h
              · rename_i a ha
                cases h
                have : portType = kEthernet := Decidable.not_not.1 hty
                subst this
                exact ⟨strip line, remote, label, bandwidth, authz, (core_iff _ _).2 rfl, (fields_iff _ _).2 ht, (parseRemote_iff _ _).1 hrem,
                  (parseLabel_iff _ _).1 hlab, hbw, parseAttrs_ok ha⟩
  · cases h

/-- **C48, every line.** Every line that means a port is read, as that port. -/
theorem C48_line_complete (line : Str) (p : Port) (h : LineMeans line p) : ∃ q, parseLine (strip line) = .ok q ∧ q.Same p := by
  obtain ⟨core, remote, label, bandwidth, authz, hc, hf, hr, hl, hb, ha⟩ := h
  rw [(core_iff _ _).1 hc]
  obtain ⟨a, h1, h2, h3, h4⟩ := parseAttrs_complete ha
  refine ⟨⟨p.name, p.remote, p.label, p.bandwidth, p.interface, a.authz, a.vectors, a.restricted⟩, ?_, rfl, rfl, rfl, rfl, rfl, h2, h3, h4⟩
  unfold parseLine
  rw [(fields_iff _ _).1 hf]
  simp only [ne_eq, not_true_eq_false, if_false]
  rw [(parseRemote_iff _ _).2 hr]
  simp only [(parseLabel_iff _ _).2 hl, hb, h1]

/-- **C48, the file.** The ports that the parser makes of a file are what the file means: one for every line that is neither blank nor
a comment, in their order. -/
theorem C48_file (lines : List Str) (ps : List Port) (h : parsePortSpec lines = .ok ps) : FileMeans lines ps := by
  induction lines generalizing ps with
  | nil => cases h; exact .nil
  | cons line lines ih =>
    unfold parsePortSpec at h
    split at h
    · rename_i hs
      exact .ignored ((skipped_iff line).1 hs) (ih ps h)
    · rename_i hs
      split at h
      · cases h
      · rename_i p hp
        split at h
        · cases h
        · rename_i qs hq
          cases h
          exact .port (fun hi => hs ((skipped_iff line).2 hi)) (C48_line line p hp) (ih qs hq)

/-- **C48, every file.** Every file that means something is read, as what it means. -/
theorem C48_file_complete (lines : List Str) (ps : List Port) (h : FileMeans lines ps) :
    ∃ qs, parsePortSpec lines = .ok qs ∧ qs.length = ps.length ∧ ∀ x ∈ qs.zip ps, x.1.Same x.2 := by
  induction h with
  | nil => exact ⟨[], rfl, rfl, by simp⟩
  | @ignored line lines ps hi _ ih =>
    obtain ⟨qs, h1, h2⟩ := ih
    exact ⟨qs, by simp [parsePortSpec, (skipped_iff line).2 hi, h1], h2⟩
  | @port line lines p ps hi hm _ ih =>
    obtain ⟨qs, h1, h2, h3⟩ := ih
    obtain ⟨q, h4, h5⟩ := C48_line_complete line p hm
    have hsk : skipped line = false := by
      cases hs : skipped line with
      | false => rfl
      | true => exact absurd ((skipped_iff line).1 hs) hi
    refine ⟨q :: qs, by simp [parsePortSpec, hsk, h4, h1], by simp [h2], ?_⟩
    intro x hx
    simp only [List.zip_cons_cons, List.mem_cons] at hx
    rcases hx with rfl | hx
    · exact h5
    · exact h3 x hx

/-- **C48, errors.** If some line that is neither blank nor a comment means nothing, the file is not read at all. -/
theorem C48_error (lines : List Str) (line : Str) (hl : line ∈ lines) (hi : ¬ Ignored line) (hm : ∀ p, ¬ LineMeans line p) :
    ∃ e, parsePortSpec lines = .error e := by
  cases h : parsePortSpec lines with
  | error e => exact ⟨e, rfl⟩
  | ok ps =>
    exfalso
    have hf := C48_file lines ps h
    clear h
    induction hf with
    | nil => simp at hl
    | ignored hi' _ ih =>
      rcases List.mem_cons.1 hl with rfl | hl
      · exact hi hi'
      · exact ih hl
    | port _ hm' _ ih =>
      rcases List.mem_cons.1 hl with rfl | hl
      · exact hm _ hm'
      · exact ih hl

/-- **C48, errors.** Which errors there are about the other side of a port: it is a topology error exactly if the text does not begin
with a network, `#` and a port. -/
theorem C48_remote_error (s : Str) : parseRemote s = .error .topology ↔
    s ≠ ['-'] ∧ ∀ net c rest, net ≠ [] → '#' ∉ net → c ≠ '(' → s ≠ net ++ '#' :: c :: rest := by
  unfold parseRemote matchRemote takeNetwork takePort
  by_cases hd : s = ['-']
  · simp [hd]
  simp only [ne_eq, hd, if_false, not_false_eq_true, true_and]
  cases hc : cutFirst '#' s with
  | none =>
    refine ⟨fun _ net c rest _ _ _ e => ?_, fun _ => rfl⟩
    exact (cutFirst_eq_none.1 hc) (by simp [e])
  | some ab =>
    obtain ⟨a, b⟩ := ab
    obtain ⟨h1, h2⟩ := cutFirst_eq_some.1 hc
    have only : ∀ net c rest, '#' ∉ net → s = net ++ '#' :: c :: rest → net = a ∧ c :: rest = b := by
      intro net c rest hn e
      have := cutFirst_append (c := '#') (c :: rest) hn
      rw [← e, hc] at this
      simp only [Option.some.injEq, Prod.mk.injEq] at this
      exact ⟨this.1.symm, this.2.symm⟩
    by_cases ha : a = []
    · simp only [if_pos ha, true_iff]
      intro net c rest h h' _ e
      exact h ((only net c rest h' e).1.trans ha)
    · simp only [if_neg ha]
      by_cases hb : b.takeWhile (· ≠ '(') = []
      · simp only [ne_eq] at hb
        simp only [hb, if_true, true_iff]
        intro net c rest _ h' hp e
        rw [← (only net c rest h' e).2] at hb
        simp [List.takeWhile_cons, hp] at hb
      · simp only [ne_eq] at hb
        simp only [hb, if_false]
        refine ⟨fun h => ?_, fun h => ?_⟩
        · split at h <;> simp_all
        · cases b with
          | nil => simp at hb
          | cons c rest =>
            refine absurd ?_ (h a c rest ha (by first | exact h1 | exact h2) ?_)
            · first | exact h1 | exact h2
            · rintro rfl; simp at hb

/-- `C48_remote_error`: both sides. -/
example : parseRemote "net#(in|out)".toList = .error .topology ∧ parseRemote "net#port".toList = .error .specification := by decide +kernel

namespace Ex
/-- The example of the comment in nrm.py:90-96, with the remote ports in the form that is accepted. -/
def file : List Str :=
  ["".toList, "# some comment\n".toList,
   "ethernet     ps              -                              vlan:1780-1783      1000       em0        user=user@example.org\n".toList,
   "   ethernet  netherlight     netherlight#nordunet(-in|-out)  vlan:1780-1783,1790 1000       em1        -\n".toList,
   "ethernet     uvalight        uvalight#nordunet(-in|-out)     -                   1000       em2        nsa=aruba.net:nsa,restricttransit\n".toList]
end Ex

/-- The file is read, with three ports. -/
example : parsePortSpec Ex.file = .ok [
    ⟨"ps".toList, none, some ⟨tVlan, [(1780, 1783)], false⟩, 1000, "em0".toList, [⟨"user".toList, "user@example.org".toList⟩], [], false⟩,
    ⟨"netherlight".toList, some ⟨"netherlight".toList, "nordunet".toList, "netherlight:nordunet-in".toList, "netherlight:nordunet-out".toList⟩,
      some ⟨tVlan, [(1780, 1783), (1790, 1790)], false⟩, 1000, "em1".toList, [], [], false⟩,
    ⟨"uvalight".toList, some ⟨"uvalight".toList, "nordunet".toList, "uvalight:nordunet-in".toList, "uvalight:nordunet-out".toList⟩, none, 1000, "em2".toList,
      [⟨"nsa".toList, "aruba.net:nsa".toList⟩], [], true⟩] := by decide +kernel

/-- A line that means nothing: fields separated by a tab. -/
example : (match parsePortSpec ["ethernet\tps - - 1000 em0 -".toList] with | .error .specification => true | _ => false) = true := by decide +kernel

/-! ### Names that occur twice -/

/-- The table of ports by name that the aggregator and the backends look up, setup.py:257 and e.g. backends/dud.py:22. -/
def byName (ps : List Port) : List (Str × Port) := ps.foldl (fun d p => dset d p.name p) []

/-- What the path finder and the fetcher are told of the ports, setup.py:246-253. -/
def portsOf (network : Str) (ps : List Port) : Discovery.Ports := [(network, ps.map fun p => (p.name, p.remote.map (·.network)))]

/-- **C48, names.** In the tables by name the last line with a name counts. -/
theorem C48_last_wins (ps : List Port) (n : Str) :
    (∀ p, dget (byName ps) n = some p ↔ ∃ before after, ps = before ++ p :: after ∧ p.name = n ∧ ∀ q ∈ after, q.name ≠ n) := by
  have key : ∀ (ps : List Port) (d : List (Str × Port)) (p : Port), dget (ps.foldl (fun d p => dset d p.name p) d) n = some p ↔
      (∃ before after, ps = before ++ p :: after ∧ p.name = n ∧ ∀ q ∈ after, q.name ≠ n) ∨ (dget d n = some p ∧ ∀ q ∈ ps, q.name ≠ n) := by
    intro ps
    induction ps with
    | nil =>
      intro d p
      simp
    | cons x ps ih =>
      intro d p
      simp only [List.foldl_cons]
      rw [ih]
      constructor
      · rintro (⟨b, a, rfl, h1, h2⟩ | ⟨h1, h2⟩)
        · exact Or.inl ⟨x :: b, a, rfl, h1, h2⟩
        · rw [dget_dset] at h1
          split at h1
          · rename_i hx
            cases h1
            exact Or.inl ⟨[], ps, rfl, hx, h2⟩
          · rename_i hx
            refine Or.inr ⟨h1, ?_⟩
            intro q hq
            rcases List.mem_cons.1 hq with rfl | hq
            · exact hx
            · exact h2 q hq
      · rintro (⟨b, a, h, h1, h2⟩ | ⟨h1, h2⟩)
        · cases b with
          | nil =>
            simp only [List.nil_append, List.cons.injEq] at h
            obtain ⟨rfl, rfl⟩ := h
            exact Or.inr ⟨by rw [dget_dset, if_pos h1], h2⟩
          | cons y b =>
            simp only [List.cons_append, List.cons.injEq] at h
            exact Or.inl ⟨b, a, h.2, h1, h2⟩
        · refine Or.inr ⟨?_, fun q hq => h2 q (List.mem_cons_of_mem _ hq)⟩
          rw [dget_dset, if_neg (h2 x (by simp))]
          exact h1
  intro p
  unfold byName
  rw [key]
  simp [dget]

namespace Ex
def twice : List Str :=
  ["ethernet a x#p(-in|-out) - 1000 em0 -".toList, "ethernet a y#q(-in|-out) - 1000 em1 -".toList]
def twicePorts : List Port :=
  [⟨"a".toList, some ⟨"x".toList, "p".toList, "x:p-in".toList, "x:p-out".toList⟩, none, 1000, "em0".toList, [], [], false⟩,
   ⟨"a".toList, some ⟨"y".toList, "q".toList, "y:q-in".toList, "y:q-out".toList⟩, none, 1000, "em1".toList, [], [], false⟩]
end Ex

/-- **C48 is violated for names that occur twice**: they are not detected, and the path finder is told of all the lines while the tables by
name have only the last. A path to the network of the first line goes over a port that leads to the network of the second. -/
theorem C48_duplicate_fails : parsePortSpec Ex.twice = .ok Ex.twicePorts ∧
    (lvRun [] 5 (Discovery.setupOps (portsOf "net".toList Ex.twicePorts))).path 9 "x".toList "net".toList = .res (.hops [("net".toList, "a".toList)]) ∧
    (∃ p, dget (byName Ex.twicePorts) "a".toList = some p ∧ ∃ r, p.remote = some r ∧ r.network = "y".toList) := by
  refine ⟨by decide +kernel, ?_, ?_⟩
  · simp [portsOf, Ex.twicePorts, Discovery.setupOps, lvRun, LinkVector.step, LinkVector.new, LinkVector.calculate, calcOver, dijkstra, dijLoop, allNetworks,
      updateTable, dget, dset, mergeVec, relaxFrom, relaxOne, minCost, candidates, dropNet, strLt, LinkVector.path, pathLoop]
  · exact ⟨_, rfl, _, rfl, rfl⟩

end OpenNSA.Nrm
