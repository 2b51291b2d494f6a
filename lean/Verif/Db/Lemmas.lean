import Verif.Db.Model
import Verif.Wire.PropsTime
import Verif.Label.Props
import Verif.Stp.Lemmas
/-
Lemmas about the SQL text of values.
-/
namespace OpenNSA.Db
open Py Wire

theorem readPlain_double (s r : Str) (h : r.head? ≠ some '\'') : readPlain (double ['\''] s ++ '\'' :: r) = some (s, r) := by
  induction s with
  | nil =>
    cases r with
    | nil => rfl
    | cons d r =>
      have : d ≠ '\'' := by simpa using h
      unfold double
      simp only [List.nil_append]
      rw [readPlain]
      intro r' h'
      injection h' with h1 h2
      exact this h1
  | cons c s ih =>
    unfold double
    by_cases hc : c = '\''
    · subst hc
      simp only [List.mem_cons, List.mem_nil_iff, or_false, if_true, List.cons_append]
      rw [readPlain, ih]
      rfl
    · simp only [List.mem_cons, hc, List.mem_nil_iff, or_false, if_false, List.cons_append]
      rw [readPlain, ih]
      · rfl
      · intro r' h1 h2; exact absurd h1 hc
      · intro h1; exact absurd h1 hc

theorem readEscaped_double (s r : Str) (h : r.head? ≠ some '\'') : readEscaped (double ['\'', '\\'] s ++ '\'' :: r) = some (s, r) := by
  induction s with
  | nil =>
    unfold double
    simp only [List.nil_append]
    cases r with
    | nil => rfl
    | cons d r =>
      have : d ≠ '\'' := by simpa using h
      rw [readEscaped]
      intro r' h'
      injection h' with h1 h2
      exact this h1
  | cons c s ih =>
    unfold double
    by_cases hc : c = '\''
    · subst hc
      simp only [List.mem_cons, true_or, if_true, List.cons_append]
      rw [readEscaped, ih]
      rfl
    · by_cases hb : c = '\\'
      · subst hb
        simp only [List.mem_cons, List.mem_nil_iff, or_false, or_true, if_true, List.cons_append]
        rw [readEscaped, ih]
        rfl
      · simp only [List.mem_cons, hc, hb, List.mem_nil_iff, or_self, if_false, List.cons_append]
        rw [readEscaped, ih]
        · rfl
        · intro r' h1 h2; exact absurd h1 hb
        · intro h1; exact absurd h1 hb
        · intro r' h1 h2; exact absurd h1 hc
        · intro h1; exact absurd h1 hc

/-- A literal is read as the text it was made from, and ends where it ends. -/
theorem readLit_quoted (s r : Str) (h : r.head? ≠ some '\'') : readLit (quoted s ++ r) = some (s, r) := by
  unfold quoted
  split
  · simp only [List.cons_append, List.append_assoc, List.nil_append]
    exact readEscaped_double s r h
  · simp only [List.cons_append, List.append_assoc, List.nil_append]
    exact readPlain_double s r h

theorem readSimple_quoted (s r : Str) (h : r.head? ≠ some '\'') : readSimple (quoted s ++ r) = some (.lit s, r) := by
  have := readLit_quoted s r h
  unfold quoted at *
  split at this <;> (rename_i hb; simp only [hb, if_true, if_false, List.cons_append] at this ⊢; unfold readSimple; simp only [this, Option.map_some])

theorem dropText_append (t r : Str) : dropText t (t ++ r) = some r := by
  induction t with
  | nil => rfl
  | cons c t ih => simp [dropText, ih]

/-- The type is one of the two composite types. -/
def CompositeName (n : Str) : Prop := n ≠ [] ∧ ∀ c ∈ n, isName c = true

theorem takeWhile_append {p : Char → Bool} {n r : Str} (hn : ∀ c ∈ n, p c = true) (hr : ∀ c, r.head? = some c → p c = false) :
    (n ++ r).takeWhile p = n ∧ (n ++ r).dropWhile p = r := by
  induction n with
  | nil =>
    cases r with
    | nil => exact ⟨rfl, rfl⟩
    | cons d r => simp [hr d rfl]
  | cons c n ih =>
    have := ih fun x hx => hn x (List.mem_cons_of_mem _ hx)
    simp [hn c (List.mem_cons_self ..), this]

theorem readSimple_pair (name a b r : Str) (hn : ∀ c ∈ name, isName c = true) (hr : ∀ c, r.head? = some c → isName c = false) :
    readSimple (pairSql name a b ++ r) = some (.pair name a b, r) := by
  unfold pairSql
  simp only [List.cons_append, List.append_assoc]
  unfold readSimple
  simp only
  unfold readPair
  rw [readLit_quoted _ _ (by simp)]
  simp only
  rw [show (',' :: ' ' :: (quoted b ++ ')' :: ':' :: ':' :: (name ++ r))) = ", ".toList ++ (quoted b ++ ')' :: ':' :: ':' :: (name ++ r)) from rfl,
    dropText_append]
  simp only
  rw [readLit_quoted _ _ (by simp)]
  simp only
  rw [show (')' :: ':' :: ':' :: (name ++ r)) = ")::".toList ++ (name ++ r) from rfl, dropText_append]
  simp only [(takeWhile_append hn hr).1, (takeWhile_append hn hr).2]

theorem isNum_showInt (n : Int) : ∀ c ∈ showInt n, isNum c = true := by
  intro c hc
  rcases showInt_chars hc with h | ⟨d, hd, h⟩
  · subst h; decide
  · subst h; simp [isNum, digitVal_digitChar hd]

theorem readNum_showInt (n : Int) (r : Str) (hr : ∀ c, r.head? = some c → isNum c = false) : readNum (showInt n ++ r) = some (.num n, r) := by
  unfold readNum
  rw [(takeWhile_append (isNum_showInt n) hr).1, (takeWhile_append (isNum_showInt n) hr).2, pyInt_showInt]
  rfl

theorem readSimple_int (n : Int) (r : Str) (hr : ∀ c, r.head? = some c → isNum c = false) : readSimple (intSql n ++ r) = some (.num n, r) := by
  unfold intSql
  split
  · rename_i hn
    have hd : ∃ m, showInt n = '-' :: m := by
      cases n with
      | ofNat n => exact absurd hn (by simp)
      | negSucc n => exact ⟨_, rfl⟩
    obtain ⟨m, hm⟩ := hd
    have := readNum_showInt n r hr
    rw [hm] at this ⊢
    simp only [List.cons_append] at this ⊢
    unfold readSimple
    simp [this]
  · rename_i hn
    have hd : ∃ d m, d < 10 ∧ showInt n = digitChar d :: m := by
      cases n with
      | negSucc n => exact absurd (Int.negSucc_lt_zero n) hn
      | ofNat n =>
        have hne := showNat_ne_nil n
        have hds := showNat_digits n
        show ∃ d m, d < 10 ∧ showNat n = _
        cases hs : showNat n with
        | nil => exact absurd hs hne
        | cons c m =>
          obtain ⟨d, hd, rfl⟩ := hds c (by rw [hs]; exact List.mem_cons_self ..)
          exact ⟨d, m, hd, rfl⟩
    obtain ⟨d, m, hd, hm⟩ := hd
    have := readNum_showInt n r hr
    rw [hm] at this ⊢
    simp only [List.cons_append] at this ⊢
    have key : ∀ d < 10, digitChar d ≠ '\'' ∧ digitChar d ≠ ' ' ∧ digitChar d ≠ '(' ∧ 'N' ≠ digitChar d ∧ 't' ≠ digitChar d ∧ 'f' ≠ digitChar d := by decide
    obtain ⟨k1, k2, k3, k4, k5, k6⟩ := key d hd
    generalize digitChar d = c at *
    unfold readSimple
    simp [k1, k2, k3, k4, k5, k6, dropText, this]

/-- What follows a value. -/
def Stop (r : Str) : Prop := ∃ c s, r = c :: s ∧ (c = ',' ∨ c = ')' ∨ c = ']')

theorem Stop.quote {r : Str} (h : Stop r) : r.head? ≠ some '\'' := by
  obtain ⟨c, s, rfl, h⟩ := h
  rcases h with rfl | rfl | rfl <;> simp

theorem Stop.num {r : Str} (h : Stop r) : ∀ c, r.head? = some c → isNum c = false := by
  obtain ⟨c, s, rfl, h⟩ := h
  rcases h with rfl | rfl | rfl <;> (intro c hc; simp at hc; subst hc; decide)

theorem Stop.name {r : Str} (h : Stop r) : ∀ c, r.head? = some c → isName c = false := by
  obtain ⟨c, s, rfl, h⟩ := h
  rcases h with rfl | rfl | rfl <;> (intro c hc; simp at hc; subst hc; decide)

/-- An element of an array of texts. -/
def elemExpr : Option Str → Expr
  | none => .null
  | some s => .lit s

/-- What each value is to be for the server: the value itself. -/
def Val.expr : Val → Expr
  | .null => .null
  | .int n => .num n
  | .bool b => .bool b
  | .text s => .lit s
  | .time t => .lit (isoformat (ofInstant t))
  | .label l => .pair "label".toList l.type_ l.labelValue
  | .attrs [] => .lit "{}".toList
  | .attrs (a :: l) => .array ((a :: l).map fun a => .pair "security_attribute".toList a.1 a.2)
  | .texts [] => .lit "{}".toList
  | .texts (a :: l) => .array ((a :: l).map elemExpr)

theorem readElems_commas {α : Type} (f : α → Str) (g : α → Expr) (hf : ∀ a r, Stop r → readSimple (f a ++ r) = some (g a, r)) (l : List α) (a : α) (r : Str)
    (fuel : Nat) (hfu : l.length < fuel) : readElems fuel (commas ((a :: l).map f) ++ ']' :: r) = some ((a :: l).map g, r) := by
  induction l generalizing a fuel with
  | nil =>
    cases fuel with
    | zero => simp at hfu
    | succ fuel =>
      simp only [List.map_cons, List.map_nil, commas]
      unfold readElems
      rw [hf a _ ⟨_, _, rfl, by simp⟩]
      rfl
  | cons b l ih =>
    cases fuel with
    | zero => simp at hfu
    | succ fuel =>
      have := ih b fuel (by simpa using hfu)
      simp only [List.map_cons, commas, List.append_assoc, List.cons_append] at this ⊢
      unfold readElems
      rw [hf a _ ⟨_, _, rfl, by simp⟩]
      simp only [this, Option.map_some]

theorem commas_length {α : Type} (f : α → Str) (l : List α) (a : α) : l.length ≤ (commas ((a :: l).map f)).length := by
  induction l generalizing a with
  | nil => simp
  | cons b l ih =>
    have := ih b
    simp only [List.map_cons, commas, List.length_append, List.length_cons] at this ⊢
    omega

theorem readExpr_simple {t : Str} {x : Option (Expr × Str)} (h : readSimple t = x) (ha : t.head? ≠ some 'A') : readExpr t = x := by
  unfold readExpr
  have : dropText "ARRAY[".toList t = none := by
    cases t with
    | nil => rfl
    | cons c t =>
      have : ¬ 'A' = c := by simpa [eq_comm] using ha
      simp [dropText, this]
  rw [this]
  exact h

theorem quoted_head (s r : Str) : (quoted s ++ r).head? ≠ some 'A' := by
  unfold quoted
  split <;> simp

theorem intSql_head (n : Int) (r : Str) : (intSql n ++ r).head? ≠ some 'A' := by
  unfold intSql
  split
  · simp
  · intro h
    cases hs : showInt n with
    | nil =>
      cases n with
      | ofNat n => exact showNat_ne_nil n hs
      | negSucc n => exact absurd hs (by simp [showInt])
    | cons c m =>
      rw [hs] at h
      simp at h
      subst h
      rcases showInt_chars (i := n) (c := 'A') (by rw [hs]; exact List.mem_cons_self ..) with h | ⟨d, hd, h⟩
      · exact absurd h (by decide)
      · exact digitChar_ne_of (c := 'A') (by decide) d hd h

theorem readSimple_elem (a : Option Str) (r : Str) (h : Stop r) :
    readSimple (elemSql a ++ r) = some (elemExpr a, r) := by
  cases a with
  | none =>
    show readSimple ('N' :: 'U' :: 'L' :: 'L' :: r) = _
    unfold readSimple
    simp [dropText, elemExpr]
  | some s => exact readSimple_quoted s r h.quote

theorem readExpr_array {α : Type} (f : α → Str) (g : α → Expr) (hf : ∀ a r, Stop r → readSimple (f a ++ r) = some (g a, r)) (l : List α) (a : α) (r : Str) :
    readExpr ("ARRAY[".toList ++ (commas ((a :: l).map f) ++ [']']) ++ r) = some (.array ((a :: l).map g), r) := by
  unfold readExpr
  rw [List.append_assoc, dropText_append]
  simp only [List.append_assoc, List.cons_append, List.nil_append]
  rw [readElems_commas f g hf l a r _ (by
    have := commas_length f l a
    simp only [List.length_append, List.length_cons]
    omega)]
  rfl

/-- A value is read as it is, whatever follows. -/
theorem readExpr_sql (v : Val) (r : Str) (h : Stop r) : readExpr (v.sql ++ r) = some (v.expr, r) := by
  cases v with
  | null => exact readExpr_simple (readSimple_elem none r h) (by simp [Val.sql])
  | int n => exact readExpr_simple (readSimple_int n r h.num) (intSql_head n r)
  | bool b =>
    cases b with
    | true => exact readExpr_simple (by show readSimple ('t' :: 'r' :: 'u' :: 'e' :: r) = _; unfold readSimple; simp [dropText, Val.expr]) (by simp [Val.sql])
    | false =>
      exact readExpr_simple (by show readSimple ('f' :: 'a' :: 'l' :: 's' :: 'e' :: r) = _; unfold readSimple; simp [dropText, Val.expr]) (by simp [Val.sql])
  | text s => exact readExpr_simple (readSimple_quoted s r h.quote) (quoted_head s r)
  | time t => exact readExpr_simple (readSimple_quoted _ r h.quote) (quoted_head _ r)
  | label l => exact readExpr_simple (readSimple_pair _ _ _ r (by decide) h.name) (by simp [Val.sql, pairSql])
  | attrs l =>
    cases l with
    | nil => exact readExpr_simple (readSimple_quoted _ r h.quote) (quoted_head _ r)
    | cons a l =>
      exact readExpr_array (fun a : Str × Str => pairSql "security_attribute".toList a.1 a.2) (fun a => .pair "security_attribute".toList a.1 a.2)
        (fun a r h => readSimple_pair _ _ _ r (by decide +kernel) h.name) l a r
  | texts l =>
    cases l with
    | nil => exact readExpr_simple (readSimple_quoted _ r h.quote) (quoted_head _ r)
    | cons a l => exact readExpr_array _ _ (fun a r h => readSimple_elem a r h) l a r

/-- The statement says what was to be saved, whatever the texts are. -/
theorem readValues_sql (v : Val) (vs : List Val) : readValues (vs.length + 1) (valuesSql (v :: vs)) = some ((v :: vs).map Val.expr) := by
  induction vs generalizing v with
  | nil =>
    unfold readValues valuesSql
    rw [readExpr_sql v _ ⟨_, _, rfl, by simp⟩]
    rfl
  | cons w vs ih =>
    unfold readValues valuesSql
    rw [readExpr_sql v _ ⟨_, _, rfl, by simp⟩]
    simp only [List.length_cons, ih w, Option.map_some, List.map_cons]

end OpenNSA.Db
