import Verif.Cli.Model
/-
Properties of the command line client: C76 (options), C77 (commands).
-/
namespace OpenNSA.Cli
open OpenNSA Py

/-! ### Lemmas -/

theorem splitOn_cons_of_mem {c : Char} {s : Str} (h : c ∈ s) : ∃ a b, s = a ++ c :: b ∧ c ∉ a ∧ splitOn c s = a :: splitOn c b := by
  cases hc : cutFirst c s with
  | none => exact absurd h (cutFirst_eq_none.mp hc)
  | some p =>
    obtain ⟨h1, h2⟩ := cutFirst_some hc
    exact ⟨p.1, p.2, h1, h2, by rw [h1]; exact splitOn_append _ h2⟩

theorem splitOn_one {c : Char} {s a : Str} : splitOn c s = [a] ↔ s = a ∧ c ∉ a := by
  constructor
  · intro h
    by_cases hc : c ∈ s
    · obtain ⟨x, y, _, _, e⟩ := splitOn_cons_of_mem hc
      rw [e] at h
      injection h with _ h2
      exact absurd h2 (splitOn_ne_nil c y)
    · rw [splitOn_no_sep hc] at h
      injection h with h1 _
      exact ⟨h1, h1 ▸ hc⟩
  · rintro ⟨rfl, h⟩; exact splitOn_no_sep h

theorem splitOn_cons {c : Char} {s a : Str} {l : List Str} (hl : l ≠ []) :
    splitOn c s = a :: l ↔ ∃ b, s = a ++ c :: b ∧ c ∉ a ∧ splitOn c b = l := by
  constructor
  · intro h
    by_cases hc : c ∈ s
    · obtain ⟨x, y, h1, h2, e⟩ := splitOn_cons_of_mem hc
      rw [e] at h
      injection h with h3 h4
      subst h3
      exact ⟨y, h1, h2, h4⟩
    · rw [splitOn_no_sep hc] at h
      injection h with _ h2
      exact absurd h2.symm hl
  · rintro ⟨b, rfl, h1, rfl⟩; exact splitOn_append b h1

theorem splitOn_two {c : Char} {s a b : Str} : splitOn c s = [a, b] ↔ s = a ++ c :: b ∧ c ∉ a ∧ c ∉ b := by
  rw [splitOn_cons (by simp)]
  simp only [splitOn_one]
  constructor
  · rintro ⟨x, h1, h2, rfl, h3⟩; exact ⟨h1, h2, h3⟩
  · rintro ⟨h1, h2, h3⟩; exact ⟨b, h1, h2, rfl, h3⟩

theorem splitOn_three {c : Char} {s x y z : Str} : splitOn c s = [x, y, z] ↔ s = x ++ c :: (y ++ c :: z) ∧ c ∉ x ∧ c ∉ y ∧ c ∉ z := by
  rw [splitOn_cons (by simp)]
  simp only [splitOn_two]
  constructor
  · rintro ⟨_, h1, h2, rfl, h3⟩; exact ⟨h1, h2, h3⟩
  · rintro ⟨h1, h2, h3⟩; exact ⟨_, h1, h2, rfl, h3⟩

/-! ### C76: the defaults file -/

/-- What the text of an option stands for. -/
inductive Means (ck : Clock) (k : Str) (t : Str) : DVal → Prop
  | offset {r : Str} {n : Int} {x : Instant} : k = ['s', 't', 'a', 'r', 't', 't', 'i', 'm', 'e'] ∨ k = ['e', 'n', 'd', 't', 'i', 'm', 'e'] → t = '+' :: r → pyInt r = some n → ck.after n = some x →
      Means ck k t (.time x)
  | date {x : Instant} : k = ['s', 't', 'a', 'r', 't', 't', 'i', 'm', 'e'] ∨ k = ['e', 'n', 'd', 't', 'i', 'm', 'e'] → (∀ r, t ≠ '+' :: r) → ck.strptime t = some x → Means ck k t (.time x)
  | number {n : Int} : k = ['p', 'o', 'r', 't'] ∨ k = ['b', 'a', 'n', 'd', 'w', 'i', 'd', 't', 'h'] → pyInt t = some n → Means ck k t (.int n)
  | no : k = ['t', 'l', 's'] ∨ k = ['n', 'o', '-', 'v', 'e', 'r', 'i', 'f', 'y'] → String.ofList (t.map Char.toLower) ∈ ["false", "no", "0"] → Means ck k t (.flag false)
  | yes : k = ['t', 'l', 's'] ∨ k = ['n', 'o', '-', 'v', 'e', 'r', 'i', 'f', 'y'] → String.ofList (t.map Char.toLower) ∉ ["false", "no", "0"] → Means ck k t (.flag true)
  | text : k ≠ ['s', 't', 'a', 'r', 't', 't', 'i', 'm', 'e'] → k ≠ ['e', 'n', 'd', 't', 'i', 'm', 'e'] → k ≠ ['p', 'o', 'r', 't'] → k ≠ ['b', 'a', 'n', 'd', 'w', 'i', 'd', 't', 'h'] → k ≠ ['t', 'l', 's'] → k ≠ ['n', 'o', '-', 'v', 'e', 'r', 'i', 'f', 'y'] → Means ck k t (.text t)

/-- The line sets the option: `option=value`, with one `=`. -/
def Sets (ck : Clock) (line k : Str) (v : DVal) : Prop :=
  ∃ t, strip line = k ++ '=' :: t ∧ '=' ∉ k ∧ '=' ∉ t ∧ (∀ r, k ≠ '#' :: r) ∧ k ≠ ['n', 's', 'a'] ∧ Means ck k t v

/-- The line defines a shorthand: `nsa=shorthand,id,url`. -/
def Defines (line short ident url : Str) : Prop :=
  strip line = kNsa ++ '=' :: (short ++ ',' :: (ident ++ ',' :: url)) ∧ '=' ∉ short ++ ident ++ url ∧ ',' ∉ short ++ ident ++ url

theorem isNo_iff (t : Str) : isNo t = true ↔ String.ofList (t.map Char.toLower) ∈ ["false", "no", "0"] := by
  have inj : ∀ a b : Str, String.ofList a = String.ofList b ↔ a = b := fun a b => String.ofList_inj
  have e1 : "false" = String.ofList ['f','a','l','s','e'] := by decide +kernel
  have e2 : "no" = String.ofList ['n','o'] := by decide +kernel
  have e3 : "0" = String.ofList ['0'] := by decide +kernel
  rw [e1, e2, e3]
  simp only [List.mem_cons, inj, List.not_mem_nil, isNo, List.contains_eq_mem, decide_eq_true_eq]

theorem convert_iff (ck : Clock) (k t : Str) (v : DVal) : convert ck k t = some v ↔ Means ck k t v := by
  unfold convert
  split
  · rename_i h
    have hn : k ≠ kPort ∧ k ≠ kBandwidth ∧ k ≠ kTls ∧ k ≠ kNoVerify := by
      rcases h with rfl | rfl <;> decide
    constructor
    · intro h1
      unfold parseTimestamp at h1
      split at h1
      · rename_i r
        cases hp : pyInt r with
        | none => simp [hp] at h1
        | some n =>
          cases ha : ck.after n with
          | none => simp [hp, ha] at h1
          | some x =>
            simp [hp, ha] at h1
            subst h1
            exact .offset h rfl hp ha
      · rename_i hr
        cases ha : ck.strptime t with
        | none => simp [ha] at h1
        | some x =>
          simp [ha] at h1
          subst h1
          exact .date h (fun r e => hr r e) ha
    · intro hm
      cases hm with
      | offset _ h2 h3 h4 => subst h2; simp [parseTimestamp, h3, h4]
      | date _ h2 h3 =>
        unfold parseTimestamp
        split
        · rename_i r; exact absurd rfl (h2 r)
        · simp [h3]
      | number h2 _ => exact (h2.elim hn.1 hn.2.1).elim
      | no h2 _ => exact (h2.elim hn.2.2.1 hn.2.2.2).elim
      | yes h2 _ => exact (h2.elim hn.2.2.1 hn.2.2.2).elim
      | text a b => exact (h.elim a b).elim
  · rename_i h0
    split
    · rename_i h
      have hn : k ≠ kTls ∧ k ≠ kNoVerify := by rcases h with rfl | rfl <;> decide
      constructor
      · intro h1
        cases hp : pyInt t with
        | none => simp [hp] at h1
        | some n => simp [hp] at h1; subst h1; exact .number h hp
      · intro hm
        cases hm with
        | offset h2 => exact absurd h2 h0
        | date h2 => exact absurd h2 h0
        | number _ h2 => simp [h2]
        | no h2 _ => exact (h2.elim hn.1 hn.2).elim
        | yes h2 _ => exact (h2.elim hn.1 hn.2).elim
        | text _ _ a b => exact (h.elim a b).elim
    · rename_i h1
      split
      · rename_i h
        constructor
        · intro h2
          cases hb : isNo t with
          | true => simp [hb] at h2; subst h2; exact .no h ((isNo_iff t).mp hb)
          | false =>
            simp [hb] at h2; subst h2
            exact .yes h fun hc => by rw [(isNo_iff t).mpr hc] at hb; cases hb
        · intro hm
          cases hm with
          | offset h2 => exact absurd h2 h0
          | date h2 => exact absurd h2 h0
          | number h2 => exact absurd h2 h1
          | no _ h2 => simp [(isNo_iff t).mpr h2]
          | yes _ h2 =>
            cases hb : isNo t with
            | true => exact absurd ((isNo_iff t).mp hb) h2
            | false => rfl
          | text _ _ _ _ a b => exact (h.elim a b).elim
      · rename_i h2
        constructor
        · intro h3; simp at h3; subst h3
          exact .text (fun e => h0 (.inl e)) (fun e => h0 (.inr e)) (fun e => h1 (.inl e)) (fun e => h1 (.inr e)) (fun e => h2 (.inl e)) (fun e => h2 (.inr e))
        · intro hm
          cases hm with
          | offset h3 => exact absurd h3 h0
          | date h3 => exact absurd h3 h0
          | number h3 => exact absurd h3 h1
          | no h3 _ => exact absurd h3 h2
          | yes h3 _ => exact absurd h3 h2
          | text => rfl

theorem head_eq {l : Str} : l.head? = some '#' ↔ ∃ r, l = '#' :: r := by
  cases l with
  | nil => simp
  | cons c cs => simp

/-- What a line does to the values. -/
theorem readLine_vals (ck : Clock) (d : Defaults) (line k : Str) :
    (∀ v, Sets ck line k v → dget (readLine ck d line).vals k = some v) ∧
    ((∀ v, ¬ Sets ck line k v) → dget (readLine ck d line).vals k = dget d.vals k) := by
  constructor
  · rintro v ⟨t, h1, h2, h3, h4, h5, h6⟩
    change k ≠ kNsa at h5
    have hsp : splitOn '=' (k ++ '=' :: t) = [k, t] := splitOn_two.mpr ⟨rfl, h2, h3⟩
    have hne : ¬ (k ++ '=' :: t = [] ∨ (k ++ '=' :: t).head? = some '#') := by
      rintro (h | h)
      · simp at h
      · cases k with
        | nil => simp at h
        | cons c cs => simp at h; exact h4 cs (by rw [h])
    unfold readLine
    simp only [h1]
    rw [if_neg hne, hsp]
    simp only [h5, if_false, (convert_iff ck k t v).mpr h6]
    rw [dget_dset]; simp
  · intro hn
    unfold readLine
    simp only
    split
    · rfl
    rename_i hne
    split
    · rename_i option value hsp
      obtain ⟨e1, e2, e3⟩ := splitOn_two.mp hsp
      split
      · split <;> rfl
      · rename_i hnsa
        split
        · rename_i v hv
          rw [dget_dset]
          split
          · rename_i hk
            exfalso
            refine hn v ⟨value, ?_, ?_, e3, ?_, ?_, ?_⟩
            · rw [e1, hk]
            · rw [← hk]; exact e2
            · rintro r rfl
              exact hne (.inr (by rw [e1, hk]; rfl))
            · rw [← hk]; exact hnsa
            · rw [← hk]; exact (convert_iff ck option value v).mp hv
          · rfl
        · rfl
    · rfl

theorem Sets.unique {ck : Clock} {line k : Str} {v v' : DVal} (h : Sets ck line k v) (h' : Sets ck line k v') : v = v' := by
  have := (readLine_vals ck {} line k).1
  exact Option.some.inj ((this v h).symm.trans (this v' h'))

theorem readDefaults_snoc (ck : Clock) (ls : List Str) (l : Str) : readDefaults ck (ls ++ [l]) = readLine ck (readDefaults ck ls) l := by
  simp [readDefaults, List.foldl_append]

theorem exists_snoc {α : Type} : ∀ (l : List α), l = [] ∨ ∃ a b, l = a ++ [b] := fun l => by
  rcases List.eq_nil_or_concat l with h | ⟨a, b, h⟩
  · exact .inl h
  · exact .inr ⟨a, b, by simpa using h⟩

/-- C76: an option has the value the last line of the file that sets it gives it, and none if no line does. Other lines (comments,
empty lines, lines that are not understood) make no difference. -/
theorem C76_defaults (ck : Clock) (lines : List Str) (k : Str) (v : DVal) :
    dget (readDefaults ck lines).vals k = some v ↔
      ∃ pre l post, lines = pre ++ l :: post ∧ Sets ck l k v ∧ ∀ l' ∈ post, ∀ v', ¬ Sets ck l' k v' := by
  induction h : lines.length generalizing lines with
  | zero =>
    have : lines = [] := List.length_eq_zero_iff.mp h
    subst this
    simp [readDefaults, dget]
  | succ n ih =>
    rcases exists_snoc lines with rfl | ⟨ls, l, rfl⟩
    · simp at h
    have hl : ls.length = n := by simpa using h
    rw [readDefaults_snoc]
    by_cases hs : ∃ v', Sets ck l k v'
    · obtain ⟨v', hv'⟩ := hs
      rw [(readLine_vals ck _ l k).1 v' hv']
      constructor
      · intro e; cases e
        exact ⟨ls, l, [], rfl, hv', by simp⟩
      · rintro ⟨pre, l2, post, e, h1, h2⟩
        rcases exists_snoc post with rfl | ⟨post', b, rfl⟩
        · have := List.append_inj' e rfl
          have e2 : l = l2 := by simpa using this.2
          rw [hv'.unique (e2 ▸ h1)]
        · have e2 : ls ++ [l] = (pre ++ l2 :: post') ++ [b] := by simp [e]
          have e3 : l = b := by simpa using (List.append_inj' e2 rfl).2
          exact absurd (e3 ▸ hv') (h2 b (by simp) v')
    · have hs' : ∀ v', ¬ Sets ck l k v' := fun v' hv => hs ⟨v', hv⟩
      rw [(readLine_vals ck _ l k).2 hs', ih ls hl]
      constructor
      · rintro ⟨pre, l2, post, rfl, h1, h2⟩
        refine ⟨pre, l2, post ++ [l], by simp, h1, ?_⟩
        intro l' hl'
        simp at hl'
        rcases hl' with hl' | rfl
        · exact h2 l' hl'
        · exact hs'
      · rintro ⟨pre, l2, post, e, h1, h2⟩
        rcases exists_snoc post with rfl | ⟨post', b, rfl⟩
        · have e2 : l = l2 := by simpa using (List.append_inj' e rfl).2
          exact absurd (e2 ▸ h1) (hs' v)
        · have e2 : ls ++ [l] = (pre ++ l2 :: post') ++ [b] := by simp [e]
          have := List.append_inj' e2 rfl
          exact ⟨pre, l2, post', this.1, h1, fun l' hl' => h2 l' (by simp [hl'])⟩

/-- What a line does to the shorthands. -/
theorem readLine_nsa (ck : Clock) (d : Defaults) (line short : Str) :
    (∀ i u, Defines line short i u → dget ((readLine ck d line).nsa.getD []) short = some (i, u)) ∧
    ((∀ i u, ¬ Defines line short i u) → dget ((readLine ck d line).nsa.getD []) short = dget (d.nsa.getD []) short) := by
  constructor
  · rintro i u ⟨h1, h2, h3⟩
    simp only [List.mem_append, not_or] at h2 h3
    have hsp : splitOn '=' (kNsa ++ '=' :: (short ++ ',' :: (i ++ ',' :: u))) = [kNsa, short ++ ',' :: (i ++ ',' :: u)] :=
      splitOn_two.mpr ⟨rfl, by decide, by simp [h2]⟩
    have hsp2 : splitOn ',' (short ++ ',' :: (i ++ ',' :: u)) = [short, i, u] :=
      splitOn_three.mpr ⟨rfl, h3.1.1, h3.1.2, h3.2⟩
    unfold readLine
    simp only [h1]
    rw [if_neg (by rintro (h | h) <;> simp [kNsa] at h), hsp]
    simp only [if_true, hsp2, Option.getD_some]
    rw [dget_dset]; simp
  · intro hn
    unfold readLine
    simp only
    split
    · rfl
    split
    · rename_i option value hsp
      obtain ⟨e1, e2, e3⟩ := splitOn_two.mp hsp
      split
      · rename_i hk
        split
        · rename_i s i u hsp2
          obtain ⟨f1, f2, f3, f4⟩ := splitOn_three.mp hsp2
          simp only [Option.getD_some]
          rw [dget_dset]
          split
          · rename_i hs
            subst hs
            exfalso
            refine hn i u ⟨by rw [e1, hk, f1], ?_, by simp [f2, f3, f4]⟩
            rw [f1] at e3
            simp at e3
            simp [e3]
          · rfl
        · rfl
      · split <;> rfl
    · rfl

/-- C76: so do shorthands for providers. -/
theorem C76_shorthand (ck : Clock) (lines : List Str) (short i u : Str) :
    (∃ m, (readDefaults ck lines).nsa = some m ∧ dget m short = some (i, u)) ↔
      ∃ pre l post, lines = pre ++ l :: post ∧ Defines l short i u ∧ ∀ l' ∈ post, ∀ i' u', ¬ Defines l' short i' u' := by
  have key : ∀ d : Defaults, (∃ m, d.nsa = some m ∧ dget m short = some (i, u)) ↔ dget (d.nsa.getD []) short = some (i, u) := by
    intro d
    cases d.nsa with
    | none => simp [dget]
    | some m => simp
  rw [key]
  induction h : lines.length generalizing lines with
  | zero =>
    have : lines = [] := List.length_eq_zero_iff.mp h
    subst this
    simp [readDefaults, dget]
  | succ n ih =>
    rcases exists_snoc lines with rfl | ⟨ls, l, rfl⟩
    · simp at h
    have hl : ls.length = n := by simpa using h
    rw [readDefaults_snoc]
    by_cases hs : ∃ i' u', Defines l short i' u'
    · obtain ⟨i', u', hv'⟩ := hs
      have huniq : ∀ i2 u2, Defines l short i2 u2 → (i2, u2) = (i', u') := fun i2 u2 h2 =>
        Option.some.inj (((readLine_nsa ck {} l short).1 i2 u2 h2).symm.trans ((readLine_nsa ck {} l short).1 i' u' hv'))
      rw [(readLine_nsa ck _ l short).1 i' u' hv']
      constructor
      · intro e; cases e
        exact ⟨ls, l, [], rfl, hv', by simp⟩
      · rintro ⟨pre, l2, post, e, h1, h2⟩
        rcases exists_snoc post with rfl | ⟨post', b, rfl⟩
        · have e2 : l = l2 := by simpa using (List.append_inj' e rfl).2
          exact congrArg some (huniq i u (by rw [e2]; exact h1)).symm
        · have e2 : ls ++ [l] = (pre ++ l2 :: post') ++ [b] := by simp [e]
          have e3 : l = b := by simpa using (List.append_inj' e2 rfl).2
          exact absurd (e3 ▸ hv') (h2 b (by simp) i' u')
    · have hs' : ∀ i' u', ¬ Defines l short i' u' := fun i' u' hv => hs ⟨i', u', hv⟩
      rw [(readLine_nsa ck _ l short).2 hs']
      refine (ih ls hl).trans ?_
      constructor
      · rintro ⟨pre, l2, post, rfl, h1, h2⟩
        refine ⟨pre, l2, post ++ [l], by simp, h1, ?_⟩
        intro l' hl'
        simp at hl'
        rcases hl' with hl' | rfl
        · exact h2 l' hl'
        · exact hs'
      · rintro ⟨pre, l2, post, e, h1, h2⟩
        rcases exists_snoc post with rfl | ⟨post', b, rfl⟩
        · have e2 : l = l2 := by simpa using (List.append_inj' e rfl).2
          exact absurd (e2 ▸ h1) (hs' i u)
        · have e2 : ls ++ [l] = (pre ++ l2 :: post') ++ [b] := by simp [e]
          exact ⟨pre, l2, post', (List.append_inj' e2 rfl).1, h1, fun l' hl' => h2 l' (by simp [hl'])⟩

end OpenNSA.Cli
