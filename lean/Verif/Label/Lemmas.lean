import Verif.PyLemmas
import Verif.Label.Spec
namespace OpenNSA
open Py

theorem splitOn_items (c : Char) (s : Str) : (∀ i ∈ splitOn c s, c ∉ i) ∧ joinWith c (splitOn c s) = s := by
  induction s with
  | nil => simp [splitOn, joinWith]
  | cons x xs ih =>
    unfold splitOn
    split
    · rename_i e; subst e
      refine ⟨by simpa using ih.1, ?_⟩
      rcases h : splitOn x xs with _ | ⟨y, ys⟩
      · exact absurd h (splitOn_ne_nil _ _)
      · rw [h] at ih; simp [joinWith, ih.2]
    · rename_i e
      rcases h : splitOn c xs with _ | ⟨y, ys⟩
      · exact absurd h (splitOn_ne_nil _ _)
      · rw [h] at ih
        refine ⟨?_, ?_⟩
        · intro i hi
          rcases List.mem_cons.mp hi with rfl | hi
          · have := ih.1 y (by simp); simp [Ne.symm e, this]
          · exact ih.1 i (by simp [hi])
        · rcases ys with _ | ⟨z, zs⟩
          · simpa [joinWith] using ih.2
          · simpa [joinWith] using ih.2

theorem itemsOf_splitOn (s : Str) : ItemsOf s (splitOn ',' s) :=
  ⟨splitOn_ne_nil _ _, (splitOn_items ',' s).1, (splitOn_items ',' s).2.symm⟩

theorem ItemsOf.splitOn_eq {s : Str} {items : List Str} (h : ItemsOf s items) : splitOn ',' s = items := by
  obtain ⟨h1, h2, rfl⟩ := h
  exact splitOn_joinWith h1 h2

theorem createValue_ok {s : Str} {r : Rng} : createValue s = .ok r ↔ ItemDen s r.1 r.2 := by
  obtain ⟨lo, hi⟩ := r
  constructor
  · intro h
    unfold createValue at h
    rcases hc : cutFirst '-' s with _ | ⟨a, b⟩
    · rw [hc] at h
      rcases hp : pyInt s with _ | i
      · simp [hp] at h
      · simp [hp] at h
        obtain ⟨rfl, rfl⟩ := h
        exact .single s i (cutFirst_eq_none.mp hc) hp
    · rw [hc] at h
      obtain ⟨rfl, hna⟩ := cutFirst_some hc
      rcases hp : pyInt a with _ | i1
      · simp [hp] at h
      · rcases hq : pyInt b with _ | i2
        · simp [hp, hq] at h
        · simp only [hp, hq] at h
          split at h
          · simp at h
          · simp at h
            obtain ⟨rfl, rfl⟩ := h
            exact .range a b _ _ hna hp hq (by omega)
  · intro h
    cases h with
    | single _ _ hn hp => simp [createValue, cutFirst_eq_none.mpr hn, hp]
    | range a b _ _ hn ha hb hle =>
      simp only [createValue, cutFirst_append b hn, ha, hb]
      rw [if_neg (by omega)]

theorem createValue_error {s : Str} {e : LabelErr} (h : createValue s = .error e) : e = .payload := by
  unfold createValue at h
  rcases hc : cutFirst '-' s with _ | ⟨a, b⟩
  · rcases hp : pyInt s with _ | i <;> simp [hc, hp] at h
    exact h.symm
  · rcases hp : pyInt a with _ | i1
    · simp [hc, hp] at h; exact h.symm
    · rcases hq : pyInt b with _ | i2
      · simp [hc, hp, hq] at h; exact h.symm
      · simp only [hc, hp, hq] at h
        split at h
        · simp at h; exact h.symm
        · simp at h

/-- Two lists of the same length related element by element. -/
inductive Forall2 {α β : Type} (R : α → β → Prop) : List α → List β → Prop
  | nil : Forall2 R [] []
  | cons {a b as bs} : R a b → Forall2 R as bs → Forall2 R (a :: as) (b :: bs)

theorem createValues_ok {items : List Str} {rs : List Rng} :
    createValues items = .ok rs ↔ Forall2 (fun s (r : Rng) => ItemDen s r.1 r.2) items rs := by
  induction items generalizing rs with
  | nil =>
    simp only [createValues]
    constructor
    · intro h; cases h; exact .nil
    · intro h; cases h; rfl
  | cons v vs ih =>
    unfold createValues
    rcases hv : createValue v with e | r
    · constructor
      · intro h; simp at h
      · intro h
        cases h with
        | cons h1 _ => rw [createValue_ok.mpr h1] at hv; simp at hv
    · rcases hvs : createValues vs with e | rs'
      · constructor
        · intro h; simp at h
        · intro h
          cases h with
          | cons _ h2 => rw [ih.mpr h2] at hvs; simp at hvs
      · constructor
        · intro h
          simp at h; subst h
          exact .cons (createValue_ok.mp hv) (ih.mp hvs)
        · intro h
          cases h with
          | cons h1 h2 =>
            rw [createValue_ok.mpr h1] at hv; cases hv
            rw [ih.mpr h2] at hvs; cases hvs
            rfl

theorem createValues_error {items : List Str} {e : LabelErr} (h : createValues items = .error e) :
    e = .payload ∧ ∃ i ∈ items, ¬ ∃ lo hi, ItemDen i lo hi := by
  induction items with
  | nil => simp [createValues] at h
  | cons v vs ih =>
    unfold createValues at h
    rcases hv : createValue v with e' | r
    · simp [hv] at h; subst h
      refine ⟨createValue_error hv, v, by simp, ?_⟩
      rintro ⟨lo, hi, hd⟩
      rw [createValue_ok (r := (lo, hi)) |>.mpr hd] at hv; simp at hv
    · rcases hvs : createValues vs with e' | rs'
      · simp [hv, hvs] at h; subst h
        obtain ⟨h1, i, hi, h2⟩ := ih hvs
        exact ⟨h1, i, by simp [hi], h2⟩
      · simp [hv, hvs] at h

/-- An item denotes at most one pair of bounds. -/
theorem ItemDen.unique {s : Str} {a b a' b' : Int} (h : ItemDen s a b) (h' : ItemDen s a' b') :
    a = a' ∧ b = b' := by
  have h1 := createValue_ok (r := (a, b)) |>.mpr h
  have h2 := createValue_ok (r := (a', b')) |>.mpr h'
  rw [h1] at h2; simp at h2; exact h2

theorem ItemDen.le {s : Str} {a b : Int} (h : ItemDen s a b) : a ≤ b := by
  cases h with
  | single => exact Int.le_refl _
  | range _ _ _ _ _ _ _ h => exact h

theorem ItemDen.nonneg {s : Str} {a b : Int} (h : ItemDen s a b) : 0 ≤ a := by
  cases h with
  | single _ _ hn hp => exact pyInt_nonneg hn hp
  | range _ _ _ _ hn hp _ _ => exact pyInt_nonneg hn hp

/-! ### normalisation -/

theorem inRanges_append {a b : List Rng} {n : Int} : InRanges (a ++ b) n ↔ InRanges a n ∨ InRanges b n := by
  unfold InRanges
  constructor
  · rintro ⟨r, hr, h⟩
    rcases List.mem_append.mp hr with h' | h'
    · exact Or.inl ⟨r, h', h⟩
    · exact Or.inr ⟨r, h', h⟩
  · rintro (⟨r, hr, h⟩ | ⟨r, hr, h⟩)
    · exact ⟨r, List.mem_append.mpr (Or.inl hr), h⟩
    · exact ⟨r, List.mem_append.mpr (Or.inr hr), h⟩

theorem inRanges_nil {n : Int} : ¬ InRanges [] n := by simp [InRanges]

theorem inRanges_cons {r : Rng} {rs : List Rng} {n : Int} :
    InRanges (r :: rs) n ↔ (r.1 ≤ n ∧ n ≤ r.2) ∨ InRanges rs n := by
  simp [InRanges]

theorem mergeStep_spec {nv : List Rng} {v : Rng} (hc : Canonical nv) (hv : v.1 ≤ v.2)
    (hlast : ∀ l, nv.getLast? = some l → l.1 ≤ v.1) :
    Canonical (mergeStep nv v)
    ∧ (∀ n, InRanges (mergeStep nv v) n ↔ InRanges nv n ∨ (v.1 ≤ n ∧ n ≤ v.2))
    ∧ (∀ l, (mergeStep nv v).getLast? = some l → l.1 ≤ v.1) ∧ mergeStep nv v ≠ [] := by
  rcases List.eq_nil_or_concat nv with rfl | ⟨pre, l, rfl⟩
  · refine ⟨by simp [mergeStep, Canonical, hv], ?_, by simp [mergeStep], by simp [mergeStep]⟩
    intro n; simp [mergeStep, InRanges]
  · rw [List.concat_eq_append] at *
    have hl : l.1 ≤ v.1 := hlast l (by simp)
    obtain ⟨hr, hp⟩ := hc
    rw [List.pairwise_append] at hp
    obtain ⟨hp1, _, hp2⟩ := hp
    have hll : l.1 ≤ l.2 := hr l (by simp)
    unfold mergeStep
    simp only [List.getLast?_concat, List.dropLast_concat]
    split
    · rename_i hm
      refine ⟨⟨?_, ?_⟩, ?_, ?_, by simp⟩
      · intro r hr'
        rcases List.mem_append.mp hr' with h | h
        · exact hr r (by simp [h])
        · simp at h; subst h; simp only; omega
      · rw [List.pairwise_append]
        refine ⟨hp1, by simp, ?_⟩
        intro a ha b hb
        simp at hb; subst hb
        exact hp2 a ha l (by simp)
      · intro n
        simp only [inRanges_append, inRanges_cons, inRanges_nil, or_false, or_assoc]
        apply or_congr_right
        omega
      · intro x hx; simp at hx; subst hx; exact hl
    · rename_i hm
      refine ⟨⟨?_, ?_⟩, ?_, ?_, by simp⟩
      · intro r hr'
        rcases List.mem_append.mp hr' with h | h
        · exact hr r h
        · simp at h; subst h; exact hv
      · rw [List.pairwise_append]
        refine ⟨by rw [List.pairwise_append]; exact ⟨hp1, by simp, hp2⟩, by simp, ?_⟩
        intro a ha b hb
        simp at hb; subst hb
        rcases List.mem_append.mp ha with h | h
        · have := hp2 a h l (by simp); omega
        · simp at h; subst h; omega
      · intro n
        simp only [inRanges_append, inRanges_cons, inRanges_nil, or_false, or_assoc]
      · intro x hx; simp at hx; subst hx; omega

theorem foldl_mergeStep_spec {rs : List Rng} : ∀ {nv : List Rng}, Canonical nv → (∀ r ∈ rs, r.1 ≤ r.2) →
    rs.Pairwise (fun a b => a.1 ≤ b.1) → (∀ l, nv.getLast? = some l → ∀ r ∈ rs, l.1 ≤ r.1) →
    Canonical (rs.foldl mergeStep nv) ∧ (∀ n, InRanges (rs.foldl mergeStep nv) n ↔ InRanges nv n ∨ InRanges rs n) ∧
      (nv ≠ [] ∨ rs ≠ [] → rs.foldl mergeStep nv ≠ []) := by
  induction rs with
  | nil => intro nv hc _ _ _; exact ⟨hc, fun n => by simp [inRanges_nil], by simp⟩
  | cons v vs ih =>
    intro nv hc hr hs hl
    rw [List.pairwise_cons] at hs
    have hstep := mergeStep_spec hc (hr v (by simp)) (fun l h => hl l h v (by simp))
    have := ih hstep.1 (fun r h => hr r (by simp [h])) hs.2
      (fun l h r hrm => Int.le_trans (hstep.2.2.1 l h) (hs.1 r hrm))
    refine ⟨this.1, ?_, fun _ => this.2.2 (Or.inl hstep.2.2.2)⟩
    intro n
    rw [List.foldl_cons, this.2.1 n, hstep.2.1 n, inRanges_cons, or_assoc]

theorem rngLe_trans (a b c : Rng) : rngLe a b = true → rngLe b c = true → rngLe a c = true := by
  unfold rngLe; simp only [Bool.or_eq_true, decide_eq_true_eq, Bool.and_eq_true]; omega

theorem rngLe_total (a b : Rng) : (rngLe a b || rngLe b a) = true := by
  unfold rngLe; simp only [Bool.or_eq_true, decide_eq_true_eq, Bool.and_eq_true]; omega

theorem rngLe_antisymm {a b : Rng} (h1 : rngLe a b = true) (h2 : rngLe b a = true) : a = b := by
  unfold rngLe at *; simp only [Bool.or_eq_true, decide_eq_true_eq, Bool.and_eq_true] at *
  apply Prod.ext <;> omega

theorem mem_insertRng {x r : Rng} {rs : List Rng} : x ∈ insertRng r rs ↔ x = r ∨ x ∈ rs := by
  induction rs with
  | nil => simp [insertRng]
  | cons y ys ih =>
    unfold insertRng
    split
    · simp
    · simp only [List.mem_cons, ih]; grind

theorem mem_sortRngs {x : Rng} {rs : List Rng} : x ∈ sortRngs rs ↔ x ∈ rs := by
  induction rs with
  | nil => simp [sortRngs]
  | cons y ys ih => simp [sortRngs, mem_insertRng, ih]

theorem pairwise_insertRng {r : Rng} {rs : List Rng} (h : rs.Pairwise fun a b => rngLe a b = true) :
    (insertRng r rs).Pairwise fun a b => rngLe a b = true := by
  induction rs with
  | nil => simp [insertRng]
  | cons y ys ih =>
    rw [List.pairwise_cons] at h
    unfold insertRng
    split
    · rename_i hle
      rw [List.pairwise_cons, List.pairwise_cons]
      refine ⟨?_, h⟩
      intro z hz
      rcases List.mem_cons.mp hz with rfl | hz
      · exact hle
      · exact rngLe_trans _ _ _ hle (h.1 z hz)
    · rename_i hle
      rw [List.pairwise_cons]
      refine ⟨?_, ih h.2⟩
      intro z hz
      rcases mem_insertRng.mp hz with rfl | hz
      · have := rngLe_total z y
        simp [hle] at this
        exact this
      · exact h.1 z hz

theorem pairwise_sortRngs (rs : List Rng) : (sortRngs rs).Pairwise fun a b => rngLe a b = true := by
  induction rs with
  | nil => simp [sortRngs]
  | cons r rs ih => exact pairwise_insertRng ih

theorem sortRngs_ne_nil {rs : List Rng} (h : rs ≠ []) : sortRngs rs ≠ [] := by
  cases rs with
  | nil => exact absurd rfl h
  | cons r rs =>
    intro e
    have : r ∈ sortRngs (r :: rs) := mem_sortRngs.mpr (by simp)
    rw [e] at this
    simp at this

theorem sortRngs_of_pairwise {rs : List Rng} (h : rs.Pairwise fun a b => rngLe a b = true) : sortRngs rs = rs := by
  induction rs with
  | nil => rfl
  | cons r rs ih =>
    rw [List.pairwise_cons] at h
    unfold sortRngs
    rw [ih h.2]
    cases rs with
    | nil => rfl
    | cons x xs =>
      unfold insertRng
      rw [if_pos (h.1 x (by simp))]

theorem normalise_sort_spec {rs : List Rng} (hr : ∀ r ∈ rs, r.1 ≤ r.2) :
    Canonical (normalise (sortRngs rs)) ∧
    (∀ n, InRanges (normalise (sortRngs rs)) n ↔ InRanges rs n) ∧
    (rs ≠ [] → normalise (sortRngs rs) ≠ []) := by
  have hmem : ∀ r, r ∈ sortRngs rs ↔ r ∈ rs := fun r => mem_sortRngs
  have hs : (sortRngs rs).Pairwise (fun a b => a.1 ≤ b.1) := by
    refine (pairwise_sortRngs rs).imp ?_
    intro a b h
    unfold rngLe at h; simp only [Bool.or_eq_true, decide_eq_true_eq, Bool.and_eq_true] at h; omega
  have := foldl_mergeStep_spec (nv := []) (rs := sortRngs rs) (by simp [Canonical])
    (fun r h => hr r ((hmem r).mp h)) hs (by simp)
  refine ⟨this.1, ?_, ?_⟩
  · intro n
    unfold normalise
    rw [this.2.1 n]
    simp only [inRanges_nil, false_or]
    unfold InRanges
    constructor <;> rintro ⟨r, h, h2⟩
    · exact ⟨r, (hmem r).mp h, h2⟩
    · exact ⟨r, (hmem r).mpr h, h2⟩
  · intro hne
    apply this.2.2
    exact Or.inr (sortRngs_ne_nil hne)

theorem forall2_mem_right {α β : Type} {R : α → β → Prop} {as : List α} {bs : List β} (h : Forall2 R as bs) :
    ∀ b ∈ bs, ∃ a ∈ as, R a b := by
  induction h with
  | nil => simp
  | cons h1 _ ih =>
    intro b hb
    rcases List.mem_cons.mp hb with rfl | hb
    · exact ⟨_, by simp, h1⟩
    · obtain ⟨a, ha, hr⟩ := ih b hb
      exact ⟨a, by simp [ha], hr⟩

theorem forall2_mem_left {α β : Type} {R : α → β → Prop} {as : List α} {bs : List β} (h : Forall2 R as bs) :
    ∀ a ∈ as, ∃ b ∈ bs, R a b := by
  induction h with
  | nil => simp
  | cons h1 _ ih =>
    intro b hb
    rcases List.mem_cons.mp hb with rfl | hb
    · exact ⟨_, by simp, h1⟩
    · obtain ⟨a, ha, hr⟩ := ih b hb
      exact ⟨a, by simp [ha], hr⟩

theorem parseItems_ok {items : List Str} {vs : List Rng} (h : parseItems items = .ok vs) :
    Canonical vs ∧ (∀ n, InRanges vs n ↔ Named items n) ∧ (∀ i ∈ items, ∃ lo hi, ItemDen i lo hi) ∧
      (items ≠ [] → vs ≠ []) ∧ (∀ n, InRanges vs n → 0 ≤ n) := by
  unfold parseItems at h
  rcases hc : createValues items with e | rs
  · simp [hc] at h
  · simp [hc] at h
    subst h
    have hf := createValues_ok.mp hc
    have hle : ∀ r ∈ rs, r.1 ≤ r.2 := fun r hr => by
      obtain ⟨a, _, hd⟩ := forall2_mem_right hf r hr; exact hd.le
    have hn := normalise_sort_spec hle
    have hnamed : ∀ n, InRanges rs n ↔ Named items n := by
      intro n
      constructor
      · rintro ⟨r, hr, h⟩
        obtain ⟨a, ha, hd⟩ := forall2_mem_right hf r hr
        exact ⟨a, ha, r.1, r.2, hd, h⟩
      · rintro ⟨i, hi, lo, hi', hd, h⟩
        obtain ⟨r, hr, hd'⟩ := forall2_mem_left hf i hi
        obtain ⟨e1, e2⟩ := hd.unique hd'
        exact ⟨r, hr, by omega⟩
    refine ⟨hn.1, fun n => (hn.2.1 n).trans (hnamed n), ?_, ?_, ?_⟩
    · intro i hi
      obtain ⟨r, _, hd⟩ := forall2_mem_left hf i hi
      exact ⟨_, _, hd⟩
    · intro hne
      apply hn.2.2
      intro e; subst e
      cases hf; exact hne rfl
    · intro n hin
      obtain ⟨i, _, lo, hi, hd, h1, _⟩ := ((hn.2.1 n).trans (hnamed n)).mp hin
      have := hd.nonneg
      omega

theorem parseItems_error {items : List Str} {e : LabelErr} (h : parseItems items = .error e) :
    e = .payload ∧ ∃ i ∈ items, ¬ ∃ lo hi, ItemDen i lo hi := by
  unfold parseItems at h
  rcases hc : createValues items with e' | rs
  · simp [hc] at h; subst h; exact createValues_error hc
  · simp [hc] at h

/-! ### canonical lists -/

theorem Canonical.tail {r : Rng} {rs : List Rng} (h : Canonical (r :: rs)) : Canonical rs :=
  ⟨fun x hx => h.1 x (by simp [hx]), (List.pairwise_cons.mp h.2).2⟩

theorem Canonical.lt_of_mem_tail {r : Rng} {rs : List Rng} (h : Canonical (r :: rs)) {n : Int} (hn : InRanges rs n) :
    r.2 + 1 < n := by
  obtain ⟨x, hx, h1, _⟩ := hn
  have := (List.pairwise_cons.mp h.2).1 x hx
  omega

theorem Canonical.ext : ∀ {a b : List Rng}, Canonical a → Canonical b → (∀ n, InRanges a n ↔ InRanges b n) → a = b
  | [], [], _, _, _ => rfl
  | [], r :: rs, _, hb, h => by
    have := (h r.1).mpr (inRanges_cons.mpr (Or.inl ⟨Int.le_refl _, hb.1 r (by simp)⟩))
    exact absurd this inRanges_nil
  | r :: rs, [], ha, _, h => by
    have := (h r.1).mp (inRanges_cons.mpr (Or.inl ⟨Int.le_refl _, ha.1 r (by simp)⟩))
    exact absurd this inRanges_nil
  | r :: rs, s :: ss, ha, hb, h => by
    have hr := ha.1 r (by simp)
    have hs := hb.1 s (by simp)
    have mem1 : ∀ n, InRanges (r :: rs) n → r.1 ≤ n := fun n hn => by
      rcases inRanges_cons.mp hn with h' | h'
      · exact h'.1
      · have := ha.lt_of_mem_tail h'; omega
    have mem2 : ∀ n, InRanges (s :: ss) n → s.1 ≤ n := fun n hn => by
      rcases inRanges_cons.mp hn with h' | h'
      · exact h'.1
      · have := hb.lt_of_mem_tail h'; omega
    have e1 : r.1 = s.1 := by
      have h1 := mem2 r.1 ((h r.1).mp (inRanges_cons.mpr (Or.inl ⟨Int.le_refl _, hr⟩)))
      have h2 := mem1 s.1 ((h s.1).mpr (inRanges_cons.mpr (Or.inl ⟨Int.le_refl _, hs⟩)))
      omega
    have e2 : r.2 = s.2 := by
      rcases Int.lt_trichotomy r.2 s.2 with hlt | heq | hgt
      · exfalso
        have := (h (r.2 + 1)).mpr (inRanges_cons.mpr (Or.inl ⟨by omega, by omega⟩))
        rcases inRanges_cons.mp this with h' | h'
        · omega
        · have := ha.lt_of_mem_tail h'; omega
      · exact heq
      · exfalso
        have := (h (s.2 + 1)).mp (inRanges_cons.mpr (Or.inl ⟨by omega, by omega⟩))
        rcases inRanges_cons.mp this with h' | h'
        · omega
        · have := hb.lt_of_mem_tail h'; omega
    have e : r = s := Prod.ext e1 e2
    subst e
    congr 1
    refine Canonical.ext ha.tail hb.tail ?_
    intro n
    have hn := h n
    simp only [inRanges_cons] at hn
    constructor
    · intro h'
      rcases hn.mp (Or.inr h') with h2 | h2
      · have := ha.lt_of_mem_tail h'; omega
      · exact h2
    · intro h'
      rcases hn.mpr (Or.inr h') with h2 | h2
      · have := hb.lt_of_mem_tail h'; omega
      · exact h2

theorem sortRngs_of_canonical {rs : List Rng} (h : Canonical rs) : sortRngs rs = rs := by
  apply sortRngs_of_pairwise
  have hle := h.1
  have hp := h.2
  clear h
  induction rs with
  | nil => exact .nil
  | cons r rs ih =>
    rw [List.pairwise_cons] at hp ⊢
    refine ⟨?_, ih (fun x hx => hle x (by simp [hx])) hp.2⟩
    intro b hb
    have h1 := hp.1 b hb
    have h2 := hle r (by simp)
    unfold rngLe; simp only [Bool.or_eq_true, decide_eq_true_eq]; omega

/-! ### intersection -/

theorem isectInner_spec {v : Rng} (hv : v.1 ≤ v.2) : ∀ {os : List Rng} {o : Rng}, Canonical (o :: os) →
    (∀ n, InRanges (isectInner v o os).1 n ↔ (v.1 ≤ n ∧ n ≤ v.2) ∧ InRanges (o :: os) n)
    ∧ (∀ r ∈ (isectInner v o os).1, r.1 ≤ r.2)
    ∧ Canonical ((isectInner v o os).2.1 :: (isectInner v o os).2.2)
    ∧ (∀ n, v.2 < n → (InRanges ((isectInner v o os).2.1 :: (isectInner v o os).2.2) n ↔ InRanges (o :: os) n))
  | [], o, hc => by
    have ho := hc.1 o (by simp)
    unfold isectInner
    split
    · refine ⟨fun n => ?_, by simp, hc, fun _ _ => Iff.rfl⟩
      simp only [inRanges_cons, inRanges_nil, or_false, false_iff]; omega
    · split
      · refine ⟨fun n => ?_, by simp, hc, fun _ _ => Iff.rfl⟩
        simp only [inRanges_cons, inRanges_nil, or_false, false_iff]; omega
      · refine ⟨fun n => ?_, ?_, hc, fun _ _ => Iff.rfl⟩
        · simp only [inRanges_cons, inRanges_nil, or_false]; omega
        · intro r hr; simp at hr; subst hr; simp only; omega
  | o' :: os, o, hc => by
    have ho := hc.1 o (by simp)
    have htail : ∀ n, InRanges (o' :: os) n → o.2 + 1 < n := fun n h => hc.lt_of_mem_tail h
    have ih := isectInner_spec hv (os := os) (o := o') hc.tail
    unfold isectInner
    split
    · rename_i h1
      refine ⟨fun n => ?_, by simp, hc, fun _ _ => Iff.rfl⟩
      simp only [inRanges_nil, false_iff]
      rintro ⟨h2, h3⟩
      rcases inRanges_cons.mp h3 with h | h
      · omega
      · have := htail n h; omega
    · split
      · rename_i h1 h2
        refine ⟨fun n => ?_, ih.2.1, ih.2.2.1, fun n hn => ?_⟩
        · rw [ih.1 n, inRanges_cons (r := o)]
          constructor
          · rintro ⟨a, b⟩; exact ⟨a, Or.inr b⟩
          · rintro ⟨a, b | b⟩
            · omega
            · exact ⟨a, b⟩
        · rw [ih.2.2.2 n hn, inRanges_cons (r := o)]
          constructor
          · exact Or.inr
          · rintro (b | b)
            · omega
            · exact b
      · rename_i h1 h2
        simp only
        split
        · rename_i h3
          refine ⟨fun n => ?_, ?_, hc, fun _ _ => Iff.rfl⟩
          · simp only [inRanges_cons (r := o), inRanges_cons (r := (max v.1 o.1, min v.2 o.2)), inRanges_nil, or_false]
            constructor
            · intro h; constructor <;> omega
            · rintro ⟨a, b | b⟩
              · omega
              · have := htail n b; omega
          · intro r hr; simp at hr; subst hr; simp only; omega
        · rename_i h3
          refine ⟨fun n => ?_, ?_, ih.2.2.1, fun n hn => ?_⟩
          · rw [inRanges_cons, ih.1 n, inRanges_cons (r := o)]
            constructor
            · rintro (h | ⟨a, b⟩)
              · constructor
                · simp only at h; omega
                · left; simp only at h; omega
              · exact ⟨a, Or.inr b⟩
            · rintro ⟨a, b | b⟩
              · left; simp only; omega
              · exact Or.inr ⟨a, b⟩
          · intro r hr
            rcases List.mem_cons.mp hr with rfl | hr
            · simp only; omega
            · exact ih.2.1 r hr
          · rw [ih.2.2.2 n hn, inRanges_cons (r := o)]
            constructor
            · exact Or.inr
            · rintro (b | b)
              · omega
              · exact b

theorem isectOuter_spec : ∀ {vs : List Rng} {o : Rng} {os : List Rng}, Canonical vs → Canonical (o :: os) →
    (∀ n, InRanges (isectOuter vs o os) n ↔ InRanges vs n ∧ InRanges (o :: os) n)
    ∧ (∀ r ∈ isectOuter vs o os, r.1 ≤ r.2)
  | [], o, os, _, _ => by simp [isectOuter, inRanges_nil]
  | v :: vs, o, os, hv, ho => by
    have hi := isectInner_spec (hv.1 v (by simp)) ho
    have ih := isectOuter_spec hv.tail hi.2.2.1
    unfold isectOuter
    refine ⟨fun n => ?_, ?_⟩
    · rw [inRanges_append, hi.1 n, ih.1 n, inRanges_cons (r := v)]
      constructor
      · rintro (⟨a, b⟩ | ⟨a, b⟩)
        · exact ⟨Or.inl a, b⟩
        · have := hv.lt_of_mem_tail a
          exact ⟨Or.inr a, (hi.2.2.2 n (by omega)).mp b⟩
      · rintro ⟨a | a, b⟩
        · exact Or.inl ⟨a, b⟩
        · have := hv.lt_of_mem_tail a
          exact Or.inr ⟨a, (hi.2.2.2 n (by omega)).mpr b⟩
    · intro r hr
      rcases List.mem_append.mp hr with h | h
      · exact hi.2.1 r h
      · exact ih.2 r h

/-! ### rendering -/

theorem showInt_no_minus {i : Int} (h : 0 ≤ i) : '-' ∉ showInt i := by
  cases i with
  | ofNat n => exact (showNat_no n).1
  | negSucc n => omega

theorem rangeText_den {r : Rng} (h0 : 0 ≤ r.1) (h : r.1 ≤ r.2) : ItemDen (rangeText r) r.1 r.2 :=
  .range _ _ _ _ (showInt_no_minus h0) (pyInt_showInt _) (pyInt_showInt _) h

theorem valueText_den {r : Rng} (h0 : 0 ≤ r.1) (h : r.1 ≤ r.2) : ItemDen (valueText r) r.1 r.2 := by
  unfold valueText
  split
  · rename_i e
    rw [← e]
    exact .single _ _ (showInt_no_minus h0) (pyInt_showInt _)
  · exact .range _ _ _ _ (showInt_no_minus h0) (pyInt_showInt _) (pyInt_showInt _) h

theorem rangeText_no_comma (r : Rng) : ',' ∉ rangeText r := by
  unfold rangeText
  simp [showInt_no_comma]

theorem valueText_no_comma (r : Rng) : ',' ∉ valueText r := by
  unfold valueText
  split <;> simp [showInt_no_comma]

/-- Parsing rendered ranges gives back a canonical list with the same members. -/
theorem parse_rendered {rs : List Rng} (f : Rng → Str) (hne : rs ≠ []) (hf : ∀ r ∈ rs, ItemDen (f r) r.1 r.2)
    (hcomma : ∀ r, ',' ∉ f r) :
    ∃ vs, parseItems (splitOn ',' (joinWith ',' (rs.map f))) = .ok vs ∧ Canonical vs ∧
      ∀ n, InRanges vs n ↔ InRanges rs n := by
  have hsplit : splitOn ',' (joinWith ',' (rs.map f)) = rs.map f :=
    splitOn_joinWith (by simpa using hne) (by intro p hp; obtain ⟨r, _, rfl⟩ := List.mem_map.mp hp; exact hcomma r)
  rw [hsplit]
  rcases hp : parseItems (rs.map f) with e | vs
  · obtain ⟨_, i, hi, hno⟩ := parseItems_error hp
    obtain ⟨r, hr, rfl⟩ := List.mem_map.mp hi
    exact absurd ⟨_, _, hf r hr⟩ hno
  · have := parseItems_ok hp
    refine ⟨vs, rfl, this.1, fun n => (this.2.1 n).trans ?_⟩
    constructor
    · rintro ⟨i, hi, lo, hi', hd, h⟩
      obtain ⟨r, hr, rfl⟩ := List.mem_map.mp hi
      obtain ⟨e1, e2⟩ := hd.unique (hf r hr)
      exact ⟨r, hr, by omega⟩
    · rintro ⟨r, hr, h⟩
      exact ⟨f r, List.mem_map.mpr ⟨r, hr, rfl⟩, r.1, r.2, hf r hr, h⟩

/-! ### labels from constructors -/

theorem Label.FromText.spec {l : Label} (h : l.FromText) :
    Canonical l.values ∧ l.values ≠ [] ∧ (∀ n, l.has n → 0 ≤ n) ∧ l.listPairs = false := by
  obtain ⟨s, hs⟩ := h
  simp only [Label.mk'] at hs
  rcases hp : parseItems (splitOn ',' s) with e | vs
  · simp [hp] at hs
  · simp [hp] at hs
    have := parseItems_ok hp
    subst_vars
    rw [← hs]
    exact ⟨this.1, this.2.2.2.1 (splitOn_ne_nil _ _), this.2.2.2.2, rfl⟩

theorem Label.Constructed.canonical {l : Label} (h : l.Constructed) : Canonical l.values := by
  obtain ⟨a, ha⟩ := h
  cases a with
  | none => simp [Label.mk'] at ha
  | int n => simp [Label.mk'] at ha; rw [← ha]; simp [Canonical]
  | str s => exact (Label.FromText.spec ⟨s, ha⟩).1
  | list items =>
    simp only [Label.mk'] at ha
    rcases hp : parseItems items with e | vs
    · simp [hp] at ha
    · simp [hp] at ha
      rw [← ha]
      exact (parseItems_ok hp).1

/-! ### enumeration -/

theorem mem_pyRange {r : Rng} {n : Int} : n ∈ pyRange r ↔ r.1 ≤ n ∧ n ≤ r.2 := by
  unfold pyRange
  simp only [List.mem_map, List.mem_range]
  constructor
  · rintro ⟨i, hi, rfl⟩; omega
  · intro h
    exact ⟨(n - r.1).toNat, by omega, by omega⟩

theorem pairwise_pyRange (r : Rng) : (pyRange r).Pairwise (· < ·) := by
  unfold pyRange
  rw [List.pairwise_map]
  exact List.pairwise_lt_range.imp (by intro a b h; omega)

theorem mem_enumerate {rs : List Rng} {n : Int} : n ∈ rs.flatMap pyRange ↔ InRanges rs n := by
  simp only [List.mem_flatMap, mem_pyRange, InRanges]

theorem pairwise_enumerate {rs : List Rng} (h : Canonical rs) : (rs.flatMap pyRange).Pairwise (· < ·) := by
  induction rs with
  | nil => simp
  | cons r rs ih =>
    rw [List.flatMap_cons, List.pairwise_append]
    refine ⟨pairwise_pyRange r, ih h.tail, ?_⟩
    intro a ha b hb
    have h1 := mem_pyRange.mp ha
    have h2 := h.lt_of_mem_tail (mem_enumerate.mp hb)
    omega

end OpenNSA
