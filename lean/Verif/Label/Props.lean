import Verif.Label.Lemmas
/-
C01-C06: labels.
-/
namespace OpenNSA
open Py

/-! ### C01 -/

/-- C01. For a text with comma-separated items `items`: construction succeeds exactly when every item
denotes an ascending integer range; the resulting ranges are canonical and contain exactly the named
integers; and any failure is the payload error. -/
theorem C01_label_parse (type_ s : Str) (items : List Str) (hs : ItemsOf s items) :
    ((∃ l, Label.mk' type_ (.str s) = .ok l) ↔ ∀ i ∈ items, ∃ lo hi, ItemDen i lo hi)
    ∧ (∀ l, Label.mk' type_ (.str s) = .ok l →
        l.type_ = type_ ∧ Canonical l.values ∧ l.values ≠ [] ∧ ∀ n, l.has n ↔ Named items n)
    ∧ (∀ e, Label.mk' type_ (.str s) = .error e → e = .payload) := by
  have hsp := hs.splitOn_eq
  simp only [Label.mk', hsp]
  rcases hp : parseItems items with e | vs
  · obtain ⟨he, i, hi, hno⟩ := parseItems_error hp
    refine ⟨⟨by simp, fun h => absurd (h i hi) hno⟩, by simp, by simp [he]⟩
  · have h := parseItems_ok hp
    refine ⟨⟨fun _ => h.2.2.1, fun _ => ⟨_, rfl⟩⟩, ?_, by simp⟩
    intro l hl
    simp at hl
    subst hl
    exact ⟨rfl, h.1, h.2.2.2.1 hs.1, h.2.1⟩

/-- Every text has exactly one list of comma-separated items, so C01 covers every text. -/
theorem C01_items_exist_unique (s : Str) : ∃ items, ItemsOf s items ∧ ∀ items', ItemsOf s items' → items' = items :=
  ⟨splitOn ',' s, itemsOf_splitOn s, fun _ h => h.splitOn_eq.symm⟩

example : ItemsOf "7,1-3,2-5".toList ["7".toList, "1-3".toList, "2-5".toList] := by
  refine ⟨by simp, ?_, by decide⟩
  decide

example : Label.mk' "vlan".toList (.str "7,1-3,2-5".toList)
    = .ok { type_ := "vlan".toList, values := [(1, 5), (7, 7)] } := by decide +kernel

example : Label.mk' "vlan".toList (.str "7,5-3".toList) = .error .payload := by decide +kernel

/-- C01, list form: the same for a label built from a list of item texts. -/
theorem C01_label_parse_list (type_ : Str) (items : List Str) :
    ((∃ l, Label.mk' type_ (.list items) = .ok l) ↔ ∀ i ∈ items, ∃ lo hi, ItemDen i lo hi)
    ∧ (∀ l, Label.mk' type_ (.list items) = .ok l →
        l.type_ = type_ ∧ Canonical l.values ∧ ∀ n, l.has n ↔ Named items n)
    ∧ (∀ e, Label.mk' type_ (.list items) = .error e → e = .payload) := by
  simp only [Label.mk']
  rcases hp : parseItems items with e | vs
  · obtain ⟨he, i, hi, hno⟩ := parseItems_error hp
    refine ⟨⟨by simp, fun h => absurd (h i hi) hno⟩, by simp, by simp [he]⟩
  · have h := parseItems_ok hp
    refine ⟨⟨fun _ => h.2.2.1, fun _ => ⟨_, rfl⟩⟩, ?_, by simp⟩
    intro l hl
    simp at hl
    subst hl
    exact ⟨rfl, h.1, h.2.1⟩

example : Label.mk' "vlan".toList (.list ["9".toList, " 1-3 ".toList])
    = .ok { type_ := "vlan".toList, values := [(1, 3), (9, 9)] } := by decide +kernel

/-! ### C02 -/

/-- C02. A label obtained from text, rendered as text (or stored in the database) and parsed again, is
the same label. -/
theorem C02_label_roundtrip (l : Label) (h : l.FromText) :
    Label.mk' l.type_ (.str l.labelValue) = .ok l ∧ l.dbRoundTrip = .ok l ∧ l.eq l = true := by
  obtain ⟨hc, hne, hnn, hlp⟩ := h.spec
  have key : Label.mk' l.type_ (.str l.labelValue) = .ok l := by
    obtain ⟨vs, hp, hcv, hm⟩ := parse_rendered valueText hne
      (fun r hr => valueText_den (hnn r.1 ⟨r, hr, Int.le_refl _, hc.1 r hr⟩) (hc.1 r hr)) valueText_no_comma
    simp only [Label.mk', Label.labelValue, hp]
    have : vs = l.values := Canonical.ext hcv hc hm
    rw [this]
    cases l
    simp_all
  exact ⟨key, key, by simp [Label.eq]⟩

/-- The result of an intersection is again a label obtained from text, so C02 applies to it. -/
theorem C02_intersect_fromText (a b l : Label) (h : a.intersect b = .ok l) : l.FromText := by
  unfold Label.intersect at h
  split at h
  · simp at h
  · split at h
    · simp at h
    · split at h
      · simp at h
      · have ht : l.type_ = a.type_ := by
          simp only [Label.mk'] at h
          split at h
          · simp at h
          · simp at h; rw [← h]
        exact ⟨_, ht ▸ h⟩

example : Label.FromText { type_ := "vlan".toList, values := [(1, 5), (7, 7)] } :=
  ⟨"7,1-3,2-5".toList, by decide +kernel⟩

example : (Label.labelValue { type_ := "vlan".toList, values := [(1, 5), (7, 7)] }) = "1-5,7".toList := by
  decide +kernel

/-! ### C03 -/

/-- C03. Intersection of two labels of the same type, both obtained from text: it yields a canonical
label of that type with exactly the common values if there is a common value, and raises
`EmptyLabelSet` exactly when there is none. -/
theorem C03_intersect_exact (a b : Label) (ha : a.FromText) (hb : b.FromText) (ht : a.type_ = b.type_) :
    ((∃ n, a.has n ∧ b.has n) →
      ∃ l, a.intersect b = .ok l ∧ l.type_ = a.type_ ∧ Canonical l.values ∧ ∀ n, l.has n ↔ a.has n ∧ b.has n)
    ∧ ((¬ ∃ n, a.has n ∧ b.has n) → a.intersect b = .error .emptySet) := by
  obtain ⟨hca, _, hna, _⟩ := ha.spec
  obtain ⟨hcb, hneb, _, _⟩ := hb.spec
  rcases hbv : b.values with _ | ⟨o, os⟩
  · exact absurd hbv hneb
  · rw [hbv] at hcb
    obtain ⟨hm, hle⟩ := isectOuter_spec hca hcb
    have hmem : ∀ n, InRanges (isectOuter a.values o os) n ↔ a.has n ∧ b.has n := by
      intro n; simp only [Label.has, hbv]; exact hm n
    unfold Label.intersect
    rw [if_neg (by simp [ht]), hbv]
    simp only
    rcases hlv : isectOuter a.values o os with _ | ⟨x, xs⟩
    · refine ⟨?_, fun _ => rfl⟩
      rintro ⟨n, hn⟩
      have := (hmem n).mpr hn
      rw [hlv] at this
      exact absurd this inRanges_nil
    · have hne : isectOuter a.values o os ≠ [] := by rw [hlv]; simp
      obtain ⟨vs, hp, hcv, hmv⟩ := parse_rendered rangeText hne
        (fun r hr => rangeText_den (hna r.1 ((hmem r.1).mp ⟨r, hr, Int.le_refl _, hle r hr⟩).1) (hle r hr))
        rangeText_no_comma
      rw [hlv] at hp
      refine ⟨fun _ => ⟨{ type_ := a.type_, values := vs }, ?_, rfl, hcv, ?_⟩, ?_⟩
      · simp only [Label.mk', hp]
      · intro n
        exact (hmv n).trans (hmem n)
      · intro hno
        exfalso
        apply hno
        refine ⟨x.1, (hmem x.1).mp ⟨x, by rw [hlv]; simp, Int.le_refl _, hle x (by rw [hlv]; simp)⟩⟩

/-- C03, the match test: for labels obtained from text (of the same type when both are present) the
answer is yes exactly when both are absent or both present with a common value. -/
theorem C03_canMatch (a b : Option Label) (ha : ∀ l, a = some l → l.FromText) (hb : ∀ l, b = some l → l.FromText)
    (ht : ∀ x y, a = some x → b = some y → x.type_ = y.type_) :
    ∃ r : Bool, Label.canMatch a b = .ok r ∧
      (r = true ↔ (a = none ∧ b = none) ∨ ∃ x y, a = some x ∧ b = some y ∧ ∃ n, x.has n ∧ y.has n) := by
  rcases a with _ | x <;> rcases b with _ | y
  · exact ⟨true, rfl, by simp⟩
  · exact ⟨false, rfl, by simp⟩
  · exact ⟨false, rfl, by simp⟩
  · have h := C03_intersect_exact x y (ha x rfl) (hb y rfl) (ht x y rfl rfl)
    by_cases hc : ∃ n, x.has n ∧ y.has n
    · obtain ⟨l, hl, _⟩ := h.1 hc
      exact ⟨true, by simp [Label.canMatch, hl], by simpa using hc⟩
    · exact ⟨false, by simp [Label.canMatch, h.2 hc], by simpa using hc⟩

/-- Labels of different type are never matched or intersected: the call fails and nothing is returned. -/
theorem C03_type_mismatch (a b : Label) (ht : a.type_ ≠ b.type_) :
    a.intersect b = .error .assertion ∧ Label.canMatch (some a) (some b) = .error .assertion := by
  have : a.intersect b = .error .assertion := by simp [Label.intersect, ht]
  exact ⟨this, by simp [Label.canMatch, this]⟩

example : Label.intersect { type_ := "vlan".toList, values := [(1, 5), (7, 9), (20, 30)] }
      { type_ := "vlan".toList, values := [(4, 8), (10, 25)] }
    = .ok { type_ := "vlan".toList, values := [(4, 5), (7, 8), (20, 25)] } := by decide +kernel

example : Label.FromText { type_ := "vlan".toList, values := [(1, 5), (7, 9), (20, 30)] } :=
  ⟨"1-5,7-9,20-30".toList, by decide +kernel⟩

example : Label.canMatch (some { type_ := "vlan".toList, values := [(1, 5)] })
    (some { type_ := "vlan".toList, values := [(6, 8)] }) = .ok false := by decide +kernel

/-! ### C04 -/

/-- C04. Enumeration of any constructed label is strictly ascending and lists exactly its members; the
label reports single-valued exactly when the enumeration has length one. -/
theorem C04_enumerate (l : Label) (h : l.Constructed) :
    l.enumerateValues.Pairwise (· < ·) ∧ (∀ n, n ∈ l.enumerateValues ↔ l.has n) ∧
    (l.singleValue = true ↔ l.enumerateValues.length = 1) := by
  have hc := h.canonical
  refine ⟨pairwise_enumerate hc, fun n => mem_enumerate, ?_⟩
  unfold Label.enumerateValues Label.singleValue
  rcases hv : l.values with _ | ⟨r, _ | ⟨r', rs⟩⟩
  · simp
  · have hr := hc.1 r (by simp [hv])
    simp [pyRange]
    omega
  · have hr := hc.1 r (by simp [hv])
    have hr' := hc.1 r' (by simp [hv])
    simp [pyRange]
    omega

example : Label.Constructed { type_ := "vlan".toList, values := [(1, 3), (7, 8)] } :=
  ⟨.str "7-8,1-3".toList, by decide +kernel⟩

example : Label.enumerateValues { type_ := "vlan".toList, values := [(1, 3), (7, 8)] } = [1, 2, 3, 7, 8] := by
  decide

/-! ### C05 -/

/-- C05 (partial). Two labels built from texts or item lists compare equal exactly when they have the
same type and the same members. Missing: labels built from an `int`, see `C05_fails`. -/
theorem C05_equality_partial (a b : Label) (ha : a.Constructed) (hb : b.Constructed)
    (hp : a.listPairs = b.listPairs) :
    a.eq b = true ↔ a.type_ = b.type_ ∧ ∀ n, a.has n ↔ b.has n := by
  unfold Label.eq
  rw [sortRngs_of_canonical ha.canonical, sortRngs_of_canonical hb.canonical]
  simp only [Bool.and_eq_true, decide_eq_true_eq, hp, Bool.or_eq_true, decide_true, true_or, and_true]
  constructor
  · rintro ⟨h1, h2⟩
    exact ⟨h1, fun n => by simp [Label.has, h2]⟩
  · rintro ⟨h1, h2⟩
    exact ⟨h1, Canonical.ext ha.canonical hb.canonical h2⟩

/-- Only the constructor form decides `listPairs`, so the hypothesis of `C05_equality_partial` holds for any
two labels built from text or item lists. -/
theorem C05_fromText_form (type_ : Str) (l : Label) :
    (∀ s, Label.mk' type_ (.str s) = .ok l → l.listPairs = false) ∧
    (∀ i, Label.mk' type_ (.list i) = .ok l → l.listPairs = false) := by
  constructor <;> intro s h <;> simp only [Label.mk'] at h <;> split at h <;> simp at h <;> rw [← h]

/-- C05 is violated by the code: the label `n` built from an integer differs from the label `n` built from
text although both denote the set `{n}`. -/
theorem C05_fails (type_ : Str) (n : Nat) :
    ∃ a b, Label.mk' type_ (.int n) = .ok a ∧ Label.mk' type_ (.str (showInt n)) = .ok b ∧
      a.type_ = b.type_ ∧ (∀ m, a.has m ↔ b.has m) ∧ a.eq b = false := by
  have hden : ItemDen (showInt (n : Int)) n n := .single _ _ (showInt_no_minus (by omega)) (pyInt_showInt _)
  have hitems : ItemsOf (showInt (n : Int)) [showInt (n : Int)] :=
    ⟨by simp, by simp [showInt_no_comma], by simp [joinWith]⟩
  have h := C01_label_parse type_ _ _ hitems
  obtain ⟨b, hb⟩ := h.1.mpr (by intro i hi; simp at hi; subst hi; exact ⟨_, _, hden⟩)
  obtain ⟨h1, h2, _, h3⟩ := h.2.1 b hb
  refine ⟨{ type_, values := [(n, n)], listPairs := true }, b, rfl, hb, h1.symm, ?_, ?_⟩
  · intro m
    rw [h3 m]
    simp only [Label.has, InRanges, Named, List.mem_singleton, exists_eq_left]
    constructor
    · intro hm; exact ⟨_, _, hden, hm⟩
    · rintro ⟨lo, hi, hd, hm⟩
      obtain ⟨e1, e2⟩ := hd.unique hden
      omega
  · have := (C05_fromText_form type_ b).1 _ hb
    simp [Label.eq, this]

example : Label.eq { type_ := "vlan".toList, values := [(1, 3)] } { type_ := "vlan".toList, values := [(1, 3)] } = true := by
  decide +kernel

/-! ### C06 -/

/-- C06 (partial). A drawn value is a member of the label unless it is one above the end of the chosen range. -/
theorem C06_random_partial (l : Label) (pick : Nat) (draw v : Int) (h : l.randomLabel pick draw = some v) :
    l.has v ∨ ∃ r ∈ l.values, v = r.2 + 1 := by
  unfold Label.randomLabel at h
  split at h
  · simp at h
  · rename_i r hr
    split at h
    · simp at h
      subst h
      have hm : r ∈ l.values := List.mem_of_getElem? hr
      by_cases hv : draw ≤ r.2
      · exact Or.inl ⟨r, hm, by omega, hv⟩
      · exact Or.inr ⟨r, hm, by omega⟩
    · simp at h

/-- C06 is violated by the code: every non-empty label has an outcome of the random generator for which the
drawn value is not a member of the label. -/
theorem C06_fails (l : Label) (h : l.Constructed) (hne : l.values ≠ []) :
    ∃ pick draw v, l.randomLabel pick draw = some v ∧ ¬ l.has v := by
  have hc := h.canonical
  obtain ⟨r, rs, hv⟩ := List.exists_cons_of_ne_nil hne
  rw [hv] at hc
  have hr := hc.1 r (by simp)
  refine ⟨0, r.2 + 1, r.2 + 1, ?_, ?_⟩
  · unfold Label.randomLabel
    simp [hv]
    omega
  · intro hm
    simp only [Label.has, hv] at hm
    rcases inRanges_cons.mp hm with h' | h'
    · omega
    · have := hc.lt_of_mem_tail h'; omega

example : Label.randomLabel { type_ := "vlan".toList, values := [(1780, 1789)] } 0 1790 = some 1790 := by decide

end OpenNSA
