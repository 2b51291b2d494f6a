import Verif.Stp.Lemmas
import Verif.Stp.Spec
/-
C07, C56: STP texts.
-/
namespace OpenNSA
open Py

theorem dget_labelMap {ty t : Str} : dget labelMap ty = some t ↔ t = ty ∧ (ty = tVlan ∨ ty = tMpls) := by
  unfold labelMap dget
  by_cases h1 : tVlan = ty
  · subst h1; simp [eq_comm]
  · rw [if_neg h1]
    unfold dget
    by_cases h2 : tMpls = ty
    · subst h2; simp [eq_comm]
    · rw [if_neg h2]
      simp [dget]
      intro _
      exact ⟨fun e => h1 e.symm, fun e => h2 e.symm⟩

theorem mkLabel_ok {ty v : Str} {l : Label} : mkLabel ty v = .ok l ↔ Label.mk' ty (.str v) = .ok l := by
  unfold mkLabel
  split <;> simp_all

theorem tVlan_no : '=' ∉ tVlan ∧ '?' ∉ tVlan ∧ '#' ∉ tVlan := by decide
theorem tMpls_no : '=' ∉ tMpls ∧ '?' ∉ tMpls ∧ '#' ∉ tMpls := by decide

theorem known_no {ty : Str} (h : ty = tVlan ∨ ty = tMpls) : '=' ∉ ty ∧ '?' ∉ ty ∧ '#' ∉ ty := by
  rcases h with rfl | rfl
  · exact tVlan_no
  · exact tMpls_no

theorem parseLabel_ok {part : Str} {l : Label} :
    parseLabel part = .ok l ↔ ∃ ty v, part = ty ++ '=' :: v ∧ (ty = tVlan ∨ ty = tMpls) ∧ '=' ∉ v ∧
      Label.mk' ty (.str v) = .ok l := by
  unfold parseLabel
  split
  · rename_i h
    constructor
    · simp
    · rintro ⟨ty, v, rfl, _⟩; simp at h
  · split
    · rename_i ty v hs
      obtain ⟨h1, h2, h3⟩ := splitOn_eq_two hs
      constructor
      · intro h
        split at h
        · simp at h
        · rename_i t ht
          obtain ⟨rfl, hk⟩ := dget_labelMap.mp ht
          exact ⟨_, v, h3, hk, h2, mkLabel_ok.mp h⟩
      · rintro ⟨ty', v', e, hk, hv, hm⟩
        rw [e, splitOn_two (known_no hk).1 hv] at hs
        simp at hs
        obtain ⟨rfl, rfl⟩ := hs
        rw [dget_labelMap.mpr ⟨rfl, hk⟩]
        exact mkLabel_ok.mpr hm
    · rename_i hs
      constructor
      · simp
      · rintro ⟨ty', v', e, hk, hv, hm⟩
        exact absurd (by rw [e, splitOn_two (known_no hk).1 hv]) (hs ty' v')

theorem urnPrefix_ne : urnPrefix ≠ [] := by decide

theorem createSTP_prefix {t : Str} (ht : ¬ urnPrefix <:+: t) :
    createSTP (urnPrefix ++ t) =
      if '?' ∈ t then
        match splitOn '?' t with
        | [loc, lbp] =>
          match parseLabel lbp with
          | .error e => .error e
          | .ok l => createSTPLoc loc (some l)
        | _ => .error .value
      else createSTPLoc t none := by
  unfold createSTP
  have : urnPrefix.isPrefixOf (urnPrefix ++ t) = true := by
    rw [List.isPrefixOf_iff_prefix]; exact List.prefix_append _ _
  simp only [this, not_true_eq_false, if_false, removeAll_prefix urnPrefix_ne, removeAll_of_not_infix ht]
  rfl

/-- C07, parsing is exact: a URN whose remainder `t` does not contain the URN prefix again parses to `stp`
exactly when `t` denotes `stp`. -/
theorem C07_parse_exact (t : Str) (stp : STP) (ht : ¬ urnPrefix <:+: t) :
    createSTP (urnPrefix ++ t) = .ok stp ↔ StpText '?' t stp := by
  rw [createSTP_prefix ht]
  by_cases hq : '?' ∈ t
  · rw [if_pos hq]
    constructor
    · intro h
      split at h
      · rename_i loc lbp hs
        obtain ⟨h1, h2, rfl⟩ := splitOn_eq_two hs
        split at h
        · simp at h
        · rename_i l hl
          obtain ⟨ty, v, rfl, hk, hv, hm⟩ := parseLabel_ok.mp hl
          obtain ⟨rfl, h5, h6⟩ := createSTPLoc_ok.mp h
          obtain ⟨n, p, lb⟩ := stp
          simp only at h6
          subst h6
          simp at h1 h2
          exact .labelled n p ty v l h1.1 h1.2 h5 hk h2.2 hv hm
      · simp at h
    · intro h
      cases h with
      | plain n p h1 h2 h3 => simp [h1, h2] at hq
      | labelled n p ty v l h1 h2 h3 hk h4 h5 hm =>
        have hs : splitOn '?' ((n ++ ':' :: p) ++ '?' :: (ty ++ '=' :: v)) = [n ++ ':' :: p, ty ++ '=' :: v] :=
          splitOn_two (by simp [h1, h2]) (by simp [h4, (known_no hk).2.1])
        rw [hs]
        simp only
        rw [parseLabel_ok.mpr ⟨ty, v, rfl, hk, h5, hm⟩]
        exact createSTPLoc_ok.mpr ⟨rfl, h3, rfl⟩
  · rw [if_neg hq]
    constructor
    · intro h
      obtain ⟨rfl, h2, h3⟩ := createSTPLoc_ok.mp h
      obtain ⟨n, p, lb⟩ := stp
      simp only at h3
      subst h3
      simp at hq
      exact .plain n p hq.1 hq.2 h2
    · intro h
      cases h with
      | plain n p h1 h2 h3 => exact createSTPLoc_ok.mpr ⟨rfl, h3, rfl⟩
      | labelled n p ty v l => simp at hq

/-- C07. The URN of a well-named STP (with or without label) parses back to exactly that STP. -/
theorem C07_urn_roundtrip (s : STP) (hn : s.WellNamed) (hl : s.WellLabelled) : createSTP s.urn = .ok s := by
  obtain ⟨n, p, lb⟩ := s
  cases lb with
  | none =>
    have : STP.urn ⟨n, p, none⟩ = urnPrefix ++ (n ++ ':' :: p) := by simp [STP.urn, STP.baseURN]
    rw [this, C07_parse_exact _ _ hn.pref]
    exact .plain n p hn.netq hn.portq hn.portc
  | some l =>
    obtain ⟨hft, hk⟩ := hl l rfl
    have hk' := known_no hk
    have : STP.urn ⟨n, p, some l⟩ = urnPrefix ++ ((n ++ ':' :: p) ++ '?' :: (l.type_ ++ '=' :: l.labelValue)) := by
      simp [STP.urn, STP.baseURN, labelSuffix, shortType_of_no_hash hk'.2.2]
    have hq : '?' ∉ l.labelValue := labelValue_no (by decide) (by decide) (digitChar_ne_of (by decide))
    have he : '=' ∉ l.labelValue := labelValue_no (by decide) (by decide) (digitChar_ne_of (by decide))
    have hcl : ':' ∉ l.labelValue := labelValue_no (by decide) (by decide) (digitChar_ne_of (by decide))
    have hct : ':' ∉ l.type_ := by rcases hk with h | h <;> rw [h] <;> decide
    have hinf : ¬ urnPrefix <:+: ((n ++ ':' :: p) ++ '?' :: (l.type_ ++ '=' :: l.labelValue)) := by
      intro hi
      rcases infix_split (by decide) hi with h | h
      · exact hn.pref h
      · have : ':' ∈ l.type_ ++ '=' :: l.labelValue := h.subset (by decide)
        simp [hct, hcl] at this
    rw [this, C07_parse_exact _ _ hinf]
    exact .labelled n p _ _ l hn.netq hn.portq hn.portc hk hq he (C02_label_roundtrip l hft).1

theorem shortType_ns {ns t : Str} (h : '#' ∉ t) : shortType (ns ++ '#' :: t) = t := by
  have h1 : ∀ ns : Str, ∃ l, splitOn '#' (ns ++ '#' :: t) = l ++ [t] := by
    intro ns
    induction ns with
    | nil => exact ⟨[[]], by rw [List.nil_append, ← List.nil_append ('#' :: t), splitOn_append t (by simp), splitOn_no_sep h]; rfl⟩
    | cons x xs ih =>
      obtain ⟨l, hl⟩ := ih
      by_cases hx : x = '#'
      · subst hx
        exact ⟨[] :: l, by rw [List.cons_append, ← List.nil_append ('#' :: (xs ++ '#' :: t)), splitOn_append _ (by simp), hl]; rfl⟩
      · rw [List.cons_append]
        unfold splitOn
        rw [if_neg hx, hl]
        cases l with
        | nil =>
          exfalso
          have h2 := (splitOn_items '#' (xs ++ '#' :: t)).2
          rw [hl] at h2
          have h3 : '#' ∈ t := by
            simp only [List.nil_append, joinWith] at h2
            rw [h2]; simp
          exact h h3
        | cons a l => exact ⟨(x :: a) :: l, rfl⟩
  obtain ⟨l, hl⟩ := h1 ns
  unfold shortType
  simp [hl]

/-- C07. A label type with a namespace (`namespace#type`) is written without it: such an STP is read as the one with the plain type. -/
theorem C07_namespace (s : STP) (l : Label) (ns t : Str) (hs : s.label = some l) (ht : l.type_ = ns ++ '#' :: t) (hk : t = tVlan ∨ t = tMpls)
    (hn : s.WellNamed) (hf : Label.FromText ⟨t, l.values, l.listPairs⟩) : createSTP s.urn = .ok { s with label := some ⟨t, l.values, l.listPairs⟩ } := by
  have hno : '#' ∉ t := by rcases hk with rfl | rfl <;> decide
  rw [← C07_urn_roundtrip { s with label := some ⟨t, l.values, l.listPairs⟩ } ⟨hn.netq, hn.portq, hn.portc, hn.pref⟩
    (by intro l' h; simp only [Option.some.injEq] at h; subst h; exact ⟨hf, hk⟩)]
  congr 1
  obtain ⟨n, p, lb⟩ := s
  simp only at hs
  subst hs
  have hv : Label.labelValue ⟨t, l.values, l.listPairs⟩ = l.labelValue := rfl
  simp only [STP.urn, STP.baseURN, labelSuffix, ht, shortType_ns hno, shortType_of_no_hash hno, hv]

/-- C07. Texts that do not start with the URN prefix are rejected with the payload error. -/
theorem C07_prefix_required (s : Str) (h : ¬ urnPrefix <+: s) : createSTP s = .error .payload := by
  unfold createSTP
  have : ¬ (urnPrefix.isPrefixOf s = true) := by rwa [List.isPrefixOf_iff_prefix]
  simp [this]

/-- Two well-named, well-labelled STPs with the same URN are the same STP. -/
theorem C07_urn_injective (a b : STP) (ha : a.WellNamed) (hb : b.WellNamed) (hla : a.WellLabelled) (hlb : b.WellLabelled)
    (h : a.urn = b.urn) : a = b := by
  have h1 := C07_urn_roundtrip a ha hla
  rw [h, C07_urn_roundtrip b hb hlb] at h1
  simpa using h1.symm

/-- Without the last condition of `WellNamed` the round trip fails: a network whose name contains the URN
prefix is read back under another name, because the parser removes every occurrence of the prefix. -/
theorem C07_embedded_prefix_fails (n p : Str) (hq : '?' ∉ n) (hp : '?' ∉ p) (hc : ':' ∉ p)
    (hinf : ¬ urnPrefix <:+: n ++ ':' :: p) :
    createSTP (STP.urn ⟨urnPrefix ++ n, p, none⟩) = .ok ⟨n, p, none⟩ ∧ (⟨n, p, none⟩ : STP) ≠ ⟨urnPrefix ++ n, p, none⟩ := by
  constructor
  · have h := C07_urn_roundtrip ⟨n, p, none⟩ ⟨hq, hp, hc, hinf⟩ (by intro l h; simp at h)
    rw [← h]
    unfold createSTP
    have e : ∀ x : Str, STP.urn ⟨x, p, none⟩ = urnPrefix ++ (x ++ ':' :: p) := by simp [STP.urn, STP.baseURN]
    have hx : ∀ x : Str, urnPrefix.isPrefixOf (urnPrefix ++ x) = true := by
      intro x; rw [List.isPrefixOf_iff_prefix]; exact List.prefix_append _ _
    rw [e, e]
    simp only [hx, removeAll_prefix urnPrefix_ne, List.append_assoc]
  · intro h
    simp at h
    exact urnPrefix_ne h

example : STP.WellNamed ⟨"aruba.net:2013:topology".toList, "bon".toList, none⟩ :=
  ⟨by decide, by decide, by decide, fun h => absurd (h.subset (a := 'f') (by decide)) (by decide)⟩

example : createSTP "urn:ogf:network:aruba.net:2013:topology:bon?vlan=1780-1783,1790".toList
    = .ok ⟨"aruba.net:2013:topology".toList, "bon".toList, some ⟨tVlan, [(1780, 1783), (1790, 1790)], false⟩⟩ := by
  decide +kernel

example : createSTP "aruba:bon".toList = .error .payload := by decide +kernel

/-- Hypotheses of `C07_namespace` hold for a label as it comes from a document. -/
example : let s : STP := ⟨"aruba.net:2013:topology".toList, "bon".toList, some ⟨"http://schemas.ogf.org/nml/2012/10/ethernet#vlan".toList, [(5, 7)], false⟩⟩
    s.WellNamed ∧ Label.FromText ⟨tVlan, [(5, 7)], false⟩ :=
  ⟨⟨by decide, by decide, by decide, fun h => absurd (h.subset (a := 'f') (by decide)) (by decide)⟩, ⟨"5-7".toList, by decide +kernel⟩⟩

/-! ### C56: command line STP arguments -/

/-- C56. The command line client reads an STP argument exactly as the grammar `network:port[#type=values]`
says; anything else is an error. -/
theorem C56_cli_stp_exact (t : Str) (stp : STP) : cliCreateSTP t = .ok stp ↔ StpText '#' t stp := by
  unfold cliCreateSTP
  split
  · rename_i h
    constructor
    · simp
    · intro h'; cases h' <;> simp at h
  · rename_i hc
    split
    · rename_i hq
      constructor
      · intro h
        split at h
        · rename_i desc ld hs
          obtain ⟨h1, h2, rfl⟩ := splitOn_eq_two hs
          split at h
          · simp at h
          · rename_i n p hcut
            obtain ⟨rfl, h3⟩ := cutLast_some hcut
            split at h
            · simp at h
            · split at h
              · rename_i ty v hs2
                obtain ⟨h4, h5, rfl⟩ := splitOn_eq_two hs2
                split at h
                · simp at h
                · rename_i t ht
                  obtain ⟨rfl, hk⟩ := dget_labelMap.mp ht
                  split at h
                  · simp at h
                  · rename_i l hl
                    simp at h; subst h
                    simp at h1 h2
                    exact .labelled n p _ v l h1.1 h1.2 h3 hk h2.2 h5 (mkLabel_ok.mp hl)
              · simp at h
        · simp at h
      · intro h
        cases h with
        | plain n p h1 h2 h3 => simp [h1, h2] at hq
        | labelled n p ty v l h1 h2 h3 hk h4 h5 hm =>
          have hs : splitOn '#' ((n ++ ':' :: p) ++ '#' :: (ty ++ '=' :: v)) = [n ++ ':' :: p, ty ++ '=' :: v] :=
            splitOn_two (by simp [h1, h2]) (by simp [h4, (known_no hk).2.2])
          rw [hs]
          simp only [cutLast_append n h3]
          have hs2 := splitOn_two (known_no hk).1 h5
          rw [hs2, if_neg (by simp)]
          simp only [dget_labelMap.mpr ⟨rfl, hk⟩, mkLabel_ok.mpr hm]
    · rename_i hq
      constructor
      · intro h
        split at h
        · rename_i n p hcut
          obtain ⟨rfl, h3⟩ := cutLast_some hcut
          simp at h; subst h
          simp at hq
          exact .plain n p hq.1 hq.2 h3
        · simp at h
      · intro h
        cases h with
        | plain n p h1 h2 h3 => simp [cutLast_append n h3]
        | labelled n p ty v l => simp at hq

example : cliCreateSTP "aruba:topology:bon#vlan=1780".toList
    = .ok ⟨"aruba:topology".toList, "bon".toList, some ⟨tVlan, [(1780, 1780)], false⟩⟩ := by decide +kernel

end OpenNSA
