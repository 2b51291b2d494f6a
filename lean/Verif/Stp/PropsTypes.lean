import Verif.Stp.Props
import Verif.Label.Props
/- C07: which label texts are accepted, spelled out, and how others are refused. -/
namespace OpenNSA
open Py

/-- The label texts are those of the forms `vlan=values` and `mpls=values`, the values being those of a label. -/
theorem C07_label_texts (part : Str) (l : Label) : parseLabel part = .ok l ↔
    ∃ v, '=' ∉ v ∧ ((part = ['v', 'l', 'a', 'n', '='] ++ v ∧ Label.mk' ['v', 'l', 'a', 'n'] (.str v) = .ok l) ∨
      (part = ['m', 'p', 'l', 's', '='] ++ v ∧ Label.mk' ['m', 'p', 'l', 's'] (.str v) = .ok l)) := by
  rw [parseLabel_ok]
  constructor
  · rintro ⟨ty, v, h1, rfl | rfl, h2, h3⟩
    · exact ⟨v, h2, .inl ⟨h1, h3⟩⟩
    · exact ⟨v, h2, .inr ⟨h1, h3⟩⟩
  · rintro ⟨v, h2, ⟨h1, h3⟩ | ⟨h1, h3⟩⟩
    · exact ⟨_, v, h1, .inl rfl, h2, h3⟩
    · exact ⟨_, v, h1, .inr rfl, h2, h3⟩

/-- All others with at most one `=` are refused as errors of the request. -/
theorem C07_label_refused (part : Str) (e : StpErr) (h : parseLabel part = .error e) (h1 : part.count '=' ≤ 1) : e = .payload := by
  unfold parseLabel at h
  split at h
  · exact (Except.error.inj h).symm
  · rename_i hq
    split at h
    · split at h
      · exact (Except.error.inj h).symm
      · rename_i v _ _ t _
        unfold mkLabel at h
        split at h
        · cases h
        · exact (Except.error.inj h).symm
        · rename_i er hn hm
          exact absurd ((C01_label_parse t v _ (itemsOf_splitOn v)).2.2 _ hm) hn
    · rename_i hn
      have hq : '=' ∈ part := by simpa using hq
      obtain ⟨a, b, rfl⟩ := List.append_of_mem hq
      simp only [List.count_append, List.count_cons_self] at h1
      have ha : '=' ∉ a := List.count_eq_zero.mp (by omega)
      have hb : '=' ∉ b := List.count_eq_zero.mp (by omega)
      exact absurd (splitOn_two ha hb) (hn _ _)

/-- A label, a text of another type, one without type, and a range that is none. -/
example : (parseLabel ['m', 'p', 'l', 's', '=', '7', '-', '9']).toOption.map (·.values) = some [(7, 9)] ∧
    parseLabel ['V', 'L', 'A', 'N', '=', '7'] = .error .payload ∧ parseLabel ['7'] = .error .payload ∧
    parseLabel ['v', 'l', 'a', 'n', '=', '9', '-', '7'] = .error .payload ∧ parseLabel ['v', 'l', 'a', 'n', '=', '9', '=', '7'] = .error .value := by
  decide +kernel

end OpenNSA
