import Verif.Wire.TimeLemmas
import Verif.Calendar.Props
/-
C10: which start times are too far in the future, by the calendar.
-/
namespace OpenNSA
open Wire

/-- A date as the calendar counts it: microseconds since 1970. -/
def Wire.DT.time (d : DT) : Int := d.instant - (⟨1970, 1, 1, 0, 0, 0, 0⟩ : DT).instant

theorem year2095_instant : year2095 = (⟨2095, 1, 1, 0, 0, 0, 0⟩ : DT).time := by decide +kernel

theorem before_2095 {d : DT} (hd : d.valid) : d.time ≤ year2095 ↔ d.year < 2095 ∨ d = ⟨2095, 1, 1, 0, 0, 0, 0⟩ := by
  have hv : (⟨2095, 1, 1, 0, 0, 0, 0⟩ : DT).valid := by decide
  have h0 : (⟨2095, 1, 1, 0, 0, 0, 0⟩ : DT).instant = (764818 : Int) * 86400000000 := by decide +kernel
  have hy : dby 2095 = 764818 := by decide +kernel
  rw [year2095_instant]
  unfold DT.time
  constructor
  · intro h
    by_cases hlt : d.year < 2095
    · exact Or.inl hlt
    · right
      apply instant_inj hd hv
      apply Int.le_antisymm (by omega)
      rw [h0]
      have hle : dby 2095 ≤ dby d.year := by
        rcases Nat.lt_or_ge 2095 d.year with h' | h'
        · have := dby_succ 2095 d.year (by omega) h'; omega
        · have : d.year = 2095 := by omega
          rw [this]; exact Nat.le_refl _
      unfold DT.instant DT.days
      rw [hy] at hle
      omega
  · rintro (h | rfl)
    · obtain ⟨h1, h2, h3, h4, h5, h6, h7, h8, h9, h10⟩ := hd
      have a := dby_succ d.year 2095 h1 h
      have b := (dbm_dim (leap d.year) ⟨d.month, by omega⟩ h3).1
      rw [hy] at a
      have : d.days < 764818 := by
        unfold DT.days
        simp only at b
        omega
      rw [h0]
      unfold DT.instant
      omega
    · exact Int.le_refl _

/-- **C10, far future.** A request for a free resource that begins at a date to come, and does not end before it begins, is turned down exactly if it begins after midnight of
the first of January 2095. -/
theorem C10_far_future (now : Time) (res : Str) (d : DT) (hd : d.valid) (hn : now ≤ d.time) (e : Option Time) (he : ∀ t, e = some t → d.time ≤ t) :
    Cal.check [] now ⟨res, some d.time, e⟩ = .ok () ↔ d.year < 2095 ∨ d = ⟨2095, 1, 1, 0, 0, 0, 0⟩ := by
  rw [check_ok, ← before_2095 hd]
  constructor
  · rintro ⟨h, _⟩
    exact (h.2 _ rfl).2
  · intro h
    refine ⟨⟨?_, ?_⟩, rfl⟩
    · intro s t hs ht
      cases hs
      exact he t ht
    · intro s hs
      cases hs
      exact ⟨hn, h⟩

example : (⟨2094, 12, 31, 23, 59, 59, 999999⟩ : DT).valid ∧ (0 : Int) ≤ (⟨2094, 12, 31, 23, 59, 59, 999999⟩ : DT).time ∧
    Cal.check [] 0 ⟨['r'], some (⟨2094, 12, 31, 23, 59, 59, 999999⟩ : DT).time, none⟩ = .ok () ∧
    Cal.check [] 0 ⟨['r'], some (⟨2095, 1, 1, 0, 0, 0, 1⟩ : DT).time, none⟩ = .error .payload := by decide +kernel

end OpenNSA
