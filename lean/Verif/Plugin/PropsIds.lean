import Verif.Plugin.Props
/-
C70: no connection id is made twice by the Canarie plugin, whatever the service is restarted with.
-/
namespace OpenNSA.Plugin
open OpenNSA Py

/-- The ids made are of different numbers up to the one in the table. -/
structure Numbered (s : IdTable × List Str) : Prop where
  nodup : s.2.Nodup
  below : ∀ i ∈ s.2, ∃ m n, s.1 = some m ∧ n ≤ m ∧ canarieConnectionId (some n) = some i

theorem numbered_step {s : IdTable × List Str} (h : Numbered s) (e : IdEv) : Numbered (idStep s e) := by
  obtain ⟨t, ids⟩ := s
  cases e with
  | start n =>
    refine ⟨h.nodup, fun i hi => ?_⟩
    obtain ⟨m, k, h1, h2, h3⟩ := h.below i hi
    simp only at h1
    subst h1
    refine ⟨m, k, ?_, h2, h3⟩
    cases n <;> rfl
  | ask =>
    cases t with
    | none =>
      have : idStep (none, ids) .ask = (none, ids) := by simp [idStep, IdTable.next, canarieConnectionId]
      rw [this]; exact h
    | some m =>
      by_cases hm : m + 1 ≤ maxSerial
      · obtain ⟨i, hi⟩ : ∃ i, canarieConnectionId (some (m + 1)) = some i := ⟨_, rfl⟩
        have : idStep (some m, ids) .ask = (some (m + 1), ids ++ [i]) := by simp [idStep, IdTable.next, hm, hi]
        rw [this]
        refine ⟨?_, fun j hj => ?_⟩
        · rw [List.nodup_append]
          refine ⟨h.nodup, by simp, fun a ha b hb hab => ?_⟩
          simp only [List.mem_cons, List.not_mem_nil, or_false] at hb
          subst hb
          subst hab
          obtain ⟨m', n, h1, h2, h3⟩ := h.below _ ha
          simp only [Option.some.injEq] at h1
          have := C70_canarie n (m + 1) (h3.trans hi.symm)
          omega
        · rcases List.mem_append.mp hj with hj | hj
          · obtain ⟨m', n, h1, h2, h3⟩ := h.below j hj
            simp only [Option.some.injEq] at h1
            exact ⟨m + 1, n, rfl, by omega, h3⟩
          · simp only [List.mem_cons, List.not_mem_nil, or_false] at hj
            subst hj
            exact ⟨m + 1, m + 1, rfl, Nat.le_refl _, hi⟩
      · have : idStep (some m, ids) .ask = (some m, ids) := by simp [idStep, IdTable.next, hm]
        rw [this]; exact h

theorem numbered_run (evs : List IdEv) : ∀ {s : IdTable × List Str}, Numbered s → Numbered (evs.foldl idStep s) := by
  induction evs with
  | nil => exact fun h => h
  | cons e evs ih => exact fun h => ih (numbered_step h e)

/-- **C70, Canarie, in the course of time.** However often the service is started, with whatever settings, no connection id is made twice. -/
theorem C70_never_twice (t : IdTable) (evs : List IdEv) : (evs.foldl idStep (t, [])).2.Nodup :=
  (numbered_run evs (s := (t, [])) ⟨by simp, fun i hi => by cases hi⟩).nodup

theorem idStep_row {m : Nat} {ids : List Str} (e : IdEv) : ∃ m' ids', idStep (some m, ids) e = (some m', ids') ∧ m ≤ m' := by
  cases e with
  | start n => exact ⟨m, ids, by cases n <;> rfl, Nat.le_refl _⟩
  | ask =>
    by_cases hm : m + 1 ≤ maxSerial
    · exact ⟨m + 1, ids ++ (canarieConnectionId (some (m + 1))).toList, by simp [idStep, IdTable.next, hm], by omega⟩
    · exact ⟨m, ids, by simp [idStep, IdTable.next, hm], Nat.le_refl _⟩

/-- **C70, Canarie: an id is made.** Once the service was started with `serviceid_start`, every request gets a number, above all settings that counted, until the
numbers of the column are used up. -/
theorem C70_made (n : Nat) (evs : List IdEv) : ∃ m ids, (IdEv.start (some n) :: evs).foldl idStep (none, []) = (some m, ids) ∧ n ≤ m ∧
    (m < maxSerial → ∃ i, canarieConnectionId (some (m + 1)) = some i ∧ idStep (some m, ids) .ask = (some (m + 1), ids ++ [i])) := by
  have run : ∀ (evs : List IdEv) (k : Nat) (ids : List Str), n ≤ k → ∃ m ids', evs.foldl idStep (some k, ids) = (some m, ids') ∧ n ≤ m := by
    intro evs
    induction evs with
    | nil => exact fun k ids hk => ⟨k, ids, rfl, hk⟩
    | cons e evs ih =>
      intro k ids hk
      obtain ⟨m', ids', h1, h2⟩ := idStep_row (m := k) (ids := ids) e
      simp only [List.foldl_cons, h1]
      exact ih m' ids' (Nat.le_trans hk h2)
  obtain ⟨m, ids, h1, h2⟩ := run evs n [] (Nat.le_refl n)
  refine ⟨m, ids, h1, h2, fun hm => ?_⟩
  obtain ⟨i, hi⟩ : ∃ i, canarieConnectionId (some (m + 1)) = some i := ⟨_, rfl⟩
  exact ⟨i, hi, by simp [idStep, IdTable.next, Nat.succ_le_of_lt hm, hi]⟩

/-- Without the setting there is no id; then two, the service is restarted with a lower number, one more. -/
example : ([.start none, .ask, .start (some 190000), .ask, .ask, .start (some 100), .ask].foldl idStep (none, [])) =
    (some 190003, ["19000CS1-ANA".toList, "19000CS2-ANA".toList, "19000CS3-ANA".toList]) := by decide +kernel

end OpenNSA.Plugin
