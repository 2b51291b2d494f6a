import Verif.Wire.Time
/-
Lemmas about dates, digits and dateutil's parser.
-/
namespace OpenNSA.Wire
open Py

/-! ### Calendar arithmetic -/

theorem monthDay_spec : ∀ l : Bool, ∀ r : Fin 366, (r.val < 365 ∨ l = true) →
    1 ≤ (monthDay l r.val).1 ∧ (monthDay l r.val).1 ≤ 12 ∧ 1 ≤ (monthDay l r.val).2 ∧ (monthDay l r.val).2 ≤ dim l (monthDay l r.val).1 ∧
      dbm l (monthDay l r.val).1 + ((monthDay l r.val).2 - 1) = r.val := by
  decide +kernel

theorem dby_split (a b c d : Nat) (hb : b ≤ 3) (hc : c ≤ 24) (hd : d ≤ 3) :
    dby (a * 400 + 1 + (b * 100 + c * 4 + d)) = a * 146097 + b * 36524 + c * 1461 + d * 365 := by
  unfold dby
  have e : a * 400 + 1 + (b * 100 + c * 4 + d) - 1 = a * 400 + b * 100 + c * 4 + d := by omega
  rw [e]
  have h4 : (a * 400 + b * 100 + c * 4 + d) / 4 = a * 100 + b * 25 + c := by omega
  have h100 : (a * 400 + b * 100 + c * 4 + d) / 100 = a * 4 + b := by omega
  have h400 : (a * 400 + b * 100 + c * 4 + d) / 400 = a := by omega
  rw [h4, h100, h400]
  omega

theorem leap_split (a b c d : Nat) (hb : b ≤ 3) (hc : c ≤ 24) (hd : d ≤ 3) :
    leap (a * 400 + 1 + (b * 100 + c * 4 + d)) = (decide (d = 3) && (decide (c ≠ 24) || decide (b = 3))) := by
  unfold leap
  have h4 : ((a * 400 + 1 + (b * 100 + c * 4 + d)) % 4 = 0) ↔ d = 3 := by omega
  by_cases h3 : d = 3
  · subst h3
    have h100 : ((a * 400 + 1 + (b * 100 + c * 4 + 3)) % 100 ≠ 0) ↔ c ≠ 24 := by omega
    have h400 : c = 24 → (((a * 400 + 1 + (b * 100 + c * 4 + 3)) % 400 = 0) ↔ b = 3) := by omega
    by_cases h24 : c = 24
    · have := h400 h24
      simp only [decide_eq_decide.2 h4, decide_eq_decide.2 h100, decide_eq_decide.2 this]
    · simp only [decide_eq_decide.2 h4, decide_eq_decide.2 h100]
      simp [h24]
  · simp only [decide_eq_decide.2 h4]
    simp [h3]

/-- Year, month and day of a day number are a date, and its day number is the one given. -/
theorem ymd_spec (n : Nat) (h : n < 3652059) :
    1 ≤ (ymd n).1 ∧ (ymd n).1 ≤ 9999 ∧ 1 ≤ (ymd n).2.1 ∧ (ymd n).2.1 ≤ 12 ∧ 1 ≤ (ymd n).2.2 ∧ (ymd n).2.2 ≤ dim (leap (ymd n).1) (ymd n).2.1 ∧
      dby (ymd n).1 + dbm (leap (ymd n).1) (ymd n).2.1 + ((ymd n).2.2 - 1) = n := by
  generalize ha : n / 146097 = a
  generalize hr : n % 146097 = r
  generalize hb : r / 36524 = b
  generalize hr2 : r % 36524 = r2
  generalize hc : r2 / 1461 = c
  generalize hr3 : r2 % 1461 = r3
  generalize hd : r3 / 365 = d
  generalize hr4 : r3 % 365 = r4
  have hn : n = a * 146097 + b * 36524 + c * 1461 + d * 365 + r4 := by omega
  have hr4' : r4 < 365 := by omega
  unfold ymd
  simp only [ha, hr, hb, hr2, hc, hr3, hd, hr4]
  by_cases hcase : d = 4 ∨ b = 4
  · rw [if_pos hcase]
    simp only
    have hb4 : b ≤ 4 := by omega
    have hc24 : c ≤ 24 := by omega
    have hd4 : d ≤ 4 := by omega
    by_cases hb : b = 4
    · -- the last day of a 400 year cycle
      subst hb
      have hc0 : c = 0 ∧ d = 0 ∧ r4 = 0 := by omega
      obtain ⟨rfl, rfl, rfl⟩ := hc0
      have e : a * 400 + 1 + (4 * 100 + 0 * 4 + 0) - 1 = a * 400 + 1 + (3 * 100 + 24 * 4 + 3) := by omega
      rw [e, leap_split a 3 24 3 (by omega) (by omega) (by omega), dby_split a 3 24 3 (by omega) (by omega) (by omega)]
      refine ⟨by omega, by omega, by omega, by omega, by omega, ?_, ?_⟩
      · decide
      · have : dbm (decide ((3 : Nat) = 3) && (decide ((24 : Nat) ≠ 24) || decide ((3 : Nat) = 3))) 12 = 335 := by decide
        rw [this]
        omega
    · -- the last day of a four year cycle
      have hd : d = 4 := by omega
      subst hd
      have hr0 : r4 = 0 := by omega
      subst hr0
      have e : a * 400 + 1 + (b * 100 + c * 4 + 4) - 1 = a * 400 + 1 + (b * 100 + c * 4 + 3) := by omega
      have hl : (decide ((3 : Nat) = 3) && (decide (c ≠ 24) || decide (b = 3))) = true := by
        have : c ≠ 24 ∨ b = 3 := by omega
        rcases this with h | h <;> simp [h]
      rw [e, leap_split a b c 3 (by omega) (by omega) (by omega), dby_split a b c 3 (by omega) (by omega) (by omega), hl]
      refine ⟨by omega, by omega, by omega, by omega, by omega, by decide, ?_⟩
      have : dbm true 12 = 335 := by decide
      rw [this]
      omega
  · rw [if_neg hcase]
    simp only
    have hb3 : b ≤ 3 := by omega
    have hc24 : c ≤ 24 := by omega
    have hd3 : d ≤ 3 := by omega
    rw [leap_split a b c d hb3 hc24 hd3, dby_split a b c d hb3 hc24 hd3]
    have := monthDay_spec (decide (d = 3) && (decide (c ≠ 24) || decide (b = 3))) ⟨r4, by omega⟩ (Or.inl hr4')
    simp only at this
    obtain ⟨h1, h2, h3, h4, h5⟩ := this
    exact ⟨by omega, by omega, h1, h2, h3, h4, by omega⟩

theorem ofInstant_valid {t : Int} (h0 : 0 ≤ t) (h1 : t < maxInstant) : (ofInstant t).valid := by
  unfold maxInstant at h1
  have hd : t.toNat / 86400000000 < 3652059 := by omega
  have := ymd_spec _ hd
  unfold DT.valid ofInstant
  simp only
  obtain ⟨a, b, c, d, e, f, _⟩ := this
  exact ⟨a, b, c, d, e, f, by omega, by omega, by omega, by omega⟩

/-- The fields of an instant stand for the instant. -/
theorem instant_ofInstant {t : Int} (h0 : 0 ≤ t) (h1 : t < maxInstant) : (ofInstant t).instant = t := by
  unfold maxInstant at h1
  have hd : t.toNat / 86400000000 < 3652059 := by omega
  have hs := (ymd_spec _ hd).2.2.2.2.2.2
  have hdays : (ofInstant t).days = t.toNat / 86400000000 := hs
  unfold DT.instant
  rw [hdays]
  unfold ofInstant
  simp only
  generalize hu : t.toNat % 86400000000 = u
  have : (((((t.toNat / 86400000000) * 24 + u / 3600000000) * 60 + u / 60000000 % 60) * 60 + u / 1000000 % 60) * 1000000 + u % 1000000 : Nat) = t.toNat := by
    omega
  rw [this]
  omega

theorem dbm_dim : ∀ l : Bool, ∀ m : Fin 13, 1 ≤ m.val → dbm l m.val + dim l m.val ≤ (if l then 366 else 365) ∧
    ∀ m' : Fin 13, m.val < m'.val → dbm l m.val + dim l m.val ≤ dbm l m'.val := by decide +kernel

theorem dby_succ (y y' : Nat) (h : 1 ≤ y) (h' : y < y') : dby y + (if leap y then 366 else 365) ≤ dby y' := by
  have hlt : ∀ y, 1 ≤ y → dby y + (if leap y then 366 else 365) = dby (y + 1) := by
    intro y hy
    unfold dby
    rw [show y + 1 - 1 = y by omega]
    generalize h4 : (y - 1) / 4 = q4
    generalize h100 : (y - 1) / 100 = q100
    generalize h400 : (y - 1) / 400 = q400
    have l100 : q100 ≤ y - 1 := by omega
    unfold leap
    by_cases c4 : y % 4 = 0
    · have e4 : y / 4 = q4 + 1 := by omega
      by_cases c100 : y % 100 = 0
      · have e100 : y / 100 = q100 + 1 := by omega
        by_cases c400 : y % 400 = 0
        · have e400 : y / 400 = q400 + 1 := by omega
          simp only [c4, c100, c400, e4, e100, e400]
          clear h4 h100 h400 c4 c100 c400 e4 e100 e400
          simp
          omega
        · have e400 : y / 400 = q400 := by omega
          simp only [c4, c100, c400, e4, e100, e400]
          clear h4 h100 h400 c4 c100 c400 e4 e100 e400
          simp
          omega
      · have e100 : y / 100 = q100 := by omega
        have c400 : y % 400 ≠ 0 := by omega
        have e400 : y / 400 = q400 := by omega
        have hc : (decide (y % 4 = 0) && (decide (y % 100 ≠ 0) || decide (y % 400 = 0))) = true := by simp [c4, c100]
        rw [hc, e4, e100, e400]
        clear h4 h100 h400 c4 c100 c400 e4 e100 e400
        simp
        omega
    · have e4 : y / 4 = q4 := by omega
      have e100 : y / 100 = q100 := by omega
      have e400 : y / 400 = q400 := by omega
      simp only [c4, e4, e100, e400]
      clear h4 h100 h400 c4 e4 e100 e400
      simp
      omega
  have hmono : ∀ k, dby (y + 1) ≤ dby (y + 1 + k) := by
    intro k
    induction k with
    | zero => exact Nat.le_refl _
    | succ k ih =>
      have := hlt (y + 1 + k) (by omega)
      have e : y + 1 + (k + 1) = y + 1 + k + 1 := by omega
      rw [e, ← this]
      omega
  have := hmono (y' - (y + 1))
  rw [show y + 1 + (y' - (y + 1)) = y' by omega] at this
  rw [hlt y h]
  exact this

/-- Different dates have different day numbers. -/
theorem days_inj {d e : DT} (hd : d.valid) (he : e.valid) (h : d.days = e.days) : d.year = e.year ∧ d.month = e.month ∧ d.day = e.day := by
  obtain ⟨a1, a2, a3, a4, a5, a6, _⟩ := hd
  obtain ⟨b1, b2, b3, b4, b5, b6, _⟩ := he
  unfold DT.days at h
  have ha := dbm_dim (leap d.year) ⟨d.month, by omega⟩ a3
  have hb := dbm_dim (leap e.year) ⟨e.month, by omega⟩ b3
  simp only at ha hb
  have hy : d.year = e.year := by
    rcases Nat.lt_trichotomy d.year e.year with hlt | heq | hgt
    · have := dby_succ _ _ a1 hlt
      have := ha.1
      omega
    · exact heq
    · have := dby_succ _ _ b1 hgt
      have := hb.1
      omega
  rw [hy] at h a6 ha
  have hm : d.month = e.month := by
    rcases Nat.lt_trichotomy d.month e.month with hlt | heq | hgt
    · have := ha.2 ⟨e.month, by omega⟩ hlt
      simp only at this
      omega
    · exact heq
    · have := hb.2 ⟨d.month, by omega⟩ hgt
      simp only at this
      omega
  refine ⟨hy, hm, ?_⟩
  rw [hm] at h
  omega

/-- Different times are different instants. -/
theorem instant_inj {d e : DT} (hd : d.valid) (he : e.valid) (h : d.instant = e.instant) : d = e := by
  have hd' := hd
  have he' := he
  obtain ⟨_, _, _, _, _, _, a1, a2, a3, a4⟩ := hd
  obtain ⟨_, _, _, _, _, _, b1, b2, b3, b4⟩ := he
  unfold DT.instant at h
  have hdays : d.days = e.days := by omega
  obtain ⟨hy, hm, hday⟩ := days_inj hd' he' hdays
  cases d; cases e
  simp only at *
  subst hy hm hday
  simp only [DT.mk.injEq, true_and]
  omega

theorem instant_range {d : DT} (hd : d.valid) : 0 ≤ d.instant ∧ d.instant < maxInstant := by
  obtain ⟨a1, a2, a3, a4, a5, a6, h1, h2, h3, h4⟩ := hd
  unfold DT.instant maxInstant
  have ha := (dbm_dim (leap d.year) ⟨d.month, by omega⟩ a3).1
  have hy := dby_succ d.year 10000 a1 (by omega)
  have h10 : dby 10000 = 3652059 := by decide
  simp only at ha
  have : d.days < 3652059 := by unfold DT.days; omega
  omega

/-! ### Digits -/

/-- The number a list of digits stands for. -/
def dval (ds : List Nat) : Nat := ds.foldl (fun a d => a * 10 + d) 0

theorem readDigits_digits (ds : List Nat) (h : ∀ d ∈ ds, d < 10) (acc : Nat) (b : Bool) (hb : b = true ∨ ds ≠ []) :
    readDigits acc b (ds.map digitChar) = some (ds.foldl (fun a d => a * 10 + d) acc) := by
  induction ds generalizing acc b with
  | nil =>
    rcases hb with rfl | hb
    · rfl
    · exact absurd rfl hb
  | cons d ds ih =>
    simp only [List.map_cons, readDigits, digitVal_digitChar (h d List.mem_cons_self), List.foldl_cons]
    exact ih (fun x hx => h x (List.mem_cons_of_mem _ hx)) _ _ (Or.inl rfl)

theorem pyInt_digits (ds : List Nat) (h : ∀ d ∈ ds, d < 10) (hne : ds ≠ []) : pyInt (ds.map digitChar) = some (dval ds : Int) := by
  have hsp : ∀ c ∈ ds.map digitChar, isSpace c = false := by
    intro c hc
    obtain ⟨d, hd, rfl⟩ := List.mem_map.1 hc
    exact digitChar_not_space (h d hd)
  unfold pyInt
  rw [strip_of_no_space _ hsp]
  cases ds with
  | nil => exact absurd rfl hne
  | cons d ds =>
    have hn := digitChar_ne (h d List.mem_cons_self)
    have hr := readDigits_digits (d :: ds) h 0 false (Or.inr hne)
    simp only [List.map_cons] at hr ⊢
    simp [hn.1, hn.2.1, hr, dval]

theorem pad2 (n : Nat) : pad 2 n = [digitChar (n / 10 % 10), digitChar (n % 10)] := rfl
theorem pad4 (n : Nat) : pad 4 n = [digitChar (n / 10 / 10 / 10 % 10), digitChar (n / 10 / 10 % 10), digitChar (n / 10 % 10), digitChar (n % 10)] := rfl

theorem pyInt_pad2 {n : Nat} (h : n < 100) : pyInt [digitChar (n / 10 % 10), digitChar (n % 10)] = some (n : Int) := by
  have := pyInt_digits [n / 10 % 10, n % 10] (by intro d hd; simp at hd; omega) (by simp)
  simp only [List.map_cons, List.map_nil] at this
  rw [this]
  simp only [dval, List.foldl_cons, List.foldl_nil, Option.some.injEq]
  omega

theorem pyInt_pad4 {n : Nat} (h : n < 10000) :
    pyInt [digitChar (n / 10 / 10 / 10 % 10), digitChar (n / 10 / 10 % 10), digitChar (n / 10 % 10), digitChar (n % 10)] = some (n : Int) := by
  have := pyInt_digits [n / 10 / 10 / 10 % 10, n / 10 / 10 % 10, n / 10 % 10, n % 10] (by intro d hd; simp at hd; omega) (by simp)
  simp only [List.map_cons, List.map_nil] at this
  rw [this]
  simp only [dval, List.foldl_cons, List.foldl_nil, Option.some.injEq]
  omega

theorem digitChar_ne_letters {d : Nat} (h : d < 10) : digitChar d ≠ 'Z' ∧ digitChar d ≠ 'z' ∧ digitChar d ≠ '.' ∧ (digitChar d).toNat < 128 := by
  have : d = 0 ∨ d = 1 ∨ d = 2 ∨ d = 3 ∨ d = 4 ∨ d = 5 ∨ d = 6 ∨ d = 7 ∨ d = 8 ∨ d = 9 := by omega
  rcases this with h | h | h | h | h | h | h | h | h | h <;> subst h <;> decide

end OpenNSA.Wire
