import Verif.Calendar.Lemmas
/-
C09-C11: the reservation calendar.
-/
namespace OpenNSA

/-! ### C09 -/

/-- A history: operations with the clock reading at each. -/
abbrev CalHist := List (Time × CalOp)

/-- Clock readings never decrease (starting from `t`) and stay below year 9999. -/
def ClockOk : Time → CalHist → Prop
  | _, [] => True
  | t, (now, _) :: rest => t ≤ now ∧ now < forever ∧ ClockOk now rest

/-- The calendar after a history. -/
def calRun (c : Cal) : CalHist → Cal
  | [] => c
  | (now, op) :: rest => calRun (c.step now op) rest

/-- Bookkeeping that runs beside the calendar and remembers when each reservation was made. -/
def bookRun (b : List Booked) (c : Cal) : CalHist → List Booked
  | [] => b
  | (now, op) :: rest =>
    let b' := match op with
      | .checkAdd r => match c.check now r with | .ok _ => b ++ [⟨r, now⟩] | .error _ => b
      | .remove r => b.eraseP fun x => decide (x.resv = r)
    bookRun b' (c.step now op) rest

theorem erase_map_resv (b : List Booked) (r : Resv) :
    (b.eraseP fun x => decide (x.resv = r)).map (·.resv) = (b.map (·.resv)).erase r := by
  induction b with
  | nil => simp
  | cons x xs ih =>
    by_cases h : x.resv = r
    · simp [h]
    · simp [h, ih]

/-- The bookkeeping describes exactly the calendar's content. -/
theorem C09_book_matches (h : CalHist) : ∀ (b : List Booked) (c : Cal), b.map (·.resv) = c →
    (bookRun b c h).map (·.resv) = calRun c h := by
  induction h with
  | nil => intro b c hb; exact hb
  | cons x xs ih =>
    intro b c hb
    obtain ⟨now, op⟩ := x
    simp only [bookRun, calRun]
    apply ih
    cases op with
    | checkAdd r =>
      simp only [Cal.step]
      rcases c.check now r with e | u
      · exact hb
      · simp [Cal.add, hb]
    | remove r =>
      simp only [Cal.step, Cal.remove]
      rw [erase_map_resv, hb]
      by_cases hm : r ∈ c
      · simp [hm]
      · simp [hm, List.erase_of_not_mem hm]

/-- Start times of stored reservations are not after 2095. -/
def Booked.startOk (b : Booked) : Prop := ∀ s, b.resv.start = some s → s ≤ year2095

theorem no_clash_of_check {b : Booked} {c : Cal} {now : Time} {r : Resv} (hb : b.startOk) (hnow : now < forever)
    (hm : b.resv ∈ c) (hc : c.check now r = .ok ()) : ¬ b.Clash ⟨r, now⟩ := by
  rintro ⟨hres, t, h1, h2⟩
  obtain ⟨hsane, hloop⟩ := check_ok.mp hc
  have ho := checkLoop_ok.mp hloop b.resv hm hres
  obtain ⟨p1, p2, p3⟩ := resourceOverlap_false.mp ho
  obtain ⟨⟨res1, s1, e1⟩, a1⟩ := b
  obtain ⟨res2, s2, e2⟩ := r
  simp only [Booked.Occupies] at h1 h2
  have y := year2095_lt_forever
  have hs2 := hsane.2
  simp only [Booked.startOk] at hb
  simp only at hs2 hres p1 p2 p3
  cases s1 <;> cases e1 <;> cases s2 <;> cases e2 <;> simp only [Option.getD_none, Option.getD_some, reduceCtorEq,
    false_implies, implies_true, and_true, Option.some.injEq, forall_eq'] at * <;> omega

/-- C09. In every history of check-then-add and remove operations with a non-decreasing clock, starting from an
empty calendar, no two stored reservations of the same resource have a common instant. -/
theorem C09_no_overlap (t0 : Time) (h : CalHist) (hclk : ClockOk t0 h) :
    (bookRun [] [] h).Pairwise fun a b => ¬ a.Clash b := by
  have key : ∀ (h : CalHist) (b : List Booked) (c : Cal) (t : Time), ClockOk t h → b.map (·.resv) = c →
      (∀ x ∈ b, x.startOk) → (b.Pairwise fun a b => ¬ a.Clash b) → ((bookRun b c h).Pairwise fun a b => ¬ a.Clash b) := by
    intro h
    induction h with
    | nil => intro b c t _ _ _ hp; exact hp
    | cons x xs ih =>
      intro b c t hclk hb hso hp
      obtain ⟨now, op⟩ := x
      obtain ⟨_, hnow, hclk'⟩ := hclk
      have hmatch := C09_book_matches [(now, op)] b c hb
      simp only [bookRun, calRun] at hmatch
      simp only [bookRun]
      apply ih _ _ _ hclk' hmatch
      · cases op with
        | checkAdd r =>
          simp only
          rcases hc : c.check now r with e | u
          · exact hso
          · intro x hx
            rcases List.mem_append.mp hx with hx | hx
            · exact hso x hx
            · simp at hx; subst hx
              intro s hs
              exact ((check_ok.mp hc).1.2 s hs).2
        | remove r => intro x hx; exact hso x (List.mem_of_mem_eraseP hx)
      · cases op with
        | checkAdd r =>
          simp only
          rcases hc : c.check now r with e | u
          · exact hp
          · rw [List.pairwise_append]
            refine ⟨hp, by simp, ?_⟩
            intro a ha b' hb'
            simp at hb'; subst hb'
            exact no_clash_of_check (hso a ha) hnow (by rw [← hb]; exact List.mem_map.mpr ⟨a, ha, rfl⟩) hc
        | remove r => exact hp.sublist List.eraseP_sublist
  exact key h [] [] t0 hclk rfl (by simp) (by simp)

/-- A reservation with open start is refused while a stored one covers now, and accepted after its removal. -/
example : calRun [] [(10, .checkAdd ⟨['p'], none, some 50⟩), (20, .checkAdd ⟨['p'], some 30, none⟩),
      (60, .checkAdd ⟨['q'], none, none⟩), (61, .remove ⟨['p'], none, some 50⟩), (62, .checkAdd ⟨['p'], some 70, none⟩)]
    = [⟨['q'], none, none⟩, ⟨['p'], some 70, none⟩] := by decide

/-! ### C10 -/

/-- Two proper reservations seen from `now` share an instant exactly when the code's comparison says so. -/
theorem overlap_iff_share {now : Time} {a r : Resv} (ha : a.Proper now) (hr : r.Proper now) :
    (a.start.getD now ≤ r.end_.getD forever ∧ r.start.getD now ≤ a.end_.getD forever) ↔
      ∃ t, a.OccupiesAt now t ∧ r.OccupiesAt now t := by
  obtain ⟨res1, s1, e1⟩ := a
  obtain ⟨res2, s2, e2⟩ := r
  obtain ⟨h1, h2⟩ := ha
  obtain ⟨h3, h4⟩ := hr
  simp only [Resv.OccupiesAt]
  simp only at h1 h2 h3 h4
  constructor
  · rintro ⟨h5, h6⟩
    refine ⟨max (s1.getD now) (s2.getD now), ⟨by omega, ?_⟩, ⟨by omega, ?_⟩⟩
    · intro e he; subst he; have := h1 e rfl; simp at h6; omega
    · intro e he; subst he; have := h3 e rfl; simp at h5; omega
  · rintro ⟨t, ⟨h5, h6⟩, ⟨h7, h8⟩⟩
    constructor
    · cases e2 with
      | none => simp; omega
      | some e => have := h8 e rfl; simp; omega
    · cases e1 with
      | none => simp; omega
      | some e => have := h6 e rfl; simp; omega

/-- C10. For a calendar whose reservations are proper (positive length, not expired) and a request of positive
length: the check succeeds exactly when the times are sane and no stored reservation of the same resource shares
an instant with the request; insane times give the payload error, otherwise the error is 'unavailable'. -/
theorem C10_check_exact (c : Cal) (now : Time) (r : Resv) (hc : ∀ x ∈ c, x.Proper now) (hr : r.Proper now) :
    (c.check now r = .ok () ↔
      r.Sane now ∧ ∀ x ∈ c, x.resource = r.resource → ¬ ∃ t, x.OccupiesAt now t ∧ r.OccupiesAt now t)
    ∧ (∀ e, c.check now r = .error e → (¬ r.Sane now ∧ e = .payload) ∨ (r.Sane now ∧ e = .unavailable)) := by
  have proper_lt : ∀ x : Resv, x.Proper now → x.start.getD now < x.end_.getD forever := by
    intro x hx
    cases he : x.end_ with
    | none => simpa using hx.2
    | some e => simpa using hx.1 e he
  constructor
  · rw [check_ok, checkLoop_ok]
    apply and_congr_right
    intro _
    constructor
    · intro h x hx hres hshare
      have := h x hx hres
      rw [resourceOverlap_proper (proper_lt x (hc x hx)) (proper_lt r hr)] at this
      simp only [Except.ok.injEq, decide_eq_false_iff_not] at this
      exact this ((overlap_iff_share (hc x hx) hr).mpr hshare)
    · intro h x hx hres
      rw [resourceOverlap_proper (proper_lt x (hc x hx)) (proper_lt r hr)]
      simp only [Except.ok.injEq, decide_eq_false_iff_not]
      exact fun ho => h x hx hres ((overlap_iff_share (hc x hx) hr).mp ho)
  · intro e he
    by_cases hs : r.Sane now
    · right
      refine ⟨hs, ?_⟩
      rw [check_sane_eq hs] at he
      clear hs
      induction c with
      | nil => simp [checkLoop] at he
      | cons x xs ih =>
        unfold checkLoop at he
        split at he
        · rw [resourceOverlap_proper (proper_lt x (hc x (by simp))) (proper_lt r hr)] at he
          split at he
          · rename_i h; simp at h
          · simp at he; exact he.symm
          · exact ih (fun y hy => hc y (by simp [hy])) he
        · exact ih (fun y hy => hc y (by simp [hy])) he
    · left
      rw [check_insane hs] at he
      simp at he
      exact ⟨hs, he.symm⟩

/-- C10. Reservations of other resources never matter: the answer is that of the calendar restricted to the
requested resource. -/
theorem C10_other_resources (c : Cal) (now : Time) (r : Resv) :
    c.check now r = Cal.check (c.filter fun x => decide (x.resource = r.resource)) now r := by
  have : ∀ (res : Str) (s e : Option Time) (c : Cal),
      checkLoop now res s e c = checkLoop now res s e (c.filter fun x => decide (x.resource = res)) := by
    intro res s e c
    induction c with
    | nil => rfl
    | cons x xs ih =>
      by_cases h : res = x.resource
      · rw [List.filter_cons_of_pos (by simp [h])]
        unfold checkLoop
        rw [if_pos h, if_pos h]
        split <;> first | rfl | exact ih
      · rw [List.filter_cons_of_neg (by simp; exact fun e => h e.symm)]
        rw [← ih]
        rw [checkLoop, if_neg h]
  by_cases hs : r.Sane now
  · rw [check_sane_eq hs, check_sane_eq hs, this]
  · rw [check_insane hs, check_insane hs]

/-- Limit of C10: once a zero-length or expired reservation is stored, every sane request for that resource fails
with an assertion error, whatever its times. -/
theorem C10_degenerate_blocks (c : Cal) (now : Time) (x r : Resv) (hx : x.start.getD now ≥ x.end_.getD forever)
    (hs : r.Sane now) (hres : x.resource = r.resource) : Cal.check (x :: c) now r = .error .assertion := by
  rw [check_sane_eq hs]
  unfold checkLoop
  rw [if_pos hres.symm]
  unfold resourceOverlap
  simp only
  rw [if_pos (by omega)]

/-- ... and a zero-length reservation does get stored. -/
example : Cal.check [] 10 ⟨['p'], some 20, some 20⟩ = .ok () := by decide

example : Resv.Proper 10 ⟨['p'], some 20, some 40⟩ ∧ Resv.Proper 10 ⟨['p'], none, none⟩ := by
  refine ⟨⟨?_, by decide⟩, ⟨?_, by decide⟩⟩
  · intro e h; simp at h; subst h; decide
  · simp

example : Cal.check [⟨['p'], some 20, some 40⟩] 10 ⟨['p'], some 40, some 50⟩ = .error .unavailable
    ∧ Cal.check [⟨['p'], some 20, some 40⟩] 10 ⟨['p'], some 41, some 50⟩ = .ok () := by decide

/-! ### C11 -/

/-- The verdict of a check depends only on which reservations are stored. -/
theorem check_verdict_mem {c d : Cal} (h : ∀ x, x ∈ c ↔ x ∈ d) (now : Time) (r : Resv) :
    c.check now r = .ok () ↔ d.check now r = .ok () := by
  rw [check_ok, check_ok, checkLoop_ok, checkLoop_ok]
  apply and_congr_right
  intro _
  constructor
  · intro hh x hx; exact hh x ((h x).mpr hx)
  · intro hh x hx; exact hh x ((h x).mp hx)

/-- C11. Adding `r`, then adding any others, then removing `r` succeeds and leaves (up to order) the content that
adding only the others gives; every later availability check has the same verdict. -/
theorem C11_remove_undoes_add (c : Cal) (r : Resv) (others : List Resv) :
    ∃ c', Cal.remove (others.foldl Cal.add (c.add r)) r = .ok c' ∧ c'.Perm (others.foldl Cal.add c) ∧
      ∀ now q, c'.check now q = .ok () ↔ Cal.check (others.foldl Cal.add c) now q = .ok () := by
  have hadd : ∀ (o : List Resv) (c : Cal), o.foldl Cal.add c = c ++ o := by
    intro o
    induction o with
    | nil => simp
    | cons x xs ih => intro c; simp [ih, Cal.add]
  rw [hadd, hadd]
  have hm : r ∈ c.add r ++ others := by simp [Cal.add]
  have hperm : ((c.add r ++ others).erase r).Perm (c ++ others) := by
    have h1 : (c.add r ++ others).Perm (r :: (c ++ others)) := by
      simp only [Cal.add, List.append_assoc, List.cons_append, List.nil_append]
      exact List.perm_middle
    exact (h1.erase r).trans (by simp)
  exact ⟨_, by simp [Cal.remove, hm], hperm, fun now q => check_verdict_mem (fun x => hperm.mem_iff) now q⟩

/-- C11. Removing undoes exactly one addition: every other reservation keeps its multiplicity. -/
theorem C11_remove_one (c c' : Cal) (r : Resv) (h : c.remove r = .ok c') :
    c'.count r + 1 = c.count r ∧ ∀ x, x ≠ r → c'.count x = c.count x := by
  unfold Cal.remove at h
  split at h
  · rename_i hm
    simp at h; subst h
    refine ⟨?_, fun x hx => List.count_erase_of_ne hx⟩
    rw [List.count_erase_self]
    have := List.count_pos_iff.mpr hm
    omega
  · simp at h

/-- C11. Removing something that is not there fails and changes nothing. -/
theorem C11_remove_absent (c : Cal) (r : Resv) (now : Time) (h : r ∉ c) :
    c.remove r = .error .value ∧ c.step now (.remove r) = c := by
  simp [Cal.remove, Cal.step, h]

example : Cal.remove [⟨['q'], none, none⟩, ⟨['p'], some 20, some 40⟩, ⟨['p'], some 50, none⟩] ⟨['p'], some 20, some 40⟩
    = .ok [⟨['q'], none, none⟩, ⟨['p'], some 50, none⟩] := by decide

end OpenNSA
