import Verif.Http.Model
import Verif.Wire.TimeLemmas
/-
C51 (access list of hosts) and C52 (conditional requests for documents).
-/
namespace OpenNSA.Http
open Py OpenNSA.Wire

/-! ### C52: dates survive the way to the client and back -/

theorem lit_append (p s : Str) : lit p (p ++ s) = some s := by simp [lit]

theorem oneOf_day : ∀ i : Fin 7, ∀ r : Str, oneOf dayNames 0 (dayNames.getD i.val [] ++ r) = some (i.val, r) := by
  intro i r
  match i with
  | ⟨0, _⟩ => simp [dayNames, oneOf, lit]
  | ⟨1, _⟩ => simp [dayNames, oneOf, lit]
  | ⟨2, _⟩ => simp [dayNames, oneOf, lit]
  | ⟨3, _⟩ => simp [dayNames, oneOf, lit]
  | ⟨4, _⟩ => simp [dayNames, oneOf, lit]
  | ⟨5, _⟩ => simp [dayNames, oneOf, lit]
  | ⟨6, _⟩ => simp [dayNames, oneOf, lit]

theorem oneOf_month : ∀ i : Fin 12, ∀ r : Str, oneOf monthNames 1 (monthNames.getD i.val [] ++ r) = some (i.val + 1, r) := by
  intro i r
  match i with
  | ⟨0, _⟩ => simp [monthNames, oneOf, lit]
  | ⟨1, _⟩ => simp [monthNames, oneOf, lit]
  | ⟨2, _⟩ => simp [monthNames, oneOf, lit]
  | ⟨3, _⟩ => simp [monthNames, oneOf, lit]
  | ⟨4, _⟩ => simp [monthNames, oneOf, lit]
  | ⟨5, _⟩ => simp [monthNames, oneOf, lit]
  | ⟨6, _⟩ => simp [monthNames, oneOf, lit]
  | ⟨7, _⟩ => simp [monthNames, oneOf, lit]
  | ⟨8, _⟩ => simp [monthNames, oneOf, lit]
  | ⟨9, _⟩ => simp [monthNames, oneOf, lit]
  | ⟨10, _⟩ => simp [monthNames, oneOf, lit]
  | ⟨11, _⟩ => simp [monthNames, oneOf, lit]

theorem num2_pad (lo hi n : Nat) (hlo : lo ≤ n) (hhi : n ≤ hi) (h : n < 100) (r : Str) : num2 lo hi (pad 2 n ++ r) = some (n, r) := by
  have e : n / 10 % 10 * 10 + n % 10 = n := by omega
  simp [pad2, num2, digitVal_digitChar (show n / 10 % 10 < 10 by omega), digitVal_digitChar (show n % 10 < 10 by omega), e, hlo, hhi]

theorem num4_pad (n : Nat) (h : n < 10000) (r : Str) : num4 (pad 4 n ++ r) = some (n, r) := by
  have e : n / 10 / 10 / 10 % 10 * 1000 + n / 10 / 10 % 10 * 100 + n / 10 % 10 * 10 + n % 10 = n := by omega
  simp only [pad4, num4, List.cons_append, List.nil_append, digitVal_digitChar (show n / 10 / 10 / 10 % 10 < 10 by omega),
    digitVal_digitChar (show n / 10 / 10 % 10 < 10 by omega), digitVal_digitChar (show n / 10 % 10 < 10 by omega),
    digitVal_digitChar (show n % 10 < 10 by omega), e]

/-- A space before something that does not begin with white space. -/
theorem spaces_one (c : Char) (r : Str) (h : isSpace c = false) : spaces (' ' :: c :: r) = some (c :: r) := by
  have : isSpace ' ' = true := rfl
  simp [spaces, this, List.dropWhile, h]

theorem pad_head (w n : Nat) : ∃ c r, pad (w + 1) n = c :: r ∧ isSpace c = false := by
  have hd : ∀ w n, ∀ x ∈ digs w n, x < 10 := by
    intro w
    induction w with
    | zero => intro n x hx; simp [digs] at hx
    | succ w ih =>
      intro n x hx
      simp only [digs, List.mem_append, List.mem_singleton] at hx
      rcases hx with hx | rfl
      · exact ih _ x hx
      · omega
  have hl : digs (w + 1) n ≠ [] := by simp [digs]
  cases hg : digs (w + 1) n with
  | nil => exact absurd hg hl
  | cons x xs =>
    refine ⟨digitChar x, xs.map digitChar, by simp [pad, hg], ?_⟩
    exact digitChar_not_space (hd (w + 1) n x (by simp [hg]))

theorem spaces_pad (w n : Nat) (r : Str) : spaces (' ' :: (pad (w + 1) n ++ r)) = some (pad (w + 1) n ++ r) := by
  obtain ⟨c, q, hc, hs⟩ := pad_head w n
  rw [hc, List.cons_append, spaces_one c _ hs]

theorem month_head (i : Nat) (h : i < 12) : ∃ c r, monthNames.getD i [] = c :: r ∧ isSpace c = false := by
  have : ∀ j : Fin 12, ∃ c r, monthNames.getD j.val [] = c :: r ∧ isSpace c = false := by
    intro j
    match j with
    | ⟨0, _⟩ => exact ⟨_, _, rfl, rfl⟩
    | ⟨1, _⟩ => exact ⟨_, _, rfl, rfl⟩
    | ⟨2, _⟩ => exact ⟨_, _, rfl, rfl⟩
    | ⟨3, _⟩ => exact ⟨_, _, rfl, rfl⟩
    | ⟨4, _⟩ => exact ⟨_, _, rfl, rfl⟩
    | ⟨5, _⟩ => exact ⟨_, _, rfl, rfl⟩
    | ⟨6, _⟩ => exact ⟨_, _, rfl, rfl⟩
    | ⟨7, _⟩ => exact ⟨_, _, rfl, rfl⟩
    | ⟨8, _⟩ => exact ⟨_, _, rfl, rfl⟩
    | ⟨9, _⟩ => exact ⟨_, _, rfl, rfl⟩
    | ⟨10, _⟩ => exact ⟨_, _, rfl, rfl⟩
    | ⟨11, _⟩ => exact ⟨_, _, rfl, rfl⟩
  exact this ⟨i, h⟩

theorem strptime_httpDate (d : DT) (h : d.valid) : strptime (httpDate d) = some { d with micro := 0 }.instant := by
  have hv := h
  obtain ⟨y1, y2, m1, m2, d1, d2, h1, h2, h3, h4⟩ := h
  have hdim : d.day ≤ 31 := by
    have : ∀ l : Bool, ∀ m : Fin 13, dim l m.val ≤ 31 := by decide
    have := this (leap d.year) ⟨d.month, by omega⟩
    simp only at this
    omega
  have e1 : ", ".toList = [',', ' '] := rfl
  have e2 : " GMT".toList = ' ' :: "GMT".toList := rfl
  have hm1 : d.month - 1 + 1 = d.month := by omega
  obtain ⟨mc, mr, hmc, hms⟩ := month_head (d.month - 1) (by omega)
  have hmon : ∀ r, spaces (' ' :: (monthNames.getD (d.month - 1) [] ++ r)) = some (monthNames.getD (d.month - 1) [] ++ r) := by
    intro r
    rw [hmc, List.cons_append, spaces_one mc _ hms]
  have hdays := oneOf_day ⟨d.days % 7, Nat.mod_lt _ (by decide)⟩
  have hmonth := oneOf_month ⟨d.month - 1, by omega⟩
  have hcom : ∀ r, lit [','] (',' :: r) = some r := fun r => lit_append [','] r
  have hcol : ∀ r, lit [':'] (':' :: r) = some r := fun r => lit_append [':'] r
  have hg : spaces (' ' :: "GMT".toList) = some "GMT".toList := rfl
  have hgl : lit "GMT".toList "GMT".toList = some [] := rfl
  simp only at hdays hmonth
  have hv' : ({ d with micro := 0 } : DT).valid := ⟨y1, y2, m1, m2, d1, d2, h1, h2, h3, show 0 < 1000000 by decide⟩
  unfold strptime httpDate
  rw [List.append_assoc, hdays, e1, e2]
  simp only [Option.bind_eq_bind, Option.bind_some, List.cons_append, List.nil_append, hcom, spaces_pad 1, num2_pad 1 31 d.day d1 hdim (by omega), hmon, hmonth,
    spaces_pad 3, num4_pad d.year (by omega), num2_pad 0 23 d.hour (Nat.zero_le _) (by omega) (by omega), hcol,
    num2_pad 0 59 d.minute (Nat.zero_le _) (by omega) (by omega), num2_pad 0 61 d.second (Nat.zero_le _) (by omega) (by omega), hg, hgl, if_true, hm1]
  rw [if_pos hv']

theorem wholeSeconds_ofInstant {t : Int} (h0 : 0 ≤ t) (h1 : t < maxInstant) :
    wholeSeconds t = ({ ofInstant t with micro := 0 } : DT).instant := by
  have h := instant_ofInstant h0 h1
  have hm := (ofInstant_valid h0 h1).2.2.2.2.2.2.2.2.2
  unfold DT.instant DT.days at *
  unfold wholeSeconds
  simp only at *
  generalize (((dby (ofInstant t).year + dbm (leap (ofInstant t).year) (ofInstant t).month + ((ofInstant t).day - 1)) * 24 + (ofInstant t).hour) * 60 + (ofInstant t).minute) * 60 + (ofInstant t).second = a at *
  omega

/-- What `strftime` writes, `strptime` reads. -/
theorem strptime_roundtrip {t : Int} (h0 : 0 ≤ t) (h1 : t < maxInstant) : strptime (httpDate (ofInstant t)) = some (wholeSeconds t) := by
  rw [strptime_httpDate _ (ofInstant_valid h0 h1), wholeSeconds_ofInstant h0 h1]

theorem httpDate_ne_nil (d : DT) : httpDate d ≠ [] := by
  have : ", ".toList = [',', ' '] := rfl
  simp [httpDate, this]

/-! ### C52: histories -/

/-- A history of `updateResource(document)` — nobody in the program passes a time (discovery/service.py:76, setup.py:333,
topology/service.py:30): each update with the time of the system clock. -/
def Res.run (r : Res) (ups : List (Option Str × Int)) : Res := ups.foldl (fun r u => r.update u.1 none u.2) r

/-- The current document after a history: the last that was set. -/
def current (ups : List (Option Str × Int)) : Option Str := (ups.getLast?).bind (·.1)

theorem run_append (r : Res) (ups : List (Option Str × Int)) (u : Option Str × Int) : r.run (ups ++ [u]) = (r.run ups).update u.1 none u.2 := by
  simp [Res.run]

theorem run_last (mime : Option Str) (t0 : Int) (ups : List (Option Str × Int)) :
    ((Res.new mime t0).run ups).representation = current ups ∧
    ((Res.new mime t0).run ups).lastUpdate = wholeSeconds (((ups.getLast?).map (·.2)).getD t0) ∧
    ((Res.new mime t0).run ups).lastModified = httpDate (ofInstant (wholeSeconds (((ups.getLast?).map (·.2)).getD t0))) ∧
    ((Res.new mime t0).run ups).mime = mime := by
  rcases List.eq_nil_or_concat ups with rfl | ⟨l, u, rfl⟩
  · exact ⟨rfl, rfl, rfl, rfl⟩
  · have hm : ∀ (l : List (Option Str × Int)) (r : Res), (r.run l).mime = r.mime := by
      intro l
      induction l with
      | nil => intro r; rfl
      | cons x xs ih => intro r; show ((r.update x.1 none x.2).run xs).mime = _; rw [ih]; rfl
    simp only [List.concat_eq_append, run_append, current, List.getLast?_append, List.getLast?_singleton, Option.some_or, Option.map_some,
      Option.getD_some, Option.bind_some]
    refine ⟨rfl, rfl, rfl, ?_⟩
    show ((Res.new mime t0).run l).mime = mime
    rw [hm]
    rfl

/-- **C52.** Whatever was published before and whatever `strptime` makes of a header: if a request is answered "not modified", then — on
a clock that does not run backwards — no document was set in a second after the client's timestamp. (Not: no document was set after
it, see `C52_same_second_fails`.) -/
theorem C52_not_hidden (parse : Str → Option Int) (mime : Option Str) (t0 : Int) (ups : List (Option Str × Int)) (h : Str) (msd : Int)
    (hclock : ups.Pairwise fun a b => a.2 ≤ b.2) (hp : parse h = some msd)
    (h304 : (((Res.new mime t0).run ups).get parse (some h)).code = 304) : ∀ u ∈ ups, u.2 < msd + 1000000 := by
  obtain ⟨hr, hu, _, _⟩ := run_last mime t0 ups
  have hlast : ((Res.new mime t0).run ups).lastUpdate ≤ msd := by
    unfold Res.get at h304
    split at h304
    · simp at h304
    · simp only at h304
      split at h304
      · simp [Res.full] at h304
      · rw [hp] at h304
        simp only at h304
        split at h304
        · assumption
        · simp [Res.full] at h304
  intro u hmem
  rcases List.eq_nil_or_concat ups with rfl | ⟨l, v, rfl⟩
  · simp at hmem
  · simp only [List.concat_eq_append] at *
    rw [hu] at hlast
    simp only [List.getLast?_append, List.getLast?_singleton, Option.some_or, Option.map_some, Option.getD_some, wholeSeconds] at hlast
    have hle : u.2 ≤ v.2 := by
      rcases List.mem_append.1 hmem with hm | hm
      · exact (List.pairwise_append.1 hclock).2.2 u hm v (by simp)
      · simp only [List.mem_singleton] at hm
        subst hm
        exact Int.le_refl _
    omega

/-- **C52.** An answer with a document has the last one that was set, and its time; before the first document, and only when
there is none, the answer is an error. -/
theorem C52_current (parse : Str → Option Int) (mime : Option Str) (t0 : Int) (ups : List (Option Str × Int)) (h : Option Str) :
    let a := ((Res.new mime t0).run ups).get parse h
    (a.code = 500 ↔ current ups = none) ∧ (a.code = 500 ∨ a.code = 304 ∨ a.code = 200) ∧
    (a.code = 200 → current ups = some a.body ∧ a.lastModified = some (httpDate (ofInstant (wholeSeconds (((ups.getLast?).map (·.2)).getD t0))))) ∧
    (h = none → a.code ≠ 304) := by
  obtain ⟨hr, hu, hl, _⟩ := run_last mime t0 ups
  intro a
  show (((((Res.new mime t0).run ups).get parse h).code = 500 ↔ _) ∧ _ ∧ _ ∧ _)
  unfold Res.get
  rw [hr]
  cases hc : current ups with
  | none =>
    have ha : a = { code := 500, lastModified := none, contentType := none, body := notYet } := by
      show ((Res.new mime t0).run ups).get parse h = _
      unfold Res.get
      rw [hr, hc]
    simp [ha]
  | some rep =>
    have ha : a = ((Res.new mime t0).run ups).full rep ∨ (a.code = 304 ∧ h ≠ none) := by
      show ((Res.new mime t0).run ups).get parse h = _ ∨ ((((Res.new mime t0).run ups).get parse h).code = 304 ∧ _)
      unfold Res.get
      rw [hr, hc]
      cases h with
      | none => exact Or.inl rfl
      | some h =>
        simp only
        split
        · exact Or.inl rfl
        · cases parse h with
          | none => exact Or.inl rfl
          | some msd =>
            simp only
            split
            · exact Or.inr ⟨rfl, by simp⟩
            · exact Or.inl rfl
    have hcode : a.code = (((Res.new mime t0).run ups).get parse h).code := rfl
    unfold Res.get at hcode
    rw [hr, hc] at hcode
    refine ⟨?_, ?_, ?_, ?_⟩
    · rw [← hcode]
      rcases ha with ha | ⟨ha, _⟩ <;> rw [ha] <;> simp [Res.full]
    · rcases ha with ha | ⟨ha, _⟩
      · rw [ha]; simp [Res.full]
      · exact Or.inr (Or.inl ha)
    · intro h2
      rcases ha with ha | ⟨ha, _⟩
      · rw [ha]; simp [Res.full, hl]
      · rw [ha] at h2; cases h2
    · intro hn h3
      rcases ha with ha | ⟨_, hne⟩
      · rw [ha] at h3; simp [Res.full] at h3
      · exact hne hn

/-- **C52, unchanged.** A client that sends back the time it was given is told "not modified" as long as nothing is published. -/
theorem C52_unchanged (mime : Option Str) (t0 : Int) (ups : List (Option Str × Int)) (doc : Str) (now : Int) (h0 : 0 ≤ now) (h1 : now < maxInstant) :
    let r := (Res.new mime t0).run (ups ++ [(some doc, now)])
    (r.get strptime none).body = doc ∧ ∃ lm, (r.get strptime none).lastModified = some lm ∧ (r.get strptime (some lm)).code = 304 := by
  intro r
  obtain ⟨hr, hu, hl, _⟩ := run_last mime t0 (ups ++ [(some doc, now)])
  have hc : current (ups ++ [(some doc, now)]) = some doc := by simp [current]
  have ht : (((ups ++ [(some doc, now)]).getLast?).map (·.2)).getD t0 = now := by simp
  rw [hc] at hr
  rw [ht] at hu hl
  have hw0 : 0 ≤ wholeSeconds now := by unfold wholeSeconds; omega
  have hw1 : wholeSeconds now < maxInstant := by unfold wholeSeconds; omega
  have hww : wholeSeconds (wholeSeconds now) = wholeSeconds now := by unfold wholeSeconds; omega
  have e : r.get strptime none = r.full doc := by
    show ((Res.new mime t0).run _).get strptime none = _
    unfold Res.get
    rw [hr]
  refine ⟨by rw [e]; rfl, httpDate (ofInstant (wholeSeconds now)), by rw [e]; exact congrArg some hl, ?_⟩
  show (((Res.new mime t0).run _).get strptime _).code = 304
  unfold Res.get
  rw [hr]
  simp only
  rw [if_neg (httpDate_ne_nil _), strptime_roundtrip hw0 hw1]
  simp only
  rw [if_pos (by rw [hu, hww]; exact Int.le_refl _)]

/-- **C52, changed.** If something is published in a later second, a client that sends back the time it was given gets the new document. -/
theorem C52_changed (mime : Option Str) (t0 : Int) (ups : List (Option Str × Int)) (doc doc' : Str) (now now' : Int) (h0 : 0 ≤ now) (h1 : now < maxInstant)
    (hlater : now / 1000000 < now' / 1000000) :
    ∃ lm, (((Res.new mime t0).run (ups ++ [(some doc, now)])).get strptime none).lastModified = some lm ∧
      (((Res.new mime t0).run (ups ++ [(some doc, now), (some doc', now')])).get strptime (some lm)).code = 200 ∧
      (((Res.new mime t0).run (ups ++ [(some doc, now), (some doc', now')])).get strptime (some lm)).body = doc' := by
  obtain ⟨hr, hu, hl, _⟩ := run_last mime t0 (ups ++ [(some doc, now)])
  have hc : current (ups ++ [(some doc, now)]) = some doc := by simp [current]
  have ht : (((ups ++ [(some doc, now)]).getLast?).map (·.2)).getD t0 = now := by simp
  rw [hc] at hr
  rw [ht] at hu hl
  obtain ⟨hr', hu', hl', _⟩ := run_last mime t0 (ups ++ [(some doc, now), (some doc', now')])
  have hc' : current (ups ++ [(some doc, now), (some doc', now')]) = some doc' := by simp [current]
  have ht' : (((ups ++ [(some doc, now), (some doc', now')]).getLast?).map (·.2)).getD t0 = now' := by simp
  rw [hc'] at hr'
  rw [ht'] at hu' hl'
  have hw0 : 0 ≤ wholeSeconds now := by unfold wholeSeconds; omega
  have hw1 : wholeSeconds now < maxInstant := by unfold wholeSeconds; omega
  refine ⟨httpDate (ofInstant (wholeSeconds now)), ?_, ?_⟩
  · unfold Res.get
    rw [hr]
    exact congrArg some hl
  · have e : ((Res.new mime t0).run (ups ++ [(some doc, now), (some doc', now')])).get strptime (some (httpDate (ofInstant (wholeSeconds now)))) =
        ((Res.new mime t0).run (ups ++ [(some doc, now), (some doc', now')])).full doc' := by
      unfold Res.get
      rw [hr']
      simp only
      rw [if_neg (httpDate_ne_nil _), strptime_roundtrip hw0 hw1]
      simp only
      rw [if_neg (by rw [hu']; unfold wholeSeconds; omega)]
    rw [e]
    exact ⟨rfl, rfl⟩

/-- 2026-11-15 12:00:00.1, .9 and the second after. -/
def noon : Int := 63930340800100000

/-- `C52_not_hidden`: three documents, the last after the second of the client's timestamp is not there. -/
example : let ups : List (Option Str × Int) := [(some "a".toList, noon), (some "b".toList, noon + 800000)]
    (ups.Pairwise fun a b => a.2 ≤ b.2) ∧ strptime "Sun, 15 Nov 2026 12:00:00 GMT".toList = some 63930340800000000 ∧
    (((Res.new none 0).run ups).get strptime (some "Sun, 15 Nov 2026 12:00:00 GMT".toList)).code = 304 ∧ 0 ≤ noon ∧ noon < maxInstant ∧
    noon / 1000000 < (noon + 1000000) / 1000000 := by decide +kernel

/-- **C52 is violated within a second**: the client is given the first document, the second is published 0.8 s later, and the client is
told that nothing was modified. As long as nothing else is published it will never see the second document. -/
theorem C52_same_second_fails : ∃ (doc doc' : Str) (now now' : Int), doc ≠ doc' ∧ now < now' ∧
    let before := (Res.new none 0).run [(some doc, now)]
    let after := (Res.new none 0).run [(some doc, now), (some doc', now')]
    (before.get strptime none).body = doc ∧ (after.get strptime none).body = doc' ∧
    (after.get strptime (before.get strptime none).lastModified).code = 304 :=
  ⟨"a".toList, "b".toList, noon, noon + 800000, by decide, by decide, by decide +kernel⟩

/-- **C52 is violated if the system clock is put back**: a document published then is older than the one before it. -/
theorem C52_clock_fails : ∃ (doc doc' : Str) (now now' : Int), doc ≠ doc' ∧ now' < now ∧
    let before := (Res.new none 0).run [(some doc, now)]
    let after := (Res.new none 0).run [(some doc, now), (some doc', now')]
    (before.get strptime none).body = doc ∧ (after.get strptime none).body = doc' ∧
    (after.get strptime (before.get strptime none).lastModified).code = 304 :=
  ⟨"a".toList, "b".toList, noon, noon - 60000000, by decide, by decide, by decide +kernel⟩

/-! ### C51 -/

/-- The value under a key in a list of pairs of which the last counts. -/
theorem dget_dictOf (cs : List (Bytes × Bytes)) (k : Bytes) : dget (dictOf cs) k = (cs.reverse.find? fun c => c.1 = k).map (·.2) := by
  unfold dictOf
  have : ∀ (cs : List (Bytes × Bytes)) (d : List (Bytes × Bytes)),
      dget (cs.foldl (fun d c => dset d c.1 c.2) d) k = ((cs.reverse.find? fun c => c.1 = k).map (·.2)).or (dget d k) := by
    intro cs
    induction cs with
    | nil => intro d; simp
    | cons c cs ih =>
      intro d
      simp only [List.foldl_cons, List.reverse_cons, List.find?_append, List.find?_singleton]
      rw [ih, dget_dset]
      cases cs.reverse.find? fun c => c.1 = k <;> by_cases hc : c.1 = k <;> simp [hc]
  rw [this cs []]
  simp [dget]

/-- **C51 for SOAP.** With an access list, a request is admitted exactly if it came over TLS, with a client certificate whose common name —
the last one of the subject — is on the list; that name is what ports are authorized by. -/
theorem C51_soap (req : Req) (hosts : List Str) (dn : Option PyVal) :
    gate .soap req (some hosts) = .admitted dn ↔
      req.secure = true ∧ ∃ cs name c, req.cert = some cs ∧ (cs.reverse.find? fun c => c.1 = cn) = some c ∧ decodeUtf8 c.2 = some name ∧
        name ∈ hosts ∧ dn = some (.str name) := by
  have hin : ∀ name, PyVal.str name ∈ hosts.map PyVal.str ↔ name ∈ hosts := by
    intro name
    simp
  unfold gate soapGate
  simp only [Option.map_some]
  by_cases hs : req.secure = true
  · simp only [hs, not_true_eq_false, if_false, true_and]
    cases hc : req.cert with
    | none => simp
    | some cs =>
      simp only [commonName, dget_dictOf]
      cases hf : cs.reverse.find? fun c => c.1 = cn with
      | none =>
        simp only [Option.map_none, Option.bind_none, reduceCtorEq, false_iff]
        rintro ⟨cs', name, c, h1, h2, _⟩
        cases h1
        rw [hf] at h2
        cases h2
      | some c =>
        simp only [Option.map_some, Option.bind_some]
        cases hd : decodeUtf8 c.2 with
        | none =>
          simp only [reduceCtorEq, false_iff]
          rintro ⟨cs', name, c', h1, h2, h3, _⟩
          cases h1
          rw [hf] at h2
          cases h2
          rw [hd] at h3
          cases h3
        | some name =>
          simp only [hin]
          constructor
          · intro h
            split at h
            · rename_i hm
              cases h
              exact ⟨cs, name, c, rfl, hf, hd, hm, rfl⟩
            · cases h
          · rintro ⟨cs', name', c', h1, h2, h3, h4, h5⟩
            cases h1
            rw [hf] at h2
            cases h2
            rw [hd] at h3
            cases h3
            rw [if_pos h4, h5]
  · simp [hs]

/-- **C51 for SOAP.** Whatever is not admitted is answered with an error: 401, or 500 if the certificate has no common name that can
be read. -/
theorem C51_soap_otherwise (req : Req) (hosts : List Str) (h : ∀ dn, gate .soap req (some hosts) ≠ .admitted dn) :
    gate .soap req (some hosts) = .refused ∨ (gate .soap req (some hosts) = .raised ∧ ∃ cs, req.cert = some cs ∧ commonName cs = none) := by
  unfold gate soapGate at *
  simp only [Option.map_some] at *
  by_cases hs : req.secure = true
  · simp only [hs, not_true_eq_false, if_false] at *
    cases hc : req.cert with
    | none => simp
    | some cs =>
      simp only [hc] at *
      cases hn : commonName cs with
      | none => exact Or.inr ⟨rfl, cs, rfl, hn⟩
      | some name =>
        simp only [hn] at *
        split
        · rename_i hm
          rw [if_pos hm] at h
          exact absurd rfl (h _)
        · exact Or.inl rfl
  · simp [hs]

/-- The exact decision of `checkAuthz`, if the list had bytes in it: the last component of the subject counts, whatever its kind. -/
theorem C51_rest_exact (req : Req) (hosts : List PyVal) (dn : Option PyVal) :
    checkAuthz req (some hosts) = .admitted dn ↔
      req.secure = true ∧ ∃ cs c, req.cert = some cs ∧ cs.getLast? = some c ∧ .bytes c.2 ∈ hosts ∧ dn = some (.bytes c.2) := by
  unfold checkAuthz
  by_cases hs : req.secure = true
  · simp only [hs, not_true_eq_false, if_false, true_and]
    cases hc : req.cert with
    | none => simp
    | some cs =>
      cases hl : cs.getLast? with
      | none => simp [hl]
      | some c =>
        simp only [hl]
        constructor
        · intro h
          split at h
          · rename_i hm
            cases h
            exact ⟨cs, c, rfl, hl, hm, rfl⟩
          · cases h
        · rintro ⟨cs', c', h1, h2, h3, h4⟩
          cases h1
          rw [hl] at h2
          cases h2
          rw [if_pos h3, h4]
  · simp [hs]

/-- The common name `a` in a certificate. -/
def certA : Req := { secure := true, cert := some [([79], [120]), (cn, [97])] }

theorem decode_a : decodeUtf8 [97] = some ['a'] := by decide +kernel

/-- `C51_soap` is met: the request is admitted. -/
example : gate .soap certA (some [['b'], ['a']]) = .admitted (some (.str ['a'])) :=
  (C51_soap certA _ _).2 ⟨rfl, _, ['a'], (cn, [97]), rfl, rfl, decode_a, by simp, rfl⟩

/-- `C51_soap_otherwise` is met. -/
example : ∀ dn, gate .soap certA (some [['b']]) ≠ .admitted dn := by
  intro dn h
  obtain ⟨_, cs, name, c, h1, h2, h3, h4, _⟩ := (C51_soap certA _ _).1 h
  cases h1
  have hc : (cn, ([97] : Bytes)) = c := by
    have : ([([79], [120]), (cn, [97])] : List (Bytes × Bytes)).reverse.find? (fun c => c.1 = cn) = some (cn, [97]) := rfl
    rw [this] at h2
    exact Option.some.inj h2
  subst hc
  rw [decode_a] at h3
  cases h3
  simp at h4

/-- `C51_rest_exact` is met. -/
example : checkAuthz certA (some [.bytes [97]]) = .admitted (some (.bytes [97])) := by decide +kernel

/-- **C51 is violated for REST: with an access list no request is admitted at all**, as the name from the certificate is bytes and the list
has texts. -/
theorem C51_rest_fails : (∀ req hosts dn e, e ≠ .soap → e ≠ .restList → gate e req (some hosts) ≠ .admitted dn) ∧
    ∃ req hosts, gate .soap req (some hosts) = .admitted (some (.str ['a'])) ∧ gate .restCreate req (some hosts) = .refused := by
  refine ⟨?_, certA, [['a']], (C51_soap certA _ _).2 ⟨rfl, _, ['a'], (cn, [97]), rfl, rfl, decode_a, by simp, rfl⟩, by decide +kernel⟩
  intro req hosts dn e h1 h2 h
  have hg : gate e req (some hosts) = checkAuthz req (some (hosts.map .str)) := by cases e <;> first | rfl | exact absurd rfl h1 | exact absurd rfl h2
  rw [hg] at h
  obtain ⟨_, cs, c, _, _, h3, _⟩ := (C51_rest_exact _ _ _).1 h
  simp at h3

/-- **C51 is violated for the list of connections**: it is given to everybody — every request, over plain HTTP and without certificate, and
whatever the access list. -/
theorem C51_list_fails : ∀ req hosts, gate .restList req (some hosts) = .admitted none := fun _ _ => rfl

/-- **C51 is violated without access list for SOAP over TLS**: a request without client certificate, which anyone may make, ends in an
exception (soapresource.py:81). -/
theorem C51_no_list_fails : gate .soap { secure := true, cert := none } none = .raised ∧ gate .restCreate { secure := true, cert := none } none = .admitted none :=
  ⟨rfl, rfl⟩

end OpenNSA.Http
