import Verif.Wire.TimeLemmas
/-
C47: timestamps survive the wire.
-/
namespace OpenNSA.Wire
open Py

/-! ### The text of times -/

/-- The time zone designators of ISO 8601. -/
inductive Zone
  | utc                                              -- Z
  | utcLower                                         -- z
  | colon (neg : Bool) (hh mm : Nat)                 -- +hh:mm
  | plain (neg : Bool) (hh mm : Nat)                 -- +hhmm
  | hours (neg : Bool) (hh : Nat)                    -- +hh
  deriving DecidableEq, Repr

def signChar (neg : Bool) : Char := if neg then '-' else '+'

def Zone.text : Zone → Str
  | .utc => ['Z']
  | .utcLower => ['z']
  | .colon n hh mm => signChar n :: (pad 2 hh ++ ':' :: pad 2 mm)
  | .plain n hh mm => signChar n :: (pad 2 hh ++ pad 2 mm)
  | .hours n hh => signChar n :: pad 2 hh

/-- Minutes to subtract. -/
def Zone.offset : Zone → Int
  | .utc => 0
  | .utcLower => 0
  | .colon n hh mm => (if n then -1 else 1) * ((hh : Int) * 60 + mm)
  | .plain n hh mm => (if n then -1 else 1) * ((hh : Int) * 60 + mm)
  | .hours n hh => (if n then -1 else 1) * ((hh : Int) * 60)

def Zone.valid : Zone → Prop
  | .utc => True
  | .utcLower => True
  | .colon _ hh mm => hh ≤ 23 ∧ mm ≤ 59
  | .plain _ hh mm => hh ≤ 23 ∧ mm ≤ 59
  | .hours _ hh => hh ≤ 23

/-- Microseconds of the digits after the decimal point, `k` places counted. -/
def fracMicros : Nat → List Nat → Nat
  | 0, _ => 0
  | _, [] => 0
  | k + 1, d :: ds => d * 10 ^ k + fracMicros k ds

/-- The digits after the point, if there are any. -/
def fracText (comma : Bool) (ds : List Nat) : Str :=
  if ds = [] then [] else (if comma then ',' else '.') :: ds.map digitChar

/-- A time in the extended format of ISO 8601 (`xsd:dateTime`), up to the zone. -/
def localText (d : DT) (comma : Bool) (ds : List Nat) : Str :=
  pad 4 d.year ++ '-' :: (pad 2 d.month ++ '-' :: (pad 2 d.day ++ 'T' :: (pad 2 d.hour ++ ':' :: (pad 2 d.minute ++ ':' :: (pad 2 d.second ++
    fracText comma ds)))))

/-! ### Reading the zone -/

theorem parseTz_zone (z : Zone) (hz : z.valid) : parseTz z.text = .ok z.offset := by
  cases z with
  | utc => rfl
  | utcLower => rfl
  | colon n hh mm =>
    obtain ⟨h1, h2⟩ := hz
    have e1 := pyInt_pad2 (show hh < 100 by omega)
    have e2 := pyInt_pad2 (show mm < 100 by omega)
    cases n <;>
    · simp only [Zone.text, signChar, pad2, parseTz, List.cons_append, List.nil_append, List.length_cons, List.length_nil, List.take, List.drop,
        List.head?_cons, e1, Zone.offset]
      simp
      rw [e2]
      simp only
      by_cases h0 : hh = 0 ∧ mm = 0
      · obtain ⟨rfl, rfl⟩ := h0; simp
      · rw [if_neg (by omega), if_neg (by omega), if_neg (by omega)]
  | plain n hh mm =>
    obtain ⟨h1, h2⟩ := hz
    have e1 := pyInt_pad2 (show hh < 100 by omega)
    have e2 := pyInt_pad2 (show mm < 100 by omega)
    have hc := (digitChar_ne (show mm / 10 % 10 < 10 by omega)).2.2.2.2.2.1
    cases n <;>
    · simp only [Zone.text, signChar, pad2, parseTz, List.cons_append, List.nil_append, List.length_cons, List.length_nil, List.take, List.drop,
        List.head?_cons, e1, e2, Zone.offset, Option.some.injEq, hc, if_false]
      simp
      by_cases h0 : hh = 0 ∧ mm = 0
      · obtain ⟨rfl, rfl⟩ := h0; simp
      · rw [if_neg (by omega), if_neg (by omega), if_neg (by omega)]
  | hours n hh =>
    have hz : hh ≤ 23 := hz
    have e1 := pyInt_pad2 (show hh < 100 by omega)
    cases n <;>
    · simp only [Zone.text, signChar, pad2, parseTz, List.length_cons, List.length_nil, List.take, e1, Zone.offset]
      simp
      by_cases h0 : hh = 0
      · subst h0; simp
      · rw [if_neg h0, if_neg (by omega)]

/-- The first character of a zone. -/
theorem zone_head (z : Zone) : ∃ c r, z.text = c :: r ∧ (c = '-' ∨ c = '+' ∨ c = 'Z' ∨ c = 'z') := by
  cases z with
  | utc => exact ⟨_, _, rfl, by simp⟩
  | utcLower => exact ⟨_, _, rfl, by simp⟩
  | colon n hh mm => exact ⟨_, _, rfl, by cases n <;> simp [signChar]⟩
  | plain n hh mm => exact ⟨_, _, rfl, by cases n <;> simp [signChar]⟩
  | hours n hh => exact ⟨_, _, rfl, by cases n <;> simp [signChar]⟩

/-! ### Reading the fraction -/

theorem dval_take (ds : List Nat) (acc k : Nat) :
    (ds.take k).foldl (fun a d => a * 10 + d) acc * 10 ^ (k - (ds.take k).length) = acc * 10 ^ k + fracMicros k ds := by
  induction ds generalizing acc k with
  | nil => cases k <;> simp [fracMicros]
  | cons d ds ih =>
    cases k with
    | zero => simp [fracMicros]
    | succ k =>
      simp only [List.take_succ_cons, List.foldl_cons, List.length_cons, fracMicros]
      rw [show k + 1 - ((ds.take k).length + 1) = k - (ds.take k).length by omega, ih]
      rw [Nat.add_mul, Nat.pow_succ, Nat.mul_assoc, Nat.mul_comm 10 (10 ^ k), Nat.add_assoc]

/-- The rest of the time after the seconds: either nothing is left, or a zone. -/
def zoneText : Option Zone → Str
  | none => []
  | some z => z.text

theorem zoneText_no_digit (z : Option Zone) : (zoneText z).takeWhile (fun x => (digitVal x).isSome) = [] ∧
    (zoneText z).dropWhile (fun x => (digitVal x).isSome) = zoneText z := by
  cases z with
  | none => exact ⟨rfl, rfl⟩
  | some z =>
    obtain ⟨c, r, hz, hc⟩ := zone_head z
    simp only [zoneText, hz]
    rcases hc with rfl | rfl | rfl | rfl <;> simp [digitVal]

theorem digits_takeWhile (ds : List Nat) (h : ∀ d ∈ ds, d < 10) (z : Option Zone) :
    (ds.map digitChar ++ zoneText z).takeWhile (fun x => (digitVal x).isSome) = ds.map digitChar ∧
    (ds.map digitChar ++ zoneText z).dropWhile (fun x => (digitVal x).isSome) = zoneText z := by
  induction ds with
  | nil => exact zoneText_no_digit z
  | cons d ds ih =>
    obtain ⟨i1, i2⟩ := ih fun x hx => h x (List.mem_cons_of_mem _ hx)
    have hd : (digitVal (digitChar d)).isSome = true := by rw [digitVal_digitChar (h d List.mem_cons_self)]; rfl
    simp only [List.map_cons, List.cons_append, List.takeWhile_cons, List.dropWhile_cons, hd, if_true, i1, i2]
    exact ⟨trivial, trivial⟩

theorem loop_zone (fuel comp : Nat) (b : Bool) (z : Option Zone) (hz : ∀ z', z = some z' → z'.valid) (c : TC) (hc : c.tz = none) :
    isoTimeLoop (fuel + 1) comp b (zoneText z) c = .ok { c with tz := z.map Zone.offset } := by
  cases z with
  | none => simp [zoneText, isoTimeLoop, ← hc]
  | some z =>
    obtain ⟨ch, r, ht, hch⟩ := zone_head z
    have hp := parseTz_zone z (hz z rfl)
    simp only [zoneText]
    rw [ht] at hp ⊢
    simp [isoTimeLoop, hch, hp]

theorem loop_frac (fuel : Nat) (b comma : Bool) (ds : List Nat) (h : ∀ d ∈ ds, d < 10) (z : Option Zone) (hz : ∀ z', z = some z' → z'.valid)
    (c : TC) (hc : c.tz = none) (hu : c.us = 0) :
    isoTimeLoop (fuel + 2) 3 b (fracText comma ds ++ zoneText z) c = .ok { c with us := fracMicros 6 ds, tz := z.map Zone.offset } := by
  cases ds with
  | nil =>
    have := loop_zone (fuel + 1) 3 b z hz c hc
    simp only [fracText, if_true, List.nil_append]
    rw [this]
    cases c
    simp_all [fracMicros]
  | cons d ds =>
    have htw := digits_takeWhile (d :: ds) h z
    have hfr : fraction ((if comma then ',' else '.') :: ((d :: ds).map digitChar ++ zoneText z)) = some ((d :: ds).map digitChar, zoneText z) := by
      unfold fraction
      simp only [htw.1, htw.2]
      cases comma <;> simp
    have hne : (if comma then ',' else '.') ≠ '-' ∧ (if comma then ',' else '.') ≠ '+' ∧ (if comma then ',' else '.') ≠ 'Z' ∧
        (if comma then ',' else '.') ≠ 'z' := by cases comma <;> decide
    have hpi : pyInt (((d :: ds).map digitChar).take 6) = some (dval ((d :: ds).take 6) : Int) := by
      rw [← List.map_take]
      apply pyInt_digits
      · intro x hx; exact h x (List.mem_of_mem_take hx)
      · simp
    have hlen : (((d :: ds).map digitChar).take 6).length = ((d :: ds).take 6).length := by simp
    have hval := dval_take (d :: ds) 0 6
    simp only [fracText, List.cons_ne_nil, if_false, List.cons_append]
    rw [isoTimeLoop]
    rw [if_neg (by simp [hne])]
    simp only [show ¬ ((3 : Nat) = 2) by decide, show ¬ ((3 : Nat) = 1) by decide, false_and, or_self, if_false, show ¬ ((3 : Nat) < 3) by decide, if_true, hfr,
      hpi, hlen]
    have hv : ((dval ((d :: ds).take 6) : Int) * 10 ^ (6 - ((d :: ds).take 6).length)) = ((fracMicros 6 (d :: ds) : Nat) : Int) := by
      have : dval ((d :: ds).take 6) * 10 ^ (6 - ((d :: ds).take 6).length) = fracMicros 6 (d :: ds) := by
        unfold dval; rw [hval]; simp
      rw [← this]
      simp
    rw [hv, loop_zone fuel _ _ z hz _ (by simpa [TC.set] using hc)]
    rfl

theorem fracMicros_lt (k : Nat) (ds : List Nat) (h : ∀ d ∈ ds, d < 10) : fracMicros k ds < 10 ^ k := by
  induction k generalizing ds with
  | zero => cases ds <;> simp [fracMicros]
  | succ k ih =>
    cases ds with
    | nil => simp [fracMicros, Nat.pow_pos]
    | cons d ds =>
      have h1 := ih ds fun x hx => h x (List.mem_cons_of_mem _ hx)
      have h2 := h d List.mem_cons_self
      have h3 : d * 10 ^ k ≤ 9 * 10 ^ k := Nat.mul_le_mul_right _ (by omega)
      simp only [fracMicros, Nat.pow_succ]
      omega

/-! ### Reading the whole -/

theorem ascii_digit (d : Nat) (h : d < 10) : decide (128 ≤ (digitChar d).toNat) = false := by
  have := (digitChar_ne_letters h).2.2.2
  simp only [decide_eq_false_iff_not]
  omega

theorem ascii_pad2 (n : Nat) : (pad 2 n).any (fun c => decide (128 ≤ c.toNat)) = false := by
  simp [pad2, ascii_digit _ (Nat.mod_lt _ (by decide : 0 < 10))]

theorem ascii_pad4 (n : Nat) : (pad 4 n).any (fun c => decide (128 ≤ c.toNat)) = false := by
  simp [pad4, ascii_digit _ (Nat.mod_lt _ (by decide : 0 < 10))]

theorem ascii_zone (z : Option Zone) : (zoneText z).any (fun c => decide (128 ≤ c.toNat)) = false := by
  have hs : ∀ n, decide (128 ≤ (signChar n).toNat) = false := by decide
  have hc : decide (128 ≤ (':').toNat) = false := by decide
  cases z with
  | none => rfl
  | some z =>
    cases z with
    | utc => decide
    | utcLower => decide
    | colon n hh mm => simp only [zoneText, Zone.text, List.any_cons, List.any_append, ascii_pad2, hs, hc, Bool.or_self]
    | plain n hh mm => simp only [zoneText, Zone.text, List.any_cons, List.any_append, ascii_pad2, hs, Bool.or_self]
    | hours n hh => simp only [zoneText, Zone.text, List.any_cons, ascii_pad2, hs, Bool.or_self]

theorem ascii_frac (comma : Bool) (ds : List Nat) (h : ∀ d ∈ ds, d < 10) : (fracText comma ds).any (fun c => decide (128 ≤ c.toNat)) = false := by
  unfold fracText
  split
  · rfl
  · have hc : decide (128 ≤ (if comma then ',' else '.').toNat) = false := by cases comma <;> decide
    rw [List.any_cons, hc, Bool.false_or, List.any_eq_false]
    intro c hc
    obtain ⟨d, hd, rfl⟩ := List.mem_map.1 hc
    simpa using ascii_digit d (h d hd)

/-- Reading a time in the extended format. -/
theorem isoparse_text (uncommon) (d : DT) (comma : Bool) (ds : List Nat) (z : Option Zone) (hd : d.valid) (hds : ∀ x ∈ ds, x < 10)
    (hz : ∀ z', z = some z' → z'.valid) :
    isoparse uncommon (localText d comma ds ++ zoneText z) = .ok ({ d with micro := fracMicros 6 ds }.instant, z.map Zone.offset) := by
  obtain ⟨h1, h2, h3, h4, h5, h6, h7, h8, h9, h10⟩ := hd
  have hday : d.day < 100 := by
    have : dim (leap d.year) d.month ≤ 31 := by unfold dim; split <;> (try split) <;> omega
    omega
  have ha : (localText d comma ds ++ zoneText z).any (fun c => decide (128 ≤ c.toNat)) = false := by
    have hc : decide (128 ≤ (':').toNat) = false ∧ decide (128 ≤ ('-').toNat) = false ∧ decide (128 ≤ ('T').toNat) = false := by decide
    simp only [localText, List.any_append, List.any_cons, ascii_pad2, ascii_pad4, ascii_zone, ascii_frac comma ds hds, hc, Bool.or_self]
  have hdate : parseIsoDateCommon (localText d comma ds ++ zoneText z) =
      .ok (((d.year : Int), (d.month : Int), (d.day : Int)), 'T' :: (pad 2 d.hour ++ ':' :: (pad 2 d.minute ++ ':' :: (pad 2 d.second ++
        (fracText comma ds ++ zoneText z))))) := by
    have ey := pyInt_pad4 (show d.year < 10000 by omega)
    have em := pyInt_pad2 (show d.month < 100 by omega)
    have ed := pyInt_pad2 hday
    simp only [localText, pad4, pad2, parseIsoDateCommon, List.cons_append, List.nil_append, List.take, List.drop, ey, List.length_cons]
    simp
    rw [if_neg (by omega)]
    simp [em, ed]
    rw [if_neg (by omega), if_neg (by omega)]
  have htime : parseIsoTime (pad 2 d.hour ++ ':' :: (pad 2 d.minute ++ ':' :: (pad 2 d.second ++ (fracText comma ds ++ zoneText z)))) =
      .ok { h := d.hour, m := d.minute, s := d.second, us := fracMicros 6 ds, tz := z.map Zone.offset } := by
    have eh := pyInt_pad2 (show d.hour < 100 by omega)
    have em := pyInt_pad2 (show d.minute < 100 by omega)
    have es := pyInt_pad2 (show d.second < 100 by omega)
    have hh := digitChar_ne (show d.hour / 10 % 10 < 10 by omega)
    have hh' := digitChar_ne_letters (show d.hour / 10 % 10 < 10 by omega)
    have hl := loop_frac 1 true comma ds hds z hz { h := d.hour, m := d.minute, s := d.second } rfl rfl
    have hlen : ¬ (pad 2 d.hour ++ ':' :: (pad 2 d.minute ++ ':' :: (pad 2 d.second ++ (fracText comma ds ++ zoneText z)))).length < 2 := by
      simp [pad2]
    unfold parseIsoTime
    rw [if_neg hlen]
    have hloop : isoTimeLoop 6 0 false (pad 2 d.hour ++ ':' :: (pad 2 d.minute ++ ':' :: (pad 2 d.second ++ (fracText comma ds ++ zoneText z)))) {} =
        .ok { h := d.hour, m := d.minute, s := d.second, us := fracMicros 6 ds, tz := z.map Zone.offset } := by
      simp only [pad2, List.cons_append, List.nil_append]
      rw [isoTimeLoop, if_neg (by simp [hh, hh'])]
      simp [eh]
      rw [isoTimeLoop]
      simp [em]
      rw [isoTimeLoop]
      simp [es]
      exact hl
    rw [hloop]
    simp only
    rw [if_neg (by omega)]
  unfold isoparse
  rw [ha]
  simp only [Bool.false_eq_true, if_false, parseIsoDate, hdate, timePart, htime]
  rw [if_neg (by omega)]
  have hu : fracMicros 6 ds < 1000000 := fracMicros_lt 6 ds hds
  have hmk : mkDT d.year d.month d.day d.hour d.minute d.second (fracMicros 6 ds : Nat) = .ok { d with micro := fracMicros 6 ds } := by
    unfold mkDT
    simp only [Int.toNat_natCast]
    rw [if_pos ⟨by omega, by omega, by omega, by omega, by omega, by omega, by omega, h1, h2, h3, h4, h5, h6, h7, h8, h9, hu⟩]
  rw [hmk]

/-! ### The theorems -/

/-- **C47, offsets.** A time in the extended format with zone — `Z`, `z`, `±hh:mm`, `±hhmm` or `±hh` — denotes the instant of its
fields, with the digits after the second counted up to microseconds, minus the offset. (If that is before year 1 or after year
9999, an `OverflowError` is raised.) -/
theorem C47_offset (uncommon) (d : DT) (comma : Bool) (ds : List Nat) (z : Zone) (hd : d.valid) (hds : ∀ x ∈ ds, x < 10) (hz : z.valid) :
    parseXMLTimestamp uncommon (localText d comma ds ++ z.text) =
      let u := { d with micro := fracMicros 6 ds }.instant - z.offset * 60000000
      if 0 ≤ u ∧ u < maxInstant then .ok u else .error .overflowError := by
  have := isoparse_text uncommon d comma ds (some z) hd hds (by rintro _ ⟨⟩; exact hz)
  simp only [zoneText] at this
  unfold parseXMLTimestamp
  rw [this]
  rfl

/-- `C47_offset`: 2024-02-29T23:30:00.25+05:30 -/
example : (DT.mk 2024 2 29 23 30 0 0).valid ∧ (∀ x ∈ [2, 5], x < 10) ∧ (Zone.colon false 5 30).valid ∧
    localText ⟨2024, 2, 29, 23, 30, 0, 0⟩ false [2, 5] ++ (Zone.colon false 5 30).text = "2024-02-29T23:30:00.25+05:30".toList ∧
    parseXMLTimestamp (fun _ => .error .valueError) "2024-02-29T23:30:00.25+05:30".toList = .ok (DT.mk 2024 2 29 18 0 0 250000).instant := by
  refine ⟨by decide +kernel, by decide, ⟨by decide, by decide⟩, by decide +kernel, by decide +kernel⟩

theorem fracMicros_digs (n : Nat) (h : n < 1000000) : fracMicros 6 (digs 6 n) = n := by
  simp [digs, fracMicros]
  omega

theorem digs_lt (w n : Nat) : ∀ x ∈ digs w n, x < 10 := by
  induction w generalizing n with
  | zero => simp [digs]
  | succ w ih =>
    intro x hx
    simp only [digs, List.mem_append, List.mem_singleton] at hx
    rcases hx with hx | rfl
    · exact ih _ x hx
    · omega

theorem isoformat_eq (d : DT) (h : d.micro < 1000000) :
    ∃ ds, isoformat d = localText d false ds ∧ (∀ x ∈ ds, x < 10) ∧ fracMicros 6 ds = d.micro := by
  by_cases h0 : d.micro = 0
  · exact ⟨[], by simp [isoformat, localText, h0, fracText], by simp, by simp [fracMicros, h0]⟩
  · refine ⟨digs 6 d.micro, ?_, digs_lt _ _, fracMicros_digs _ h⟩
    have hne : digs 6 d.micro ≠ [] := by simp [digs]
    simp [isoformat, localText, h0, fracText, hne, pad]

/-- **C47, round trip.** Every time there is — from year 1 to year 9999, to the microsecond — is read back as the same instant. -/
theorem C47_roundtrip (uncommon) (t : Int) (h0 : 0 ≤ t) (h1 : t < maxInstant) : parseXMLTimestamp uncommon (createXMLTime t) = .ok t := by
  have hv := ofInstant_valid h0 h1
  obtain ⟨ds, he, hds, hf⟩ := isoformat_eq (ofInstant t) hv.2.2.2.2.2.2.2.2.2
  have := C47_offset uncommon (ofInstant t) false ds .utc hv hds trivial
  unfold createXMLTime
  rw [he]
  simp only [Zone.text] at this
  rw [this]
  have hi : ({ ofInstant t with micro := fracMicros 6 ds } : DT) = ofInstant t := by rw [hf]
  rw [hi, instant_ofInstant h0 h1]
  simp only [Zone.offset, Int.zero_mul, Int.sub_zero]
  exact if_pos ⟨h0, h1⟩

/-- `C47_roundtrip`: the last microsecond of a leap year. -/
example : createXMLTime (DT.mk 2024 12 31 23 59 59 999999).instant = "2024-12-31T23:59:59.999999Z".toList ∧
    0 ≤ (DT.mk 2024 12 31 23 59 59 999999).instant ∧ (DT.mk 2024 12 31 23 59 59 999999).instant < maxInstant := by decide +kernel

/-- **C47, the same `datetime`.** Instants stand for `datetime`s one to one: the fields of the time read back are those of the time
written. -/
theorem C47_fields (uncommon) (d : DT) (hd : d.valid) :
    ∃ t, parseXMLTimestamp uncommon (isoformat d ++ ['Z']) = .ok t ∧ ofInstant t = d := by
  have hr := instant_range hd
  have ho : ofInstant d.instant = d := instant_inj (ofInstant_valid hr.1 hr.2) hd (instant_ofInstant hr.1 hr.2)
  refine ⟨d.instant, ?_, ho⟩
  have := C47_roundtrip uncommon d.instant hr.1 hr.2
  unfold createXMLTime at this
  rwa [ho] at this

example : (DT.mk 2023 2 28 0 0 0 1).valid := by decide +kernel

/-- **C47, no zone.** A time in the extended format without zone is refused with a payload error. -/
theorem C47_no_zone (uncommon) (d : DT) (comma : Bool) (ds : List Nat) (hd : d.valid) (hds : ∀ x ∈ ds, x < 10) :
    parseXMLTimestamp uncommon (localText d comma ds) = .error .payloadError := by
  have := isoparse_text uncommon d comma ds none hd hds (by simp)
  simp only [zoneText, List.append_nil] at this
  unfold parseXMLTimestamp
  rw [this]
  rfl

example : parseXMLTimestamp (fun _ => .error .valueError) "2024-02-29T23:30:00".toList = .error .payloadError := by decide +kernel

/-- What is read as a date only is refused. -/
theorem dateOnly_refused (uncommon) (s : Str) (y m d : Nat) (ha : s.any (fun c => decide (128 ≤ c.toNat)) = false)
    (hs : parseIsoDateCommon s = .ok (((y : Int), (m : Int), (d : Int)), [])) (hv : (DT.mk y m d 0 0 0 0).valid) :
    parseXMLTimestamp uncommon s = .error .payloadError := by
  have hmk : mkDT y m d 0 0 0 0 = .ok ⟨y, m, d, 0, 0, 0, 0⟩ := by
    unfold mkDT
    simp only [Int.toNat_natCast, Int.toNat_zero]
    rw [if_pos ⟨by omega, by omega, by omega, by omega, by omega, by omega, by omega, hv⟩]
  have hne : ¬ ((0 : Int) = 24) := by decide
  unfold parseXMLTimestamp isoparse
  rw [ha]
  simp only [Bool.false_eq_true, if_false, parseIsoDate, hs, timePart]
  rw [if_neg hne, hmk]

/-- **C47, dates.** A year, a month or a day in the extended format is no time: it is refused with a payload error. -/
theorem C47_date_only (uncommon) (d : DT) (hd : d.valid) :
    parseXMLTimestamp uncommon (pad 4 d.year) = .error .payloadError ∧
    parseXMLTimestamp uncommon (pad 4 d.year ++ '-' :: pad 2 d.month) = .error .payloadError ∧
    parseXMLTimestamp uncommon (pad 4 d.year ++ '-' :: (pad 2 d.month ++ '-' :: pad 2 d.day)) = .error .payloadError := by
  obtain ⟨h1, h2, h3, h4, h5, h6, _⟩ := hd
  have hdim : ∀ l m, dim l m ≤ 31 := by intro l m; unfold dim; split <;> (try split) <;> omega
  have hdim' : ∀ l m, 1 ≤ m → m ≤ 12 → 1 ≤ dim l m := by
    intro l m a b
    obtain rfl | rfl | rfl | rfl | rfl | rfl | rfl | rfl | rfl | rfl | rfl | rfl :
      m = 1 ∨ m = 2 ∨ m = 3 ∨ m = 4 ∨ m = 5 ∨ m = 6 ∨ m = 7 ∨ m = 8 ∨ m = 9 ∨ m = 10 ∨ m = 11 ∨ m = 12 := by omega
    all_goals cases l <;> decide
  have hday : d.day < 100 := by have := hdim (leap d.year) d.month; omega
  have hc : decide (128 ≤ ('-').toNat) = false := by decide
  have ey := pyInt_pad4 (show d.year < 10000 by omega)
  have em := pyInt_pad2 (show d.month < 100 by omega)
  have ed := pyInt_pad2 hday
  have v : ∀ m dd, 1 ≤ m → m ≤ 12 → 1 ≤ dd → dd ≤ dim (leap d.year) m → (DT.mk d.year m dd 0 0 0 0).valid :=
    fun m dd a b c e => ⟨h1, h2, a, b, c, e, Nat.zero_lt_succ _, Nat.zero_lt_succ _, Nat.zero_lt_succ _, Nat.zero_lt_succ _⟩
  refine ⟨dateOnly_refused uncommon _ d.year 1 1 (ascii_pad4 _) ?_ (v 1 1 (by omega) (by omega) (by omega) (hdim' _ _ (by omega) (by omega))),
    dateOnly_refused uncommon _ d.year d.month 1 ?_ ?_ (v _ 1 h3 h4 (by omega) (hdim' _ _ h3 h4)),
    dateOnly_refused uncommon _ d.year d.month d.day ?_ ?_ (v _ _ h3 h4 h5 h6)⟩
  · simp only [pad4, parseIsoDateCommon, List.take, List.drop, ey, List.length_cons]
    simp
  · simp only [List.any_append, List.any_cons, ascii_pad2, ascii_pad4, hc, Bool.or_self]
  · simp only [pad4, pad2, parseIsoDateCommon, List.cons_append, List.nil_append, List.take, List.drop, ey, List.length_cons]
    simp [em]
  · simp only [List.any_append, List.any_cons, ascii_pad2, ascii_pad4, hc, Bool.or_self]
  · simp only [pad4, pad2, parseIsoDateCommon, List.cons_append, List.nil_append, List.take, List.drop, ey, List.length_cons]
    simp [em, ed]

example : parseXMLTimestamp (fun _ => .error .valueError) "2024-02".toList = .error .payloadError := by decide +kernel

theorem fraction_suffix {s ds r : Str} (h : fraction s = some (ds, r)) : r <:+ s := by
  cases s with
  | nil => simp [fraction] at h
  | cons c rest =>
    simp only [fraction] at h
    by_cases hc : c = '.' ∨ c = ','
    · rw [if_pos hc] at h
      split at h
      · simp at h
      · simp only [Option.some.injEq, Prod.mk.injEq] at h
        rw [← h.2]
        exact (List.dropWhile_suffix _).trans (List.suffix_cons _ _)
    · rw [if_neg hc] at h
      simp at h

theorem loop_tz (fuel comp : Nat) (b : Bool) (s : Str) (c c' : TC) (hc : c.tz = none) (h : isoTimeLoop fuel comp b s c = .ok c') :
    c'.tz = none ∨ ∃ pre z o, s = pre ++ z ∧ z ≠ [] ∧ parseTz z = .ok o ∧ c'.tz = some o := by
  induction fuel generalizing comp b s c with
  | zero =>
    cases s with
    | nil => rw [isoTimeLoop] at h; cases h; exact Or.inl hc
    | cons ch rest => simp [isoTimeLoop] at h
  | succ fuel ih =>
    cases s with
    | nil => rw [isoTimeLoop] at h; cases h; exact Or.inl hc
    | cons ch rest =>
      have hset : ∀ k v, (c.set k v).tz = none := by
        intro k v
        unfold TC.set
        split <;> exact hc
      have ext : ∀ (r : Str), r <:+ ch :: rest → (c'.tz = none ∨ ∃ pre z o, r = pre ++ z ∧ z ≠ [] ∧ parseTz z = .ok o ∧ c'.tz = some o) →
          c'.tz = none ∨ ∃ pre z o, ch :: rest = pre ++ z ∧ z ≠ [] ∧ parseTz z = .ok o ∧ c'.tz = some o := by
        rintro r ⟨p, hp⟩ (h | ⟨pre, z, o, rfl, hz⟩)
        · exact Or.inl h
        · exact Or.inr ⟨p ++ pre, z, o, by rw [← hp, List.append_assoc], hz⟩
      rw [isoTimeLoop] at h
      split at h
      · cases hp : parseTz (ch :: rest) with
        | error e => rw [hp] at h; simp at h
        | ok o =>
          rw [hp] at h
          cases h
          exact Or.inr ⟨[], ch :: rest, o, rfl, by simp, hp, rfl⟩
      · split at h
        · simp at h
        · simp only at h
          generalize hr : (if comp = 1 ∧ ch = ':' ∨ comp = 2 ∧ b = true then rest else ch :: rest) = r at h
          have hsuf : r <:+ ch :: rest := by
            rw [← hr]
            split
            · exact List.suffix_cons _ _
            · exact List.suffix_refl _
          split at h
          · split at h
            · simp at h
            · exact ext _ ((List.drop_suffix 2 r).trans hsuf) (ih _ _ _ _ (hset _ _) h)
          · split at h
            · split at h
              · exact ext _ hsuf (ih _ _ _ _ hc h)
              · rename_i ds r' hf
                have hr' : r' <:+ r := fraction_suffix hf
                split at h
                · simp at h
                · exact ext _ (hr'.trans hsuf) (ih _ _ _ _ (hset _ _) h)
            · exact ext _ hsuf (ih _ _ _ _ hc h)

/-- **C47, a zone is needed.** Whatever is accepted, in whatever format, ends in a zone designator, and the designator is what is
taken off the local time. (Week dates and ordinal dates are read by a function assumed to leave a suffix of the text.) -/
theorem C47_zone_needed (uncommon) (hun : ∀ s c r, uncommon s = .ok (c, r) → r <:+ s) (s : Str) (t : Int) (h : parseXMLTimestamp uncommon s = .ok t) :
    ∃ pre z o l, s = pre ++ z ∧ parseTz z = .ok o ∧ (∃ c r, z = c :: r ∧ (c = 'Z' ∨ c = 'z' ∨ c = '+' ∨ c = '-')) ∧
      isoparse uncommon s = .ok (l, some o) ∧ t = l - o * 60000000 := by
  unfold parseXMLTimestamp at h
  cases hi : isoparse uncommon s with
  | error e => rw [hi] at h; simp at h
  | ok r =>
    obtain ⟨l, z⟩ := r
    cases z with
    | none => rw [hi] at h; simp at h
    | some o =>
      rw [hi] at h
      simp only at h
      split at h
      · simp only [Except.ok.injEq] at h
        have hz : ∃ pre z, s = pre ++ z ∧ z ≠ [] ∧ parseTz z = .ok o := by
          unfold isoparse at hi
          split at hi
          · simp at hi
          · split at hi
            · simp at hi
            · rename_i y m d rest hdate
              have hsuf : rest <:+ s := by
                unfold parseIsoDate at hdate
                split at hdate
                · rename_i r hc
                  cases hdate
                  unfold parseIsoDateCommon at hc
                  split at hc
                  · simp at hc
                  · split at hc
                    · simp at hc
                    · have h4 : s.drop 4 <:+ s := List.drop_suffix 4 s
                      split at hc
                      · simp only [Except.ok.injEq, Prod.mk.injEq] at hc
                        rw [← hc.2]; exact List.nil_suffix
                      · rename_i c0 rest0 hdrop
                        rw [hdrop] at h4
                        simp only at hc
                        generalize hr : (if decide (c0 = '-') = true then rest0 else c0 :: rest0) = r at hc
                        have hsr : r <:+ s := by
                          rw [← hr]
                          split
                          · exact (List.suffix_cons _ _).trans h4
                          · exact h4
                        split at hc
                        · simp at hc
                        · split at hc
                          · simp at hc
                          · have h2 : r.drop 2 <:+ s := (List.drop_suffix 2 r).trans hsr
                            split at hc
                            · split at hc
                              · simp only [Except.ok.injEq, Prod.mk.injEq] at hc
                                rw [← hc.2]; exact List.nil_suffix
                              · simp at hc
                            · rename_i c1 rest1 hdrop1
                              rw [hdrop1] at h2
                              split at hc
                              · simp at hc
                              · generalize hr' : (if decide (c0 = '-') = true then rest1 else c1 :: rest1) = r' at hc
                                have hsr' : r' <:+ s := by
                                  rw [← hr']
                                  split
                                  · exact (List.suffix_cons _ _).trans h2
                                  · exact h2
                                split at hc
                                · simp at hc
                                · split at hc
                                  · simp at hc
                                  · simp only [Except.ok.injEq, Prod.mk.injEq] at hc
                                    rw [← hc.2]
                                    exact (List.drop_suffix 2 r').trans hsr'
                · exact hun _ _ _ hdate
              split at hi
              · simp at hi
              · rename_i c htp
                have htz : c.tz = some o := by
                  split at hi
                  · split at hi
                    · simp at hi
                    · split at hi
                      · simp only [Except.ok.injEq, Prod.mk.injEq] at hi; exact hi.2
                      · simp at hi
                  · split at hi
                    · simp at hi
                    · simp only [Except.ok.injEq, Prod.mk.injEq] at hi; exact hi.2
                unfold timePart at htp
                split at htp
                · cases htp; simp at htz
                · rename_i c0 t0
                  unfold parseIsoTime at htp
                  split at htp
                  · simp at htp
                  · split at htp
                    · simp at htp
                    · rename_i c' hloop
                      split at htp
                      · simp at htp
                      · cases htp
                        rcases loop_tz 6 0 false t0 {} c rfl hloop with hn | ⟨pre, z, o', rfl, hzne, hp, ho⟩
                        · rw [hn] at htz; simp at htz
                        · rw [ho] at htz
                          cases htz
                          obtain ⟨p, hp'⟩ := hsuf
                          exact ⟨p ++ c0 :: pre, z, by rw [← hp']; simp, hzne, hp⟩
        obtain ⟨pre, z, hs, hzne, hp⟩ := hz
        refine ⟨pre, z, o, l, hs, hp, ?_, rfl, h.symm⟩
        cases z with
        | nil => exact absurd rfl hzne
        | cons c r =>
          refine ⟨c, r, rfl, ?_⟩
          unfold parseTz at hp
          split at hp
          · rename_i hzz
            rcases hzz with hzz | hzz <;> simp at hzz <;> simp [hzz]
          · simp only at hp
            split at hp
            · simp at hp
            · split at hp
              · simp at hp
              · rename_i hcc
                by_cases h1 : c = '-'
                · simp [h1]
                · by_cases h2 : c = '+'
                  · simp [h2]
                  · exact absurd ⟨h1, h2⟩ hcc
      · simp at h

example : (parseXMLTimestamp (fun _ => .error .valueError) "20240229T2330-0130".toList).isOk = true := by decide +kernel

/-- **C47, injective.** Different times are written differently. -/
theorem C47_injective (t t' : Int) (h0 : 0 ≤ t) (h1 : t < maxInstant) (h0' : 0 ≤ t') (h1' : t' < maxInstant)
    (h : createXMLTime t = createXMLTime t') : t = t' := by
  have e1 := C47_roundtrip (fun _ => .error .valueError) t h0 h1
  have e2 := C47_roundtrip (fun _ => .error .valueError) t' h0' h1'
  rw [h, e2] at e1
  cases e1
  rfl

example : createXMLTime 1 ≠ createXMLTime 1000000 := by decide +kernel

end OpenNSA.Wire
