import Verif.Db.Lemmas
import Verif.Wire.PropsMessages
/-
C82: what is saved is what was requested, and what is read back.
-/
namespace OpenNSA.Db
open Py Wire

/-- The value can be in the column: of the type, in its range, and there if it has to be. -/
def Fits (c : Column) : Val → Prop
  | .null => c.notNull = false
  | .int n => c.type_ = .integer ∧ -2147483648 ≤ n ∧ n ≤ 2147483647
  | .bool _ => c.type_ = .boolean
  | .text s => c.type_ = .text ∨ c.type_ = .directionality ∧ (s = "Bidirectional".toList ∨ s = "Unidirectional".toList)
  | .time _ => c.type_ = .timestamp
  | .label _ => c.type_ = .label
  | .attrs _ => c.type_ = .attributes
  | .texts _ => c.type_ = .texts

/-- The value can be read back: times are of the years 1 to 9999, labels are as if made from text. -/
def Val.Sound : Val → Prop
  | .time t => 0 ≤ t ∧ t < maxInstant
  | .label l => Label.FromText { l with listPairs := false }
  | _ => True

/-- The value as it is read back: a label that was made from a number is then one that is made from text, with the same value. -/
def Val.back : Val → Val
  | .label l => .label { l with listPairs := false }
  | v => v

theorem readTimestamp_iso {t : Int} (h0 : 0 ≤ t) (h1 : t < maxInstant) : readTimestamp (isoformat (ofInstant t)) = some t := by
  have hv := ofInstant_valid h0 h1
  obtain ⟨ds, he, hds, hf⟩ := isoformat_eq (ofInstant t) hv.2.2.2.2.2.2.2.2.2
  have := isoparse_text (fun _ => .error .valueError) (ofInstant t) false ds none hv hds (by simp)
  simp only [zoneText, List.append_nil, Option.map_none] at this
  unfold readTimestamp
  rw [he, this]
  simp only [hf, Option.some.injEq]
  exact instant_ofInstant h0 h1

theorem pairsOf_map (name : Str) (l : List (Str × Str)) : pairsOf name (l.map fun a => Expr.pair name a.1 a.2) = some l := by
  induction l with
  | nil => rfl
  | cons a l ih => simp [pairsOf, ih]

theorem textsOf_map (l : List (Option Str)) : textsOf (l.map elemExpr) = some l := by
  induction l with
  | nil => rfl
  | cons a l ih => cases a <;> simp [textsOf, elemExpr, ih]

/-- What the database has of a value. -/
def Val.stored : Val → Stored
  | .null => .null
  | .int n => .int n
  | .bool b => .bool b
  | .text s => .text s
  | .time t => .time t
  | .label l => .pair l.type_ l.labelValue
  | .attrs l => .pairs l
  | .texts l => .texts l

theorem coerce_fits {c : Column} {v : Val} (h : Fits c v) (hs : v.Sound) : coerce c v.expr = .ok v.stored := by
  obtain ⟨ty, nn⟩ := c
  cases v with
  | null => simp only [Fits] at h; subst h; rfl
  | int n => obtain ⟨h1, h2⟩ := h; simp only at h1; subst h1; simp [coerce, Val.expr, Val.stored, h2]
  | bool b => simp only [Fits] at h; subst h; rfl
  | text s =>
    rcases h with h | ⟨h1, h2⟩
    · simp only at h; subst h; rfl
    · simp only at h1; subst h1; unfold coerce Val.expr; simp only [if_pos h2]; rfl
  | time t => simp only [Fits] at h; subst h; simp [coerce, Val.expr, Val.stored, readTimestamp_iso hs.1 hs.2]
  | label l => simp only [Fits] at h; subst h; rfl
  | attrs l =>
    simp only [Fits] at h; subst h
    cases l with
    | nil => rfl
    | cons a l => unfold coerce Val.expr; simp only [pairsOf_map]; rfl
  | texts l =>
    simp only [Fits] at h; subst h
    cases l with
    | nil => rfl
    | cons a l => unfold coerce Val.expr; simp only [textsOf_map]; rfl

/-- The other way round, for values of the type of the column. -/
def SameType (c : Column) : Val → Prop
  | .null => True
  | .int _ => c.type_ = .integer
  | .bool _ => c.type_ = .boolean
  | .text _ => c.type_ = .text ∨ c.type_ = .directionality
  | .time _ => c.type_ = .timestamp
  | .label _ => c.type_ = .label
  | .attrs _ => c.type_ = .attributes
  | .texts _ => c.type_ = .texts

theorem coerce_error {c : Column} {v : Val} (ht : SameType c v) (h : ¬ Fits c v) : ∃ x, coerce c v.expr = .error x := by
  obtain ⟨ty, nn⟩ := c
  cases v with
  | null => simp only [Fits, Bool.not_eq_false] at h; subst h; exact ⟨_, rfl⟩
  | int n =>
    simp only [SameType] at ht; subst ht
    simp only [Fits, true_and] at h
    exact ⟨.data, by simp [coerce, Val.expr, h]⟩
  | bool b => exact absurd ht h
  | text s =>
    rcases ht with ht | ht
    · exact absurd (Or.inl ht) h
    · simp only at ht; subst ht
      simp only [Fits, reduceCtorEq, true_and, false_or] at h
      refine ⟨.data, ?_⟩
      unfold coerce Val.expr
      simp only [if_neg h]
  | time t => exact absurd ht h
  | label l => exact absurd ht h
  | attrs l => exact absurd ht h
  | texts l => exact absurd ht h

/-- All columns. -/
def FitAll : List Column → List Val → Prop
  | [], [] => True
  | c :: cs, v :: vs => Fits c v ∧ FitAll cs vs
  | _, _ => False

def SameTypes : List Column → List Val → Prop
  | [], [] => True
  | c :: cs, v :: vs => SameType c v ∧ SameTypes cs vs
  | _, _ => False

theorem coerceAll_fits {cs : List Column} {vs : List Val} (h : FitAll cs vs) (hs : ∀ v ∈ vs, v.Sound) :
    coerceAll cs (vs.map Val.expr) = .ok (vs.map Val.stored) := by
  induction cs generalizing vs with
  | nil => cases vs <;> first | rfl | exact absurd h id
  | cons c cs ih =>
    cases vs with
    | nil => exact absurd h id
    | cons v vs =>
      simp only [List.map_cons, coerceAll, coerce_fits h.1 (hs v (List.mem_cons_self ..)), ih h.2 fun w hw => hs w (List.mem_cons_of_mem _ hw)]

theorem coerceAll_error {cs : List Column} {vs : List Val} (ht : SameTypes cs vs) (h : ¬ FitAll cs vs) (hs : ∀ v ∈ vs, v.Sound) :
    ∃ x, coerceAll cs (vs.map Val.expr) = .error x := by
  induction cs generalizing vs with
  | nil =>
    cases vs with
    | nil => exact absurd trivial h
    | cons v vs => exact absurd ht id
  | cons c cs ih =>
    cases vs with
    | nil => exact absurd ht id
    | cons v vs =>
      by_cases hc : Fits c v
      · obtain ⟨x, hx⟩ := ih ht.2 (fun hf => h ⟨hc, hf⟩) fun w hw => hs w (List.mem_cons_of_mem _ hw)
        exact ⟨x, by simp only [List.map_cons, coerceAll, coerce_fits hc (hs v (List.mem_cons_self ..)), hx]⟩
      · obtain ⟨x, hx⟩ := coerce_error ht.1 hc
        exact ⟨x, by simp only [List.map_cons, coerceAll, hx]⟩

theorem load_stored {v : Val} (h : v.Sound) : load v.stored = .ok v.back := by
  cases v with
  | label l =>
    have := (C02_label_roundtrip { l with listPairs := false } h).1
    unfold load Val.stored
    simp only
    rw [show Label.mk' l.type_ (.str l.labelValue) = _ from this]
    rfl
  | _ => rfl

theorem loadAll_stored {vs : List Val} (h : ∀ v ∈ vs, v.Sound) : loadAll (vs.map Val.stored) = .ok (vs.map Val.back) := by
  induction vs with
  | nil => rfl
  | cons v vs ih =>
    simp only [List.map_cons, loadAll, load_stored (h v (List.mem_cons_self ..)), ih fun w hw => h w (List.mem_cons_of_mem _ hw)]

/-- **C82, no text gets out of its place.** Whatever characters the texts of a request have — quotes, backslashes, brackets, comments —, the
server reads the statement as the values that were to be saved, each in its place, and nothing else. -/
theorem C82_statement (v : Val) (vs : List Val) : readValues ((v :: vs).length) (valuesSql (v :: vs)) = some ((v :: vs).map Val.expr) :=
  readValues_sql v vs

theorem insert_iff {t : Table} {rows : Rows} {vs : List Val} (hne : vs ≠ []) (ht : SameTypes t.columns vs) (hs : ∀ v ∈ vs, v.Sound) (rows' : Rows) :
    insert t rows vs = .ok rows' ↔
      (vs.any Val.hasNul = false ∧ FitAll t.columns vs ∧ t.clash rows (vs.map Val.stored) = false ∧ t.checkFails (vs.map Val.stored) = false) ∧
      rows' = rows ++ [vs.map Val.stored] := by
  obtain ⟨v, ws, rfl⟩ : ∃ v ws, vs = v :: ws := by
    cases vs with
    | nil => exact absurd rfl hne
    | cons v ws => exact ⟨v, ws, rfl⟩
  unfold insert
  by_cases hn : (v :: ws).any Val.hasNul = true
  · simp [hn]
  · rw [if_neg hn, C82_statement]
    simp only
    by_cases hf : FitAll t.columns (v :: ws)
    · rw [coerceAll_fits hf hs]
      simp only
      by_cases hc : t.clash rows ((v :: ws).map Val.stored) = true
      · rw [if_pos hc, hc]; simp
      · rw [if_neg hc]
        by_cases hk : t.checkFails ((v :: ws).map Val.stored) = true
        · rw [if_pos hk, hk]; simp
        · rw [if_neg hk]
          simp only [Except.ok.injEq]
          constructor
          · rintro rfl
            exact ⟨⟨by simpa using hn, hf, by simpa using hc, by simpa using hk⟩, rfl⟩
          · rintro ⟨_, rfl⟩; rfl
    · obtain ⟨x, hx⟩ := coerceAll_error ht hf hs
      rw [hx]
      simp [hf]

/-- **C82, the request is recorded as it was made.** A row that is saved is added after the others, which stay, and reading it back gives the
values that were saved (labels that were made from numbers are as if made from text). -/
theorem C82_recorded {t : Table} {rows rows' : Rows} {vs : List Val} (hne : vs ≠ []) (ht : SameTypes t.columns vs) (hs : ∀ v ∈ vs, v.Sound)
    (h : insert t rows vs = .ok rows') : ∃ row, rows' = rows ++ [row] ∧ loadAll row = .ok (vs.map Val.back) :=
  ⟨_, ((insert_iff hne ht hs rows').1 h).2, loadAll_stored hs⟩

/-- The labels of the request are those of STPs that were read, its times can be represented. -/
structure Readable (r : Resv) : Prop where
  start : TimeOk r.schedule.start
  end_ : TimeOk r.schedule.end_
  source : ∀ l, r.sd.source.label = some l → l.FromText
  dest : ∀ l, r.sd.dest.label = some l → l.FromText

theorem optText_sound (x : Option Str) : (optText x).Sound := by cases x <;> trivial
theorem optBool_sound (x : Option Bool) : (optBool x).Sound := by cases x <;> trivial
theorem optTrace_sound (x : Option (List (Option Str))) : (optTrace x).Sound := by cases x <;> trivial
theorem fromText_back {l : Label} (h : l.FromText) : { l with listPairs := false } = l := by
  obtain ⟨s, hs⟩ := h
  have := (C05_fromText_form l.type_ l).1 s hs
  cases l
  simp only at this
  subst this
  rfl

theorem optLabel_sound {x : Option Label} (h : ∀ l, x = some l → l.FromText) : (optLabel x).Sound := by
  cases x with
  | none => trivial
  | some l => simp only [optLabel, Val.Sound, fromText_back (h l rfl)]; exact h l rfl
theorem optTime_sound {x : Option Int} (h : TimeOk x) : (optTime x).Sound := by
  cases x with
  | none => trivial
  | some t => exact h t rfl

theorem serviceVals_sound {cid : Str} {now : Int} {h : HeaderIn} {r : Resv} (hn : TimeOk (some now)) (hr : Readable r) :
    ∀ v ∈ serviceVals cid now h r, v.Sound := by
  intro v hv
  simp only [serviceVals, List.mem_cons, List.mem_nil_iff, or_false] at hv
  rcases hv with rfl | rfl | rfl | rfl | rfl | rfl | rfl | rfl | rfl | rfl | rfl | rfl | rfl | rfl | rfl | rfl | rfl | rfl | rfl | rfl | rfl | rfl | rfl
  all_goals first
    | exact trivial
    | exact optText_sound _
    | exact optBool_sound _
    | exact optTrace_sound _
    | exact optLabel_sound hr.source
    | exact optLabel_sound hr.dest
    | exact optTime_sound hr.start
    | exact optTime_sound hr.end_
    | exact hn _ rfl

theorem sameType_optText {c : Column} (h : c.type_ = .text ∨ c.type_ = .directionality) (x : Option Str) : SameType c (optText x) := by
  cases x
  · trivial
  · exact h
theorem sameType_optBool {c : Column} (h : c.type_ = .boolean) (x : Option Bool) : SameType c (optBool x) := by cases x <;> first | trivial | exact h
theorem sameType_optLabel {c : Column} (h : c.type_ = .label) (x : Option Label) : SameType c (optLabel x) := by cases x <;> first | trivial | exact h
theorem sameType_optTime {c : Column} (h : c.type_ = .timestamp) (x : Option Int) : SameType c (optTime x) := by cases x <;> first | trivial | exact h
theorem sameType_optTrace {c : Column} (h : c.type_ = .texts) (x : Option (List (Option Str))) : SameType c (optTrace x) := by
  cases x <;> first | trivial | exact h

theorem serviceVals_types (cid : Str) (now : Int) (h : HeaderIn) (r : Resv) : SameTypes serviceConnections.columns (serviceVals cid now h r) :=
  ⟨.inl rfl, rfl, sameType_optText (.inl rfl) _, sameType_optText (.inl rfl) _, sameType_optText (.inl rfl) _, sameType_optText (.inl rfl) _, rfl,
   .inl rfl, .inl rfl, .inl rfl, .inl rfl, .inl rfl, sameType_optLabel rfl _, .inl rfl, .inl rfl, sameType_optLabel rfl _,
   sameType_optTime rfl _, sameType_optTime rfl _, sameType_optBool rfl _, sameType_optText (.inr rfl) _, rfl, rfl, sameType_optTrace rfl _, trivial⟩

/-- The direction is one of the two there are. -/
def Direction (d : Option Str) : Prop := d = some "Bidirectional".toList ∨ d = some "Unidirectional".toList

/-- The start is before the end, if there are both. -/
def Ordered (s : Sched) : Prop := ∀ a b, s.start = some a → s.end_ = some b → a < b

theorem fits_optText_null (x : Option Str) : Fits ⟨.text, false⟩ (optText x) := by cases x <;> simp [Fits, optText]
theorem fits_optText (x : Option Str) : Fits ⟨.text, true⟩ (optText x) ↔ x.isSome := by cases x <;> simp [Fits, optText]
theorem fits_optLabel (x : Option Label) : Fits ⟨.label, false⟩ (optLabel x) := by cases x <;> simp [Fits, optLabel]
theorem fits_optTime (x : Option Int) : Fits ⟨.timestamp, false⟩ (optTime x) := by cases x <;> simp [Fits, optTime]
theorem fits_optBool (x : Option Bool) : Fits ⟨.boolean, true⟩ (optBool x) ↔ x.isSome := by cases x <;> simp [Fits, optBool]
theorem fits_optTrace (x : Option (List (Option Str))) : Fits ⟨.texts, false⟩ (optTrace x) := by cases x <;> simp [Fits, optTrace]
theorem fits_direction (x : Option Str) : Fits ⟨.directionality, true⟩ (optText x) ↔ Direction x := by
  cases x with
  | none => simp only [Fits, optText, Direction]; simp
  | some s => simp only [Fits, optText, Direction, Option.some.injEq]; simp
theorem fits_text (s : Str) (b : Bool) : Fits ⟨.text, b⟩ (.text s) := Or.inl rfl

theorem serviceVals_fit (cid : Str) (now : Int) (h : HeaderIn) (r : Resv) : FitAll serviceConnections.columns (serviceVals cid now h r) ↔
    h.requesterNSA.isSome ∧ r.sd.symmetric.isSome ∧ Direction r.sd.directionality ∧ -2147483648 ≤ r.sd.capacity ∧ r.sd.capacity ≤ 2147483647 := by
  simp only [serviceConnections, serviceVals, FitAll, fits_optText_null, fits_optText, fits_optLabel, fits_optTime, fits_optBool, fits_optTrace,
    fits_direction, fits_text, true_and, and_true]
  simp only [Fits, true_and, and_true]
  constructor
  · rintro ⟨_, h1, h2, h3, h4⟩; exact ⟨h1, h2, h3, h4⟩
  · rintro ⟨h1, h2, h3, h4⟩; exact ⟨by decide, h1, h2, h3, h4⟩

theorem checkFails_times {t : Table} {row : List Stored} {i j : Nat} {s : Sched} (hc : t.check = some (i, j)) (hi : row[i]? = some (optTime s.start).stored)
    (hj : row[j]? = some (optTime s.end_).stored) : t.checkFails row = false ↔ Ordered s := by
  unfold Table.checkFails Ordered
  rw [hc]
  simp only [hi, hj]
  cases s.start <;> cases s.end_ <;> simp [optTime, Val.stored]

/-- **C82, which requests are recorded.** The row for a reservation is saved exactly if the requester is named, start is before end, the direction
is one of the two, the capacity is a number of 32 bits, the connection id is new and no text contains the character 0. -/
theorem C82_service (rows : Rows) (cid : Str) (now : Int) (h : HeaderIn) (r : Resv) (hn : TimeOk (some now)) (hr : Readable r) :
    (∃ rows', insert serviceConnections rows (serviceVals cid now h r) = .ok rows') ↔
      h.requesterNSA.isSome ∧ Ordered r.schedule ∧ Direction r.sd.directionality ∧ (-2147483648 ≤ r.sd.capacity ∧ r.sd.capacity ≤ 2147483647) ∧
      r.sd.symmetric.isSome ∧ (∀ row ∈ rows, row[0]? ≠ some (.text cid)) ∧ ∀ v ∈ serviceVals cid now h r, v.hasNul = false := by
  have key := insert_iff (t := serviceConnections) (rows := rows) (by simp [serviceVals]) (serviceVals_types cid now h r) (serviceVals_sound hn hr)
  rw [serviceVals_fit, checkFails_times (i := 16) (j := 17) (s := r.schedule) rfl rfl rfl] at key
  have hcl : serviceConnections.clash rows ((serviceVals cid now h r).map Val.stored) = false ↔ ∀ row ∈ rows, row[0]? ≠ some (.text cid) := by
    simp [Table.clash, serviceConnections, serviceVals, Val.stored]
  have hnul : (serviceVals cid now h r).any Val.hasNul = false ↔ ∀ v ∈ serviceVals cid now h r, v.hasNul = false := by
    rw [List.any_eq_false]
    simp only [Bool.not_eq_true]
  rw [hcl, hnul] at key
  constructor
  · rintro ⟨rows', hi⟩
    obtain ⟨⟨a, ⟨b1, b2, b3, b4, b5⟩, c, d⟩, -⟩ := (key rows').1 hi
    exact ⟨b1, d, b3, ⟨b4, b5⟩, b2, c, a⟩
  · rintro ⟨b1, d, b3, ⟨b4, b5⟩, b2, c, a⟩
    exact ⟨_, (key _).2 ⟨⟨a, ⟨b1, b2, b3, b4, b5⟩, c, d⟩, rfl⟩⟩

theorem optLabel_back {x : Option Label} (h : ∀ l, x = some l → l.FromText) : (optLabel x).back = optLabel x := by
  cases x with
  | none => rfl
  | some l => simp only [optLabel, Val.back, fromText_back (h l rfl)]

/-- **C82, the recorded reservation is the requested one**: the row of the aggregator is read back unchanged. -/
theorem C82_service_read (rows rows' : Rows) (cid : Str) (now : Int) (h : HeaderIn) (r : Resv) (hn : TimeOk (some now)) (hr : Readable r)
    (hi : insert serviceConnections rows (serviceVals cid now h r) = .ok rows') :
    ∃ row, rows' = rows ++ [row] ∧ loadAll row = .ok (serviceVals cid now h r) := by
  obtain ⟨row, h1, h2⟩ := C82_recorded (by simp [serviceVals]) (serviceVals_types cid now h r) (serviceVals_sound hn hr) hi
  refine ⟨row, h1, ?_⟩
  rw [h2]
  have hb : ∀ x, (optText x).back = optText x := fun x => by cases x <;> rfl
  have hb' : ∀ x, (optBool x).back = optBool x := fun x => by cases x <;> rfl
  have ht : ∀ x, (optTime x).back = optTime x := fun x => by cases x <;> rfl
  have hc : ∀ x, (optTrace x).back = optTrace x := fun x => by cases x <;> rfl
  simp only [serviceVals, List.map_cons, List.map_nil, hb, hb', ht, hc, optLabel_back hr.source, optLabel_back hr.dest]
  rfl

/-! ### Segments -/

theorem subVals_types (key order : Int) (provider : Str) (r : Resv) (n : Int) :
    SameTypes subConnections.columns ((subVals key order provider r).set 3 (.int n)) :=
  ⟨rfl, sameType_optText (.inl rfl) _, .inl rfl, rfl, rfl, .inl rfl, .inl rfl, .inl rfl, rfl, trivial, trivial,
   .inl rfl, .inl rfl, sameType_optLabel rfl _, .inl rfl, .inl rfl, sameType_optLabel rfl _, trivial⟩

theorem subVals_sound {key order : Int} {provider : Str} {r : Resv} (n : Int) (hr : Readable r) :
    ∀ v ∈ (subVals key order provider r).set 3 (.int n), v.Sound := by
  intro v hv
  simp only [subVals, List.set_cons_succ, List.set_cons_zero, List.mem_cons, List.mem_nil_iff, or_false] at hv
  rcases hv with rfl | rfl | rfl | rfl | rfl | rfl | rfl | rfl | rfl | rfl | rfl | rfl | rfl | rfl | rfl | rfl | rfl
  all_goals first
    | exact trivial
    | exact optText_sound _
    | exact optLabel_sound hr.source
    | exact optLabel_sound hr.dest

/-- The text of a number is as good as the number for the server. -/
theorem subVals_text (rows : Rows) (key order : Int) (provider : Str) (r : Resv) (s : Str) (n : Int) (hs : r.revision = some s) (hn : pyInt s = some n)
    (h0 : '\x00' ∉ s) :
    insert subConnections rows (subVals key order provider r) = insert subConnections rows ((subVals key order provider r).set 3 (.int n)) := by
  have e1 : coerce ⟨.integer, true⟩ (.lit s) = coerce ⟨.integer, true⟩ (.num n) := by simp [coerce, hn]
  have e2 : ∀ vs : List Val, coerceAll subConnections.columns ((subVals key order provider r).map Val.expr) =
      coerceAll subConnections.columns (((subVals key order provider r).set 3 (.int n)).map Val.expr) := by
    intro vs
    simp only [subVals, hs, optText, List.set_cons_succ, List.set_cons_zero, List.map_cons, subConnections, coerceAll]
    simp only [Val.expr, e1]
  have e3 : (subVals key order provider r).any Val.hasNul = ((subVals key order provider r).set 3 (.int n)).any Val.hasNul := by
    simp only [subVals, hs, optText, List.set_cons_succ, List.set_cons_zero, List.any_cons, Val.hasNul, h0, decide_false]
  unfold insert
  rw [e3]
  have r1 : readValues (subVals key order provider r).length (valuesSql (subVals key order provider r)) = some ((subVals key order provider r).map Val.expr) :=
    C82_statement _ _
  have r2 : readValues ((subVals key order provider r).set 3 (.int n)).length (valuesSql ((subVals key order provider r).set 3 (.int n))) =
      some (((subVals key order provider r).set 3 (.int n)).map Val.expr) := C82_statement _ _
  rw [r1, r2]
  simp only [e2 []]

/-- **C82, segments.** A segment that is confirmed is recorded if it has a connection id that its provider has not used before and a revision
that is a number; it is read back as it was confirmed, with the revision as a number. -/
theorem C82_segment (rows : Rows) (key order : Int) (provider : Str) (r : Resv) (hr : Readable r) (s : Str) (n : Int) (hs : r.revision = some s)
    (hn : pyInt s = some n) (hrange : ∀ x ∈ [key, order, n], -2147483648 ≤ x ∧ x ≤ 2147483647) (hc : r.cid.isSome)
    (hnew : ∀ row ∈ rows, ¬ (row[2]? = some (.text provider) ∧ row[1]? = some (optText r.cid).stored))
    (h0 : ∀ v ∈ subVals key order provider r, v.hasNul = false) :
    ∃ row, insert subConnections rows (subVals key order provider r) = .ok (rows ++ [row]) ∧
      loadAll row = .ok ((subVals key order provider r).set 3 (.int n)) := by
  have hs0 : '\x00' ∉ s := by
    have := h0 (.text s) (by simp [subVals, hs, optText])
    simpa [Val.hasNul] using this
  rw [subVals_text rows key order provider r s n hs hn hs0]
  have key' := insert_iff (t := subConnections) (rows := rows) (by simp [subVals]) (subVals_types key order provider r n) (subVals_sound n hr)
  refine ⟨_, (key' _).2 ⟨⟨?_, ?_, ?_, rfl⟩, rfl⟩, ?_⟩
  · rw [List.any_eq_false]
    intro v hv
    rcases List.mem_or_eq_of_mem_set hv with hv | rfl
    · simp [h0 v hv]
    · simp [Val.hasNul]
  · have hk := hrange key (by simp)
    have ho := hrange order (by simp)
    have hn' := hrange n (by simp)
    simp only [subConnections, subVals, List.set_cons_succ, List.set_cons_zero, FitAll, fits_optText, fits_optLabel, fits_text, hc, true_and, and_true]
    simp only [Fits, true_and, and_true]
    exact ⟨hk, hn', ho⟩
  · rw [Table.clash, List.any_eq_false]
    intro row hrow hall
    simp only [subConnections, List.all_cons, List.all_nil, Bool.and_true, Bool.and_eq_true, decide_eq_true_eq] at hall
    exact hnew row hrow ⟨hall.1, hall.2⟩
  · rw [loadAll_stored (subVals_sound n hr)]
    have hb : ∀ x, (optText x).back = optText x := fun x => by cases x <;> rfl
    simp only [subVals, List.set_cons_succ, List.set_cons_zero, List.map_cons, List.map_nil, hb, optLabel_back hr.source, optLabel_back hr.dest]
    rfl

/-! ### Connections of a backend -/

/-- A label that a backend chooses: one value of an STP that was requested. -/
def Chosen (x : Option Label) : Prop := ∀ l, x = some l → ∃ n : Nat, l.values = [((n : Int), (n : Int))]

theorem chosen_sound {x : Option Label} (h : Chosen x) : (optLabel x).Sound := by
  cases x with
  | none => trivial
  | some l =>
    obtain ⟨n, hn⟩ := h l rfl
    obtain ⟨ty, vs, lp⟩ := l
    simp only at hn
    subst hn
    refine ⟨joinWith ',' ([((n : Int), (n : Int))].map valueText), ?_⟩
    have hc : Canonical [((n : Int), (n : Int))] := by simp [Canonical]
    obtain ⟨vs, hp, hcv, hm⟩ := parse_rendered (rs := [((n : Int), (n : Int))]) valueText (by simp)
      (fun r hr => by
        simp only [List.mem_singleton] at hr
        subst hr
        exact valueText_den (by simp) (by simp)) valueText_no_comma
    have : vs = [((n : Int), (n : Int))] := Canonical.ext hcv hc hm
    subst this
    simp only [Label.mk', hp]

end OpenNSA.Db
