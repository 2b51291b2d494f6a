import Verif.Db.Props
/-
C82: the rows of the backends; requests that are refused by the database only; examples.
-/
namespace OpenNSA.Db
open Py Wire

theorem backendVals_types (cid : Str) (now : Int) (requester : Option Str) (r : Resv) (src dst : Option Label) :
    SameTypes backendConnections.columns (backendVals cid now requester r src dst) :=
  ⟨.inl rfl, rfl, sameType_optText (.inl rfl) _, sameType_optText (.inl rfl) _, sameType_optText (.inl rfl) _, rfl,
   .inl rfl, .inl rfl, .inl rfl, rfl, .inl rfl, .inl rfl, sameType_optLabel rfl _, .inl rfl, .inl rfl, sameType_optLabel rfl _,
   sameType_optTime rfl _, sameType_optTime rfl _, sameType_optBool rfl _, sameType_optText (.inr rfl) _, rfl, rfl, trivial⟩

theorem backendVals_sound {cid : Str} {now : Int} {requester : Option Str} {r : Resv} {src dst : Option Label} (hn : TimeOk (some now))
    (hs : TimeOk r.schedule.start) (he : TimeOk r.schedule.end_) (h1 : Chosen src) (h2 : Chosen dst) :
    ∀ v ∈ backendVals cid now requester r src dst, v.Sound := by
  intro v hv
  simp only [backendVals, List.mem_cons, List.mem_nil_iff, or_false] at hv
  rcases hv with rfl | rfl | rfl | rfl | rfl | rfl | rfl | rfl | rfl | rfl | rfl | rfl | rfl | rfl | rfl | rfl | rfl | rfl | rfl | rfl | rfl | rfl
  all_goals first
    | exact trivial
    | exact optText_sound _
    | exact optBool_sound _
    | exact chosen_sound h1
    | exact chosen_sound h2
    | exact optTime_sound hs
    | exact optTime_sound he
    | exact hn _ rfl

theorem backendVals_fit (cid : Str) (now : Int) (requester : Option Str) (r : Resv) (src dst : Option Label) :
    FitAll backendConnections.columns (backendVals cid now requester r src dst) ↔
    requester.isSome ∧ r.sd.symmetric.isSome ∧ Direction r.sd.directionality ∧ -2147483648 ≤ r.sd.capacity ∧ r.sd.capacity ≤ 2147483647 := by
  simp only [backendConnections, backendVals, FitAll, fits_optText_null, fits_optText, fits_optLabel, fits_optTime, fits_optBool,
    fits_direction, fits_text, true_and, and_true]
  simp only [Fits, true_and, and_true]
  constructor
  · rintro ⟨_, h1, h2, h3, h4⟩; exact ⟨h1, h2, h3, h4⟩
  · rintro ⟨h1, h2, h3, h4⟩; exact ⟨by decide, h1, h2, h3, h4⟩

/-- A label as it is after it was read from the database. -/
def reread (x : Option Label) : Option Label := x.map fun l => { l with listPairs := false }

/-- **C82, connections of a backend.** The row for a connection is saved exactly if the requester is named, start is before end, the direction is
one of the two, the capacity is a number of 32 bits, the connection id is new and no text contains the character 0. -/
theorem C82_backend (rows : Rows) (cid : Str) (now : Int) (requester : Option Str) (r : Resv) (src dst : Option Label) (hn : TimeOk (some now))
    (hs : TimeOk r.schedule.start) (he : TimeOk r.schedule.end_) (h1 : Chosen src) (h2 : Chosen dst) :
    (∃ rows', insert backendConnections rows (backendVals cid now requester r src dst) = .ok rows') ↔
      requester.isSome ∧ Ordered r.schedule ∧ Direction r.sd.directionality ∧ (-2147483648 ≤ r.sd.capacity ∧ r.sd.capacity ≤ 2147483647) ∧
      r.sd.symmetric.isSome ∧ (∀ row ∈ rows, row[0]? ≠ some (.text cid)) ∧ ∀ v ∈ backendVals cid now requester r src dst, v.hasNul = false := by
  have key := insert_iff (t := backendConnections) (rows := rows) (by simp [backendVals]) (backendVals_types cid now requester r src dst)
    (backendVals_sound hn hs he h1 h2)
  rw [backendVals_fit, checkFails_times (i := 16) (j := 17) (s := r.schedule) rfl rfl rfl] at key
  have hcl : backendConnections.clash rows ((backendVals cid now requester r src dst).map Val.stored) = false ↔ ∀ row ∈ rows, row[0]? ≠ some (.text cid) := by
    simp [Table.clash, backendConnections, backendVals, Val.stored]
  have hnul : (backendVals cid now requester r src dst).any Val.hasNul = false ↔ ∀ v ∈ backendVals cid now requester r src dst, v.hasNul = false := by
    rw [List.any_eq_false]
    simp only [Bool.not_eq_true]
  rw [hcl, hnul] at key
  constructor
  · rintro ⟨rows', hi⟩
    obtain ⟨⟨a, ⟨b1, b2, b3, b4, b5⟩, c, d⟩, -⟩ := (key rows').1 hi
    exact ⟨b1, d, b3, ⟨b4, b5⟩, b2, c, a⟩
  · rintro ⟨b1, d, b3, ⟨b4, b5⟩, b2, c, a⟩
    exact ⟨_, (key _).2 ⟨⟨a, ⟨b1, b2, b3, b4, b5⟩, c, d⟩, rfl⟩⟩

/-- **C82, connections of a backend are read back** with the same ports, times and capacity, and with labels of the same values. -/
theorem C82_backend_read (rows rows' : Rows) (cid : Str) (now : Int) (requester : Option Str) (r : Resv) (src dst : Option Label) (hn : TimeOk (some now))
    (hs : TimeOk r.schedule.start) (he : TimeOk r.schedule.end_) (h1 : Chosen src) (h2 : Chosen dst)
    (hi : insert backendConnections rows (backendVals cid now requester r src dst) = .ok rows') :
    ∃ row, rows' = rows ++ [row] ∧ loadAll row = .ok (backendVals cid now requester r (reread src) (reread dst)) ∧
      (∀ x ∈ [src, dst], ∀ l, x = some l → ∃ l', reread x = some l' ∧ l'.type_ = l.type_ ∧ ∀ m, l'.has m ↔ l.has m) := by
  obtain ⟨row, e1, e2⟩ := C82_recorded (by simp [backendVals]) (backendVals_types cid now requester r src dst) (backendVals_sound hn hs he h1 h2) hi
  refine ⟨row, e1, ?_, ?_⟩
  · rw [e2]
    have hb : ∀ x, (optText x).back = optText x := fun x => by cases x <;> rfl
    have hb' : ∀ x, (optBool x).back = optBool x := fun x => by cases x <;> rfl
    have ht : ∀ x, (optTime x).back = optTime x := fun x => by cases x <;> rfl
    have hl : ∀ x, (optLabel x).back = optLabel (reread x) := fun x => by cases x <;> rfl
    simp only [backendVals, List.map_cons, List.map_nil, hb, hb', ht, hl]
    rfl
  · intro x _ l hl
    subst hl
    exact ⟨_, rfl, rfl, fun m => Iff.rfl⟩

/-- **C82 is violated for the equality of labels**: after a restart the label of a connection is not equal (nsa.py:174-176) to the label it had
before, although both are the same VLAN. -/
theorem C82_label_equal_fails (type_ : Str) (n : Nat) : ∃ l l', Label.mk' type_ (.int n) = .ok l ∧ Chosen (some l) ∧ reread (some l) = some l' ∧
    load (Val.stored (.label l)) = .ok (.label l') ∧ (∀ m, l'.has m ↔ l.has m) ∧ l'.eq l = false := by
  refine ⟨{ type_, values := [(n, n)], listPairs := true }, { type_, values := [(n, n)], listPairs := false }, rfl, ?_, rfl, ?_, fun m => Iff.rfl, ?_⟩
  · intro l hl
    cases hl
    exact ⟨n, rfl⟩
  · have := load_stored (v := .label { type_, values := [((n : Int), (n : Int))], listPairs := true })
      (chosen_sound (x := some { type_, values := [((n : Int), (n : Int))], listPairs := true }) (by intro l hl; cases hl; exact ⟨n, rfl⟩))
    exact this
  · simp [Label.eq]

/-! ### Requests that are refused by the database only -/

namespace Ex

/-- A request with both times, a label, no ERO and no parameters. -/
def good : Resv :=
  { Wire.Ex.resv with sd := { Wire.Ex.resv.sd with symmetric := some true, ero := none, parameters := none } }
def late : Resv := { good with schedule := ⟨some 63839000000000001, some 63839000000000000⟩ }
def sideways : Resv := { good with sd := { good.sd with directionality := some "Sideways".toList } }
def huge : Resv := { good with sd := { good.sd with capacity := 2147483648 } }
def backwards : Resv := { good with sd := { good.sd with capacity := -200 } }
def hdr : HeaderIn :=
  { requesterNSA := some "urn:ogf:network:o'brien.net:nsa".toList, providerNSA := some "urn:ogf:network:north:nsa".toList, correlationId := some "urn:uuid:1".toList,
    replyTo := some "http://r/s".toList, securityAttributes := [("user".toList, "x', 'y')::label; DROP TABLE sub_connections; --\\".toList)],
    connectionTrace := some [some "urn:a:1".toList, none] }

theorem good_ok : good.Ok where
  start := Wire.Ex.resv_ok.start
  end_ := Wire.Ex.resv_ok.end_
  source := Wire.Ex.resv_ok.source
  dest := Wire.Ex.resv_ok.dest
  direction := Wire.Ex.resv_ok.direction
  revision := Wire.Ex.resv_ok.revision
  params := by intro ps hps; cases hps

theorem late_ok : late.Ok where
  start := by intro x hx; cases hx; decide
  end_ := by intro x hx; cases hx; decide
  source := good_ok.source
  dest := good_ok.dest
  direction := good_ok.direction
  revision := good_ok.revision
  params := good_ok.params

theorem sideways_ok : sideways.Ok :=
  ⟨good_ok.start, good_ok.end_, good_ok.source, good_ok.dest, ⟨'S', "ideways".toList, rfl⟩, good_ok.revision, good_ok.params⟩
theorem huge_ok : huge.Ok := ⟨good_ok.start, good_ok.end_, good_ok.source, good_ok.dest, good_ok.direction, good_ok.revision, good_ok.params⟩
theorem backwards_ok : backwards.Ok := ⟨good_ok.start, good_ok.end_, good_ok.source, good_ok.dest, good_ok.direction, good_ok.revision, good_ok.params⟩

theorem source_text : ∀ l, good.sd.source.label = some l → l.FromText := by
  intro l hl
  cases hl
  exact ⟨"1780-1783".toList, by decide +kernel⟩
theorem dest_text : ∀ l, good.sd.dest.label = some l → l.FromText := fun l hl => (good_ok.dest.2 l hl).1

theorem good_readable : Readable good := ⟨good_ok.start, good_ok.end_, source_text, dest_text⟩
theorem late_readable : Readable late := ⟨late_ok.start, late_ok.end_, source_text, dest_text⟩
theorem sideways_readable : Readable sideways := ⟨good_ok.start, good_ok.end_, source_text, dest_text⟩
theorem huge_readable : Readable huge := ⟨good_ok.start, good_ok.end_, source_text, dest_text⟩
theorem backwards_readable : Readable backwards := ⟨good_ok.start, good_ok.end_, source_text, dest_text⟩

end Ex

/-- The request is passed on by the provider service, whatever the header. -/
def Passed (r : Resv) : Prop := ∀ (u : Uncommon) (h : NHeader) (proto fresh : Str),
  ∃ hd body, parseRequest fresh (wire (soapPayload [r.requestXml] [createHeader h proto])) = .ok (hd, [body]) ∧ readReserve u body = .ok (.passed r)

theorem passed_of_ok {r : Resv} (h : r.Ok) (h1 : r.sd.symmetric.isSome) (h2 : r.sd.ero = none) (h3 : r.sd.parameters = none) : Passed r := by
  intro u hd proto fresh
  obtain ⟨a, b, e1, e2⟩ := C60_reserve u hd proto fresh r h (by rw [h2]; rfl)
  refine ⟨a, b, e1, ?_⟩
  rw [e2]
  obtain ⟨cid, gid, desc, rev, sched, sd⟩ := r
  obtain ⟨src, dst, cap, dir, sym, ero, par⟩ := sd
  cases sym with
  | none => simp at h1
  | some s =>
    simp only at h2 h3
    subst h2 h3
    rfl

/-- **C82 is violated for the order of the times**: a request whose end is before its start is passed on and refused by the database only, so that
its requester is told of an internal error. -/
theorem C82_schedule_fails : ∃ r : Resv, (∃ a b, r.schedule.start = some a ∧ r.schedule.end_ = some b ∧ b ≤ a) ∧ Passed r ∧
    ∀ rows cid now h, TimeOk (some now) → ¬ ∃ rows', insert serviceConnections rows (serviceVals cid now h r) = .ok rows' := by
  refine ⟨Ex.late, ⟨63839000000000001, 63839000000000000, rfl, rfl, by decide⟩, passed_of_ok Ex.late_ok rfl rfl rfl, ?_⟩
  intro rows cid now h hn hi
  have := ((C82_service rows cid now h Ex.late hn Ex.late_readable).1 hi).2.1
  exact absurd (this _ _ rfl rfl) (by decide)

/-- **C82 is violated for the direction**: a request with a direction that there is not is passed on and refused by the database only. -/
theorem C82_direction_fails : ∃ r : Resv, r.sd.directionality = some "Sideways".toList ∧ Passed r ∧
    ∀ rows cid now h, TimeOk (some now) → ¬ ∃ rows', insert serviceConnections rows (serviceVals cid now h r) = .ok rows' := by
  refine ⟨Ex.sideways, rfl, passed_of_ok Ex.sideways_ok rfl rfl rfl, ?_⟩
  intro rows cid now h hn hi
  have := ((C82_service rows cid now h Ex.sideways hn Ex.sideways_readable).1 hi).2.2.1
  revert this
  simp only [Direction, Ex.sideways]
  decide

/-- **C82 is violated for large capacities**: a request for 2147483648 Mbps or more, which the messages allow, is passed on and refused by the
database only. -/
theorem C82_capacity_fails : ∃ r : Resv, r.sd.capacity = 2147483648 ∧ Passed r ∧
    ∀ rows cid now h, TimeOk (some now) → ¬ ∃ rows', insert serviceConnections rows (serviceVals cid now h r) = .ok rows' := by
  refine ⟨Ex.huge, rfl, passed_of_ok Ex.huge_ok rfl rfl rfl, ?_⟩
  intro rows cid now h hn hi
  have := ((C82_service rows cid now h Ex.huge hn Ex.huge_readable).1 hi).2.2.2.1
  exact absurd this.2 (by decide)

theorem now_ok : TimeOk (some 63838000000000000) := by intro x hx; cases hx; decide

/-- **C82 is violated for negative capacities**: a request for -200 Mbps is passed on and recorded. -/
theorem C82_negative_fails : ∃ r : Resv, r.sd.capacity = -200 ∧ Passed r ∧
    ∃ rows', insert serviceConnections [] (serviceVals "N-1".toList 63838000000000000 Ex.hdr r) = .ok rows' := by
  refine ⟨Ex.backwards, rfl, passed_of_ok Ex.backwards_ok rfl rfl rfl, ?_⟩
  rw [C82_service _ _ _ _ _ now_ok Ex.backwards_readable]
  refine ⟨rfl, ?_, .inl rfl, by decide, rfl, by simp, by decide +kernel⟩
  intro a b ha hb
  cases ha; cases hb
  decide

/-! ### Examples -/

/-- `C82_service`, `C82_service_read`, `C82_statement`: a request with quotation marks and a backslash in its header is recorded. -/
example : TimeOk (some 63838000000000000) ∧ Readable Ex.good ∧
    ∃ rows', insert serviceConnections [] (serviceVals "N-1".toList 63838000000000000 Ex.hdr Ex.good) = .ok rows' := by
  refine ⟨now_ok, Ex.good_readable, ?_⟩
  rw [C82_service _ _ _ _ _ now_ok Ex.good_readable]
  refine ⟨rfl, ?_, .inl rfl, by decide, rfl, by simp, by decide +kernel⟩
  intro a b ha hb
  cases ha; cases hb
  decide

/-- `C82_segment`: the second segment of a connection, its revision is the text `0`. -/
example : Readable Ex.good ∧ Ex.good.revision = some "0".toList ∧ pyInt "0".toList = some 0 ∧ (∀ x ∈ [7, 1, 0], (-2147483648 : Int) ≤ x ∧ x ≤ 2147483647) ∧
    Ex.good.cid.isSome ∧ ∀ v ∈ subVals 7 1 "urn:ogf:network:south:nsa".toList Ex.good, v.hasNul = false :=
  ⟨Ex.good_readable, rfl, by decide +kernel, by decide, rfl, by decide +kernel⟩

/-- `C82_backend`, `C82_backend_read`: a connection between two VLANs. -/
example : Chosen (some { type_ := "vlan".toList, values := [(1780, 1780)], listPairs := true }) ∧ Chosen none ∧ ∃ rows',
    insert backendConnections [] (backendVals "N-1".toList 63838000000000000 (some "o'brien".toList) Ex.good
      (some { type_ := "vlan".toList, values := [(1780, 1780)], listPairs := true }) none) = .ok rows' := by
  have hc : Chosen (some { type_ := "vlan".toList, values := [(1780, 1780)], listPairs := true }) := by intro l hl; cases hl; exact ⟨1780, rfl⟩
  have hc' : Chosen none := by intro l hl; cases hl
  refine ⟨hc, hc', ?_⟩
  rw [C82_backend _ _ _ _ _ _ _ now_ok Ex.good_ok.start Ex.good_ok.end_ hc hc']
  refine ⟨rfl, ?_, .inl rfl, by decide, rfl, by simp, by decide +kernel⟩
  intro a b ha hb
  cases ha; cases hb
  decide

end OpenNSA.Db
