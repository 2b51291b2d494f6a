import Verif.Criteria.Model
import Verif.Db.PropsBackend
import Verif.Wire.PropsReplies
/-
C83: a connection is recorded, passed on, confirmed and reported as it was requested.
-/
namespace OpenNSA.Criteria
open Py Wire Db

/-- The connection that a request asks for: what it says, under the given id, for the given requester. A missing symmetry means asymmetric. -/
def wanted (cid requester : Str) (r : Resv) : Conn :=
  { cid, revision := 0, gid := r.gid, description := r.description, requester := some requester, source := r.sd.source, dest := r.sd.dest, schedule := r.schedule
    symmetric := some (r.sd.symmetric.getD false), direction := r.sd.directionality, capacity := r.sd.capacity }

theorem stpOk_text {s : STP} (h : StpOk s) : ∀ l, s.label = some l → l.FromText := fun l hl => (h.2 l hl).1

/-- The attributes that a header needs to arrive complete (C45, C59). -/
structure Sendable (h : NHeader) : Prop where
  correlation : h.correlationId ≠ []
  trace : ∀ cs, h.connectionTrace = some cs → cs ≠ [] ∧ ∀ c ∈ cs, c ≠ []
  attributes : ∀ a ∈ h.securityAttributes, a.2 ≠ []

theorem textOf_opt (x : Option Str) : textOf (optText x) = x := by cases x <;> rfl
theorem labelOf_opt (x : Option Label) : labelOf (optLabel x) = x := by cases x <;> rfl
theorem timeOf_opt (x : Option Int) : timeOf (Db.optTime x) = x := by cases x <;> rfl
theorem boolOf_opt (x : Option Bool) : boolOf (optBool x) = x := by cases x <;> rfl

theorem serviceConn_vals (cid : Str) (now : Int) (h : HeaderIn) (r : Resv) : serviceConn (serviceVals cid now h r) =
    some { cid, revision := 0, gid := r.gid, description := r.description, requester := h.requesterNSA, source := r.sd.source, dest := r.sd.dest, schedule := r.schedule,
           symmetric := r.sd.symmetric, direction := r.sd.directionality, capacity := r.sd.capacity } := by
  simp only [serviceVals, serviceConn, textOf_opt, labelOf_opt, timeOf_opt, boolOf_opt]

theorem backendConn_vals (cid : Str) (now : Int) (requester : Option Str) (r : Resv) (src dst : Option Label) : backendConn (backendVals cid now requester r src dst) =
    some { cid, revision := 0, gid := r.gid, description := r.description, requester, source := { r.sd.source with label := src }, dest := { r.sd.dest with label := dst },
           schedule := r.schedule, symmetric := r.sd.symmetric, direction := r.sd.directionality, capacity := r.sd.capacity } := by
  simp only [backendVals, backendConn, textOf_opt, labelOf_opt, timeOf_opt, boolOf_opt]

/-- **C83, what is recorded.** A reservation that a peer sends and the provider records is read from the database as the connection that was
asked for. -/
theorem C83_recorded (u : Uncommon) (fresh replyTo : Str) (h : NHeader) (hh : Sendable h) (r : Resv) (hr : r.Ok) (he : truthy r.sd.ero = none)
    (rows : Rows) (cid : Str) (now : Int) (hn : TimeOk (some now)) :
    ∃ hd r', providerPost u fresh (some (PCall.reserve r).action) ((PCall.reserve r).message replyTo h) = .called hd (.reserve r') ∧
      ∀ rows', insert serviceConnections rows (serviceVals cid now hd r') = .ok rows' →
        ∃ row vals, rows' = rows ++ [row] ∧ loadAll row = .ok vals ∧ serviceConn vals = some (wanted cid h.requesterNSA r) := by
  obtain ⟨hd, x, e1, e2, e3, -⟩ := C81_request u fresh replyTo h (.reserve r) ⟨hr, he⟩ hh.correlation hh.trace hh.attributes
  cases e2
  refine ⟨hd, _, e1, ?_⟩
  intro rows' hi
  have hrd : Readable { r with sd := { r.sd with symmetric := some (r.sd.symmetric.getD false), ero := none, parameters := truthy r.sd.parameters } } :=
    ⟨hr.start, hr.end_, stpOk_text hr.source, stpOk_text hr.dest⟩
  obtain ⟨row, f1, f2⟩ := C82_service_read rows rows' cid now hd _ hn hrd hi
  refine ⟨row, _, f1, f2, ?_⟩
  rw [serviceConn_vals, e3]
  rfl

/-- **C83, what is asked of other providers.** The request for a segment arrives with the identifiers, times, capacity, direction and symmetry of the
reservation it is for. It is made in the name of this agent, with the attributes of the requester, and with a trace that has one more entry: this
agent and the connection. -/
theorem C83_segment (u : Uncommon) (fresh replyTo urn provider corr cid requester : Str) (h : HeaderIn) (r : Resv) (hr : r.Ok) (src dst : STP)
    (hs : StpOk src) (hd : StpOk dst) (hc : corr ≠ []) (ht : ∀ c ∈ h.connectionTrace.getD [], ∃ x, c = some x ∧ x ≠ [])
    (ha : ∀ a ∈ h.securityAttributes, a.2 ≠ []) :
    ∃ hd' r', providerPost u fresh (some (PCall.reserve ((wanted cid requester r).segment r src dst)).action)
        ((PCall.reserve ((wanted cid requester r).segment r src dst)).message replyTo (segmentHeader urn provider corr cid h)) = .called hd' (.reserve r') ∧
      r'.cid = none ∧ r'.gid = r.gid ∧ r'.description = r.description ∧ r'.revision = r.revision ∧ r'.schedule = r.schedule ∧
      r'.sd.source = src ∧ r'.sd.dest = dst ∧ r'.sd.capacity = r.sd.capacity ∧ r'.sd.directionality = r.sd.directionality ∧
      r'.sd.symmetric = some (r.sd.symmetric.getD false) ∧
      hd'.requesterNSA = some urn ∧ hd'.providerNSA = some provider ∧ hd'.correlationId = some corr ∧ hd'.replyTo = some replyTo ∧
      hd'.connectionTrace = some (h.connectionTrace.getD [] ++ [some (urn ++ ':' :: cid)]) ∧ hd'.securityAttributes.Perm h.securityAttributes := by
  have hok : ((wanted cid requester r).segment r src dst).Ok :=
    ⟨hr.start, hr.end_, hs, hd, hr.direction, hr.revision, by intro ps hps; cases hps⟩
  have htr : ∀ cs, (segmentHeader urn provider corr cid h).connectionTrace = some cs → cs ≠ [] ∧ ∀ c ∈ cs, c ≠ [] := by
    intro cs hcs
    simp only [segmentHeader, Option.some.injEq] at hcs
    subst hcs
    refine ⟨by simp, ?_⟩
    intro c hc
    simp only [List.mem_append, List.mem_map, List.mem_singleton] at hc
    rcases hc with ⟨a, ha, rfl⟩ | rfl
    · obtain ⟨x, rfl, hx⟩ := ht a ha
      exact hx
    · simp
  obtain ⟨hd', x, e1, e2, e3, e4, e5, e6, e7, e8⟩ := C81_request u fresh replyTo (segmentHeader urn provider corr cid h) (.reserve ((wanted cid requester r).segment r src dst))
    ⟨hok, rfl⟩ hc htr ha
  cases e2
  refine ⟨hd', _, e1, rfl, rfl, rfl, rfl, rfl, rfl, rfl, rfl, rfl, rfl, e3, e4, e5, e6, ?_, e8⟩
  rw [e7]
  simp only [segmentHeader, Option.map_some, List.map_append, List.map_map, List.map_cons, List.map_nil]
  have : (h.connectionTrace.getD []).map (some ∘ fun x => x.getD []) = h.connectionTrace.getD [] := by
    conv => rhs; rw [← List.map_id (h.connectionTrace.getD [])]
    apply List.map_congr_left
    intro a ha
    obtain ⟨x, rfl, -⟩ := ht a ha
    rfl
  rw [this]

/-! ### Confirmations -/

/-- The STP with another label. -/
def withLabel (s : STP) (l : Option Label) : STP := { s with label := l }

/-- A label that is fit for an STP: one value, made from a number or from text, or none. -/
def Fit (x : Option Label) : Prop := ∀ l, x = some l → (∃ n : Nat, l.values = [((n : Int), (n : Int))]) ∧ (l.type_ = tVlan ∨ l.type_ = tMpls)

theorem fit_ok {s : STP} (h : s.WellNamed) {x : Option Label} (hx : Fit x) : StpOk (withLabel s (reread x)) := by
  refine ⟨⟨h.netq, h.portq, h.portc, h.pref⟩, ?_⟩
  intro l hl
  cases x with
  | none => cases hl
  | some l' =>
    simp only [withLabel, reread, Option.map_some, Option.some.injEq] at hl
    subst hl
    obtain ⟨⟨n, hn⟩, ht⟩ := hx l' rfl
    have hs : (optLabel (some l')).Sound := chosen_sound (x := some l') (by intro l hl; cases hl; exact ⟨n, hn⟩)
    exact ⟨hs, ht⟩

theorem urn_reread (s : STP) (x : Option Label) : (withLabel s (reread x)).urn = (withLabel s x).urn := by cases x <;> rfl

theorem confirmXml_reread (c : Conn) (src dst : Option Label) :
    (c.relabel src dst).confirmed.confirmXml = (c.relabel (reread src) (reread dst)).confirmed.confirmXml := by
  have h1 := urn_reread c.source src
  have h2 := urn_reread c.dest dst
  unfold withLabel at h1 h2
  simp only [Resv.confirmXml, Conn.confirmed, Conn.sd, Conn.relabel, P2P.xml, h1, h2]

/-- What the requester is told about a connection: the id it was given, everything as in the request, with the labels that were chosen. -/
def told (cid : Str) (r : Resv) (src dst : Option Label) (direction : Str) (symmetric : Bool) : Resv :=
  { cid := some cid, gid := r.gid, description := r.description, revision := some "0".toList, schedule := r.schedule
    sd := ⟨withLabel r.sd.source src, withLabel r.sd.dest dst, r.sd.capacity, some direction, some symmetric, none, none⟩ }

theorem told_confirmed (cid requester : Str) (r : Resv) (src dst : Option Label) :
    ((wanted cid requester r).relabel src dst).confirmed = told cid r src dst "Bidirectional".toList false := by
  have : showInt 0 = "0".toList := by decide +kernel
  simp only [wanted, Conn.relabel, Conn.confirmed, Conn.sd, told, this]
  rfl

/-- **C83, what the requester is told** (`_partial`: the direction is always the same, and so is the symmetry, see `C83_direction_fails`). The
confirmation of a reservation reaches the requester with the identifiers, times and capacity of the request, between the same ports, with
the labels that were chosen. -/
theorem C83_confirmed_partial (u : Uncommon) (fresh provider corr cid requester : Str) (hc : corr ≠ []) (r : Resv) (hr : r.Ok) (src dst : Option Label)
    (h1 : Fit src) (h2 : Fit dst) :
    ∃ env hd, (RCall.reserveConfirmed ((wanted cid requester r).relabel src dst).confirmed).message requester provider corr = .ok env ∧
      requesterPost u fresh (some (RCall.reserveConfirmed ((wanted cid requester r).relabel src dst).confirmed).action) env =
        .called hd (.reserveConfirmed (told cid r (reread src) (reread dst) "Bidirectional".toList false)) ∧
      hd.requesterNSA = some requester ∧ hd.providerNSA = some provider ∧ hd.correlationId = some corr := by
  have hok : (RCall.reserveConfirmed ((wanted cid requester r).relabel (reread src) (reread dst)).confirmed).Ok provider :=
    ⟨hr.start, hr.end_, ⟨fit_ok hr.source.1 h1, fit_ok hr.dest.1 h2, rfl⟩, rfl, rfl⟩
  obtain ⟨env, hd, x, e1, e2, e3, e4, e5, e6, -⟩ := C81_reply u fresh requester provider corr _ hok hc
  cases e3
  refine ⟨env, hd, ?_, ?_, e4, e5, e6⟩
  · rw [← e1]
    unfold RCall.message
    simp only [RCall.body, confirmXml_reread (wanted cid requester r) src dst]
  · have ha : (RCall.reserveConfirmed ((wanted cid requester r).relabel src dst).confirmed).action =
      (RCall.reserveConfirmed ((wanted cid requester r).relabel (reread src) (reread dst)).confirmed).action := rfl
    rw [ha, e2, told_confirmed]
    rfl

/-- **C83, the confirmation is what was asked for**: for a bidirectional, asymmetric connection the requester is told what it asked for, with the id
and the labels that were chosen. -/
theorem C83_told (cid : Str) (r : Resv) (src dst : Option Label) (hd : r.sd.directionality = some "Bidirectional".toList) (hs : r.sd.symmetric = some false)
    (he : r.sd.ero = none) (hp : r.sd.parameters = none) (hv : r.revision = some "0".toList) :
    told cid r src dst "Bidirectional".toList false =
      { r with cid := some cid, sd := { r.sd with source := withLabel r.sd.source src, dest := withLabel r.sd.dest dst } } := by
  obtain ⟨c, gid, desc, rev, sched, sd⟩ := r
  obtain ⟨s, d, cap, dir, sym, ero, par⟩ := sd
  simp only at hd hs he hp hv
  subst hd hs he hp hv
  rfl

/-! ### Backends -/

/-- **C83, backends.** What a backend records for a segment, and reads back, is the segment that was asked for, with the labels it chose; so is what it
confirms. -/
theorem C83_backend (rows rows' : Rows) (cid : Str) (now : Int) (requester : Str) (r : Resv) (src dst : Option Label) (hn : TimeOk (some now))
    (hs : TimeOk r.schedule.start) (he : TimeOk r.schedule.end_) (h1 : Chosen src) (h2 : Chosen dst)
    (hi : insert backendConnections rows (backendVals cid now (some requester) r src dst) = .ok rows') :
    ∃ row vals c, rows' = rows ++ [row] ∧ loadAll row = .ok vals ∧ backendConn vals = some c ∧
      c.cid = cid ∧ c.gid = r.gid ∧ c.description = r.description ∧ c.requester = some requester ∧ c.schedule = r.schedule ∧ c.capacity = r.sd.capacity ∧
      c.direction = r.sd.directionality ∧ c.symmetric = r.sd.symmetric ∧
      c.source = withLabel r.sd.source (reread src) ∧ c.dest = withLabel r.sd.dest (reread dst) ∧
      c.confirmed = told cid r (reread src) (reread dst) "Bidirectional".toList false := by
  obtain ⟨row, f1, f2, -⟩ := C82_backend_read rows rows' cid now (some requester) r src dst hn hs he h1 h2 hi
  exact ⟨row, _, _, f1, f2, backendConn_vals .., rfl, rfl, rfl, rfl, rfl, rfl, rfl, rfl, rfl, rfl, told_confirmed cid requester r (reread src) (reread dst)⟩

/-! ### Queries -/

/-- A connection of a query result: what was asked for, by whom, the labels that were chosen, and its state. -/
structure Item where
  cid : Str
  requester : Str
  r : Resv
  src : Option Label
  dst : Option Label
  states : ConnStates
  children : List Child
  notification : Int
  result : Int

/-- The entry for the connection as it is read from the database. -/
def Item.entry (i : Item) (provider : Str) : Info :=
  ((wanted i.cid i.requester i.r).relabel (reread i.src) (reread i.dst)).info provider i.states i.children i.notification i.result

/-- **C83, what a query tells** (`_partial`: direction and symmetry as above). The requester of a summary is told, for each connection and in order, the identifiers,
requester, times, capacity and ports that were asked for, the labels that were chosen, and the states. -/
theorem C83_query_partial (u : Uncommon) (fresh provider requester corr : Str) (hc : corr ≠ []) (items : List Item)
    (ok : ∀ i ∈ items, i.r.Ok ∧ Fit i.src ∧ Fit i.dst ∧ i.states.Ok) :
    ∃ env hd, (RCall.summary (items.map (Item.entry · provider))).message requester provider corr = .ok env ∧
      requesterPost u fresh (some (RCall.summary (items.map (Item.entry · provider))).action) env = .called hd (.summary (items.map fun i =>
        { cid := some i.cid, gid := i.r.gid, description := i.r.description
          criterias := [.mk 0 i.r.schedule (told i.cid i.r (reread i.src) (reread i.dst) "Bidirectional".toList false).sd []]
          provider := some provider, requester := some i.requester, states := i.states
          notificationId := some i.notification, resultId := some i.result })) := by
  have hok : (RCall.summary (items.map (Item.entry · provider))).Ok provider := by
    intro x hx
    obtain ⟨i, hi, rfl⟩ := List.mem_map.1 hx
    obtain ⟨h1, h2, h3, h4⟩ := ok i hi
    refine ⟨rfl, rfl, h4, ?_⟩
    intro c hc
    simp only [Item.entry, Conn.info, List.mem_singleton] at hc
    subst hc
    exact ⟨h1.start, h1.end_, fit_ok h1.source.1 h2, fit_ok h1.dest.1 h3, rfl⟩
  obtain ⟨env, hd, x, e1, e2, e3, -⟩ := C81_reply u fresh requester provider corr _ hok hc
  cases e3
  refine ⟨env, hd, e1, ?_⟩
  rw [e2, List.map_map]
  rfl

/-! ### What is violated -/

/-- A unidirectional connection with a parameter. -/
def oneWay : Resv :=
  { Db.Ex.good with sd := { Db.Ex.good.sd with directionality := some "Unidirectional".toList, symmetric := some true
                                               parameters := some [(some "mtu".toList, some "9000".toList)] } }

theorem oneWay_ok : oneWay.Ok where
  start := Db.Ex.good_ok.start
  end_ := Db.Ex.good_ok.end_
  source := Db.Ex.good_ok.source
  dest := Db.Ex.good_ok.dest
  direction := ⟨'U', "nidirectional".toList, rfl⟩
  revision := rfl
  params := by
    intro ps hps q hq
    cases hps
    simp only [List.mem_singleton] at hq
    subst hq
    exact ⟨rfl, by decide⟩

/-- **C83 is violated for direction and symmetry**: a unidirectional, symmetric connection is recorded as such, but confirmed and reported as
bidirectional and asymmetric (aggregator.py:703, 800, 966, genericbackend.py:551, 592). -/
theorem C83_direction_fails : ∃ r : Resv, r.Ok ∧ ∀ cid requester src dst provider st ch n m,
    (wanted cid requester r).direction = some "Unidirectional".toList ∧ (wanted cid requester r).symmetric = some true ∧
    ((wanted cid requester r).relabel src dst).confirmed.sd.directionality = some "Bidirectional".toList ∧
    ((wanted cid requester r).relabel src dst).confirmed.sd.symmetric = some false ∧
    ∃ rev sched sd, ((wanted cid requester r).info provider st ch n m).criterias = [.mk rev sched sd ch] ∧ sd.directionality = some "Bidirectional".toList ∧
      sd.symmetric = some false :=
  ⟨oneWay, oneWay_ok, fun _ _ _ _ _ _ _ _ _ => ⟨rfl, rfl, rfl, rfl, _, _, _, rfl, rfl, rfl⟩⟩

/-- **C83 is violated for parameters**: the parameters of a request arrive at the provider, but are neither recorded nor passed on. Two requests that
differ in their parameters only lead to the same row, the same segments and the same confirmation. -/
theorem C83_parameters_fails : ∃ r r' : Resv, r.sd.parameters = some [(some "mtu".toList, some "9000".toList)] ∧ r'.sd.parameters = none ∧ Passed r' ∧
    (∀ u h proto fresh, ∃ hd body, parseRequest fresh (wire (soapPayload [r.requestXml] [createHeader h proto])) = .ok (hd, [body]) ∧
      readReserve u body = .ok (.passed r)) ∧
    ∀ cid now hd requester src dst, serviceVals cid now hd r = serviceVals cid now hd r' ∧
      (wanted cid requester r).segment r src dst = (wanted cid requester r').segment r' src dst ∧ wanted cid requester r = wanted cid requester r' := by
  refine ⟨oneWay, { oneWay with sd := { oneWay.sd with parameters := none } }, rfl, rfl, ?_, ?_, fun _ _ _ _ _ _ => ⟨rfl, rfl, rfl⟩⟩
  · exact passed_of_ok ⟨oneWay_ok.start, oneWay_ok.end_, oneWay_ok.source, oneWay_ok.dest, oneWay_ok.direction, oneWay_ok.revision, by intro ps hps; cases hps⟩ rfl rfl rfl
  · intro u h proto fresh
    exact C60_reserve u h proto fresh oneWay oneWay_ok rfl

/-- **C83 is violated for versions**: whatever the version of a request, the connection is recorded, confirmed and reported with version 0. -/
theorem C83_version_fails : ∃ r : Resv, r.Ok ∧ r.revision = some "3".toList ∧ ∀ cid requester src dst,
    ((wanted cid requester r).relabel src dst).confirmed.revision = some "0".toList :=
  ⟨{ Db.Ex.good with revision := some "3".toList },
   ⟨Db.Ex.good_ok.start, Db.Ex.good_ok.end_, Db.Ex.good_ok.source, Db.Ex.good_ok.dest, Db.Ex.good_ok.direction, rfl, Db.Ex.good_ok.params⟩, rfl, fun _ _ _ _ => by rw [told_confirmed]; rfl⟩

/-! ### Examples -/

/-- `C83_recorded`, `C83_segment`, `C83_confirmed_partial`, `C83_backend`: a request with a range of VLANs, of which one is chosen. -/
example : Sendable ⟨"urn:a".toList, "urn:b".toList, "urn:uuid:1".toList, none, [("user".toList, "o'brien".toList)], some ["urn:a:1".toList]⟩ ∧
    Db.Ex.good.Ok ∧ truthy Db.Ex.good.sd.ero = none ∧ Fit (some { type_ := tVlan, values := [(1780, 1780)], listPairs := true }) ∧ Fit none := by
  refine ⟨⟨by decide, ?_, ?_⟩, Db.Ex.good_ok, rfl, ?_, ?_⟩
  · intro cs hcs
    cases hcs
    decide
  · decide
  · intro l hl
    cases hl
    exact ⟨⟨1780, rfl⟩, .inl rfl⟩
  · intro l hl
    cases hl

/-- `C83_query_partial`: two connections, one of them with a chosen VLAN. -/
example : ∀ i ∈ [(⟨"DE-1".toList, "urn:a".toList, Db.Ex.good, some { type_ := tVlan, values := [(1780, 1780)] }, none,
      ⟨some "ReserveHeld".toList, some "Released".toList, some "Created".toList, ⟨false, some 0, false⟩⟩, [], 1, 0⟩ : Item),
    ⟨"DE-2".toList, "urn:b".toList, oneWay, none, none, ⟨some "ReserveStart".toList, some "Provisioned".toList, some "Created".toList, ⟨true, some 0, true⟩⟩, [], 2, 0⟩],
    i.r.Ok ∧ Fit i.src ∧ Fit i.dst ∧ i.states.Ok := by
  intro i hi
  simp only [List.mem_cons, List.not_mem_nil, or_false] at hi
  rcases hi with rfl | rfl
  · refine ⟨Db.Ex.good_ok, ?_, ?_, rfl, rfl, rfl, rfl⟩
    · intro l hl
      cases hl
      exact ⟨⟨1780, rfl⟩, .inl rfl⟩
    · intro l hl
      cases hl
  · exact ⟨oneWay_ok, (by intro l hl; cases hl), (by intro l hl; cases hl), rfl, rfl, rfl, rfl⟩

end OpenNSA.Criteria
