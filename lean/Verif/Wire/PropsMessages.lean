import Verif.Wire.Messages
import Verif.Wire.PropsQuery
import Verif.Wire.PropsErrors
/-
C60: reservations, confirmations, failures and notifications survive the wire.
-/
namespace OpenNSA.Wire
open Py

/-- The times of a reserve request: `+00:00` denotes UTC. -/
theorem parse_utcText (u : Uncommon) (t : Int) (h0 : 0 ≤ t) (h1 : t < maxInstant) : parseXMLTimestamp u (utcText t) = .ok t := by
  have hv := ofInstant_valid h0 h1
  obtain ⟨ds, he, hds, hf⟩ := isoformat_eq (ofInstant t) hv.2.2.2.2.2.2.2.2.2
  have := C47_offset u (ofInstant t) false ds (.colon false 0 0) hv hds ⟨by decide, by decide⟩
  have hz : (Zone.colon false 0 0).text = "+00:00".toList := by decide +kernel
  unfold utcText
  rw [he, ← hz, this]
  have hi : ({ ofInstant t with micro := fracMicros 6 ds } : DT) = ofInstant t := by rw [hf]
  have ho : (Zone.colon false 0 0).offset = 0 := by decide
  rw [hi, instant_ofInstant h0 h1]
  simp only [ho, Int.zero_mul, Int.sub_zero]
  exact if_pos ⟨h0, h1⟩

theorem readSched_utc (u : Uncommon) (s : Sched) (h1 : TimeOk s.start) (h2 : TimeOk s.end_) :
    readSched u (some (wire (.mk "schedule" [] none (optLeaf "startTime" (s.start.map utcText) ++ optLeaf "endTime" (s.end_.map utcText))))) = .ok s := by
  have ht : ∀ t : Option Int, TimeOk t → optTime u (t.map utcText) = .ok t := by
    intro t ht
    cases t with
    | none => rfl
    | some t => simp [optTime, parse_utcText u t (ht t rfl).1 (ht t rfl).2]
  generalize hx : s.start.map utcText = x
  generalize hy : s.end_.map utcText = y
  have e1 : (Elem.mk "schedule" [] none (optLeaf "startTime" x ++ optLeaf "endTime" y)).findtext "startTime" = x := by
    simp only [findtext_kids, findIn_append, findIn_optLeaf]
    cases x <;> simp
  have e2 : (Elem.mk "schedule" [] none (optLeaf "startTime" x ++ optLeaf "endTime" y)).findtext "endTime" = y := by
    simp only [findtext_kids, findIn_append, findIn_optLeaf]
    cases y <;> simp
  simp only [readSched, wire_findtext, e1, e2]
  rw [← hx, ← hy, ht _ h1, ht _ h2]

/-- A reservation that can be sent: termination points with texts, a direction, times of Python, a revision; parameters have a type
and a value that is not empty. -/
structure Resv.Ok (r : Resv) : Prop where
  start : TimeOk r.schedule.start
  end_ : TimeOk r.schedule.end_
  source : StpOk r.sd.source
  dest : StpOk r.sd.dest
  direction : ∃ c cs, r.sd.directionality = some (c :: cs)
  revision : r.revision.isSome
  params : ∀ ps, r.sd.parameters = some ps → ∀ q ∈ ps, q.1.isSome ∧ q.2 ≠ some []

theorem svcDef_request (sty : Str) (rev : Str) (sched : Elem) (hs : sched.tag = "schedule") (p : P2P) (ero params) :
    readSvcDef ["schedule", "serviceType"] (wire (.mk "criteria" [("version", rev)] none [sched, leaf "serviceType" (some sty), p.xml ero params p2psTag])) =
      (buildP2P (wire (p.xml ero params p2psTag))).map SvcDef.p2p := by
  have hk : ((wire (.mk "criteria" [("version", rev)] none [sched, leaf "serviceType" (some sty), p.xml ero params p2psTag])).kids.filter
        fun k => decide (k.tag ∉ ["schedule", "serviceType"])) = [wire (p.xml ero params p2psTag)] := by
    have t2 : ∀ t, (p.xml ero params t).tag = t := fun _ => rfl
    simp [hs, t2, p2psTag]
  have ht : (wire (p.xml ero params p2psTag)).tag = p2psTag := by rw [wire_tag]; rfl
  unfold readSvcDef
  rw [hk]
  simp only [List.mapM_cons, List.mapM_nil, parseSvcDef, if_pos ht]
  cases buildP2P (wire (p.xml ero params p2psTag)) <;> rfl

theorem truthy_map {α β : Type} (f : α → β) (x : Option (List α)) : truthy (x.map fun l => l.map f) = (truthy x).map fun l => l.map f := by
  cases x with
  | none => rfl
  | some l => cases l <;> rfl

/-- The parameters as the receiver has them. -/
theorem params_received {r : Resv} (h : r.Ok) :
    truthy (paramsIn (sentParams r.sd)) = truthy r.sd.parameters := by
  have hp := h.params
  unfold sentParams
  cases hps : r.sd.parameters with
  | none => rfl
  | some ps =>
    cases ps with
    | nil => rfl
    | cons q qs =>
      have : ((q :: qs).map fun q : Option Str × Option Str => (some (q.1.getD []), normText q.2)) = q :: qs := by
        conv => rhs; rw [← List.map_id (q :: qs)]
        apply List.map_congr_left
        intro x hx
        obtain ⟨h1, h2⟩ := hp _ hps x hx
        obtain ⟨a, b⟩ := x
        have hb : normText b = b := by
          cases b with
          | none => rfl
          | some b => cases b with
            | nil => exact absurd rfl h2
            | cons => rfl
        simp only [getD_of_isSome h1, hb, id]
      simp only [truthy, paramsIn] at this ⊢
      rw [this]

theorem reserve_find (r : Resv) : (wire r.requestXml).find "criteria" = some (wire (.mk "criteria" [("version", strOf r.revision)] none
       [.mk "schedule" [] none (optLeaf "startTime" (r.schedule.start.map utcText) ++ optLeaf "endTime" (r.schedule.end_.map utcText)),
        leaf "serviceType" (some requestType),
        r.sd.xml r.sd.ero (sentParams r.sd) p2psTag])) := by
  simp [Resv.requestXml, find_kids, findIn_append, findIn_optLeaf, findIn_cons]

theorem strOf_isSome {x : Option Str} (h : x.isSome) : some (strOf x) = x := by cases x <;> simp_all [strOf]

/-- What the receiver does with a reserve request that can be sent, whatever the ERO. -/
theorem readReserve_xml (u : Uncommon) (r : Resv) (h : r.Ok) :
    readReserve u (wire r.requestXml) = .ok (match r.sd.ero with
      | some (_ :: _) => .fault .payloadError
      | _ => .passed { r with sd := { r.sd with symmetric := some (r.sd.symmetric.getD false), ero := none, parameters := truthy r.sd.parameters } }) := by
  obtain ⟨c, cs, hdir⟩ := h.direction
  have hsc : ∀ (rev : Str) (a b : Elem) (s : Elem), s.tag = "schedule" → (wire (.mk "criteria" [("version", rev)] none [s, a, b])).find "schedule" = some (wire s) := by
    intro rev a b s hs
    simp [find_kids, findIn_cons, hs]
  have hv : ∀ (rev : Str) (k : List Elem), (wire (.mk "criteria" [("version", rev)] none k)).get "version" = some rev := by
    intro rev k
    simp [Elem.get, dget]
  have e1 : (wire r.requestXml).findtext "connectionId" = r.cid := by
    rw [wire_findtext]
    simp only [Resv.requestXml, findtext_kids, findIn_append, findIn_optLeaf, findIn_cons]
    cases r.cid <;> simp
  have e2 : (wire r.requestXml).findtext "globalReservationId" = r.gid := by
    rw [wire_findtext]
    simp only [Resv.requestXml, findtext_kids, findIn_append, findIn_optLeaf, findIn_cons]
    cases r.gid <;> simp
  have e3 : (wire r.requestXml).findtext "description" = r.description := by
    rw [wire_findtext]
    simp only [Resv.requestXml, findtext_kids, findIn_append, findIn_optLeaf, findIn_cons]
    cases r.description <;> simp
  unfold readReserve
  rw [reserve_find]
  simp only [svcDef_request _ _ (.mk "schedule" [] none (optLeaf "startTime" (r.schedule.start.map utcText) ++ optLeaf "endTime" (r.schedule.end_.map utcText))) rfl,
    buildP2P_xml, Except.map, hdir, Option.getD_some, hsc _ _ _ (.mk "schedule" [] none _) rfl, readSched_utc u r.schedule h.start h.end_, hv, readP2P, readSTP_urn _ h.source, readSTP_urn _ h.dest,
    params_received h, e1, e2, e3, strOf_isSome h.revision]
  rw [if_neg (by simp)]
  cases hero : r.sd.ero with
  | none => simp
  | some l => cases l with
    | nil => simp [eroIn]
    | cons s ss => simp [eroIn]

/-- **C60, reserve.** A reservation request is received as it was sent: ids, description, revision, times to the microsecond, both
termination points, capacity, direction and parameters. A missing symmetry is read as asymmetric. -/
theorem C60_reserve (u : Uncommon) (h : NHeader) (proto fresh : Str) (r : Resv) (hr : r.Ok) (he : truthy r.sd.ero = none) :
    ∃ hd body, parseRequest fresh (wire (soapPayload [r.requestXml] [createHeader h proto])) = .ok (hd, [body]) ∧
      readReserve u body = .ok (.passed { r with sd := { r.sd with
        symmetric := some (r.sd.symmetric.getD false), ero := none, parameters := truthy r.sd.parameters } }) := by
  refine ⟨_, _, parseRequest_createHeader h proto fresh [r.requestXml], ?_⟩
  rw [readReserve_xml u r hr]
  cases hero : r.sd.ero with
  | none => rfl
  | some l => cases l with
    | nil => rfl
    | cons s ss => rw [hero] at he; simp [truthy] at he

/-- **C60, ERO.** A request with an ERO — which this program can send — is refused with a payload error by this program. -/
theorem C60_ero_refused (u : Uncommon) (h : NHeader) (proto fresh : Str) (r : Resv) (hr : r.Ok) (he : truthy r.sd.ero ≠ none) :
    ∃ hd body, parseRequest fresh (wire (soapPayload [r.requestXml] [createHeader h proto])) = .ok (hd, [body]) ∧
      readReserve u body = .ok (.fault .payloadError) := by
  refine ⟨_, _, parseRequest_createHeader h proto fresh [r.requestXml], ?_⟩
  rw [readReserve_xml u r hr]
  cases hero : r.sd.ero with
  | none => rw [hero] at he; exact absurd rfl he
  | some l => cases l with
    | nil => rw [hero] at he; exact absurd rfl he
    | cons s ss => rfl

/-- **C60, reserveConfirmed.** A confirmation of a reservation is received as it was sent, without ERO and parameters. -/
theorem C60_confirmed (u : Uncommon) (h : NHeader) (proto fresh : Str) (r : Resv) (h1 : TimeOk r.schedule.start) (h2 : TimeOk r.schedule.end_)
    (h3 : r.sd.Ok) (h4 : r.revision.isSome) (h5 : r.cid.isSome) :
    ∃ hd body, parseRequest fresh (wire (soapPayload [r.confirmXml] [createHeader h proto])) = .ok (hd, [body]) ∧
      readReserveConfirmed u body = .ok { r with sd := r.sd.bare } := by
  refine ⟨_, _, parseRequest_createHeader h proto fresh [r.confirmXml], ?_⟩
  have hf : (wire r.confirmXml).find "criteria" = some (wire (.mk "criteria" [("version", strOf r.revision)] none
       [r.schedule.xml "schedule", leaf "serviceType" (some evtsAgole),
        r.sd.xml none (some []) p2psTag])) := by
    simp [Resv.confirmXml, find_kids, findIn_append, findIn_optLeaf, findIn_cons]
  have hsc : ∀ (rev : Str) (a b : Elem) (s : Elem), s.tag = "schedule" → (wire (.mk "criteria" [("version", rev)] none [s, a, b])).find "schedule" = some (wire s) := by
    intro rev a b s hs
    simp [find_kids, findIn_cons, hs]
  have hv : ∀ (rev : Str) (k : List Elem), (wire (.mk "criteria" [("version", rev)] none k)).get "version" = some rev := by
    intro rev k
    simp [Elem.get, dget]
  have e1 : (wire r.confirmXml).findtext "connectionId" = r.cid := by
    simp [Resv.confirmXml, findtext_kids, findIn_cons, getD_of_isSome h5]
  have e2 : (wire r.confirmXml).findtext "globalReservationId" = r.gid := by
    rw [wire_findtext]
    simp only [Resv.confirmXml, findtext_kids, findIn_append, findIn_optLeaf, findIn_cons]
    cases r.gid <;> simp
  have e3 : (wire r.confirmXml).findtext "description" = r.description := by
    rw [wire_findtext]
    simp only [Resv.confirmXml, findtext_kids, findIn_append, findIn_optLeaf, findIn_cons]
    cases r.description <;> simp
  show readReserveConfirmed u (wire r.confirmXml) = _
  unfold readReserveConfirmed
  rw [hf]
  simp only [svcDef_request _ _ (r.schedule.xml "schedule") rfl, buildP2P_xml, Except.map, hsc _ _ _ (r.schedule.xml "schedule") rfl, readSched_xml u _ _ h1 h2, hv,
    e1, e2, e3, strOf_isSome h4, readP2P, readSTP_urn _ h3.1, readSTP_urn _ h3.2.1, Option.map_none]
  simp only [P2P.bare, getD_of_isSome h3.2.2]

/-- **C60, messages with a connection id only** (commit, abort, provision, release, terminate, their confirmations, and the answer
to a reserve request): the id is received. -/
theorem C60_generic (h : NHeader) (proto fresh : Str) (tag : String) (cid : Str) :
    ∃ hd body, parseRequest fresh (wire (soapPayload [genericXml tag (some cid)] [createHeader h proto])) = .ok (hd, [body]) ∧
      body.tag = tag ∧ readGeneric body = some cid := by
  refine ⟨_, _, parseRequest_createHeader h proto fresh [genericXml tag (some cid)], ?_, ?_⟩
  · simp [genericXml]
  · simp [genericXml, readGeneric, findtext_kids, findIn_cons]

/-- **C60, failures.** The connection id, the states and the error (of the classes of C44) of a failure are received. -/
theorem C60_failure (h : NHeader) (proto fresh : Str) (tag : String) (cid : Str) (st : ConnStates) (e : NSIError)
    (hst : st.Ok) (hc : ¬ e.cls.unlisted) (hp : h.providerNSA ≠ []) :
    ∃ hd body, parseRequest fresh (wire (soapPayload [failureXml tag (some h.providerNSA) (some cid) st (.nsi e)] [createHeader h proto])) = .ok (hd, [body]) ∧
      readFailure hd.providerNSA body = .ok (some cid, st,
        { cls := e.cls, text := some e.text, nsaId := pyOr e.nsaId (some h.providerNSA), connectionId := pyOr e.connectionId none,
          variables := (truthy e.variables).map fun vs => vs.map fun v => (some v.1, some (strOf v.2)) }) := by
  refine ⟨_, _, parseRequest_createHeader h proto fresh _, ?_⟩
  show readFailure (some h.providerNSA) (wire (failureXml tag (some h.providerNSA) (some cid) st (.nsi e))) = _
  have t1 : (st.xml "connectionStates").tag = "connectionStates" := rfl
  have t2 : ∀ s : SvcEx, (s.xml "serviceException").tag = "serviceException" := fun _ => rfl
  have f1 : (wire (failureXml tag (some h.providerNSA) (some cid) st (.nsi e))).find "connectionStates" = some (wire (st.xml "connectionStates")) := by
    simp [failureXml, find_kids, findIn_cons, t1]
  have f2 : (wire (failureXml tag (some h.providerNSA) (some cid) st (.nsi e))).find "serviceException" =
      some (wire ((createServiceException (.nsi e) (some h.providerNSA) none none).xml "serviceException")) := by
    simp [failureXml, find_kids, findIn_cons, t1, t2]
  have f3 : (wire (failureXml tag (some h.providerNSA) (some cid) st (.nsi e))).findtext "connectionId" = some cid := by
    simp [failureXml, findtext_kids, findIn_cons]
  have hcls : lookup (some ((e.cls.errorId).getD [])) = .ok e.cls := by
    have := C44_class_partial e.cls hc
    cases hcc : e.cls.errorId with
    | some c => rw [hcc] at this; exact this
    | none =>
      rw [hcc] at this
      simp only [lookup, Except.ok.injEq] at this
      rw [← this]
      rfl
  unfold readFailure
  rw [f1, readStates_xml st _ hst]
  simp only [f2, f3]
  rw [buildSvcEx_xml _ _ (by
    intro vs hvs
    simp only [createServiceException] at hvs
    cases hv : truthy e.variables with
    | none => rw [hv] at hvs; simp at hvs
    | some us => rw [hv] at hvs; simp only [Option.map_some, Option.some.injEq] at hvs; exact ⟨us, hvs.symm⟩)]
  simp only [createException, createServiceException, hcls]
  have hn : pyOr (some (strOf (pyOr e.nsaId (some h.providerNSA)))) (some h.providerNSA) = pyOr e.nsaId (some h.providerNSA) := by
    cases hpp : h.providerNSA with
    | nil => exact absurd hpp hp
    | cons a as =>
      cases hne : e.nsaId with
      | none => rfl
      | some n => cases n <;> rfl
  rw [hn]
  have hvar : truthy (Option.map (fun vs : List TVP => vs.map fun v => (v.type_, some (v.value.headD [])))
      ((truthy e.variables).map fun vs => vs.map fun v : Str × Option Str => (⟨some v.1, none, [strOf v.2]⟩ : TVP))) =
      (truthy e.variables).map fun vs => vs.map fun v => (some v.1, some (strOf v.2)) := by
    cases e.variables with
    | none => rfl
    | some vs => cases vs with
      | nil => rfl
      | cons v vs => simp [truthy]
  rw [hvar]

/-- **C60, timeouts.** A reserve timeout notification is received as sent. -/
theorem C60_timeout (u : Uncommon) (h : NHeader) (proto fresh : Str) (m : TimeoutMsg) (ht : TimeOk (some m.timestamp))
    (h1 : m.cid.isSome) (h2 : m.origCid.isSome) (h3 : m.origNsa.isSome) :
    ∃ hd body, parseRequest fresh (wire (soapPayload [m.xml] [createHeader h proto])) = .ok (hd, [body]) ∧ readTimeout u body = .ok m := by
  refine ⟨_, _, parseRequest_createHeader h proto fresh [m.xml], ?_⟩
  show readTimeout u (wire m.xml) = _
  simp only [readTimeout, wire_findtext, TimeoutMsg.xml, findtext_kids, findIn_cons]
  simp [intOf_show, C47_roundtrip u _ (ht _ rfl).1 (ht _ rfl).2, getD_of_isSome h1, getD_of_isSome h2, strOf_isSome h3, getD_of_isSome h3]

/-- **C60, data plane.** A data plane notification is received as sent, and the text given as time stamp denotes the time stamp
sent. -/
theorem C60_data_plane (u : Uncommon) (h : NHeader) (proto fresh : Str) (cid : Str) (nid t : Int) (d : DPS) (ht : TimeOk (some t))
    (hd : d.version.isSome) :
    ∃ hd body x, parseRequest fresh (wire (soapPayload [dataPlaneXml (some cid) nid t d] [createHeader h proto])) = .ok (hd, [body]) ∧
      readDataPlane body = .ok (some cid, nid, some x, d) ∧ parseXMLTimestamp u x = .ok t := by
  refine ⟨_, _, createXMLTime t, parseRequest_createHeader h proto fresh [dataPlaneXml (some cid) nid t d], ?_, C47_roundtrip u _ (ht _ rfl).1 (ht _ rfl).2⟩
  show readDataPlane (wire (dataPlaneXml (some cid) nid t d)) = _
  have t1 : (d.xml "dataPlaneStatus").tag = "dataPlaneStatus" := rfl
  have f : (wire (dataPlaneXml (some cid) nid t d)).find "dataPlaneStatus" = some (wire (d.xml "dataPlaneStatus")) := by
    simp [dataPlaneXml, find_kids, findIn_cons, t1]
  simp only [readDataPlane, wire_findtext, f, readDPS_xml d _ hd]
  simp [dataPlaneXml, findtext_kids, findIn_cons, intOf_show]

/-! ### Examples -/

namespace Ex

def labelled : STP := ⟨"north".toList, "p1".toList, some { type_ := tVlan, values := [(1780, 1783)] }⟩
def resv : Resv :=
  { cid := some "N-1".toList, gid := none, description := some "test".toList, revision := some "0".toList,
    schedule := ⟨some 63839000000000000, some 63839000000000001⟩,
    sd := ⟨labelled, stpB, 200, some "Bidirectional".toList, none, some [], some [(some "mtu".toList, some "9000".toList)]⟩ }

theorem labelled_ok : StpOk labelled := by
  refine ⟨⟨by decide, by decide, by decide, by decide +kernel⟩, ?_⟩
  intro l hl
  simp only [labelled, Option.some.injEq] at hl
  subst hl
  refine ⟨?_, Or.inl rfl⟩
  exact ⟨"1780-1783".toList, by decide +kernel⟩

theorem resv_ok : resv.Ok where
  start := by intro x hx; cases hx; decide
  end_ := by intro x hx; cases hx; decide
  source := labelled_ok
  dest := stp_ok.2
  direction := ⟨'B', "idirectional".toList, rfl⟩
  revision := rfl
  params := by
    intro ps hps q hq
    cases hps
    simp only [List.mem_singleton] at hq
    subst hq
    exact ⟨rfl, by decide⟩

end Ex

/-- `C60_reserve`, `C60_confirmed`: a labelled termination point, both times, a parameter and an empty ERO. -/
example : Ex.resv.Ok ∧ truthy Ex.resv.sd.ero = none ∧ Ex.resv.sd.Ok ∧ Ex.resv.cid.isSome := ⟨Ex.resv_ok, rfl, ⟨Ex.labelled_ok, Ex.stp_ok.2, rfl⟩, rfl⟩

/-- `C60_ero_refused` -/
example : ({ Ex.resv with sd := { Ex.resv.sd with ero := some [Ex.stpA] } } : Resv).Ok ∧
    truthy ({ Ex.resv with sd := { Ex.resv.sd with ero := some [Ex.stpA] } } : Resv).sd.ero ≠ none :=
  ⟨⟨Ex.resv_ok.start, Ex.resv_ok.end_, Ex.resv_ok.source, Ex.resv_ok.dest, Ex.resv_ok.direction, Ex.resv_ok.revision, Ex.resv_ok.params⟩, by simp [truthy]⟩

/-- `C60_failure` -/
example : (Ex.states (some 3)).Ok ∧ ¬ ErrClass.unlisted .stpUnavailableError ∧ Ex.hdr.providerNSA ≠ [] :=
  ⟨⟨rfl, rfl, rfl, rfl⟩, by decide, by decide⟩

/-- `C60_timeout`, `C60_data_plane` -/
example : TimeOk (some 63839000000000001) ∧ (Ex.states (some 3)).dps.version.isSome := ⟨by intro x hx; cases hx; decide, rfl⟩

/-- What is passed on, if anything. -/
def ReserveIn.params : ReserveIn → Option (List (Option Str × Option Str))
  | .fault _ => none
  | .passed r => r.sd.parameters

/-- **C60 is violated for empty parameter values**: a parameter with an empty value is received without value
(p2pservices.py:34, 62; the value is passed on as `None`). -/
theorem C60_parameter_fails : ∃ r : Resv, r.sd.parameters = some [(some "flag".toList, some [])] ∧
    (readReserve Ex.noUncommon (wire r.requestXml)).toOption.bind ReserveIn.params = some [(some "flag".toList, none)] :=
  ⟨{ Ex.resv with sd := { Ex.resv.sd with parameters := some [(some "flag".toList, some [])] } }, rfl, by decide +kernel⟩

/-- The service type of a message. -/
def Elem.serviceType (e : Elem) : Option Str := (e.find "criteria").bind fun c => c.findtext "serviceType"

/-- **C60, service type.** Every reserve request carries another service type than the confirmation of the same reservation, which carries the
type that the topology offers (requesterclient.py:120, providerclient.py:83, constants.py:26, nmlxml.py:105). No provider of this program
looks at it. -/
theorem C60_service_type_fails (r : Resv) :
    (wire r.requestXml).serviceType = some "http://services.ogf.org/nsi/2013/12/descriptions/EVTS.A-GOLE".toList ∧
    (wire r.confirmXml).serviceType = some "http://services.ogf.org/nsi/2013/07/descriptions/EVTS.A-GOLE".toList := by
  rw [show "http://services.ogf.org/nsi/2013/12/descriptions/EVTS.A-GOLE".toList = requestType from rfl,
    show "http://services.ogf.org/nsi/2013/07/descriptions/EVTS.A-GOLE".toList = evtsAgole from rfl]
  refine ⟨?_, ?_⟩
  · unfold Elem.serviceType
    rw [reserve_find, Option.bind_some, wire_findtext]
    generalize requestType = x
    simp [findtext_kids, findIn_cons]
  · have hf : (wire r.confirmXml).find "criteria" = some (wire (.mk "criteria" [("version", strOf r.revision)] none
       [r.schedule.xml "schedule", leaf "serviceType" (some evtsAgole), r.sd.xml none (some []) p2psTag])) := by
      simp [Resv.confirmXml, find_kids, findIn_append, findIn_optLeaf, findIn_cons]
    have ht : (r.schedule.xml "schedule").tag = "schedule" := rfl
    unfold Elem.serviceType
    rw [hf, Option.bind_some, wire_findtext]
    generalize evtsAgole = x
    simp [findtext_kids, findIn_cons, ht]

end OpenNSA.Wire
