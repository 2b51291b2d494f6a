import Verif.Wire.PropsDispatch
/-
C81, second part: replies and notifications.
-/
namespace OpenNSA.Wire
open Py

theorem parsed_message {h : NHeader} {p fresh : Str} {b : Elem} {hd : HeaderIn} {body : Elem}
    (e : parseRequest fresh (wire (soapPayload [b] [createHeader h p])) = .ok (hd, [body])) : hd = h.arrived fresh ∧ body = wire b := by
  rw [parseRequest_createHeader] at e
  simp only [List.map_cons, List.map_nil, Except.ok.injEq, Prod.mk.injEq, List.cons.injEq, and_true] at e
  exact ⟨e.1.symm, e.2.symm⟩

/-- The messages the provider client can send as intended: see C46, C60, C61 for the conditions. -/
def RCall.Ok (provider : Str) : RCall → Prop
  | .reserveConfirmed r => TimeOk r.schedule.start ∧ TimeOk r.schedule.end_ ∧ r.sd.Ok ∧ r.revision.isSome ∧ r.cid.isSome
  | .confirmed _ _ => True
  | .failed _ _ st err => st.Ok ∧ provider ≠ [] ∧ ∀ e, err = .nsi e → ¬ e.cls.unlisted
  | .reserveTimeout m => TimeOk (some m.timestamp) ∧ m.cid.isSome ∧ m.origCid.isSome ∧ m.origNsa.isSome
  | .dataPlane _ _ t d => TimeOk (some t) ∧ d.version.isSome
  | .errorEvent m => TimeOk (some m.timestamp) ∧ m.cid.isSome ∧ m.event.isSome ∧ m.info = none ∧ m.serviceEx = none
  | .summary is => ∀ i ∈ is, i.cid.isSome ∧ i.requester.isSome ∧ i.states.Ok ∧ ∀ c ∈ i.criterias, c.SummaryOk
  | .recursive is => ∀ i ∈ is, i.Ok

/-- The error as the requester has it: of the same class, with the same text. An error that is not an NSI error is an internal server
error. -/
def AnyError.arrived (provider : Str) : AnyError → NSIErrorIn
  | .nsi e => { cls := e.cls, text := some e.text, nsaId := pyOr e.nsaId (some provider), connectionId := pyOr e.connectionId none,
                variables := (truthy e.variables).map fun vs => vs.map fun v => (some v.1, some (strOf v.2)) }
  | .other t => { cls := .internalServerError, text := some t, nsaId := some provider, connectionId := none, variables := none }

/-- The call of the requester that corresponds to a call of the provider client: the same method with the same arguments. The time stamps
of data plane changes and error events are texts that denote the time sent. -/
inductive RArrives (u : Uncommon) (provider : Str) : RCall → RIn → Prop
  | reserveConfirmed (r : Resv) : RArrives u provider (.reserveConfirmed r) (.reserveConfirmed { r with sd := r.sd.bare })
  | confirmed (o : COp) (cid : Str) : RArrives u provider (.confirmed o cid) (.confirmed o (some cid))
  | failed (o : FOp) (cid : Str) (st : ConnStates) (err : AnyError) :
      RArrives u provider (.failed o cid st err) (.failed o (some cid) st (err.arrived provider))
  | reserveTimeout (m : TimeoutMsg) : RArrives u provider (.reserveTimeout m) (.reserveTimeout m)
  | dataPlane (cid : Str) (nid t : Int) (d : DPS) (x : Str) (h : parseXMLTimestamp u x = .ok t) :
      RArrives u provider (.dataPlane cid nid t d) (.dataPlane (some cid) nid (some x) d)
  | errorEvent (m : EventMsg) (x : Str) (h : parseXMLTimestamp u x = .ok m.timestamp) :
      RArrives u provider (.errorEvent m) (.errorEvent m.cid m.notificationId (some x) m.event m.info m.serviceEx)
  | summary (is : List Info) : RArrives u provider (.summary is)
      (.summary (is.map fun i => { i with criterias := i.criterias.map Crit.summary, provider := some provider }))
  | recursive (is : List Info) : RArrives u provider (.recursive is) (.recursive (is.map fun i => i.received provider))

/-- The decoder for each message. -/
def RCall.decoder : RCall → RDecoder
  | .reserveConfirmed _ => .reserveConfirmed
  | .confirmed o _ => .confirmed o
  | .failed o .. => .failed o
  | .reserveTimeout _ => .reserveTimeout
  | .dataPlane .. => .dataPlane
  | .errorEvent _ => .errorEvent
  | .summary _ => .summary
  | .recursive _ => .recursive

theorem requester_decoder (c : RCall) : dget requesterDecoders c.action = some c.decoder := by
  cases c with
  | confirmed o c => cases o <;> (simp only [RCall.action, RCall.decoder]; decide +kernel)
  | failed o c s e => cases o <;> (simp only [RCall.action, RCall.decoder]; decide +kernel)
  | _ => simp only [RCall.action, RCall.decoder]; decide +kernel

theorem createServiceException_other (t : Str) (p : Option Str) :
    createServiceException (.other t) p none none = createServiceException (.nsi { cls := .internalServerError, text := t }) p none none := by
  rfl

theorem readEvent_xml (m : EventMsg) (h1 : m.cid.isSome) (h2 : m.event.isSome) :
    readEvent (wire (eventXml m)) = .ok (.errorEvent m.cid m.notificationId (some (createXMLTime m.timestamp)) m.event none none) := by
  have f1 : (eventXml m).find "additionalInfo" = none := by simp [eventXml, find_kids, findIn_cons]
  have f2 : (eventXml m).find "serviceException" = none := by simp [eventXml, find_kids, findIn_cons]
  simp only [readEvent, wire_findtext, wire_find, f1, f2, Option.map_none]
  simp [eventXml, findtext_kids, findIn_cons, intOf_show, getD_of_isSome h1, getD_of_isSome h2]

/-- **C81, replies and notifications.** Each message of the provider client becomes the call of the same method of the requester, with the
same arguments, and a header that names the same requester, provider and correlation id. -/
theorem C81_reply (u : Uncommon) (fresh requester provider correlation : Str) (c : RCall) (hc : c.Ok provider) (hcor : correlation ≠ []) :
    ∃ env hd x, c.message requester provider correlation = .ok env ∧ requesterPost u fresh (some c.action) env = .called hd x ∧
      RArrives u provider c x ∧ hd.requesterNSA = some requester ∧ hd.providerNSA = some provider ∧ hd.correlationId = some correlation ∧
      hd.replyTo = none ∧ hd.securityAttributes = [] := by
  have hhd : ((replyHeader requester provider correlation).arrived fresh).correlationId = some correlation := by
    cases correlation with
    | nil => exact absurd rfl hcor
    | cons => rfl
  suffices ∃ env x, c.message requester provider correlation = .ok env ∧
      requesterDecode u fresh c.decoder env = .called ((replyHeader requester provider correlation).arrived fresh) x ∧ RArrives u provider c x by
    obtain ⟨env, x, h1, h2, h3⟩ := this
    refine ⟨env, _, x, h1, ?_, h3, rfl, rfl, hhd, rfl, rfl⟩
    unfold requesterPost
    rw [post_some (requester_decoder c), h2]
  cases c with
  | reserveConfirmed r =>
    obtain ⟨a1, a2, a3, a4, a5⟩ := hc
    refine ⟨_, _, rfl, ?_, .reserveConfirmed r⟩
    obtain ⟨hd, body, e1, e2⟩ := C60_confirmed u (replyHeader requester provider correlation) cs2Requester fresh r a1 a2 a3 a4 a5
    obtain ⟨_, rfl⟩ := parsed_message e1
    have ht : dget typeMap r.confirmXml.tag = some .reserveConfirmed := by
      show dget typeMap (ctag "reserveConfirmed") = _; decide +kernel
    show requesterDecode u fresh .reserveConfirmed _ = _
    unfold requesterDecode
    simp only
    rw [withBody_message fresh _ _ _ _ ht]
    simp only [if_pos, e2]
  | confirmed o cid =>
    have hb : ∃ tag, (RCall.confirmed o cid).body provider = .ok (genericXml tag (some cid)) ∧ dget typeMap tag = some .genericConfirmed := by
      cases o <;> exact ⟨_, rfl, by decide +kernel⟩
    obtain ⟨tag, hb, ht⟩ := hb
    refine ⟨_, _, by simp only [RCall.message, hb]; rfl, ?_, .confirmed o cid⟩
    show requesterDecode u fresh (.confirmed o) _ = _
    unfold requesterDecode
    simp only
    rw [withBody_message fresh _ _ _ .genericConfirmed (by simpa [genericXml] using ht)]
    simp [genericXml, readGeneric, findtext_kids, findIn_cons]
  | failed o cid st err =>
    obtain ⟨a1, a2, a3⟩ := hc
    have hb : ∃ tag, (RCall.failed o cid st err).body provider = .ok (failureXml tag (some provider) (some cid) st err) ∧
        dget typeMap tag = some .genericFailed := by
      cases o <;> exact ⟨_, rfl, by decide +kernel⟩
    obtain ⟨tag, hb, ht⟩ := hb
    refine ⟨_, _, by simp only [RCall.message, hb]; rfl, ?_, .failed o cid st err⟩
    have key : ∀ e : NSIError, ¬ e.cls.unlisted → readFailure (some provider) (wire (failureXml tag (some provider) (some cid) st (.nsi e))) =
        .ok (some cid, st, (AnyError.nsi e).arrived provider) := by
      intro e he
      obtain ⟨hd, body, e1, e2⟩ := C60_failure (replyHeader requester provider correlation) cs2Requester fresh tag cid st e a1 he a2
      obtain ⟨rfl, rfl⟩ := parsed_message e1
      exact e2
    have key' : readFailure (some provider) (wire (failureXml tag (some provider) (some cid) st err)) = .ok (some cid, st, err.arrived provider) := by
      cases err with
      | nsi e => exact key e (a3 e rfl)
      | other t =>
        have : failureXml tag (some provider) (some cid) st (.other t) =
            failureXml tag (some provider) (some cid) st (.nsi { cls := .internalServerError, text := t }) := by
          simp only [failureXml, createServiceException_other]
        rw [this, key _ (by simp only; decide)]
        rfl
    show requesterDecode u fresh (.failed o) _ = _
    unfold requesterDecode
    simp only
    rw [withBody_message fresh _ _ _ .genericFailed (by simpa [failureXml] using ht)]
    simp only [if_pos, show ((replyHeader requester provider correlation).arrived fresh).providerNSA = some provider from rfl, key']
  | reserveTimeout m =>
    obtain ⟨a1, a2, a3, a4⟩ := hc
    refine ⟨_, _, rfl, ?_, .reserveTimeout m⟩
    obtain ⟨hd, body, e1, e2⟩ := C60_timeout u (replyHeader requester provider correlation) cs2Requester fresh m a1 a2 a3 a4
    obtain ⟨_, rfl⟩ := parsed_message e1
    have ht : dget typeMap m.xml.tag = some .reserveTimeout := by
      show dget typeMap (ctag "reserveTimeout") = _; decide +kernel
    show requesterDecode u fresh .reserveTimeout _ = _
    unfold requesterDecode
    simp only
    rw [withBody_message fresh _ _ _ _ ht]
    simp only [if_pos, e2]
  | dataPlane cid nid t d =>
    obtain ⟨a1, a2⟩ := hc
    obtain ⟨hd, body, x, e1, e2, e3⟩ := C60_data_plane u (replyHeader requester provider correlation) cs2Requester fresh cid nid t d a1 a2
    obtain ⟨_, rfl⟩ := parsed_message e1
    refine ⟨_, _, rfl, ?_, .dataPlane cid nid t d x e3⟩
    have ht : dget typeMap (dataPlaneXml (some cid) nid t d).tag = some .dataPlaneStateChange := by
      show dget typeMap (ctag "dataPlaneStateChange") = _; decide +kernel
    show requesterDecode u fresh .dataPlane _ = _
    unfold requesterDecode
    simp only
    rw [withBody_message fresh _ _ _ _ ht]
    simp only [if_pos, e2]
  | errorEvent m =>
    obtain ⟨a1, a2, a3, a4, a5⟩ := hc
    refine ⟨_, _, by simp [RCall.message, RCall.body, a5]; rfl, ?_, .errorEvent m _ (C47_roundtrip u _ (a1 _ rfl).1 (a1 _ rfl).2)⟩
    have ht : dget typeMap (eventXml m).tag = some .errorEvent := by
      show dget typeMap (ctag "errorEvent") = _; decide +kernel
    show requesterDecode u fresh .errorEvent _ = _
    unfold requesterDecode
    simp only
    rw [withBody_message fresh _ _ _ _ ht]
    simp only [if_pos, readEvent_xml m a2 a3, a4, a5]
  | summary is =>
    refine ⟨_, _, rfl, ?_, .summary is⟩
    obtain ⟨hd, body, e1, e2⟩ := C61_summary u (replyHeader requester provider correlation) cs2Requester fresh is hc
    obtain ⟨rfl, rfl⟩ := parsed_message e1
    have ht : dget typeMap (summaryXml is).tag = some .querySummaryConfirmed := by
      show dget typeMap "{http://schemas.ogf.org/nsi/2013/12/connection/types}querySummaryConfirmed" = _; decide +kernel
    show requesterDecode u fresh .summary _ = _
    unfold requesterDecode
    simp only
    rw [withBody_message fresh _ _ _ _ ht]
    simp only [if_pos, e2]
    rfl
  | recursive is =>
    refine ⟨_, _, rfl, ?_, .recursive is⟩
    obtain ⟨hd, body, e1, e2⟩ := C46_exact u (replyHeader requester provider correlation) cs2Requester fresh is hc
    obtain ⟨rfl, rfl⟩ := parsed_message e1
    have ht : dget typeMap (recursiveXml is).tag = some .queryRecursiveConfirmed := by
      show dget typeMap "{http://schemas.ogf.org/nsi/2013/12/connection/types}queryRecursiveConfirmed" = _; decide +kernel
    show requesterDecode u fresh .recursive _ = _
    unfold requesterDecode
    simp only
    rw [withBody_message fresh _ _ _ _ ht]
    simp only [if_pos, e2]
    rfl

/-- The name of the method that is called. -/
def RIn.name : RIn → Str
  | .reserveConfirmed _ => "reserveConfirmed".toList
  | .confirmed .reserveCommitConfirmed _ => "reserveCommitConfirmed".toList
  | .confirmed .reserveAbortConfirmed _ => "reserveAbortConfirmed".toList
  | .confirmed .provisionConfirmed _ => "provisionConfirmed".toList
  | .confirmed .releaseConfirmed _ => "releaseConfirmed".toList
  | .confirmed .terminateConfirmed _ => "terminateConfirmed".toList
  | .failed .reserveFailed .. => "reserveFailed".toList
  | .failed .reserveCommitFailed .. => "reserveCommitFailed".toList
  | .reserveTimeout _ => "reserveTimeout".toList
  | .dataPlane .. => "dataPlaneStateChange".toList
  | .errorEvent .. => "errorEvent".toList
  | .error _ => "error".toList
  | .summary _ => "querySummaryConfirmed".toList
  | .recursive _ => "queryRecursiveConfirmed".toList

/-- The name of the method behind a decoder. -/
def RDecoder.name : RDecoder → Str
  | .reserveConfirmed => "reserveConfirmed".toList
  | .confirmed o => (RIn.confirmed o none).name
  | .failed .reserveFailed => "reserveFailed".toList
  | .failed .reserveCommitFailed => "reserveCommitFailed".toList
  | .reserveTimeout => "reserveTimeout".toList
  | .dataPlane => "dataPlaneStateChange".toList
  | .errorEvent => "errorEvent".toList
  | .error => "error".toList
  | .summary => "querySummaryConfirmed".toList
  | .recursive => "queryRecursiveConfirmed".toList
  | .messageDeliveryTimeout => "messageDeliveryTimeout".toList

/-- **C81, elements of replies.** The element in the body of each reply and notification is the one that its action names. -/
theorem C81_reply_element (provider : Str) (c : RCall) (b : Elem) (h : c.body provider = .ok b) :
    ∃ name : String, c.action = "\"http://schemas.ogf.org/nsi/2013/12/connection/service/".toList ++ (name.toList ++ ['"']) ∧
      b.tag = "{http://schemas.ogf.org/nsi/2013/12/connection/types}" ++ name := by
  cases c with
  | reserveConfirmed r => cases h; exact ⟨"reserveConfirmed", rfl, rfl⟩
  | confirmed o c => cases o <;> (cases h; exact ⟨_, rfl, rfl⟩)
  | failed o c st err => cases o <;> (cases h; exact ⟨_, rfl, rfl⟩)
  | reserveTimeout m => cases h; exact ⟨"reserveTimeout", rfl, rfl⟩
  | dataPlane => cases h; exact ⟨"dataPlaneStateChange", rfl, rfl⟩
  | errorEvent m =>
    simp only [RCall.body] at h
    split at h
    · cases h
    · cases h; exact ⟨"errorEvent", rfl, rfl⟩
  | summary is => cases h; exact ⟨"querySummaryConfirmed", rfl, by simp only [summaryXml, mk_tag]; decide +kernel⟩
  | recursive is => cases h; exact ⟨"queryRecursiveConfirmed", rfl, by simp only [recursiveXml, mk_tag]; decide +kernel⟩

example : ∃ b, (RCall.confirmed .releaseConfirmed "C-1".toList).body [] = .ok b ∧
    b.tag = "{http://schemas.ogf.org/nsi/2013/12/connection/types}releaseConfirmed" := ⟨_, rfl, by decide +kernel⟩

theorem requesterDecoders_named : ∀ x ∈ requesterDecoders, x.1 = soapAction x.2.name := by decide +kernel

/-- The connection a notification or reply is about, as far as it names one. -/
def RIn.cid : RIn → Option (Option Str)
  | .reserveConfirmed r => some r.cid
  | .confirmed _ c => some c
  | .failed _ c .. => some c
  | .reserveTimeout m => some m.cid
  | .dataPlane c .. => some c
  | .errorEvent c .. => some c
  | .error _ | .summary _ | .recursive _ => none

theorem readReserveConfirmed_cid {u : Uncommon} {e : Elem} {r : Resv} (h : readReserveConfirmed u e = .ok r) : r.cid = e.findtext "connectionId" := by
  unfold readReserveConfirmed at h
  repeat' split at h
  all_goals first | (cases h; done) | (simp only [Except.ok.injEq] at h; subst h; rfl)

theorem readFailure_cid {p : Option Str} {e : Elem} {c : Option Str} {st : ConnStates} {x : NSIErrorIn} (h : readFailure p e = .ok (c, st, x)) :
    c = e.findtext "connectionId" := by
  unfold readFailure at h
  repeat' split at h
  all_goals first | (simp only [Except.ok.injEq, Prod.mk.injEq] at h; exact h.1.symm) | (cases h; done)

theorem readTimeout_cid {u : Uncommon} {e : Elem} {m : TimeoutMsg} (h : readTimeout u e = .ok m) : m.cid = e.findtext "connectionId" := by
  unfold readTimeout at h
  repeat' split at h
  all_goals first | (cases h; done) | (simp only [Except.ok.injEq] at h; subst h; rfl)

theorem readDataPlane_cid {e : Elem} {c : Option Str} {n : Int} {t : Option Str} {d : DPS} (h : readDataPlane e = .ok (c, n, t, d)) :
    c = e.findtext "connectionId" := by
  unfold readDataPlane at h
  repeat' split at h
  all_goals first | (simp only [Except.ok.injEq, Prod.mk.injEq] at h; exact h.1.symm) | (cases h; done)

theorem readEvent_cid {e : Elem} {x : RIn} (h : readEvent e = .ok x) : x.name = "errorEvent".toList ∧ x.cid = some (e.findtext "connectionId") := by
  unfold readEvent at h
  split at h
  · exact absurd h (by simp)
  · simp only [Except.ok.injEq] at h
    subst h
    exact ⟨rfl, rfl⟩

/-- **C81, nothing else is called at the requester.** Whatever is posted, a method of the requester is called only for the action of its own
name, with the header of the message, and about the connection that the only body names. -/
theorem C81_only_requester (u : Uncommon) (fresh : Str) (a : Option Str) (env : Elem) (hd : HeaderIn) (x : RIn)
    (h : requesterPost u fresh a env = .called hd x) :
    a = some (soapAction x.name) ∧ ∃ e, parseRequest fresh env = .ok (hd, [e]) ∧ (x.cid = none ∨ x.cid = some (e.findtext "connectionId")) := by
  obtain ⟨b, d, rfl, hm, hc⟩ := post_called h
  have hb : b = soapAction d.name := requesterDecoders_named _ hm
  cases d with
  | messageDeliveryTimeout => simp [requesterDecode] at hc
  | reserveConfirmed =>
    obtain ⟨hd', t, e, hp, _, hk⟩ := withBody_called hc
    simp only at hk
    split at hk
    · split at hk
      · exact absurd hk (by simp)
      · rename_i r hr
        simp only [Outcome.called.injEq] at hk
        obtain ⟨rfl, rfl⟩ := hk
        exact ⟨by rw [hb]; rfl, e, hp, .inr (by simp only [RIn.cid, readReserveConfirmed_cid hr])⟩
    · exact absurd hk (by simp)
  | confirmed o =>
    obtain ⟨hd', t, e, hp, _, hk⟩ := withBody_called hc
    simp only at hk
    split at hk
    · simp only [Outcome.called.injEq] at hk
      obtain ⟨rfl, rfl⟩ := hk
      exact ⟨by rw [hb]; cases o <;> rfl, e, hp, .inr rfl⟩
    · exact absurd hk (by simp)
  | failed o =>
    obtain ⟨hd', t, e, hp, _, hk⟩ := withBody_called hc
    simp only at hk
    split at hk
    · split at hk
      · exact absurd hk (by simp)
      · rename_i c st ex hr
        simp only [Outcome.called.injEq] at hk
        obtain ⟨rfl, rfl⟩ := hk
        exact ⟨by rw [hb]; cases o <;> rfl, e, hp, .inr (by simp only [RIn.cid, readFailure_cid hr])⟩
    · exact absurd hk (by simp)
  | reserveTimeout =>
    obtain ⟨hd', t, e, hp, _, hk⟩ := withBody_called hc
    simp only at hk
    split at hk
    · split at hk
      · exact absurd hk (by simp)
      · rename_i r hr
        simp only [Outcome.called.injEq] at hk
        obtain ⟨rfl, rfl⟩ := hk
        exact ⟨by rw [hb]; rfl, e, hp, .inr (by simp only [RIn.cid, readTimeout_cid hr])⟩
    · exact absurd hk (by simp)
  | dataPlane =>
    obtain ⟨hd', t, e, hp, _, hk⟩ := withBody_called hc
    simp only at hk
    split at hk
    · split at hk
      · exact absurd hk (by simp)
      · rename_i c n ts d hr
        simp only [Outcome.called.injEq] at hk
        obtain ⟨rfl, rfl⟩ := hk
        exact ⟨by rw [hb]; rfl, e, hp, .inr (by simp only [RIn.cid, readDataPlane_cid hr])⟩
    · exact absurd hk (by simp)
  | errorEvent =>
    obtain ⟨hd', t, e, hp, _, hk⟩ := withBody_called hc
    simp only at hk
    split at hk
    · split at hk
      · exact absurd hk (by simp)
      · rename_i r hr
        simp only [Outcome.called.injEq] at hk
        obtain ⟨rfl, rfl⟩ := hk
        exact ⟨by rw [hb, (readEvent_cid hr).1]; rfl, e, hp, .inr (readEvent_cid hr).2⟩
    · exact absurd hk (by simp)
  | error =>
    obtain ⟨hd', t, e, hp, _, hk⟩ := withBody_called hc
    simp only at hk
    split at hk
    · split at hk
      · exact absurd hk (by simp)
      · split at hk
        · exact absurd hk (by simp)
        · simp only [Outcome.called.injEq] at hk
          obtain ⟨rfl, rfl⟩ := hk
          exact ⟨by rw [hb]; rfl, e, hp, .inl rfl⟩
    · exact absurd hk (by simp)
  | summary =>
    obtain ⟨hd', t, e, hp, _, hk⟩ := withBody_called hc
    simp only at hk
    split at hk
    · split at hk
      · exact absurd hk (by simp)
      · simp only [Outcome.called.injEq] at hk
        obtain ⟨rfl, rfl⟩ := hk
        exact ⟨by rw [hb]; rfl, e, hp, .inl rfl⟩
    · exact absurd hk (by simp)
  | recursive =>
    obtain ⟨hd', t, e, hp, _, hk⟩ := withBody_called hc
    simp only at hk
    split at hk
    · split at hk
      · exact absurd hk (by simp)
      · simp only [Outcome.called.injEq] at hk
        obtain ⟨rfl, rfl⟩ := hk
        exact ⟨by rw [hb]; rfl, e, hp, .inl rfl⟩
    · exact absurd hk (by simp)

/-- **C81, other actions at the requester.** What is neither an action of a method nor a delivery timeout is refused. -/
theorem C81_unknown_requester (u : Uncommon) (fresh : Str) (a : Option Str) (env : Elem) (h : ∀ d : RDecoder, a ≠ some (soapAction d.name)) :
    requesterPost u fresh a env = .notAcceptable := by
  unfold requesterPost post
  split
  · rfl
  · rename_i m hm
    obtain ⟨b, hb, hd⟩ := Option.bind_eq_some_iff.1 hm
    have : b = soapAction m.name := requesterDecoders_named _ (dget_some_mem hd)
    exact absurd (by rw [hb, this]) (h m)

/-- **C81 is violated: error events with a service exception** are never sent: the exception is made with six arguments where seven are
needed (providerclient.py:182, nsiconnection.py:657). -/
theorem C81_event_exception_fails (m : EventMsg) (h : m.serviceEx.isSome) (requester provider correlation : Str) :
    (RCall.errorEvent m).message requester provider correlation = .error .typeError := by
  simp [RCall.message, RCall.body, h]

/-- **C81 is violated: the information of an error event is lost.** Whatever information the event has, the requester is told none
(providerclient.py:188). -/
theorem C81_event_info_fails (u : Uncommon) (fresh requester provider correlation : Str) (m : EventMsg) (h1 : m.cid.isSome) (h2 : m.event.isSome)
    (h3 : m.serviceEx = none) : ∃ env hd x, (RCall.errorEvent m).message requester provider correlation = .ok env ∧
      requesterPost u fresh (some (RCall.errorEvent m).action) env = .called hd (.errorEvent m.cid m.notificationId x m.event none none) := by
  refine ⟨_, (replyHeader requester provider correlation).arrived fresh, some (createXMLTime m.timestamp),
    by simp [RCall.message, RCall.body, h3]; rfl, ?_⟩
  have ht : dget typeMap (eventXml m).tag = some .errorEvent := by
    show dget typeMap (ctag "errorEvent") = _; decide +kernel
  unfold requesterPost
  rw [post_some (requester_decoder (.errorEvent m))]
  show requesterDecode u fresh .errorEvent _ = _
  unfold requesterDecode
  simp only
  rw [withBody_message fresh _ _ _ _ ht]
  simp only [if_pos, readEvent_xml m h1 h2]

/-- **C81 is violated: errors without variables.** An `error` message whose exception has no variables — most exceptions have none — is
answered with a TypeError and no method is called (requesterservice.py:179). -/
theorem C81_error_variables_fails : ∃ (env : Elem) (e : NSIError), env = wire (soapPayload
      [.mk (ctag "error") [] none [(createServiceException (.nsi e) (some "urn:nsa".toList) none none).xml "serviceException"]] [createHeader Ex.hdr cs2Requester]) ∧
    ¬ e.cls.unlisted ∧
    requesterPost Ex.noUncommon [] (some (soapAction "error".toList)) env = .failed .typeError :=
  ⟨_, { cls := .connectionNonExistentError, text := "no".toList }, rfl, by decide, by rfl⟩

/-- **C81 is violated: delivery timeouts** are part of the protocol and answered with an error, whatever they contain
(requesterservice.py:228-229). -/
theorem C81_delivery_fails (u : Uncommon) (fresh : Str) (env : Elem) :
    requesterPost u fresh (some (soapAction "messageDeliveryTimeout".toList)) env = .failed .notImplementedError := by
  have : dget requesterDecoders (soapAction "messageDeliveryTimeout".toList) = some .messageDeliveryTimeout := by decide +kernel
  unfold requesterPost
  rw [post_some this]
  rfl

/-- **C81 is violated: failed commits.** The method that is to be called for a `reserveCommitFailed` message is missing, both in the
aggregator and in the requester of the command line client (requesterservice.py:111). -/
theorem C81_commit_failed_fails (u : Uncommon) (fresh requester provider correlation cid : Str) (st : ConnStates) (err : AnyError)
    (hc : (RCall.failed .reserveCommitFailed cid st err).Ok provider) (hcor : correlation ≠ []) :
    ∃ env hd x, (RCall.failed .reserveCommitFailed cid st err).message requester provider correlation = .ok env ∧
      requesterPost u fresh (some (RCall.failed .reserveCommitFailed cid st err).action) env = .called hd x ∧ ∀ r : Receiver, r.has x = false := by
  obtain ⟨env, hd, x, h1, h2, h3, _⟩ := C81_reply u fresh requester provider correlation _ hc hcor
  refine ⟨env, hd, x, h1, h2, ?_⟩
  cases h3
  intro r
  cases r <;> rfl

/-- `C81_reply`, `C81_only_requester`: a confirmation, a failure, a data plane change and an answer to a query. -/
example : (RCall.reserveConfirmed Ex.resv).Ok "urn:nsa".toList ∧
    (RCall.failed .reserveFailed "C-1".toList (Ex.states (some 3)) (.nsi { cls := .stpUnavailableError, text := "no".toList })).Ok "urn:nsa".toList ∧
    (RCall.dataPlane "C-1".toList 3 63839000000000001 ⟨true, some 3, true⟩).Ok "urn:nsa".toList ∧
    (RCall.recursive [Ex.info [Ex.leafChild 1]]).Ok "urn:nsa".toList ∧
    (RCall.errorEvent ⟨some "C-1".toList, 4, 63839000000000001, some "forcedEnd".toList, none, none⟩).Ok "urn:nsa".toList := by
  have ht : TimeOk (some 63839000000000001) := by intro x hx; cases hx; decide
  refine ⟨⟨Ex.resv_ok.start, Ex.resv_ok.end_, ⟨Ex.labelled_ok, Ex.stp_ok.2, rfl⟩, rfl, rfl⟩, ⟨⟨rfl, rfl, rfl, rfl⟩, by decide, ?_⟩,
    ⟨ht, rfl⟩, ?_, ⟨ht, rfl, rfl, rfl, rfl⟩⟩
  · intro e he
    cases he
    decide
  · intro i hi
    simp only [List.mem_singleton] at hi
    subst hi
    exact Ex.info_ok _ ⟨Ex.leafChild_ok 1, trivial⟩

/-- `C81_unknown_requester`: a request sent to the requester. -/
example : ∀ d : RDecoder, some (soapAction "provision".toList) ≠ some (soapAction d.name) := by
  intro d
  cases d with
  | confirmed o => cases o <;> decide +kernel
  | failed o => cases o <;> decide +kernel
  | _ => decide +kernel

/-- `C81_event_exception_fails`, `C81_event_info_fails`: an event about a failed segment. -/
example : (⟨some "C-1".toList, 4, 5, some "activateFailed".toList, none, some ⟨some "urn:nsa".toList, some "C-1".toList, some "00500".toList,
      some "no".toList⟩⟩ : EventMsg).serviceEx.isSome ∧
    (⟨some "C-1".toList, 4, 5, some "activateFailed".toList, some [(some "reason".toList, some "x".toList)], none⟩ : EventMsg).serviceEx = none :=
  ⟨rfl, rfl⟩

end OpenNSA.Wire
