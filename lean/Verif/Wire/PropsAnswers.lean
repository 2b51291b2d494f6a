import Verif.Wire.Answers
import Verif.Wire.PropsSchema
import Verif.Wire.PropsDispatch
/-
C61, C95: acknowledgements and answers to synchronous queries.
-/
namespace OpenNSA.Wire
open Py Schema

/-- **C61, synchronous queries.** The caller is given the results with which the provider answers (as summaries: without children). -/
theorem C61_sync (u : Uncommon) (fresh : Str) (h : HeaderIn) (is : List Info)
    (hi : ∀ i ∈ is, i.cid.isSome ∧ i.requester.isSome ∧ i.states.Ok ∧ ∀ c ∈ i.criterias, c.SummaryOk) (p : Str) (hp : h.providerNSA = some p) :
    readSyncAnswer u fresh (wire (syncAnswer h is)) =
      .ok (is.map fun i => { i with criterias := i.criterias.map Crit.summary, provider := some p }) := by
  obtain ⟨hd, body, h1, h2⟩ := C61_summary u (answerHeader h) cs2Provider fresh is hi
  rw [parseRequest_createHeader] at h1
  simp only [Except.ok.injEq, Prod.mk.injEq, List.map_cons, List.map_nil, List.cons.injEq, and_true] at h1
  unfold readSyncAnswer syncAnswer
  rw [parseRequest_createHeader]
  have ht : dget typeMap (ctag "querySummarySyncConfirmed") = some .querySummaryConfirmed := by decide +kernel
  simp only [List.map_cons, List.map_nil, bodyOf, Wire.wire_tag, mk_tag, ht, if_true]
  have hr : ∀ q, readSummary u q (wire (.mk (ctag "querySummarySyncConfirmed") [] none (is.map fun i => i.xml (i.criterias.map Crit.summaryXml)))) =
      readSummary u q (wire (summaryXml is)) := fun _ => rfl
  have h3 : hd.providerNSA = some (answerHeader h).providerNSA := by rw [← h1.1]
  rw [hr, h1.2]
  rw [h3] at h2
  rw [h2]
  simp [answerHeader, hp, strOf]

/-- The answers to requests and to messages are valid: a bare acknowledgement, or the results of the query. -/
theorem C95_acknowledgements (h : HeaderIn) :
    Envelope "application/vnd.ogf.nsi.cs.v2.provider+soap"
      (one "{http://schemas.ogf.org/nsi/2013/12/connection/types}acknowledgment" (Node [] [])) (wire (providerAck h)) ∧
    Envelope "application/vnd.ogf.nsi.cs.v2.requester+soap"
      (one "{http://schemas.ogf.org/nsi/2013/12/connection/types}acknowledgment" (Node [] [])) (wire (requesterAck h)) :=
  ⟨envelope_valid (by kept) rfl (node atts_nil .nil), envelope_valid (by kept) rfl (node atts_nil .nil)⟩

theorem C95_sync (h : HeaderIn) (is : List Info) (hi : ∀ i ∈ is, i.Std) :
    Envelope "application/vnd.ogf.nsi.cs.v2.provider+soap"
      (one "{http://schemas.ogf.org/nsi/2013/12/connection/types}querySummarySyncConfirmed" SummaryConfirmed) (wire (syncAnswer h is)) := by
  refine envelope_valid Kept.summaryConfirmed rfl ?_
  have hs := summary_valid hi
  exact ⟨hs.1, hs.2.1, hs.2.2⟩

/-- **C61, acknowledgements.** Every answer carries the ids of the request: it can be told which request it belongs to. -/
theorem C61_answered (h : HeaderIn) {r p c : Str} (hr : h.requesterNSA = some r) (hp : h.providerNSA = some p) (hc : h.correlationId = some c)
    (hn : c ≠ []) (cid fresh : Str) (is : List Info) (env : Elem)
    (he : env ∈ [providerAck h, requesterAck h, reserveAnswer h cid, syncAnswer h is]) :
    ∃ hd body, parseRequest fresh (wire env) = .ok (hd, [body]) ∧ hd.requesterNSA = some r ∧ hd.providerNSA = some p ∧ hd.correlationId = some c ∧
      hd.replyTo = none ∧ hd.securityAttributes = [] ∧ hd.connectionTrace = none := by
  have key : ∀ (b : Elem) (q : Str), ∃ hd body, parseRequest fresh (wire (soapPayload [b] [createHeader (answerHeader h) q])) = .ok (hd, [body]) ∧
      hd.requesterNSA = some r ∧ hd.providerNSA = some p ∧ hd.correlationId = some c ∧ hd.replyTo = none ∧ hd.securityAttributes = [] ∧
      hd.connectionTrace = none := by
    intro b q
    refine ⟨_, _, parseRequest_createHeader (answerHeader h) q fresh [b], ?_⟩
    cases c with
    | nil => exact absurd rfl hn
    | cons x xs => simp [answerHeader, strOf, hr, hp, hc, pyOr, groupSats, ungroup, truthy]
  simp only [List.mem_cons, List.not_mem_nil, or_false] at he
  rcases he with rfl | rfl | rfl | rfl <;> exact key _ _

/-- A request with all three ids. -/
example : ∃ r p c, (Ex.hdr.arrived []).requesterNSA = some r ∧ (Ex.hdr.arrived []).providerNSA = some p ∧
    (Ex.hdr.arrived []).correlationId = some c ∧ c ≠ [] := ⟨_, _, _, rfl, rfl, rfl, by decide +kernel⟩

/-- `C61_sync`, `C95_sync`: two results with a service, and a header with a provider. -/
example : (∀ i ∈ [{ Ex.info [] with states := Ex.states (some 3) }], i.Std ∧ i.cid.isSome ∧ i.requester.isSome ∧ i.states.Ok ∧ ∀ c ∈ i.criterias, c.SummaryOk) ∧
    (Ex.hdr.arrived []).providerNSA = some "urn:nsa".toList := by
  refine ⟨?_, rfl⟩
  intro i hi
  rw [List.mem_singleton] at hi
  subst hi
  exact ⟨⟨Ex.states_std, ⟨Ex.svc_std, trivial⟩, trivial⟩, rfl, rfl, ⟨rfl, rfl, rfl, rfl⟩,
    by intro c hc; simp only [Ex.info, List.mem_singleton] at hc; subst hc; exact ⟨Ex.sched_ok.1, Ex.sched_ok.2, Ex.stp_ok.1, Ex.stp_ok.2, rfl⟩⟩

end OpenNSA.Wire
