import Verif.Wire.Dispatch
import Verif.Wire.PropsMessages
import Verif.Wire.PropsHeader
/-
C81: a call made with the client of one agent becomes the call of the same method of the other agent, with the same arguments.
-/
namespace OpenNSA.Wire
open Py

/-! ### Lemmas -/

/-- The header as the receiver has it. -/
def NHeader.arrived (h : NHeader) (fresh : Str) : HeaderIn :=
  { requesterNSA := some h.requesterNSA, providerNSA := some h.providerNSA,
    correlationId := pyOr (some h.correlationId) (some fresh), replyTo := h.replyTo,
    securityAttributes := (ungroup (groupSats h.securityAttributes)).filter nonEmptyValue,
    connectionTrace := (truthy h.connectionTrace).map fun cs => cs.map fun c => normText (some c) }

theorem withBody_message {α : Type} (fresh p : Str) (h : NHeader) (b : Elem) (t : BType) (ht : dget typeMap b.tag = some t)
    (k : HeaderIn → BType → Elem → Outcome α) :
    withBody fresh (wire (soapPayload [b] [createHeader h p])) k = k (h.arrived fresh) t (wire b) := by
  unfold withBody
  rw [parseRequest_createHeader h p fresh [b]]
  simp only [List.map_cons, List.map_nil, bodyOf, wire_tag, ht]
  rfl

theorem post_some {α μ : Type} {ds : List (Str × μ)} {a : Str} {m : μ} (h : dget ds a = some m) (decode : μ → Elem → Outcome α) (env : Elem) :
    post ds decode (some a) env = decode m env := by
  simp [post, h]

theorem findall_query (tag : String) (cs gs : List Str) :
    ((wire (queryXml tag (some cs) (some gs))).findall "connectionId").map Elem.text = cs.map (fun c => normText (some c)) ∧
    ((wire (queryXml tag (some cs) (some gs))).findall "globalReservationId").map Elem.text = gs.map (fun c => normText (some c)) := by
  have h1 : ∀ (t t' : String) (l : List Str), (l.map (fun c => leaf t (some c))).filter (fun k => decide (k.tag = t')) =
      if t = t' then l.map (fun c => leaf t (some c)) else [] := by
    intro t t' l
    induction l with
    | nil => split <;> rfl
    | cons x xs ih =>
      rw [List.map_cons, List.filter_cons, ih]
      by_cases h : t = t' <;> simp [h]
  rw [wire_findall, wire_findall]
  constructor
  · simp only [queryXml, Elem.findall, mk_kids, List.filter_append, h1, Option.getD_some]
    simp
  · simp only [queryXml, Elem.findall, mk_kids, List.filter_append, h1, Option.getD_some]
    simp

theorem queryXml_getD (tag : String) (cs gs : Option (List Str)) : queryXml tag cs gs = queryXml tag (some (cs.getD [])) (some (gs.getD [])) := by
  simp [queryXml]

theorem map_normText {l : List Str} (h : ∀ x ∈ l, x ≠ []) : l.map (fun c => normText (some c)) = l.map some := by
  apply List.map_congr_left
  intro x hx
  cases x with
  | nil => exact absurd rfl (h _ hx)
  | cons => rfl

/-! ### Requests -/

/-- The requests the client can make: reservations as in C60, ids that are not empty. -/
def PCall.Ok : PCall → Prop
  | .reserve r => r.Ok ∧ truthy r.sd.ero = none
  | .generic _ _ => True
  | .query _ cids gids => (∀ x ∈ cids.getD [], x ≠ []) ∧ (∀ x ∈ gids.getD [], x ≠ [])

/-- The call of the provider that corresponds to a call of the client: the same method with the same arguments. Of a reservation a
missing symmetry is read as asymmetric and an empty list of parameters as none. -/
inductive Arrives : PCall → PIn → Prop
  | reserve (r : Resv) : Arrives (.reserve r) (.reserve { r with sd := { r.sd with
      symmetric := some (r.sd.symmetric.getD false), ero := none, parameters := truthy r.sd.parameters } })
  | generic (o : GOp) (cid : Str) : Arrives (.generic o cid) (.generic o (some cid))
  | query (o : QOp) (cids gids : Option (List Str)) : Arrives (.query o cids gids) (.query o ((cids.getD []).map some) ((gids.getD []).map some))

theorem provider_decoder (c : PCall) : dget providerDecoders c.action = some (match c with
    | .reserve _ => .reserve
    | .generic o _ => .generic o
    | .query o _ _ => .query o) := by
  cases c with
  | reserve r => simp only [PCall.action]; decide +kernel
  | generic o c => cases o <;> (simp only [PCall.action]; decide +kernel)
  | query o cs gs => cases o <;> (simp only [PCall.action]; decide +kernel)

theorem body_type (c : PCall) : dget typeMap c.body.tag = some (match c with
    | .reserve _ => .reserve
    | .generic _ _ => .genericRequest
    | .query _ _ _ => .query) := by
  cases c with
  | reserve r => show dget typeMap (ctag "reserve") = some .reserve; decide +kernel
  | generic o c => cases o <;> (simp only [PCall.body, genericXml, mk_tag]; decide +kernel)
  | query o cs gs => cases o <;> (simp only [PCall.body, queryXml, mk_tag]; decide +kernel)

/-- **C81, elements.** The element in the body of each request is the one that its action names. -/
theorem C81_element (c : PCall) : ∃ name : String, c.action = "\"http://schemas.ogf.org/nsi/2013/12/connection/service/".toList ++ (name.toList ++ ['"']) ∧
    c.body.tag = "{http://schemas.ogf.org/nsi/2013/12/connection/types}" ++ name := by
  cases c with
  | reserve r => exact ⟨"reserve", rfl, rfl⟩
  | generic o c => cases o <;> exact ⟨_, rfl, rfl⟩
  | query o cs gs => cases o <;> exact ⟨_, rfl, rfl⟩

example : (PCall.generic .release "C-1".toList).body.tag = "{http://schemas.ogf.org/nsi/2013/12/connection/types}release" := by decide +kernel

/-- **C81, requests.** Each call of the requester client becomes the call of the same method of the provider, with the same arguments. The
header names the requester and the provider of the sender, its correlation id and trace, and the reply address of the client. The security
attributes are those of the sender, up to order. -/
theorem C81_request (u : Uncommon) (fresh replyTo : Str) (h : NHeader) (c : PCall) (hc : c.Ok) (hcor : h.correlationId ≠ [])
    (ht : ∀ cs, h.connectionTrace = some cs → cs ≠ [] ∧ ∀ c ∈ cs, c ≠ []) (hs : ∀ a ∈ h.securityAttributes, a.2 ≠ []) :
    ∃ hd x, providerPost u fresh (some c.action) (c.message replyTo h) = .called hd x ∧ Arrives c x ∧
      hd.requesterNSA = some h.requesterNSA ∧ hd.providerNSA = some h.providerNSA ∧ hd.correlationId = some h.correlationId ∧
      hd.replyTo = some replyTo ∧ hd.connectionTrace = h.connectionTrace.map (fun cs => cs.map some) ∧
      hd.securityAttributes.Perm h.securityAttributes := by
  obtain ⟨hd, e0, e1, e2, e3, e4, e5⟩ := C59_header { h with replyTo := some replyTo } cs2Provider fresh [] hcor ht
  obtain ⟨hd', bs, f0, f1, _⟩ := C45_attributes_partial { h with replyTo := some replyTo } cs2Provider fresh [] hs
  rw [parseRequest_createHeader] at e0 f0
  injection e0 with e0
  injection f0 with f0
  have hhd : hd = ({ h with replyTo := some replyTo } : NHeader).arrived fresh := (Prod.mk.inj e0).1.symm
  have hhd' : hd' = ({ h with replyTo := some replyTo } : NHeader).arrived fresh := (Prod.mk.inj f0).1.symm
  refine ⟨hd, ?_⟩
  suffices ∃ x, providerPost u fresh (some c.action) (c.message replyTo h) = .called hd x ∧ Arrives c x by
    obtain ⟨x, h1, h2⟩ := this
    exact ⟨x, h1, h2, e1, e2, e3, e4, e5, by rw [hhd, ← hhd']; exact f1⟩
  unfold providerPost
  rw [post_some (provider_decoder c)]
  unfold providerDecode PCall.message
  rw [withBody_message fresh cs2Provider _ c.body _ (body_type c), ← hhd]
  cases c with
  | reserve r =>
    obtain ⟨hr, he⟩ := hc
    refine ⟨_, ?_, .reserve r⟩
    show (if BType.reserve = .reserve then _ else _) = _
    rw [if_pos rfl, show (PCall.reserve r).body = r.requestXml from rfl, readReserve_xml u r hr]
    cases hero : r.sd.ero with
    | none => rfl
    | some l => cases l with
      | nil => rfl
      | cons s ss => rw [hero] at he; simp [truthy] at he
  | generic o cid =>
    refine ⟨_, ?_, .generic o cid⟩
    have : readGeneric (wire (PCall.generic o cid).body) = some cid := by
      cases o <;> simp [PCall.body, genericXml, readGeneric, findtext_kids, findIn_cons]
    simp [this]
  | query o cs gs =>
    refine ⟨_, ?_, .query o cs gs⟩
    have hb : ∃ tag, (PCall.query o cs gs).body = queryXml tag cs gs := by cases o <;> exact ⟨_, rfl⟩
    obtain ⟨tag, hb⟩ := hb
    rw [hb, queryXml_getD]
    obtain ⟨q1, q2⟩ := findall_query tag (cs.getD []) (gs.getD [])
    simp only [q1, q2, map_normText hc.1, map_normText hc.2, if_pos]

/-- The name of a method. -/
def PIn.name : PIn → Str
  | .reserve _ => "reserve".toList
  | .generic .reserveCommit _ => "reserveCommit".toList
  | .generic .reserveAbort _ => "reserveAbort".toList
  | .generic .provision _ => "provision".toList
  | .generic .release _ => "release".toList
  | .generic .terminate _ => "terminate".toList
  | .query .querySummary _ _ => "querySummary".toList
  | .query .querySummarySync _ _ => "querySummarySync".toList
  | .query .queryRecursive _ _ => "queryRecursive".toList

theorem withBody_called {α : Type} {fresh : Str} {env : Elem} {k : HeaderIn → BType → Elem → Outcome α} {hd : HeaderIn} {x : α}
    (h : withBody fresh env k = .called hd x) :
    ∃ hd' t e, parseRequest fresh env = .ok (hd', [e]) ∧ dget typeMap e.tag = some t ∧ k hd' t e = .called hd x := by
  unfold withBody at h
  split at h
  · exact absurd h (by simp)
  · rename_i hd' bodies hp
    split at h
    · exact absurd h (by simp)
    · rename_i t e hb
      cases bodies with
      | nil => simp [bodyOf] at hb
      | cons b bs => cases bs with
        | nil =>
          simp only [bodyOf] at hb
          split at hb
          · exact absurd hb (by simp)
          · rename_i t' ht
            simp only [Except.ok.injEq, Prod.mk.injEq] at hb
            obtain ⟨rfl, rfl⟩ := hb
            exact ⟨hd', t', b, hp, ht, h⟩
        | cons b' bs =>
          simp only [bodyOf] at hb
          split at hb <;> simp at hb

/-- The name of the method behind a decoder. -/
def PDecoder.name : PDecoder → Str
  | .reserve => "reserve".toList
  | .generic o => (PIn.generic o none).name
  | .query o => (PIn.query o [] []).name

theorem providerDecoders_named : ∀ x ∈ providerDecoders, x.1 = soapAction x.2.name := by decide +kernel

theorem post_called {α μ : Type} {ds : List (Str × μ)} {decode : μ → Elem → Outcome α} {a : Option Str} {env : Elem} {hd : HeaderIn} {x : α}
    (h : post ds decode a env = .called hd x) : ∃ b m, a = some b ∧ (b, m) ∈ ds ∧ decode m env = .called hd x := by
  unfold post at h
  split at h
  · exact absurd h (by simp)
  · rename_i m hm
    obtain ⟨b, hb, hd⟩ := Option.bind_eq_some_iff.1 hm
    exact ⟨b, m, hb, dget_some_mem hd, h⟩

/-- **C81, nothing else is called.** Whatever is posted — to whatever action and with whatever header and body —, a method of the provider is
called only for the action of its own name, with the header of the message, and its arguments are those of the only body. -/
theorem C81_only (u : Uncommon) (fresh : Str) (a : Option Str) (env : Elem) (hd : HeaderIn) (x : PIn)
    (h : providerPost u fresh a env = .called hd x) :
    a = some (soapAction x.name) ∧ ∃ e, parseRequest fresh env = .ok (hd, [e]) ∧
      (match x with
        | .reserve r => readReserve u e = .ok (.passed r)
        | .generic _ c => c = e.findtext "connectionId"
        | .query _ cs gs => cs = (e.findall "connectionId").map Elem.text ∧ gs = (e.findall "globalReservationId").map Elem.text) := by
  obtain ⟨b, d, rfl, hm, hc⟩ := post_called h
  have hb : b = soapAction d.name := providerDecoders_named _ hm
  obtain ⟨hd', t, e, hp, _, hk⟩ := withBody_called hc
  cases d with
  | reserve =>
    simp only at hk
    split at hk
    · split at hk
      · exact absurd hk (by simp)
      · exact absurd hk (by simp)
      · rename_i r hr
        simp only [Outcome.called.injEq] at hk
        obtain ⟨rfl, rfl⟩ := hk
        exact ⟨by rw [hb]; rfl, e, hp, hr⟩
    · exact absurd hk (by simp)
  | generic o =>
    simp only at hk
    split at hk
    · simp only [Outcome.called.injEq] at hk
      obtain ⟨rfl, rfl⟩ := hk
      exact ⟨by rw [hb]; cases o <;> rfl, e, hp, rfl⟩
    · exact absurd hk (by simp)
  | query o =>
    simp only at hk
    split at hk
    · simp only [Outcome.called.injEq] at hk
      obtain ⟨rfl, rfl⟩ := hk
      exact ⟨by rw [hb]; cases o <;> rfl, e, hp, rfl, rfl⟩
    · exact absurd hk (by simp)

/-- **C81, other actions** are refused, also without header and body that could be read. -/
theorem C81_unknown (u : Uncommon) (fresh : Str) (a : Option Str) (env : Elem) (h : ∀ x : PIn, a ≠ some (soapAction x.name)) :
    providerPost u fresh a env = .notAcceptable := by
  unfold providerPost post
  split
  · rfl
  · rename_i m hm
    obtain ⟨b, hb, hd⟩ := Option.bind_eq_some_iff.1 hm
    have : b = soapAction m.name := providerDecoders_named _ (dget_some_mem hd)
    exfalso
    cases m with
    | reserve => exact h (.reserve ⟨none, none, none, none, ⟨none, none⟩, ⟨⟨[], [], none⟩, ⟨[], [], none⟩, 0, none, none, none, none⟩⟩) (by rw [hb, this]; rfl)
    | generic o => exact h (.generic o none) (by rw [hb, this]; rfl)
    | query o => exact h (.query o [] []) (by rw [hb, this]; rfl)

/-- **C81, the answer to a reserve request.** The caller is given the connection id with which the provider answers. -/
theorem C81_answer (fresh : Str) (h : HeaderIn) (cid : Str) : readReserveAnswer fresh (wire (reserveAnswer h cid)) = .ok (some cid) := by
  unfold readReserveAnswer reserveAnswer
  rw [parseRequest_createHeader]
  have ht : dget typeMap (ctag "reserveResponse") = some .reserveResponse := by decide +kernel
  simp only [List.map_cons, List.map_nil, bodyOf, wire_tag]
  rw [show (genericXml (ctag "reserveResponse") (some cid)).tag = ctag "reserveResponse" from rfl, ht]
  simp [genericXml, readGeneric, findtext_kids, findIn_cons]

/-- What is called, if anything. -/
def Outcome.call {α : Type} : Outcome α → Option α
  | .called _ c => some c
  | _ => none

/-- **C81 is violated: the body is not compared with the action.** A message whose action says `terminate` and whose body is a `provision`
request terminates the connection (providerservice.py:166-172). -/
theorem C81_body_fails : (providerPost Ex.noUncommon [] (some (soapAction "terminate".toList)) ((PCall.generic .provision "C-1".toList).message [] Ex.header)).call =
    some (.generic .terminate (some "C-1".toList)) := by decide +kernel

/-- **C81 is violated: requests of the protocol without decoder.** Four requests of the protocol are refused whatever they contain
(providerservice.py:43: some actions still missing). -/
theorem C81_missing_fails (u : Uncommon) (fresh : Str) (env : Elem) :
    ∀ n ∈ ["queryNotification", "queryNotificationSync", "queryResult", "queryResultSync"],
      providerPost u fresh (some (soapAction n.toList)) env = .notAcceptable := by
  intro n hn
  have : dget providerDecoders (soapAction n.toList) = none := by
    revert n
    decide +kernel
  simp [providerPost, post, this]

/-- `C81_request`, `C81_only`: a request with a trace and security attributes. -/
example : ∃ h : NHeader, h = Ex.header ∧ h.correlationId ≠ [] ∧ (∀ cs, h.connectionTrace = some cs → cs ≠ [] ∧ ∀ c ∈ cs, c ≠ []) ∧
    (∀ a ∈ h.securityAttributes, a.2 ≠ []) ∧ (PCall.reserve Ex.resv).Ok ∧ (PCall.query .queryRecursive (some ["C-1".toList]) none).Ok ∧
    (providerPost Ex.noUncommon [] (some (PCall.query .queryRecursive (some ["C-1".toList]) none).action)
      ((PCall.query .queryRecursive (some ["C-1".toList]) none).message [] h)).call = some (.query .queryRecursive [some "C-1".toList] []) := by
  refine ⟨_, rfl, by decide +kernel, by decide +kernel, by decide +kernel, ⟨Ex.resv_ok, rfl⟩, ⟨by decide +kernel, by decide +kernel⟩, by decide +kernel⟩

/-- `C81_unknown`: an action without quotes, and none. -/
example : (∀ x : PIn, some "http://schemas.ogf.org/nsi/2013/12/connection/service/provision".toList ≠ some (soapAction x.name)) ∧
    ∀ x : PIn, none ≠ some (soapAction x.name) := by
  constructor
  · intro x h
    injection h with h
    have := congrArg List.head? h
    rw [show (soapAction x.name).head? = some '"' from rfl] at this
    exact absurd this (by decide +kernel)
  · intro x h
    cases h

end OpenNSA.Wire
