import Verif.Access.Model
import Verif.Authz.Props
import Verif.Http.Props
import Verif.Criteria.Props
import Verif.Backend.PropsRows
import Verif.Backend.Examples
/-
C85: who may use a port, from the HTTP request to the link.
-/
namespace OpenNSA.Access
open Py Wire Http

/-- The client certificate of the request, over TLS, has this name: the last common name of the subject. -/
def Names (req : Http.Req) (name : Str) : Prop :=
  req.secure = true ∧ ∃ cs c, req.cert = some cs ∧ (cs.reverse.find? fun c => c.1 = cn) = some c ∧ decodeUtf8 c.2 = some name

/-- The request comes from someone who may make requests at all: with a list, from a host of the list; without, over plain HTTP or with a certificate. -/
def Listed (req : Http.Req) : Option (List Str) → Prop
  | some hosts => ∃ name ∈ hosts, Names req name
  | none => req.secure = false ∨ ∃ name, Names req name

/-- A rule is met by a request with these attributes in its message. -/
def Meets (r : Rule) (attrs : List (Str × Str)) (req : Http.Req) : Prop :=
  (r.type_ ∈ headerAttributes ∧ (r.type_, r.value) ∈ attrs) ∨ (r.type_ = "hostdn".toList ∧ Names req r.value)

/-- A request may use a port: it has no rules, or one of them is met. -/
def Opens (p : Backend.Port) (attrs : List (Str × Str)) (req : Http.Req) : Prop := p.authz = [] ∨ ∃ r ∈ p.authz, Meets r attrs req

theorem names_commonName {req : Http.Req} {name : Str} : Names req name ↔ req.secure = true ∧ ∃ cs, req.cert = some cs ∧ commonName cs = some name := by
  unfold Names commonName
  constructor
  · rintro ⟨hs, cs, c, h1, h2, h3⟩
    refine ⟨hs, cs, h1, ?_⟩
    rw [dget_dictOf]
    simp [h2, h3]
  · rintro ⟨hs, cs, h1, h2⟩
    rw [dget_dictOf] at h2
    obtain ⟨v, hv, hd⟩ := Option.bind_eq_some_iff.1 h2
    obtain ⟨c, hc, rfl⟩ := Option.map_eq_some_iff.1 hv
    exact ⟨hs, cs, c, h1, hc, hd⟩

/-- Who gets past the check of the SOAP resource, and by what name. -/
theorem soap_admitted (req : Http.Req) (allowed : Option (List Str)) :
    (Listed req allowed ↔ ∃ dn, gate .soap req allowed = .admitted dn) ∧
    ∀ dn, gate .soap req allowed = .admitted dn → ∀ name, dnText dn = some name ↔ Names req name := by
  simp only [names_commonName, Listed]
  unfold gate soapGate
  cases allowed with
  | some hosts =>
    simp only [Option.map_some]
    by_cases hs : req.secure = true
    · simp only [hs, not_true_eq_false, if_false, true_and]
      cases hc : req.cert with
      | none => simp
      | some cs =>
        cases hn : commonName cs with
        | none => simp [hn]
        | some n =>
          simp only [Option.some.injEq, exists_eq_left', hn]
          by_cases hm : PyVal.str n ∈ hosts.map PyVal.str
          · have hm' : n ∈ hosts := by simpa using hm
            simp only [hm, if_true, Gate.admitted.injEq, exists_eq', iff_true]
            refine ⟨⟨n, hm', rfl⟩, ?_⟩
            rintro dn rfl name
            simp [dnText]
          · have hm' : n ∉ hosts := by simpa using hm
            simp only [hm, if_false, reduceCtorEq, exists_const, iff_false, false_implies, implies_true, and_true]
            rintro ⟨x, hx, rfl⟩
            exact hm' hx
    · simp [hs]
  | none =>
    simp only [Option.map_none]
    by_cases hs : req.secure = true
    · simp only [hs, if_true, true_and, Bool.true_eq_false, false_or]
      cases hc : req.cert with
      | none => simp
      | some cs =>
        cases hn : commonName cs with
        | none => simp [hn]
        | some n =>
          simp only [Option.some.injEq, exists_eq_left', hn, Gate.admitted.injEq, exists_eq', true_and]
          rintro dn rfl name
          simp [dnText]
    · have hs' : req.secure = false := by simpa using hs
      simp only [hs', Bool.false_eq_true, if_false, Gate.admitted.injEq, exists_eq', true_or, false_and, iff_false, true_and]
      rintro dn rfl name
      simp [dnText]

/-- Rules against the credentials of a request. -/
theorem opens_iff {p : Backend.Port} {attrs : List (Str × Str)} {req : Http.Req} {dn : Option Str} (hn : ∀ name, dn = some name ↔ Names req name) :
    isAuthorized p.authz (attrs.map fun a => ⟨a.1, a.2⟩) (some dn) = some true ↔ Opens p attrs req := by
  rw [C17_authorized_iff]
  unfold Opens Meets Rule.SatisfiedBy
  have : ∀ r : Rule, (∃ sa ∈ attrs.map (fun a => (⟨a.1, a.2⟩ : SecAttr)), sa.type_ = r.type_ ∧ sa.value = r.value) ↔ (r.type_, r.value) ∈ attrs := by
    intro r
    constructor
    · rintro ⟨sa, hsa, h1, h2⟩
      obtain ⟨a, ha, rfl⟩ := List.mem_map.1 hsa
      simp only at h1 h2
      rw [← h1, ← h2]
      exact ha
    · intro h
      exact ⟨⟨r.type_, r.value⟩, List.mem_map.2 ⟨_, h, rfl⟩, rfl, rfl⟩
  simp only [this, hn]

/-- The calls that carry everything. -/
theorem hdr_full {k : Call} (hk : k ≠ .cleanup) (urn corr : Str) (c : Cred) : k.hdr urn corr c = ⟨urn, corr, c.attrs, c.ri⟩ := by
  cases k <;> first | rfl | exact absurd rfl hk

theorem soapCred_some {u : Uncommon} {fresh : Str} {req : Http.Req} {allowed : Option (List Str)} {action : Option Str} {env : Elem} {cred : Cred} {x : PIn}
    (h : soapCred u fresh req allowed action env = some (cred, x)) :
    ∃ dn hd, gate .soap req allowed = .admitted dn ∧ providerPost u fresh action env = .called hd x ∧
      cred = ⟨hd.securityAttributes.map fun a => ⟨a.1, a.2⟩, some (dnText dn)⟩ := by
  unfold soapCred at h
  split at h
  · rename_i dn hg
    split at h
    · rename_i hd y hp
      simp only [Option.some.injEq, Prod.mk.injEq] at h
      obtain ⟨rfl, rfl⟩ := h
      exact ⟨dn, hd, hg, hp, rfl⟩
    · cases h
  · cases h

/-- **C85, a request over SOAP.** A request of the requester client, with the attributes of its header and over some HTTP connection, leads to the corresponding
call exactly if it comes from someone who may make requests. In each call of a backend that the aggregator makes for it, other than the cleanup after a partial failure, a
port is granted exactly if it has no rules, or one that is met by an attribute of the client's header or by the common name of the client's certificate;
otherwise the call is refused as unauthorized. -/
theorem C85_soap (u : Uncommon) (fresh replyTo : Str) (h : NHeader) (hh : Criteria.Sendable h) (c : PCall) (hc : c.Ok) (req : Http.Req) (allowed : Option (List Str)) :
    ((∃ cred x, soapCred u fresh req allowed (some c.action) (c.message replyTo h) = some (cred, x)) ↔ Listed req allowed) ∧
    ∀ cred x, soapCred u fresh req allowed (some c.action) (c.message replyTo h) = some (cred, x) → Arrives c x ∧
      ∀ (k : Call) (urn corr : Str) (cfg : Backend.Cfg) (port : Str) (p : Backend.Port), k ≠ .cleanup → dget cfg.ports port = some p →
        (Opens p h.securityAttributes req → Backend.authorizePort cfg (k.hdr urn corr cred) port = .ok ()) ∧
        (¬ Opens p h.securityAttributes req → Backend.authorizePort cfg (k.hdr urn corr cred) port = .error .unauthorized) := by
  obtain ⟨hd, x, e1, e2, -, -, -, -, -, e8⟩ := C81_request u fresh replyTo h c hc hh.correlation hh.trace hh.attributes
  obtain ⟨g1, g2⟩ := soap_admitted req allowed
  constructor
  · rw [g1]
    constructor
    · rintro ⟨cred, y, hs⟩
      obtain ⟨dn, _, hg, _⟩ := soapCred_some hs
      exact ⟨dn, hg⟩
    · rintro ⟨dn, hg⟩
      exact ⟨⟨hd.securityAttributes.map fun a => ⟨a.1, a.2⟩, some (dnText dn)⟩, x, by simp only [soapCred, hg, e1]⟩
  · intro cred y hs
    obtain ⟨dn, hd', hg, hp, rfl⟩ := soapCred_some hs
    rw [e1] at hp
    injection hp with hp1 hp2
    subst hp1 hp2
    refine ⟨e2, ?_⟩
    intro k urn corr cfg port p hk hport
    have hperm : Opens p hd.securityAttributes req ↔ Opens p h.securityAttributes req := by
      unfold Opens Meets
      simp only [e8.mem_iff]
    have key := opens_iff (p := p) (attrs := hd.securityAttributes) (g2 dn hg)
    rw [hdr_full hk]
    simp only [Backend.authorizePort, hport]
    constructor
    · intro ho
      rw [key.2 (hperm.2 ho)]
    · intro ho
      have h1 : ¬ isAuthorized p.authz (hd.securityAttributes.map fun a => ⟨a.1, a.2⟩) (some (dnText dn)) = some true := fun h => ho (hperm.1 (key.1 h))
      have h2 := C17_decides p.authz (hd.securityAttributes.map fun a => ⟨a.1, a.2⟩) (dnText dn)
      cases h3 : isAuthorized p.authz (hd.securityAttributes.map fun a => ⟨a.1, a.2⟩) (some (dnText dn)) with
      | none => rw [h3] at h2; cases h2
      | some b => cases b with
        | true => exact absurd h3 h1
        | false => rfl

/-! ### From request to link -/

/-- A message posted to the SOAP resource, by anyone. -/
structure Post where
  u : Uncommon
  fresh : Str
  req : Http.Req
  action : Option Str
  env : Elem

/-- The message has these attributes, and with them and the connection it came over, both ports of the connection may be used. -/
def Post.Entitled (p : Post) (cfg : Backend.Cfg) (r : Backend.Row) : Prop :=
  ∃ hd es sp dp, parseRequest p.fresh p.env = .ok (hd, es) ∧ dget cfg.ports r.srcPort = some sp ∧ dget cfg.ports r.dstPort = some dp ∧
    Opens sp hd.securityAttributes p.req ∧ Opens dp hd.securityAttributes p.req

/-- All requests to the backend are made by the aggregator, each for some message that was posted. -/
def Carried (allowed : Option (List Str)) (posts : List Post) (s : List (Backend.Oracle × Backend.Choice)) : Prop :=
  ∀ o h q, (o, Backend.Choice.start h q) ∈ s → ∃ p ∈ posts, ∃ cred x k urn corr,
    soapCred p.u p.fresh p.req allowed p.action p.env = some (cred, x) ∧ h = Call.hdr urn corr cred k ∧ k.for x = true ∧ k.makes q = true

/-- Some message asks for this operation, from someone who may make requests, and with the means to use both ports. -/
def AskedFor (allowed : Option (List Str)) (posts : List Post) (cfg : Backend.Cfg) (r : Backend.Row) (operation : String) : Prop :=
  ∃ p ∈ posts, p.action = some (soapAction operation.toList) ∧ Listed p.req allowed ∧ p.Entitled cfg r

theorem carried_entitled {allowed : Option (List Str)} {posts : List Post} {s : List (Backend.Oracle × Backend.Choice)} (hs : Carried allowed posts s)
    {o : Backend.Oracle} {h : Backend.Hdr} {q : Backend.Req} (hm : (o, Backend.Choice.start h q) ∈ s) {cfg : Backend.Cfg} {r : Backend.Row}
    (hu : Backend.MayUse cfg h r) {operation : String} (hq : ∀ k x, Call.makes k q = true → Call.for k x = true → k ≠ .cleanup ∧ x.name = operation.toList) :
    AskedFor allowed posts cfg r operation := by
  obtain ⟨p, hp, cred, x, k, urn, corr, h1, rfl, h3, h4⟩ := hs o h q hm
  obtain ⟨hk, hx⟩ := hq k x h4 h3
  obtain ⟨dn, hd, g1, g2, rfl⟩ := soapCred_some h1
  obtain ⟨ha, hb⟩ := soap_admitted p.req allowed
  obtain ⟨hact, e, he, _⟩ := C81_only p.u p.fresh p.action p.env hd x g2
  obtain ⟨sp, dp, u1, u2, u3, u4⟩ := hu
  rw [hdr_full hk] at u3 u4
  exact ⟨p, hp, by rw [hact, hx], ha.2 ⟨dn, g1⟩, hd, [e], sp, dp, he, u1, u2, (opens_iff (hb dn g1)).1 u3, (opens_iff (hb dn g1)).1 u4⟩

/-- **C85, from request to link.** If all requests to a backend come over SOAP, then in every interleaving, with whatever failures and restarts, a link is up
only for a connection whose reservation, commit and provision were each asked for by a message from someone who may make requests, and whose attributes or
certificate open both ports. -/
theorem C85_link (cfg : Backend.Cfg) (ids : List Str) (clk : Int) (s : List (Backend.Oracle × Backend.Choice)) (ht : Backend.TextSchedule cfg s)
    (allowed : Option (List Str)) (posts : List Post) (hs : Carried allowed posts s) (cid : Str) :
    let w := (Backend.Conc.run cfg { w := Backend.World.init ids clk } s).w
    w.up cid → ∃ r ∈ w.rows, r.cid = cid ∧
      AskedFor allowed posts cfg r "reserve" ∧ AskedFor allowed posts cfg r "reserveCommit" ∧ AskedFor allowed posts cfg r "provision" := by
  intro w hu
  obtain ⟨r, hr, rfl, -, h1, h2⟩ := Backend.C23_interleaved cfg ids clk s ht cid hu
  refine ⟨r, hr, rfl, ?_, ?_, ?_⟩
  · obtain ⟨corr, o, h, cid?, src, dst, hm, -, -, e1, e2, -, ⟨sp, dp, ha⟩, -⟩ := Backend.C74_origin cfg ids clk s ht r hr
    have hmu : Backend.MayUse cfg h r := ⟨sp, dp, e1 ▸ ha.ports.1, e2 ▸ ha.ports.2, ha.authorized⟩
    refine carried_entitled hs hm hmu ?_
    intro k x h1 h2
    cases k <;> try (exact absurd h1 Bool.false_ne_true)
    refine ⟨by decide, ?_⟩
    cases x with
    | reserve _ => rfl
    | generic o _ => cases o <;> exact absurd h2 Bool.false_ne_true
    | query _ _ _ => exact absurd h2 Bool.false_ne_true
  · obtain ⟨o, h, hm, hmu⟩ := h1
    refine carried_entitled hs hm hmu ?_
    intro k x h1 h2
    cases k <;> try (exact absurd h1 Bool.false_ne_true)
    refine ⟨by decide, ?_⟩
    cases x with
    | reserve _ => exact absurd h2 Bool.false_ne_true
    | generic o _ => cases o <;> first | exact absurd h2 Bool.false_ne_true | rfl
    | query _ _ _ => exact absurd h2 Bool.false_ne_true
  · obtain ⟨o, h, hm, hmu⟩ := h2
    refine carried_entitled hs hm hmu ?_
    intro k x h1 h2
    cases k <;> try (exact absurd h1 Bool.false_ne_true)
    refine ⟨by decide, ?_⟩
    cases x with
    | reserve _ => exact absurd h2 Bool.false_ne_true
    | generic o _ => cases o <;> first | exact absurd h2 Bool.false_ne_true | rfl
    | query _ _ _ => exact absurd h2 Bool.false_ne_true

/-! ### Chains of aggregators -/

/-- A header is passed on along a chain. -/
def relay : List (Hop × PCall) → HeaderIn → Option HeaderIn
  | [], h => some h
  | (hop, c) :: rest, h => (hop.header h c).bind (relay rest)

theorem hop_header (hop : Hop) (c : PCall) (h : HeaderIn) (hcor : hop.corr ≠ []) (ht : ∀ x ∈ h.connectionTrace.getD [], ∃ y, x = some y ∧ y ≠ [])
    (ha : ∀ a ∈ h.securityAttributes, a.2 ≠ []) :
    ∃ hd, hop.header h c = some hd ∧ hd.requesterNSA = some hop.urn ∧ hd.securityAttributes.Perm h.securityAttributes ∧
      hd.connectionTrace = some (h.connectionTrace.getD [] ++ [some (hop.urn ++ ':' :: hop.cid)]) := by
  have htr : ∀ cs, (Criteria.segmentHeader hop.urn hop.provider hop.corr hop.cid h).connectionTrace = some cs → cs ≠ [] ∧ ∀ c ∈ cs, c ≠ [] := by
    intro cs hcs
    simp only [Criteria.segmentHeader, Option.some.injEq] at hcs
    subst hcs
    refine ⟨by simp, ?_⟩
    intro c hc
    simp only [List.mem_append, List.mem_map, List.mem_singleton] at hc
    rcases hc with ⟨a, ha, rfl⟩ | rfl
    · obtain ⟨x, rfl, hx⟩ := ht a ha
      exact hx
    · simp
  obtain ⟨hd, x, e1, -, e3, -, -, -, e7, e8⟩ := C81_request (fun _ => .error .typeError) hop.fresh hop.replyTo (Criteria.segmentHeader hop.urn hop.provider hop.corr hop.cid h)
    (.generic .terminate []) trivial hcor htr ha
  obtain ⟨_, e, he, _⟩ := C81_only _ _ _ _ _ _ e1
  have hp : ∃ es, parseRequest hop.fresh (c.message hop.replyTo (Criteria.segmentHeader hop.urn hop.provider hop.corr hop.cid h)) = .ok (hd, es) := by
    unfold PCall.message at he ⊢
    rw [parseRequest_createHeader] at he ⊢
    injection he with he
    exact ⟨_, by rw [(Prod.mk.inj he).1]⟩
  obtain ⟨es, hp⟩ := hp
  refine ⟨hd, by simp only [Hop.header, hp], e3, e8, ?_⟩
  rw [e7]
  simp only [Criteria.segmentHeader, Option.map_some, List.map_append, List.map_map, List.map_cons, List.map_nil]
  congr 2
  conv => rhs; rw [← List.map_id (h.connectionTrace.getD [])]
  apply List.map_congr_left
  intro a ha
  obtain ⟨x, rfl, -⟩ := ht a ha
  rfl

/-- **C85, chains of aggregators.** However many aggregators a reservation is passed on by, the last provider reads the attributes of the first requester, up
to order, the name of the aggregator before it as requester, and a trace of the connections of all of them. -/
theorem C85_chain (hops : List (Hop × PCall)) (hc : ∀ x ∈ hops, x.1.corr ≠ []) (h : HeaderIn) (ht : ∀ x ∈ h.connectionTrace.getD [], ∃ y, x = some y ∧ y ≠ [])
    (ha : ∀ a ∈ h.securityAttributes, a.2 ≠ []) :
    ∃ hd, relay hops h = some hd ∧ hd.securityAttributes.Perm h.securityAttributes ∧
      hd.connectionTrace.getD [] = h.connectionTrace.getD [] ++ hops.map (fun x => some (x.1.urn ++ ':' :: x.1.cid)) ∧
      ∀ x, hops.getLast? = some x → hd.requesterNSA = some x.1.urn := by
  induction hops generalizing h with
  | nil => exact ⟨h, rfl, .refl _, by simp, by simp⟩
  | cons x rest ih =>
    obtain ⟨hop, c⟩ := x
    obtain ⟨hd, e1, e2, e3, e4⟩ := hop_header hop c h (hc (hop, c) List.mem_cons_self) ht ha
    have ht' : ∀ x ∈ hd.connectionTrace.getD [], ∃ y, x = some y ∧ y ≠ [] := by
      rw [e4]
      intro x hx
      simp only [Option.getD_some, List.mem_append, List.mem_singleton] at hx
      rcases hx with hx | rfl
      · exact ht x hx
      · exact ⟨_, rfl, by simp⟩
    obtain ⟨hd', f1, f2, f3, f4⟩ := ih (fun x hx => hc x (List.mem_cons_of_mem _ hx)) hd ht' (fun a h => ha a (e3.mem_iff.1 h))
    refine ⟨hd', by simp only [relay, e1, Option.bind_some, f1], f2.trans e3, ?_, ?_⟩
    · rw [f3, e4]
      simp
    · intro y hy
      cases rest with
      | nil =>
        simp only [List.getLast?_singleton, Option.some.injEq] at hy
        subst hy
        simp only [relay, Option.some.injEq] at f1
        subst f1
        exact e2
      | cons z zs => exact f4 y (by simpa using hy)

/-- **C85, at the end of a chain.** At the provider that a chain of aggregators leads to, a port is granted exactly if it has no rules, or one that is met by an
attribute of the first requester, or by the common name of the certificate of the last aggregator. -/
theorem C85_remote (hops : List (Hop × PCall)) (hc : ∀ x ∈ hops, x.1.corr ≠ []) (h : HeaderIn) (ht : ∀ x ∈ h.connectionTrace.getD [], ∃ y, x = some y ∧ y ≠ [])
    (ha : ∀ a ∈ h.securityAttributes, a.2 ≠ []) (last : Hop) (hl : last.corr ≠ []) (u : Uncommon) (c : PCall) (hcall : c.Ok) (req : Http.Req) (allowed : Option (List Str)) :
    ∃ hd, relay hops h = some hd ∧
      ∀ cred x, soapCred u last.fresh req allowed (some c.action)
          (c.message last.replyTo (Criteria.segmentHeader last.urn last.provider last.corr last.cid hd)) = some (cred, x) →
        ∀ (k : Call) (urn corr : Str) (cfg : Backend.Cfg) (port : Str) (p : Backend.Port), k ≠ .cleanup → dget cfg.ports port = some p →
          (Backend.authorizePort cfg (k.hdr urn corr cred) port = .ok () ↔ Opens p h.securityAttributes req) := by
  obtain ⟨hd, e1, e2, e3, -⟩ := C85_chain hops hc h ht ha
  refine ⟨hd, e1, ?_⟩
  have ht' : ∀ x ∈ hd.connectionTrace.getD [], ∃ y, x = some y ∧ y ≠ [] := by
    rw [e3]
    intro x hx
    rcases List.mem_append.1 hx with hx | hx
    · exact ht x hx
    · obtain ⟨y, -, rfl⟩ := List.mem_map.1 hx
      exact ⟨_, rfl, by simp⟩
  have hsend : Criteria.Sendable (Criteria.segmentHeader last.urn last.provider last.corr last.cid hd) := by
    refine ⟨hl, ?_, fun a h => ha a (e2.mem_iff.1 h)⟩
    intro cs hcs
    simp only [Criteria.segmentHeader, Option.some.injEq] at hcs
    subst hcs
    refine ⟨by simp, ?_⟩
    intro c hc
    simp only [List.mem_append, List.mem_map, List.mem_singleton] at hc
    rcases hc with ⟨a, ha, rfl⟩ | rfl
    · obtain ⟨x, rfl, hx⟩ := ht' a ha
      exact hx
    · simp
  intro cred x hs k urn corr cfg port p hk hp
  obtain ⟨h1, h2⟩ := ((C85_soap u last.fresh last.replyTo _ hsend c hcall req allowed).2 cred x hs).2 k urn corr cfg port p hk hp
  have hperm : Opens p (Criteria.segmentHeader last.urn last.provider last.corr last.cid hd).securityAttributes req ↔ Opens p h.securityAttributes req := by
    unfold Opens Meets
    simp only [Criteria.segmentHeader, e2.mem_iff]
  constructor
  · intro h
    apply Classical.byContradiction
    intro hn
    rw [h2 fun ho => hn (hperm.1 ho)] at h
    cases h
  · exact fun ho => h1 (hperm.2 ho)

/-! ### The cleanup -/

/-- **C85 for the cleanup** (`_partial`: it holds for ports without rules for hosts; for others see `C85_cleanup_fails`). If no rule of a port is for hosts, then the
call that terminates a segment because another one failed is granted exactly if the reservation was. -/
theorem C85_cleanup_partial (cfg : Backend.Cfg) (cred : Cred) (urn corr corr' : Str) (port : Str) (p : Backend.Port) (dn : Option Str) (hri : cred.ri = some dn)
    (hp : dget cfg.ports port = some p) (hr : ∀ r ∈ p.authz, r.type_ ≠ hostDn) :
    Backend.authorizePort cfg (Call.cleanup.hdr urn corr' cred) port = Backend.authorizePort cfg (Call.reserve.hdr urn corr cred) port := by
  have key : ∀ (d : Bool) (rules : List Rule), (∀ r ∈ rules, r.type_ ≠ hostDn) → authzLoop d cred.attrs none rules = authzLoop d cred.attrs (some dn) rules := by
    intro d rules
    induction rules with
    | nil => intro _; rfl
    | cons r rs ih =>
      intro h
      have h1 := h r List.mem_cons_self
      have h2 := ih fun r hr => h r (List.mem_cons_of_mem _ hr)
      unfold authzLoop
      simp only [h1, if_false, h2]
  simp only [Backend.authorizePort, hp, Call.hdr, isAuthorized, hri, key _ _ hr]

/-- Two ports, one of them for the host `a` only. -/
def Ex.cfg : Backend.Cfg where
  network := ['n']
  ports := [(['a'], ⟨some (Backend.Ex.vlan 10 30), [⟨hostDn, ['a']⟩], false⟩), (['b'], ⟨some (Backend.Ex.vlan 10 30), [⟨['u', 's', 'e', 'r'], ['x']⟩], false⟩)]
  mgr := ⟨Backend.Ex.getResource, fun _ => true, none⟩
  minDuration := 60

/-- The header of the examples: the user `x`. -/
def Ex.header : NHeader :=
  { requesterNSA := "r".toList, providerNSA := "p".toList, correlationId := "urn:uuid:1".toList, replyTo := none, securityAttributes := [("user".toList, ['x'])]
    connectionTrace := none }

theorem Ex.header_ok : Criteria.Sendable Ex.header := ⟨by decide, (by intro cs h; cases h), by decide⟩

/-- The reservation of the examples. -/
def Ex.resv : Backend.Req :=
  .reserve none (Backend.Ex.stp 'a' 12 20) (Backend.Ex.stp 'b' 12 20) (some (Backend.Ex.sec 2000)) (some (Backend.Ex.sec 3000))

/-- The credentials of user `x` at host `a`. -/
def Ex.cred : Cred := ⟨[⟨['u', 's', 'e', 'r'], ['x']⟩], some (some ['a'])⟩

/-- **C85 is violated for the cleanup.** A reservation with two segments is made by someone who may use all ports. The backend accepts the first; the second
fails elsewhere. The call that should undo the first (aggregator.py:435) comes without request information, and raises an AttributeError at a rule for hosts
(authz.py:65): the connection is still there, created and held, with its two entries in the calendar. -/
theorem C85_cleanup_fails : ∃ (cfg : Backend.Cfg) (w : Backend.World) (cred : Cred) (urn corr corr' : Str) (o : Backend.Oracle) (q : Backend.Req) (cid : Str),
    Backend.authorizePort cfg (Call.reserve.hdr urn corr cred) ['a'] = .ok () ∧ Backend.authorizePort cfg (Call.reserve.hdr urn corr cred) ['b'] = .ok () ∧
    let s := Backend.step cfg w o (.req (Call.reserve.hdr urn corr cred) q)
    s.2 = .ok (some cid) ∧
    let s' := Backend.step cfg s.1 {} (.req (Call.cleanup.hdr urn corr' cred) (.terminate cid))
    s'.2 = .error .attribute ∧ s'.1.rows = s.1.rows ∧ s'.1.cal = s.1.cal ∧ s'.1.cal.length = 2 ∧
    ∃ r ∈ s'.1.rows, r.cid = cid ∧ r.st.l = .created ∧ r.st.r = .held := by
  refine ⟨Ex.cfg, Backend.Ex.w0, Ex.cred, ['p'], ['k'], ['l'], Backend.Ex.ids 'x', Ex.resv, ['x'], by decide +kernel, by decide +kernel, by decide +kernel, by decide +kernel,
    by decide +kernel, by decide +kernel, by decide +kernel, ⟨['x'], ['p'], Backend.Ex.sec 1000, ⟨.held, .released, .created⟩, false, false, ['a'], some (tVlan, 12), ['b'],
    some (tVlan, 12), some (Backend.Ex.sec 2000), some (Backend.Ex.sec 3000)⟩, by decide +kernel, rfl, rfl, rfl⟩

/-! ### Other ways in -/

/-- **C85 is violated for attributes.** Nobody vouches for the attributes of a header. Whoever may make requests, under whatever name, can add the attribute that a rule
asks for, and is granted the port: so a rule for an NSA, a user, a group or a token keeps out only those who do not know its text. -/
theorem C85_attributes_fails (req : Http.Req) (allowed : Option (List Str)) (hl : Listed req allowed) (cfg : Backend.Cfg) (port : Str) (p : Backend.Port)
    (hp : dget cfg.ports port = some p) (r : Rule) (hr : r ∈ p.authz) (ht : r.type_ ∈ headerAttributes) (hv : r.value ≠ []) (me : Str) (c : PCall) (hc : c.Ok) :
    ∃ h : NHeader, h.requesterNSA = me ∧ ∀ u fresh replyTo, ∃ cred x, soapCred u fresh req allowed (some c.action) (c.message replyTo h) = some (cred, x) ∧
      ∀ k urn corr, Backend.authorizePort cfg (Call.hdr urn corr cred k) port = .ok () ∨ k = .cleanup := by
  let h : NHeader := { requesterNSA := me, providerNSA := [], correlationId := ['1'], replyTo := none, securityAttributes := [(r.type_, r.value)], connectionTrace := none }
  have hh : Criteria.Sendable h := by
    refine ⟨by simp [h], fun cs e => (by cases e), ?_⟩
    intro a ha
    simp only [h, List.mem_singleton] at ha
    subst ha
    exact hv
  refine ⟨h, rfl, fun u fresh replyTo => ?_⟩
  obtain ⟨h1, h2⟩ := C85_soap u fresh replyTo h hh c hc req allowed
  obtain ⟨cred, x, hs⟩ := h1.2 hl
  refine ⟨cred, x, hs, fun k urn corr => ?_⟩
  by_cases hk : k = .cleanup
  · exact .inr hk
  · exact .inl (((h2 cred x hs).2 k urn corr cfg port p hk hp).1 (.inr ⟨r, hr, .inl ⟨ht, by simp [h]⟩⟩))

/-- **C85 is violated for REST.** A request over REST is never granted a port that has rules, whatever the rules and the certificate: its header has no attributes
(rest/resource.py:231), and the name of its host is kept as bytes (requestauthz.py:33, 51), which no text of a rule equals. -/
theorem C85_rest_fails (e : Endpoint) (he : e ≠ .soap) (req : Http.Req) (allowed : Option (List Str)) (cred : Cred) (hs : restCred e req allowed = some cred)
    (k : Call) (urn corr : Str) (cfg : Backend.Cfg) (port : Str) (p : Backend.Port) (hp : dget cfg.ports port = some p) (hr : p.authz ≠ []) :
    Backend.authorizePort cfg (k.hdr urn corr cred) port ≠ .ok () := by
  have hdn : ∀ dn, gate e req allowed = .admitted dn → dnText dn = none := by
    intro dn hg
    have hchk : ∀ hosts, checkAuthz req hosts = .admitted dn → dnText dn = none := by
      intro hosts h
      unfold checkAuthz at h
      repeat' split at h
      all_goals first | cases h; rfl | cases h
    cases e with
    | soap => exact absurd rfl he
    | restList => simp only [gate, Gate.admitted.injEq] at hg; subst hg; rfl
    | restCreate => exact hchk _ hg
    | restRead => exact hchk _ hg
    | restStatus => exact hchk _ hg
    | restCommand => exact hchk _ hg
  have hcred : cred = ⟨[], some none⟩ := by
    unfold restCred at hs
    split at hs
    · rename_i dn hg
      simp only [Option.some.injEq] at hs
      rw [← hs, hdn dn hg]
    · cases hs
  subst hcred
  have h1 : isAuthorized p.authz [] (some none) ≠ some true := by
    rw [Ne, C17_authorized_iff]
    rintro (h | ⟨r, -, ⟨-, sa, h, -⟩ | ⟨-, h⟩⟩)
    · exact hr h
    · cases h
    · cases h
  have h2 : isAuthorized p.authz [] none ≠ some true := by
    rw [Ne, C17_no_request_info]
    rintro (h | ⟨_, r, _, -, -, ⟨-, sa, h, -⟩ | ⟨-, h⟩⟩)
    · exact hr h
    · cases h
    · cases h
  intro h
  simp only [Backend.authorizePort, hp] at h
  have h3 : isAuthorized p.authz (k.hdr urn corr ⟨[], some none⟩).attrs (k.hdr urn corr ⟨[], some none⟩).ri ≠ some true := by
    cases k <;> first | exact h1 | exact h2
  split at h
  · cases h
  · cases h
  · rename_i h4
    exact h3 h4

/-! ### Examples -/

/-- A request from host `a`, with the user `x`: it may use both ports of the example, by its certificate and by its header. -/
example : Names certA ['a'] ∧ Listed certA (some [['b'], ['a']]) ∧ Opens ⟨none, [⟨hostDn, ['a']⟩], false⟩ Ex.header.securityAttributes certA ∧
    Opens ⟨none, [⟨['u', 's', 'e', 'r'], ['x']⟩], false⟩ Ex.header.securityAttributes certA ∧
    ¬ Opens ⟨none, [⟨['u', 's', 'e', 'r'], ['y']⟩], false⟩ Ex.header.securityAttributes certA := by
  have hn : Names certA ['a'] := ⟨rfl, _, (cn, [97]), rfl, rfl, decode_a⟩
  refine ⟨hn, ⟨['a'], by simp, hn⟩, .inr ⟨_, List.mem_cons_self, .inr ⟨rfl, hn⟩⟩, .inr ⟨_, List.mem_cons_self, .inl ⟨by decide, by decide⟩⟩, ?_⟩
  rintro (h | ⟨r, h, h'⟩)
  · cases h
  · simp only [List.mem_singleton] at h
    subst h
    rcases h' with ⟨-, h⟩ | ⟨h, -⟩
    · exact absurd h (by decide)
    · exact absurd h (by decide)

/-- The three messages of the example. -/
def Ex.post (c : PCall) : Post := ⟨fun _ => .error .typeError, [], certA, some c.action, c.message [] Ex.header⟩

/-- Reserve, commit, provision; the start time comes. -/
def Ex.schedule : List (Backend.Oracle × Backend.Choice) :=
  [(Backend.Ex.ids 'x', .start (Call.reserve.hdr ['p'] ['k'] Ex.cred) Ex.resv)] ++ Backend.Ex.goes 0 ++ Backend.Ex.goes 1 ++
  [(Backend.Ex.o0, .start (Call.reserveCommit.hdr ['p'] ['k'] Ex.cred) (.commit ['x']))] ++ Backend.Ex.goes 2 ++ Backend.Ex.goes 3 ++
  [(Backend.Ex.o0, .start (Call.provision.hdr ['p'] ['k'] Ex.cred) (.provision ['x']))] ++ Backend.Ex.goes 4 ++ Backend.Ex.goes 5 ++
  [(Backend.Ex.o0, .wait 1500000000), (Backend.Ex.o0, .fire ['x'])] ++ Backend.Ex.goes 6

/-- The messages. -/
def Ex.posts : List Post := [Ex.post (.reserve Db.Ex.good), Ex.post (.generic .reserveCommit ['c']), Ex.post (.generic .provision ['c'])]

/-- `C85_link`: three messages from host `a` lead to a link. -/
example : Carried (some [['a']]) Ex.posts Ex.schedule ∧ (Backend.Conc.run Ex.cfg { w := Backend.World.init [] (Backend.Ex.sec 1000) } Ex.schedule).w.up ['x'] := by
  constructor
  · have h1 : ∃ x, soapCred (fun _ => .error .typeError) [] certA (some [['a']]) (some (PCall.reserve Db.Ex.good).action) ((PCall.reserve Db.Ex.good).message [] Ex.header) =
        some (Ex.cred, .reserve x) :=
      ⟨{ Db.Ex.good with sd := { Db.Ex.good.sd with symmetric := some (Db.Ex.good.sd.symmetric.getD false), ero := none, parameters := truthy Db.Ex.good.sd.parameters } }, by decide +kernel⟩
    have h2 : soapCred (fun _ => .error .typeError) [] certA (some [['a']]) (some (PCall.generic .reserveCommit ['c']).action)
        ((PCall.generic .reserveCommit ['c']).message [] Ex.header) = some (Ex.cred, .generic .reserveCommit (some ['c'])) := by decide +kernel
    have h3 : soapCred (fun _ => .error .typeError) [] certA (some [['a']]) (some (PCall.generic .provision ['c']).action)
        ((PCall.generic .provision ['c']).message [] Ex.header) = some (Ex.cred, .generic .provision (some ['c'])) := by decide +kernel
    obtain ⟨x, h1⟩ := h1
    intro o h q hm
    simp [Ex.schedule, Backend.Ex.goes, Backend.Ex.go] at hm
    rcases hm with ⟨-, rfl, rfl⟩ | ⟨-, rfl, rfl⟩ | ⟨-, rfl, rfl⟩
    · exact ⟨Ex.post (.reserve Db.Ex.good), by simp [Ex.posts], _, _, .reserve, _, _, h1, rfl, rfl, rfl⟩
    · exact ⟨Ex.post (.generic .reserveCommit ['c']), by simp [Ex.posts], _, _, .reserveCommit, _, _, h2, rfl, rfl, rfl⟩
    · exact ⟨Ex.post (.generic .provision ['c']), by simp [Ex.posts], _, _, .provision, _, _, h3, rfl, rfl, rfl⟩
  · decide +kernel

/-- `C85_chain`, `C85_remote`: two aggregators, and a header with a group and a trace. -/
example : (∀ x ∈ [((⟨"urn:a".toList, "urn:b".toList, "1".toList, "A-1".toList, [], []⟩ : Hop), PCall.generic .terminate []),
      (⟨"urn:b".toList, "urn:c".toList, "2".toList, "B-1".toList, [], []⟩, PCall.generic .terminate [])], x.1.corr ≠ []) ∧
    ∃ h : HeaderIn, h.securityAttributes = [("group".toList, "g".toList)] ∧ (∀ a ∈ h.securityAttributes, a.2 ≠ []) ∧
      (∀ x ∈ h.connectionTrace.getD [], ∃ y, x = some y ∧ y ≠ []) ∧ h.connectionTrace = some [some "urn:r:1".toList] := by
  refine ⟨by decide, ⟨none, none, none, none, [("group".toList, "g".toList)], some [some "urn:r:1".toList]⟩, rfl, by decide, ?_, rfl⟩
  intro x hx
  simp only [Option.getD_some, List.mem_singleton] at hx
  exact ⟨_, hx, by decide⟩

/-- `C85_cleanup_partial`, `C85_attributes_fails`: a port with a rule for a user. -/
example : ∃ p, dget Ex.cfg.ports ['b'] = some p ∧ p.authz ≠ [] ∧ (∀ r ∈ p.authz, r.type_ ≠ hostDn ∧ r.type_ ∈ headerAttributes ∧ r.value ≠ []) :=
  ⟨_, rfl, by decide, by decide⟩

/-- `C85_rest_fails`: a request with a certificate, without access list. -/
example : restCred .restCreate certA none = some ⟨[], some none⟩ := by decide +kernel

end OpenNSA.Access
