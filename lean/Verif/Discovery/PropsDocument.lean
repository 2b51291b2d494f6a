import Verif.Discovery.Document
/-
C63: what a discovery document tells.
-/
namespace OpenNSA.Discovery
open Py OpenNSA.Registry OpenNSA.Wire

theorem findIn_map {α : Type} (t : String) (f : α → Elem) (l : List α) (t' : String) (h : ∀ a, (f a).tag = t') :
    findIn t (l.map f) = if t' = t then l.head?.map f else none := by
  induction l with
  | nil => simp
  | cons a l ih =>
    simp only [List.map_cons, findIn_cons, h, List.head?_cons, Option.map_some]
    split
    · rfl
    · rename_i hn
      rw [ih, if_neg hn]

theorem filter_map_tag {α : Type} (t : String) (f : α → Elem) (l : List α) (t' : String) (h : ∀ a, (f a).tag = t') :
    (l.map f).filter (fun k => decide (k.tag = t)) = if t' = t then l.map f else [] := by
  induction l with
  | nil => simp
  | cons a l ih =>
    simp only [List.map_cons, List.filter_cons, h]
    by_cases hn : t' = t
    · simp only [hn, decide_true, if_true] at ih ⊢
      rw [ih]
    · simp only [hn, decide_false, if_false, Bool.false_eq_true] at ih ⊢
      exact ih

theorem normText_getD (x : Str) : (normText (some x)).getD [] = x := by cases x <;> rfl

theorem Iface.build_xml (i : Str × Str × Option Str) : Iface.build (wire ((Iface.mk (some i.1) (some i.2.1) i.2.2).xml "interface")) = ⟨some i.1, some i.2.1, i.2.2⟩ := by
  obtain ⟨t, h, d⟩ := i
  cases d with
  | none => simp [Iface.build, Iface.xml, optLeaf, Elem.findtext, Elem.find, findIn_cons, normText_getD]
  | some d => simp [Iface.build, Iface.xml, optLeaf, Elem.findtext, Elem.find, findIn_cons, normText_getD]

theorem Feature.build_xml (f : Str × Option Str) : Feature.build (wire (Feature.xml f.1 f.2 "feature")) = ⟨some f.1, normText f.2⟩ := by
  simp [Feature.build, Feature.xml, Elem.get, dget]

/-- The list, or `none` if it is empty. -/
def orNone {α : Type} (l : List α) : Option (List α) := if l = [] then none else some l

/-- **C63, the document.** A service that has its own URN among the providers publishes a document from which is read what it holds: identity, times, name,
versions, networks, interfaces, features. Of the other agents only one is read (the class takes the first of the elements). -/
theorem C63_document (s : Service) (h : s.nsaId ∈ s.urns.map (·.2)) :
    s.published = some
      { id := some s.nsaId, version := some s.version, expires := none, name := some s.name, softwareVersion := some s.softwareVersion
        startTime := some s.startTime, networkId := s.networkIds.map fun n => normText (some n)
        interface := orNone (s.interfaces.map fun i => ⟨some i.1, some i.2.1, i.2.2⟩)
        feature := orNone (s.features.map fun f => ⟨some f.1, normText f.2⟩)
        peersWith := ((distinct (s.urns.map (·.2))).filter (· ≠ s.nsaId)).head?
        other := none } := by
  have hp : s.peers = some ((distinct (s.urns.map (·.2))).filter (· ≠ s.nsaId)) := by simp [Service.peers, h]
  generalize (distinct (s.urns.map (·.2))).filter (· ≠ s.nsaId) = peers at hp
  have t1 : ∀ n : Str, (leaf "networkId" (some n)).tag = "networkId" := fun _ => rfl
  have t2 : ∀ i : Str × Str × Option Str, ((Iface.mk (some i.1) (some i.2.1) i.2.2).xml "interface").tag = "interface" := fun _ => rfl
  have t3 : ∀ f : Str × Option Str, (Feature.xml f.1 f.2 "feature").tag = "feature" := fun _ => rfl
  have t4 : ∀ n : Str, (leaf "peersWith" (some n)).tag = "peersWith" := fun _ => rfl
  simp only [Service.published, Service.xml, hp, Option.bind_some, parse, wire_tag, mk_tag, if_true, NsaType.build, buildOthers, wire_find, wire_findall, wire_get,
    wire_findtext, Option.isSome_map]
  simp only [Elem.find, Elem.findall, Elem.findtext, mk_kids, findIn_cons, findIn_append, List.filter_cons, List.filter_append,
    findIn_map _ _ _ _ t1, findIn_map _ _ _ _ t2, findIn_map _ _ _ _ t3, findIn_map _ _ _ _ t4,
    filter_map_tag _ _ _ _ t1, filter_map_tag _ _ _ _ t2, filter_map_tag _ _ _ _ t3, filter_map_tag _ _ _ _ t4, leaf_tag]
  simp only [String.reduceEq, if_true, if_false, decide_false, Option.none_or, Option.or_none, Option.isSome_none, Option.isSome_some, Bool.false_eq_true,
    Option.some.injEq, NsaType.mk.injEq, Elem.get, mk_attrib, dget, Option.map_some, leaf_text, Option.getD_some, true_and, and_true, Option.isSome_map,
    List.nil_append, List.append_nil, List.map_map]
  refine ⟨?_, ?_, ?_, ?_⟩
  · cases s.networkIds with
    | nil => simp
    | cons a l => simp
  · cases s.interfaces with
    | nil => simp [orNone]
    | cons a l => simp [orNone, Iface.build_xml]
  · cases s.features with
    | nil => simp [orNone]
    | cons a l => simp [orNone, Feature.build_xml]
  · cases peers with
    | nil => simp
    | cons a l => simp


/-- The URL that a peer uses: interfaces of other types do not matter. -/
theorem serviceUrl_append {l k : List (Option Str × Option Str)} (h : ∀ i ∈ k, i.1 ≠ some cs2Provider ∧ i.1 ≠ some cs2ServiceType) : serviceUrl (l ++ k) = serviceUrl l := by
  unfold serviceUrl
  rw [List.foldl_append]
  generalize l.foldl _ none = o
  induction k with
  | nil => rfl
  | cons a k ih =>
    obtain ⟨h1, h2⟩ := h a (by simp)
    rw [List.foldl_cons, if_neg h1, if_neg (fun h => h2 h.1)]
    exact ih fun i hi => h i (List.mem_cons_of_mem _ hi)

variable {π ρ : Type}

/-- The own agent is known to the registry from the start, if there is a backend. -/
theorem own_urn (c : Setup) (hb : c.backends ≠ []) (f : List Str) (backend : Str → ρ) (more : List (Op ρ)) :
    urnPrefix ++ c.nsaIdent ∈ ((Reg.new f).run (c.providers backend ++ more)).urns.map (·.2) := by
  cases hc : c.backends with
  | nil => exact absurd hc hb
  | cons b bs =>
    have h0 : dget ((Reg.new f).run [Op.add (urnPrefix ++ c.nsaIdent) (c.domain ++ ':' :: b) (backend (c.domain ++ ':' :: b))]).urns (c.domain ++ ':' :: b) =
        some (urnPrefix ++ c.nsaIdent) := by
      simp [Reg.run, Reg.step, Reg.addProvider, Reg.new, dmem, dget, dset]
    have hk := run_keep ((Inv.new f).run [Op.add (urnPrefix ++ c.nsaIdent) (c.domain ++ ':' :: b) (backend (c.domain ++ ':' :: b))])
      ((bs.map fun b => Op.add (urnPrefix ++ c.nsaIdent) (c.domain ++ ':' :: b) (backend (c.domain ++ ':' :: b))) ++ more) (m := c.domain ++ ':' :: b)
    have h1 := hk.2 _ h0
    rw [← Reg.run_append] at h1
    have h2 : [Op.add (urnPrefix ++ c.nsaIdent) (c.domain ++ ':' :: b) (backend (c.domain ++ ':' :: b))] ++
        ((bs.map fun b => Op.add (urnPrefix ++ c.nsaIdent) (c.domain ++ ':' :: b) (backend (c.domain ++ ':' :: b))) ++ more) = c.providers backend ++ more := by
      simp [Setup.providers, Setup.networks, hc]
    rw [h2] at h1
    exact List.mem_map.2 ⟨_, dget_some_mem h1, rfl⟩

/-- What is read from the document of a service. -/
def Setup.doc (c : Setup) : Doc :=
  ⟨some (urnPrefix ++ c.nsaIdent), c.networks.map fun n => some (urnPrefix ++ n), some (c.interfaces.map fun i => (some i.1, some i.2.1)), []⟩

theorem Setup.mem_interfaces (c : Setup) : (cs2Provider, c.endpoint, none) ∈ c.interfaces :=
  List.mem_append_left _ (List.mem_append_left _ List.mem_cons_self)

theorem urnPrefix_ne (s : Str) : normText (some (urnPrefix ++ s)) = some (urnPrefix ++ s) := rfl

theorem doc_eq (c : Setup) (urns : List (Str × Str)) (lv : LinkVector) (h : urnPrefix ++ c.nsaIdent ∈ urns.map (·.2)) :
    ∃ t, (c.service urns lv).published = some t ∧ t.id = some (urnPrefix ++ c.nsaIdent) ∧ t.doc = c.doc := by
  have hd := C63_document (c.service urns lv) h
  refine ⟨_, hd, rfl, ?_⟩
  have hi : c.interfaces ≠ [] := List.ne_nil_of_mem c.mem_interfaces
  simp only [NsaType.doc, Setup.doc, Setup.service, Doc.mk.injEq, true_and, orNone, List.map_eq_nil_iff, hi, if_false, Option.map_some, Option.getD_none, List.flatMap_nil,
    and_true, List.map_map]
  exact ⟨rfl, rfl⟩

theorem Setup.url (c : Setup) : serviceUrl (c.interfaces.map fun i => (some i.1, some i.2.1)) = some c.endpoint := by
  have key : ∀ e : Str, serviceUrl [(some cs2Provider, some e), (some cs2ServiceType, some e)] = some e := by
    intro e
    simp [serviceUrl]
  rw [Setup.interfaces, List.append_assoc, List.map_append, serviceUrl_append, ← key c.endpoint]
  · rfl
  · intro i hi
    have h1 : opennsaRest ≠ cs2Provider ∧ opennsaRest ≠ cs2ServiceType := by decide +kernel
    have h2 : nmlServiceType ≠ cs2Provider ∧ nmlServiceType ≠ cs2ServiceType := by decide +kernel
    simp only [List.map_append, List.mem_append, List.mem_map, List.map_map] at hi
    rcases hi with ⟨a, ha, rfl⟩ | ⟨n, _, rfl⟩
    · split at ha
      · simp only [List.mem_singleton] at ha
        subst ha
        simp [h1]
      · simp at ha
    · simp [h2]

theorem Setup.fine (c : Setup) : c.doc.Fine c.nsaIdent := by
  refine ⟨rfl, ⟨_, cs2Provider, c.endpoint, rfl, Or.inl rfl, ?_⟩, ?_, ?_, ?_⟩
  · exact List.mem_map.2 ⟨_, c.mem_interfaces, rfl⟩
  · intro l hl i hi
    simp only [Setup.doc, Option.some.injEq] at hl
    subst hl
    simp only [List.mem_map] at hi
    obtain ⟨a, _, rfl⟩ := hi
    simp
  · simp [Setup.doc]
  · simp [Setup.doc]

theorem Setup.owns (c : Setup) (n : Str) : c.doc.Owns n ↔ n ∈ c.networks := by
  simp only [Doc.Owns, Setup.doc, List.mem_map, Option.some.injEq]
  constructor
  · rintro ⟨m, hm, h⟩
    exact List.append_cancel_left h ▸ hm
  · exact fun h => ⟨n, h, rfl⟩

/-- **C63, what a peer learns.** Let a service be set up with at least one backend; whatever other providers it has heard of since, it publishes a document, and
a peer that gets it (in whatever state) learns: the identity and the URL of the connection service; providers for exactly the networks of the
service, by the URN of the service unless the network was known before; and the networks, at cost 1, on its ports that lead to
one of them. -/
theorem C63_learned (c : Setup) (hb : c.backends ≠ []) (f : List Str) (backend : Str → ρ) (more : List (Op ρ)) (lv : LinkVector) :
    ∃ t, (c.service ((Reg.new f).run (c.providers backend ++ more)).urns lv).published = some t ∧
      t.id = some (urnPrefix ++ c.nsaIdent) ∧ (∃ l, t.doc.interfaces = some l ∧ serviceUrl l = some c.endpoint) ∧
      ∀ (ports : Ports) (made : Str → Option π) (_ : ∀ n, made n ≠ none) (f' : List Str) (_ : cs2ServiceType ∈ f') (rops : List (Op π)) (lv' : LinkVector)
        (_ : ∀ n ∈ lv'.localNets, n ∉ lv'.cfg.black),
        let before := (Reg.new f').run rops
        let after := gotDocument ports made ⟨before, lv'⟩ t.doc
        (∀ n ∈ c.networks, (∃ p, dget after.reg.providers n = some p) ∧
          ((∀ p, dget before.providers n ≠ some p) → after.reg.getProviderURN n = .ok (urnPrefix ++ c.nsaIdent))) ∧
        (∀ n, n ∉ c.networks → dget after.reg.providers n = dget before.providers n) ∧
        (∀ n p x, (∃ r, LeadsTo ports n p r ∧ r ∈ c.networks) → lv'.costOf n p x = none → after.lv.costOf n p x = if x ∈ c.networks then some 1 else none) ∧
        (∀ n p x, ¬ ((∃ r, LeadsTo ports n p r ∧ r ∈ c.networks) ∧ lv'.costOf n p x = none) → after.lv.costOf n p x = lv'.costOf n p x) := by
  obtain ⟨t, h1, h2, h3⟩ := doc_eq c ((Reg.new f).run (c.providers backend ++ more)).urns lv (own_urn c hb f backend more)
  refine ⟨t, h1, h2, ⟨_, by rw [h3]; rfl, c.url⟩, ?_⟩
  intro ports made hm f' hf rops lv' hl
  simp only [h3]
  refine ⟨?_, ?_, ?_, ?_⟩
  · intro n hn
    exact C53_providers (ports := ports) c.fine hm f' hf rops lv' n ((c.owns n).2 hn)
  · intro n hn
    obtain ⟨nets, w, hn', _, _, _, he⟩ := gotDocument_fine (ports := ports) c.fine hm f' hf rops lv'
    rw [he, Reg.run_append]
    cases hd : dget ((Reg.new f').run rops).providers n with
    | some p => exact (run_keep ((Inv.new f').run rops) _).1 p hd
    | none =>
      cases ha : dget (((Reg.new f').run rops).run (nets.map fun n => Op.spawn (agentOf c.nsaIdent) n (made n))).providers n with
      | none => rfl
      | some p =>
        exfalso
        rcases run_known _ ha with ⟨q, hq⟩ | ⟨o, ho, hon⟩
        · rw [hd] at hq; cases hq
        · simp only [List.mem_map] at ho
          obtain ⟨m, hm, rfl⟩ := ho
          have : m = n := hon
          subst this
          exact hn ((c.owns m).1 ((hn' m).1 hm))
  · intro n p x hr hx
    have h := (C53_costs (ports := ports) c.fine hm f' hf rops lv' hl n p x).2.2 (by obtain ⟨r, h1, h2⟩ := hr; exact ⟨r, h1, (c.owns r).2 h2⟩) hx
    split
    · rename_i hm'
      exact h.1 ((c.owns x).2 hm')
    · rename_i hm'
      exact h.2.2 (fun ho => hm' ((c.owns x).1 ho)) (by simp [Setup.doc])
  · intro n p x hnot
    have h := C53_costs (ports := ports) c.fine hm f' hf rops lv' hl n p x
    by_cases hr : ∃ r, LeadsTo ports n p r ∧ r ∈ c.networks
    · cases hx : lv'.costOf n p x with
      | none => exact absurd ⟨hr, hx⟩ hnot
      | some k => exact h.2.1 k hx
    · exact h.1 fun ⟨r, h1, h2⟩ => hr ⟨r, h1, (c.owns r).1 h2⟩

/-! ### Example and violations -/

namespace Ex2
/-- A domain with two backends. -/
def c : Setup := ⟨"nordu.net".toList, "https://nordu.net:9443".toList, ["topology".toList, "lab".toList], true, true, "3.0".toList, "2026-01-01T00:00:00Z".toList⟩
/-- The same without a backend. -/
def agg : Setup := { c with backends := [] }
end Ex2

/-- The hypothesis of `C63_learned` is met; the networks learned are these. -/
example : Ex2.c.backends ≠ [] ∧ Ex2.c.networks = ["nordu.net:topology".toList, "nordu.net:lab".toList] := by decide

/-- The document of the example. -/
example : (Ex2.c.service [("nordu.net:topology".toList, "urn:ogf:network:nordu.net:nsa".toList), ("surf:t".toList, "urn:ogf:network:surf:nsa".toList)] Ex.lv).published.map
    (fun t => (t.networkId, t.peersWith)) = some ([some "urn:ogf:network:nordu.net:topology".toList, some "urn:ogf:network:nordu.net:lab".toList], some "urn:ogf:network:surf:nsa".toList) := by
  rw [C63_document _ (by decide +kernel)]
  decide +kernel

/-- C63: the features that are read: a provider of resources exactly if there are own networks, an aggregator exactly if there are peers. -/
theorem C63_features (c : Setup) (urns : List (Str × Str)) (lv : LinkVector) (h : urnPrefix ++ c.nsaIdent ∈ urns.map (·.2)) :
    ∃ t, (c.service urns lv).published = some t ∧ ∀ ty, (∃ v, (⟨some ty, v⟩ : Feature) ∈ t.feature.getD []) ↔
      (ty = "vnd.ogf.nsi.cs.v2.role.uPA".toList ∧ c.backends ≠ []) ∨ (ty = "vnd.ogf.nsi.cs.v2.role.aggregator".toList ∧ c.hasPeers = true) := by
  refine ⟨_, C63_document (c.service urns lv) h, ?_⟩
  intro ty
  have hget : ∀ l : List Feature, (orNone l).getD [] = l := by
    intro l
    cases l <;> simp [orNone]
  simp only [hget]
  have key : ∀ (u a : Str), (∃ v, (⟨some ty, v⟩ : Feature) ∈ ((if c.networks ≠ [] then [(u, none)] else []) ++ (if c.hasPeers then [(a, none)] else []) : List (Str × Option Str)).map
      fun f => ⟨some f.1, normText f.2⟩) ↔ (ty = u ∧ c.backends ≠ []) ∨ (ty = a ∧ c.hasPeers = true) := by
    intro u a
    unfold Setup.networks
    cases c.backends <;> cases c.hasPeers <;> simp [normText]
    constructor
    · rintro ⟨v, h | h⟩
      · exact .inl h.1
      · exact .inr h.1
    · rintro (h | h)
      · exact ⟨_, .inl ⟨h, rfl⟩⟩
      · exact ⟨_, .inr ⟨h, rfl⟩⟩
  exact key _ _

example : urnPrefix ++ Ex2.c.nsaIdent ∈ [(Ex.own, urnPrefix ++ Ex2.c.nsaIdent)].map (·.2) := by simp

/-- **C63 is violated without backends.** A service that runs as aggregator only cannot make its document when it is set up: its own URN is not among the
providers, and removing it from a set raises an exception other than the one that is caught. So the service does not start. -/
theorem C63_aggregator_fails : Ex2.agg.backends = [] ∧
    ∀ (c : Setup) (_ : c.backends = []) (f : List Str) (backend : Str → ρ) (lv : LinkVector), (c.service ((Reg.new f).run (c.providers backend)).urns lv).xml = none := by
  refine ⟨rfl, ?_⟩
  intro c hc f backend lv
  simp [Service.xml, Service.peers, Setup.service, Setup.providers, Setup.networks, hc, Reg.run, Reg.new]

/-- **C63 is violated for networks behind the service.** No document ever tells which networks are reached through the service: the home service of the
example has a port to the network `x`, at cost 1, and publishes a document; but a peer with a port to it does not learn that there is `x`. -/
theorem C63_reach_fails : ∃ (c : Setup) (t : NsaType) (ports : Ports),
    Ex.lv.costOf Ex.own "p".toList Ex.x = some 1 ∧ c.networks = [Ex.own] ∧
    (c.service [(Ex.own, urnPrefix ++ c.nsaIdent)] Ex.lv).published = some t ∧ t.other = none ∧
    LeadsTo ports "peer:t".toList "p".toList Ex.own ∧
    (gotDocument ports (fun _ => some 7) ⟨(Reg.new [cs2ServiceType]).run [], lvRun [] 5 (setupOps ports)⟩ t.doc).lv.costOf "peer:t".toList "p".toList Ex.x = none := by
  have hd := C63_document (({ Ex2.c with domain := "home".toList, backends := ["topology".toList] } : Setup).service [(Ex.own, urnPrefix ++ "home:nsa".toList)] Ex.lv)
    (by decide +kernel)
  obtain ⟨t, h1, h2, h3⟩ := doc_eq { Ex2.c with domain := "home".toList, backends := ["topology".toList] } [(Ex.own, urnPrefix ++ "home:nsa".toList)] Ex.lv (by decide +kernel)
  refine ⟨{ Ex2.c with domain := "home".toList, backends := ["topology".toList] }, t, [("peer:t".toList, [("p".toList, some Ex.own)])], ?_, by decide +kernel, h1, ?_, ⟨_, List.mem_singleton.2 rfl, by simp⟩, ?_⟩
  · unfold LinkVector.costOf
    rw [Ex.lv_local.2.1]
    decide
  · rw [hd] at h1
    simp only [Option.some.injEq] at h1
    rw [← h1]
  · have hv : (lvRun [] 5 (setupOps [("peer:t".toList, [("p".toList, some Ex.own)])])).cfg.vectors = [(("peer:t".toList, "p".toList), [(Ex.own, 1)])] ∧
        (lvRun [] 5 (setupOps [("peer:t".toList, [("p".toList, some Ex.own)])])).cfg.black = [] := by
      simp [setupOps, lvRun, LinkVector.step, LinkVector.new, LinkVector.calculate, calcOver_cfg, updateTable, dget, dset]
    rw [h3]
    refine ((C53_costs (ports := [("peer:t".toList, [("p".toList, some Ex.own)])]) (made := fun _ => some 7) (Setup.fine _) (by simp) [cs2ServiceType] (by simp) [] _
      (by rw [hv.2]; simp) "peer:t".toList "p".toList Ex.x).2.2 ⟨Ex.own, ⟨_, List.mem_singleton.2 rfl, by simp⟩, (Setup.owns _ _).2 (by decide +kernel)⟩ ?_).2.2
      (fun h => absurd ((Setup.owns _ _).1 h) (by decide +kernel)) (by simp [Setup.doc])
    unfold LinkVector.costOf
    rw [hv.1]
    decide +kernel

end OpenNSA.Discovery
