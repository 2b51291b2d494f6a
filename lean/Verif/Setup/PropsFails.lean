import Verif.Setup.PropsStart
import Verif.Config.Props
/-
A service as example for C53, C79, C80; what the code violates.
-/
namespace OpenNSA.Setup
open Py OpenNSA.Registry OpenNSA.Discovery

/-! ### A service -/

namespace Ex
/-- A port map: one port to a network of a peer, one for users. -/
def map : List Str := ["# ports\n".toList, "ethernet p nordu.net:topology#home(-in|-out) vlan:1780-1783 1000 em0 -\n".toList, "ethernet q - vlan:1780 1000 em1 -\n".toList]
/-- Its ports. -/
def ports : List Nrm.Port :=
  [⟨"p".toList, some ⟨"nordu.net:topology".toList, "home".toList, "nordu.net:topology:home-in".toList, "nordu.net:topology:home-out".toList⟩, some ⟨tVlan, [(1780, 1783)], false⟩, 1000,
      "em0".toList, [], [], false⟩,
   ⟨"q".toList, none, some ⟨tVlan, [(1780, 1780)], false⟩, 1000, "em1".toList, [], [], false⟩]
theorem parsed : Nrm.parsePortSpec map = .ok ports := by decide +kernel
/-- The surroundings. -/
def env : Env Nat :=
  { fqdn := "nsa.home".toList, database := true, tls := fun _ => true, plugin := fun _ => true, file := fun f => if f = "map".toList then some map else none
    construct := fun _ _ _ _ => some 0, canSwap := fun _ => true, sha1 := fun s => showNat s.length, version := ['3'], now := "2026-01-01T00:00:00Z".toList }
/-- The configuration of the backend. -/
def dud : List (Str × Str) := [(Config.oNrmmap, "map".toList), (Config.kType, ['d','u','d'])]
/-- A configuration with one backend, the REST service, a peer, and an allow-list. -/
def vc (name : Str) (base : Option Str) : Config.Vc :=
  { domain := "home".toList, logfile := [], rest := true, peers := some ["https://nordu.net/NSI/discovery.xml".toList], host := none, tls := true, port := 9443, baseUrl := base
    key := some "key".toList, certificate := some "cert".toList, policy := [], plugin := none, database := ['d'], dbUser := ['u'], dbPassword := none, dbHost := ['h'], serviceId := none
    certdir := "/certs".toList, verify := true, allowedHosts := some ["friend".toList], admins := [], backends := [(name, dud)] }
def topology : Str := "topology".toList

theorem usable {name : Str} (h : name ≠ []) (hn : Nml.NetOk ("home".toList ++ ':' :: name)) : Usable env "home".toList (name, dud) :=
  C80_usable env "home".toList name dud h hn (file := "map".toList) (lines := map) (ports := ports) (by decide +kernel) (by decide +kernel) parsed (by decide +kernel) (by decide +kernel)
    (by decide +kernel) (t := ['d','u','d']) (by decide +kernel) (by decide +kernel) (by intro h; cases h)

theorem started {name : Str} (base : Option Str) (h : name ≠ []) (hn : Nml.NetOk ("home".toList ++ ':' :: name)) :
    ∃ docs x, start env (vc name base) = .ok (stateOf env (vc name base) [(net "home".toList name, 0, ports)] docs x) ∧
      ((about env (vc name base)).service [(net "home".toList name, urnPrefix ++ ("home".toList ++ ":nsa".toList))] (lvOf [(net "home".toList name, 0, ports)])).xml = some x := by
  obtain ⟨st, hst⟩ := (C80_started env (vc name base)).2 ⟨rfl, rfl, ⟨by simp [vc], rfl⟩, by simp [vc], by simp [vc], by
    intro b hb
    cases List.mem_singleton.1 hb
    exact usable h hn⟩
  obtain ⟨_, _, _, _, _, rs, docs, x, hrun, _, hx, rfl⟩ := (start_ok _ _ _).1 hst
  have hrun : AllRun env "home".toList [(name, dud)] rs := hrun
  cases hrun with
  | @cons _ r _ _ h1 h2 =>
    cases h2
    obtain ⟨n, b, ps⟩ := r
    obtain ⟨k1, _, k3, _, k5⟩ := h1
    have e1 : ps = ports := by
      have : nrmPorts env dud = .ok ports := nrmPorts_ok.2 ⟨"map".toList, map, by decide +kernel, by decide +kernel, parsed⟩
      rw [this] at k3
      cases k3
      rfl
    have e2 : b = 0 := by
      have ht : dget dud Config.kType = some ['d','u','d'] := by decide +kernel
      have hm : (['d','u','d'] : Str) ∈ startedTypes := by decide +kernel
      unfold setupBackend at k5
      simp only [ht, if_pos hm] at k5
      have hc : ∀ t n p c, env.construct t n p c = some 0 := fun _ _ _ _ => rfl
      simp only [hc, Except.ok.injEq] at k5
      exact k5.symm
    have e3 : n = net "home".toList name := k1
    subst e1 e2 e3
    exact ⟨docs, x, hst, hx⟩

/-- The state after the start. -/
theorem run (ds : List Doc) : ∃ st, Started env (vc topology none) ds st := by
  obtain ⟨docs, x, h, _⟩ := started (name := topology) none (by decide +kernel) (by decide +kernel)
  exact ⟨_, _, h, rfl⟩

/-- No provider is a client at first, so that no resource is in use. -/
theorem free {name : Str} {base : Option Str} {docs : List (Str × Wire.Elem)} {x : Wire.Elem} (ident url : Str) :
    Free env (stateOf env (vc name base) [(net "home".toList name, 0, ports)] docs x) ident url := by
  refine .inr ?_
  intro n c hc
  have := dget_some_mem hc
  simp [stateOf, regOf] at this

theorem host : Http.Client.HostName (hostOf env (vc topology none)) := by
  unfold Http.Client.HostName
  decide +kernel

theorem digest (s : Str) : Plain (env.sha1 s) := by
  intro c hc
  obtain ⟨d, hd, rfl⟩ := showNat_digits s.length c hc
  exact (by decide : ∀ d, d < 10 → digitChar d ≠ '/' ∧ digitChar d ≠ '?' ∧ digitChar d ≠ '#' ∧ digitChar d ≠ '%') d hd

/-- The URL of the peer. -/
theorem url (c : Int) : Url (Discovery.Ex.doc c) "https://nordu.net/".toList := ⟨_, rfl, by decide +kernel⟩

/-- A peer that no port leads to. -/
def away : Doc := ⟨Discovery.Ex.urn "far.net:nsa".toList, [Discovery.Ex.urn "far.net:topology".toList], some [(some cs2Provider, some "https://far.net/".toList)], []⟩
theorem awayFine : away.Fine "far.net:nsa".toList :=
  ⟨rfl, ⟨_, cs2Provider, _, rfl, .inl rfl, List.mem_singleton.2 rfl⟩, by simp [away], by simp [away, Discovery.Ex.urn], by simp [away]⟩
theorem awayUrl : Url away "https://far.net/".toList := ⟨_, rfl, by decide +kernel⟩
theorem awayOwns : away.Owns "far.net:topology".toList := List.mem_singleton.2 rfl

/-- The agent of the example as a client, after its document. -/
theorem client {name : Str} (base : Option Str) (h : name ≠ []) (hn : Nml.NetOk ("home".toList ++ ':' :: name)) (k : Int) (hx : net "home".toList name ≠ Discovery.Ex.x) :
    ∃ st c, Started env (vc name base) [Discovery.Ex.doc k] st ∧ dget st.reg.providers Discovery.Ex.x = some (.client c) ∧ c.agent = urnPrefix ++ "nordu.net:nsa".toList ∧
      c.endpoint = "https://nordu.net/".toList := by
  obtain ⟨docs, x, h0, _⟩ := started base h hn
  generalize hs0 : stateOf env (vc name base) [(net "home".toList name, 0, ports)] docs x = st0 at h0
  have hst : Started env (vc name base) [] st0 := ⟨_, h0, rfl⟩
  have hfree : Free env st0 "nordu.net:nsa".toList "https://nordu.net/".toList := by
    rw [← hs0]
    exact free _ _
  obtain ⟨_, hp⟩ := C53_service hst rfl (Discovery.Ex.fine k) (url k) hfree
  obtain ⟨_, hp⟩ := hp Discovery.Ex.x (Discovery.Ex.owns k)
  have hnone : ∀ p, dget st0.reg.providers Discovery.Ex.x ≠ some p := by
    intro p hp
    have := dget_some_mem hp
    rw [← hs0] at this
    simp only [stateOf, regOf, List.map_cons, List.map_nil, List.mem_singleton, Prod.mk.injEq] at this
    exact hx this.1.symm
  obtain ⟨_, hc⟩ := hp hnone
  have hself : "nordu.net:nsa".toList ≠ (vc name base).domain ++ ":nsa".toList := by
    have : (vc name base).domain = "home".toList := rfl
    rw [this]
    decide +kernel
  obtain ⟨c, hc, ha, he⟩ := hc hself
  refine ⟨_, c, hst.more (Discovery.Ex.doc k), hc, ha, ?_⟩
  have hunknown : urnPrefix ++ "nordu.net:nsa".toList ∉ st0.reg.urns.map (·.2) := by
    rw [← hs0]
    simp only [stateOf, regOf, List.map_cons, List.map_nil, List.mem_singleton]
    exact fun hh => absurd (List.append_cancel_left hh) hself
  rw [he hunknown]
  decide +kernel
end Ex

/-- The hypotheses of `C79_served`, `C79_listed`, `C79_announced`, `C79_reached`, `C79_documents`, `C79_current_partial`, `C80_runs` are met: also after a document. -/
example : ∃ st, Started Ex.env (Ex.vc Ex.topology none) [Discovery.Ex.doc 2] st ∧ Base (baseUrl Ex.env (Ex.vc Ex.topology none)) ∧ Plain (Ex.vc Ex.topology none).domain ∧
    (∀ b ∈ (Ex.vc Ex.topology none).backends.map (·.1), Plain b) ∧ Http.Client.HostName (hostOf Ex.env (Ex.vc Ex.topology none)) := by
  obtain ⟨st, h⟩ := Ex.run [Discovery.Ex.doc 2]
  refine ⟨st, h, base_default (.inl rfl) Ex.host, by decide +kernel, by decide +kernel, Ex.host⟩

/-- What they give: the topology is at the URL that the document lists for it. -/
example : ∃ st t l, Started Ex.env (Ex.vc Ex.topology none) [Discovery.Ex.doc 2] st ∧ parse (Wire.wire st.discovery) = some t ∧ t.interface = some l ∧
    ⟨some nmlServiceType, some "https://nsa.home:9443/NSI/home:topology.nml.xml".toList, none⟩ ∈ l ∧
    served st.tree (urlPath "https://nsa.home:9443/NSI/home:topology.nml.xml".toList) = some (.nml "home:topology".toList) := by
  obtain ⟨st, h⟩ := Ex.run [Discovery.Ex.doc 2]
  obtain ⟨t, l, h1, h2, h3⟩ := C79_listed h
  have h4 := (C79_announced h (base_default (.inl rfl) Ex.host) (by decide +kernel) (by decide +kernel)).1
  have hr : Right (Ex.vc Ex.topology none) (baseUrl Ex.env (Ex.vc Ex.topology none)) nmlServiceType "https://nsa.home:9443/NSI/home:topology.nml.xml".toList (.nml "home:topology".toList) := by
    have := Right.nml (vc := Ex.vc Ex.topology none) (base := baseUrl Ex.env (Ex.vc Ex.topology none)) Ex.topology (by decide +kernel)
    have e1 : baseUrl Ex.env (Ex.vc Ex.topology none) ++ "/NSI/".toList ++ ((Ex.vc Ex.topology none).domain ++ ':' :: Ex.topology ++ ".nml.xml".toList) =
      "https://nsa.home:9443/NSI/home:topology.nml.xml".toList := by decide +kernel
    have e2 : (Ex.vc Ex.topology none).domain ++ ':' :: Ex.topology = "home:topology".toList := by decide +kernel
    rw [e1, e2] at this
    exact this
  exact ⟨st, t, l, h, h1, h2, (h3 _).2 ⟨_, _, _, rfl, hr⟩, h4 _ _ _ hr⟩

/-- The hypotheses of `C53_service` and `C79_callback` are met. -/
example : ∃ st c, Started Ex.env (Ex.vc Ex.topology none) [Discovery.Ex.doc 2] st ∧ dget st.reg.providers Discovery.Ex.x = some (.client c) ∧ c.endpoint = "https://nordu.net/".toList ∧
    served st.tree (urlPath c.replyTo) = some (.requester none) ∧ (∀ s, Plain (Ex.env.sha1 s)) := by
  obtain ⟨st, c, h, hc, _, he⟩ := Ex.client (name := Ex.topology) none (by decide +kernel) (by decide +kernel) 2 (by decide +kernel)
  exact ⟨st, c, h, hc, he, (C79_callback h Ex.host (by decide +kernel) Ex.digest _ c hc).2.1, Ex.digest⟩

/-- The hypotheses of `C80_started` are met, and those of `C80_usable`. -/
example : ∃ st, start Ex.env (Ex.vc Ex.topology none) = .ok st := by
  obtain ⟨docs, x, h, _⟩ := Ex.started (name := Ex.topology) none (by decide +kernel) (by decide +kernel)
  exact ⟨_, h⟩

/-! ### Violations of C79 -/

/-- **C79 is violated for the list of connections**: it is put into the tree under a text, where names of requests are bytes (setup.py:292-293); no request ever gets to it. -/
theorem C79_view_fails {β : Type} {env : Env β} {vc : Config.Vc} {ds : List Doc} {st : State β} (h : Started env vc ds st) :
    dget st.tree [nsi, .text ['c', 'o', 'n', 'n', 'e', 'c', 't', 'i', 'o', 'n', 's']] = some .view ∧ ∀ path, served st.tree path ≠ some .view := by
  refine ⟨?_, ?_⟩
  · obtain ⟨names, hg⟩ := h.good
    rw [hg.books.tree]
    rfl
  · intro path hp
    obtain ⟨names, _, hs⟩ := C79_served h
    have := (hs path _).1 hp
    generalize parts path = q at this
    generalize hk : Kind.view = k at this
    cases this <;> cases hk

example : ∃ st, Started Ex.env (Ex.vc Ex.topology none) [] st := Ex.run []

/-- Nothing is served where the first part of the path is not one of the two. -/
theorem served_first {β : Type} {env : Env β} {vc : Config.Vc} {ds : List Doc} {st : State β} (h : Started env vc ds st) {path : Str}
    (hp : ∀ a q, parts path = a :: q → a ≠ ['N','S','I'] ∧ a ≠ connections) : served st.tree path = none := by
  cases hs : served st.tree path with
  | none => rfl
  | some k =>
    obtain ⟨names, _, hsv⟩ := C79_served h
    have := (hsv path k).1 hs
    generalize hq : parts path = q at this
    cases this with
    | provider | requester | nml | discovery => exact absurd rfl (hp _ _ hq).1
    | rest => exact absurd rfl (hp _ _ hq).2

/-- **C79 is violated for names with a slash.** A service with a backend named `a/b` starts, and lists a URL for its topology; nothing is there. -/
theorem C79_slash_fails : ∃ st t l url, Started Ex.env (Ex.vc "a/b".toList none) [] st ∧ parse (Wire.wire st.discovery) = some t ∧ t.interface = some l ∧
    ⟨some nmlServiceType, some url, none⟩ ∈ l ∧ served st.tree (urlPath url) = none := by
  obtain ⟨docs, x, h0, _⟩ := Ex.started (name := "a/b".toList) none (by decide +kernel) (by decide +kernel)
  have h : Started Ex.env (Ex.vc "a/b".toList none) [] _ := ⟨_, h0, rfl⟩
  obtain ⟨t, l, h1, h2, h3⟩ := C79_listed h
  refine ⟨_, t, l, _, h, h1, h2, (h3 _).2 ⟨_, _, _, rfl, .nml "a/b".toList (by decide +kernel)⟩, ?_⟩
  cases hs : served _ _ with
  | none => rfl
  | some k =>
    obtain ⟨names, hn, hsv⟩ := C79_served h
    have := (hsv _ k).1 hs
    have hparts : parts (urlPath (baseUrl Ex.env (Ex.vc "a/b".toList none) ++ "/NSI/".toList ++ ((Ex.vc "a/b".toList none).domain ++ ':' :: "a/b".toList ++ ".nml.xml".toList))) =
        [['N','S','I'], "home:a".toList, "b.nml.xml".toList] := by decide +kernel
    rw [hparts] at this
    generalize hq : [(['N','S','I'] : Str), "home:a".toList, "b.nml.xml".toList] = q at this
    cases this with
    | provider | requester =>
      simp only [List.cons.injEq] at hq
      exact absurd hq.2.1 (by decide +kernel)
    | rest =>
      simp only [List.cons.injEq] at hq
      exact absurd hq.1 (by decide +kernel)
    | nml b r hb =>
      simp only [List.cons.injEq] at hq
      have hb' : b = "a/b".toList := by simpa [Ex.vc] using hb
      subst hb'
      exact absurd hq.2.1 (by decide +kernel)
    | discovery =>
      simp only [List.cons.injEq] at hq
      exact absurd hq.2.1 (by decide +kernel)

/-- **C79 is violated for a base URL with a slash at its end**, such as the one in the template (datafiles/opennsa.conf:20): at the URL that is listed for the connection service is nothing. -/
theorem C79_base_url_fails : ∃ st t l url, Started Ex.env (Ex.vc Ex.topology (some "https://opennsa.example.domain/".toList)) [] st ∧ parse (Wire.wire st.discovery) = some t ∧
    t.interface = some l ∧ ⟨some cs2Provider, some url, none⟩ ∈ l ∧ served st.tree (urlPath url) = none := by
  obtain ⟨docs, x, h0, _⟩ := Ex.started (name := Ex.topology) (some "https://opennsa.example.domain/".toList) (by decide +kernel) (by decide +kernel)
  have h : Started Ex.env (Ex.vc Ex.topology (some "https://opennsa.example.domain/".toList)) [] _ := ⟨_, h0, rfl⟩
  obtain ⟨t, l, h1, h2, h3⟩ := C79_listed h
  refine ⟨_, t, l, _, h, h1, h2, (h3 _).2 ⟨_, _, _, rfl, .provider _ (.inl rfl)⟩, served_first h ?_⟩
  have hparts : parts (urlPath (baseUrl Ex.env (Ex.vc Ex.topology (some "https://opennsa.example.domain/".toList)) ++ "/NSI/services/CS2".toList)) =
      [[], ['N','S','I'], "services".toList, cs2] := by decide +kernel
  intro a q hq
  rw [hparts] at hq
  cases hq
  decide +kernel

/-- **C79 is violated behind a proxy.** With a base URL for use behind a proxy, requests to peers still ask for replies at the host and port of the service itself (protocols/nsi2/__init__.py:32). -/
theorem C79_proxy_fails : ∃ st n c r, Started Ex.env (Ex.vc Ex.topology (some "https://opennsa.example.domain".toList)) [Discovery.Ex.doc 2] st ∧
    dget st.reg.providers n = some (.client c) ∧ c.replyTo = "https://nsa.home:9443".toList ++ r := by
  obtain ⟨st, c, h, hc, _⟩ := Ex.client (name := Ex.topology) (some "https://opennsa.example.domain".toList) (by decide +kernel) (by decide +kernel) 2 (by decide +kernel)
  obtain ⟨names, hg⟩ := h.good
  obtain ⟨_, _, hrep⟩ := hg.books.client _ c hc
  refine ⟨st, _, c, "/NSI/services/".toList ++ c.resource, h, hc, ?_⟩
  have e : (if (Ex.vc Ex.topology (some "https://opennsa.example.domain".toList)).tls = true then "https://".toList else "http://".toList) ++
      hostOf Ex.env (Ex.vc Ex.topology (some "https://opennsa.example.domain".toList)) ++ ':' :: showInt (Ex.vc Ex.topology (some "https://opennsa.example.domain".toList)).port =
      "https://nsa.home:9443".toList := by decide +kernel
  rw [hrep, replyUrl, e, List.append_assoc]

theorem mem_distinct {x : Str} {l : List Str} : x ∈ distinct l ↔ x ∈ l := by
  induction l with
  | nil => simp [distinct]
  | cons a l ih =>
    simp only [distinct, List.mem_cons, List.mem_filter, ih, decide_eq_true_eq]
    constructor
    · rintro (h | ⟨h, _⟩)
      · exact .inl h
      · exact .inr h
    · rintro (h | h)
      · exact .inl h
      · by_cases hx : x = a
        · exact .inl hx
        · exact .inr ⟨h, hx⟩

/-- **C79 is violated for peers that no port leads to.** Its networks get a provider, but the document is not made anew: it does not name the agent. -/
theorem C79_stale_fails : ∃ st t, Started Ex.env (Ex.vc Ex.topology none) [Ex.away] st ∧ st.reg.getProviderURN "far.net:topology".toList = .ok (urnPrefix ++ "far.net:nsa".toList) ∧
    parse (Wire.wire st.discovery) = some t ∧ t.peersWith = none ∧ ¬ Fresh st := by
  obtain ⟨docs, x, h0, hx⟩ := Ex.started (name := Ex.topology) none (by decide +kernel) (by decide +kernel)
  generalize hs0 : stateOf Ex.env (Ex.vc Ex.topology none) [(net "home".toList Ex.topology, 0, Ex.ports)] docs x = st0 at h0
  have h : Started Ex.env (Ex.vc Ex.topology none) [] st0 := ⟨_, h0, rfl⟩
  have hfree : Free Ex.env st0 "far.net:nsa".toList "https://far.net/".toList := by
    rw [← hs0]
    exact Ex.free _ _
  obtain ⟨_, hp⟩ := C53_service h rfl Ex.awayFine Ex.awayUrl hfree
  obtain ⟨_, hp⟩ := hp _ Ex.awayOwns
  have hnone : ∀ p, dget st0.reg.providers "far.net:topology".toList ≠ some p := by
    intro p hp
    have := dget_some_mem hp
    rw [← hs0] at this
    simp only [stateOf, regOf, List.map_cons, List.map_nil, List.mem_singleton, Prod.mk.injEq] at this
    exact absurd this.1 (by decide +kernel)
  have hurn := (hp hnone).1
  obtain ⟨nets, vec, t, r, hnets, _, _, hl⟩ := learn_fine h rfl Ex.awayFine Ex.awayUrl hfree
  have hface : facing nets st0.ports = [] := by
    apply List.eq_nil_iff_forall_not_mem.2
    rintro ⟨n, p⟩ hm
    obtain ⟨r, ⟨ps, hps, hr⟩, hrn⟩ := mem_facing.1 hm
    have hown := (hnets r).1 hrn
    have : r = "far.net:topology".toList := by
      have := List.mem_singleton.1 hown
      exact List.append_cancel_left (Option.some.inj this)
    subst this
    have e : st0.ports = [(net "home".toList Ex.topology, [("p".toList, some "nordu.net:topology".toList), ("q".toList, none)])] := by
      rw [← hs0]
      rfl
    rw [e] at hps
    cases List.mem_singleton.1 hps
    simp only [List.mem_cons, Prod.mk.injEq, Option.some.injEq, List.not_mem_nil, or_false, reduceCtorEq, and_false] at hr
    exact absurd hr.2 (by decide +kernel)
  rw [if_pos (.inr hface)] at hl
  have hdisc : (learn Ex.env st0 Ex.away).discovery = x := by
    rw [hl, ← hs0]
    rfl
  have habout : (learn Ex.env st0 Ex.away).about = about Ex.env (Ex.vc Ex.topology none) := by
    rw [hl, ← hs0]
    rfl
  have hdoc := C63_document _ ((xml_some _).1 ⟨x, hx⟩)
  unfold Service.published at hdoc
  rw [hx] at hdoc
  simp only [Option.bind_some] at hdoc
  have hdoc2 := hdoc
  rw [← hdisc] at hdoc2
  refine ⟨_, _, h.more Ex.away, hurn, hdoc2, ?_, ?_⟩
  · simp only [Discovery.Setup.service]
    decide +kernel
  · intro hfr
    unfold Fresh at hfr
    rw [habout, hdisc] at hfr
    have hdoc' := C63_document _ ((xml_some _).1 ⟨x, hfr⟩)
    unfold Service.published at hdoc'
    rw [hfr] at hdoc'
    simp only [Option.bind_some] at hdoc'
    rw [hdoc] at hdoc'
    have hpeers := congrArg NsaType.peersWith (Option.some.inj hdoc')
    simp only at hpeers
    have hno : ((distinct (((about Ex.env (Ex.vc Ex.topology none)).service [(net "home".toList Ex.topology, urnPrefix ++ ("home".toList ++ ":nsa".toList))]
        (lvOf [(net "home".toList Ex.topology, 0, Ex.ports)])).urns.map (·.2))).filter
          (· ≠ ((about Ex.env (Ex.vc Ex.topology none)).service [(net "home".toList Ex.topology, urnPrefix ++ ("home".toList ++ ":nsa".toList))]
        (lvOf [(net "home".toList Ex.topology, 0, Ex.ports)])).nsaId)).head? = none := by
      simp only [Discovery.Setup.service]
      decide +kernel
    rw [hno] at hpeers
    have hempty := List.head?_eq_none_iff.1 hpeers.symm
    have hmem : urnPrefix ++ "far.net:nsa".toList ∈ (learn Ex.env st0 Ex.away).reg.urns.map (·.2) := by
      have hg : dget (learn Ex.env st0 Ex.away).reg.urns "far.net:topology".toList = some (urnPrefix ++ "far.net:nsa".toList) := by
        unfold Reg.getProviderURN at hurn
        split at hurn
        · rename_i u hu
          cases hurn
          exact hu
        · cases hurn
      exact List.mem_map.2 ⟨_, dget_some_mem hg, rfl⟩
    have : urnPrefix ++ "far.net:nsa".toList ∈ ((distinct ((learn Ex.env st0 Ex.away).reg.urns.map (·.2))).filter
        (· ≠ ((about Ex.env (Ex.vc Ex.topology none)).service (learn Ex.env st0 Ex.away).reg.urns (learn Ex.env st0 Ex.away).lv).nsaId)) := by
      refine List.mem_filter.2 ⟨mem_distinct.2 hmem, ?_⟩
      apply decide_eq_true
      intro hh
      exact absurd (List.append_cancel_left hh) (by decide +kernel)
    rw [Discovery.Setup.service] at hempty this
    rw [hempty] at this
    cases this

/-- **C53 is violated for a peer that moves.** A later document of a known agent, with another URL for its connection service, does not change where requests for its networks go. -/
theorem C53_moved_fails : ∃ st c d, Started Ex.env (Ex.vc Ex.topology none) [Discovery.Ex.doc 2, d] st ∧ d.Fine "nordu.net:nsa".toList ∧ Url d "https://new.nordu.net/".toList ∧
    d.Owns Discovery.Ex.x ∧ dget st.reg.providers Discovery.Ex.x = some (.client c) ∧ c.agent = urnPrefix ++ "nordu.net:nsa".toList ∧ c.endpoint = "https://nordu.net/".toList := by
  obtain ⟨st, c, h, hc, ha, he⟩ := Ex.client (name := Ex.topology) none (by decide +kernel) (by decide +kernel) 2 (by decide +kernel)
  obtain ⟨names, hg⟩ := h.good
  obtain ⟨hu, _⟩ := hg.books.client _ c hc
  refine ⟨_, c, { Discovery.Ex.doc 2 with interfaces := some [(some cs2Provider, some "https://new.nordu.net/".toList)] }, h.more _, ?_, ⟨_, rfl, by decide +kernel⟩, Discovery.Ex.owns 2,
    (learn_keeps _ ⟨hc, hu⟩).1, ha, he⟩
  have hf := Discovery.Ex.fine 2
  exact ⟨hf.id, ⟨_, cs2Provider, _, rfl, .inl rfl, List.mem_singleton.2 rfl⟩, by simp, hf.ids, hf.uris⟩

/-! ### Violations of C80 -/

/-- **C80 is violated for the backend type `asyncfail`**: the configuration is accepted, but no service starts with it (setup.py:94). -/
theorem C80_asyncfail_fails : ∃ f cfg, Config.load (fun _ => true) f = .ok cfg ∧ cfg.backends.map (·.1) = ["t".toList] ∧
    ∀ (β : Type) (env : Env β) st, start env cfg ≠ .ok st := by
  have hg : Config.given (fun _ => true) (Config.Ex.tiny [] [("asyncfail:t".toList, [(Config.oNrmmap, some "map".toList)])]) (·.backends) =
      some [("t".toList, [(Config.oNrmmap, "map".toList), (Config.kType, "asyncfail".toList)])] := by decide +kernel
  obtain ⟨cfg, h1, h2⟩ := Config.given_some hg
  refine ⟨_, cfg, h1, by rw [h2]; rfl, ?_⟩
  intro β env st hst
  obtain ⟨_, _, _, _, _, hall⟩ := (C80_started env cfg).1 ⟨st, hst⟩
  obtain ⟨_, _, _, _, _, _, _, _, _, _, _, hb, _⟩ := hall _ (by rw [h2]; exact List.mem_singleton.2 rfl)
  have ht : dget [(Config.oNrmmap, "map".toList), (Config.kType, "asyncfail".toList)] Config.kType = some "asyncfail".toList := by decide +kernel
  unfold setupBackend at hb
  simp only [ht, if_neg (by decide +kernel : "asyncfail".toList ∉ startedTypes), if_neg (by decide +kernel : "asyncfail".toList ≠ customType)] at hb
  cases hb

/-- A section for Junos Space with all its options. -/
def Ex.spaceOpts : List (Str × Option Str) :=
  [(Config.oNrmmap, some "map".toList), ("space_user".toList, some "u".toList), ("space_password".toList, some "p".toList), ("space_api_url".toList, some "https://space".toList), ("routers".toList, some "t:1:10.0.0.1".toList), ("configlet_activate_local".toList, some "1".toList), ("configlet_activate_remote".toList, some "2".toList), ("configlet_deactivate_local".toList, some "3".toList), ("configlet_deactivate_remote".toList, some "4".toList)]
/-- The same section when it is read. -/
def Ex.spaceConf : List (Str × Str) :=
  [(Config.oNrmmap, "map".toList), ("space_user".toList, "u".toList), ("space_password".toList, "p".toList), ("space_api_url".toList, "https://space".toList), ("routers".toList, "t:1:10.0.0.1".toList), ("configlet_activate_local".toList, "1".toList), ("configlet_activate_remote".toList, "2".toList), ("configlet_deactivate_local".toList, "3".toList), ("configlet_deactivate_remote".toList, "4".toList), (Config.kType, spaceType)]

/-- **C80 is violated for the backend type `junosspace`**: the configuration is accepted, but no service starts with it, since its module cannot be imported
(junosspace.py:40, 83). -/
theorem C80_junosspace_fails : ∃ f cfg, Config.load (fun _ => true) f = .ok cfg ∧ cfg.backends.map (·.1) = ["t".toList] ∧
    ∀ (β : Type) (env : Env β) st, start env cfg ≠ .ok st := by
  have hg : Config.given (fun _ => true) (Config.Ex.tiny [] [("junosspace:t".toList, Ex.spaceOpts)]) (·.backends) =
      some [("t".toList, Ex.spaceConf)] := by decide +kernel
  obtain ⟨cfg, h1, h2⟩ := Config.given_some hg
  refine ⟨_, cfg, h1, by rw [h2]; rfl, ?_⟩
  intro β env st hst
  obtain ⟨_, _, _, _, _, hall⟩ := (C80_started env cfg).1 ⟨st, hst⟩
  obtain ⟨_, _, _, _, _, _, _, _, _, _, _, hb, _⟩ := hall _ (by rw [h2]; exact List.mem_singleton.2 rfl)
  have ht : dget Ex.spaceConf Config.kType = some spaceType := by decide +kernel
  unfold setupBackend at hb
  simp only [ht, if_neg (by decide +kernel : spaceType ∉ startedTypes), if_neg (by decide +kernel : spaceType ≠ customType), if_true] at hb
  cases hb

/-- **C80 is violated for the plugin `canarie`**: the configuration is accepted, but no service starts with it, since its module cannot be imported
(canarie.py:10, 24). -/
theorem C80_canarie_fails : ∃ f cfg, Config.load (fun _ => true) f = .ok cfg ∧ cfg.plugin = some "canarie".toList ∧
    ∀ (β : Type) (env : Env β) st, start env cfg ≠ .ok st := by
  have hg : Config.given (fun _ => true) (Config.Ex.tiny [(Config.oPlugin, some "canarie".toList)] [("dud:t".toList, [(Config.oNrmmap, some "map".toList)])]) (·.plugin) =
      some (some "canarie".toList) := by decide +kernel
  obtain ⟨cfg, h1, h2⟩ := Config.given_some hg
  refine ⟨_, cfg, h1, h2, fun β env st hst => ?_⟩
  obtain ⟨_, _, h3, _⟩ := (C80_started env cfg).1 ⟨st, hst⟩
  exact h3.1 h2

/-- **C80 is violated for vectors of a port.** A port map with a vector, which is read as it should be, keeps the service from starting: `updateVector` is called without the network (setup.py:255). -/
theorem C80_vector_fails : ∃ lines ports, Nrm.parsePortSpec lines = .ok ports ∧ (∃ p ∈ ports, dget p.vectors "far.net:topology".toList = some 3) ∧
    ∀ (β : Type) (env : Env β) (cfg : Config.Vc) b file, b ∈ cfg.backends → dget b.2 Config.oNrmmap = some file → env.file file = some lines → ∀ st, start env cfg ≠ .ok st := by
  let port : Nrm.Port := ⟨"p".toList, some ⟨"nordu.net:topology".toList, "home".toList, "nordu.net:topology:home-in".toList, "nordu.net:topology:home-out".toList⟩,
    some ⟨tVlan, [(1780, 1783)], false⟩, 1000, "em0".toList, [], [("far.net:topology".toList, 3)], false⟩
  have hp : Nrm.parsePortSpec ["ethernet p nordu.net:topology#home(-in|-out) vlan:1780-1783 1000 em0 vector=far.net:topology@3\n".toList] = .ok [port] := by decide +kernel
  refine ⟨_, [port], hp, ⟨port, List.mem_singleton.2 rfl, by decide +kernel⟩, ?_⟩
  intro β env cfg b file hb hf hl st hst
  obtain ⟨_, _, _, _, _, hall⟩ := (C80_started env cfg).1 ⟨st, hst⟩
  obtain ⟨_, file', lines', ports', _, _, _, h1, h2, h3, h4, _⟩ := hall b hb
  rw [hf] at h1
  cases h1
  rw [hl] at h2
  cases h2
  rw [hp] at h3
  cases h3
  exact absurd (h4 port (List.mem_singleton.2 rfl) (by simp [port])) (by simp [port])

/-- **C80 is violated for a port map that is not there**: the exception that is to be raised does not exist, so that an AttributeError is (setup.py:243). -/
theorem C80_missing_map_fails : ∃ cfg : Config.Vc, start Ex.env cfg = .error .attribute ∧ cfg.backends = [(Ex.topology, [(Config.oNrmmap, "mpa".toList), (Config.kType, ['d','u','d'])])] :=
  ⟨{ Ex.vc Ex.topology none with backends := [(Ex.topology, [(Config.oNrmmap, "mpa".toList), (Config.kType, ['d','u','d'])])] }, by rfl, rfl⟩

/-- **C80 is violated without backends.** The code is meant to run then, as aggregator only (setup.py:217-221); but it never starts (`C63_aggregator_fails`). -/
theorem C80_aggregator_fails : ∃ f cfg, Config.load (fun _ => true) f = .ok cfg ∧ policyOf cfg = [['a', 'g', 'g', 'r', 'e', 'g', 'a', 't', 'o', 'r']] ∧ ∀ (β : Type) (env : Env β) st, start env cfg ≠ .ok st := by
  have hg : Config.given (fun _ => true) (Config.Ex.tiny [] []) (fun c => decide (c.backends = [] ∧ policyOf c = [aggregator])) = some true := by decide +kernel
  obtain ⟨cfg, h1, h2⟩ := Config.given_some hg
  have h2 := of_decide_eq_true h2
  refine ⟨_, cfg, h1, h2.2, ?_⟩
  intro β env st hst
  obtain ⟨_, _, _, hne, _⟩ := (C80_started env cfg).1 ⟨st, hst⟩
  exact hne h2.1

/-- **C80 is violated at the end**: when the service is stopped, its listener is not, nor the service that asks peers (setup.py:358-359). -/
theorem C80_stop_fails {β : Type} (st : State β) : (stopService (startService st)).listener = true ∧ (st.fetcher = true → (stopService (startService st)).fetcher = some true) :=
  ⟨rfl, fun h => by simp [startService, stopService, h]⟩

/-! ### Access -/

/-- **C51 is violated for replies.** With an allow-list configured, the resources at which replies of peers are expected do not check it: a client with a certificate that is not on
the list is admitted there (protocols/nsi2/__init__.py:43). -/
theorem C51_callback_fails : ∃ st path a, Started Ex.env (Ex.vc Ex.topology none) [Discovery.Ex.doc 2] st ∧ (Ex.vc Ex.topology none).allowedHosts = some ["friend".toList] ∧
    served st.tree path = some (.requester a) ∧ Http.gate .soap Http.certA a = .admitted (some (.str ['a'])) ∧
    ∀ dn, Http.gate .soap Http.certA (some ["friend".toList]) ≠ .admitted dn := by
  obtain ⟨st, c, h, hc, _, _⟩ := Ex.client (name := Ex.topology) none (by decide +kernel) (by decide +kernel) 2 (by decide +kernel)
  refine ⟨st, _, none, h, rfl, (C79_callback h Ex.host (by decide +kernel) Ex.digest _ c hc).2.1, ?_, ?_⟩
  · decide +kernel
  · intro dn hd
    have : Http.gate .soap Http.certA (some ["friend".toList]) = .refused := by decide +kernel
    rw [this] at hd
    cases hd

/-- **C80, types of backends.** A backend is made exactly if its type is one of these and its constructor runs through; a custom one also needs the name
of a module. Any type that the configuration does not know is refused as an error of the configuration; for `junosspace` see `C80_junosspace_fails`. -/
theorem C80_types {β : Type} (env : Env β) (cfg : List (Str × Str)) (network : Str) (ports : List Nrm.Port) (t : Str) (ht : dget cfg "_backend_type".toList = some t) :
    (∀ b, setupBackend env cfg network ports = .ok b ↔
      (t ∈ ["dud".toList, "junosmx".toList, "force10".toList, "juniperex".toList, "junipervpls".toList, "brocade".toList, "ncsvpn".toList, "pica8ovs".toList,
          "junosex".toList, "oess".toList] ∨ t = "custombackend".toList ∧ dget cfg "module".toList ≠ none) ∧
        env.construct t network ports cfg = some b) ∧
    (t ∉ ["dud".toList, "junosmx".toList, "force10".toList, "juniperex".toList, "junipervpls".toList, "brocade".toList, "ncsvpn".toList, "pica8ovs".toList,
          "junosex".toList, "oess".toList, "custombackend".toList, "junosspace".toList] → setupBackend env cfg network ports = .error .configuration) := by
  have hL : startedTypes = ["dud".toList, "junosmx".toList, "force10".toList, "juniperex".toList, "junipervpls".toList, "brocade".toList, "ncsvpn".toList,
      "pica8ovs".toList, "junosex".toList, "oess".toList] := by decide
  have hA : ["dud".toList, "junosmx".toList, "force10".toList, "juniperex".toList, "junipervpls".toList, "brocade".toList, "ncsvpn".toList,
      "pica8ovs".toList, "junosex".toList, "oess".toList, "custombackend".toList, "junosspace".toList] = startedTypes ++ [customType, spaceType] := by decide
  rw [← hL, hA]
  rw [show "custombackend".toList = customType from rfl, show "module".toList = kModule from rfl]
  unfold setupBackend
  rw [show dget cfg Config.kType = some t from ht]
  simp only
  refine ⟨fun b => ?_, fun hn => ?_⟩
  · split
    · rename_i h
      split <;> simp_all
    · rename_i h
      split
      · rename_i hc
        split
        · rename_i hm
          simp [h, hm]
        · rename_i m hm
          split <;> simp_all
      · rename_i hc
        split <;> simp [h, hc]
  · simp only [List.mem_append, List.mem_cons, List.not_mem_nil, or_false, not_or] at hn
    rw [if_neg hn.1, if_neg hn.2.1, if_neg hn.2.2]

example : dget [("_backend_type".toList, "dud".toList)] "_backend_type".toList = some "dud".toList ∧ dget [("_backend_type".toList, "none".toList)] "_backend_type".toList = some "none".toList := by decide

end OpenNSA.Setup
