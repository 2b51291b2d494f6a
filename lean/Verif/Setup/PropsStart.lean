import Verif.Setup.PropsLearn
import Verif.Nml.Props
/-
C80: when a service starts, and as what. Example of a service, for C53, C79, C80.
-/
namespace OpenNSA.Setup
open Py OpenNSA.Registry OpenNSA.Discovery

variable {β : Type}

/-! ### Specification -/

/-- A backend of the configuration can be used: it has a name; its port map is named, is there, and can be read; no port to another network has vectors of its own;
the backend object can be made; and there is a topology of the ports. -/
def Usable (env : Env β) (domain : Str) (b : Str × List (Str × Str)) : Prop :=
  b.1 ≠ [] ∧ ∃ file lines ports back nt x, dget b.2 Config.oNrmmap = some file ∧ env.file file = some lines ∧ Nrm.parsePortSpec lines = .ok ports ∧
    (∀ p ∈ ports, p.remote ≠ none → p.vectors = []) ∧ setupBackend env b.2 (domain ++ ':' :: b.1) ports = .ok back ∧
    Nml.createNMLNetwork ports (domain ++ ':' :: b.1) (domain ++ ':' :: b.1) = .ok nt ∧ Nml.topologyXML nt env.now (env.canSwap back) = some x

/-! ### Lemmas -/

theorem nrmPorts_ok {env : Env β} {cfg : List (Str × Str)} {ports : List Nrm.Port} : nrmPorts env cfg = .ok ports ↔
    ∃ file lines, dget cfg Config.oNrmmap = some file ∧ env.file file = some lines ∧ Nrm.parsePortSpec lines = .ok ports := by
  unfold nrmPorts
  constructor
  · intro h
    split at h
    · cases h
    · rename_i f hf
      split at h
      · cases h
      · rename_i lines hl
        split at h
        · cases h
        · rename_i ports' hp
          cases h
          exact ⟨f, lines, hf, hl, hp⟩
  · rintro ⟨f, lines, hf, hl, hp⟩
    simp only [hf, hl, hp]

theorem usable_all {env : Env β} {domain : Str} {bs : List (Str × List (Str × Str))} :
    (∃ rs docs, AllRun env domain bs rs ∧ AllDocs env rs docs) ↔ ∀ b ∈ bs, Usable env domain b := by
  induction bs with
  | nil => exact ⟨fun _ _ h => (nomatch h), fun _ => ⟨[], [], .nil, .nil⟩⟩
  | cons b bs ih =>
    constructor
    · rintro ⟨rs, docs, hr, hd⟩ a ha
      cases hr with
      | @cons _ r _ rs' h1 h2 =>
        cases hd with
        | cons g1 g2 g3 =>
          rcases List.mem_cons.1 ha with rfl | ha
          · obtain ⟨k1, k2, k3, k4, k5⟩ := h1
            simp only at k1 k3 k5
            subst k1
            obtain ⟨f, lines, e1, e2, e3⟩ := nrmPorts_ok.1 k3
            exact ⟨k2, f, lines, _, _, _, _, e1, e2, e3, k4, k5, g1, g2⟩
          · exact ih.1 ⟨_, _, h2, g3⟩ a ha
    · intro h
      obtain ⟨rs, docs, hr, hd⟩ := ih.2 fun a ha => h a (by simp [ha])
      obtain ⟨k2, f, lines, ports, back, nt, x, e1, e2, e3, k4, k5, g1, g2⟩ := h b (by simp)
      exact ⟨(net domain b.1, back, ports) :: rs, (net domain b.1, x) :: docs, .cons ⟨rfl, k2, nrmPorts_ok.2 ⟨f, lines, e1, e2, e3⟩, k4, k5⟩ hr, .cons g1 g2 hd⟩

theorem own_xml (env : Env β) (vc : Config.Vc) (rs : List (Str × β × List Nrm.Port)) (h : rs ≠ []) :
    ∃ x, ((about env vc).service (regOf vc.domain rs).urns (lvOf rs)).xml = some x := by
  apply (xml_some _).2
  cases rs with
  | nil => exact absurd rfl h
  | cons r rs => simp [Setup.service, Setup.nsaIdent, about, regOf]

/-! ### Start -/

/-- **C80, start.** The service starts exactly when the database, the TLS files and the plugin, which must not be the Canarie one, can be used, there is a backend, no two backends have the same name, and each can be used. -/
theorem C80_started (env : Env β) (vc : Config.Vc) : (∃ st, start env vc = .ok st) ↔
    env.database = true ∧ env.tls (tlsContext vc) = true ∧ (vc.plugin ≠ some "canarie".toList ∧ env.plugin vc.plugin = true) ∧ vc.backends ≠ [] ∧ (vc.backends.map (·.1)).Nodup ∧
      ∀ b ∈ vc.backends, Usable env vc.domain b := by
  rw [← usable_all]
  constructor
  · rintro ⟨st, h⟩
    obtain ⟨h1, h2, h3, h4, h5, rs, docs, x, h6, h7, _⟩ := (start_ok env vc st).1 h
    exact ⟨h1, h2, h3, h4, h5, rs, docs, h6, h7⟩
  · rintro ⟨h1, h2, h3, h4, h5, rs, docs, h6, h7⟩
    have hne : rs ≠ [] := by
      rintro rfl
      have := h6.names
      simp only [List.map_nil] at this
      exact h4 (List.map_eq_nil_iff.1 this.symm)
    obtain ⟨x, hx⟩ := own_xml env vc rs hne
    exact ⟨_, (start_ok env vc _).2 ⟨h1, h2, h3, h4, h5, rs, docs, x, h6, h7, hx, rfl⟩⟩

/-- **C80, what suffices for a backend**: a name, a port map that can be read, in which no name has a colon or occurs twice and no port has vectors of its own, a type that can be started,
and a domain that is not given as a URN. -/
theorem C80_usable (env : Env β) (domain name : Str) (cfg : List (Str × Str)) (hname : name ≠ []) (hnet : Nml.NetOk (domain ++ ':' :: name)) {file : Str} {lines : List Str} {ports : List Nrm.Port}
    (h1 : dget cfg Config.oNrmmap = some file) (h2 : env.file file = some lines) (h3 : Nrm.parsePortSpec lines = .ok ports) (hc : ∀ p ∈ ports, ':' ∉ p.name)
    (hd : (ports.map (·.name)).Nodup) (hv : ∀ p ∈ ports, p.vectors = []) {t : Str} (ht : dget cfg Config.kType = some t) (hs : t ∈ startedTypes)
    (hb : env.construct t (domain ++ ':' :: name) ports cfg ≠ none) : Usable env domain (name, cfg) := by
  cases hcon : env.construct t (domain ++ ':' :: name) ports cfg with
  | none => exact absurd hcon hb
  | some back =>
    obtain ⟨nt, x, g1, g2, _⟩ := Nml.C64_file_partial lines ports h3 hc hd (domain ++ ':' :: name) env.now (env.canSwap back) hnet (by simp)
    refine ⟨hname, file, lines, ports, back, nt, x, h1, h2, h3, fun p hp _ => hv p hp, ?_, g1, g2⟩
    unfold setupBackend
    simp only [ht, if_pos hs, hcon]

theorem spawnNets_keeps {env : Env β} {st : State β} (agent : Agent) (endpoint : Str) (nets : List Str) (t : Tree) (r : Reg (Prov β)) {n : Str} {p : Prov β} {u : Str}
    (h : dget r.providers n = some p ∧ dget r.urns n = some u) : dget (spawnNets env st agent endpoint nets t r).2.1.providers n = some p ∧
      dget (spawnNets env st agent endpoint nets t r).2.1.urns n = some u := by
  induction nets generalizing t r with
  | nil => exact h
  | cons a ns ih =>
    simp only [spawnNets]
    split
    · exact h
    · rename_i r' o hsp
      apply ih
      have added : ∀ p', Adds r r' a agent.urn p' → dget r'.providers n = some p ∧ dget r'.urns n = some u := by
        intro p' ha
        have hne : a ≠ n := by
          rintro rfl
          rw [ha.1] at h
          cases h.1
        rw [ha.2]
        simp only [dget_dset, if_neg hne]
        exact h
      rcases spawn_cases hsp with ⟨_, rfl⟩ | ⟨_, _, _, p', _, _, ha⟩ | ⟨_, _, p', _, ha⟩
      · exact h
      · exact added p' ha
      · exact added p' ha

theorem spawned_keeps {env : Env β} {st : State β} {agent : Agent} {endpoint : Str} {nets : List Str} {t t' : Tree} {r r' : Reg (Prov β)} {ok : Bool}
    (hs : spawnNets env st agent endpoint nets t r = (t', r', ok)) {n : Str} {p : Prov β} {u : Str} (h : dget r.providers n = some p ∧ dget r.urns n = some u) :
    dget r'.providers n = some p ∧ dget r'.urns n = some u := by
  have := spawnNets_keeps (env := env) (st := st) agent endpoint nets t r h
  rw [hs] at this
  exact this

theorem learn_keeps {env : Env β} {st : State β} (d : Doc) {n : Str} {p : Prov β} {u : Str}
    (h : dget st.reg.providers n = some p ∧ dget st.reg.urns n = some u) : dget (learn env st d).reg.providers n = some p ∧ dget (learn env st d).reg.urns n = some u := by
  unfold learn
  split
  · exact h
  split
  · exact h
  split
  · exact h
  split
  · exact h
  split
  · exact h
  split
  rename_i hsp
  have hk := spawned_keeps hsp h
  split
  · exact hk
  split
  · exact hk
  split
  · exact hk
  · rw [(publish_same _).2.2.1]
    exact hk

theorem dget_backends {rs : List (Str × β × List Nrm.Port)} (hn : (rs.map (·.1)).Nodup) (n : Str) (p : Prov β) :
    dget (rs.map fun r => (r.1, (.backend r.2.1 : Prov β))) n = some p ↔ ∃ b ports, (n, b, ports) ∈ rs ∧ p = .backend b := by
  constructor
  · intro h
    have := dget_some_mem h
    simp only [List.mem_map, Prod.mk.injEq] at this
    obtain ⟨⟨m, b, ports⟩, hr, rfl, rfl⟩ := this
    exact ⟨b, ports, hr, rfl⟩
  · rintro ⟨b, ports, hr, rfl⟩
    apply dget_of_mem_nodup
    · rw [dkeys, List.map_map]
      exact hn
    · exact List.mem_map.2 ⟨_, hr, rfl⟩

/-- **C80, as configured.** A service that runs listens on the configured port, with TLS exactly if configured, showing the configured certificate and verifying clients as configured; its provider
service is open to the configured hosts; the REST service is there exactly if configured; its registry has its backends under its own URN, its link vectors have its networks with their
ports; and it asks peers exactly if there are any. None of this but registry and link vectors ever changes, and the own networks keep their backends. -/
theorem C80_runs {env : Env β} {vc : Config.Vc} {ds : List Doc} {st : State β} (h : Started env vc ds st) :
    st.port = vc.port ∧ st.tls = vc.tls ∧ st.host = vc.host.getD env.fqdn ∧
    (∀ k c, vc.key = some k → k ≠ [] → vc.certificate = some c → c ≠ [] → st.ctx = .twoWay k c vc.certdir vc.verify) ∧
    (vc.key = none ∨ vc.key = some [] ∨ vc.certificate = none ∨ vc.certificate = some [] → st.ctx = .oneWay (some vc.certdir) vc.verify) ∧ st.policy = vc.policy ∧
    st.fetcher = (match vc.peers with | some (_ :: _) => true | _ => false) ∧
    (∀ path a, served st.tree path = some (.provider a) → a = vc.allowedHosts) ∧ (∀ path a, served st.tree path = some (.rest a) → vc.rest = true ∧ a = vc.allowedHosts) ∧
    st.networks.map (·.1) = (vc.backends.map fun b => vc.domain ++ ':' :: b.1) ∧
    (ds = [] → st.lv = lvRun [] 5 (setupOps st.ports) ∧ ∀ n p, dget st.reg.providers n = some p ↔ ∃ b ports, (n, b, ports) ∈ st.networks ∧ p = .backend b) ∧
    (∀ n b ports, (n, b, ports) ∈ st.networks → dget st.reg.providers n = some (.backend b) ∧ st.reg.getProviderURN n = .ok (urnPrefix ++ (vc.domain ++ ":nsa".toList))) := by
  have hbk := h.backends
  obtain ⟨names, hnm, hserved⟩ := C79_served h
  obtain ⟨st0, h0, rfl⟩ := h
  have hgood := start_good h0
  obtain ⟨_, hsame⟩ := learnAll_good ds hgood
  obtain ⟨_, _, _, _, hnd, rs, docs, x, hrun, _, _, he⟩ := (start_ok env vc st0).1 h0
  have hnodup : (rs.map (·.1)).Nodup := by
    rw [hrun.names]
    exact List.pairwise_map.2 (List.Pairwise.imp (fun hab hc => hab (net_inj hc)) (List.pairwise_map.1 hnd))
  refine ⟨by rw [hsame.port, he]; rfl, by rw [hsame.tls, he]; rfl, by rw [hsame.host, he]; rfl, ?_, ?_, ?_, by rw [hsame.fetcher, he]; rfl, ?_, ?_, ?_, ?_, ?_⟩
  · intro k c hk hk' hc hc'
    rw [hsame.ctx, he]
    show tlsContext vc = _
    unfold tlsContext
    rw [hk, hc]
    have h1 : Cli.truthy (some k) = true := by cases k with | nil => exact absurd rfl hk' | cons _ _ => rfl
    have h2 : Cli.truthy (some c) = true := by cases c with | nil => exact absurd rfl hc' | cons _ _ => rfl
    simp [h1, h2]
  · intro hk
    rw [hsame.ctx, he]
    show tlsContext vc = _
    unfold tlsContext
    rcases hk with hk | hk | hk | hk <;> simp [hk, Cli.truthy]
  · rw [hsame.policy, he]
    show policyOf vc = _
    unfold policyOf
    rw [if_neg (by simp [hbk])]
  · intro path a ha
    have := (hserved path _).1 ha
    generalize parts path = q at this
    generalize hk : Kind.provider a = k at this
    cases this with
    | provider r => cases hk; rfl
    | _ => cases hk
  · intro path a ha
    have := (hserved path _).1 ha
    generalize parts path = q at this
    generalize hk : Kind.rest a = k at this
    cases this with
    | rest r hr => cases hk; exact ⟨hr, rfl⟩
    | _ => cases hk
  · rw [hsame.networks, he]
    exact hrun.names
  · rintro rfl
    show st0.lv = _ ∧ _
    rw [he]
    exact ⟨rfl, fun n p => dget_backends hnodup n p⟩
  · intro n b ports hm
    rw [hsame.networks, he] at hm
    have hstart : dget st0.reg.providers n = some (.backend b) ∧ dget st0.reg.urns n = some (urnPrefix ++ (vc.domain ++ ":nsa".toList)) := by
      have hp : dget st0.reg.providers n = some (.backend b) := by
        rw [he]
        exact (dget_backends hnodup n _).2 ⟨b, ports, hm, rfl⟩
      exact ⟨hp, hgood.books.backend n b hp⟩
    have hall : ∀ (ds : List Doc) (s : State β), (dget s.reg.providers n = some (.backend b) ∧ dget s.reg.urns n = some (urnPrefix ++ (vc.domain ++ ":nsa".toList))) →
        dget (learnAll env s ds).reg.providers n = some (.backend b) ∧ dget (learnAll env s ds).reg.urns n = some (urnPrefix ++ (vc.domain ++ ":nsa".toList)) := by
      intro ds
      induction ds with
      | nil => exact fun _ h => h
      | cons d ds ih => exact fun s h => ih _ (learn_keeps d h)
    obtain ⟨k1, k2⟩ := hall ds st0 hstart
    exact ⟨k1, by simp [Reg.getProviderURN, k2]⟩

end OpenNSA.Setup
