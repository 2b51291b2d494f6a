import Verif.Setup.Props
/-
C53 for the service as a whole, and C79: the published document over time.
-/
namespace OpenNSA.Setup
open Py OpenNSA.Registry OpenNSA.Discovery

variable {β : Type}

/-! ### Specification -/

/-- The URL that a document gives for the connection service. -/
def Url (d : Doc) (url : Str) : Prop := ∃ l, d.interfaces = some l ∧ serviceUrl l = some url

/-- The agent of the document is known, or else there is no client for whose agent and URL the hash is the same. -/
def Free (env : Env β) (st : State β) (ident url : Str) : Prop :=
  urnPrefix ++ ident ∈ st.reg.urns.map (·.2) ∨ ∀ n c, dget st.reg.providers n = some (.client c) → 
    env.sha1 (c.agent ++ c.endpoint) ≠ env.sha1 ((urnPrefix ++ ident) ++ strip url)

/-- The published document is the one that the service would make now. -/
def Fresh (st : State β) : Prop := (st.about.service st.reg.urns st.lv).xml = some st.discovery

/-! ### Lemmas -/

theorem Started.lv {env : Env β} {vc : Config.Vc} {ds : List Doc} {st : State β} (h : Started env vc ds st) : st.lv.cfg.black = [] := by
  obtain ⟨st0, h0, rfl⟩ := h
  obtain ⟨_, _, _, _, _, rs, docs, x, _, _, _, rfl⟩ := (start_ok env vc st0).1 h0
  rw [learnAll_black]
  exact lvOf_black rs

theorem Started.fetcher {env : Env β} {vc : Config.Vc} {ds : List Doc} {st : State β} (h : Started env vc ds st) : st.fetcher = hasPeers vc := by
  obtain ⟨st0, h0, hs⟩ := h.same
  obtain ⟨_, _, _, _, _, rs, docs, x, _, _, _, rfl⟩ := (start_ok env vc st0).1 h0
  rw [hs.fetcher]
  rfl

theorem Started.more {env : Env β} {vc : Config.Vc} {ds : List Doc} {st : State β} (h : Started env vc ds st) (d : Doc) : Started env vc (ds ++ [d]) (learn env st d) := by
  obtain ⟨st0, h0, rfl⟩ := h
  exact ⟨st0, h0, by simp [learnAll]⟩

/-- Processing of a document is that of C53, with a factory that makes a provider. -/
theorem learn_made {env : Env β} {vc : Config.Vc} {ds : List Doc} {st : State β} (h : Started env vc ds st) (hf : hasPeers vc = true) {d : Doc} {ident url : Str}
    (hd : d.Fine ident) (hu : Url d url) (hfree : Free env st ident url) :
    ∃ made : Str → Option (Prov β), (∀ n, made n ≠ none) ∧ (∃ ops, st.reg = (Reg.new [cs2ServiceType]).run ops) ∧
      gotDocument st.ports made ⟨st.reg, st.lv⟩ d = ⟨(learn env st d).reg, (learn env st d).lv⟩ := by
  obtain ⟨names, hg⟩ := h.good
  have hfe : st.fetcher = true := by rw [h.fetcher]; exact hf
  let real : Str → Option (Prov β) := fun _ => (create env st st.tree (urnPrefix ++ ident) (strip url)).map fun c => .client c.2
  have hreal : gotDocument st.ports real ⟨st.reg, st.lv⟩ d = ⟨(learn env st d).reg, (learn env st d).lv⟩ := by
    apply learn_gotDocument hg.books.inv hfe
    intro ident' url' hi' hu' n
    rw [hd.id] at hi'
    have : ident = ident' := List.append_cancel_left (Option.some.inj hi')
    subst this
    obtain ⟨l, h1, h2⟩ := hu
    obtain ⟨l', h1', h2'⟩ := hu'
    rw [h1] at h1'
    cases h1'
    rw [h2] at h2'
    cases h2'
    rfl
  rcases hfree with hk | hk
  · refine ⟨fun _ => some (.client ⟨[], [], [], []⟩), by simp, hg.books.run, ?_⟩
    rw [← hreal]
    exact gotDocument_known _ _ hg.books.inv hd.id hk
  · refine ⟨real, ?_, hg.books.run, hreal⟩
    intro n
    have hx : resourceName env (urnPrefix ++ ident) (strip url) ∉ names := by
      intro hm
      obtain ⟨m, c, hc, hr⟩ := (hg.books.names _).1 hm
      rw [(hg.books.client m c hc).2.1] at hr
      exact hk m c hc (List.append_cancel_left hr)
    show (create env st st.tree (urnPrefix ++ ident) (strip url)).map _ ≠ none
    rw [create_eq hg.books ⟨hg.tls, hg.host, hg.port⟩, if_neg hx]
    simp

theorem learn_clients {env : Env β} {st : State β} {d : Doc} {ident url : Str} (hid : d.id = some (urnPrefix ++ ident)) (hu : Url d url) (n : Str) (c : Client)
    (h : dget (learn env st d).reg.providers n = some (.client c)) :
    (∃ m, dget st.reg.providers m = some (.client c)) ∨ (urnPrefix ++ ident ∉ st.reg.urns.map (·.2) ∧ c.agent = urnPrefix ++ ident ∧ c.endpoint = strip url) := by
  obtain ⟨l, hl, hu⟩ := hu
  unfold learn at h
  simp only [hl, hu, hid, baseName_some] at h
  split at h
  · exact .inl ⟨n, h⟩
  split at h
  · exact .inl ⟨n, h⟩
  · rename_i nets _
    have hc := spawnNets_clients (env := env) (st := st) ⟨urnPrefix ++ ident, cs2ServiceType⟩ (strip url) nets st.tree st.reg n c
    generalize spawnNets env st ⟨urnPrefix ++ ident, cs2ServiceType⟩ (strip url) nets st.tree st.reg = e at h hc
    obtain ⟨t, r, ok⟩ := e
    simp only at h hc
    apply hc
    split at h
    · exact h
    split at h
    · exact h
    split at h
    · exact h
    · rw [(publish_same _).2.2.1] at h
      exact h

/-! ### C53 -/

/-- **C53, the service.** In any state of a service with peers, a document that is in order, of an agent other than the service itself, is processed as C53 says: costs change as said there; each network
of the peer has a provider afterwards. If it had none before, requests for it go to a client of that agent; and if the agent was not known, then that client sends to the URL that the document gives. -/
theorem C53_service {env : Env β} {vc : Config.Vc} {ds : List Doc} {st : State β} (h : Started env vc ds st) (hf : hasPeers vc = true) {d : Doc} {ident url : Str}
    (hd : d.Fine ident) (hu : Url d url) (hfree : Free env st ident url) :
    let after := learn env st d
    (∀ n p x, ((¬ ∃ r, LeadsTo st.ports n p r ∧ d.Owns r) → after.lv.costOf n p x = st.lv.costOf n p x) ∧
      (∀ k, st.lv.costOf n p x = some k → after.lv.costOf n p x = some k) ∧
      ((∃ r, LeadsTo st.ports n p r ∧ d.Owns r) → st.lv.costOf n p x = none →
        (d.Owns x → after.lv.costOf n p x = some 1) ∧ (¬ d.Owns x → ∀ c, d.Advertises x c → after.lv.costOf n p x = some (c + 1)))) ∧
    ∀ n, d.Owns n → (∃ p, dget after.reg.providers n = some p) ∧
      ((∀ p, dget st.reg.providers n ≠ some p) → after.reg.getProviderURN n = .ok (urnPrefix ++ ident) ∧
        (ident ≠ vc.domain ++ ":nsa".toList → ∃ c, dget after.reg.providers n = some (.client c) ∧ c.agent = urnPrefix ++ ident ∧
          (urnPrefix ++ ident ∉ st.reg.urns.map (·.2) → c.endpoint = strip url))) := by
  obtain ⟨made, hm, ⟨ops, ho⟩, he⟩ := learn_made h hf hd hu hfree
  simp only
  have hlv : (gotDocument st.ports made ⟨(Reg.new [cs2ServiceType]).run ops, st.lv⟩ d).lv = (learn env st d).lv := by rw [← ho, he]
  constructor
  · intro n p x
    have hc := C53_costs (ports := st.ports) hd hm [cs2ServiceType] (by simp) ops st.lv (by rw [h.lv]; simp) n p x
    simp only [hlv] at hc
    exact ⟨hc.1, hc.2.1, fun h1 h2 => ⟨(hc.2.2 h1 h2).1, (hc.2.2 h1 h2).2.1⟩⟩
  · intro n hn
    have hp := C53_providers (ports := st.ports) hd hm [cs2ServiceType] (by simp) ops st.lv n hn
    simp only [← ho, he] at hp
    refine ⟨hp.1, fun hnone => ⟨hp.2 hnone, fun hid => ?_⟩⟩
    obtain ⟨p, hpn⟩ := hp.1
    obtain ⟨names, hg⟩ := (h.more d).good
    have hurn : dget (learn env st d).reg.urns n = some (urnPrefix ++ ident) := by
      have := hp.2 hnone
      unfold Reg.getProviderURN at this
      split at this
      · rename_i u hu'
        cases this
        exact hu'
      · cases this
    cases p with
    | backend b =>
      have := hg.books.backend n b hpn
      rw [hurn] at this
      exact absurd (List.append_cancel_left (Option.some.inj this)) hid
    | client c =>
      have hag : c.agent = urnPrefix ++ ident := by
        have := (hg.books.client n c hpn).1
        rw [hurn] at this
        exact (Option.some.inj this).symm
      refine ⟨c, hpn, hag, ?_⟩
      intro hnew
      rcases learn_clients hd.id hu n c hpn with ⟨m, hm⟩ | ⟨_, _, he⟩
      · obtain ⟨names0, hg0⟩ := h.good
        have := dget_some_mem (hg0.books.client m c hm).1
        exact absurd (List.mem_map.2 ⟨_, this, hag⟩) hnew
      · exact he

/-! ### The published document -/

theorem xml_lv (a : Discovery.Setup) (urns : List (Str × Str)) (lv lv' : LinkVector) : (a.service urns lv).xml = (a.service urns lv').xml := rfl

theorem publish_fresh {env : Env β} {vc : Config.Vc} {st : State β} {names : List Str} (hg : Good env vc st names) (hb : vc.backends ≠ []) : Fresh st.publish := by
  cases hbs : vc.backends with
  | nil => exact absurd hbs hb
  | cons b bs =>
    have hown := hg.books.own b.1 (by simp [hbs])
    obtain ⟨x, hx⟩ := (xml_some (st.about.service st.reg.urns st.lv)).2 (by
      refine List.mem_map.2 ⟨_, dget_some_mem hown, ?_⟩
      rw [hg.about]
      rfl)
    unfold Fresh State.publish
    rw [hx]
    exact hx

theorem Started.backends {env : Env β} {vc : Config.Vc} {ds : List Doc} {st : State β} (h : Started env vc ds st) : vc.backends ≠ [] := by
  obtain ⟨st0, h0, _⟩ := h
  exact ((start_ok env vc st0).1 h0).2.2.2.1

/-- What a document in order does. -/
theorem learn_fine {env : Env β} {vc : Config.Vc} {ds : List Doc} {st : State β} (h : Started env vc ds st) (hf : hasPeers vc = true) {d : Doc} {ident url : Str}
    (hd : d.Fine ident) (hu : Url d url) (hfree : Free env st ident url) :
    ∃ nets vec t r, (∀ n, n ∈ nets ↔ d.Owns n) ∧ (vec = [] → nets = []) ∧
      spawnNets env st ⟨urnPrefix ++ ident, cs2ServiceType⟩ (strip url) nets st.tree st.reg = (t, r, true) ∧
      learn env st d = if vec = [] ∨ facing nets st.ports = [] then { st with tree := t, reg := r }
        else ({ st with tree := t, reg := r, lv := updateAll vec (facing nets st.ports) st.lv } : State β).publish := by
  obtain ⟨names, hg⟩ := h.good
  have hfe : st.fetcher = true := by rw [h.fetcher]; exact hf
  obtain ⟨made, hm, ⟨ops, ho⟩, _⟩ := learn_made h hf hd hu hfree
  obtain ⟨l, hl, hul⟩ := hu
  obtain ⟨nets, hn, hn'⟩ := baseNames_spec hd.ids
  obtain ⟨w, hw, hw'⟩ := vectorsOf_spec hd.uris (fun n => hn' n)
  have hkeys : w = [] → nets = [] := by
    intro h
    cases nets with
    | nil => rfl
    | cons n ns =>
      have := hw'.1 n ((hn' n).1 (by simp))
      rw [h] at this
      cases this
  have hok : (spawnNets env st ⟨urnPrefix ++ ident, cs2ServiceType⟩ (strip url) nets st.tree st.reg).2.2 = true := by
    have h1 := spawnNets_spawnAll (env := env) (st := st) ⟨urnPrefix ++ ident, cs2ServiceType⟩ (strip url) st.tree nets st.tree st.reg hg.books.inv (.inl rfl)
    have h2 := fun made hm => (spawnAll_ok [cs2ServiceType] ops (agentOf ident) made (by simp) hm nets : _ ∧ _).1
    rw [← ho] at h2
    rcases hfree with hk | hk
    · rw [spawnAll_known _ _ (fun _ => some (.client ⟨[], [], [], []⟩)) nets st.reg hg.books.inv hk, h2 _ (by simp)] at h1
      exact (Prod.mk.inj h1).2.symm
    · rw [h2 _ ?_] at h1
      · exact (Prod.mk.inj h1).2.symm
      · intro _
        have hx : resourceName env (urnPrefix ++ ident) (strip url) ∉ names := by
          intro hm
          obtain ⟨m, c, hc, hr⟩ := (hg.books.names _).1 hm
          rw [(hg.books.client m c hc).2.1] at hr
          exact hk m c hc (List.append_cancel_left hr)
        rw [create_eq hg.books ⟨hg.tls, hg.host, hg.port⟩, if_neg hx]
        simp
  generalize hs : spawnNets env st ⟨urnPrefix ++ ident, cs2ServiceType⟩ (strip url) nets st.tree st.reg = e at hok
  obtain ⟨t, r, ok⟩ := e
  simp only at hok
  subst hok
  refine ⟨nets, w, t, r, hn', hkeys, hs, ?_⟩
  unfold learn
  simp only [hfe, hl, hul, hn, hd.id, baseName_some, hs, hw, Bool.not_true, Bool.false_eq_true, if_false]

/-- **C79, current (partial).** The document is current after the start, and as long as no provider is learned of; and it is made anew with each document, in order, of a peer that a port of
the service leads to. What is missing is a document of a peer that no port leads to (`C79_stale_fails`). -/
theorem C79_current_partial {env : Env β} {vc : Config.Vc} {ds : List Doc} {st : State β} (h : Started env vc ds st) :
    (ds = [] → Fresh st) ∧
    (∀ d, Fresh st → (learn env st d).reg = st.reg → Fresh (learn env st d)) ∧
    (∀ d ident url, hasPeers vc = true → d.Fine ident → Url d url → Free env st ident url → (∃ n p r, LeadsTo st.ports n p r ∧ d.Owns r) → Fresh (learn env st d)) := by
  refine ⟨?_, ?_, ?_⟩
  · rintro rfl
    obtain ⟨st0, h0, he⟩ := h
    have he : st0 = st := he.symm
    subst he
    obtain ⟨_, _, _, _, _, rs, docs, x, _, _, hx, rfl⟩ := (start_ok env vc st0).1 h0
    exact hx
  · intro d hfr hreg
    obtain ⟨names, hg⟩ := (h.more d).good
    obtain ⟨names0, hg0⟩ := h.good
    have hpub : (learn env st d).discovery = st.discovery ∨ ∃ s : State β, learn env st d = s.publish := by
      unfold learn
      split
      · exact .inl rfl
      split
      · exact .inl rfl
      split
      · exact .inl rfl
      split
      · exact .inl rfl
      split
      · exact .inl rfl
      split
      split
      · exact .inl rfl
      split
      · exact .inl rfl
      split
      · exact .inl rfl
      · exact .inr ⟨_, rfl⟩
    rcases hpub with hd | ⟨s, hs⟩
    · unfold Fresh
      rw [hd, hreg, hg.about, ← hg0.about]
      exact hfr
    · have hi : Fresh (learn env st d).publish := publish_fresh hg h.backends
      have : (learn env st d).publish = learn env st d := by
        rw [hs]
        obtain ⟨p1, p2, p3, p4⟩ := publish_same s
        cases hx : (s.about.service s.reg.urns s.lv).xml with
        | none => unfold State.publish; simp only [hx]
        | some x =>
          have : s.publish = { s with discovery := x } := by unfold State.publish; rw [hx]
          rw [this]
          unfold State.publish
          simp only [hx]
      rw [← this]
      exact hi
  · intro d ident url hf hd hu hfree ⟨n, p, r, hl, ho⟩
    obtain ⟨nets, vec, t, r', hn, hv, hs, he⟩ := learn_fine h hf hd hu hfree
    have hfa : facing nets st.ports ≠ [] := List.ne_nil_of_mem (mem_facing.2 ⟨r, hl, (hn r).2 ho⟩)
    have hve : vec ≠ [] := fun h => List.ne_nil_of_mem ((hn r).2 ho) (hv h)
    rw [if_neg (by simp [hfa, hve])] at he
    rw [he]
    obtain ⟨names, hg⟩ := h.good
    obtain ⟨names', hb⟩ := hg.spawned hs
    exact publish_fresh (names := names ++ names') (vc := vc) (env := env) ⟨hb, hg.host, hg.port, hg.tls, hg.about⟩ h.backends

end OpenNSA.Setup
