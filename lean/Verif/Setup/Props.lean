import Verif.Setup.Books
import Verif.Http.Props
/-
C79: what a service announces, it serves, and nothing else.
-/
namespace OpenNSA.Setup
open Py OpenNSA.Registry OpenNSA.Discovery

variable {β : Type}

/-! ### Specification -/

/-- The state of a service that was started and then has got these documents of peers. -/
def Started (env : Env β) (vc : Config.Vc) (ds : List Doc) (st : State β) : Prop := ∃ st0, start env vc = .ok st0 ∧ st = learnAll env st0 ds

/-- A part of a path that means itself. -/
def Plain (s : Str) : Prop := ∀ c ∈ s, c ≠ '/' ∧ c ≠ '?' ∧ c ≠ '#' ∧ c ≠ '%'

instance (s : Str) : Decidable (Plain s) := by unfold Plain; infer_instance

/-- A base URL: scheme and host, with or without a port; no path. -/
def Base (b : Str) : Prop := ∃ n, (b = Http.Client.http ++ n ∨ b = Http.Client.https ++ n) ∧ ∀ c ∈ n, Http.Client.urlDelim c = false

/-- What the interfaces of the discovery document are to be: type, URL, and the resource that is to answer there. -/
inductive Right (vc : Config.Vc) (base : Str) : Str → Str → Kind → Prop
  | provider (ty) : ty = cs2Provider ∨ ty = cs2ServiceType → Right vc base ty (base ++ "/NSI/services/CS2".toList) (.provider vc.allowedHosts)
  | rest : vc.rest = true → Right vc base opennsaRest (base ++ "/connections".toList) (.rest vc.allowedHosts)
  | nml (b) : b ∈ vc.backends.map (·.1) → Right vc base nmlServiceType (base ++ "/NSI/".toList ++ (vc.domain ++ ':' :: b ++ ".nml.xml".toList)) (.nml (vc.domain ++ ':' :: b))

/-! ### Lemmas -/

theorem unquote_plain {s : Str} (h : '%' ∉ s) : unquote s = s := by
  induction s with
  | nil => rw [unquote]
  | cons c r ih =>
    have hc : c ≠ '%' := by
      rintro rfl
      exact h (by simp)
    have hr := ih fun hm => h (by simp [hm])
    rw [unquote]
    · rw [hr]
    · intro a b r' hc' _
      exact hc hc'

theorem urlPath_scheme (s : Str) (hs : s = Http.Client.http ∨ s = Http.Client.https) (n p : Str) (hn : ∀ c ∈ n, Http.Client.urlDelim c = false)
    (hp : ∀ c ∈ p, c ≠ '?' ∧ c ≠ '#') : urlPath (s ++ n ++ '/' :: p) = '/' :: p := by
  have h1 : ((Http.Client.urlScheme (s ++ n ++ '/' :: p)).2.drop 2) = n ++ '/' :: p := by
    have hc : ∀ c ∈ ['h','t','p','s'], Http.Client.schemeChar c = true := by decide
    have c1 := hc 'h' (by simp)
    have c2 := hc 't' (by simp)
    have c3 := hc 'p' (by simp)
    have c4 := hc 's' (by simp)
    rcases hs with rfl | rfl
    · simp [Http.Client.urlScheme, Http.Client.http, cutFirst, c1, c2, c3]
    · simp [Http.Client.urlScheme, Http.Client.https, cutFirst, c1, c2, c3, c4]
  have h2 : (n ++ '/' :: p).dropWhile (fun c => !Http.Client.urlDelim c) = '/' :: p := by
    clear h1
    induction n with
    | nil => rfl
    | cons c cs ih =>
      rw [List.cons_append, List.dropWhile_cons, hn c (by simp)]
      simp only [Bool.not_false, if_true]
      exact ih fun d hd => hn d (by simp [hd])
  unfold urlPath
  rw [h1, h2]
  have : ∀ l : Str, (∀ c ∈ l, c ≠ '?' ∧ c ≠ '#') → l.takeWhile (fun c => c != '?' && c != '#') = l := by
    intro l
    induction l with
    | nil => intro _; rfl
    | cons c cs ih =>
      intro h
      rw [List.takeWhile_cons, ih fun d hd => h d (by simp [hd])]
      have := h c (by simp)
      simp [this.1, this.2]
  apply this
  intro c hc
  rcases List.mem_cons.1 hc with rfl | hc
  · decide
  · exact hp c hc

theorem Base.path {b : Str} (hb : Base b) {p : Str} (hp : ∀ c ∈ p, c ≠ '?' ∧ c ≠ '#') : urlPath (b ++ '/' :: p) = '/' :: p := by
  obtain ⟨n, rfl | rfl, hn⟩ := hb
  · exact urlPath_scheme _ (.inl rfl) n p hn hp
  · exact urlPath_scheme _ (.inr rfl) n p hn hp

/-- Texts that are parts of a path mean those parts. -/
theorem parts_join (l : List Str) (hne : l ≠ []) (h : ∀ s ∈ l, Plain s) : parts ('/' :: joinWith '/' l) = l := by
  unfold parts
  rw [List.drop_one, List.tail_cons, splitOn_joinWith hne fun s hs hm => (h s hs _ hm).1 rfl]
  have : ∀ l : List Str, (∀ s ∈ l, Plain s) → l.map unquote = l := by
    intro l
    induction l with
    | nil => intro _; rfl
    | cons a l ih =>
      intro h
      rw [List.map_cons, ih fun s hs => h s (by simp [hs]), unquote_plain fun hm => (h a (by simp) _ hm).2.2.2 rfl]
  exact this l h

theorem join_plain (l : List Str) (h : ∀ s ∈ l, Plain s) : ∀ c ∈ joinWith '/' l, c ≠ '?' ∧ c ≠ '#' := by
  induction l with
  | nil => intro c hc; cases hc
  | cons a l ih =>
    intro c hc
    cases l with
    | nil =>
      rw [joinWith] at hc
      exact ⟨(h a (by simp) c hc).2.1, (h a (by simp) c hc).2.2.1⟩
    | cons b l =>
      rw [joinWith] at hc
      rcases List.mem_append.1 hc with hc | hc
      · exact ⟨(h a (by simp) c hc).2.1, (h a (by simp) c hc).2.2.1⟩
      · rcases List.mem_cons.1 hc with rfl | hc
        · decide
        · exact ih (fun s hs => h s (by simp [hs])) c hc

/-- A URL made of a base URL and parts of a path. -/
theorem served_url {vc : Config.Vc} {names : List Str} (hf : cs2 ∉ names) {b : Str} (hb : Base b) (l : List Str) (hne : l ≠ []) (h : ∀ s ∈ l, Plain s) (k : Kind) :
    served (treeOf vc names) (urlPath (b ++ '/' :: joinWith '/' l)) = some k ↔ Serves vc names l k := by
  rw [hb.path (join_plain l h), served_tree hf, parts_join l hne h]

theorem Started.good {env : Env β} {vc : Config.Vc} {ds : List Doc} {st : State β} (h : Started env vc ds st) : ∃ names, Good env vc st names := by
  obtain ⟨st0, h0, rfl⟩ := h
  obtain ⟨⟨names, hg⟩, _⟩ := learnAll_good ds (start_good h0)
  exact ⟨_, hg⟩

theorem Started.same {env : Env β} {vc : Config.Vc} {ds : List Doc} {st : State β} (h : Started env vc ds st) : ∃ st0, start env vc = .ok st0 ∧ Same st0 st := by
  obtain ⟨st0, h0, rfl⟩ := h
  exact ⟨st0, h0, (learnAll_good ds (start_good h0)).2⟩

/-- The document is one of the service. -/
def Published (st : State β) : Prop := ∃ urns lv, (st.about.service urns lv).xml = some st.discovery

theorem publish_published {st : State β} (h : Published st) : Published st.publish := by
  unfold State.publish
  split
  · exact h
  · rename_i x hx
    exact ⟨st.reg.urns, st.lv, hx⟩

theorem learn_published {env : Env β} {st : State β} (h : Published st) (d : Doc) : Published (learn env st d) := by
  unfold learn
  split
  · exact h
  split
  · exact h
  split
  · exact h
  split
  · exact h
  split
  · exact h
  split
  split
  · exact h
  split
  · exact h
  split
  · exact h
  · exact publish_published h

theorem Started.published {env : Env β} {vc : Config.Vc} {ds : List Doc} {st : State β} (h : Started env vc ds st) : Published st := by
  obtain ⟨st0, h0, rfl⟩ := h
  have hp : Published st0 := by
    obtain ⟨_, _, _, _, _, rs, docs, x, _, _, hx, rfl⟩ := (start_ok env vc st0).1 h0
    exact ⟨_, _, hx⟩
  clear h0
  induction ds generalizing st0 with
  | nil => exact hp
  | cons d ds ih => exact ih _ (learn_published hp d)

theorem plain_nml {d b : Str} (hd : Plain d) (hb : Plain b) : Plain (nmlName (net d b)) := by
  intro c hc
  unfold nmlName net at hc
  rcases List.mem_append.1 hc with hc | hc
  · rcases List.mem_append.1 hc with hc | hc
    · exact hd c hc
    · rcases List.mem_cons.1 hc with rfl | hc
      · decide
      · exact hb c hc
  · exact (by decide : ∀ c ∈ ".nml.xml".toList, c ≠ '/' ∧ c ≠ '?' ∧ c ≠ '#' ∧ c ≠ '%') c hc

/-! ### What is served -/

/-- **C79, served.** At any time a request reaches: the provider service; the REST service, if configured; the topology of each own network; the discovery document; and,
for replies, the resource of each provider that was learned of. Nothing else. -/
theorem C79_served {env : Env β} {vc : Config.Vc} {ds : List Doc} {st : State β} (h : Started env vc ds st) :
    ∃ names : List Str, (∀ x, x ∈ names ↔ ∃ n c, dget st.reg.providers n = some (.client c) ∧ c.resource = x) ∧
      ∀ path k, served st.tree path = some k ↔ Serves vc names (parts path) k := by
  obtain ⟨names, hg⟩ := h.good
  refine ⟨names, hg.books.names, ?_⟩
  intro path k
  rw [hg.books.tree]
  exact served_tree hg.books.cs2 path k

/-- **C79, listed.** At any time the document in the discovery resource lists exactly the interfaces that it should. -/
theorem C79_listed {env : Env β} {vc : Config.Vc} {ds : List Doc} {st : State β} (h : Started env vc ds st) :
    ∃ t l, parse (Wire.wire st.discovery) = some t ∧ t.interface = some l ∧
      ∀ i, i ∈ l ↔ ∃ ty url k, i = ⟨some ty, some url, none⟩ ∧ Right vc (baseUrl env vc) ty url k := by
  obtain ⟨names, hg⟩ := h.good
  obtain ⟨urns, lv, hx⟩ := h.published
  rw [hg.about] at hx
  have hm := (xml_some _).1 ⟨_, hx⟩
  have hdoc := C63_document _ hm
  unfold Service.published at hdoc
  rw [hx] at hdoc
  simp only [Option.bind_some] at hdoc
  have hi : (about env vc).interfaces ≠ [] := List.ne_nil_of_mem (about env vc).mem_interfaces
  refine ⟨_, (about env vc).interfaces.map fun i => ⟨some i.1, some i.2.1, i.2.2⟩, hdoc, ?_, ?_⟩
  · simp [orNone, Setup.service, hi]
  · intro i
    simp only [Setup.interfaces, Setup.networks, Setup.endpoint, about, List.mem_map, List.mem_append, List.mem_cons, List.not_mem_nil, or_false]
    constructor
    · rintro ⟨e, ((rfl | rfl) | he) | ⟨_, ⟨b, ⟨b, hb, rfl⟩, rfl⟩, rfl⟩, rfl⟩
      · exact ⟨_, _, _, rfl, .provider _ (.inl rfl)⟩
      · exact ⟨_, _, _, rfl, .provider _ (.inr rfl)⟩
      · by_cases hrest : vc.rest = true
        · simp only [hrest, if_true, List.mem_singleton] at he
          subst he
          exact ⟨_, _, _, rfl, .rest hrest⟩
        · simp [hrest] at he
      · exact ⟨_, _, _, rfl, .nml b.1 (List.mem_map.2 ⟨b, hb, rfl⟩)⟩
    · rintro ⟨ty, url, k, rfl, hr⟩
      cases hr with
      | provider _ hty =>
        rcases hty with rfl | rfl
        · exact ⟨_, .inl (.inl (.inl rfl)), rfl⟩
        · exact ⟨_, .inl (.inl (.inr rfl)), rfl⟩
      | rest hrest =>
        refine ⟨(opennsaRest, baseUrl env vc ++ "/connections".toList, none), .inl (.inr ?_), rfl⟩
        simp only [hrest, if_true]
        exact List.mem_singleton.2 rfl
      | nml b hbm =>
        rw [List.mem_map] at hbm
        obtain ⟨b, hbm, rfl⟩ := hbm
        exact ⟨(nmlServiceType, _, none), .inr ⟨_, ⟨_, ⟨b, hbm, rfl⟩, rfl⟩, rfl⟩, rfl⟩

/-- **C79, announced.** At any time, at each URL that the document lists the right resource answers: if the base URL
has no path of its own, and the names of domain and backends have no character that means something else in a URL. The document itself is at the URL for it. -/
theorem C79_announced {env : Env β} {vc : Config.Vc} {ds : List Doc} {st : State β} (h : Started env vc ds st) (hb : Base (baseUrl env vc)) (hd : Plain vc.domain)
    (hn : ∀ b ∈ vc.backends.map (·.1), Plain b) :
    (∀ ty url k, Right vc (baseUrl env vc) ty url k → served st.tree (urlPath url) = some k) ∧
    served st.tree (urlPath (baseUrl env vc ++ "/NSI/discovery.xml".toList)) = some .discovery := by
  obtain ⟨names, hg⟩ := h.good
  refine ⟨?_, ?_⟩
  · intro ty url k hr
    rw [hg.books.tree]
    cases hr with
    | provider _ _ =>
      have := (served_url (vc := vc) hg.books.cs2 hb [pNsi, pServices, cs2] (by simp) (by decide) (.provider vc.allowedHosts)).2 (.provider [])
      simpa [joinWith, pNsi, pServices, cs2] using this
    | rest hrest =>
      have := (served_url (vc := vc) hg.books.cs2 hb [connections] (by simp) (by decide) (.rest vc.allowedHosts)).2 (.rest [] hrest)
      simpa [joinWith, connections] using this
    | nml b hbm =>
      have hp : ∀ s ∈ [pNsi, nmlName (net vc.domain b)], Plain s := by
        intro s hs
        simp only [List.mem_cons, List.not_mem_nil, or_false] at hs
        rcases hs with rfl | rfl
        · decide
        · exact plain_nml hd (hn b hbm)
      have := (served_url (vc := vc) hg.books.cs2 hb [pNsi, nmlName (net vc.domain b)] (by simp) hp (.nml (net vc.domain b))).2 (.nml b [] hbm)
      simpa [joinWith, pNsi, nmlName, net] using this
  · have hj : "/NSI/discovery.xml".toList = '/' :: joinWith '/' [pNsi, discoveryXml] := by decide +kernel
    rw [hg.books.tree, hj]
    exact (served_url (vc := vc) hg.books.cs2 hb [pNsi, discoveryXml] (by simp) (by decide +kernel) .discovery).2 (.discovery [])

/-- The default base URL. -/
theorem default_base {env : Env β} {vc : Config.Vc} (h : vc.baseUrl = none ∨ vc.baseUrl = some []) :
    baseUrl env vc = (if vc.tls then Http.Client.https else Http.Client.http) ++ (hostOf env vc ++ ':' :: showInt vc.port) := by
  have h1 : "https://".toList = Http.Client.https := by decide
  have h2 : "http://".toList = Http.Client.http := by decide
  unfold baseUrl
  rw [h1, h2]
  rcases h with h | h <;> rw [h] <;> simp

theorem netloc_delim {host : Str} (hh : Http.Client.HostName host) (port : Int) : ∀ c ∈ host ++ ':' :: showInt port, Http.Client.urlDelim c = false := by
  intro c hc
  rcases List.mem_append.1 hc with hc | hc
  · exact hh.delim c hc
  · rcases List.mem_cons.1 hc with rfl | hc
    · rfl
    · have hd : ∀ n, ∀ c ∈ showNat n, Http.Client.urlDelim c = false := by
        intro n c hc
        obtain ⟨d, hd, rfl⟩ := showNat_digits n c hc
        exact (by decide : ∀ d, d < 10 → Http.Client.urlDelim (digitChar d) = false) d hd
      cases port with
      | ofNat n => exact hd _ c hc
      | negSucc n =>
        simp only [showInt, List.mem_cons] at hc
        rcases hc with rfl | hc
        · rfl
        · exact hd _ c hc

/-- The hypothesis of `C79_announced` on the base URL is met by the default one. -/
theorem base_default {env : Env β} {vc : Config.Vc} (h : vc.baseUrl = none ∨ vc.baseUrl = some []) (hh : Http.Client.HostName (hostOf env vc)) : Base (baseUrl env vc) := by
  rw [default_base h]
  refine ⟨_, ?_, netloc_delim hh vc.port⟩
  cases vc.tls
  · exact .inl rfl
  · exact .inr rfl

/-- A request of the HTTP client reaches the listener. -/
theorem reaches {host : Str} (hh : Http.Client.HostName host) {port : Int} (hp : 0 ≤ port) (tls : Bool) {t : Str} (ht : Http.Client.Tail t) (body : Str) (hs : List (Str × Str))
    (m : Str) (tmo : Int) : ∃ c, Http.Client.httpRequest ((if tls then Http.Client.https else Http.Client.http) ++ (host ++ ':' :: showInt port ++ t)) body hs m tmo true = .connects c ∧
      c.host = host ∧ c.port = port ∧ c.tls = (if tls then some host else none) := by
  obtain ⟨p, rfl⟩ := Int.eq_ofNat_of_zero_le hp
  cases tls
  · obtain ⟨c, h1, h2, h3, h4, _⟩ := Http.Client.C78_http host t p hh ht body hs m tmo true
    exact ⟨c, h1, h2, h3, h4⟩
  · obtain ⟨c, h1, h2, h3, h4, _⟩ := Http.Client.C78_https host t p hh ht body hs m tmo
    exact ⟨c, h1, h2, h3, h4⟩

/-- **C79, reached.** Unless a base URL is configured, requests for the announced URLs go to the host and port where the service listens, with TLS exactly if it listens with TLS. -/
theorem C79_reached {env : Env β} {vc : Config.Vc} {ds : List Doc} {st : State β} (h : Started env vc ds st) (hb : vc.baseUrl = none ∨ vc.baseUrl = some [])
    (hh : Http.Client.HostName (hostOf env vc)) (hp : 0 ≤ vc.port) {t : Str} (ht : Http.Client.Tail t) (body : Str) (hs : List (Str × Str)) (m : Str) (tmo : Int) :
    ∃ c, Http.Client.httpRequest (baseUrl env vc ++ t) body hs m tmo true = .connects c ∧ c.host = st.host ∧ c.port = st.port ∧ c.tls = (if st.tls then some st.host else none) := by
  obtain ⟨names, hg⟩ := h.good
  rw [default_base hb, hg.host, hg.port, hg.tls]
  have := reaches hh hp vc.tls ht body hs m tmo
  simpa [List.append_assoc] using this

/-! ### Replies -/

/-- Names of resources for replies mean themselves in URLs: the hash is hexadecimal. -/
theorem plain_resource {env : Env β} (hs : ∀ s, Plain (env.sha1 s)) (u e : Str) : Plain (resourceName env u e) := by
  intro c hc
  unfold resourceName at hc
  rcases List.mem_append.1 hc with hc | hc
  · exact (by decide +kernel : ∀ c ∈ "RequesterService2-".toList, c ≠ '/' ∧ c ≠ '?' ∧ c ≠ '#' ∧ c ≠ '%') c hc
  · exact hs _ c hc

theorem replyUrl_eq (tls : Bool) (host : Str) (port : Int) (name : Str) : replyUrl tls host port name =
    (if tls then Http.Client.https else Http.Client.http) ++ (host ++ ':' :: showInt port) ++ '/' :: joinWith '/' [pNsi, pServices, name] := by
  have h1 : "https://".toList = Http.Client.https := by decide
  have h2 : "http://".toList = Http.Client.http := by decide
  have h3 : "/NSI/services/".toList = ['/','N','S','I','/','s','e','r','v','i','c','e','s','/'] := by decide
  unfold replyUrl
  rw [h1, h2, h3]
  simp [joinWith, pNsi, pServices]

/-- **C79, replies.** Each agent that was learned of has one client. The URL that it gives for replies reaches the listener of the service, and there the requester service; different
clients have different ones. (Whether all clients have resources of their own is not a matter of luck: a second one of the same name is refused, C53.) -/
theorem C79_callback {env : Env β} {vc : Config.Vc} {ds : List Doc} {st : State β} (h : Started env vc ds st) (hh : Http.Client.HostName (hostOf env vc)) (hp : 0 ≤ vc.port)
    (hsha : ∀ s, Plain (env.sha1 s)) (n : Str) (c : Client) (hc : dget st.reg.providers n = some (.client c)) :
    st.reg.getProviderURN n = .ok c.agent ∧ served st.tree (urlPath c.replyTo) = some (.requester none) ∧
    (∀ body hs m tmo, ∃ k, Http.Client.httpRequest c.replyTo body hs m tmo true = .connects k ∧ k.host = st.host ∧ k.port = st.port ∧ k.tls = (if st.tls then some st.host else none)) ∧
    (∀ n' c', dget st.reg.providers n' = some (.client c') → c.agent = c'.agent ∨ c.replyTo = c'.replyTo → c = c') := by
  obtain ⟨names, hg⟩ := h.good
  obtain ⟨hu, hr, hrep⟩ := hg.books.client n c hc
  refine ⟨by simp [Reg.getProviderURN, hu], ?_, ?_, ?_⟩
  · have hb : Base ((if vc.tls then Http.Client.https else Http.Client.http) ++ (hostOf env vc ++ ':' :: showInt vc.port)) := by
      refine ⟨_, ?_, netloc_delim hh vc.port⟩
      cases vc.tls
      · exact .inl rfl
      · exact .inr rfl
    have hpl : ∀ s ∈ [pNsi, pServices, c.resource], Plain s := by
      intro s hs
      simp only [List.mem_cons, List.not_mem_nil, or_false] at hs
      rcases hs with rfl | rfl | rfl
      · decide
      · decide
      · rw [hr]
        exact plain_resource hsha _ _
    rw [hrep, replyUrl_eq, hg.books.tree]
    exact (served_url hg.books.cs2 hb [pNsi, pServices, c.resource] (by simp) hpl _).2 (.requester c.resource [] ((hg.books.names _).2 ⟨n, c, hc, rfl⟩))
  · intro body hs m tmo
    rw [hrep, replyUrl_eq, hg.host, hg.port, hg.tls]
    have := reaches hh hp vc.tls (t := '/' :: joinWith '/' [pNsi, pServices, c.resource]) (.inr ⟨_, _, rfl, .inl rfl⟩) body hs m tmo
    simpa [List.append_assoc] using this
  · intro n' c' hc' he
    rcases he with he | he
    · exact hg.books.agent n c n' c' hc hc' he
    · apply hg.books.uniq n c n' c' hc hc'
      rw [hrep, (hg.books.client n' c' hc').2.2] at he
      exact List.append_cancel_left he

/-! ### Topologies -/

theorem AllDocs.get {env : Env β} {rs : List (Str × β × List Nrm.Port)} {docs : List (Str × Wire.Elem)} (h : AllDocs env rs docs) :
    docs.map (·.1) = rs.map (·.1) ∧ ∀ n b ports, (n, b, ports) ∈ rs → ∃ nt x, Nml.createNMLNetwork ports n n = .ok nt ∧ Nml.topologyXML nt env.now (env.canSwap b) = some x ∧ (n, x) ∈ docs := by
  induction h with
  | nil => exact ⟨rfl, fun _ _ _ h => nomatch h⟩
  | cons h1 h2 _ ih =>
    refine ⟨by simp [ih.1], ?_⟩
    intro n b ports hm
    rcases List.mem_cons.1 hm with hm | hm
    · cases hm
      exact ⟨_, _, h1, h2, by simp⟩
    · obtain ⟨nt, x, h1, h2, h3⟩ := ih.2 n b ports hm
      exact ⟨nt, x, h1, h2, by simp [h3]⟩

theorem AllRun.get {env : Env β} {domain : Str} {bs : List (Str × List (Str × Str))} {rs : List (Str × β × List Nrm.Port)} (h : AllRun env domain bs rs) :
    ∀ b ∈ bs, ∃ r ∈ rs, Runs env domain b r := by
  induction h with
  | nil => exact fun _ h => nomatch h
  | cons h1 _ ih =>
    intro b hb
    rcases List.mem_cons.1 hb with rfl | hb
    · exact ⟨_, by simp, h1⟩
    · obtain ⟨r, hr, h⟩ := ih b hb
      exact ⟨r, by simp [hr], h⟩

/-- **C79, topologies.** At any time the topology published for a network (one for each backend, in order) is that of the ports in its map, with label swapping as the backend says. What such a
document says is the subject of C64. -/
theorem C79_documents {env : Env β} {vc : Config.Vc} {ds : List Doc} {st : State β} (h : Started env vc ds st) :
    st.docs.map (·.1) = (vc.backends.map fun b => vc.domain ++ ':' :: b.1) ∧
    ∀ b ∈ vc.backends, ∃ file lines ports back nt x, dget b.2 Config.oNrmmap = some file ∧ env.file file = some lines ∧ Nrm.parsePortSpec lines = .ok ports ∧
      setupBackend env b.2 (vc.domain ++ ':' :: b.1) ports = .ok back ∧
      Nml.createNMLNetwork ports (vc.domain ++ ':' :: b.1) (vc.domain ++ ':' :: b.1) = .ok nt ∧ Nml.topologyXML nt env.now (env.canSwap back) = some x ∧
      dget st.docs (vc.domain ++ ':' :: b.1) = some x := by
  obtain ⟨st0, h0, hsame⟩ := h.same
  obtain ⟨_, _, _, _, hnd, rs, docs, x, hrun, hdocs, _, rfl⟩ := (start_ok env vc st0).1 h0
  obtain ⟨hk, hall⟩ := hdocs.get
  rw [hsame.docs]
  have hkeys : docs.map (·.1) = vc.backends.map fun b => net vc.domain b.1 := by rw [hk, hrun.names]
  refine ⟨hkeys, ?_⟩
  intro b hb
  obtain ⟨⟨n, back, ports⟩, hr, h1, h2, h3, h4, h5⟩ := hrun.get b hb
  simp only at h1 h3 h5
  subst h1
  obtain ⟨nt, x, g1, g2, g3⟩ := hall _ _ _ hr
  unfold nrmPorts at h3
  split at h3
  · cases h3
  · rename_i f hf
    split at h3
    · cases h3
    · rename_i lines hl
      split at h3
      · cases h3
      · rename_i ports' hps
        cases h3
        refine ⟨f, lines, ports, back, nt, x, hf, hl, hps, h5, g1, g2, ?_⟩
        apply dget_of_mem_nodup _ g3
        show (docs.map (·.1)).Nodup
        rw [hkeys]
        exact List.pairwise_map.2 (List.Pairwise.imp (fun hab hc => hab (net_inj hc)) (List.pairwise_map.1 hnd))

end OpenNSA.Setup
