import Verif.Tls.Model
import Verif.Http.Props
import Verif.Config.Props
/-
C101: whom the service trusts.
-/
namespace OpenNSA.Tls
open Py OpenNSA.Http

/-- The directory has an authority in a file whose name ends in `.0`. -/
def Installed (d : Dir) (ca : Ca) : Prop := ∃ name cas, (name, File.pem cas) ∈ d ∧ ".0".toList <:+ name ∧ ca ∈ cas

/-- It is the first one of the file. -/
def InstalledFirst (d : Dir) (ca : Ca) : Prop := ∃ name cas, (name, File.pem (ca :: cas)) ∈ d ∧ ".0".toList <:+ name

theorem dot_zero (name : Str) : (!dotZero.isSuffixOf name) = false ↔ ".0".toList <:+ name := by
  have : ".0".toList = dotZero := by decide
  rw [this]
  simp

theorem mem_trustRoot : ∀ {d : Dir} {cas : List Ca}, trustRoot d = .ok cas → ∀ ca, ca ∈ cas ↔ InstalledFirst d ca := by
  intro d
  induction d with
  | nil => intro cas h ca; cases h; simp [InstalledFirst]
  | cons e d ih =>
    obtain ⟨name, f⟩ := e
    intro cas h ca
    unfold trustRoot at h
    have skip : ∀ {cas}, trustRoot d = .ok cas → (∀ c cs, f = .pem (c :: cs) → ¬ ".0".toList <:+ name) → (ca ∈ cas ↔ InstalledFirst ((name, f) :: d) ca) := by
      intro cas h hf
      rw [ih h ca]
      constructor
      · rintro ⟨n, cs, hm, hs⟩; exact ⟨n, cs, List.mem_cons_of_mem _ hm, hs⟩
      · rintro ⟨n, cs, hm, hs⟩
        rcases List.mem_cons.1 hm with hm | hm
        · cases hm; exact absurd hs (hf _ _ rfl)
        · exact ⟨n, cs, hm, hs⟩
    split at h
    · next hn =>
      refine skip h fun c cs _ hs => ?_
      rw [(dot_zero name).2 hs] at hn
      cases hn
    · next hn =>
      have hz := (dot_zero name).1 (by simpa using hn)
      split at h
      · cases h
      · exact skip h fun c cs hf => by cases hf
      · next c cs =>
        cases ht : trustRoot d with
        | error e => rw [ht] at h; cases h
        | ok rest =>
          rw [ht] at h
          cases h
          rw [List.mem_cons, ih ht ca]
          constructor
          · rintro (rfl | ⟨n, cs', hm, hs⟩)
            · exact ⟨name, cs, List.mem_cons_self, hz⟩
            · exact ⟨n, cs', List.mem_cons_of_mem _ hm, hs⟩
          · rintro ⟨n, cs', hm, hs⟩
            rcases List.mem_cons.1 hm with hm | hm
            · cases hm; exact .inl rfl
            · exact .inr ⟨n, cs', hm, hs⟩

theorem mem_verifyLocations : ∀ {d : Dir} {cas : List Ca}, verifyLocations d = .ok cas → ∀ ca, ca ∈ cas ↔ Installed d ca := by
  intro d
  induction d with
  | nil => intro cas h ca; cases h; simp [Installed]
  | cons e d ih =>
    obtain ⟨name, f⟩ := e
    intro cas h ca
    unfold verifyLocations at h
    split at h
    · next hn =>
      rw [ih h ca]
      constructor
      · rintro ⟨n, cs, hm, hs⟩; exact ⟨n, cs, List.mem_cons_of_mem _ hm, hs⟩
      · rintro ⟨n, cs, hm, hs, hc⟩
        rcases List.mem_cons.1 hm with hm | hm
        · cases hm
          rw [(dot_zero _).2 hs] at hn
          cases hn
        · exact ⟨n, cs, hm, hs, hc⟩
    · next hn =>
      have hz := (dot_zero name).1 (by simpa using hn)
      split at h
      · cases h
      · cases h
      · next cs _ =>
        cases ht : verifyLocations d with
        | error e => rw [ht] at h; cases h
        | ok rest =>
          rw [ht] at h
          cases h
          rw [List.mem_append, ih ht ca]
          constructor
          · rintro (hc | ⟨n, cs', hm, hs⟩)
            · exact ⟨name, cs, List.mem_cons_self, hz, hc⟩
            · exact ⟨n, cs', List.mem_cons_of_mem _ hm, hs⟩
          · rintro ⟨n, cs', hm, hs, hc⟩
            rcases List.mem_cons.1 hm with hm | hm
            · cases hm; exact .inl hc
            · exact .inr ⟨n, cs', hm, hs, hc⟩

theorem make_ok {disk : Disk} {certdir : Str} {keys : Option (Str × Str)} {verify : Bool} {c : Context} (h : Context.make disk certdir keys verify = .ok c) :
    disk.dir certdir = some c.dir ∧ trustRoot c.dir = .ok c.trusted ∧ c.verify = verify ∧ c.own = keys.bind fun k => disk.pair k.1 k.2 := by
  unfold Context.make at h
  split at h
  · cases h
  next d hd =>
  split at h
  · cases h
  next cas hc =>
  split at h
  · cases h; exact ⟨hd, hc, rfl, rfl⟩
  · split at h
    · cases h
    next cert hp => cases h; exact ⟨hd, hc, rfl, hp.symm⟩

/-- **C101, as a client.** Whatever the setting `verify` says, the service talks only to a server whose certificate is valid, is for the host of the URL and was issued by an
authority that is the first in a file `*.0` of the directory, with TLS 1.2 or later; and to every such server. -/
theorem C101_client (disk : Disk) (certdir : Str) (keys : Option (Str × Str)) (verify : Bool) (c : Context) (h : Context.make disk certdir keys verify = .ok c)
    (host : Str) (v : Version) (server : Cert) :
    c.connects host v server = true ↔
      (v = .tls12 ∨ v = .tls13) ∧ server.sound = true ∧ host ∈ server.names ∧ ∃ d, disk.dir certdir = some d ∧ InstalledFirst d server.root := by
  obtain ⟨h1, h2, _⟩ := make_ok h
  have hm := mem_trustRoot h2 server.root
  simp only [Context.connects, Bool.and_eq_true, List.contains_iff_mem, hm, h1, Option.some.injEq, exists_eq_left']
  cases v <;> simp [and_comm, and_left_comm]

/-- **C101, the certificate of the service.** A configuration with TLS that is accepted has a key and a certificate, in files that exist; the context then always has both, so that
beginning to listen is not an AttributeError. -/
theorem C101_own (ex : Str → Bool) (f : Config.File) (vc : Config.Vc) (h : Config.load ex f = .ok vc) (ht : vc.tls = true) (disk : Disk) (c : Context)
    (hc : service disk vc = .ok c) :
    (∃ key cert own, Config.Sets f "key".toList key ∧ Config.Sets f "certificate".toList cert ∧ ex key = true ∧ ex cert = true ∧ disk.pair key cert = some own ∧ c.own = some own) ∧
    c.getContext ≠ .error .noAttribute := by
  have hr := (Config.C69_values ex f vc h).1
  obtain ⟨⟨key, hk, hk0, hke⟩, cert, hcc, hc0, hce⟩ := hr.tlsFiles ht
  have opt : ∀ {o : Str} {t : Str} {v}, Config.IsOpt f o v → v = some t → Config.Sets f o t := by
    rintro o t v (⟨_, rfl⟩ | ⟨t', hs, rfl⟩) h
    · cases h
    · cases h; exact hs
  have hctx : Setup.tlsContext vc = .twoWay key cert vc.certdir vc.verify := by
    unfold Setup.tlsContext
    rw [hk, hcc]
    cases key with
    | nil => exact absurd rfl hk0
    | cons => cases cert with
      | nil => exact absurd rfl hc0
      | cons => rfl
  unfold service at hc
  rw [hctx] at hc
  obtain ⟨_, _, _, ho⟩ := make_ok hc
  simp only [Option.bind] at ho
  cases hp : disk.pair key cert with
  | none =>
    exfalso
    simp only [Context.make, hp] at hc
    split at hc
    · cases hc
    · split at hc <;> cases hc
  | some own =>
    rw [hp] at ho
    refine ⟨⟨key, cert, own, opt hr.key hk, opt hr.certificate hcc, hke, hce, hp, ho⟩, ?_⟩
    unfold Context.getContext
    rw [ho]
    cases hv : verifyLocations c.dir with
    | ok l => simp [Except.map]
    | error e =>
      have : ∀ {d : Dir} {e}, verifyLocations d = .error e → e = .ssl := by
        intro d
        induction d with
        | nil => intro e h; cases h
        | cons x d ih =>
          intro e h
          unfold verifyLocations at h
          split at h
          · exact ih h
          · split at h
            · cases h; rfl
            · cases h; rfl
            · cases hd : verifyLocations d with
              | ok l => rw [hd] at h; cases h
              | error e' => rw [hd] at h; cases h; exact ih hd
      rw [this hv]
      simp [Except.map]

/-- **C101, as a server.** With `verify` on, a client that presents a certificate is accepted exactly if the certificate is valid and was issued by an authority in a file `*.0` of the
directory, with TLS 1.0 or later; a client without certificate is accepted. -/
theorem C101_server (disk : Disk) (certdir : Str) (keys : Option (Str × Str)) (c : Context) (h : Context.make disk certdir keys true = .ok c)
    (s : Server) (hs : c.getContext = .ok s) (v : Version) :
    (∀ client : Cert, s.accepts v (some client) = true ↔
      (v ≠ .ssl2 ∧ v ≠ .ssl3) ∧ client.sound = true ∧ ∃ d, disk.dir certdir = some d ∧ Installed d client.root) ∧
    (s.accepts v none = true ↔ v ≠ .ssl2 ∧ v ≠ .ssl3) := by
  obtain ⟨h1, _, h3, _⟩ := make_ok h
  unfold Context.getContext at hs
  split at hs
  · cases hs
  next cert _ =>
  cases hv : verifyLocations c.dir with
  | error e => rw [hv] at hs; cases hs
  | ok cas =>
    rw [hv] at hs
    cases hs
    refine ⟨fun client => ?_, ?_⟩
    · have hm := mem_verifyLocations hv client.root
      simp only [Server.accepts, h3, if_true, Bool.and_eq_true, List.contains_iff_mem, hm, h1, Option.some.injEq, exists_eq_left']
      cases v <;> simp
    · cases v <;> simp [Server.accepts]

/-- **C101, the list of hosts.** With `verify` on and a list of hosts, a SOAP request is admitted exactly if the client has a valid certificate of an authority in a file `*.0` of the
directory, whose common name (the last one) is on the list, and uses TLS 1.0 or later; it then counts as a request of that name. -/
theorem C101_admitted (disk : Disk) (certdir : Str) (keys : Option (Str × Str)) (c : Context) (h : Context.make disk certdir keys true = .ok c)
    (s : Server) (hs : c.getContext = .ok s) (hosts : List Str) (v : Version) (client : Option Cert) (dn : Option PyVal) :
    s.request (some hosts) v client = some (.admitted dn) ↔
      (v ≠ .ssl2 ∧ v ≠ .ssl3) ∧ ∃ cert, client = some cert ∧ cert.sound = true ∧ (∃ d, disk.dir certdir = some d ∧ Installed d cert.root) ∧
        ∃ name x, (cert.subject.reverse.find? fun x => x.1 = cn) = some x ∧ decodeUtf8 x.2 = some name ∧ name ∈ hosts ∧ dn = some (.str name) := by
  obtain ⟨ha, hn⟩ := C101_server disk certdir keys c h s hs v
  unfold Server.request
  cases client with
  | none =>
    constructor
    · intro hr
      split at hr
      · rw [Option.some.injEq, C51_soap] at hr
        obtain ⟨_, cs, _, _, h0, _⟩ := hr
        cases h0
      · cases hr
    · rintro ⟨_, cert, h0, _⟩; cases h0
  | some cert =>
    constructor
    · intro hr
      split at hr
      · next hacc =>
        rw [Option.some.injEq, C51_soap] at hr
        obtain ⟨_, cs, name, x, h0, h1, h2, h3, h4⟩ := hr
        cases h0
        obtain ⟨a1, a2, a3⟩ := (ha cert).1 hacc
        exact ⟨a1, cert, rfl, a2, a3, name, x, h1, h2, h3, h4⟩
      · cases hr
    · rintro ⟨a1, cert', h0, a2, a3, name, x, h1, h2, h3, h4⟩
      cases h0
      rw [if_pos ((ha cert).2 ⟨a1, a2, a3⟩), Option.some.injEq, C51_soap]
      exact ⟨rfl, _, name, x, rfl, h1, h2, h3, h4⟩

/-- **C101, both ways, partially.** Where every file `*.0` has one certificate, the authorities that are trusted in both directions are the same. Missing: files with several certificates, see
`C101_bundle_fails`. -/
theorem C101_same_partial (disk : Disk) (certdir : Str) (keys : Option (Str × Str)) (verify : Bool) (c : Context) (h : Context.make disk certdir keys verify = .ok c)
    (s : Server) (hs : c.getContext = .ok s) (h1 : ∀ name f, (name, f) ∈ c.dir → ".0".toList <:+ name → ∃ ca, f = .pem [ca]) (ca : Ca) : ca ∈ c.trusted ↔ ca ∈ s.trusted := by
  obtain ⟨_, h2, _⟩ := make_ok h
  unfold Context.getContext at hs
  split at hs
  · cases hs
  cases hv : verifyLocations c.dir with
  | error e => rw [hv] at hs; cases hs
  | ok cas =>
    rw [hv] at hs
    cases hs
    rw [mem_trustRoot h2, mem_verifyLocations hv]
    constructor
    · rintro ⟨n, cs, hm, hz⟩; exact ⟨n, _, hm, hz, List.mem_cons_self⟩
    · rintro ⟨n, cs, hm, hz, hc⟩
      obtain ⟨x, hx⟩ := h1 _ _ hm hz
      cases hx
      rw [List.mem_singleton] at hc
      cases hc
      exact ⟨n, [], hm, hz⟩

/-! ### Examples -/

namespace Ex
/-- A directory with two authorities, a file with another name, and what the service has itself. -/
def dir : Dir := [("a1b2.0".toList, .pem [1]), ("readme".toList, .unreadable), ("c3d4.0".toList, .pem [2])]
def own : Cert := ⟨[(cn, [109, 101])], ["me.net".toList], 1, true⟩
def disk : Disk := ⟨fun p => if p = "/certs".toList then some dir else none, fun _ _ => some own⟩
/-- A peer: its common name is `pe`. -/
def peer (root : Ca) (sound : Bool) : Cert := ⟨[([79], [120]), (cn, [112, 101])], ["pe.net".toList], root, sound⟩
def ctx (verify : Bool) : Context := ⟨dir, verify, [1, 2], some own⟩
def server (verify : Bool) : Server := ⟨[1, 2], verify, own⟩
theorem made (verify : Bool) : Context.make disk "/certs".toList (some ("/k".toList, "/c".toList)) verify = .ok (ctx verify) := by cases verify <;> decide +kernel
theorem listens (verify : Bool) : (ctx verify).getContext = .ok (server verify) := by cases verify <;> decide +kernel
theorem pe : decodeUtf8 [112, 101] = some "pe".toList := by decide +kernel
end Ex

/-- The hypotheses of `C101_client`, `C101_server`, `C101_admitted` and `C101_same_partial` hold, and all outcomes occur. -/
example : Context.make Ex.disk "/certs".toList (some ("/k".toList, "/c".toList)) true = .ok (Ex.ctx true) ∧ (Ex.ctx true).getContext = .ok (Ex.server true) ∧
    (∀ name f, (name, f) ∈ (Ex.ctx true).dir → ".0".toList <:+ name → ∃ ca, f = .pem [ca]) ∧
    (Ex.ctx true).connects "pe.net".toList .tls13 (Ex.peer 2 true) = true ∧ (Ex.ctx true).connects "pe.net".toList .tls11 (Ex.peer 2 true) = false ∧
    (Ex.ctx true).connects "x.net".toList .tls13 (Ex.peer 2 true) = false ∧ (Ex.ctx false).connects "pe.net".toList .tls13 (Ex.peer 3 true) = false ∧
    (Ex.server true).accepts .tls12 (some (Ex.peer 3 true)) = false ∧ (Ex.server true).request (some ["pe".toList]) .tls12 (some (Ex.peer 2 true)) = some (.admitted (some (.str "pe".toList))) ∧
    (Ex.server true).request (some ["x".toList]) .tls12 (some (Ex.peer 2 true)) = some .refused ∧ (Ex.server true).request (some ["pe".toList]) .tls12 none = some .refused := by
  refine ⟨Ex.made _, Ex.listens _, ?_, by decide +kernel, by decide +kernel, by decide +kernel, by decide +kernel, by decide +kernel, by decide +kernel, by decide +kernel, by decide +kernel⟩
  intro name f hm hz
  simp only [Ex.ctx, Ex.dir, List.mem_cons, List.not_mem_nil, or_false, Prod.mk.injEq] at hm
  rcases hm with ⟨_, h⟩ | ⟨h, _⟩ | ⟨_, h⟩
  · exact ⟨1, h⟩
  · rw [h] at hz
    exact absurd hz (by decide +kernel)
  · exact ⟨2, h⟩

/-- The hypotheses of `C101_own`. -/
example : ∃ f vc c, Config.load (fun _ => true) f = .ok vc ∧ vc.tls = true ∧ service Ex.disk vc = .ok c := by
  have : (match Config.load (fun _ => true) (Config.Ex.tinyTls [("certdir".toList, some "/certs".toList)] []) with
    | .ok vc => vc.tls && (match service Ex.disk vc with | .ok _ => true | _ => false)
    | _ => false) = true := by decide +kernel
  split at this
  · next vc h =>
    rw [Bool.and_eq_true] at this
    split at this
    · next c hc => exact ⟨_, vc, c, h, this.1, hc⟩
    · cases this.2
  · cases this

/-! ### Violations -/

/-- **C101 is violated with `verify` off**: the list of hosts then protects nothing. Whoever makes a certificate for themselves with a name from the list, signed by nobody, is admitted under that
name (opennsaTlsContext.py:82), whatever the directory has. -/
theorem C101_unverified_fails (disk : Disk) (certdir : Str) (keys : Option (Str × Str)) (c : Context) (h : Context.make disk certdir keys false = .ok c)
    (s : Server) (hs : c.getContext = .ok s) (hosts : List Str) (name : Str) (hn : name ∈ hosts) (bytes : Bytes) (hb : decodeUtf8 bytes = some name) :
    ∃ cert : Cert, cert.sound = false ∧ s.request (some hosts) .tls13 (some cert) = some (.admitted (some (.str name))) := by
  obtain ⟨_, _, h3, _⟩ := make_ok h
  refine ⟨⟨[(cn, bytes)], [], 0, false⟩, rfl, ?_⟩
  have hv : s.verify = false := by
    unfold Context.getContext at hs
    split at hs
    · cases hs
    · cases hv : verifyLocations c.dir with
      | error e => rw [hv] at hs; cases hs
      | ok cas => rw [hv] at hs; cases hs; exact h3
  have hacc : s.accepts .tls13 (some ⟨[(cn, bytes)], [], 0, false⟩) = true := by simp [Server.accepts, hv]
  unfold Server.request
  rw [if_pos hacc, Option.some.injEq, C51_soap]
  exact ⟨rfl, _, name, (cn, bytes), rfl, by simp, hb, hn, rfl⟩

example : (Ex.server false).request (some ["pe".toList]) .tls12 (some (Ex.peer 9 false)) = some (.admitted (some (.str "pe".toList))) := by decide +kernel

/-- **C101 is violated by files with several certificates**: of a file `*.0` the service trusts all authorities in requests that it receives, but only the first one in requests that it makes. A peer with
a certificate of the second is admitted, and none of the replies to it can be delivered. -/
theorem C101_bundle_fails : ∃ (disk : Disk) (certdir : Str) (keys : Option (Str × Str)) (c : Context) (s : Server) (peer : Cert) (hosts : List Str),
    Context.make disk certdir keys true = .ok c ∧ c.getContext = .ok s ∧ peer.sound = true ∧ "pe.net".toList ∈ peer.names ∧
    s.request (some hosts) .tls13 (some peer) = some (.admitted (some (.str "pe".toList))) ∧ ∀ v, c.connects "pe.net".toList v peer = false := by
  refine ⟨⟨fun _ => some [("b.0".toList, .pem [1, 2])], fun _ _ => some Ex.own⟩, [], some ([], []), ⟨[("b.0".toList, .pem [1, 2])], true, [1], some Ex.own⟩, ⟨[1, 2], true, Ex.own⟩,
    Ex.peer 2 true, ["pe".toList], by decide +kernel, by decide +kernel, rfl, by decide +kernel, by decide +kernel, ?_⟩
  intro v
  cases v <;> decide +kernel

theorem bad_file : ∀ {d : Dir} {name : Str}, (name, File.pem []) ∈ d → ".0".toList <:+ name → verifyLocations d = .error .ssl := by
  intro d
  induction d with
  | nil => intro name h; cases h
  | cons e d ih =>
    obtain ⟨n, f⟩ := e
    intro name h hz
    unfold verifyLocations
    rcases List.mem_cons.1 h with h | h
    · cases h
      rw [(dot_zero _).2 hz]
      rfl
    · rw [ih h hz]
      split
      · rfl
      · split <;> rfl

/-- **C101 is violated by files that are no certificates**: a file `*.0` in the directory that is none is skipped where the context is made, with a message in the log, so that the service starts; but
when it begins to listen, reading the same file raises an exception (opennsaTlsContext.py:103), for every such directory. -/
theorem C101_bad_file_fails : (∀ (c : Context) (name : Str), c.own ≠ none → (name, File.pem []) ∈ c.dir → ".0".toList <:+ name → c.getContext = .error .ssl) ∧
    ∃ (disk : Disk) (c : Context), Context.make disk [] (some ([], [])) true = .ok c ∧ ("x.0".toList, File.pem []) ∈ c.dir ∧ c.own ≠ none ∧ c.connects "pe.net".toList .tls13 (Ex.peer 1 true) = true := by
  constructor
  · intro c name ho hm hz
    unfold Context.getContext
    cases h : c.own with
    | none => exact absurd h ho
    | some cert => simp only [bad_file hm hz]; rfl
  · exact ⟨⟨fun _ => some [("x.0".toList, .pem []), ("y.0".toList, .pem [1])], fun _ _ => some Ex.own⟩, ⟨[("x.0".toList, .pem []), ("y.0".toList, .pem [1])], true, [1], some Ex.own⟩,
      by decide +kernel, by decide +kernel, by decide +kernel, by decide +kernel⟩

end OpenNSA.Tls
