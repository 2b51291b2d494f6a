import Verif.Http.Client
import Verif.Wire.PropsErrors
/-
C78: outgoing requests.
-/
namespace OpenNSA.Http.Client
open Py Wire

/-! ### Specification -/

/-- A host: its name or IPv4 address. -/
def HostName (h : Str) : Prop := ∀ c ∈ h, c ≠ ':' ∧ c ≠ '/' ∧ c ≠ '?' ∧ c ≠ '#' ∧ c ≠ '[' ∧ c ≠ ']'

/-- What may follow host and port: nothing, or a path, query or fragment. -/
def Tail (t : Str) : Prop := t = [] ∨ ∃ c r, t = c :: r ∧ (c = '/' ∨ c = '?' ∨ c = '#')

/-- `http://` -/
def http : Str := ['h','t','t','p',':','/','/']
/-- `https://` -/
def https : Str := ['h','t','t','p','s',':','/','/']

/-! ### Lemmas -/

theorem takeWhile_netloc {n t : Str} (hn : ∀ c ∈ n, urlDelim c = false) (ht : Tail t) :
    (n ++ t).takeWhile (fun c => !urlDelim c) = n := by
  induction n with
  | nil =>
    rcases ht with rfl | ⟨c, r, rfl, h⟩
    · rfl
    · rcases h with rfl | rfl | rfl <;> rfl
  | cons c cs ih =>
    rw [List.cons_append, List.takeWhile_cons, hn c (by simp)]
    simp only [Bool.not_false, if_true]
    rw [ih (fun d hd => hn d (by simp [hd]))]

theorem urlparse_http {n t : Str} (hn : ∀ c ∈ n, urlDelim c = false) (hb : '[' ∉ n ∧ ']' ∉ n) (ht : Tail t) :
    urlparse (http ++ (n ++ t)) = some (['h','t','t','p'], n) := by
  have : urlScheme (http ++ (n ++ t)) = (['h','t','t','p'], '/' :: '/' :: (n ++ t)) := by
    simp [urlScheme, http, cutFirst]
    decide
  unfold urlparse
  rw [this]
  simp only
  rw [takeWhile_netloc hn ht]
  simp [hb.1, hb.2]

theorem urlparse_https {n t : Str} (hn : ∀ c ∈ n, urlDelim c = false) (hb : '[' ∉ n ∧ ']' ∉ n) (ht : Tail t) :
    urlparse (https ++ (n ++ t)) = some (['h','t','t','p','s'], n) := by
  have : urlScheme (https ++ (n ++ t)) = (['h','t','t','p','s'], '/' :: '/' :: (n ++ t)) := by
    simp [urlScheme, https, cutFirst]
    decide
  unfold urlparse
  rw [this]
  simp only
  rw [takeWhile_netloc hn ht]
  simp [hb.1, hb.2]

theorem HostName.delim {h : Str} (hh : HostName h) : ∀ c ∈ h, urlDelim c = false := by
  intro c hc
  obtain ⟨_, h1, h2, h3, _⟩ := hh c hc
  simp [urlDelim, h1, h2, h3]

theorem HostName.not_mem {h : Str} (hh : HostName h) : ':' ∉ h ∧ '[' ∉ h ∧ ']' ∉ h :=
  ⟨fun hc => (hh _ hc).1 rfl, fun hc => (hh _ hc).2.2.2.2.1 rfl, fun hc => (hh _ hc).2.2.2.2.2 rfl⟩

/-- Host and port as netloc. -/
theorem netloc_port {h : Str} (hh : HostName h) (p : Nat) :
    (∀ c ∈ h ++ ':' :: showNat p, urlDelim c = false) ∧ '[' ∉ h ++ ':' :: showNat p ∧ ']' ∉ h ++ ':' :: showNat p := by
  have hd : ∀ c ∈ showNat p, urlDelim c = false ∧ c ≠ '[' ∧ c ≠ ']' := by
    intro c hc
    obtain ⟨d, hd, rfl⟩ := showNat_digits p c hc
    have : ∀ d, d < 10 → urlDelim (digitChar d) = false ∧ digitChar d ≠ '[' ∧ digitChar d ≠ ']' := by decide
    exact this d hd
  refine ⟨?_, ?_, ?_⟩
  · intro c hc
    rcases List.mem_append.mp hc with hc | hc
    · exact hh.delim c hc
    · rcases List.mem_cons.mp hc with rfl | hc
      · rfl
      · exact (hd c hc).1
  · intro hc
    rcases List.mem_append.mp hc with hc | hc
    · exact hh.not_mem.2.1 hc
    · rcases List.mem_cons.mp hc with h | hc
      · exact absurd h (by decide)
      · exact (hd _ hc).2.1 rfl
  · intro hc
    rcases List.mem_append.mp hc with hc | hc
    · exact hh.not_mem.2.2 hc
    · rcases List.mem_cons.mp hc with h | hc
      · exact absurd h (by decide)
      · exact (hd _ hc).2.2 rfl

/-- The header with the host, unless the caller gives one. -/
theorem host_header {netloc : Str} {hs : List (Str × Str)} (h : "host".toList ∉ dkeys hs) :
    dget (hs.foldl (fun d h => dset d h.1 h.2) (dset (dset [] "host".toList netloc) "User-Agent".toList "OpenNSA/Twisted".toList)) "host".toList = some netloc := by
  have key : ∀ (l d : List (Str × Str)) (k : Str), k ∉ dkeys l → dget (l.foldl (fun d h => dset d h.1 h.2) d) k = dget d k := by
    intro l
    induction l with
    | nil => exact fun _ _ _ => rfl
    | cons x xs ih =>
      intro d k hk
      have hk' : k ≠ x.1 ∧ k ∉ dkeys xs := by simpa [dkeys] using hk
      rw [List.foldl_cons, ih _ _ hk'.2, dget_dset, if_neg fun e => hk'.1 e.symm]
  rw [key _ _ _ h]
  rfl

/-! ### Where requests go -/

/-- C78: a request to an `http` URL with a port goes to that host and port, unencrypted, with what is to be sent. -/
theorem C78_http (h t : Str) (p : Nat) (hh : HostName h) (ht : Tail t) (body : Str) (hs : List (Str × Str)) (m : Str) (tmo : Int) (ctx : Bool) :
    ∃ c, httpRequest (http ++ (h ++ ':' :: showNat p ++ t)) body hs m tmo ctx = .connects c ∧ c.host = h ∧ c.port = p ∧ c.tls = none ∧
      c.url = http ++ (h ++ ':' :: showNat p ++ t) ∧ c.body = body ∧ c.method = m ∧ c.timeout = tmo ∧
      ("host".toList ∉ dkeys hs → dget c.headers "host".toList = some (h ++ ':' :: showNat p)) := by
  obtain ⟨h1, h2⟩ := netloc_port hh p
  unfold httpRequest
  have : (['h','t','t','p'] : Str).isPrefixOf (http ++ (h ++ ':' :: showNat p ++ t)) = true := by simp [http, List.isPrefixOf]
  rw [if_neg (fun hn => hn this), urlparse_http h1 h2 ht]
  simp only
  rw [cutFirst_append _ hh.not_mem.1]
  simp only [pyInt_showNat, Option.map_some]
  exact ⟨_, rfl, rfl, rfl, rfl, rfl, rfl, rfl, rfl, fun hk => host_header hk⟩

/-- C78: a request to an `https` URL with a port goes to that host and port, and the certificate must be that of the host. -/
theorem C78_https (h t : Str) (p : Nat) (hh : HostName h) (ht : Tail t) (body : Str) (hs : List (Str × Str)) (m : Str) (tmo : Int) :
    ∃ c, httpRequest (https ++ (h ++ ':' :: showNat p ++ t)) body hs m tmo true = .connects c ∧ c.host = h ∧ c.port = p ∧ c.tls = some h ∧
      c.url = https ++ (h ++ ':' :: showNat p ++ t) ∧ c.body = body ∧ c.method = m ∧ c.timeout = tmo ∧
      ("host".toList ∉ dkeys hs → dget c.headers "host".toList = some (h ++ ':' :: showNat p)) := by
  obtain ⟨h1, h2⟩ := netloc_port hh p
  unfold httpRequest
  have : (['h','t','t','p'] : Str).isPrefixOf (https ++ (h ++ ':' :: showNat p ++ t)) = true := by simp [https, List.isPrefixOf]
  rw [if_neg (fun hn => hn this), urlparse_https h1 h2 ht]
  simp only
  rw [cutFirst_append _ hh.not_mem.1]
  simp only [pyInt_showNat, Option.map_some, if_true]
  exact ⟨_, rfl, rfl, rfl, rfl, rfl, rfl, rfl, rfl, fun hk => host_header hk⟩

/-- C78: without a port in an `https` URL it is 443. -/
theorem C78_https_default (h t : Str) (hh : HostName h) (ht : Tail t) (body : Str) (hs : List (Str × Str)) (m : Str) (tmo : Int) :
    ∃ c, httpRequest (https ++ (h ++ t)) body hs m tmo true = .connects c ∧ c.host = h ∧ c.port = 443 ∧ c.tls = some h := by
  unfold httpRequest
  have : (['h','t','t','p'] : Str).isPrefixOf (https ++ (h ++ t)) = true := by simp [https, List.isPrefixOf]
  rw [if_neg (fun hn => hn this), urlparse_https hh.delim hh.not_mem.2 ht]
  simp only
  rw [cutFirst_eq_none.mpr hh.not_mem.1]
  simp only [if_true]
  exact ⟨_, rfl, rfl, rfl, rfl⟩

/-- C78 fails: without a port in an `http` URL it is 443 as well, not 80: bytes are compared with text (httpclient.py:60). -/
theorem C78_http_default_fails (h t : Str) (hh : HostName h) (ht : Tail t) (body : Str) (hs : List (Str × Str)) (m : Str) (tmo : Int) (ctx : Bool) :
    ∃ c, httpRequest (http ++ (h ++ t)) body hs m tmo ctx = .connects c ∧ c.host = h ∧ c.tls = none ∧ c.port ≠ 80 := by
  unfold httpRequest
  have : (['h','t','t','p'] : Str).isPrefixOf (http ++ (h ++ t)) = true := by simp [http, List.isPrefixOf]
  rw [if_neg (fun hn => hn this), urlparse_http hh.delim hh.not_mem.2 ht]
  simp only
  rw [cutFirst_eq_none.mpr hh.not_mem.1]
  refine ⟨_, rfl, rfl, rfl, ?_⟩
  simp [defaultPort]

/-- C78 fails: hosts given as IPv6 addresses cannot be reached: the port is searched for after the first colon. -/
theorem C78_ipv6_fails (t : Str) (ht : Tail t) (p : Nat) (body : Str) (hs : List (Str × Str)) (m : Str) (tmo : Int) (ctx : Bool) :
    httpRequest (http ++ ("[2001:db8::1]:".toList ++ showNat p ++ t)) body hs m tmo ctx = .raises := by
  have hd : ∀ c ∈ "[2001:db8::1]:".toList ++ showNat p, urlDelim c = false := by
    intro c hc
    rcases List.mem_append.mp hc with hc | hc
    · exact (by decide : ∀ c ∈ "[2001:db8::1]:".toList, urlDelim c = false) c hc
    · obtain ⟨d, hd, rfl⟩ := showNat_digits p c hc
      exact (by decide : ∀ d, d < 10 → urlDelim (digitChar d) = false) d hd
  have hparse : urlparse (http ++ ("[2001:db8::1]:".toList ++ showNat p ++ t)) = some (['h','t','t','p'], "[2001:db8::1]:".toList ++ showNat p) := by
    have : urlScheme (http ++ ("[2001:db8::1]:".toList ++ showNat p ++ t)) =
        (['h','t','t','p'], '/' :: '/' :: ("[2001:db8::1]:".toList ++ showNat p ++ t)) := by
      simp [urlScheme, http, cutFirst]
      decide
    unfold urlparse
    rw [this]
    simp only
    rw [takeWhile_netloc hd ht]
    simp
  unfold httpRequest
  have : (['h','t','t','p'] : Str).isPrefixOf (http ++ ("[2001:db8::1]:".toList ++ showNat p ++ t)) = true := by simp [http, List.isPrefixOf]
  rw [if_neg (fun hn => hn this), hparse]
  simp only
  have hcut : cutFirst ':' ("[2001:db8::1]:".toList ++ showNat p) = some ("[2001".toList, "db8::1]:".toList ++ showNat p) := by
    have : "[2001:db8::1]:".toList ++ showNat p = "[2001".toList ++ ':' :: ("db8::1]:".toList ++ showNat p) := by simp
    rw [this]
    exact cutFirst_append _ (by decide)
  rw [hcut]
  have hint : pyInt ("db8::1]:".toList ++ showNat p) = none := by
    have hs : ∃ r, strip ("db8::1]:".toList ++ showNat p) = 'd' :: r := by
      have hns : ∀ c ∈ "db8::1]:".toList ++ showNat p, isSpace c = false := by
        intro c hc
        rcases List.mem_append.mp hc with hc | hc
        · exact (by decide : ∀ c ∈ "db8::1]:".toList, isSpace c = false) c hc
        · obtain ⟨d, hd, rfl⟩ := showNat_digits p c hc
          exact digitChar_not_space hd
      rw [strip_of_no_space _ hns]
      exact ⟨_, rfl⟩
    obtain ⟨r, hr⟩ := hs
    unfold pyInt
    rw [hr]
    simp only [show ('d' = '-') = False by decide, show ('d' = '+') = False by decide, if_false]
    rw [readDigits]
    have : digitVal 'd' = none := by decide
    rw [this]
    simp
  simp only [hint, Option.map_none]

/-! ### Protection -/

/-- C78: a request leaves unencrypted only if the scheme of its URL, in whatever case, is not `https`. -/
theorem C78_secure (url body : Str) (hs : List (Str × Str)) (m : Str) (tmo : Int) (ctx : Bool) (c : Conn)
    (h : httpRequest url body hs m tmo ctx = .connects c) (s rest : Str) (hu : url = s ++ ':' :: rest)
    (hsch : s.map Char.toLower = ['h','t','t','p','s']) : ctx = true ∧ c.tls = some c.host := by
  have hcolon : ':' ∉ s := by
    intro hm
    have : Char.toLower ':' ∈ s.map Char.toLower := List.mem_map.mpr ⟨_, hm, rfl⟩
    rw [hsch] at this
    revert this
    decide
  unfold httpRequest at h
  split at h
  · cases h
  · rename_i hp
    have hsc : (urlScheme url).1 = ['h','t','t','p','s'] := by
      unfold urlScheme
      rw [hu, cutFirst_append _ hcolon]
      cases s with
      | nil => simp at hsch
      | cons c0 cs =>
        have hp' : (['h','t','t','p'] : Str).isPrefixOf url = true := by simpa using hp
        have hall : ∀ c ∈ (c0 :: cs), schemeChar c = true := by
          intro x hx
          have hl : Char.toLower x ∈ (c0 :: cs).map Char.toLower := List.mem_map.mpr ⟨_, hx, rfl⟩
          rw [hsch] at hl
          have hlow : ∀ x : Char, x.toLower.isAlpha = true → x.isAlpha = true := by
            intro x hx
            unfold Char.toLower at hx
            split at hx
            · rename_i hr
              have : x.isUpper = true := by
                simp only [Char.isUpper]
                simpa using hr
              simp [Char.isAlpha, this]
            · exact hx
          have : x.isAlpha = true := by
            apply hlow
            simp at hl
            rcases hl with h | h | h | h <;> rw [h] <;> decide
          simp [schemeChar, Char.isAlphanum, this]
        have h0 : c0.isAlpha = true := by
          have : c0 = 'h' := by
            rw [hu] at hp'
            simp [List.isPrefixOf] at hp'
            exact hp'.1.symm
          rw [this]; decide
        have hb : (c0.isAlpha && (c0 :: cs).all schemeChar) = true := by
          rw [h0, Bool.true_and, List.all_eq_true]
          exact hall
        simp only [hb, if_true]
        exact hsch
    cases hpa : urlparse url with
    | none => rw [hpa] at h; cases h
    | some sn =>
      obtain ⟨scheme, netloc⟩ := sn
      rw [hpa] at h
      simp only at h
      have hscheme : scheme = ['h','t','t','p','s'] := by
        unfold urlparse at hpa
        cases hus : urlScheme url with
        | mk a b =>
          rw [hus] at hpa hsc
          simp only at hpa hsc
          split at hpa
          · split at hpa
            · cases hpa
            · simp at hpa; rw [← hpa.1]; exact hsc
          · simp at hpa; rw [← hpa.1]; exact hsc
      split at h
      · cases h
      · rw [if_pos hscheme] at h
        split at h
        · rename_i hctx
          simp only [Action.connects.injEq] at h
          subst h
          exact ⟨hctx, rfl⟩
        · cases h

/-- C78: without a TLS context nothing is sent to an `https` URL. -/
theorem C78_no_context (url body : Str) (hs : List (Str × Str)) (m : Str) (tmo : Int) (s rest : Str) (hu : url = s ++ ':' :: rest)
    (hsch : s.map Char.toLower = ['h','t','t','p','s']) : ∀ c, httpRequest url body hs m tmo false ≠ .connects c := by
  intro c h
  exact absurd (C78_secure url body hs m tmo false c h s rest hu hsch).1 (by simp)

/-- C78: nothing is sent to a URL that does not begin with `http`. -/
theorem C78_other_scheme (url body : Str) (hs : List (Str × Str)) (m : Str) (tmo : Int) (ctx : Bool) (h : ¬ (['h','t','t','p'] : Str) <+: url) :
    httpRequest url body hs m tmo ctx = .fails := by
  unfold httpRequest
  rw [if_pos]
  simpa using h

/-- C78 fails: a scheme that only begins with `http` is not refused: with `httpss` the request is sent unencrypted, to port 443. -/
theorem C78_scheme_fails (body : Str) (hs : List (Str × Str)) (m : Str) (tmo : Int) (ctx : Bool) :
    ∃ c, httpRequest "httpss://example.org/secret".toList body hs m tmo ctx = .connects c ∧ c.tls = none ∧ c.body = body ∧
      c.host = "example.org".toList := by
  have : urlparse "httpss://example.org/secret".toList = some ("httpss".toList, "example.org".toList) := by decide +kernel
  unfold httpRequest
  rw [if_neg (by decide), this]
  exact ⟨_, rfl, rfl, rfl, rfl⟩

/-! ### SOAP -/

/-- C78: a SOAP message is posted with its content type, its action, and the headers of the caller. -/
theorem C78_soap (url action env : Str) (tmo : Int) (ctx : Bool) (hs : List (Str × Str)) (hk : (dkeys hs).Nodup) (c : Conn)
    (h : soapRequest url action env tmo ctx hs = .connects c) : c.method = "POST".toList ∧ c.body = env ∧ c.url = url ∧
      dget c.headers "soapaction".toList = some action ∧
      dget c.headers "Content-Type".toList = some "text/xml; charset=utf-8".toList ∧
      ∀ k v, k ≠ "soapaction".toList → k ≠ "Content-Type".toList → dget hs k = some v → dget c.headers k = some v := by
  have hfold : ∀ (l : List (Str × Str)) (d : List (Str × Str)) (k : Str), (dkeys l).Nodup →
      dget (l.foldl (fun d h => dset d h.1 h.2) d) k = match dget l k with | some v => some v | none => dget d k := by
    intro l
    induction l with
    | nil => intro d k _; rfl
    | cons x xs ih =>
      intro d k hn
      have hn' : x.1 ∉ dkeys xs ∧ (dkeys xs).Nodup := by simpa [dkeys] using hn
      rw [List.foldl_cons, ih _ _ hn'.2]
      have hcons : dget (x :: xs) k = if x.1 = k then some x.2 else dget xs k := by
        simp only [dget]
      rw [hcons]
      by_cases e : x.1 = k
      · subst e
        rw [if_pos rfl]
        have : dget xs x.1 = none := dget_none.mpr fun e he heq => hn'.1 (heq ▸ List.mem_map.mpr ⟨e, he, rfl⟩)
        rw [this]
        simp [dget_dset]
      · rw [if_neg e]
        cases dget xs k with
        | some v => rfl
        | none => simp only; rw [dget_dset, if_neg e]
  have hall : (dkeys (dset (dset hs "Content-Type".toList "text/xml; charset=utf-8".toList) "soapaction".toList action)).Nodup :=
    nodup_dset (nodup_dset hk _ _) _ _
  have hg : ∀ k v, dget (dset (dset hs "Content-Type".toList "text/xml; charset=utf-8".toList) "soapaction".toList action) k = some v →
      dget c.headers k = some v := by
    intro k v hv
    unfold soapRequest httpRequest at h
    simp only at h
    repeat' split at h
    all_goals first
      | cases h
      | skip
    all_goals
      rw [hfold _ _ _ hall, hv]
  have hparts : c.method = "POST".toList ∧ c.body = env ∧ c.url = url := by
    unfold soapRequest httpRequest at h
    simp only at h
    repeat' split at h
    all_goals first
      | cases h
      | skip
    all_goals exact ⟨rfl, rfl, rfl⟩
  refine ⟨hparts.1, hparts.2.1, hparts.2.2, ?_, ?_, ?_⟩
  · apply hg; simp [dget_dset]
  · apply hg; simp [dget_dset]
  · intro k v h1 h2 hv
    apply hg
    rw [dget_dset, if_neg (Ne.symm h1), dget_dset, if_neg (Ne.symm h2)]
    exact hv

/-- C78 fails: the time limit given for a SOAP request is ignored. -/
theorem C78_timeout_fails : ∃ (url : Str) (t : Int), ∃ c, t ≠ 30 ∧ soapRequest url [] [] t = .connects c ∧ c.timeout = 30 := by
  refine ⟨"http://h:1/".toList, 5, ?_⟩
  obtain ⟨c, h, _, _, _, _, _, _, ht⟩ := C78_http ['h'] ['/'] 1 (by simp [HostName]) (.inr ⟨_, _, rfl, .inl rfl⟩) []
    (dset (dset [] "Content-Type".toList "text/xml; charset=utf-8".toList) "soapaction".toList []) ['P','O','S','T'] 30 false
  refine ⟨c, by decide, ?_, ht.1⟩
  rw [← h]
  have : http ++ (['h'] ++ ':' :: showNat 1 ++ ['/']) = "http://h:1/".toList := by decide +kernel
  rw [this]
  rfl

/-! ### Outcomes -/

/-- C78, in part: a request to a provider is taken for acknowledged only if there was a reply with a status of success, or the connection was
closed without one. -/
theorem C78_acknowledged_partial (parse : Str → Option Elem) (provider : Option Str) (n : Net) :
    acknowledged parse provider n = .ok () ↔ (∃ d, n = .reply d) ∨ n = .closed := by
  cases n <;> simp [acknowledged, outcome]

/-- C78 fails: a connection closed without a reply counts as acknowledgement (httpclient.py:84-88 returns None from the errback). -/
theorem C78_closed_fails (parse : Str → Option Elem) (provider : Option Str) : acknowledged parse provider .closed = .ok () := rfl

/-- C78: a reservation is taken for acknowledged only if there was an acknowledgement; an error is reported as it is for the other
requests (`C78_refused`, `C78_fault_partial`). -/
theorem C78_reserve {α : Type} (ack : Str → Except WireErr α) (parse : Str → Option Elem) (provider : Option Str) (n : Net) (x : α) :
    (reserveAck ack parse provider n = .ok x ↔ ∃ d, n = .reply d ∧ ack d = .ok x) ∧
    (∀ e, acknowledged parse provider n = .error e → reserveAck ack parse provider n = .error e) := by
  cases n with
  | reply d =>
    simp only [reserveAck, acknowledged, outcome]
    cases h : ack d <;> simp [h]
  | _ => simp [reserveAck, acknowledged, outcome]

/-- C78: a provider that cannot be reached is reported with its id. -/
theorem C78_refused (parse : Str → Option Elem) (provider : Option Str) : ∃ e, acknowledged parse provider .refused = .error (.nsi e) ∧
    e.cls = .downstreamNSAError ∧ e.nsaId = provider := ⟨_, rfl, rfl, rfl⟩

/-- C78: the error with which a provider answers a request is the one reported, for all classes of errors but two (C44). -/
theorem C78_fault_partial (parse : Str → Option Elem) (e : NSIError) (provider from' : Str) (conn : Option Str) (d : Str) (hc : ¬ e.cls.unlisted)
    (hp : provider ≠ []) (hd : parse d = some (wire (createSOAPFault (.nsi e) (some provider) conn))) :
    ∃ e', acknowledged parse (some from') (.status 500 d) = .error (.nsi e') ∧ e'.cls = e.cls ∧ e'.text = some e.text ∧
      e'.nsaId = pyOr e.nsaId (some provider) ∧ e'.connectionId = pyOr e.connectionId conn := by
  have h := C44_wire_partial e provider from' conn hc hp
  refine ⟨{ cls := e.cls, text := some e.text, nsaId := pyOr e.nsaId (some provider), connectionId := pyOr e.connectionId conn,
            variables := (truthy e.variables).map fun vs => vs.map fun v => (some v.1, some (strOf v.2)) }, ?_, rfl, rfl, rfl, rfl⟩
  simp only [acknowledged, outcome, handleErrorReply, ne_eq, not_true_eq_false, if_false, hd]
  rw [h]

/-- C78 fails: an answer with any other status is not reported as an NSI error. -/
theorem C78_status_fails (parse : Str → Option Elem) (provider : Option Str) (c : Nat) (d : Str) (h : c ≠ 500) :
    acknowledged parse provider (.status c d) = .error (.failure (.web c d)) := by
  simp [acknowledged, outcome, handleErrorReply, h]

/-! ### Discovery -/

/-- C78, in part: if the URLs of all peers can be parsed, then each round asks every peer. -/
theorem C78_rounds_partial (ctx : Bool) (peers : List Str) (h : ∀ u ∈ peers, httpRequest u [] [] ['G','E','T'] 10 ctx ≠ .raises) (n : Nat) :
    fetchRounds ctx peers n = List.replicate n (peers.map fun u => httpRequest u [] [] ['G','E','T'] 10 ctx) := by
  have hr : fetchRound ctx peers = (peers.map fun u => httpRequest u [] [] ['G','E','T'] 10 ctx, true) := by
    induction peers with
    | nil => rfl
    | cons u us ih =>
      have := ih fun v hv => h v (by simp [hv])
      unfold fetchRound
      split
      · rename_i e; exact absurd e (h u (by simp))
      · rw [this]; rfl
  induction n with
  | zero => rfl
  | succ n ih => simp [fetchRounds, hr, ih, List.replicate_succ]

/-- C78 fails: a peer whose URL cannot be parsed ends discovery for all peers: those after it in the list are never asked, those before
it once. -/
theorem C78_peer_fails (ctx : Bool) (before after : List Str) (u : Str) (hu : httpRequest u [] [] ['G','E','T'] 10 ctx = .raises)
    (hb : ∀ v ∈ before, httpRequest v [] [] ['G','E','T'] 10 ctx ≠ .raises) (n : Nat) :
    fetchRounds ctx (before ++ u :: after) (n + 1) = [before.map fun v => httpRequest v [] [] ['G','E','T'] 10 ctx] := by
  have hr : fetchRound ctx (before ++ u :: after) = (before.map fun v => httpRequest v [] [] ['G','E','T'] 10 ctx, false) := by
    induction before with
    | nil => simp [fetchRound, hu]
    | cons v vs ih =>
      have := ih fun w hw => hb w (by simp [hw])
      rw [List.cons_append]
      unfold fetchRound
      split
      · rename_i e; exact absurd e (hb v (by simp))
      · rw [this]; rfl
  simp [fetchRounds, hr]

/-- C78: the time between rounds doubles up to an hour: 10, 20, 40, … seconds. -/
theorem C78_interval (n : Nat) : intervalAfter n = min (5 * 2 ^ n) 3600 := by
  induction n with
  | zero => rfl
  | succ n ih =>
    rw [intervalAfter, nextInterval, ih, Nat.pow_succ]
    omega

/-! ### Examples -/

example : HostName "nsa.example.org".toList ∧ Tail "/NSI/services/CS2".toList := ⟨by unfold HostName; decide +kernel, .inr ⟨_, _, rfl, .inl rfl⟩⟩
/-- What the certificate is checked against, and the port, for a URL with scheme in mixed case. -/
example : ∃ c, httpRequest "httpS://h:9443/x".toList [] [] ['G'] 10 true = .connects c ∧ c.tls = some ['h'] ∧ c.port = 9443 :=
  ⟨⟨['h'], 9443, some ['h'], "httpS://h:9443/x".toList, ['G'], [],
    [("host".toList, "h:9443".toList), ("User-Agent".toList, "OpenNSA/Twisted".toList)], 10⟩, by decide +kernel, rfl, rfl⟩
example : ¬ (['h','t','t','p'] : Str) <+: "ftp://h/".toList := by decide +kernel
example : httpRequest "http://h:80a/".toList [] [] ['G','E','T'] 10 false = .raises ∧
    httpRequest "http://h:80/".toList [] [] ['G','E','T'] 10 false ≠ .raises := by decide +kernel
example : (dkeys [("Authorization".toList, "Bearer x".toList)]).Nodup ∧
    ∃ c, soapRequest "http://h:80/".toList "act".toList [] 30 false [("Authorization".toList, "Bearer x".toList)] = .connects c ∧
      dget c.headers "Authorization".toList = some "Bearer x".toList :=
  ⟨by decide +kernel, ⟨['h'], 80, none, "http://h:80/".toList, "POST".toList, [],
    [("host".toList, "h:80".toList), ("User-Agent".toList, "OpenNSA/Twisted".toList), ("Authorization".toList, "Bearer x".toList),
     ("Content-Type".toList, "text/xml; charset=utf-8".toList), ("soapaction".toList, "act".toList)], 30⟩, by decide +kernel, by decide +kernel⟩
/-- A provider that answers with the error of a start time in the past. -/
example : ∃ (parse : Str → Option Elem) (d : Str), ¬ Wire.Ex.pastStart.cls.unlisted ∧
    parse d = some (wire (createSOAPFault (.nsi Wire.Ex.pastStart) (some "p:nsa".toList) none)) :=
  ⟨fun _ => some (wire (createSOAPFault (.nsi Wire.Ex.pastStart) (some "p:nsa".toList) none)), [], by decide, rfl⟩

end OpenNSA.Http.Client
