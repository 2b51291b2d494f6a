import Verif.Ssh.Login

namespace OpenNSA.SshLogin
open Py

/-! ### What holds of a connection at every moment -/

/-- The host has shown a key that is configured. -/
def Listed (c : Creator) (host : Option Str) : Prop := ∃ fp ∈ c.fingerprints, host = some fp

/-- This may be sent. -/
def Fine (c : Creator) (host : Option Str) (accepted : Bool) : Sent → Prop
  | .bye => True
  | .user u => Listed c host ∧ u = c.username
  | .signature k => Listed c host ∧ ∃ p, c.cred = some (.keys p k)
  | .password p => Listed c host ∧ c.cred = some (.password p)
  | .text _ => Listed c host ∧ accepted = true

theorem Fine.accept {c : Creator} {host : Option Str} {s : Sent} (h : Fine c host false s) : Fine c host true s := by
  cases s <;> simp_all [Fine]

/-- What holds at every moment. -/
structure Inv (c : Creator) (l : Login) : Prop where
  sent : ∀ s ∈ l.sent, Fine c l.host l.accepted s
  silent : l.phase = .dialing ∨ l.phase = .handshake → l.sent = []
  listed : l.phase = .verified ∨ l.phase = .authenticating ∨ l.phase = .up ∨ l.accepted = true → Listed c l.host
  told : l.phase ≠ .over → l.phase ≠ .up → l.told = []
  count : l.told.length ≤ 1
  conn : .connection ∈ l.told ↔ l.accepted = true
  up : l.phase = .up → l.accepted = true
  acc : l.accepted = true → l.phase = .up ∨ l.phase = .over
  none : .noCredentials ∈ l.told → c.cred = none
  tcp : l.tcp = true → l.phase ≠ .dialing ∧ (l.phase = .over → l.told = [.noCredentials])

theorem Inv.start (services : Str → Option Nat) (c : Creator) : Inv c (Login.start services c) := by
  unfold Login.start
  split
  · constructor <;> simp
  · split <;> constructor <;> simp

theorem answer_fine {c : Creator} {host : Option Str} {a : Bool} (h : Listed c host) {m : Method} {s : Sent} (hs : s ∈ answer c.cred m) :
    Fine c host a s := by
  unfold answer at hs
  split at hs
  · rename_i p k he; simp at hs; subst hs; exact ⟨h, p, he⟩
  · rename_i p he; simp at hs; subst hs; exact ⟨h, he⟩
  · simp at hs

theorem Inv.step {c : Creator} {l : Login} (h : Inv c l) (e : LEv) : Inv c (l.step c e) := by
  have hn : l.phase ≠ .up → l.phase ≠ .over → l.accepted = false ∧ l.told = [] := by
    intro a b
    have h0 : l.accepted = false := by
      cases ha : l.accepted with
      | false => rfl
      | true => rcases h.acc ha with h | h
                · exact absurd h a
                · exact absurd h b
    exact ⟨h0, h.told b a⟩
  obtain ⟨hs, hsi, hl, ht, hc, hco, hup, hac, hno, htc⟩ := h
  cases e with
  | dialed ok =>
    simp only [Login.step]
    split
    · rename_i hph
      obtain ⟨ha, hto⟩ := hn (by simp [hph]) (by simp [hph])
      simp only [ha, hto, hph] at *
      split
      · refine ⟨?_, ?_, ?_, ?_, ?_, ?_, ?_, ?_, ?_, ?_⟩ <;> simp_all
      · refine ⟨?_, ?_, ?_, ?_, ?_, ?_, ?_, ?_, ?_, ?_⟩ <;> simp_all
    · exact ⟨hs, hsi, hl, ht, hc, hco, hup, hac, hno, htc⟩
  | hostKey fp =>
    simp only [Login.step]
    split
    · rename_i hph
      obtain ⟨ha, hto⟩ := hn (by simp [hph]) (by simp [hph])
      simp only [ha, hto, hph] at *
      have h0 : l.sent = [] := hsi (.inr trivial)
      split
      · refine ⟨?_, ?_, ?_, ?_, ?_, ?_, ?_, ?_, ?_, ?_⟩ <;> simp_all [Listed]
      · refine ⟨?_, ?_, ?_, ?_, ?_, ?_, ?_, ?_, ?_, ?_⟩ <;> simp_all [Fine]
    · exact ⟨hs, hsi, hl, ht, hc, hco, hup, hac, hno, htc⟩
  | newKeys =>
    simp only [Login.step]
    split
    · rename_i hph
      obtain ⟨ha, hto⟩ := hn (by simp [hph]) (by simp [hph])
      simp only [ha, hto, hph] at *
      have hl' : Listed c l.host := hl (.inl trivial)
      split
      · refine ⟨?_, ?_, ?_, ?_, ?_, ?_, ?_, ?_, ?_, ?_⟩
        · intro s hm
          rcases List.mem_append.mp hm with hm | hm
          · exact hs s hm
          · simp at hm; subst hm; exact ⟨hl', rfl⟩
        all_goals simp_all
      · rename_i hcr
        refine ⟨hs, ?_, ?_, ?_, ?_, ?_, ?_, ?_, ?_, ?_⟩ <;> simp_all
    · exact ⟨hs, hsi, hl, ht, hc, hco, hup, hac, hno, htc⟩
  | ask m =>
    simp only [Login.step]
    split
    · rename_i hph
      obtain ⟨ha, hto⟩ := hn (by simp [hph]) (by simp [hph])
      simp only [ha, hto, hph] at *
      have hl' : Listed c l.host := hl (.inr (.inl trivial))
      refine ⟨?_, ?_, ?_, ?_, ?_, ?_, ?_, ?_, ?_, ?_⟩
      · intro s hm
        rcases List.mem_append.mp hm with hm | hm
        · exact hs s hm
        · exact answer_fine hl' hm
      all_goals simp_all
    · exact ⟨hs, hsi, hl, ht, hc, hco, hup, hac, hno, htc⟩
  | granted =>
    simp only [Login.step]
    split
    · rename_i hph
      obtain ⟨ha, hto⟩ := hn (by simp [hph]) (by simp [hph])
      simp only [ha, hto, hph] at *
      have hl' : Listed c l.host := hl (.inr (.inl trivial))
      refine ⟨fun s hm => (hs s hm).accept, ?_, fun _ => hl', ?_, ?_, ?_, ?_, ?_, ?_, ?_⟩ <;> simp
    · exact ⟨hs, hsi, hl, ht, hc, hco, hup, hac, hno, htc⟩
  | denied =>
    simp only [Login.step]
    split
    · rename_i hph
      obtain ⟨ha, hto⟩ := hn (by simp [hph]) (by simp [hph])
      simp only [ha, hto, hph] at *
      refine ⟨?_, ?_, ?_, ?_, ?_, ?_, ?_, ?_, ?_, ?_⟩
      · intro s hm
        rcases List.mem_append.mp hm with hm | hm
        · exact hs s hm
        · simp at hm; subst hm; trivial
      all_goals simp_all
    · exact ⟨hs, hsi, hl, ht, hc, hco, hup, hac, hno, htc⟩
  | write t =>
    simp only [Login.step]
    split
    · rename_i hph
      have ha : l.accepted = true := hup hph
      refine ⟨?_, ?_, hl, ht, hc, hco, hup, hac, hno, htc⟩
      · intro s hm
        rcases List.mem_append.mp hm with hm | hm
        · exact hs s hm
        · simp at hm; subst hm; exact ⟨hl (.inr (.inr (.inl hph))), ha⟩
      · simp [hph]
    · exact ⟨hs, hsi, hl, ht, hc, hco, hup, hac, hno, htc⟩
  | close =>
    simp only [Login.step]
    split
    · rename_i hph
      have ha : l.accepted = true := hup hph
      refine ⟨hs, ?_, fun _ => hl (.inr (.inr (.inr ha))), ?_, hc, hco, ?_, ?_, hno, ?_⟩ <;> simp
    · exact ⟨hs, hsi, hl, ht, hc, hco, hup, hac, hno, htc⟩
  | lost =>
    simp only [Login.step]
    split
    · rename_i hph
      refine ⟨hs, ?_, ?_, ?_, hc, hco, ?_, ?_, hno, ?_⟩
      · simp
      · intro h; exact hl (.inr (.inr (.inr (by simpa using h))))
      all_goals simp
    · exact ⟨hs, hsi, hl, ht, hc, hco, hup, hac, hno, htc⟩

theorem Inv.run {c : Creator} {l : Login} (h : Inv c l) (evs : List LEv) : Inv c (l.run c evs) := by
  induction evs generalizing l with
  | nil => exact h
  | cons e t ih => exact ih (h.step e)

/-! ### The claims -/

/-- The host key that was shown was shown. -/
theorem run_host (c : Creator) (evs : List LEv) : ∀ (l : Login) (fp : Str), (l.run c evs).host = some fp →
    l.host = some fp ∨ .hostKey fp ∈ evs := by
  induction evs with
  | nil => intro l fp h; exact .inl h
  | cons e t ih =>
    intro l fp h
    rcases ih _ fp h with h | h
    · cases e <;> simp only [Login.step] at h <;> (try split at h) <;> (try split at h) <;> simp_all
    · exact .inr (List.mem_cons_of_mem _ h)

theorem run_accepted (c : Creator) (evs : List LEv) : ∀ l : Login, (l.run c evs).accepted = true →
    l.accepted = true ∨ .granted ∈ evs := by
  induction evs with
  | nil => intro l h; exact .inl h
  | cons e t ih =>
    intro l h
    rcases ih _ h with h | h
    · cases e <;> simp only [Login.step] at h <;> (try split at h) <;> (try split at h) <;> simp_all
    · exact .inr (List.mem_cons_of_mem _ h)

theorem start_host (services : Str → Option Nat) (c : Creator) : (Login.start services c).host = none ∧
    (Login.start services c).accepted = false ∧ (Login.start services c).sent = [] := by
  unfold Login.start; split <;> (try split) <;> simp

/-- C92: whatever happens on the network, the name of the user, a password, a signature or a command is sent only to a host that has
proven to have a key whose fingerprint is configured. -/
theorem C92_listed (services : Str → Option Nat) (c : Creator) (evs : List LEv) (s : Sent)
    (hs : s ∈ ((Login.start services c).run c evs).sent) (hc : s.confidential = true) :
    ∃ fp ∈ c.fingerprints, ((Login.start services c).run c evs).host = some fp ∧ .hostKey fp ∈ evs := by
  have h := ((Inv.start services c).run evs).sent s hs
  have hl : Listed c ((Login.start services c).run c evs).host := by
    cases s with
    | bye => simp [Sent.confidential] at hc
    | _ => exact h.1
  obtain ⟨fp, hf, hh⟩ := hl
  refine ⟨fp, hf, hh, ?_⟩
  rcases run_host c evs _ fp hh with h | h
  · rw [(start_host services c).1] at h; cases h
  · exact h

/-- A device and what is configured for it. -/
def exCreator : Creator :=
  { host := "sw".toList, port := .num 22, fingerprints := ["aa:bb".toList], username := "opennsa".toList,
    publicKey := some "/k.pub".toList, privateKey := some "/k".toList }

/-- No names of services. -/
def noServices : Str → Option Nat := fun _ => none

/-- A connection that is made, with one command. -/
def exEvents : List LEv :=
  [.dialed true, .hostKey "aa:bb".toList, .newKeys, .ask .publickey, .granted, .write "set a".toList]

example : ((Login.start noServices exCreator).run exCreator exEvents).sent
    = [.user "opennsa".toList, .signature "/k".toList, .text "set a".toList] := by decide +kernel

/-- C92: the user name, the key and the password that are sent are those configured; if both keys are configured no password is ever
sent; commands are sent only after the host has accepted the user. -/
theorem C92_credentials (services : Str → Option Nat) (c : Creator) (evs : List LEv) :
    let l := (Login.start services c).run c evs
    (∀ u, .user u ∈ l.sent → u = c.username) ∧
    (∀ k, .signature k ∈ l.sent → c.privateKey = some k) ∧
    (∀ p, .password p ∈ l.sent → c.password = some p ∧ ¬ (∃ a b, c.publicKey = some a ∧ a ≠ [] ∧ c.privateKey = some b ∧ b ≠ [])) ∧
    (∀ t, .text t ∈ l.sent → .granted ∈ evs) := by
  have h := ((Inv.start services c).run evs).sent
  have given_some : ∀ {o : Option Str} {x : Str}, given o = some x → o = some x ∧ x ≠ [] := by
    intro o x ho
    unfold given at ho
    split at ho
    · cases ho
    · rename_i hne; subst ho; exact ⟨rfl, fun e => hne (by rw [e])⟩
  have given_ne : ∀ {x : Str}, x ≠ [] → given (some x) = some x := by
    intro x hx; cases x with
    | nil => exact absurd rfl hx
    | cons => rfl
  refine ⟨fun u hu => (h _ hu).2, fun k hk => ?_, fun p hp => ?_, fun t ht => ?_⟩
  · obtain ⟨p, hp⟩ := (h _ hk).2
    unfold Creator.cred at hp
    split at hp
    · rename_i a b _ hb
      simp at hp
      obtain ⟨_, rfl⟩ := hp
      exact (given_some hb).1
    · split at hp <;> simp at hp
  · have hp := (h _ hp).2
    unfold Creator.cred at hp
    split at hp
    · simp at hp
    · rename_i hx
      split at hp
      · rename_i q hq
        simp at hp
        subst hp
        refine ⟨(given_some hq).1, ?_⟩
        rintro ⟨a, b, ha, hane, hb, hbne⟩
        exact hx a b (by rw [ha]; exact given_ne hane) (by rw [hb]; exact given_ne hbne)
      · cases hp
  · have := (h _ ht).2
    rcases run_accepted c evs _ this with h | h
    · rw [(start_host services c).2.1] at h; cases h
    · exact h

/-- C92: the backends that are configured with keys send what is confidential only to a host with the fingerprint that is in their
configuration, as the user and with the keys of their configuration, and never a password; they connect to the host of their
configuration. -/
theorem C92_keys (cfg : List (Str × Str)) (c : Creator) (hc : withKeys cfg = .ok c) (services : Str → Option Nat) (evs : List LEv) (s : Sent)
    (hs : s ∈ ((Login.start services c).run c evs).sent) (hcf : s.confidential = true) :
    ((Login.start services c).run c evs).host = dget cfg "fingerprint".toList ∧ (∀ p, s ≠ .password p) ∧
    (∀ u, s = .user u → dget cfg "user".toList = some u) ∧ (∀ k, s = .signature k → dget cfg "privatekey".toList = some k) ∧
    dget cfg "host".toList = some c.host ∧ dget cfg "publickey".toList = c.publicKey := by
  simp only [withKeys, need, bind, Except.bind, pure, Except.pure] at hc
  split at hc
  · cases hc
  rename_i ho hho
  split at hc
  · cases hc
  rename_i fp hfp
  split at hc
  · cases hc
  rename_i us hus
  split at hc
  · cases hc
  rename_i pk hpk
  split at hc
  · cases hc
  rename_i sk hsk
  have e : ∀ {k v : Str}, (match dget cfg k with | some v => Except.ok v | none => Except.error (InitErr.keyError k)) = .ok v →
      dget cfg k = some v := by
    intro k v h; split at h
    · rename_i w hw; rw [hw]; simp at h; rw [h]
    · cases h
  have hfp := e hfp
  have hpk := e hpk
  have hsk := e hsk
  have hus := e hus
  simp only [Except.ok.injEq] at hc
  subst hc
  refine ⟨?_, ?_, ?_, ?_, e hho, hpk⟩
  · obtain ⟨f, hf, hh, _⟩ := C92_listed services _ evs s hs hcf
    simp only [List.mem_singleton] at hf
    rw [hh, hf]
    exact hfp.symm
  · rintro p rfl
    have := ((C92_credentials services _ evs).2.2.1 p hs).1
    cases this
  · rintro u rfl
    rw [(C92_credentials services _ evs).1 u hs]; exact hus
  · rintro k rfl
    have := (C92_credentials services _ evs).2.1 k hs
    rw [← this]; exact hsk

example : withKeys [(kHost, "sw".toList), (kFingerprint, "aa:bb".toList), (kUser, "opennsa".toList), (kPublicKey, "/k.pub".toList),
    (kPrivateKey, "/k".toList)] = .ok exCreator := by decide +kernel

/-- C92: the backend is told at most one thing about a connection it asked for, and what it was told stands. -/
theorem C92_once (services : Str → Option Nat) (c : Creator) (evs later : List LEv) :
    ((Login.start services c).run c evs).told.length ≤ 1 ∧
    ((Login.start services c).run c evs).told <+: ((Login.start services c).run c (evs ++ later)).told := by
  refine ⟨((Inv.start services c).run evs).count, ?_⟩
  rw [Login.run, Login.run, List.foldl_append]
  generalize List.foldl (Login.step c) (Login.start services c) evs = l
  induction later generalizing l with
  | nil => exact List.prefix_refl _
  | cons e t ih =>
    refine List.IsPrefix.trans ?_ (ih (l.step c e))
    cases e <;> simp only [Login.step] <;> (try split) <;> (try split) <;> simp

/-- C92: if a connection is handed to the backend, then the host has shown a key that is configured and has accepted the user. -/
theorem C92_connected (services : Str → Option Nat) (c : Creator) (evs : List LEv)
    (h : .connection ∈ ((Login.start services c).run c evs).told) :
    ∃ fp ∈ c.fingerprints, ((Login.start services c).run c evs).host = some fp ∧ .hostKey fp ∈ evs ∧ .granted ∈ evs := by
  have hi := (Inv.start services c).run evs
  have ha := hi.conn.mp h
  obtain ⟨fp, hf, hh⟩ := hi.listed (.inr (.inr (.inr ha)))
  refine ⟨fp, hf, hh, ?_, ?_⟩
  · rcases run_host c evs _ fp hh with h | h
    · rw [(start_host services c).1] at h; cases h
    · exact h
  · rcases run_accepted c evs _ ha with h | h
    · rw [(start_host services c).2.1] at h; cases h
    · exact h

/-- C92: if the host can be reached, has a configured key, and accepts the user, whatever methods of authentication it asks for first,
the backend gets the connection. -/
theorem C92_reached (services : Str → Option Nat) (c : Creator) (n : Nat) (hport : c.port = .num n) (fp : Str)
    (hf : fp ∈ c.fingerprints) (hcr : c.cred ≠ none) (asked : List Method) :
    let l := (Login.start services c).run c ([.dialed true, .hostKey fp, .newKeys] ++ asked.map .ask ++ [.granted])
    l.told = [.connection] ∧ l.phase = .up ∧ l.tcp = true := by
  obtain ⟨cr, hcr⟩ := Option.ne_none_iff_exists'.mp hcr
  have h3 : (Login.start services c).run c [.dialed true, .hostKey fp, .newKeys]
      = { phase := .authenticating, host := some fp, tcp := true, sent := [.user c.username] } := by
    simp [Login.run, Login.start, hport, Login.step, hf, hcr]
  have h4 : ∀ (ms : List Method) (l : Login), l.phase = .authenticating → l.told = [] → l.tcp = true →
      let l' := l.run c (ms.map .ask ++ [.granted])
      l'.told = [.connection] ∧ l'.phase = .up ∧ l'.tcp = true := by
    intro ms
    induction ms with
    | nil => intro l a b d; simp [Login.run, Login.step, a, b, d]
    | cons m t ih =>
      intro l a b d
      have e : l.step c (.ask m) = { l with sent := l.sent ++ answer c.cred m } := by simp [Login.step, a]
      have := ih (l.step c (.ask m)) (by rw [e]; exact a) (by rw [e]; exact b) (by rw [e]; exact d)
      simpa [Login.run] using this
  have := h4 asked ((Login.start services c).run c [.dialed true, .hostKey fp, .newKeys]) (by rw [h3]) (by rw [h3]) (by rw [h3])
  simpa [Login.run, List.foldl_append] using this

example : exCreator.cred ≠ none := by decide +kernel

/-- C92: if the host cannot be reached the backend is told so. -/
theorem C92_refused (services : Str → Option Nat) (c : Creator) (evs : List LEv) :
    ((Login.start services c).run c (.dialed false :: evs)).told = [.unreachable] := by
  have h1 := ((Inv.start services c).run (.dialed false :: evs)).count
  have h2 : [Told.unreachable] <+: ((Login.start services c).run c (.dialed false :: evs)).told := by
    have : ((Login.start services c).run c [.dialed false]).told = [.unreachable] := by
      unfold Login.start; split <;> (try split) <;> simp [Login.run, Login.step]
    rw [← this]
    exact (C92_once services c [.dialed false] evs).2
  obtain ⟨t, ht⟩ := h2
  rw [← ht] at h1 ⊢
  cases t with
  | nil => rfl
  | cons => simp at h1

/-- The connection is gone and nobody was told: then nobody ever is. -/
theorem hangs (c : Creator) (evs : List LEv) : ∀ l : Login, l.phase = .over → (l.run c evs).told = l.told := by
  induction evs with
  | nil => intro l _; rfl
  | cons e t ih =>
    intro l h
    have hp : (l.step c e).phase = .over ∧ (l.step c e).told = l.told := by
      cases e <;> simp only [Login.step] <;> (try split) <;> simp_all
    exact (ih _ hp.1).trans hp.2

/-- C92 is violated by all backends that use SSH: if the key of the host is not the configured one, the connection is closed but the
`Deferred` of `getSSHConnection` is never fired (`connection_secure_d`, ssh.py:19 and 150-153, has no errback and `connectionLost` is
not overridden). So setting up a link neither succeeds nor fails, ever. -/
theorem C92_rejected_fails (services : Str → Option Nat) (c : Creator) (n : Nat) (hport : c.port = .num n) (fp : Str)
    (hf : fp ∉ c.fingerprints) (evs : List LEv) :
    ((Login.start services c).run c (.dialed true :: .hostKey fp :: evs)).told = [] := by
  have e : (Login.start services c).run c (.dialed true :: .hostKey fp :: evs)
      = Login.run c { phase := .over, host := some fp, sent := [.bye] } evs := by
    simp [Login.run, Login.start, hport, Login.step, hf]
  rw [e, hangs c evs _ rfl]

example : "cc:dd".toList ∉ exCreator.fingerprints := by decide +kernel

/-- C92 is violated by all backends that use SSH: if the host accepts neither key nor password, or the connection is lost before the
user was accepted, the `Deferred` of `getSSHConnection` is never fired. -/
theorem C92_denied_fails (services : Str → Option Nat) (c : Creator) (n : Nat) (hport : c.port = .num n) (fp : Str)
    (hf : fp ∈ c.fingerprints) (hcr : c.cred ≠ none) (evs : List LEv) :
    ((Login.start services c).run c (.dialed true :: .hostKey fp :: .newKeys :: .denied :: evs)).told = [] ∧
    ((Login.start services c).run c (.dialed true :: .lost :: evs)).told = [] := by
  obtain ⟨cr, hcr⟩ := Option.ne_none_iff_exists'.mp hcr
  constructor
  · have e : (Login.start services c).run c (.dialed true :: .hostKey fp :: .newKeys :: .denied :: evs)
        = Login.run c { phase := .over, host := some fp, sent := [.user c.username, .bye] } evs := by
      simp [Login.run, Login.start, hport, Login.step, hf, hcr]
    rw [e, hangs c evs _ rfl]
  · have e : (Login.start services c).run c (.dialed true :: .lost :: evs) = Login.run c { phase := .over } evs := by
      simp [Login.run, Login.start, hport, Login.step]
    rw [e, hangs c evs _ rfl]

example : "aa:bb".toList ∈ exCreator.fingerprints ∧ exCreator.cred ≠ none := by decide +kernel

/-- C92 is violated if a port is configured: it stays a text, and a text is looked up as the name of a service, so that no connection is
ever made. (brocade.py:202 and alike, `cfg.get(PORT, 22)`.) -/
theorem C92_port_fails (services : Str → Option Nat) (cfg : List (Str × Str)) (t : Str) (ht : dget cfg "port".toList = some t)
    (hs : services t = none) (c : Creator) (hc : withKeys cfg = .ok c) (evs : List LEv) :
    ((Login.start services c).run c evs).told = [.unreachable] ∧ ((Login.start services c).run c evs).sent = [] := by
  change dget cfg kPort = some t at ht
  have hp : c.port = .text t := by
    simp only [withKeys, need, bind, Except.bind, pure, Except.pure] at hc
    repeat' (split at hc; · cases hc)
    simp only [Except.ok.injEq] at hc
    subst hc
    simp [portOf, ht]
  have e : Login.start services c = { phase := .over, told := [.unreachable] } := by simp [Login.start, hp, hs]
  rw [e]
  refine ⟨hangs c evs _ rfl, ?_⟩
  have key : ∀ (evs : List LEv) (l : Login), l.phase = .over → l.tcp = false → (l.run c evs).sent = l.sent := by
    intro evs
    induction evs with
    | nil => intro l _ _; rfl
    | cons e t ih =>
      intro l h h'
      have hp : (l.step c e).phase = .over ∧ (l.step c e).tcp = false ∧ (l.step c e).sent = l.sent := by
        cases e <;> simp only [Login.step] <;> (try split) <;> simp_all
      exact (ih _ hp.1 hp.2.1).trans hp.2.2
  exact key evs _ rfl rfl

example : (withKeys [(kHost, "sw".toList), (kPort, "2222".toList), (kFingerprint, "aa:bb".toList), (kUser, "opennsa".toList),
    (kPublicKey, "/k.pub".toList), (kPrivateKey, "/k".toList)]).toOption.isSome = true ∧ noServices "2222".toList = none := by decide +kernel

/-- C92 is violated by Force10: a backend for it can be made only with a password. With keys, which its configuration allows for, the
constructor always raises (force10.py:272). -/
theorem C92_force10_fails (cfg : List (Str × Str)) (h : dget cfg "password".toList = none) : ∃ e, force10Init cfg = .error e := by
  change dget cfg kPassword = none at h
  simp only [force10Init, need, bind, Except.bind, pure, Except.pure, h]
  repeat' split
  all_goals exact ⟨_, rfl⟩

example : force10Init [(kHost, "sw".toList), (kFingerprint, "aa:bb".toList), (kUser, "opennsa".toList), (kPublicKey, "/k.pub".toList),
    (kPrivateKey, "/k".toList)] = .error .unbound := by decide +kernel

/-- C92: a Force10 backend with a password sends it only to a host with the configured fingerprint. -/
theorem C92_force10 (cfg : List (Str × Str)) (c : Creator) (enable : Str) (hc : force10Init cfg = .ok (c, enable))
    (services : Str → Option Nat) (evs : List LEv) (p : Str) (hp : .password p ∈ ((Login.start services c).run c evs).sent) :
    dget cfg "password".toList = some p ∧ ((Login.start services c).run c evs).host = dget cfg "fingerprint".toList := by
  have hcr := ((C92_credentials services c evs).2.2.1 p hp).1
  obtain ⟨f, hf, hh, _⟩ := C92_listed services c evs _ hp rfl
  simp only [force10Init, need, bind, Except.bind, pure, Except.pure] at hc
  split at hc
  · cases hc
  split at hc
  · cases hc
  rename_i fp hfp
  split at hc
  · cases hc
  split at hc
  · rename_i pw hpw
    simp only [Except.ok.injEq, Prod.mk.injEq] at hc
    obtain ⟨rfl, rfl⟩ := hc
    simp only [Option.some.injEq] at hcr
    simp only [List.mem_singleton] at hf
    split at hfp
    · rename_i w hw
      simp only [Except.ok.injEq] at hfp
      exact ⟨hcr ▸ hpw, by rw [hh, hf, ← hfp]; exact hw.symm⟩
    · cases hfp
  · repeat' (split at hc; · cases hc)
    cases hc

/-- What is configured for a Force10 with a password. -/
def exForce10 : Creator :=
  { host := "sw".toList, port := .num 22, fingerprints := ["aa:bb".toList], username := "opennsa".toList, password := some "pw".toList }

example : force10Init [(kHost, "sw".toList), (kFingerprint, "aa:bb".toList), (kUser, "opennsa".toList), (kPassword, "pw".toList)]
      = .ok (exForce10, "pw".toList) ∧
    .password "pw".toList ∈ ((Login.start noServices exForce10).run exForce10
      [.dialed true, .hostKey "aa:bb".toList, .newKeys, .ask .other, .ask .publickey, .ask .password]).sent := by decide +kernel

/-! ### Calls that make their own connection -/

/-- What happens on the connection of a call. -/
theorem Call.login_run (services : Str → Option Nat) (c : Creator) (evs : List CEv) :
    ∃ les, ((Call.start services c).run c evs).login = (Login.start services c).run c les := by
  have key : ∀ (evs : List CEv) (k : Call), ∃ les, (k.run c evs).login = k.login.run c les := by
    intro evs
    induction evs with
    | nil => intro k; exact ⟨[], rfl⟩
    | cons e t ih =>
      intro k
      obtain ⟨les, h⟩ := ih (k.step c e)
      have h1 : ∃ l1, (k.step c e).login = k.login.run c l1 := by
        cases e with
        | net e =>
          have : (k.step c (.net e)).login = k.login ∨ (k.step c (.net e)).login = k.login.step c e := by
            cases e <;> simp only [Call.step] <;> (try split) <;> (try split) <;> simp
          rcases this with h | h
          · exact ⟨[], h⟩
          · exact ⟨[e], h⟩
        | opened => exact ⟨[], by simp only [Call.step]; split <;> rfl⟩
        | unopened => exact ⟨[], rfl⟩
        | text t =>
          simp only [Call.step]
          split
          · exact ⟨[.write t], rfl⟩
          · exact ⟨[], rfl⟩
        | ended ok =>
          simp only [Call.step]
          split
          · exact ⟨[.close], rfl⟩
          · exact ⟨[], rfl⟩
      obtain ⟨l1, h1⟩ := h1
      exact ⟨l1 ++ les, by show (Call.run c (k.step c e) t).login = _; rw [h, h1, Login.run, Login.run, Login.run, List.foldl_append]⟩
  obtain ⟨les, h⟩ := key evs (Call.start services c)
  exact ⟨les, h⟩

/-- What one event does to what was told, to acceptance and to the end. -/
theorem step_told (c : Creator) (l : Login) (e : LEv) :
    l.told <+: (l.step c e).told ∧ (l.accepted = true → (l.step c e).accepted = true) ∧
    (l.phase = .over → (l.step c e).phase = .over) := by
  cases e <;> simp only [Login.step] <;> (try split) <;> (try split) <;> simp_all

/-- Where a call is and how its connection is. -/
structure CallInv (c : Creator) (k : Call) : Prop where
  inv : Inv c k.login
  login : k.place = .login → k.login.told = []
  opening : k.place = .opening ∨ k.place = .running → k.login.accepted = true
  over : k.place = .done → k.login.accepted = true
  done : k.place = .done ∨ (k.place = .failed ∧ k.login.accepted = true) → k.login.phase = .over
  failed : k.place = .failed → k.login.told ≠ []

theorem CallInv.run (services : Str → Option Nat) (c : Creator) (evs : List CEv) : CallInv c ((Call.start services c).run c evs) := by
  have h0 : CallInv c (Call.start services c) := by
    have ha := (start_host services c).2.1
    refine ⟨Inv.start services c, ?_, ?_, ?_, ?_, ?_⟩ <;> simp only [Call.start] <;> intro h
    · split at h
      · assumption
      · cases h
    · split at h <;> simp at h
    · split at h <;> simp at h
    · split at h <;> simp [ha] at h
    · intro hn; simp [hn] at h
  have key : ∀ (evs : List CEv) (k : Call), CallInv c k → CallInv c (k.run c evs) := by
    intro evs
    induction evs with
    | nil => intro k h; exact h
    | cons e t ih =>
      intro k h
      refine ih _ ?_
      have net : ∀ e, (∀ t, e ≠ .write t) → CallInv c
          (let l := k.login.step c e
           if k.place = .login then
             match l.told with
             | [] => { k with login := l }
             | .connection :: _ => { login := l, place := .opening }
             | _ :: _ => { login := l, place := .failed }
           else { k with login := l }) := by
        intro e _
        have hi := h.inv.step e
        have hpre := (step_told c k.login e)
        dsimp only
        split
        · rename_i hpl
          split
          · rename_i ht
            exact ⟨hi, fun _ => ht, by simp [hpl], by simp [hpl], by simp [hpl], by simp [hpl]⟩
          · rename_i ts ht
            have : (k.login.step c e).accepted = true := hi.conn.mp (by rw [ht]; exact List.mem_cons_self)
            exact ⟨hi, by simp, fun _ => this, by simp, by simp, by simp⟩
          · rename_i x ts hx ht
            have hna : (k.login.step c e).accepted ≠ true := by
              intro ha
              have := hi.conn.mpr ha
              have hc := hi.count
              rw [ht] at this hc
              cases ts with
              | nil => simp at this; exact hx this.symm
              | cons => simp at hc
            exact ⟨hi, by simp, by simp, by simp, by simp [hna], by simp [ht]⟩
        · rename_i hpl
          refine ⟨hi, fun hp => absurd hp hpl, fun hp => hpre.2.1 (h.opening hp), fun hp => hpre.2.1 (h.over hp), fun hp => hpre.2.2 ?_, fun hp => ?_⟩
          · apply h.done
            rcases hp with hp | ⟨hp, ha⟩
            · exact .inl hp
            · refine .inr ⟨hp, ?_⟩
              obtain ⟨a, b⟩ := hpre.1
              have hx := h.failed hp
              have : Told.connection ∈ k.login.told := by
                have hm := hi.conn.mpr ha
                have hc := hi.count
                rw [← b] at hm hc
                cases hk : k.login.told with
                | nil => exact absurd hk hx
                | cons y ys =>
                  rw [hk] at hm hc
                  cases ys with
                  | nil => cases a with
                           | nil => simpa using hm
                           | cons => simp at hc
                  | cons => simp at hc
              exact h.inv.conn.mp this
          · obtain ⟨a, b⟩ := hpre.1
            intro hn
            rw [hn] at b
            exact h.failed hp (List.append_eq_nil_iff.mp b).1
      cases e with
      | net e =>
        cases e with
        | write t => exact h
        | close => exact h
        | _ => exact net _ (by simp)
      | opened =>
        simp only [Call.step]
        split
        · rename_i hp
          exact ⟨h.inv, by simp, fun _ => h.opening (.inl hp.1), by simp, by simp, by simp⟩
        · exact h
      | unopened => exact h
      | text t =>
        simp only [Call.step]
        split
        · rename_i hp
          have hpre := (step_told c k.login (.write t))
          exact ⟨h.inv.step (.write t), by simp [hp], fun _ => hpre.2.1 (h.opening (.inr hp)), by simp [hp], by simp [hp], by simp [hp]⟩
        · exact h
      | ended ok =>
        simp only [Call.step]
        split
        · rename_i hp
          have hpre := (step_told c k.login .close)
          have ha := h.opening (.inr hp)
          have hov : (k.login.step c .close).phase = .over := by
            rcases h.inv.acc ha with h | h <;> simp [Login.step, h]
          have hne : (k.login.step c .close).told ≠ [] := by
            intro hn
            have := (h.inv.step .close).conn.mpr (hpre.2.1 ha)
            rw [hn] at this
            cases this
          exact ⟨h.inv.step .close, by cases ok <;> simp, by cases ok <;> simp, fun _ => hpre.2.1 ha, fun _ => hov, fun _ => hne⟩
        · exact h
  exact key evs _ h0

/-- C92: Brocade, Force10 and Pica8 make a connection for every list of commands. Whether the commands succeeded or not, when the call
is over the connection is closed; a call that is over has done its commands on a connection to a host with a configured key, or failed. -/
theorem C92_closed (services : Str → Option Nat) (c : Creator) (evs : List CEv) :
    let k := (Call.start services c).run c evs
    (k.place = .done → k.login.tcp = false ∧ ∃ fp ∈ c.fingerprints, k.login.host = some fp) ∧
    (k.place = .failed → k.login.tcp = false ∨ k.login.told = [.noCredentials]) ∧
    (∀ t, .text t ∈ k.login.sent → ∃ fp ∈ c.fingerprints, k.login.host = some fp) := by
  have h := CallInv.run services c evs
  refine ⟨fun hp => ?_, fun hp => ?_, fun t ht => (h.inv.sent _ ht).1⟩
  · have hov := h.done (.inl hp)
    have ha := h.over hp
    refine ⟨?_, h.inv.listed (.inr (.inr (.inr ha)))⟩
    cases ht : ((Call.start services c).run c evs).login.tcp with
    | false => rfl
    | true =>
      have h1 := h.inv.conn.mpr ha
      rw [(h.inv.tcp ht).2 hov] at h1
      simp at h1
  · cases ht : ((Call.start services c).run c evs).login.tcp with
    | false => exact .inl rfl
    | true =>
      right
      refine (h.inv.tcp ht).2 ?_
      cases ha : ((Call.start services c).run c evs).login.accepted with
      | true => exact h.done (.inr ⟨hp, ha⟩)
      | false =>
        refine Classical.byContradiction fun hno => ?_
        refine h.failed hp (h.inv.told hno fun hup => ?_)
        rw [h.inv.up hup] at ha
        cases ha

/-- A call that does two commands. -/
def exCall : List CEv :=
  [.net (.dialed true), .net (.hostKey "aa:bb".toList), .net .newKeys, .net (.ask .publickey), .net .granted, .opened, .text "a".toList,
    .text "b".toList, .ended true]

example : ((Call.start noServices exCreator).run exCreator exCall).place = .done := by decide +kernel

/-- C92 is violated by Brocade, Force10 and Pica8: a device that accepts the user but opens no channel (a switch with a limit on the
number of sessions) keeps the call waiting for ever with its connection open, since `openFailed` of the channel is not overridden
(ssh.py:98-128) and the `finally` that closes the connection is never reached. -/
theorem C92_unopened_fails (c : Creator) (evs : List CEv) (ho : .opened ∉ evs) (k : Call)
    (hk : k.place = .opening) (hu : k.login.phase = .up) :
    (k.run c (.unopened :: evs)).place = .opening ∧
    (.net .lost ∉ evs → (k.run c (.unopened :: evs)).login = k.login) := by
  show (k.run c evs).place = .opening ∧ (.net .lost ∉ evs → (k.run c evs).login = k.login)
  constructor
  · clear hu
    induction evs generalizing k with
    | nil => exact hk
    | cons e t ih =>
      refine ih (fun h => ho (List.mem_cons_of_mem _ h)) (k.step c e) ?_
      cases e with
      | opened => exact absurd List.mem_cons_self ho
      | net e => cases e <;> simp [Call.step, hk]
      | _ => simp [Call.step, hk]
  · intro hl
    induction evs generalizing k with
    | nil => rfl
    | cons e t ih =>
      have hs : k.step c e = k := by
        cases e with
        | opened => exact absurd List.mem_cons_self ho
        | net e =>
          cases e with
          | lost => exact absurd List.mem_cons_self hl
          | _ => cases k; simp_all [Call.step, Login.step]
        | _ => simp [Call.step, hk]
      show ((k.step c e).run c t).login = k.login
      rw [hs]
      exact ih (fun h => ho (List.mem_cons_of_mem _ h)) k hk hu (fun h => hl (List.mem_cons_of_mem _ h))

/-- A call that waits for its channel. -/
def exOpening : Call := (Call.start noServices exCreator).run exCreator
  [.net (.dialed true), .net (.hostKey "aa:bb".toList), .net .newKeys, .net (.ask .publickey), .net .granted]

example : let k := exOpening
    k.place = .opening ∧ k.login.phase = .up ∧ k.login.tcp = true := by decide +kernel

/-- C92 is violated if the configuration names no keys and no password (an empty value): the call fails, but the connection that was
made to the device stays open (ssh.py:167-175). -/
theorem C92_left_open_fails : ∃ (cfg : List (Str × Str)) (c : Creator) (evs : List CEv), withKeys cfg = .ok c ∧
    ((Call.start noServices c).run c evs).place = .failed ∧ ((Call.start noServices c).run c evs).login.tcp = true := by
  refine ⟨[(kHost, "sw".toList), (kFingerprint, "aa:bb".toList), (kUser, "opennsa".toList), (kPublicKey, []), (kPrivateKey, [])],
    { exCreator with publicKey := some [], privateKey := some [] },
    [.net (.dialed true), .net (.hostKey "aa:bb".toList), .net .newKeys], ?_, ?_, ?_⟩ <;> decide +kernel

end OpenNSA.SshLogin
