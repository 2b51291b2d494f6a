import Verif.Cli.Props
/-
C76, continued: options and defaults together, security attributes, TLS.
-/
namespace OpenNSA.Cli
open OpenNSA Py

/-- Given on the command line: not left out, not empty. -/
def Given (o : Option Str) (t : Str) : Prop := o = some t ∧ t ≠ []

/-- The value of an option: the one given on the command line, or else the default. -/
def Chosen (given default result : Option Str) : Prop :=
  (∃ t, Given given t ∧ result = some t) ∨ ((∀ t, ¬ Given given t) ∧ result = default)

theorem orText_chosen (a b : Option Str) : Chosen a b (orText a b) := by
  cases a with
  | none => exact .inr ⟨by simp [Given], rfl⟩
  | some t =>
    cases t with
    | nil => exact .inr ⟨by simp [Given], rfl⟩
    | cons c cs => exact .inl ⟨c :: cs, ⟨rfl, by simp⟩, rfl⟩

theorem truthy_iff (o : Option Str) : truthy o = true ↔ ∃ t, Given o t := by
  cases o with
  | none => simp [truthy, Given]
  | some t => cases t <;> simp [truthy, Given]

/-- C76: what a command is called with. Options on the command line take precedence over defaults; a shorthand for the provider
stands for its id and URL. -/
theorem C76_precedence (hostname : Str → Option Str) (c : Command) (o : Opts) (d : Defaults) (p : Plan)
    (h : plan hostname c o d = .ok p) :
    ((∃ m s, d.nsa = some m ∧ o.provider = some s ∧ dget m s = some (p.provider, p.service)) ∨
      (¬ (∃ m s x, d.nsa = some m ∧ o.provider = some s ∧ dget m s = some x) ∧
        Chosen o.provider (d.text ['p', 'r', 'o', 'v', 'i', 'd', 'e', 'r']) (some p.provider) ∧ Chosen o.service (d.text ['s', 'e', 'r', 'v', 'i', 'c', 'e']) (some p.service))) ∧
    Chosen o.authz (d.text ['a', 'u', 't', 'h', 'z', 'h', 'e', 'a', 'd', 'e', 'r']) p.authz ∧ Chosen o.cid (d.text ['c', 'o', 'n', 'n', 'e', 'c', 't', 'i', 'o', 'n', '-', 'i', 'd']) p.cid ∧ Chosen o.gid (d.text ['g', 'l', 'o', 'b', 'a', 'l', '-', 'i', 'd']) p.gid ∧
    Chosen o.source (d.text ['s', 'o', 'u', 'r', 'c', 'e']) p.source ∧ Chosen o.dest (d.text ['d', 'e', 's', 't']) p.dest ∧
    (∀ t, o.start = some t → p.start = some t) ∧ (o.start = none → p.start = d.time ['s', 't', 'a', 'r', 't', 't', 'i', 'm', 'e']) ∧
    (∀ t, o.end_ = some t → p.end_ = some t) ∧ (o.end_ = none → p.end_ = d.time ['e', 'n', 'd', 't', 'i', 'm', 'e']) ∧
    (∀ t, Given o.bandwidth t → p.bandwidth = some (.inl t)) ∧
    ((∀ t, ¬ Given o.bandwidth t) → p.bandwidth = (d.int ['b', 'a', 'n', 'd', 'w', 'i', 'd', 't', 'h']).map .inr) ∧
    (p.tls = true ↔ o.tls = true ∨ d.flag ['t', 'l', 's'] = some true) := by
  unfold plan at h
  cases ha : attributes o.attrs with
  | error e => simp [ha] at h
  | ok attrs =>
    simp only [ha] at h
    cases hp : pickProvider o d with
    | mk provider? service? =>
      simp only [hp] at h
      cases service? with
      | none => simp at h
      | some service =>
        cases provider? with
        | none => simp at h
        | some provider =>
          simp only at h
          split at h
          · simp at h
          · rename_i host hhost
            split at h
            · simp at h
            · rename_i ctx hctx
              split at h
              · simp at h
              · simp only [Except.ok.injEq] at h
                subst h
                refine ⟨?_, orText_chosen _ _, orText_chosen _ _, orText_chosen _ _, orText_chosen _ _, orText_chosen _ _, ?_, ?_, ?_, ?_, ?_, ?_, ?_⟩
                · have hno : orText o.provider (d.text kProvider) = some provider → orText o.service (d.text kService) = some service →
                      Chosen o.provider (d.text kProvider) (some provider) ∧ Chosen o.service (d.text kService) (some service) := by
                    intro e1 e2
                    exact ⟨e1 ▸ orText_chosen _ _, e2 ▸ orText_chosen _ _⟩
                  unfold pickProvider at hp
                  split at hp
                  · rename_i m s hm hs
                    split at hp
                    · rename_i n u hd
                      simp at hp
                      exact .inl ⟨m, s, hm, hs, by rw [hd, hp.1, hp.2]⟩
                    · rename_i hd
                      simp at hp
                      refine .inr ⟨?_, hno hp.1 hp.2⟩
                      rintro ⟨m', s', x, h1, h2, h3⟩
                      rw [hm] at h1; rw [hs] at h2
                      cases h1; cases h2
                      rw [hd] at h3; cases h3
                  · rename_i hn
                    simp at hp
                    refine .inr ⟨?_, hno hp.1 hp.2⟩
                    rintro ⟨m', s', x, h1, h2, h3⟩
                    exact hn m' s' h1 h2
                · intro t ht; simp [ht]
                · intro ht; simp [ht, kStart]
                · intro t ht; simp [ht]
                · intro ht; simp [ht, kEnd]
                · rintro t ⟨h1, h2⟩
                  cases t with
                  | nil => exact absurd rfl h2
                  | cons c cs => simp [h1]
                · intro hn
                  cases hb : o.bandwidth with
                  | none => rfl
                  | some t =>
                    cases t with
                    | nil => rfl
                    | cons c cs => exact absurd ⟨hb, by simp⟩ (hn (c :: cs))
                · simp only [Bool.or_eq_true]
                  change _ ↔ _ ∨ d.flag kTls = some true
                  cases d.flag kTls with
                  | none => simp
                  | some b => simp

/-- C76: with TLS asked for, nothing goes unencrypted: there is a TLS context, or the command is refused. -/
theorem C76_tls (hostname : Str → Option Str) (c : Command) (o : Opts) (d : Defaults) (p : Plan)
    (h : plan hostname c o d = .ok p) (ht : o.tls = true ∨ d.flag ['t', 'l', 's'] = some true) : p.tls = true ∧ p.ctx ≠ none := by
  have htls := (C76_precedence hostname c o d p h).2.2.2.2.2.2.2.2.2.2.2.2.mpr ht
  refine ⟨htls, ?_⟩
  unfold plan at h
  cases ha : attributes o.attrs with
  | error e => simp [ha] at h
  | ok attrs =>
    simp only [ha] at h
    cases hp : pickProvider o d with
    | mk provider? service? =>
      simp only [hp] at h
      cases service? with
      | none => simp at h
      | some service =>
        cases provider? with
        | none => simp at h
        | some provider =>
          simp only at h
          split at h
          · simp at h
          · split at h
            · simp at h
            · rename_i ctx hctx
              split at h
              · simp at h
              · simp only [Except.ok.injEq] at h
                subst h
                simp only at htls ⊢
                rw [htls] at hctx
                unfold pickCtx at hctx
                simp only at hctx
                split at hctx
                · simp at hctx
                · split at hctx
                  · simp at hctx
                  · rename_i hc
                    simp at hctx
                    subst hctx
                    intro e
                    simp [e] at hc

/-- C76, in part: with no default given, certificates are verified unless the user asks not to. -/
theorem C76_verify_partial (o : Opts) (d : Defaults) (h : d.flag ['n', 'o', '-', 'v', 'e', 'r', 'i', 'f', 'y'] = none) : verifyCert o d = true ↔ o.noVerify = false := by
  unfold verifyCert
  cases o.noVerify <;> simp [h, kNoVerify]

/-- C76 fails: `no-verify=false` in the defaults file switches verification off: the listener then accepts callers whose certificate
is not valid; and `no-verify=true` leaves it on. `verify_cert` is set to the default of the option that says not to verify
(onsa:126). -/
theorem C76_verify_fails : ∀ (ck : Clock) (hostname : Str → Option Str),
    ∃ (o : Opts) (p q : Plan) (c c' : Ctx), o.noVerify = false ∧
      -- the file says: no-verify=false
      plan hostname .query o (readDefaults ck [kNoVerify ++ '=' :: ['f','a','l','s','e']]) = .ok p ∧
      p.ctx = some c ∧ listen p = .ok () ∧ c.accepts false = true ∧
      -- the file says: no-verify=true
      plan hostname .query o (readDefaults ck [kNoVerify ++ '=' :: ['t','r','u','e']]) = .ok q ∧
      q.ctx = some c' ∧ c'.accepts false = false := by
  intro ck hostname
  let o : Opts := { host := some ['h'], service := some ['u'], provider := some ['p'], tls := true,
                    certificate := some ['c'], key := some ['k'], certdir := some ['d'] }
  have e1 : readDefaults ck [kNoVerify ++ '=' :: ['f','a','l','s','e']] = { vals := [(kNoVerify, .flag false)] } := rfl
  have e2 : readDefaults ck [kNoVerify ++ '=' :: ['t','r','u','e']] = { vals := [(kNoVerify, .flag true)] } := rfl
  rw [e1, e2]
  exact ⟨o, _, _, .twoWay ['k'] ['c'] ['d'] false, .twoWay ['k'] ['c'] ['d'] true, rfl, rfl, rfl, rfl, rfl, rfl, rfl, rfl⟩

/-- C76 fails: TLS without a client certificate (certificate and key given as `.`, onsa:134) never works: the listener for replies
cannot be opened. -/
theorem C76_oneway_fails (hostname : Str → Option Str) (c : Command) (o : Opts) (d : Defaults) (p : Plan)
    (h : plan hostname c o d = .ok p) (ht : p.tls = true) (hc : o.certificate = dot) (hk : o.key = dot) : listen p = .error .attribute := by
  have key : ∃ dir v, p.ctx = some (.oneWay dir v) := by
    unfold plan at h
    cases ha : attributes o.attrs with
    | error e => simp [ha] at h
    | ok attrs =>
      simp only [ha] at h
      cases hp : pickProvider o d with
      | mk provider? service? =>
        simp only [hp] at h
        cases service? with
        | none => simp at h
        | some service =>
          cases provider? with
          | none => simp at h
          | some provider =>
            simp only at h
            split at h
            · simp at h
            · split at h
              · simp at h
              · rename_i ctx hctx
                split at h
                · simp at h
                · simp only [Except.ok.injEq] at h
                  subst h
                  simp only at ht ⊢
                  rw [ht] at hctx
                  unfold pickCtx at hctx
                  simp [hc, hk, dot, orText, truthy] at hctx
                  exact ⟨_, _, hctx.symm⟩
  obtain ⟨dir, v, e⟩ := key
  unfold listen
  rw [if_pos ht, e]

/-- A command with TLS and no client certificate that gets that far. -/
example : ∃ p, plan (fun _ => none) .query
      { host := some ['h'], service := some ['u'], provider := some ['p'], tls := true, certificate := dot, key := dot } {} = .ok p ∧
    p.tls = true := ⟨_, rfl, rfl⟩

/-- C76 fails: an end point with a label cannot be a default: a line with a second `=` is ignored (`split('=', 2)`, options.py:72, makes
three parts of it). -/
theorem C76_equals_fails : ∀ (ck : Clock) (d : Defaults) (k a b : Str), '=' ∉ k → readLine ck d (k ++ '=' :: (a ++ '=' :: b)) = d := by
  intro ck d k a b hk
  have two : ∀ s : Str, (∃ x y z, s = x ++ '=' :: (y ++ '=' :: z)) → ∀ p q, splitOn '=' s ≠ [p, q] := by
    rintro s ⟨x, y, z, rfl⟩ p q h
    obtain ⟨e, h1, h2⟩ := splitOn_two.mp h
    have c1 : (x ++ '=' :: (y ++ '=' :: z)).count '=' ≥ 2 := by simp [List.count_append]; omega
    rw [e] at c1
    simp [List.count_append, List.count_eq_zero_of_not_mem h1, List.count_eq_zero_of_not_mem h2] at c1
  unfold readLine
  simp only
  split
  · rfl
  · split
    · rename_i p q h
      refine absurd h (two _ ?_ p q)
      have hkeep : ∀ s : Str, ∀ n, s.count '=' ≥ n → (strip s).count '=' ≥ n := by
        intro s n hn
        have dw : ∀ l : Str, (l.dropWhile isSpace).count '=' = l.count '=' := by
          intro l
          induction l with
          | nil => rfl
          | cons c cs ih =>
            rw [List.dropWhile_cons]
            split
            · rename_i hs
              rw [ih, List.count_cons_of_ne]
              rintro rfl
              exact absurd hs (by decide)
            · rfl
        unfold strip
        rw [List.count_reverse, dw, List.count_reverse, dw]
        exact hn
      have c1 : (k ++ '=' :: (a ++ '=' :: b)).count '=' ≥ 2 := by simp [List.count_append]; omega
      have c2 := hkeep _ 2 c1
      have split1 : ∀ (s : Str) n, s.count '=' ≥ n + 1 → ∃ x y, s = x ++ '=' :: y ∧ y.count '=' ≥ n := by
        intro s n hn
        have hm : '=' ∈ s := List.count_pos_iff.mp (by omega)
        obtain ⟨x, y, e, hx, _⟩ := splitOn_cons_of_mem hm
        refine ⟨x, y, e, ?_⟩
        rw [e, List.count_append, List.count_cons_self, List.count_eq_zero_of_not_mem hx] at hn
        omega
      obtain ⟨x, y, e1, h1⟩ := split1 _ 1 c2
      obtain ⟨y1, z, e2, _⟩ := split1 y 0 h1
      exact ⟨x, y1, z, by rw [e1, e2]⟩
    · rfl

/-- The source of a reservation with a label is lost, without a label it is not. -/
example : ∀ ck : Clock, readDefaults ck [kSource ++ '=' :: "net:port#vlan=100".toList] = {} ∧
    readDefaults ck [kSource ++ '=' :: "net:port".toList] = { vals := [(kSource, .text "net:port".toList)] } := fun _ => ⟨rfl, rfl⟩

/-! ### Security attributes -/

/-- C76: the attributes given on the command line are those between commas, each cut at its first `=`. -/
theorem C76_attributes (t : Str) (l : List (Str × Str)) (hl : l ≠ []) :
    attributes (some t) = .ok l ↔
      (∀ x ∈ l, '=' ∉ x.1 ∧ ',' ∉ x.1 ∧ ',' ∉ x.2) ∧ t = joinWith ',' (l.map fun x => x.1 ++ '=' :: x.2) := by
  have hloop : ∀ (parts : List Str) (l : List (Str × Str)), attrLoop parts = .ok l ↔
      parts = l.map (fun x => x.1 ++ '=' :: x.2) ∧ ∀ x ∈ l, '=' ∉ x.1 := by
    intro parts
    induction parts with
    | nil =>
      intro l
      cases l with
      | nil => simp [attrLoop]
      | cons x xs => simp [attrLoop]
    | cons kv rest ih =>
      intro l
      unfold attrLoop
      cases hc : cutFirst '=' kv with
      | none =>
        have := cutFirst_eq_none.mp hc
        constructor
        · intro h; simp at h
        · rintro ⟨h1, _⟩
          cases l with
          | nil => simp at h1
          | cons x xs => simp at h1; rw [h1.1] at this; simp at this
      | some p =>
        obtain ⟨k, v⟩ := p
        obtain ⟨e1, e2⟩ := cutFirst_some hc
        simp only
        constructor
        · intro h
          cases hr : attrLoop rest with
          | error e => simp [hr, Except.map] at h
          | ok r =>
            simp [hr, Except.map] at h
            subst h
            obtain ⟨f1, f2⟩ := (ih r).mp hr
            refine ⟨by simp only [List.map_cons]; rw [← f1, e1], ?_⟩
            intro x hx
            rcases List.mem_cons.mp hx with rfl | hx
            · exact e2
            · exact f2 x hx
        · rintro ⟨h1, h2⟩
          cases l with
          | nil => simp at h1
          | cons x xs =>
            simp only [List.map_cons, List.cons.injEq] at h1
            have hx := h2 x (by simp)
            have : cutFirst '=' kv = some (x.1, x.2) := by rw [h1.1]; exact cutFirst_append _ hx
            rw [hc] at this
            simp at this
            have hr := (ih xs).mpr ⟨h1.2, fun y hy => h2 y (by simp [hy])⟩
            simp [hr, Except.map, this.1, this.2]
  have hat : attributes (some t) = .ok l ↔ attrLoop (splitOn ',' t) = .ok l := by
    cases t with
    | nil =>
      constructor
      · intro h; simp [attributes] at h; exact (hl (by simpa using h.symm)).elim
      · intro h; simp [splitOn, attrLoop, cutFirst] at h
    | cons c cs => rfl
  rw [hat, hloop]
  constructor
  · rintro ⟨h1, h2⟩
    have hno : ∀ p ∈ splitOn ',' t, ',' ∉ p := by
      intro p hp
      have : ∀ (n : Nat) (s : Str), s.length ≤ n → ∀ p ∈ splitOn ',' s, ',' ∉ p := by
        intro n
        induction n with
        | zero => intro s hs p hp; have : s = [] := List.length_eq_zero_iff.mp (by omega); subst this; simp [splitOn] at hp; simp [hp]
        | succ n ih =>
          intro s hs p hp
          by_cases hc : ',' ∈ s
          · obtain ⟨x, y, e, hx, e2⟩ := splitOn_cons_of_mem hc
            rw [e2] at hp
            rcases List.mem_cons.mp hp with rfl | hp
            · exact hx
            · exact ih y (by rw [e] at hs; simp at hs; omega) p hp
          · rw [splitOn_no_sep hc] at hp; simp at hp; rw [hp]; exact hc
      exact this t.length t (by omega) p hp
    have hjoin : ∀ (n : Nat) (s : Str), s.length ≤ n → s = joinWith ',' (splitOn ',' s) := by
      intro n
      induction n with
      | zero => intro s hs; have : s = [] := List.length_eq_zero_iff.mp (by omega); subst this; rfl
      | succ n ih =>
        intro s hs
        by_cases hc : ',' ∈ s
        · obtain ⟨x, y, e, hx, e2⟩ := splitOn_cons_of_mem hc
          rw [e2]
          have := ih y (by rw [e] at hs; simp at hs; omega)
          cases hsp : splitOn ',' y with
          | nil => exact absurd hsp (splitOn_ne_nil _ _)
          | cons a as =>
            rw [hsp] at this
            simp only [joinWith]
            rw [← this]
            simpa using e
        · rw [splitOn_no_sep hc]; rfl
    refine ⟨fun x hx => ?_, by rw [← h1]; exact hjoin t.length t (by omega)⟩
    have := hno (x.1 ++ '=' :: x.2) (by rw [h1]; exact List.mem_map.mpr ⟨x, hx, rfl⟩)
    simp at this
    exact ⟨h2 x hx, this.1, this.2⟩
  · rintro ⟨h1, h2⟩
    refine ⟨?_, fun x hx => (h1 x hx).1⟩
    rw [h2]
    refine splitOn_joinWith (by simpa using hl) ?_
    intro p hp
    obtain ⟨x, hx, rfl⟩ := List.mem_map.mp hp
    simp [(h1 x hx).2]

example : attributes (some "user=joe,token=a=b".toList) = .ok [("user".toList, "joe".toList), ("token".toList, "a=b".toList)] := by
  decide +kernel

/-- A file with a comment, a default that is overridden and a shorthand. -/
example : ∀ ck : Clock, readDefaults ck ["# comment".toList, " port=1000 ".toList, "nsa=me,id,url".toList, "port=2000".toList] =
    { vals := [(kPort, .int 2000)], nsa := some [("me".toList, ("id".toList, "url".toList))] } := fun _ => by rfl

/-- A command for which everything is found in the defaults. -/
example : ∃ p, plan (fun _ => none) .query { provider := some ['m'] }
      { vals := [(kHost, .text ['h'])], nsa := some [(['m'], (['i'], ['u']))] } = .ok p ∧ p.provider = ['i'] ∧ p.service = ['u'] :=
  ⟨_, rfl, rfl, rfl⟩

end OpenNSA.Cli
