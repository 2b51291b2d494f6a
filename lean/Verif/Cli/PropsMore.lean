import Verif.Cli.PropsRun
import Verif.Cli.PropsPlan
/-
C76, C77, continued: where replies are expected; what is reserved.
-/
namespace OpenNSA.Cli
open OpenNSA Py

/-- A port given as a number other than 0. -/
def GivenPort (o : Option Int) (n : Int) : Prop := o = some n ∧ n ≠ 0

/-- C76: where replies are expected: at the host and port of the command line, else of the defaults file, else at the own name as the service sees it and at port 7443 with TLS, 7080 without;
who asks; and whether to wait. -/
theorem C76_listener (hostname : Str → Option Str) (c : Command) (o : Opts) (d : Defaults) (p : Plan) (h : plan hostname c o d = .ok p) :
    (∀ n, GivenPort o.port n → p.port = n) ∧
    ((∀ n, ¬ GivenPort o.port n) → (∀ n, GivenPort (d.int ['p', 'o', 'r', 't']) n → p.port = n) ∧ ((∀ n, ¬ GivenPort (d.int ['p', 'o', 'r', 't']) n) → p.port = if p.tls then 7443 else 7080)) ∧
    (∀ t, Given o.host t → p.host = t) ∧
    ((∀ t, ¬ Given o.host t) → (∀ t, Given (d.text ['h', 'o', 's', 't']) t → p.host = t) ∧ ((∀ t, ¬ Given (d.text ['h', 'o', 's', 't']) t) → hostname p.service = some p.host)) ∧
    (∀ t, Given o.requester t → p.requester = t) ∧
    ((∀ t, ¬ Given o.requester t) → (∀ t, Given (d.text ['r', 'e', 'q', 'u', 'e', 's', 't', 'e', 'r']) t → p.requester = t) ∧ ((∀ t, ¬ Given (d.text ['r', 'e', 'q', 'u', 'e', 's', 't', 'e', 'r']) t) → p.requester = "OpenNSA-CLI".toList)) ∧
    p.wait = o.wait ∧ (∀ t, Given o.ero t → p.ero = some t) ∧ ((∀ t, ¬ Given o.ero t) → p.ero = none) := by
  have hor : ∀ (a : Option Str) (b : Option Str), (∀ t, Given a t → orText a b = some t) ∧ ((∀ t, ¬ Given a t) → orText a b = b) := by
    intro a b
    cases a with
    | none => exact ⟨fun t ht => (by cases ht.1), fun _ => rfl⟩
    | some t =>
      cases t with
      | nil => exact ⟨fun t ht => (by cases ht.1; exact absurd rfl ht.2), fun _ => rfl⟩
      | cons x xs => exact ⟨fun t ht => (by cases ht.1; rfl), fun hn => absurd ⟨rfl, by simp⟩ (hn (x :: xs))⟩
  have hint : ∀ a b : Option Int, (∀ n, GivenPort a n → orInt a b = some n) ∧ ((∀ n, ¬ GivenPort a n) → orInt a b = b) := by
    intro a b
    cases a with
    | none => exact ⟨fun t ht => (by cases ht.1), fun _ => rfl⟩
    | some m =>
      by_cases hm : m = 0
      · exact ⟨fun t ht => (by cases ht.1; exact absurd hm ht.2), fun _ => by simp [orInt, hm]⟩
      · exact ⟨fun t ht => (by cases ht.1; simp [orInt, hm]), fun hn => absurd ⟨rfl, hm⟩ (hn m)⟩
  have hhost : ∀ (x : Option Str) (r : Option Str) (host : Str), (match x with | some (h :: hs) => some (h :: hs) | _ => r) = some host →
      (∀ t, Given x t → host = t) ∧ ((∀ t, ¬ Given x t) → r = some host) := by
    intro x r host hx
    cases x with
    | none => exact ⟨fun t ht => (by cases ht.1), fun _ => hx⟩
    | some t =>
      cases t with
      | nil => exact ⟨fun t ht => (by cases ht.1; exact absurd rfl ht.2), fun _ => hx⟩
      | cons x xs => exact ⟨fun t ht => (by cases ht.1; exact (Option.some.inj hx).symm), fun hn => absurd ⟨rfl, by simp⟩ (hn (x :: xs))⟩
  unfold plan at h
  cases ha : attributes o.attrs with
  | error e => simp [ha] at h
  | ok attrs =>
    simp only [ha] at h
    cases hp : pickProvider o d with
    | mk provider? service? =>
      simp only [hp] at h
      cases service? with
      | none => simp at h
      | some service =>
        cases provider? with
        | none => simp at h
        | some provider =>
          simp only at h
          split at h
          · simp at h
          · rename_i host hh
            split at h
            · simp at h
            · rename_i ctx hctx
              split at h
              · simp at h
              · simp only [Except.ok.injEq] at h
                subst h
                have hh := hhost _ _ _ hh
                refine ⟨?_, ?_, ?_, ?_, ?_, ?_, rfl, ?_, ?_⟩
                · intro n hn
                  simp only
                  have h1 := (hint o.port (d.int kPort)).1 n hn
                  have h2 := (hint (some n) (some (if (o.tls || (d.flag kTls).getD false) then (7443 : Int) else 7080))).1 n ⟨rfl, hn.2⟩
                  rw [h1, h2]
                  rfl
                · intro hn
                  simp only
                  rw [(hint o.port (d.int kPort)).2 hn]
                  refine ⟨?_, ?_⟩
                  · intro n hd
                    rw [(hint (d.int kPort) _).1 n hd]
                    rfl
                  · intro hd
                    rw [(hint (d.int kPort) _).2 hd]
                    rfl
                · intro t ht
                  exact hh.1 t ⟨(hor o.host (d.text kHost)).1 t ht, ht.2⟩
                · intro hn
                  have e := (hor o.host (d.text kHost)).2 hn
                  rw [e] at hh
                  exact hh
                · intro t ht
                  simp only
                  have h1 := (hor o.requester (d.text kRequester)).1 t ht
                  have h2 := (hor (some t) (some ['O','p','e','n','N','S','A','-','C','L','I'])).1 t ⟨rfl, ht.2⟩
                  rw [h1, h2]
                  rfl
                · intro hn
                  simp only
                  rw [(hor o.requester (d.text kRequester)).2 hn]
                  refine ⟨?_, ?_⟩
                  · intro n hd
                    rw [(hor (d.text kRequester) _).1 n hd]
                    rfl
                  · intro hd
                    rw [(hor (d.text kRequester) _).2 hd]
                    rfl
                · exact fun t ht => (hor o.ero none).1 t ht
                · exact fun hn => (hor o.ero none).2 hn

/-- The hypothesis is met: a port of 0 counts as not given. -/
example : ∃ p, plan (fun _ => none) .query { host := some ['h'], service := some ['u'], provider := some ['p'], port := some 0 } {} = .ok p ∧ p.port = 7080 :=
  ⟨_, rfl, rfl⟩

/-- C77: what is reserved: the ends and times that were given, and the points of the route, which are separated by commas, in their order. -/
theorem C77_reserved (p : Plan) (crt : Criteria) (h : criteria p = .ok crt) :
    cliCreateSTP (p.source.getD []) = .ok crt.src ∧ cliCreateSTP (p.dest.getD []) = .ok crt.dst ∧ crt.capacity = p.bandwidth ∧ crt.start = p.start ∧ crt.end_ = p.end_ ∧
    (p.ero = none → crt.ero = none) ∧
    ∀ points : List Str, points ≠ [] → (∀ t ∈ points, ',' ∉ t) → p.ero = some (joinWith ',' points) →
      ∃ stps, crt.ero = some stps ∧ stps.length = points.length ∧ ∀ (i : Nat) t, points[i]? = some t → ∃ s, stps[i]? = some s ∧ cliCreateSTP (strip t) = .ok s := by
  unfold criteria at h
  split at h
  · cases h
  · rename_i src hs
    split at h
    · cases h
    · rename_i dst hd
      split at h
      · cases h
      · rename_i ero he
        cases h
        refine ⟨hs, hd, rfl, rfl, rfl, ?_, ?_⟩
        · intro hn
          rw [hn] at he
          cases he
          rfl
        · intro points hne hc hp
          rw [hp, createSTPList, splitOn_joinWith hne hc] at he
          have key : ∀ (points : List Str) (stps : List STP), stpList points = .ok stps → stps.length = points.length ∧
              ∀ (i : Nat) t, points[i]? = some t → ∃ s, stps[i]? = some s ∧ cliCreateSTP (strip t) = .ok s := by
            intro points
            induction points with
            | nil =>
              intro stps hst
              cases hst
              exact ⟨rfl, by simp⟩
            | cons t ts ih =>
              intro stps hst
              unfold stpList at hst
              split at hst
              · cases hst
              · rename_i s hs
                cases hr : stpList ts with
                | error e => rw [hr] at hst; cases hst
                | ok rest =>
                  rw [hr] at hst
                  cases hst
                  obtain ⟨hl, hi⟩ := ih rest hr
                  refine ⟨by simp [hl], ?_⟩
                  intro i u hu
                  cases i with
                  | zero =>
                    simp only [List.getElem?_cons_zero, Option.some.injEq] at hu ⊢
                    subst hu
                    exact ⟨s, rfl, hs⟩
                  | succ i =>
                    simp only [List.getElem?_cons_succ] at hu ⊢
                    exact hi i u hu
          cases hst : stpList points with
          | error e => rw [hst] at he; cases he
          | ok stps =>
            rw [hst] at he
            cases he
            exact ⟨stps, rfl, key points stps hst⟩

/-- The hypothesis is met, with a route of two points. -/
example : (match criteria { Ex.p with ero := some "net:c#vlan=5, net:d".toList } with | .ok crt => crt.ero.map List.length | .error _ => none) = some 2 := by decide +kernel

/-- **C77 is violated for routes.** A point with several vlans can be the source of a reservation, but not a point of its route: the route is cut at the comma within the label. -/
theorem C77_route_fails : ∃ (t : Str) (crt : Criteria) (e : StpErr), criteria { Ex.p with source := some t } = .ok crt ∧ criteria { Ex.p with ero := some t } = .error e := by
  have h1 : (match criteria { Ex.p with source := some "net:a#vlan=5,7".toList } with | .ok _ => true | .error _ => false) = true := by decide +kernel
  have h2 : (match criteria { Ex.p with ero := some "net:a#vlan=5,7".toList } with | .ok _ => true | .error _ => false) = false := by decide +kernel
  cases e1 : criteria { Ex.p with source := some "net:a#vlan=5,7".toList } with
  | error e => rw [e1] at h1; cases h1
  | ok crt =>
    cases e2 : criteria { Ex.p with ero := some "net:a#vlan=5,7".toList } with
    | ok c => rw [e2] at h2; cases h2
    | error e => exact ⟨_, crt, e, e1, e2⟩

/-- C76: what commands cannot do without. A reservation is not requested without both ends and a bandwidth; provision, release and terminate not without a connection id. -/
theorem C76_required (hostname : Str → Option Str) (c : Command) (o : Opts) (d : Defaults) (p : Plan) (h : plan hostname c o d = .ok p) :
    (c = .reserve ∨ c = .reserveonly ∨ c = .reserveprovision ∨ c = .rprt → p.source ≠ none ∧ p.dest ≠ none ∧ p.bandwidth ≠ none) ∧
    (c = .provision ∨ c = .release ∨ c = .terminate → p.cid ≠ none) := by
  unfold plan at h
  cases ha : attributes o.attrs with
  | error e => simp [ha] at h
  | ok attrs =>
    simp only [ha] at h
    cases hp : pickProvider o d with
    | mk provider? service? =>
      simp only [hp] at h
      cases service? with
      | none => simp at h
      | some service =>
        cases provider? with
        | none => simp at h
        | some provider =>
          simp only at h
          split at h
          · simp at h
          · split at h
            · simp at h
            · split at h
              · simp at h
              · rename_i hc
                simp only [Except.ok.injEq] at h
                subst h
                unfold checkOpts at hc
                refine ⟨fun hr => ?_, fun hr => ?_⟩
                · have hr' : c.reserves = true := by rcases hr with hr | hr | hr | hr <;> subst hr <;> rfl
                  rw [if_pos hr'] at hc
                  split at hc
                  · cases hc
                  · rename_i h1
                    split at hc
                    · cases hc
                    · rename_i h2
                      split at hc
                      · cases hc
                      · rename_i h3
                        refine ⟨fun e => h1 (by simp only at e; rw [e]; rfl), fun e => h2 (by simp only at e; rw [e]; rfl), ?_⟩
                        intro e
                        simp only at e
                        split at e
                        · cases e
                        · rename_i hb
                          refine h3 ⟨?_, by cases hd : d.int kBandwidth with | none => rfl | some n => rw [hd] at e; cases e⟩
                          rw [truthy_iff]
                          rintro ⟨t, ht, hne⟩
                          cases t with
                          | nil => exact hne rfl
                          | cons x xs => exact hb x xs ht
                · have hr' : c.reserves = false ∧ c.needsId = true := by rcases hr with hr | hr | hr <;> subst hr <;> exact ⟨rfl, rfl⟩
                  simp only [hr'.1, hr'.2, Bool.true_and] at hc
                  intro e
                  simp only at e
                  rw [e] at hc
                  cases hc

/-- The hypotheses are met. -/
example : ∃ p, plan (fun _ => none) .reserve { host := some ['h'], service := some ['u'], provider := some ['p'], source := some ['s'], dest := some ['d'], bandwidth := some ['9'] } {} = .ok p :=
  ⟨_, rfl⟩
example : ∃ p, plan (fun _ => none) .terminate { host := some ['h'], service := some ['u'], provider := some ['p'], cid := some ['c'] } {} = .ok p :=
  ⟨_, rfl⟩

end OpenNSA.Cli
