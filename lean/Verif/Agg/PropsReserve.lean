import Verif.Agg.ChainLemmas
import Verif.Agg.Examples
/- C32, C33, C34: reservation requests at the aggregator. -/
namespace OpenNSA.Agg
open OpenNSA Py Coro

/-! ### C34: admission -/

theorem reserve_refused {cfg : Cfg} {h : Hdr} {c : Crit} {e : Err} (ha : admit cfg h c = .error e) :
    (Msg.reserve h none c).prog cfg = Coro.throw e := by
  show (ofExcept (admit cfg h c)).bind _ = _
  rw [ha]
  rfl

theorem throw_start (cfg : Cfg) {m : Msg} {e : Err} (hm : m.prog cfg = Coro.throw e) (s : Sys) :
    Conc.step machine (Msg.prog cfg) s (.start m) = { s with next := s.next + 1, done := s.done ++ [(s.next, .error e)] } := by
  simp only [Conc.step, hm, Conc.runSync]

/-- With the trace policy, a request without connection trace is refused at once: nothing is stored or sent. -/
theorem C34_trace {cfg : Cfg} (h : Hdr) (c : Crit) (hp : .requireTrace ∈ cfg.policies) (ht : h.trace = none ∨ h.trace = some [])
    (s : Sys) : Conc.step machine (Msg.prog cfg) s (.start (.reserve h none c))
      = { s with next := s.next + 1, done := s.done ++ [(s.next, .error .security)] } := by
  refine throw_start cfg (reserve_refused ?_) s
  unfold admit
  rw [if_pos ⟨hp, by rcases ht with ht | ht <;> simp [ht]⟩]

example : Conc.step machine (Msg.prog { Ex.cfg with policies := [.requireTrace] }) { w := .init } (.start (.reserve Ex.hdr none Ex.crit))
    = { w := .init, next := 1, done := [(0, .error .security)] } :=
  C34_trace (cfg := { Ex.cfg with policies := [.requireTrace] }) Ex.hdr Ex.crit (by simp) (Or.inl rfl) _

/-- With the user policy, a request without user attribute is refused at once. -/
theorem C34_user {cfg : Cfg} (h : Hdr) (c : Crit) (hp : .requireUser ∈ cfg.policies) (hu : ∀ a ∈ h.attrs, a.type_ ≠ "user".toList)
    (s : Sys) : Conc.step machine (Msg.prog cfg) s (.start (.reserve h none c))
      = { s with next := s.next + 1, done := s.done ++ [(s.next, .error .security)] } := by
  refine throw_start cfg (reserve_refused ?_) s
  unfold admit
  split
  · rfl
  · rw [if_pos]
    refine ⟨hp, ?_⟩
    simp only [List.any_eq_true, decide_eq_true_eq, not_exists, not_and]
    intro a ha he
    exact hu a ha (by rw [he]; decide)

example : (Agg.step { Ex.cfg with policies := [.requireUser] } .init Ex.o (.reserve { Ex.hdr with attrs := [⟨"group".toList, ['x']⟩] } none Ex.crit)).2
    = .error .security := by decide +kernel
example : ∀ a ∈ ({ Ex.hdr with attrs := [⟨"group".toList, ['x']⟩] } : Hdr).attrs, a.type_ ≠ "user".toList := by decide

/-- Without the aggregator policy, a request with both ends outside the local networks is refused at once (the error is the one
of the first policy violated). -/
theorem C34_transit {cfg : Cfg} (h : Hdr) (c : Crit) (hp : .aggregator ∉ cfg.policies)
    (hs : c.src.network ∉ cfg.lv.localNets) (hd : c.dst.network ∉ cfg.lv.localNets) (s : Sys) :
    ∃ e, (e = .security ∨ e = .connectionCreate) ∧ Conc.step machine (Msg.prog cfg) s (.start (.reserve h none c))
      = { s with next := s.next + 1, done := s.done ++ [(s.next, .error e)] } := by
  by_cases h1 : .requireTrace ∈ cfg.policies ∧ h.trace.getD [] = []
  · exact ⟨.security, Or.inl rfl, throw_start cfg (reserve_refused (by unfold admit; rw [if_pos h1])) s⟩
  · by_cases h2 : .requireUser ∈ cfg.policies ∧ ¬ (h.attrs.any fun a => a.type_ = tUser)
    · exact ⟨.security, Or.inl rfl, throw_start cfg (reserve_refused (by unfold admit; rw [if_neg h1, if_pos h2])) s⟩
    · refine ⟨.connectionCreate, Or.inr rfl, throw_start cfg (reserve_refused ?_) s⟩
      unfold admit
      rw [if_neg h1, if_neg h2, if_pos]
      exact ⟨hp, by simp [Cfg.isLocal, hs, hd]⟩

example : (Agg.step Ex.cfg .init Ex.o (.reserve Ex.hdr none ⟨Ex.dst, ⟨['D'], ['z'], none⟩, none, none, 1⟩)).2 = .error .connectionCreate := by
  decide +kernel

/-- Coroutine of a local hairpin: no command it could issue is a call on a provider, and whatever the commands answer, it ends with
an exception. -/
theorem hairpin_noSend {cfg : Cfg} {h : Hdr} {c : Crit} {e : Err} (hc : choosePath cfg c.src c.dst = .error e) :
    Issues Cmd.noSend ((Msg.reserve h none c).prog cfg) := by
  show Issues Cmd.noSend ((ofExcept (admit cfg h c)).bind fun _ => reserveNew cfg h c)
  cases admit cfg h c with
  | error e => exact trivial
  | ok u =>
    refine ⟨trivial, fun r => ?_⟩
    cases r with
    | error e => exact trivial
    | ok cid =>
      refine ⟨trivial, fun r => ?_⟩
      cases r with
      | error e => exact trivial
      | ok ref =>
        refine ⟨trivial, fun r => ?_⟩
        cases r with
        | error e => exact trivial
        | ok u =>
          refine ⟨trivial, fun r => ?_⟩
          cases r with
          | error e => exact trivial
          | ok row =>
            have hkey : ∀ row : CRow, Issues Cmd.noSend (α := Option Str) (do
                let path ← ofExcept (choosePath cfg c.src c.dst)
                ofExcept (checkProviders cfg path)
                let last ← sendReserves cfg row c.start c.end_ 0 [] path
                let results ← issue (.acks path.length)
                if allOk results then Coro.pure (some cid) else reserveCleanup cfg ref last path results) := by
              intro row; rw [hc]; exact trivial
            show Issues Cmd.noSend (Coro.bind (match switchR row.st .checking with
              | none => Coro.throw .internal
              | some st => (issue (.setC ref { row with st })).bind fun _ => issue (.saveC ref)) _)
            cases switchR row.st .checking with
            | none => exact trivial
            | some st =>
              refine ⟨trivial, fun r => ?_⟩
              cases r with
              | error e => exact trivial
              | ok u =>
                refine ⟨trivial, fun r => ?_⟩
                cases r with
                | error e => exact trivial
                | ok u =>
                  refine ⟨trivial, fun r => ?_⟩
                  cases r with
                  | error e => exact trivial
                  | ok row => exact hkey row

/-- A request to change a connection (one that names a connection id) is refused, whether or not there is such a connection: nothing is
stored or sent. If there is one, the error says so. -/
theorem C34_given_id {cfg : Cfg} (w : World) (o : Oracle) (h : Hdr) (i : Str) (c : Crit) :
    Agg.step cfg w o (.reserve h (some i) c) = ({ w with orc := o }, .error (if ∃ r ∈ w.conns, r.cid = i then .connectionExists else .notImplemented)) := by
  have e : (w.conns.any fun r => decide (r.cid = i)) = decide (∃ r ∈ w.conns, r.cid = i) := by
    rw [Bool.eq_iff_iff]; simp
  simp only [Agg.step, Msg.prog, Agg.reserve, run_bind', run_issue, machine, exec_existsConn, andThen_ok, e]
  by_cases hx : ∃ r ∈ w.conns, r.cid = i <;> simp [hx]

example : let w := (Agg.step Ex.cfg .init Ex.o (.reserve Ex.hdr none Ex.crit)).1
    (Agg.step Ex.cfg w Ex.o (.reserve Ex.hdr (some ['c', '1']) Ex.crit)).2 = .error .connectionExists ∧
    (Agg.step Ex.cfg w Ex.o (.reserve Ex.hdr (some ['c', '2']) Ex.crit)).2 = .error .notImplemented := by decide +kernel

/-- Unless allowed, a hairpin (same local network and port) makes no provider request, however it is interleaved with others. -/
theorem C34_hairpin_no_request {cfg : Cfg} (h : Hdr) (c : Crit) (hp : .allowHairpin ∉ cfg.policies)
    (hl : c.src.network ∈ cfg.lv.localNets) (hn : c.src.network = c.dst.network) (hport : c.src.port = c.dst.port) :
    Issues Cmd.noSend ((Msg.reserve h none c).prog cfg) := by
  refine hairpin_noSend (e := .service) ?_
  unfold choosePath
  rw [if_pos ⟨hn, by simp [Cfg.isLocal, hl]⟩, if_pos ⟨hp, hport⟩]

example : Issues Cmd.noSend ((Msg.reserve Ex.hdr none ⟨Ex.src, Ex.src, none, none, 1⟩).prog Ex.cfg) :=
  C34_hairpin_no_request _ _ (by decide) (by decide +kernel) rfl rfl

theorem step_reserve_ok {cfg : Cfg} {h : Hdr} {c : Crit} (w : World) (o : Oracle) (ha : admit cfg h c = .ok ()) :
    Agg.step cfg w o (.reserve h none c) = (reserveNew cfg h c).run machine { w with orc := o } := by
  simp only [Agg.step, Msg.prog, Agg.reserve, run_bind', run_ofExcept, ha, andThen_ok]

theorem step_reserve_error {cfg : Cfg} {h : Hdr} {c : Crit} (w : World) (o : Oracle) {e : Err} (ha : admit cfg h c = .error e) :
    Agg.step cfg w o (.reserve h none c) = ({ w with orc := o }, .error e) := by
  simp only [Agg.step, Msg.prog, Agg.reserve, run_bind', run_ofExcept, ha, andThen_error]

/-- ... and it is answered with an error. -/
theorem C34_hairpin_refused {cfg : Cfg} {w : World} (hw : SReach cfg w) (o : Oracle) (h : Hdr) (c : Crit)
    (hp : .allowHairpin ∉ cfg.policies)
    (hl : c.src.network ∈ cfg.lv.localNets) (hn : c.src.network = c.dst.network) (hport : c.src.port = c.dst.port) :
    (∃ e, (Agg.step cfg w o (.reserve h none c)).2 = .error e) ∧ (Agg.step cfg w o (.reserve h none c)).1.sent = w.sent := by
  rcases ha : admit cfg h c with e | u
  · rw [step_reserve_error w o ha]; exact ⟨⟨e, rfl⟩, rfl⟩
  · have hc : choosePath cfg c.src c.dst = .error .service := by
      unfold choosePath
      rw [if_pos ⟨hn, by simp [Cfg.isLocal, hl]⟩, if_pos ⟨hp, hport⟩]
    rw [step_reserve_ok w o ha]
    generalize hr : (reserveNew cfg h c).run machine { w with orc := o } = r
    have ho := reserveNew_outcome cfg h c { w with orc := o } hw.keysC
    rw [hr] at ho
    obtain ⟨w', r⟩ := r
    cases ho with
    | db => exact ⟨⟨_, rfl⟩, rfl⟩
    | nothing _ _ => exact ⟨⟨_, rfl⟩, rfl⟩
    | stopped _ hp => rw [hc] at hp; cases hp
    | acked _ hp => rw [hc] at hp; cases hp
    | refused _ hp => rw [hc] at hp; cases hp

/-- But the refused hairpin stays in the database, reserved for ever (state CHECKING, not terminated). -/
theorem C34_hairpin_cleaned_fails : ¬ ∀ (w : World) (o : Oracle) (h : Hdr) (c : Crit), SReach Ex.cfg w →
    c.src.network ∈ Ex.cfg.lv.localNets → c.src.network = c.dst.network → c.src.port = c.dst.port →
    (Agg.step Ex.cfg w o (.reserve h none c)).1.conns = w.conns := fun h =>
  absurd (h .init Ex.o Ex.hdr ⟨Ex.src, Ex.src, none, none, 1⟩ .init (by decide +kernel) rfl rfl) (by decide +kernel)

/-- A hairpin in somebody else's network is passed on even if hairpins are not allowed. -/
theorem C34_proxied_hairpin_fails : ¬ ∀ (cfg : Cfg) (w : World) (o : Oracle) (h : Hdr) (c : Crit), SReach cfg w →
    .allowHairpin ∉ cfg.policies → c.src.network = c.dst.network → c.src.port = c.dst.port →
    (Agg.step cfg w o (.reserve h none c)).1.sent = w.sent := fun h =>
  absurd (h { Ex.cfg with policies := [.aggregator] } .init Ex.o Ex.hdr ⟨Ex.dst, Ex.dst, none, none, 1⟩ .init (by decide) rfl rfl)
    (by decide +kernel)

/-- **C34, times.** A request that ends no later than it begins is answered with an error; nothing is stored and nobody is asked. -/
theorem C34_times (cfg : Cfg) (w : World) (o : Oracle) (h : Hdr) (c : Crit) (s e : Time) (hs : c.start = some s) (he : c.end_ = some e) (hle : e ≤ s) :
    let r := Agg.step cfg w o (.reserve h none c)
    (∃ x, r.2 = .error x) ∧ r.1.conns = w.conns ∧ r.1.subs = w.subs ∧ r.1.sent = w.sent ∧ r.1.outbox = w.outbox := by
  intro r
  rcases ha : admit cfg h c with x | u
  · have hr : r = ({ w with orc := o }, .error x) := step_reserve_error w o ha
    rw [hr]
    exact ⟨⟨x, rfl⟩, rfl, rfl, rfl, rfl⟩
  · have hr : r = (reserveNew cfg h c).run machine { w with orc := o } := step_reserve_ok w o ha
    have hb : badTimes c.start c.end_ = true := by rw [hs, he]; simp [badTimes, hle]
    have : ∃ x orc, (reserveNew cfg h c).run machine { w with orc := o } = ({ w with cheap := w.cheap ++ [x], orc := orc }, .error .db) := by
      refine ⟨⟨newConn (o.cids.headD []) h c, true⟩, { o with cids := o.cids.tail }, ?_⟩
      have hg0 : ({ w with orc := { o with cids := o.cids.tail }, cheap := w.cheap ++ [⟨newConn (o.cids.headD []) h c, true⟩] } : World).cheap[w.cheap.length]? =
          some ⟨newConn (o.cids.headD []) h c, true⟩ := by simp
      have hsv := (saveC_new hg0).trans (if_pos (by
        rw [Bool.or_eq_true]
        exact Or.inr hb))
      simp only [reserveNew, run_bind', run_issue, machine_exec, exec_newCid, andThen_ok, exec_newC, exec_saveC]
      exact (congrArg _ hsv).trans rfl
    obtain ⟨x, orc, hx⟩ := this
    rw [hr, hx]
    exact ⟨⟨_, rfl⟩, rfl, rfl, rfl, rfl⟩

example : let c := { Ex.crit with end_ := some 100 }
    c.start = some 100 ∧ admit Ex.cfg Ex.hdr c = .ok () ∧ (Agg.step Ex.cfg .init Ex.o (.reserve Ex.hdr none c)).2 = .error .db := by decide +kernel

/-! ### C33: chains -/

/-- The reservation requests sent for a request ask for a chain of segments from source to destination, or (if a network on the way
has no provider) for an initial part of one; if the request is acknowledged, for the whole chain. -/
theorem C33_chain {cfg : Cfg} {w : World} (hw : SReach cfg w) (o : Oracle) (h : Hdr) (c : Crit) :
    let r := Agg.step cfg w o (.reserve h none c)
    ∃ calls terms, r.1.sent = w.sent ++ calls ++ terms ∧ (∀ t ∈ terms, ¬ t.isReserve) ∧
      (calls = [] ∨ ∃ ls pre, Chain cfg c.src c.dst ls ∧ pre <+: ls ∧ calls.map (·.link) = pre.map some ∧
        (∀ cid, r.2 = .ok cid → pre = ls) ∧
        ((∀ n ∈ cfg.lv.localNets, ∃ p, cfg.provider n = .ok p) → pre = ls)) := by
  intro r
  rcases ha : admit cfg h c with e | u
  · have hr : r = ({ w with orc := o }, .error e) := step_reserve_error w o ha
    exact ⟨[], [], by simp [hr], by simp, Or.inl rfl⟩
  · have hr : r = (reserveNew cfg h c).run machine { w with orc := o } := step_reserve_ok w o ha
    have ho := reserveNew_outcome cfg h c { w with orc := o } hw.keysC
    rw [← hr] at ho
    clear hr
    clear_value r
    obtain ⟨w', r⟩ := r
    cases ho with
    | db => exact ⟨[], [], by simp, by simp, Or.inl rfl⟩
    | nothing _ _ => exact ⟨[], [], by simp, by simp, Or.inl rfl⟩
    | @stopped row orc calls path pre e hrow hpath hchk hpre hprov hcalls =>
      refine ⟨calls, [], by simp, by simp, Or.inr ⟨path, pre, choosePath_chain ha hpath, hpre, callFor_links hcalls, by simp, ?_⟩⟩
      intro hl
      rw [checkProviders_provided hl hchk] at hprov
      cases hprov
    | acked _ hpath hcalls _ =>
      exact ⟨_, [], by simp, by simp, Or.inr ⟨_, _, choosePath_chain ha hpath, List.prefix_rfl, callFor_links hcalls, by simp, by simp⟩⟩
    | refused _ hpath hcalls _ _ hterm =>
      refine ⟨_, _, rfl, ?_, Or.inr ⟨_, _, choosePath_chain ha hpath, List.prefix_rfl, callFor_links hcalls, by simp, by simp⟩⟩
      intro t ht ⟨_, _, _, _, _, _, hop⟩
      obtain ⟨a, _, hta⟩ := forall₂_right_exists hterm.flip t ht
      rw [hta.op] at hop
      cases hop

example : (Agg.step Ex.cfg .init Ex.o (.reserve Ex.hdr none Ex.crit)).2 = .ok (some ['c', '1']) ∧
    (Agg.step Ex.cfg .init Ex.o (.reserve Ex.hdr none Ex.crit)).1.sent.map (fun c => (c.handle, c.prov, c.link.map fun l => (l.src.network, l.dst.network)))
    = [(0, ['m'], some (['A'], ['A'])), (1, ['m'], some (['B'], ['B'])), (2, ['r'], some (['C'], ['C']))] := by decide +kernel

/-- A connection from somebody else's network to one of ours is always refused, with ValueError: the vector from the source is
looked up with the source as start (aggregator.py:203), which is only possible for our own networks. -/
theorem C33_remote_source_refused {cfg : Cfg} (h : Hdr) (c : Crit) (hs : c.src.network ∉ cfg.lv.localNets)
    (hd : c.dst.network ∈ cfg.lv.localNets) (s : Sys) :
    ∃ e, (e = .security ∨ e = .value) ∧ Conc.step machine (Msg.prog cfg) s (.start (.reserve h none c))
      = { s with next := s.next + 1, done := s.done ++ [(s.next, .error e)] } := by
  by_cases h1 : .requireTrace ∈ cfg.policies ∧ h.trace.getD [] = []
  · exact ⟨.security, Or.inl rfl, throw_start cfg (reserve_refused (by unfold admit; rw [if_pos h1])) s⟩
  · by_cases h2 : .requireUser ∈ cfg.policies ∧ ¬ (h.attrs.any fun a => a.type_ = tUser)
    · exact ⟨.security, Or.inl rfl, throw_start cfg (reserve_refused (by unfold admit; rw [if_neg h1, if_pos h2])) s⟩
    · refine ⟨.value, Or.inr rfl, throw_start cfg (reserve_refused ?_) s⟩
      have : vectorCheck cfg c.src.network c.src.network = .error .value := by
        simp [vectorCheck, LinkVector.path, hs]
      unfold admit
      rw [if_neg h1, if_neg h2]
      simp [Cfg.isLocal, hs, hd, this]

example : (Agg.step Ex.cfg .init Ex.o (.reserve Ex.hdr none ⟨Ex.dst, Ex.src, none, none, 1⟩)).2 = .error .value := by decide +kernel

/-! ### C32: cleanup -/

/-- If all networks of ours have a provider and some provider refuses, every accepted segment is terminated on the provider object
it was requested from, the connection ends up terminated and the requester gets an error; if none refuses, nothing is terminated.
(The header of the terminate request is another matter, see below.) -/
theorem C32_cleanup_partial {cfg : Cfg} {w : World} (hw : SReach cfg w) (o : Oracle) (h : Hdr) (c : Crit)
    (hl : ∀ n ∈ cfg.lv.localNets, ∃ p, cfg.provider n = .ok p) :
    let r := Agg.step cfg w o (.reserve h none c)
    ∃ calls terms, r.1.sent = w.sent ++ calls ++ terms ∧ (∀ x ∈ calls, x.isReserve) ∧
      ((∃ e, .error e ∈ o.outcomes calls.length) →
        terms.map (fun t => (t.handle, t.op)) = cleanup calls (o.outcomes calls.length) ∧ (∃ e, r.2 = .error e) ∧
        ∃ row, r.1.conns = w.conns ++ [row] ∧ row.st.l = .terminated) ∧
      ((∀ x ∈ o.outcomes calls.length, ∃ sc, x = .ok sc) → terms = []) := by
  intro r
  rcases ha : admit cfg h c with e | u
  · have hr : r = ({ w with orc := o }, .error e) := step_reserve_error w o ha
    exact ⟨[], [], by simp [hr], by simp, by simp [Oracle.outcomes], by simp⟩
  · have hr : r = (reserveNew cfg h c).run machine { w with orc := o } := step_reserve_ok w o ha
    have ho := reserveNew_outcome cfg h c { w with orc := o } hw.keysC
    rw [← hr] at ho
    clear hr
    clear_value r
    obtain ⟨w', r⟩ := r
    cases ho with
    | db => exact ⟨[], [], by simp, by simp, by simp [Oracle.outcomes], by simp⟩
    | nothing _ _ => exact ⟨[], [], by simp, by simp, by simp [Oracle.outcomes], by simp⟩
    | stopped hrow hpath hchk hpre hprov hcalls =>
      rw [checkProviders_provided hl hchk] at hprov
      cases hprov
    | acked _ hpath hcalls hres =>
      refine ⟨_, [], by simp, callFor_isReserve hcalls, ?_, by simp⟩
      rintro ⟨e, he⟩
      rw [hcalls.length_eq] at he
      have := List.all_eq_true.mp hres _ he
      simp at this
    | @refused row orc calls path results terms hrow hpath hcalls hresults hres hterm =>
      refine ⟨_, _, rfl, callFor_isReserve hcalls, ?_, ?_⟩
      · intro _
        rw [hcalls.length_eq]
        change results = o.outcomes path.length at hresults
        rw [← hresults]
        exact ⟨terms_cleanup hcalls hterm, ⟨_, rfl⟩, _, rfl, rfl⟩
      · intro hall
        exfalso
        rw [hcalls.length_eq] at hall
        change results = o.outcomes path.length at hresults
        rw [← hresults] at hall
        have : allOk results = true := by
          refine List.all_eq_true.mpr fun x hx => ?_
          obtain ⟨sc, rfl⟩ := hall x hx
          rfl
        rw [this] at hres
        cases hres

/-- Here B refuses: the segment accepted by A and that accepted by C are terminated. -/
def Ex.oRefuse : Oracle := { Ex.o with acks := [.ok ['s', '1'], .error (.remote ['x'] ['n']), .ok ['s', '3']] }
example : ∀ n ∈ Ex.cfg.lv.localNets, ∃ p, Ex.cfg.provider n = .ok p := by
  intro n hn
  have : n = ['A'] ∨ n = ['B'] := by
    have h : Ex.cfg.lv.localNets = [['A'], ['B']] := by decide +kernel
    rw [h] at hn
    simpa using hn
  rcases this with rfl | rfl
  · exact ⟨(0, ['m']), by decide +kernel⟩
  · exact ⟨(1, ['m']), by decide +kernel⟩
example : (Agg.step Ex.cfg .init Ex.oRefuse (.reserve Ex.hdr none Ex.crit)).2 = .error (.remote ['x'] ['n']) ∧
    ((Agg.step Ex.cfg .init Ex.oRefuse (.reserve Ex.hdr none Ex.crit)).1.sent.drop 3).map (fun t => (t.handle, t.prov, t.op))
      = [(0, ['r'], .terminate ['s', '1']), (2, ['r'], .terminate ['s', '3'])] := by decide +kernel

/-- The terminate requests are addressed (header) to the provider asked last instead of the one that accepted the segment
(`provider_urn` at aggregator.py:434 is the loop variable of line 386). -/
theorem C32_addressed_fails : ¬ ∀ (cfg : Cfg) (w : World) (o : Oracle) (h : Hdr) (c : Crit), SReach cfg w →
    ∀ t ∈ (Agg.step cfg w o (.reserve h none c)).1.sent, (∃ sc, t.op = .terminate sc) →
    ∃ n, cfg.provider n = .ok (t.handle, t.prov) := by
  intro h
  obtain ⟨n, hn⟩ := h Ex.cfg .init Ex.oRefuse Ex.hdr Ex.crit .init ⟨0, ['r'], ['4'], .terminate ['s', '1']⟩ (by decide +kernel) ⟨_, rfl⟩
  simp only [Cfg.provider] at hn
  split at hn
  · cases hn
  · rcases hd : dget Ex.cfg.reg n with _ | p
    · rw [hd] at hn; cases hn
    · rw [hd] at hn
      simp only [Except.ok.injEq] at hn
      subst hn
      simp only [Ex.cfg, dget] at hd
      repeat (split at hd <;> [cases hd; skip])
      cases hd

/-- If a network on the way has no provider, the requests already made are not cleaned up. -/
theorem C32_no_provider_fails : ¬ ∀ (cfg : Cfg) (w : World) (o : Oracle) (h : Hdr) (c : Crit) (e : Err), SReach cfg w →
    (Agg.step cfg w o (.reserve h none c)).2 = .error e →
    (∀ t ∈ (Agg.step cfg w o (.reserve h none c)).1.sent, t ∉ w.sent → t.isReserve →
      ∃ t' ∈ (Agg.step cfg w o (.reserve h none c)).1.sent, t'.handle = t.handle ∧ ∃ sc, t'.op = .terminate sc) := by
  intro h
  have h1 := h { Ex.cfg with reg := [(['A'], (0, ['m'])), (['C'], (2, ['r']))] } .init Ex.o Ex.hdr Ex.crit .stpResolution .init
    (by decide +kernel)
    ⟨0, ['m'], ['1'], .reserve ['c', '1'] Ex.src ⟨['A'], ['a', 'b'], Ex.vlan 10 19⟩ (some 100) (some 200) 50⟩ (by decide +kernel)
    (by decide) ⟨_, _, _, _, _, _, rfl⟩
  obtain ⟨t', ht', _, sc, hsc⟩ := h1
  have : ∀ t ∈ (Agg.step { Ex.cfg with reg := [(['A'], (0, ['m'])), (['C'], (2, ['r']))] } .init Ex.o (.reserve Ex.hdr none Ex.crit)).1.sent,
      t.op = .reserve ['c', '1'] Ex.src ⟨['A'], ['a', 'b'], Ex.vlan 10 19⟩ (some 100) (some 200) 50 := by decide +kernel
  rw [this t' ht'] at hsc
  cases hsc

end OpenNSA.Agg
