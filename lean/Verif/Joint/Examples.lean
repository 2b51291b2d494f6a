import Verif.Joint.Props
import Verif.Agg.PropsReplyFails
/-
A connection over two backends, from the reservation to the active data plane.
-/
namespace OpenNSA.Joint
open Py

/-! ### Deciding that an execution is one -/

/-- Something happens: a message reaches the aggregator, or something happens at a backend. -/
inductive Ev
  | msg (o : Agg.Oracle) (m : Agg.Msg)
  | act (b : Nat) (x : Backend.Oracle × Backend.Choice)

/-- Decides `Sends`. -/
def sendsB (s : Site) (w : Backend.World) : Agg.Msg → Bool
  | .reserveConfirmed h cid c => w.rows.any fun r =>
      decide (r.cid = cid ∧ .reserveConfirmed h.corr cid r.srcLabel r.dstLabel r.start r.end_ ∈ w.outbox ∧ c = critOf s.cfg.network c.bw r)
  | .commitConfirmed _ cid => decide (.reserveCommitConfirmed cid ∈ w.outbox)
  | .provisionConfirmed _ cid => decide (.provisionConfirmed cid ∈ w.outbox)
  | .terminateConfirmed _ cid => decide (.terminateConfirmed cid ∈ w.outbox)
  | .dataPlane _ cid a _ _ => w.outbox.any fun m => match m with
    | .dataPlane c _ b => c = cid && b = a
    | _ => false
  | _ => false

theorem sendsB_sound {s : Site} {w : Backend.World} {m : Agg.Msg} (h : sendsB s w m = true) : Sends s w m := by
  cases m <;> simp only [sendsB, List.any_eq_true, decide_eq_true_eq] at h <;> try (exact absurd h Bool.false_ne_true)
  · obtain ⟨r, hr, h1, h2, h3⟩ := h
    exact ⟨r, hr, h1, h2, _, h3⟩
  · exact h
  · exact h
  · exact h
  · obtain ⟨x, hx, h⟩ := h
    split at h
    · simp only [Bool.and_eq_true, decide_eq_true_eq] at h
      obtain ⟨rfl, rfl⟩ := h
      exact ⟨_, hx⟩
    · exact absurd h Bool.false_ne_true

/-- Decides `Concerns`. -/
def concernsB (w : Agg.World) (b : Nat) (v : Backend.World) : Agg.Msg → Bool
  | .reserveConfirmed h _ _ | .reserveFailed h => w.sent.any fun c => c.corr = h.corr && c.handle = b
  | .commitConfirmed _ cid | .abortConfirmed _ cid | .provisionConfirmed _ cid | .releaseConfirmed _ cid | .terminateConfirmed _ cid
  | .timeout _ cid _ | .dataPlane _ cid _ _ _ | .errorEvent _ cid _ => v.rows.any fun r => r.cid = cid
  | _ => false

theorem concernsB_complete {w : Agg.World} {b : Nat} {v : Backend.World} {m : Agg.Msg} (h : Concerns w b v m) : concernsB w b v m = true := by
  cases m <;> simp only [concernsB, Concerns, List.any_eq_true, Bool.and_eq_true, decide_eq_true_eq] at h ⊢ <;> exact h

/-- Decides `Genuine`. -/
def genuineB (sites : List (Nat × Site)) (w : Agg.World) (f : Scheds) (m : Agg.Msg) : Bool :=
  sites.all fun s => !concernsB w s.1 (s.2.at (f s.1)) m || sendsB s.2 (s.2.at (f s.1)) m

/-- Decides `Called`. -/
def calledB (urn : Str) (w : Agg.World) (b : Nat) : Backend.Choice → Bool
  | .start h q => w.sent.any fun c => c.handle = b && h.corr = c.corr && h.requester = urn && request c.op = some q
  | _ => true

/-- The agent with these backends. -/
def sysOf (cfg : Agg.Cfg) (sites : List (Nat × Site)) : Sys := ⟨cfg, fun b => dget sites b⟩

/-- The aggregator and the schedules after a list of events. -/
def after (cfg : Agg.Cfg) : Agg.World → Scheds → List Ev → Agg.World × Scheds
  | w, f, [] => (w, f)
  | w, f, .msg o m :: es => after cfg (Agg.step cfg w o m).1 f es
  | w, f, .act b x :: es => after cfg w (f.add b x) es

/-- The list is an execution. -/
def valid (cfg : Agg.Cfg) (sites : List (Nat × Site)) : Agg.World → Scheds → List Ev → Bool
  | _, _, [] => true
  | w, f, .msg o m :: es => decide (Agg.NewSeg w m) && genuineB sites w f m && valid cfg sites (Agg.step cfg w o m).1 f es
  | w, f, .act b x :: es => calledB cfg.urn w b x.2 && valid cfg sites w (f.add b x) es

theorem genuineB_sound {cfg : Agg.Cfg} {sites : List (Nat × Site)} {w : Agg.World} {f : Scheds} {m : Agg.Msg} (h : genuineB sites w f m = true) :
    Genuine (sysOf cfg sites) w f m := by
  intro b s hs hc
  have h1 := List.all_eq_true.1 h _ (dget_some_mem hs)
  simp only [concernsB_complete hc, Bool.not_true, Bool.false_or] at h1
  exact sendsB_sound h1

theorem runs_after {cfg : Agg.Cfg} {sites : List (Nat × Site)} : ∀ (es : List Ev) {ms : List Agg.Msg} {w : Agg.World} {f : Scheds},
    Runs (sysOf cfg sites) ms w f → valid cfg sites w f es = true → ∃ ms', Runs (sysOf cfg sites) ms' (after cfg w f es).1 (after cfg w f es).2
  | [], ms, _, _, h, _ => ⟨ms, h⟩
  | .msg o m :: es, _, _, _, h, hv => by
    simp only [valid, Bool.and_eq_true, decide_eq_true_eq] at hv
    exact runs_after es (h.msg o m hv.1.1 (genuineB_sound hv.1.2)) hv.2
  | .act b x :: es, _, _, _, h, hv => by
    simp only [valid, Bool.and_eq_true] at hv
    refine runs_after es (h.act b x ?_) hv.2
    have h1 := hv.1
    unfold calledB at h1
    split at h1
    · rename_i hd q hx
      rw [hx]
      obtain ⟨c, hc, h2⟩ := List.any_eq_true.1 h1
      simp only [Bool.and_eq_true, decide_eq_true_eq] at h2
      exact ⟨c, hc, h2.1.1.1, h2.1.1.2, h2.1.2, h2.2⟩
    · rename_i hx
      cases hc : x.2 <;> try trivial
      exact absurd hc (hx _ _)

/-- Decides that a label is that of one of the texts. -/
def textB (cands : List Str) : Option Label → Bool
  | none => true
  | some l => cands.any fun t => decide (Label.mk' l.type_ (.str t) = .ok l)

/-- Decides `Texts`. -/
def textsB (cands : List Str) (sites : List (Nat × Site)) (es : List Ev) : Bool :=
  (sites.all fun s => s.2.cfg.ports.all fun p => textB cands p.2.label) && es.all fun e => match e with
    | .act _ (_, .start _ (.reserve _ s d _ _)) => textB cands s.label && textB cands d.label
    | _ => true

theorem mem_after {cfg : Agg.Cfg} {b : Nat} {x : Backend.Oracle × Backend.Choice} : ∀ (es : List Ev) {w : Agg.World} {f : Scheds},
    x ∈ (after cfg w f es).2 b → x ∈ f b ∨ ∃ b', .act b' x ∈ es
  | [], _, _, h => Or.inl h
  | .msg o m :: es, _, _, h => (mem_after es h).imp id fun ⟨b', h⟩ => ⟨b', List.mem_cons_of_mem _ h⟩
  | .act b' y :: es, _, f, h => by
    rcases mem_after es h with h | ⟨b', h⟩
    · unfold Scheds.add at h
      split at h
      · rcases List.mem_append.1 h with h | h
        · exact Or.inl h
        · rw [List.mem_singleton.1 h]; exact Or.inr ⟨b', List.mem_cons_self⟩
      · exact Or.inl h
    · exact Or.inr ⟨b', List.mem_cons_of_mem _ h⟩

theorem textB_sound {cands : List Str} {l : Label} (h : textB cands (some l) = true) : l.FromText := by
  obtain ⟨t, _, h⟩ := List.any_eq_true.1 h
  exact ⟨t, of_decide_eq_true h⟩

theorem texts_after {cfg : Agg.Cfg} {sites : List (Nat × Site)} {cands : List Str} {es : List Ev} {w : Agg.World} (h : textsB cands sites es = true) :
    Texts (sysOf cfg sites) (after cfg w (fun _ => []) es).2 := by
  simp only [textsB, Bool.and_eq_true, List.all_eq_true] at h
  intro b site hs o hd cid? s d st en hm
  rcases mem_after es hm with h1 | ⟨b', h1⟩
  · simp at h1
  · have h2 := h.2 _ h1
    simp only [Bool.and_eq_true] at h2
    refine ⟨fun l hl => textB_sound (hl ▸ h2.1), fun l hl => textB_sound (hl ▸ h2.2), fun n p l hp hl => textB_sound (cands := cands) (hl ▸ ?_)⟩
    exact h.1 _ (dget_some_mem hs) _ (dget_some_mem hp)

namespace Ex
open Agg.Ex (vlan)

/-- The backends of networks A and B of `Agg.Ex.cfg`; labels can be swapped. -/
def siteA : Site := ⟨{ network := ['A'], ports := [(['x'], ⟨vlan 1 9, [], false⟩), (['a', 'b'], ⟨vlan 10 19, [], false⟩)],
                       mgr := ⟨Backend.Ex.getResource, fun _ => true, none⟩, minDuration := 0 }, [], 0⟩
def siteB : Site := ⟨{ network := ['B'], ports := [(['b', 'a'], ⟨vlan 10 19, [], false⟩), (['b', 'c'], ⟨vlan 20 29, [], false⟩)],
                       mgr := ⟨Backend.Ex.getResource, fun _ => true, none⟩, minDuration := 0 }, [], 0⟩
def sites : List (Nat × Site) := [(0, siteA), (1, siteB)]

def src : STP := ⟨['A'], ['x'], vlan 1 9⟩
def mid1 : STP := ⟨['A'], ['a', 'b'], vlan 10 19⟩
def mid2 : STP := ⟨['B'], ['b', 'a'], vlan 10 19⟩
def dst : STP := ⟨['B'], ['b', 'c'], vlan 20 29⟩

/-- The header of a call of the aggregator. -/
def hdr (corr : Char) : Backend.Hdr := ⟨['m'], [corr], [], some none⟩

/-- Something happens at a backend. -/
def at_ (b : Nat) (l : List (Backend.Oracle × Backend.Choice)) : List Ev := l.map (.act b)

/-- Two coroutines run to their ends. -/
def ends (b n : Nat) : List Ev := at_ b (Backend.Ex.goes n ++ Backend.Ex.goes (n + 1))

/-- Correlation ids and acknowledgements. -/
def draws (a b : Char) : Agg.Oracle := { cids := [['c', '1']], corrs := [[a], [b]], acks := [.ok ['s', '1'], .ok ['s', '2']] }

/-- The requester reserves; the backends do; one of the confirmations arrives. -/
def reserving : List Ev :=
  [.msg (draws '1' '2') (.reserve Agg.Ex.hdr none ⟨src, dst, some 100, some 200, 50⟩)] ++
  at_ 0 [(({ ids := [['s', '1']] } : Backend.Oracle), .start (hdr '1') (.reserve none src mid1 (some 100) (some 200)))] ++ ends 0 0 ++
  at_ 1 [(({ ids := [['s', '2']] } : Backend.Oracle), .start (hdr '2') (.reserve none mid2 dst (some 100) (some 200)))] ++ ends 1 0 ++
  [.msg {} (.reserveConfirmed ⟨['m'], ['1']⟩ ['s', '1'] ⟨⟨['A'], ['x'], vlan 1 1⟩, ⟨['A'], ['a', 'b'], vlan 10 10⟩, some 100, some 200, 50⟩)]

/-- The other. -/
def confirmB : Agg.Msg :=
  .reserveConfirmed ⟨['m'], ['2']⟩ ['s', '2'] ⟨⟨['B'], ['b', 'a'], vlan 10 10⟩, ⟨['B'], ['b', 'c'], vlan 20 20⟩, some 100, some 200, 50⟩

/-- A request of the requester for the connection, and what it leads to at the backends. -/
def asking (a b : Char) (n : Nat) (m : Agg.Msg) (q : Str → Backend.Req) : List Ev :=
  [.msg (draws a b) m] ++ at_ 0 [(Backend.Ex.o0, .start (hdr a) (q ['s', '1']))] ++ ends 0 n ++
  at_ 1 [(Backend.Ex.o0, .start (hdr b) (q ['s', '2']))] ++ ends 1 n

/-- The connection is reserved, committed and being provisioned; the start time comes; one of the links is up, one of the confirmations still under way. -/
def provisioning : List Ev :=
  reserving ++ [.msg {} confirmB] ++ asking '3' '4' 2 (.commit Agg.Ex.hdr ['c', '1']) .commit ++
  [.msg {} (.commitConfirmed ⟨['m'], ['8']⟩ ['s', '1']), .msg {} (.commitConfirmed ⟨['m'], ['9']⟩ ['s', '2'])] ++
  asking '5' '6' 4 (.provision Agg.Ex.hdr ['c', '1']) .provision ++
  [.msg {} (.provisionConfirmed ⟨['m'], ['8']⟩ ['s', '1'])]

/-- The links come up. -/
def activating : List Ev :=
  provisioning ++ [.msg {} (.provisionConfirmed ⟨['m'], ['8']⟩ ['s', '2'])] ++
  at_ 0 [(Backend.Ex.o0, .wait 150), (Backend.Ex.o0, .fire ['s', '1'])] ++ ends 0 6 ++
  at_ 1 [(Backend.Ex.o0, .wait 150), (Backend.Ex.o0, .fire ['s', '2'])] ++ ends 1 6 ++
  [.msg {} (.dataPlane ⟨['m'], ['8']⟩ ['s', '1'] true 0 true)]

/-- The execution so far. -/
def done (es : List Ev) : Agg.World × Scheds := after Agg.Ex.cfg .init (fun _ => []) es

theorem runs {es : List Ev} (h : valid Agg.Ex.cfg sites .init (fun _ => []) es = true) :
    ∃ ms, Runs (sysOf Agg.Ex.cfg sites) ms (done es).1 (done es).2 := runs_after es .init h

theorem texts {es : List Ev} (he : textsB ["1-9".toList, "10-19".toList, "20-29".toList] sites es = true) :
    Texts (sysOf Agg.Ex.cfg sites) (done es).2 := texts_after he

/-- Before the second confirmation of the reservation. -/
example : (∃ ms, Runs (sysOf Agg.Ex.cfg sites) ms (done reserving).1 (done reserving).2) ∧ Agg.NewSeg (done reserving).1 confirmB ∧
    Genuine (sysOf Agg.Ex.cfg sites) (done reserving).1 (done reserving).2 confirmB ∧
    (Agg.step Agg.Ex.cfg (done reserving).1 {} confirmB).1.freshIds ∧ Texts (sysOf Agg.Ex.cfg sites) (done reserving).2 ∧
    (Agg.step Agg.Ex.cfg (done reserving).1 {} confirmB).1.outbox.drop (done reserving).1.outbox.length =
      [.reserveConfirmed ['u'] ['c', '1'] ⟨['A'], ['x'], vlan 1 1⟩ ⟨['B'], ['b', 'c'], vlan 20 20⟩ (some 100) (some 200) 50] ∧
    ((Agg.step Agg.Ex.cfg (done reserving).1 {} confirmB).1.asked ['c', '1']).map (·.handle) = [0, 1] := by
  refine ⟨runs (by decide +kernel), by decide +kernel, genuineB_sound (by decide +kernel), ?_, texts (by decide +kernel), by decide +kernel, by decide +kernel⟩
  unfold Agg.World.freshIds
  decide +kernel

/-- Before the second confirmation of provisioning. -/
example : let m := Agg.Msg.provisionConfirmed ⟨['m'], ['8']⟩ ['s', '2']
    (∃ ms, Runs (sysOf Agg.Ex.cfg sites) ms (done provisioning).1 (done provisioning).2) ∧
    Genuine (sysOf Agg.Ex.cfg sites) (done provisioning).1 (done provisioning).2 m ∧
    (Agg.step Agg.Ex.cfg (done provisioning).1 {} m).1.freshIds ∧ Texts (sysOf Agg.Ex.cfg sites) (done provisioning).2 ∧
    (Agg.step Agg.Ex.cfg (done provisioning).1 {} m).1.outbox.drop (done provisioning).1.outbox.length = [.provisionConfirmed ['u'] ['c', '1']] ∧
    (Agg.step Agg.Ex.cfg (done provisioning).1 {} m).1.subs.map (·.cid) = [['s', '1'], ['s', '2']] := by
  refine ⟨runs (by decide +kernel), genuineB_sound (by decide +kernel), ?_, texts (by decide +kernel), by decide +kernel, by decide +kernel⟩
  unfold Agg.World.freshIds
  decide +kernel

/-- Before the second link is reported up. -/
example : let m := Agg.Msg.dataPlane ⟨['m'], ['8']⟩ ['s', '2'] true 0 true
    (∃ ms, Runs (sysOf Agg.Ex.cfg sites) ms (done activating).1 (done activating).2) ∧
    Genuine (sysOf Agg.Ex.cfg sites) (done activating).1 (done activating).2 m ∧
    (Agg.step Agg.Ex.cfg (done activating).1 {} m).1.freshIds ∧ Texts (sysOf Agg.Ex.cfg sites) (done activating).2 ∧
    (Agg.step Agg.Ex.cfg (done activating).1 {} m).1.outbox.drop (done activating).1.outbox.length =
      [.dataPlane ['u'] ['c', '1'] 0 (true, 0, true)] ∧
    (siteA.at ((done activating).2 0)).links = [['s', '1']] ∧ (siteB.at ((done activating).2 1)).links = [['s', '2']] := by
  refine ⟨runs (by decide +kernel), genuineB_sound (by decide +kernel), ?_, texts (by decide +kernel), by decide +kernel, by decide +kernel, by decide +kernel⟩
  unfold Agg.World.freshIds
  decide +kernel

end Ex
end OpenNSA.Joint
