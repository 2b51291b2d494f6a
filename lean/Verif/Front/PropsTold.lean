import Verif.Front.Examples
/-
C91: requesters who are told.
-/
namespace OpenNSA.Front
open Py Provider

variable {sys : Joint.Sys} {d d' : Desk} {T : List (Agg.Msg × Agg.World)} {s s' : Agg.Sys} {f : Joint.Scheds}

/-- The agent runs on without restart: requests, messages of providers, steps of handlers. (What the backends do does not change desk and
aggregator.) -/
inductive Up (sys : Joint.Sys) : Desk → Agg.Sys → Desk → Agg.Sys → Prop
  | refl (d : Desk) (s : Agg.Sys) : Up sys d s d s
  | ask {d : Desk} {s : Agg.Sys} {d' : Desk} {s' : Agg.Sys} (h : Up sys d s d' s') (o : Agg.Oracle) (hdr : Hdr) (m : Agg.Msg) (hd : Agg.Hdr) (hm : hdrOf m = some hd) (hr : hd.requester = hdr.requester) :
      Up sys d s ((d'.receive s'.next hdr m).follow s' (Agg.sysStep sys.agg s' o (.start m))) (Agg.sysStep sys.agg s' o (.start m))
  | step {d : Desk} {s : Agg.Sys} {d' : Desk} {s' : Agg.Sys} (h : Up sys d s d' s') (o : Agg.Oracle) (ch : Conc.Choice Agg.Msg) (hch : ∀ m, ch = .start m → hdrOf m = none) :
      Up sys d s (d'.follow s' (Agg.sysStep sys.agg s' o ch)) (Agg.sysStep sys.agg s' o ch)

theorem Up.trace (u : Up sys d s d' s') (h : Trace sys d T s f) : ∃ T', Trace sys d' T' s' f := by
  induction u with
  | refl => exact ⟨T, h⟩
  | ask _ o hdr m hd hm hr ih =>
    obtain ⟨T', h'⟩ := ih
    exact ⟨_, h'.ask o hdr m hd hm hr⟩
  | step _ o ch hch ih =>
    obtain ⟨T', h'⟩ := ih
    exact ⟨_, h'.step o ch hch⟩

/-- The memory of the provider is what the events of the log make of it. -/
def Ran (d d' : Desk) : Prop := ∃ es, d'.log = d.log ++ es ∧ d'.prov = d.prov.run es

theorem Ran.refl (d : Desk) : Ran d d := ⟨[], by simp, rfl⟩

theorem Ran.trans {a b c : Desk} (h : Ran a b) (h' : Ran b c) : Ran a c := by
  obtain ⟨x, hx, hx'⟩ := h
  obtain ⟨y, hy, hy'⟩ := h'
  exact ⟨x ++ y, by rw [hy, hx, List.append_assoc], by rw [hy', hx']; simp [Prov.run, List.foldl_append]⟩

theorem Ran.tell (d : Desk) (e : Ev) : Ran d (d.tell e) := ⟨[e], rfl, rfl⟩

theorem Ran.same {a b : Desk} (h : b.log = a.log) (h' : b.prov = a.prov) : Ran a b := ⟨[], by simp [h], h'⟩

theorem Ran.finished (d : Desk) (x : Nat × Except Agg.Err (Option Str)) : Ran d (d.finished x) := by
  unfold Desk.finished
  split
  · exact .refl d
  · rename_i rid op hdr _
    have h0 : Ran d { d with tickets := ddel d.tickets x.1 } := .same rfl rfl
    simp only
    split
    · exact h0.trans (.tell _ _)
    · exact h0
    · split
      · exact h0.trans (.tell _ _)
      · exact h0

theorem Ran.foldl {α : Type} {g : Desk → α → Desk} (hg : ∀ d x, Ran d (g d x)) : ∀ (l : List α) (d : Desk), Ran d (l.foldl g d)
  | [], d => .refl d
  | x :: l, d => (hg d x).trans (Ran.foldl hg l _)

theorem Ran.follow (d : Desk) (s s' : Agg.Sys) : Ran d (d.follow s s') :=
  (Ran.foldl (fun d _ => .tell d _) _ d).trans (Ran.foldl Ran.finished _ _)

theorem Ran.receive (d : Desk) (n : Nat) (hdr : Hdr) (m : Agg.Msg) : Ran d (d.receive n hdr m) := by
  unfold Desk.receive
  split
  · exact .refl d
  · rename_i op cid _
    have h0 : Ran d { d with asked := d.asked ++ [(hdr, m)], tickets := (n, (d.asked.length, op, hdr)) :: d.tickets } := .same rfl rfl
    simp only
    split
    · exact h0
    · exact h0.trans (.tell _ _)

theorem Up.ran (u : Up sys d s d' s') : Ran d d' := by
  induction u with
  | refl => exact .refl _
  | ask _ o hdr m hd hm hr ih => exact ih.trans ((Ran.receive _ _ _ _).trans (.follow _ _ _))
  | step _ o ch hch ih => exact ih.trans (.follow _ _ _)

theorem run_out_mono (es : List Ev) : ∀ p : Prov, p.out <+: (p.run es).out := by
  induction es with
  | nil => intro p; exact List.prefix_refl _
  | cons e t ih =>
    intro p
    refine List.IsPrefix.trans ?_ (ih (p.step e))
    cases e with
    | reserveAcked rid hdr c => simp only [Prov.step, Prov.remember]; split <;> exact List.prefix_refl _
    | request op rid hdr c =>
      simp only [Prov.step, Prov.remember]
      split
      · exact List.prefix_refl _
      · split <;> exact List.prefix_refl _
    | refused rid => exact List.prefix_append _ _
    | confirmed kind c =>
      show _ <+: (p.confirm kind c).out
      unfold Prov.confirm
      split
      · exact List.prefix_refl _
      · exact List.prefix_append _ _
    | syncQuery rid hdr =>
      simp only [Prov.step]
      repeat' split
      all_goals exact List.prefix_refl _
    | summary hdr p =>
      simp only [Prov.step]
      repeat' split
      all_goals first | exact List.prefix_refl _ | exact List.prefix_append _ _
    | recursive hdr p => exact List.prefix_append _ _

/-- The message of the aggregator that an event at the provider stands for. -/
def said : Ev → Option (Conf × Str)
  | .confirmed kind cid => some (kind, cid)
  | _ => none

theorem said_finished (d : Desk) (x : Nat × Except Agg.Err (Option Str)) : (d.finished x).log.filterMap said = d.log.filterMap said := by
  unfold Desk.finished
  split
  · rfl
  · simp only
    split
    · simp [Desk.tell, said]
    · rfl
    · split
      · simp [Desk.tell, said]
      · rfl

theorem said_follow (d : Desk) (s s' : Agg.Sys) :
    (d.follow s s').log.filterMap said = d.log.filterMap said ++ (s'.w.outbox.drop s.w.outbox.length).filterMap confOf := by
  have h1 : ∀ (l : List (Nat × Except Agg.Err (Option Str))) (d : Desk), (l.foldl Desk.finished d).log.filterMap said = d.log.filterMap said := by
    intro l
    induction l with
    | nil => intro d; rfl
    | cons x l ih => intro d; rw [List.foldl_cons, ih, said_finished]
  have h2 : ∀ (l : List (Conf × Str)) (d : Desk), (l.foldl (fun d x => d.tell (.confirmed x.1 x.2)) d).log.filterMap said = d.log.filterMap said ++ l := by
    intro l
    induction l with
    | nil => intro d; simp
    | cons x l ih => intro d; rw [List.foldl_cons, ih]; simp [Desk.tell, said]
  unfold Desk.follow
  rw [h1, h2]

theorem said_receive (d : Desk) (n : Nat) (hdr : Hdr) (m : Agg.Msg) : (d.receive n hdr m).log.filterMap said = d.log.filterMap said := by
  unfold Desk.receive
  split
  · rfl
  · simp only
    split
    · rfl
    · simp [Desk.tell, said]

/-- C91: what the provider side of the protocol is told by the aggregator is what the aggregator says, all of it, once and in order, across restarts. -/
theorem C91_delivered (h : Trace sys d T s f) : d.log.filterMap said = s.w.outbox.filterMap confOf := by
  have key : ∀ {w w' : List Agg.Out}, w <+: w' → w'.filterMap confOf = w.filterMap confOf ++ (w'.drop w.length).filterMap confOf := by
    rintro w _ ⟨t, rfl⟩
    simp
  induction h with
  | init => rfl
  | @ask d T s f h o hdr m hd hm hr ih =>
    rw [said_follow, said_receive, ih]
    exact (key (Joint.step_keeps h.joint.agg.hist.reach o (.start m)).2.2).symm
  | @step d T s f h o ch hch ih =>
    rw [said_follow, ih]
    exact (key (Joint.step_keeps h.joint.agg.hist.reach o ch).2.2).symm
  | restart _ ih => exact ih
  | act _ _ _ _ ih => exact ih

/-- C91: a request with a reply address is answered by the next message of the aggregator that confirms what it asked for, whatever happens in between to
other requests and connections — if there is no restart, and no other request of that kind for that connection (see C91_restart_fails,
C91_stranger_fails). A reservation counts from the moment the connection id was given to the requester (see C91_lost_fails). -/
theorem C91_told (u : Up sys d s d' s') {op : Op} {kind : Conf} {rid : Nat} {hdr : Hdr} {cid : Str} {pre mid post : List Ev}
    (hk : kind.op = op) (hr : hdr.replies) (hmid : ∀ e ∈ mid, ¬ e.touches cid kind.resp)
    (hl : d'.log = d.log ++ pre ++ (if op = .reserve then .reserveAcked rid hdr cid else .request op rid hdr cid) :: mid ++ .confirmed kind cid :: post) :
    Out.conf rid kind hdr cid ∈ d'.prov.out := by
  obtain ⟨es, h1, h2⟩ := u.ran
  have he : es = pre ++ ((if op = .reserve then .reserveAcked rid hdr cid else .request op rid hdr cid) :: mid ++ .confirmed kind cid :: post) := by
    rw [h1] at hl
    refine List.append_cancel_left (as := d.log) ?_
    rw [hl]
    simp
  obtain ⟨p, hp, hout⟩ := C41_answered (d.prov.run pre) op kind rid hdr cid mid hk hr hmid
  have : d'.prov = (p.step (.confirmed kind cid)).run post := by
    rw [h2, he, ← hp]
    simp [Prov.run, List.foldl_append]
  rw [this]
  refine (run_out_mono post _).subset ?_
  rw [hout]
  simp

/-- C91: a request for a connection is at the provider as soon as it was received. -/
theorem C91_received (h : Trace sys d T s f) {rid : Nat} {hdr : Hdr} {m : Agg.Msg} {op : Op} {cid : Str} (ha : d.asked[rid]? = some (hdr, m))
    (ho : opOf m = some (op, some cid)) (hne : op ≠ .reserve) : .request op rid hdr cid ∈ d.log := by
  have mono : ∀ {a b : Desk}, Ran a b → ∀ e ∈ a.log, e ∈ b.log := by
    rintro a b ⟨es, h1, _⟩ e he
    rw [h1]
    exact List.mem_append_left _ he
  induction h with
  | init => simp at ha
  | @ask d T s f h o hdr' m' hd hm hr ih =>
    rw [follow_asked, receive_asked] at ha
    refine mono (.follow _ _ _) _ ?_
    by_cases hlt : rid < d.asked.length
    · rw [List.getElem?_append_left hlt] at ha
      exact mono (.receive _ _ _ _) _ (ih ha)
    · rw [List.getElem?_append_right (by omega)] at ha
      split at ha
      · simp at ha
      · have h0 : rid - d.asked.length = 0 := by
          by_contra hc
          rw [List.getElem?_eq_none (by simp; omega)] at ha
          cases ha
        rw [h0] at ha
        simp only [List.getElem?_cons_zero, Option.some.injEq, Prod.mk.injEq] at ha
        obtain ⟨rfl, rfl⟩ := ha
        have : rid = d.asked.length := by omega
        subst this
        unfold Desk.receive
        rw [ho]
        simp [hne, Desk.tell]
  | step h o ch hch ih =>
    rw [follow_asked] at ha
    exact mono (.follow _ _ _) _ (ih ha)
  | restart _ ih => exact ih ha
  | act _ _ _ _ ih => exact ih ha

/-- The events without acts of backends and restarts. -/
def Ev3.goesOn : Ev3 → Bool
  | .restart => false
  | _ => true

theorem Run.up {cfg : Agg.Cfg} {sites : List (Nat × Joint.Site)} : ∀ (es : List Ev3) {r : Run}, es.all Ev3.goesOn = true → r.valid cfg es = true →
    Up (Joint.sysOf cfg sites) d s r.d r.s → Up (Joint.sysOf cfg sites) d s (r.go cfg es).d (r.go cfg es).s
  | [], _, _, _, h => h
  | e :: es, r, ha, hv, h => by
    simp only [Run.valid, Bool.and_eq_true] at hv
    simp only [List.all_cons, Bool.and_eq_true] at ha
    refine Run.up es (r := r.next cfg e) ha.2 hv.2 ?_
    cases e with
    | ask o hdr m =>
      have hc := hv.1
      simp only [Run.can] at hc
      cases hm : hdrOf m with
      | none => simp [hm] at hc
      | some hd =>
        rw [hm] at hc
        exact h.ask o hdr m hd hm (by simpa using hc)
    | agg o ch =>
      refine h.step o ch fun m hm => ?_
      subst hm
      have hc := hv.1
      simpa [Run.can] using hc
    | act b x => exact h
    | restart => exact absurd ha.1 (by simp [Ev3.goesOn])

/-- Provision is requested, then termination, then the providers confirm the provision. -/
def Ex.between : List Ev3 := Ex.steps (Agg.Ex.oneByOne (Agg.Ex.life.take 7 ++ [(Agg.Ex.o, .terminate Agg.Ex.hdr ['c', '1'])] ++
    [(Agg.Ex.nil, .provisionConfirmed ⟨['m'], []⟩ ['s', '1']), (Agg.Ex.nil, .provisionConfirmed ⟨['m'], []⟩ ['s', '2'])]))

/-- `C91_told`, `C91_received`, `C91_delivered` -/
example : ∃ (d' : Desk) (s' : Agg.Sys) (mid : List Ev), Up (Joint.sysOf Agg.Ex.cfg []) {} { w := .init } d' s' ∧ mid ≠ [] ∧
    (∀ e ∈ mid, ¬ e.touches ['c', '1'] Conf.provisionConfirmed.resp) ∧ (Ex.reply Agg.Ex.hdr).replies ∧
    d'.log = d'.log.take 4 ++ .request .provision 2 (Ex.reply Agg.Ex.hdr) ['c', '1'] :: mid ++ .confirmed .provisionConfirmed ['c', '1'] :: [] ∧
    d'.asked[2]? = some (Ex.reply Agg.Ex.hdr, .provision Agg.Ex.hdr ['c', '1']) ∧ s'.w.outbox.filterMap confOf ≠ [] := by
  refine ⟨(Ex.done Ex.between).d, (Ex.done Ex.between).s, [.request .terminate 3 (Ex.reply Agg.Ex.hdr) ['c', '1']],
    Run.up (r := {}) Ex.between (by decide +kernel) (by decide +kernel) (.refl _ _), by simp, ?_, by decide +kernel, by decide +kernel, by decide +kernel, by decide +kernel⟩
  intro e he
  rw [List.mem_singleton] at he
  subst he
  simp [Ev.touches, Op.resp, Conf.resp]

end OpenNSA.Front
