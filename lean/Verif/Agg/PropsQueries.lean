import Verif.Agg.Tokens
import Verif.Agg.PropsReplyFails
/- Recursive queries and notification ids (C37, C40) in every interleaving. -/
namespace OpenNSA.Agg
open OpenNSA Py Coro

/-- Is it an answer to the recursive query with that correlation id? -/
def Out.answers (cb : Str) : Out → Bool
  | .queryRecursive _ corr _ => corr = cb
  | _ => false

/-- Is it a recursive query with that correlation id? -/
def Msg.asks (cb : Str) : Msg → Bool
  | .queryRecursive h _ _ => h.corr = cb
  | _ => false

/-! ### At most one answer -/

/-- Answers given and to be given. -/
def answersDue (cb : Str) (w : World) : Int := (w.outbox.countP (Out.answers cb) : Int) + if (dget w.qreqs cb).isSome then 1 else 0

theorem quiet_answersDue (cb : Str) {γ : Type} (c : Cmd γ) (w : World)
    (hc : c.kind ∈ [CKind.base, .newS, .saveS, .popResv, .addResv, .sendReserve, .sendOther, .emitAbout, .emitSummary, .notifId, .setQCall]) :
    answersDue cb (exec w c).1 ≤ answersDue cb w := by
  by_cases hb : c.kind ∈ [CKind.base, .newS, .saveS]
  · have h := exec_base c w hb
    simp only [answersDue, h.outbox, h.qreqs, Int.le_refl]
  · cases c with
    | emit o => cases o <;> simp [Cmd.kind] at hc <;> simp [answersDue, exec, List.countP_append, Out.answers] <;> exact Int.le_refl _
    | addQReq a b => simp [Cmd.kind] at hc
    | popQuery a => simp [Cmd.kind] at hc
    | popResv _ => exact Int.le_refl _
    | addResv _ _ => exact Int.le_refl _
    | notifId => exact Int.le_refl _
    | setQCall _ _ _ => exact Int.le_refl _
    | send _ => exact Int.le_refl _
    | _ => simp [Cmd.kind] at hb

theorem queryOnce (cfg : Cfg) (cb : Str) (m : Msg) (w : World) (G : Int) :
    TS (Ids cfg) Keep2 (fun _ => True) (answersDue cb) G (m.prog cfg) (if m.asks cb then 1 else 0) w (TPost fun _ => True) := by
  have hq : ∀ {γ : Type} (c : Cmd γ) (w : World), c.kind ∈ [CKind.base, .newS, .saveS, .popResv, .addResv, .sendReserve, .sendOther, .emitAbout,
      .emitSummary, .notifId, .setQCall] → True → True ∧ answersDue cb (exec w c).1 ≤ answersDue cb w :=
    fun c w hc _ => ⟨trivial, quiet_answersDue cb c w hc⟩
  by_cases hk : ∀ k ∈ m.kinds, k ∈ [CKind.base, .newS, .saveS, .popResv, .addResv, .sendReserve, .sendOther, .emitAbout, .emitSummary, .notifId,
      .setQCall]
  · exact TS.all ((m.uses cfg).mono hk) hq trivial (by split <;> decide)
  · cases m with
    | queryRecursive h cids gids =>
      show TS _ _ _ _ _ (queryRecursive cfg h cids gids) (if decide (h.corr = cb) then 1 else 0) w _
      have h0 : (0 : Int) ≤ if decide (h.corr = cb) then 1 else 0 := by split <;> decide
      unfold queryRecursive
      split
      · exact TS.throw trivial h0
      · split
        · exact TS.throw trivial h0
        · refine TS.uses (L := [.base]) (.getConnection (by simp) _) (fun c w hc => hq c w (by simp_all)) trivial h0 fun ref n1 w1 _ hn1 => ?_
          refine TS.uses (L := [.base]) (.issue (by simp [Cmd.kind])) (fun c w hc => hq c w (by simp_all)) trivial (by omega) fun conn n2 w2 _ hn2 => ?_
          refine TS.uses (L := [.base]) (.getSubConnections (by simp) _) (fun c w hc => hq c w (by simp_all)) trivial (by omega) fun refs n3 w3 _ hn3 => ?_
          refine TS.uses (L := [.base]) (.getSs (by simp) _) (fun c w hc => hq c w (by simp_all)) trivial (by omega) fun subs n4 w4 _ hn4 => ?_
          have hd : answersDue cb (exec w4 (.addQReq h.corr ⟨h.requester, ref, subs.length⟩)).1 - answersDue cb w4 ≤ if decide (h.corr = cb) then 1 else 0 := by
            simp only [answersDue, exec, dget_dset]
            by_cases hcb : h.corr = cb
            · subst hcb
              simp only [if_true, Option.isSome_some, decide_true]
              split <;> omega
            · simp only [hcb, if_false, decide_false, Bool.false_eq_true]
              omega
          refine TS.bind' (TS.sync rfl (fun e he => ⟨trivial, by omega⟩) fun _ _ => ?_)
          refine TS.uses (L := [.base, .sendOther, .setQCall]) (.sendQueries (by simp) (by simp) (by simp) _ _ _) (fun c w hc => hq c w (by simp at hc ⊢; tauto))
            trivial (by omega) fun _ n6 w6 _ hn6 => ?_
          refine TS.all (L := [.base]) ?_ (fun c w hc => hq c w (by simp_all)) trivial (by omega)
          refine .bind (.issue (by simp [Cmd.kind])) fun _ => ?_
          split
          · exact .pure _
          · exact .throw _
        · exact TS.throw trivial h0
    | queryConfirmed h res =>
      show TS _ _ _ _ _ (queryRecursiveConfirmed h res) 0 w _
      have hst : ∀ (corr cb' : Str) (n : Int) (w : World), 0 ≤ n → TS (Ids cfg) Keep2 (fun _ => True) (answersDue cb) G (storeQuery corr cb' res) n w
          (TPost fun _ => True) := by
        intro corr cb' n w hn
        refine TS.uses (L := [.setQCall]) (.issue (by simp [Cmd.kind])) (fun c w hc => hq c w (by simp_all)) trivial hn fun _ n1 w1 _ hn1 => ?_
        refine TS.bind' (TS.sync rfl (fun e he => by simp [exec] at he) fun q hq1 => ?_)
        simp only [exec, Except.ok.injEq, Int.sub_self, Int.sub_zero] at hq1 ⊢
        cases q with
        | none => exact TS.throw trivial (by omega)
        | some r =>
          refine TS.bind' (TS.sync rfl (fun e he => by simp [exec] at he) fun scr _ => ?_)
          simp only [exec, Int.sub_self, Int.sub_zero]
          split
          · refine TS.bind' (TS.sync rfl (fun e he => by simp [exec] at he) fun _ _ => ?_)
            have hd : answersDue cb (exec w1 (.popQuery cb')).1 = answersDue cb w1 - if cb' = cb then 1 else 0 := by
              simp only [answersDue, exec, dget_ddel]
              by_cases hcb : cb' = cb
              · subst hcb
                simp only [if_true, Option.isSome_none, Bool.false_eq_true, if_false, hq1, Option.isSome_some]
                omega
              · simp only [hcb, if_false]
                omega
            have hn2 : (if cb' = cb then 1 else 0 : Int) ≤ n1 - (answersDue cb (exec w1 (.popQuery cb')).1 - answersDue cb w1) := by
              rw [hd]
              omega
            generalize n1 - (answersDue cb (exec w1 (.popQuery cb')).1 - answersDue cb w1) = n2 at hn2 ⊢
            have h2 : 0 ≤ n2 := by split at hn2 <;> omega
            refine TS.uses (L := [.base]) (.issue (by simp [Cmd.kind])) (fun c w hc => hq c w (by simp_all)) trivial h2 fun conn n3 w3 _ hn3 => ?_
            refine TS.uses (L := [.base]) (.getSubConnections (by simp) _) (fun c w hc => hq c w (by simp_all)) trivial (by omega) fun refs n4 w4 _ hn4 => ?_
            refine TS.uses (L := [.base]) (.getSs (by simp) _) (fun c w hc => hq c w (by simp_all)) trivial (by omega) fun subs n5 w5 _ hn5 => ?_
            refine TS.bind' (TS.ofExcept trivial (by omega) fun dps _ => ?_)
            refine TS.uses (L := [.base]) (.issue (by simp [Cmd.kind])) (fun c w hc => hq c w (by simp_all)) trivial (by omega) fun conn n6 w6 _ hn6 => ?_
            refine TS.uses (L := [.notifId]) (.issue (by simp [Cmd.kind])) (fun c w hc => hq c w (by simp_all)) trivial (by omega) fun nid n7 w7 _ hn7 => ?_
            have hd : answersDue cb (exec w7 (.emit (.queryRecursive r.to_ cb' (infoOf conn dps nid scr)))).1 = answersDue cb w7 + if cb' = cb then 1 else 0 := by
              simp only [answersDue, exec, List.countP_append, List.countP_singleton, Out.answers, decide_eq_true_eq]
              by_cases hcb : cb' = cb <;> by_cases hs : (dget w7.qreqs cb).isSome = true <;> simp only [hcb, hs, if_true, if_false] <;> simp
            refine TS.bind' (TS.sync rfl (fun e he => by simp [exec] at he) fun _ _ => ?_)
            exact TS.pure ⟨trivial, by rw [hd]; omega⟩
          · exact TS.pure ⟨trivial, by omega⟩
      refine TS.uses (L := [.base]) (.issue (by simp [Cmd.kind])) (fun c w hc => hq c w (by simp_all)) trivial (by decide) fun a n1 w1 _ hn1 => ?_
      split
      · exact TS.pure ⟨trivial, hn1⟩
      · exact TS.pure ⟨trivial, hn1⟩
      · exact hst _ _ _ _ hn1
    | _ => simp [Msg.kinds] at hk

/-- In every interleaving, restarts included, a recursive query is answered at most once: no correlation id is answered more often
than it was asked. -/
theorem C37_at_most_once {cfg : Cfg} {ms : List Msg} {s : Sys} (h : Hist cfg true ms s) (cb : Str) :
    s.w.outbox.countP (Out.answers cb) ≤ ms.countP (Msg.asks cb) := by
  have hsum : ∀ ms : List Msg, (ms.map fun m => if m.asks cb then (1 : Int) else 0).sum = ms.countP (Msg.asks cb) := by
    intro ms
    induction ms with
    | nil => rfl
    | cons m ms ih =>
      simp only [List.map_cons, List.sum_cons, ih, List.countP_cons]
      split <;> omega
  have := (h.tokens (I := fun _ => True) (μ := answersDue cb) (g := fun m => if m.asks cb then 1 else 0) (G := ms.countP (Msg.asks cb)) (MS := ms)
    (fun m => by split <;> decide) trivial (fun _ _ _ => trivial) (fun _ _ => rfl)
    (fun _ w _ => ⟨trivial, by simp only [answersDue, World.restart, dget, Option.isSome_none, Bool.false_eq_true, if_false]; split <;> omega⟩)
    (fun m _ w _ _ _ => queryOnce cfg cb m w _) (fun _ hm => hm) (by rw [hsum]; simp [answersDue, World.init, dget])).2
  rw [hsum] at this
  have h0 : answersDue cb .init = 0 := by simp [answersDue, World.init, dget]
  rw [h0] at this
  unfold answersDue at this
  split at this <;> omega

theorem Hist.runs {cfg : Cfg} {b : Bool} {ms : List Msg} {s : Sys} (h : Hist cfg b ms s) (l : List (Oracle × Conc.Choice Msg)) :
    Hist cfg b (ms ++ l.flatMap fun x => Conc.Choice.msgs x.2) (runSys cfg s l) := by
  induction l generalizing ms s with
  | nil => simpa [runSys] using h
  | cons x xs ih =>
    have := ih (h.step x.1 x.2)
    simpa [runSys, List.append_assoc] using this

namespace Ex
open Conc
/-- A query about the connection of two segments. -/
def ask : Oracle × Msg := ({ corrs := [['a'], ['b']] }, .queryRecursive hdr [['c', '1']] [])
/-- The connection is held and the data plane of both segments is active. -/
def active : List (Oracle × Choice Msg) :=
  reserved ++ startAll (nil, confA) 1 8 ++ startAll (nil, confB) 2 8 ++ startAll (nil, .dataPlane ⟨['m'], []⟩ ['s', '1'] true 1 true) 3 8 ++
  startAll (nil, .dataPlane ⟨['m'], []⟩ ['s', '2'] true 1 true) 4 8
/-- A recursive query, and the replies to it, handled together, one of them twice. -/
def asked : List (Oracle × Choice Msg) :=
  active ++ startAll ask 5 8 ++
  [(nil, .start (.queryConfirmed ⟨['m'], ['b']⟩ [['y'], ['z']])), (nil, .start (.queryConfirmed ⟨['m'], ['a']⟩ [['x']])),
   (nil, .start (.queryConfirmed ⟨['m'], ['a']⟩ [['w']]))] ++ gos 6 6 ++ gos 7 6
end Ex

example : Hist Ex.cfg true (Ex.asked.flatMap fun x => Conc.Choice.msgs x.2) (runSys Ex.cfg { w := .init } Ex.asked) ∧
    (runSys Ex.cfg { w := .init } Ex.asked).w.outbox.countP (Out.answers Ex.hdr.corr) = 1 ∧
    (Ex.asked.flatMap fun x => Conc.Choice.msgs x.2).countP (Msg.asks Ex.hdr.corr) = 1 :=
  ⟨Hist.init.runs Ex.asked, by decide +kernel, by decide +kernel⟩

/-- A query can stay unanswered although every segment has answered: without a data plane status of the segments, the maximum of
their (missing) versions is a TypeError (aggregator.py:809). -/
theorem C37_unanswered_fails : ¬ ∀ (w : World) (o : Oracle) (h : Hdr) (cid : Str) (l : List (Oracle × Msg)), SReach Ex.cfg w →
    (Agg.step Ex.cfg w o (.queryRecursive h [cid] [])).2 = .ok none →
    (∀ c ∈ (Agg.step Ex.cfg w o (.queryRecursive h [cid] [])).1.sent, c ∈ w.sent ∨
      ∃ hh x res, (Ex.nil, Msg.queryConfirmed hh (x :: res)) ∈ l ∧ hh.corr = c.corr) →
    ∃ m ∈ (runMsgs Ex.cfg (Agg.step Ex.cfg w o (.queryRecursive h [cid] [])).1 l).outbox, m.answers h.corr = true := by
  intro h
  have := h (runMsgs Ex.cfg .init Ex.held) Ex.ask.1 Ex.hdr ['c', '1'] [(Ex.nil, .queryConfirmed ⟨['m'], ['a']⟩ [['x']]),
    (Ex.nil, .queryConfirmed ⟨['m'], ['b']⟩ [['y']])] (SReach.init.msgs _) (by decide +kernel) ?_
  · revert this
    decide +kernel
  · have hc : ∀ c ∈ (Agg.step Ex.cfg (runMsgs Ex.cfg .init Ex.held) Ex.ask.1 (.queryRecursive Ex.hdr [['c', '1']] [])).1.sent,
        c ∈ (runMsgs Ex.cfg .init Ex.held).sent ∨ c.corr = ['a'] ∨ c.corr = ['b'] := by decide +kernel
    intro c hcm
    rcases hc c hcm with h1 | h1 | h1
    · exact Or.inl h1
    · exact Or.inr ⟨⟨['m'], ['a']⟩, ['x'], [], by simp, h1.symm⟩
    · exact Or.inr ⟨⟨['m'], ['b']⟩, ['y'], [], by simp, h1.symm⟩

/-- C37 is violated by segments that answer with an empty list, as a backend does that does not have the connection for this requester
(genericbackend.py:536-559): the empty list counts as no answer (aggregator.py:831, 844), so that the query stays unanswered although
every segment has answered and the data planes are known, and what is kept of it in memory stays there. With another answer in its place
the query is answered. -/
theorem C37_empty_fails : ∃ (w : World) (o : Oracle) (h : Hdr) (cid : Str) (a b : RHdr) (x y : Str), SReach Ex.cfg w ∧ w.sent.length = 2 ∧
    (let w' := (Agg.step Ex.cfg w o (.queryRecursive h [cid] [])).1
     (w'.sent.drop 2).map (·.corr) = [a.corr, b.corr] ∧
     (let e := runMsgs Ex.cfg w' [(Ex.nil, .queryConfirmed a []), (Ex.nil, .queryConfirmed b [y])]
      (∀ m ∈ e.outbox, m.answers h.corr = false) ∧ e.qreqs.length = 1) ∧
     ∃ m ∈ (runMsgs Ex.cfg w' [(Ex.nil, .queryConfirmed a [x]), (Ex.nil, .queryConfirmed b [y])]).outbox, m.answers h.corr = true) :=
  ⟨runMsgs Ex.cfg .init (Ex.held ++ [(Ex.nil, .dataPlane ⟨['m'], []⟩ ['s', '1'] true 1 true), (Ex.nil, .dataPlane ⟨['m'], []⟩ ['s', '2'] true 1 true)]),
    Ex.ask.1, Ex.hdr, ['c', '1'], ⟨['m'], ['a']⟩, ⟨['m'], ['b']⟩, ['x'], ['y'], SReach.init.msgs _, by decide +kernel, by decide +kernel, by decide +kernel, by decide +kernel⟩

/-! ### Notification ids -/

/-- The notification ids in query results. -/
def Out.infoIds : Out → List Nat
  | .querySummary _ _ l => l.map (·.notif)
  | .queryRecursive _ _ i => [i.notif]
  | _ => []

/-- How often the id was or can still be given out. -/
def idUses (x : Nat) (w : World) : Int := ((w.outbox.flatMap Out.infoIds).count x : Int) + if w.notif ≤ x then 1 else 0

theorem quiet_idUses (x : Nat) {γ : Type} (c : Cmd γ) (w : World)
    (hc : c.kind ∈ [CKind.base, .newS, .saveS, .popResv, .addResv, .sendReserve, .sendOther, .emitAbout, .addQReq, .setQCall, .popQuery]) :
    idUses x (exec w c).1 ≤ idUses x w := by
  by_cases hb : c.kind ∈ [CKind.base, .newS, .saveS]
  · have h := exec_base c w hb
    simp only [idUses, h.outbox, h.notif]
    split <;> exact Int.le_refl _
  · cases c with
    | emit o => cases o <;> simp [Cmd.kind] at hc <;> simp [idUses, exec, Out.infoIds] <;> exact Int.le_refl _
    | addQReq a b => exact Int.le_refl _
    | popQuery a => exact Int.le_refl _
    | popResv _ => exact Int.le_refl _
    | addResv _ _ => exact Int.le_refl _
    | notifId => simp [Cmd.kind] at hc
    | setQCall _ _ _ => exact Int.le_refl _
    | send _ => exact Int.le_refl _
    | _ => simp [Cmd.kind] at hb

theorem idUses_notifId (x : Nat) (w : World) : idUses x (exec w .notifId).1 = idUses x w - if w.notif = x then 1 else 0 := by
  simp only [idUses, exec]
  by_cases h : w.notif ≤ x <;> by_cases h' : w.notif = x <;> by_cases h'' : w.notif + 1 ≤ x <;> simp only [h, h', h'', if_true, if_false] <;> omega

theorem idUses_emit (x : Nat) (w : World) (o : Out) : idUses x (exec w (.emit o)).1 = idUses x w + (o.infoIds.count x : Int) := by
  have : ((w.outbox ++ [o]).flatMap Out.infoIds).count x = (w.outbox.flatMap Out.infoIds).count x + o.infoIds.count x := by simp
  show (((w.outbox ++ [o]).flatMap Out.infoIds).count x : Int) + (if w.notif ≤ x then 1 else 0) = _
  rw [this]
  unfold idUses
  omega

theorem idOnce (cfg : Cfg) (x : Nat) (m : Msg) (w : World) (G : Int) :
    TS (Ids cfg) Keep2 (fun _ => True) (idUses x) G (m.prog cfg) 0 w (TPost fun _ => True) := by
  have hq : ∀ {γ : Type} (c : Cmd γ) (w : World), c.kind ∈ [CKind.base, .newS, .saveS, .popResv, .addResv, .sendReserve, .sendOther, .emitAbout,
      .addQReq, .setQCall, .popQuery] → True → True ∧ idUses x (exec w c).1 ≤ idUses x w :=
    fun c w hc _ => ⟨trivial, quiet_idUses x c w hc⟩
  by_cases hk : ∀ k ∈ m.kinds, k ∈ [CKind.base, .newS, .saveS, .popResv, .addResv, .sendReserve, .sendOther, .emitAbout, .addQReq, .setQCall,
      .popQuery]
  · exact TS.all ((m.uses cfg).mono hk) hq trivial (by decide)
  · cases m with
    | querySummary h cids gids =>
      show TS _ _ _ _ _ (querySummary cfg h cids gids) 0 w _
      have hl : ∀ (cs : List CRow) (n : Int) (w : World), 0 ≤ n → TS (Ids cfg) Keep2 (fun _ => True) (idUses x) G (summaryLoop cs) n w
          (fun l n' _ => n + ((l.map (·.notif)).count x : Int) ≤ n') := by
        intro cs
        induction cs with
        | nil => intro n w hn; exact TS.pure (by simp)
        | cons c cs ih =>
          intro n w hn
          refine TS.uses (L := [.base]) (.getSubConnections (by simp) _) (fun c w hc => hq c w (by simp_all)) trivial (by omega) fun refs n2 w2 _ hn2 => ?_
          refine TS.uses (L := [.base]) (.getSs (by simp) _) (fun c w hc => hq c w (by simp_all)) trivial (by omega) fun subs n3 w3 _ hn3 => ?_
          refine TS.bind' (TS.sync rfl (fun e he => by simp [exec] at he) fun i hi => ?_)
          simp only [idUses_notifId]
          have hi' : w3.notif = i := by simpa [exec] using hi
          refine TS.bind' (TS.mono (ih _ _ (by split <;> omega)) fun l n4 w4 h4 => TS.pure ?_)
          simp only [List.map_cons, infoOf, List.count_cons]
          rw [hi'] at h4
          by_cases hx : i = x
          · simp only [hx, if_true, beq_self_eq_true] at h4 ⊢
            omega
          · simp only [hx, if_false, beq_iff_eq] at h4 ⊢
            omega
      unfold querySummary
      simp only
      split
      · exact TS.throw trivial (by decide)
      · refine TS.uses (L := [.base]) (.issue (by simp [Cmd.kind])) (fun c w hc => hq c w (by simp_all)) trivial (by decide) fun cs n1 w1 _ hn1 => ?_
        refine TS.bind' (TS.mono (hl cs n1 w1 hn1) fun l n2 w2 h2 => ?_)
        refine TS.bind' (TS.sync rfl (fun e he => by simp [exec] at he) fun _ _ => TS.pure ⟨trivial, ?_⟩)
        rw [idUses_emit]
        simp only [Out.infoIds]
        omega
    | queryConfirmed h res =>
      show TS _ _ _ _ _ (queryRecursiveConfirmed h res) 0 w _
      have hst : ∀ (corr cb' : Str) (n : Int) (w : World), 0 ≤ n → TS (Ids cfg) Keep2 (fun _ => True) (idUses x) G (storeQuery corr cb' res) n w
          (TPost fun _ => True) := by
        intro corr cb' n w hn
        refine TS.uses (L := [.setQCall]) (.issue (by simp [Cmd.kind])) (fun c w hc => hq c w (by simp_all)) trivial hn fun _ n1 w1 _ hn1 => ?_
        refine TS.uses (L := [.base]) (.issue (by simp [Cmd.kind])) (fun c w hc => hq c w (by simp_all)) trivial (by omega) fun q n2 w2 _ hn2 => ?_
        cases q with
        | none => exact TS.throw trivial (by omega)
        | some r =>
          refine TS.uses (L := [.base]) (.issue (by simp [Cmd.kind])) (fun c w hc => hq c w (by simp_all)) trivial (by omega) fun scr n3 w3 _ hn3 => ?_
          split
          · refine TS.uses (L := [.popQuery]) (.issue (by simp [Cmd.kind])) (fun c w hc => hq c w (by simp_all)) trivial (by omega) fun _ n4 w4 _ hn4 => ?_
            refine TS.uses (L := [.base]) (.issue (by simp [Cmd.kind])) (fun c w hc => hq c w (by simp_all)) trivial (by omega) fun conn n5 w5 _ hn5 => ?_
            refine TS.uses (L := [.base]) (.getSubConnections (by simp) _) (fun c w hc => hq c w (by simp_all)) trivial (by omega) fun refs n6 w6 _ hn6 => ?_
            refine TS.uses (L := [.base]) (.getSs (by simp) _) (fun c w hc => hq c w (by simp_all)) trivial (by omega) fun subs n7 w7 _ hn7 => ?_
            refine TS.bind' (TS.ofExcept trivial (by omega) fun dps _ => ?_)
            refine TS.uses (L := [.base]) (.issue (by simp [Cmd.kind])) (fun c w hc => hq c w (by simp_all)) trivial (by omega) fun conn n8 w8 _ hn8 => ?_
            refine TS.bind' (TS.sync rfl (fun e he => by simp [exec] at he) fun i hi => ?_)
            have hi' : w8.notif = i := by simpa [exec] using hi
            refine TS.bind' (TS.sync rfl (fun e he => by simp [exec] at he) fun _ _ => TS.pure ⟨trivial, ?_⟩)
            rw [idUses_emit, idUses_notifId, hi']
            simp only [Out.infoIds, infoOf, List.count_singleton]
            by_cases hx : i = x
            · simp only [hx, if_true, beq_self_eq_true]; omega
            · simp only [hx, if_false, beq_iff_eq]; omega
          · exact TS.pure ⟨trivial, by omega⟩
      refine TS.uses (L := [.base]) (.issue (by simp [Cmd.kind])) (fun c w hc => hq c w (by simp_all)) trivial (by decide) fun a n1 w1 _ hn1 => ?_
      split
      · exact TS.pure ⟨trivial, hn1⟩
      · exact TS.pure ⟨trivial, hn1⟩
      · exact hst _ _ _ _ hn1
    | _ => simp [Msg.kinds] at hk

/-- Between two restarts, no notification id appears twice in the query results sent, however the handlers are interleaved. -/
theorem C40_query_ids_unique {cfg : Cfg} {ms : List Msg} {s : Sys} (h : Hist cfg false ms s) : (s.w.outbox.flatMap Out.infoIds).Nodup := by
  rw [List.nodup_iff_count]
  intro x
  have := (h.tokens (I := fun _ => True) (μ := idUses x) (g := fun _ => 0) (G := 1) (MS := ms)
    (fun m => Int.le_refl _) trivial (fun _ _ _ => trivial) (fun _ _ => rfl) (fun hb => by cases hb)
    (fun m _ w _ _ _ => idOnce cfg x m w _) (fun _ hm => hm) (by simp [idUses, World.init])).2
  have h0 : idUses x .init = 1 := by simp [idUses, World.init]
  have hs : (ms.map fun _ => (0 : Int)).sum = 0 := by induction ms <;> simp_all
  rw [h0, hs] at this
  unfold idUses at this
  split at this <;> omega

namespace Ex
/-- Two summaries. -/
def summaries : List (Oracle × Conc.Choice Msg) :=
  asked ++ startAll (nil, .querySummary hdr [['c', '1']] []) 9 6 ++ startAll (nil, .querySummary hdr [['c', '1']] []) 10 6
end Ex

example : Hist Ex.cfg false (Ex.summaries.flatMap fun x => Conc.Choice.msgs x.2) (runSys Ex.cfg { w := .init } Ex.summaries) ∧
    (runSys Ex.cfg { w := .init } Ex.summaries).w.outbox.flatMap Out.infoIds = [0, 1, 2] :=
  ⟨Hist.init.runs Ex.summaries, by decide +kernel⟩

/-- After a restart the ids start again (aggregator.py:81). -/
theorem C40_restart_fails : ¬ ∀ s : Sys, Reach Ex.cfg s → (s.w.outbox.flatMap Out.infoIds).Nodup := fun h =>
  absurd (h _ ((Reach.init.runs Ex.asked).restart.runs (Ex.startAll (Ex.nil, .querySummary Ex.hdr [['c', '1']] []) 0 6))) (by decide +kernel)

end OpenNSA.Agg
