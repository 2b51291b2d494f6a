import Verif.Agg.PropsQueries
import Verif.Agg.RecQueries
import Verif.Agg.Books
/- Recursive queries (C37): answers are complete, in every interleaving. -/
namespace OpenNSA.Agg
open OpenNSA Py Coro

/-! ### Statement -/

/-- A query of that connection was received from the requester `to_` with correlation id `cb`, and `calls`, made one after the other,
ask the first segments of `n`, which are all the segments known when the query was received, and possibly later ones. -/
def Asked (T : List (Msg × World)) (cb to_ cid : Str) (key : Nat) (w : World) (n : Nat) (calls : List PCall) : Prop :=
  ∃ cids h w0, (Msg.queryRecursive h [cid] [], w0) ∈ T ∧ h.corr = cb ∧ h.requester = to_ ∧ segCids w0 key <+: cids ∧ cids <+: segCids w key ∧
    cids.length = n ∧ calls.map (·.op) <+: cids.map POp.query ∧ calls <:+: w.sent

/-- The first result in a reply with that correlation id. -/
def Replied (T : List (Msg × World)) (corr x : Str) : Prop := ∃ h xs w, (Msg.queryConfirmed h (x :: xs), w) ∈ T ∧ h.corr = corr

theorem Asked.keep {T : List (Msg × World)} {cb to_ cid : Str} {key n : Nat} {w w' : World} {calls : List PCall} (hk : Keep2 w w')
    (h : Asked T cb to_ cid key w n calls) : Asked T cb to_ cid key w' n calls := by
  obtain ⟨cids, hh, w0, h1, h2, h3, h4, h5, h6, h7, h8⟩ := h
  exact ⟨cids, hh, w0, h1, h2, h3, h4, h5.trans (hk.1.segCids key), h6, h7, h8.trans hk.2.1.isInfix⟩

/-! ### Invariant -/

/-- A complete answer. -/
def Complete (T : List (Msg × World)) (cb to_ cid : Str) (key : Nat) (w : World) (children : List Str) : Prop :=
  ∃ calls, Asked T cb to_ cid key w calls.length calls ∧ List.Forall₂ (fun c x => Replied T c.corr x) calls children

theorem Complete.keep {T : List (Msg × World)} {cb to_ cid : Str} {key : Nat} {w w' : World} {children : List Str} (hk : Keep2 w w')
    (h : Complete T cb to_ cid key w children) : Complete T cb to_ cid key w' children := by
  obtain ⟨calls, h1, h2⟩ := h
  exact ⟨calls, h1.keep hk, h2⟩

structure QInv (T : List (Msg × World)) (cb : Str) (w : World) : Prop where
  nodup : (dkeys w.qcalls).Nodup
  vals : ∀ e ∈ w.qcalls, ∀ x xs, e.2.2 = some (x :: xs) → Replied T e.1 x
  asked : ∀ r, dget w.qreqs cb = some r → ∃ id calls, IsC w r.conn id ∧ Asked T cb r.to_ id.2.1 id.1 w r.count calls ∧
    dkeys (w.qcalls.filter fun e => e.2.1 = cb) = calls.map (·.corr)
  closed : dget w.qreqs cb = none → ∀ e ∈ w.qcalls, e.2.1 ≠ cb
  outs : ∀ to_ i, Out.queryRecursive to_ cb i ∈ w.outbox → ∃ row ∈ w.conns, row.cid = i.cid ∧ Complete T cb to_ i.cid row.key w i.children

/-- The invariant; correlation ids given out are assumed different. -/
def QI (T : List (Msg × World)) (cb : Str) (w : World) : Prop :=
  (∀ e ∈ w.qcalls, ∃ c ∈ w.sent, c.corr = e.1) ∧ ((w.sent.map (·.corr)).Nodup → QInv T cb w)

/-- What most commands leave alone. -/
structure QSame (cb : Str) (w w' : World) : Prop where
  qreqs : w'.qreqs = w.qreqs
  qcalls : w'.qcalls = w.qcalls
  outs : w'.outbox.filter (Out.answers cb) = w.outbox.filter (Out.answers cb)

theorem QSame.refl (cb : Str) (w : World) : QSame cb w w := ⟨rfl, rfl, rfl⟩
theorem QSame.trans {cb : Str} {a b c : World} (h : QSame cb a b) (h' : QSame cb b c) : QSame cb a c :=
  ⟨h'.1.trans h.1, h'.2.trans h.2, h'.3.trans h.3⟩

theorem QSame.due {cb : Str} {w w' : World} (h : QSame cb w w') : answersDue cb w' ≤ answersDue cb w := by
  simp only [answersDue, h.qreqs, List.countP_eq_length_filter, h.outs]
  exact Int.le_refl _

theorem outs_mem {cb to_ : Str} {i : Info} {w : World} : Out.queryRecursive to_ cb i ∈ w.outbox ↔ Out.queryRecursive to_ cb i ∈ w.outbox.filter (Out.answers cb) := by
  simp [List.mem_filter, Out.answers]

theorem conns_key {w w' : World} (hk : Keep w w') {cid : Str} {P : Nat → Prop} (h : ∃ row ∈ w.conns, row.cid = cid ∧ P row.key) :
    ∃ row ∈ w'.conns, row.cid = cid ∧ P row.key := by
  obtain ⟨row, h1, h2, h3⟩ := h
  obtain ⟨r, g1, g2⟩ := hk.conns row h1
  simp only [CRow.id, Prod.mk.injEq] at g2
  exact ⟨r, g1, g2.2.1.trans h2, g2.1 ▸ h3⟩

theorem QInv.keep {T : List (Msg × World)} {cb : Str} {w w' : World} (hk : Keep2 w w') (hs : QSame cb w w') (h : QInv T cb w) : QInv T cb w' := by
  refine ⟨by rw [hs.qcalls]; exact h.nodup, by rw [hs.qcalls]; exact h.vals, fun r hr => ?_, by rw [hs.qreqs, hs.qcalls]; exact h.closed, fun to_ i hi => ?_⟩
  · rw [hs.qreqs] at hr
    obtain ⟨id, calls, h1, h2, h3⟩ := h.asked r hr
    exact ⟨id, calls, h1.keep hk.1, h2.keep hk, by rw [hs.qcalls]; exact h3⟩
  · rw [outs_mem, hs.outs, ← outs_mem] at hi
    obtain ⟨row, h1, h2, h3⟩ := h.outs to_ i hi
    exact conns_key (P := fun key => Complete T cb to_ i.cid key w' i.children) hk.1 ⟨row, h1, h2, h3.keep hk⟩

theorem nodup_prefix {w w' : World} (hg : Grow w w') (h : (w'.sent.map (·.corr)).Nodup) : (w.sent.map (·.corr)).Nodup :=
  h.sublist (hg.1.map _).sublist

theorem QI.keep {T : List (Msg × World)} {cb : Str} (w w' : World) (hk : Keep2 w w') (hs : QSame cb w w') (h : QI T cb w) : QI T cb w' := by
  refine ⟨?_, fun hn => (h.2 (nodup_prefix hk.2 hn)).keep hk hs⟩
  rw [hs.qcalls]
  intro e he
  obtain ⟨c, h1, h2⟩ := h.1 e he
  exact ⟨c, hk.2.1.subset h1, h2⟩

def quietKinds : List CKind := [CKind.base, .newS, .saveS, .popResv, .addResv, .sendReserve, .sendOther, .emitAbout, .emitSummary, .notifId]

theorem exec_qsame (cb : Str) {γ : Type} (c : Cmd γ) (w : World) (hc : c.kind ∈ quietKinds) : QSame cb w (exec w c).1 := by
  unfold quietKinds at hc
  by_cases hb : c.kind ∈ [CKind.base, .newS, .saveS]
  · have h := exec_base c w hb
    exact ⟨h.qreqs, h.qcalls, by rw [h.outbox]⟩
  · cases c with
    | emit o =>
      refine ⟨rfl, rfl, ?_⟩
      cases o <;> simp [Cmd.kind] at hc <;> simp [exec, Out.answers]
    | addQReq a b => simp [Cmd.kind] at hc
    | popQuery a => simp [Cmd.kind] at hc
    | setQCall _ _ _ => simp [Cmd.kind] at hc
    | popResv _ => exact ⟨rfl, rfl, rfl⟩
    | addResv _ _ => exact ⟨rfl, rfl, rfl⟩
    | notifId => exact ⟨rfl, rfl, rfl⟩
    | send _ => exact ⟨rfl, rfl, rfl⟩
    | _ => simp [Cmd.kind] at hb

/-! ### The handlers -/

section
variable {cfg : Cfg} {T : List (Msg × World)} {cb : Str}

/-- Parts of handlers that do not touch the books. -/
theorem TS.quietSpec {α β : Type} {p : Prog α} {f : α → Prog β} {n : Int} {w : World} {Q : α → World → Prop} {Q' : β → Int → World → Prop}
    (hs : Spec cfg p w Q) (hu : Uses quietKinds p) (hj : Ids cfg w) (hi : QI T cb w) (hn : 0 ≤ n) (hb : answersDue cb w + n ≤ 1)
    (h : ∀ a n' v, Ids cfg v → Keep2 w v → QI T cb v → n ≤ n' → answersDue cb v + n' ≤ 1 → Q a v →
      TS (Ids cfg) Keep2 (QI T cb) (answersDue cb) 1 (f a) n' v Q') :
    TS (Ids cfg) Keep2 (QI T cb) (answersDue cb) 1 (p >>= f) n w Q' :=
  TS.spec (R := QSame cb) (QSame.refl cb) (fun _ _ _ => QSame.trans) QI.keep (fun _ _ => QSame.due) (fun c w hc => exec_qsame cb c w hc) hs hu hj hi hn hb h

theorem filter_dset {d : List (Str × (Str × Option (List Str)))} {k cb' : Str} {v : Option (List Str)} (hn : (dkeys d).Nodup)
    (hd : ∃ q, dget d k = some (cb', q)) (cb : Str) :
    dkeys ((dset d k (cb', v)).filter fun e => e.2.1 = cb) = dkeys (d.filter fun e => e.2.1 = cb) := by
  induction d with
  | nil => obtain ⟨q, hq⟩ := hd; cases hq
  | cons x d ih =>
    obtain ⟨q, hq⟩ := hd
    simp only [dkeys, List.map_cons, List.nodup_cons] at hn
    by_cases hx : x.1 = k
    · obtain ⟨xk, xc, xv⟩ := x
      subst hx
      have : xc = cb' := by simp [dget] at hq; exact hq.1
      subst this
      simp only [dset, if_true, List.filter_cons]
      split <;> rfl
    · have h2 : dget d k = some (cb', q) := by simpa [dget, hx] using hq
      have := ih hn.2 ⟨q, h2⟩
      simp only [dset, if_neg hx, List.filter_cons]
      split
      · simp only [dkeys, List.map_cons] at this ⊢
        rw [this]
      · exact this

/-- All calls of a query have a result. -/
theorem all_results (l : List (Str × (Str × Option (List Str)))) (P : Str → Str → Prop) (hv : ∀ e ∈ l, ∀ x xs, e.2.2 = some (x :: xs) → P e.1 x)
    (hl : l.length ≤ (l.filterMap fun e => e.2.2.bind List.head?).length) :
    List.Forall₂ P (dkeys l) (l.filterMap fun e => e.2.2.bind List.head?) := by
  induction l with
  | nil => exact .nil
  | cons x l ih =>
    have hle : (l.filterMap fun e => e.2.2.bind List.head?).length ≤ l.length := List.length_filterMap_le _ _
    cases hx : x.2.2.bind List.head? with
    | none =>
      simp only [List.filterMap_cons, hx, List.length_cons] at hl
      omega
    | some y =>
      simp only [List.filterMap_cons, hx] at hl ⊢
      simp only [List.length_cons] at hl
      refine .cons ?_ (ih (fun e he => hv e (List.mem_cons_of_mem _ he)) (by omega))
      obtain ⟨k, c, o⟩ := x
      cases o with
      | none => cases hx
      | some ys =>
        cases ys with
        | nil => cases hx
        | cons z zs =>
          simp only [Option.bind_some, List.head?_cons, Option.some.injEq] at hx
          subst hx
          exact hv _ (List.mem_cons_self) z zs rfl

theorem qResults_filter (d : List (Str × (Str × Option (List Str)))) (cb : Str) :
    (d.filterMap fun e => if e.2.1 = cb then e.2.2.bind List.head? else none) = (d.filter fun e => e.2.1 = cb).filterMap fun e => e.2.2.bind List.head? := by
  induction d with
  | nil => rfl
  | cons x d ih =>
    simp only [List.filter_cons]
    by_cases hx : x.2.1 = cb
    · simp only [hx, decide_true, if_true, List.filterMap_cons]
      rw [ih]
    · simp only [hx, decide_false, if_false, List.filterMap_cons, Bool.false_eq_true]
      exact ih

/-- When there are as many results as calls were to be made, all were made and answered. -/
theorem complete_of_count {w : World} (h : QInv T cb w) {r : QReq} (hr : dget w.qreqs cb = some r) {scr : List Str}
    (hs : (w.qcalls.filterMap fun e => if e.2.1 = cb then e.2.2.bind List.head? else none) = scr) (hc : scr.length = r.count) :
    ∃ id, IsC w r.conn id ∧ Complete T cb r.to_ id.2.1 id.1 w scr := by
  obtain ⟨id, calls, h1, h2, h3⟩ := h.asked r hr
  refine ⟨id, h1, calls, ?_, ?_⟩
  all_goals
    rw [qResults_filter] at hs
    have hlen : (w.qcalls.filter fun e => e.2.1 = cb).length = calls.length := by
      have := congrArg List.length h3
      simpa [dkeys] using this
    obtain ⟨cids, hh, w0, g1, g2, g3, g4, g5, g6, g7, g8⟩ := h2
    have g9 := g7.length_le
    simp only [List.length_map] at g9
  · have hle : scr.length ≤ calls.length := by
      rw [← hs, ← hlen]
      exact List.length_filterMap_le _ _
    exact ⟨cids, hh, w0, g1, g2, g3, g4, g5, by omega, g7, g8⟩
  · have := all_results (w.qcalls.filter fun e => e.2.1 = cb) (Replied T) (fun e he => h.vals e (List.mem_filter.mp he).1) (by rw [hs]; omega)
    rw [h3, hs] at this
    exact List.forall₂_map_left_iff.mp this

theorem IsC.unique {w : World} {ref : Nat} {id id' : Nat × Str × Str} (h : IsC w ref id) (h' : IsC w ref id') : id = id' := by
  obtain ⟨o, h1, _, h3⟩ := h
  obtain ⟨o', h4, _, h6⟩ := h'
  rw [h1] at h4
  cases h4
  exact h3.symm.trans h6

theorem IsC.row {w : World} (hi : Ids cfg w) {ref : Nat} {id : Nat × Str × Str} (h : IsC w ref id) : ∃ row ∈ w.conns, row.id = id := by
  obtain ⟨o, h1, h2, h3⟩ := h
  obtain ⟨r, g1, g2⟩ := hi.cobj ref o h1 h2
  exact ⟨r, g1, g2.trans h3⟩

theorem sendQueries_sync (cfg : Cfg) (cb : Str) : ∀ l : List SRow, Issues (fun c => c.isAsync = false) (sendQueries cfg cb l)
  | [] => trivial
  | s :: ss => by
    unfold sendQueries
    refine Issues.bind ?_ fun p => Issues.bind ⟨rfl, fun r => by cases r <;> trivial⟩ fun c => Issues.bind ⟨rfl, fun r => by cases r <;> trivial⟩ fun _ =>
      Issues.bind ⟨rfl, fun r => by cases r <;> trivial⟩ fun _ => sendQueries_sync cfg cb ss
    cases cfg.provider s.src.network <;> trivial

theorem forall₂_ops {calls : List PCall} {pre : List SRow} (h : List.Forall₂ (OpFor cfg .query) calls pre) :
    calls.map (·.op) = pre.map fun s => POp.query s.cid := by
  induction h with
  | nil => rfl
  | cons hx _ ih => simp only [List.map_cons, ih, hx.op]

/-- The books after the calls of a query have been made. -/
theorem QI.asking {w : World} (hi : QI T cb w) {h : Hdr} {w0 : World} {cid : Str} {ref : Nat} {id : Nat × Str × Str} {cids : List Str}
    {calls : List PCall} {n : Nat} (orc : Oracle) (hm : (Msg.queryRecursive h [cid] [], w0) ∈ T) (hc : IsC w ref id) (hid : id.2.1 = cid)
    (h1 : segCids w0 id.1 <+: cids) (h2 : cids <+: segCids w id.1) (hn : cids.length = n) (hops : calls.map (·.op) <+: cids.map POp.query)
    (hnew : h.corr = cb → dget w.qreqs cb = none) :
    QI T cb { w with
      qreqs := dset w.qreqs h.corr ⟨h.requester, ref, n⟩
      sent := w.sent ++ calls
      qcalls := dsets w.qcalls (calls.map fun c => (c.corr, (h.corr, none)))
      orc := orc } := by
  constructor
  · intro e he
    rcases mem_dsets _ _ _ he with he | he
    · obtain ⟨c, g1, rfl⟩ := List.mem_map.mp he
      exact ⟨c, List.mem_append_right _ g1, rfl⟩
    · obtain ⟨c, g1, g2⟩ := hi.1 e he
      exact ⟨c, List.mem_append_left _ g1, g2⟩
  · intro hnd
    simp only [List.map_append] at hnd
    obtain ⟨hnd1, hnd2, hnd3⟩ := List.nodup_append.mp hnd
    have hq := hi.2 hnd1
    have hk : Keep2 w { w with
      qreqs := dset w.qreqs h.corr ⟨h.requester, ref, n⟩
      sent := w.sent ++ calls
      qcalls := dsets w.qcalls (calls.map fun c => (c.corr, (h.corr, none)))
      orc := orc } := ⟨.frame rfl rfl rfl rfl, List.prefix_append _ _, List.prefix_refl _⟩
    have hkeys : dkeys (calls.map fun c => (c.corr, (h.corr, (none : Option (List Str))))) = calls.map (·.corr) := by
      simp [dkeys, List.map_map, Function.comp_def]
    have hap : dsets w.qcalls (calls.map fun c => (c.corr, (h.corr, none))) = w.qcalls ++ calls.map fun c => (c.corr, (h.corr, none)) := by
      refine dsets_append _ _ ?_
      have : dkeys (w.qcalls ++ calls.map fun c => (c.corr, (h.corr, (none : Option (List Str))))) = dkeys w.qcalls ++ calls.map (·.corr) := by
        rw [← hkeys]; simp [dkeys]
      rw [this]
      refine List.nodup_append.mpr ⟨hq.nodup, hnd2, fun a ha b hb => ?_⟩
      obtain ⟨e, he, rfl⟩ := List.mem_map.mp ha
      obtain ⟨c, g1, g2⟩ := hi.1 e he
      exact hnd3 _ (List.mem_map.mpr ⟨c, g1, g2⟩) b hb
    rw [hap] at hk ⊢
    refine ⟨?_, ?_, ?_, ?_, ?_⟩
    · dsimp only
      have : dkeys (w.qcalls ++ calls.map fun c => (c.corr, (h.corr, (none : Option (List Str))))) = dkeys w.qcalls ++ calls.map (·.corr) := by
        rw [← hkeys]; simp [dkeys]
      rw [this]
      refine List.nodup_append.mpr ⟨hq.nodup, hnd2, fun a ha b hb => ?_⟩
      obtain ⟨e, he, rfl⟩ := List.mem_map.mp ha
      obtain ⟨c, g1, g2⟩ := hi.1 e he
      exact hnd3 _ (List.mem_map.mpr ⟨c, g1, g2⟩) b hb
    · intro e he x xs hx
      rcases List.mem_append.mp he with he | he
      · exact hq.vals e he x xs hx
      · obtain ⟨c, _, rfl⟩ := List.mem_map.mp he
        cases hx
    · simp only [dget_dset, List.filter_append]
      intro r hr
      by_cases hcb : h.corr = cb
      · simp only [hcb, if_true, Option.some.injEq] at hr
        subst hr
        refine ⟨id, calls, hc.keep hk.1, ⟨cids, h, w0, hid ▸ hm, hcb, rfl, h1, h2.trans (hk.1.segCids _), hn, hops, (List.suffix_append _ _).isInfix⟩, ?_⟩
        have he : w.qcalls.filter (fun e => e.2.1 = cb) = [] := by
          rw [List.filter_eq_nil_iff]
          intro e he
          simpa using hq.closed (hnew hcb) e he
        rw [he, List.nil_append, ← hkeys]
        congr 1
        rw [List.filter_eq_self]
        intro e he
        obtain ⟨c, _, rfl⟩ := List.mem_map.mp he
        simpa using hcb
      · simp only [hcb, if_false] at hr
        obtain ⟨id', calls', g1, g2, g3⟩ := hq.asked r hr
        refine ⟨id', calls', g1.keep hk.1, g2.keep hk, ?_⟩
        have he : (calls.map fun c => (c.corr, (h.corr, (none : Option (List Str))))).filter (fun e => e.2.1 = cb) = [] := by
          rw [List.filter_eq_nil_iff]
          intro e he
          obtain ⟨c, _, rfl⟩ := List.mem_map.mp he
          simpa using hcb
        rw [he, List.append_nil]
        exact g3
    · simp only [dget_dset]
      intro hd e he
      by_cases hcb : h.corr = cb
      · simp [hcb] at hd
      · simp only [hcb, if_false] at hd
        rcases List.mem_append.mp he with he | he
        · exact hq.closed hd e he
        · obtain ⟨c, _, rfl⟩ := List.mem_map.mp he
          exact hcb
    · intro to_ i ho
      obtain ⟨row, g1, g2, g3⟩ := hq.outs to_ i ho
      exact ⟨row, g1, g2, g3.keep hk⟩

theorem queryRecursive_complete {h : Hdr} {cids gids : List Str} {w : World} (hm : (Msg.queryRecursive h cids gids, w) ∈ T) (hj : Ids cfg w) (hi : QI T cb w)
    {n : Int} (hn : n = if h.corr = cb then 1 else 0) (hb : answersDue cb w + n ≤ 1) :
    TS (Ids cfg) Keep2 (QI T cb) (answersDue cb) 1 (queryRecursive cfg h cids gids) n w (TPost (QI T cb)) := by
  have h0 : 0 ≤ n := by rw [hn]; split <;> decide
  unfold queryRecursive
  split
  · exact TS.throw hi h0
  · rename_i hg
    split
    · exact TS.throw hi h0
    · rename_i cid
      have hg : gids = [] := by simpa using hg
      subst hg
      unfold queryOne
      refine TS.quietSpec (Spec.getConnection cid w) (.getConnection (by simp [quietKinds]) _) hj hi h0 hb fun ref n1 w1 j1 k1 i1 hn1 b1 ⟨id, hc1, hid⟩ => ?_
      refine TS.quietSpec (Spec.getC hc1) (.issue (by simp [Cmd.kind, quietKinds])) j1 i1 (by omega) b1 fun conn n2 w2 j2 k2 i2 hn2 b2 ⟨hc2, hrow⟩ => ?_
      have hkey : conn.key = id.1 := by rw [← hrow]; rfl
      refine TS.quietSpec (Spec.getSubConnections' conn.key w2) (.getSubConnections (by simp [quietKinds]) _) j2 i2 (by omega) b2
        fun refs n3 w3 j3 k3 i3 hn3 b3 ⟨scids, hs1, hs2, hs3⟩ => ?_
      refine TS.quietSpec (Spec.getSs' refs scids w3 hs3) (.getSs (by simp [quietKinds]) _) j3 i3 (by omega) b3 fun subs n4 w4 j4 k4 i4 hn4 b4 hsubs => ?_
      rw [hkey] at hs1 hs2
      have hc4 := hc2.keep (k3.1.trans k4.1)
      have hs1' := ((k1.1.trans k2.1).segCids id.1).trans hs1
      have hs2' := hs2.trans (k4.1.segCids id.1)
      refine TS.bind' (TS.sync rfl (fun e he => by simp [exec] at he) fun _ _ => ?_)
      obtain ⟨calls, pre, orc, r, hrun, hop, hpre, _, _⟩ := sendQueries_run cfg h.corr subs (exec w4 (.addQReq h.corr ⟨h.requester, ref, subs.length⟩)).1
      have hops : calls.map (·.op) <+: scids.map POp.query := by
        rw [forall₂_ops hop, ← hsubs, List.map_map]
        exact hpre.map _
      have hnone : h.corr = cb → dget w4.qreqs cb = none := by
        intro hcb
        have hn4' : 1 ≤ n4 := by rw [if_pos hcb] at hn; omega
        unfold answersDue at b4
        split at b4
        · omega
        · rename_i hq; simpa using hq
      have hq6 : QI T cb _ := QI.asking i4 (n := subs.length) (calls := calls) orc hm hc4 hid hs1' hs2' (by rw [← hsubs]; simp) hops hnone
      have hd : answersDue cb (exec w4 (.addQReq h.corr ⟨h.requester, ref, subs.length⟩)).1 - answersDue cb w4 ≤ if h.corr = cb then 1 else 0 := by
        simp only [answersDue, exec, dget_dset]
        by_cases hcb : h.corr = cb
        · subst hcb
          simp only [if_true, Option.isSome_some]
          split <;> omega
        · simp only [hcb, if_false]
          omega
      have jq : Ids cfg (exec w4 (.addQReq h.corr ⟨h.requester, ref, subs.length⟩)).1 := (j4.exec (.addQReq h.corr ⟨h.requester, ref, subs.length⟩) (show ∃ id, IsC w4 ref id from ⟨id, hc4⟩)).1
      have hd' : ∀ (q : List (Str × (Str × Option (List Str)))) (ss : List PCall) (o : Oracle), answersDue cb
          { (exec w4 (.addQReq h.corr ⟨h.requester, ref, subs.length⟩)).1 with sent := ss, qcalls := q, orc := o } =
          answersDue cb (exec w4 (.addQReq h.corr ⟨h.requester, ref, subs.length⟩)).1 := fun _ _ _ => rfl
      refine TS.bind' (TS.atomic (sendQueries_sync cfg h.corr subs) (fun e he => ?_) fun _ hr => ?_)
      · rw [hrun]
        simp only [hd', Int.sub_self, Int.sub_zero]
        exact ⟨hq6, by omega⟩
      · rw [hrun] at hr ⊢
        simp only [hd', Int.sub_self, Int.sub_zero]
        refine TS.quietSpec (Spec.cmd' fun _ _ _ => trivial) (.issue (by simp [Cmd.kind, quietKinds]))
          (by refine (Ids.self jq ?_ ?_ ?_ ?_ ?_ ?_ ?_ ?_ ?_ ?_ ?_).1 <;> rfl) hq6 (by omega) (by simp only [hd']; omega) fun res n7 w7 j7 k7 i7 hn7 b7 _ => ?_
        split
        · exact TS.pure ⟨i7, by omega⟩
        · exact TS.throw i7 (by omega)
    · exact TS.throw hi h0

/-- The books after a result has been stored. -/
theorem QI.storing {w : World} (hi : QI T cb w) {h : RHdr} {res : List Str} {w0 : World} {cb' : Str} {q : Option (List Str)}
    (hm : (Msg.queryConfirmed h res, w0) ∈ T) (hd : dget w.qcalls h.corr = some (cb', q)) :
    QI T cb { w with qcalls := dset w.qcalls h.corr (cb', some res) } := by
  have hmem := dget_some_mem hd
  constructor
  · intro e he
    rcases mem_dset_of he with rfl | he
    · exact hi.1 (h.corr, (cb', q)) hmem
    · exact hi.1 e he
  · intro hnd
    have hq := hi.2 hnd
    refine ⟨nodup_dset hq.nodup _ _, fun e he x xs hx => ?_, fun r hr => ?_, fun hn e he => ?_, fun to_ i ho => hq.outs to_ i ho⟩
    · rcases mem_dset_of he with rfl | he
      · simp only [Option.some.injEq] at hx
        subst hx
        exact ⟨h, xs, w0, hm, rfl⟩
      · exact hq.vals e he x xs hx
    · obtain ⟨id, calls, g1, g2, g3⟩ := hq.asked r hr
      exact ⟨id, calls, g1, g2, (filter_dset hq.nodup ⟨q, hd⟩ cb).trans g3⟩
    · rcases mem_dset_of he with rfl | he
      · exact hq.closed hn (h.corr, (cb', q)) hmem
      · exact hq.closed hn e he

/-- The books after a query is closed. -/
theorem QI.closing {w : World} (hi : QI T cb w) (cb' : Str) :
    QI T cb { w with qreqs := ddel w.qreqs cb', qcalls := w.qcalls.filter fun e => e.2.1 ≠ cb' } := by
  constructor
  · intro e he
    exact hi.1 e (List.mem_filter.mp he).1
  · intro hnd
    have hq := hi.2 hnd
    refine ⟨hq.nodup.sublist (List.filter_sublist.map _), fun e he => hq.vals e (List.mem_filter.mp he).1, fun r hr => ?_, fun hn e he => ?_,
      fun to_ i ho => hq.outs to_ i ho⟩
    · simp only [dget_ddel] at hr
      split at hr
      · cases hr
      · rename_i hne
        obtain ⟨id, calls, g1, g2, g3⟩ := hq.asked r hr
        refine ⟨id, calls, g1, g2, ?_⟩
        rw [← g3]
        congr 1
        rw [List.filter_filter]
        refine List.filter_congr fun e _ => ?_
        by_cases he : e.2.1 = cb
        · simp only [he, decide_true, Bool.true_and]
          simpa using fun hx => hne hx.symm
        · simp [he]
    · obtain ⟨h1, h2⟩ := List.mem_filter.mp he
      simp only [dget_ddel] at hn
      split at hn
      · rename_i hcb
        simpa [hcb] using h2
      · exact hq.closed hn e h1

theorem answerQuery_complete {cb' : Str} {r : QReq} {scr : List Str} {w : World} (hj : Ids cfg w) (hi : QI T cb w) {n : Int} (hn : 0 ≤ n)
    (hb : answersDue cb w + n ≤ 1) (hr : dget w.qreqs cb' = some r)
    (hs : (w.qcalls.filterMap fun e => if e.2.1 = cb' then e.2.2.bind List.head? else none) = scr) (hc : scr.length = r.count) :
    TS (Ids cfg) Keep2 (QI T cb) (answersDue cb) 1 (answerQuery cb' r scr) n w (TPost (QI T cb)) := by
  obtain ⟨id, hid⟩ := hj.qfk _ (dget_some_mem hr)
  simp only at hid
  have hcomp : cb' = cb → (w.sent.map (·.corr)).Nodup → Complete T cb r.to_ id.2.1 id.1 w scr := by
    rintro rfl hnd
    obtain ⟨id', h1, h2⟩ := complete_of_count (hi.2 hnd) hr hs hc
    rw [hid.unique h1]
    exact h2
  unfold answerQuery
  refine TS.bind' (TS.sync rfl (fun e he => by simp [exec] at he) fun _ _ => ?_)
  have hd : answersDue cb (exec w (.popQuery cb')).1 = answersDue cb w - if cb' = cb then 1 else 0 := by
    simp only [answersDue, exec, dget_ddel]
    by_cases hcb : cb' = cb
    · subst hcb
      simp only [if_true, Option.isSome_none, Bool.false_eq_true, if_false, hr, Option.isSome_some]
      omega
    · simp only [hcb, if_false]
      omega
  have hn2 : (if cb' = cb then 1 else 0 : Int) ≤ n - (answersDue cb (exec w (.popQuery cb')).1 - answersDue cb w) := by
    rw [hd]
    omega
  have hb2 : answersDue cb (exec w (.popQuery cb')).1 + (n - (answersDue cb (exec w (.popQuery cb')).1 - answersDue cb w)) ≤ 1 := by omega
  have hi2 : QI T cb (exec w (.popQuery cb')).1 := hi.closing cb'
  have hj2 := hj.exec (.popQuery cb') trivial
  have hid2 := hid.keep hj2.2
  have hcomp2 : cb' = cb → ((exec w (.popQuery cb')).1.sent.map (·.corr)).Nodup → Complete T cb r.to_ id.2.1 id.1 (exec w (.popQuery cb')).1 scr :=
    fun h1 h2 => (hcomp h1 h2).keep ⟨hj2.2, exec_grow _ _⟩
  have hj2 := hj2.1
  clear hd hid hcomp hi hj hb hr hs
  generalize n - (answersDue cb (exec w (.popQuery cb')).1 - answersDue cb w) = n2 at hn2 hb2 ⊢
  generalize (exec w (.popQuery cb')).1 = w2 at *
  have h2 : 0 ≤ n2 := by split at hn2 <;> omega
  refine TS.quietSpec (Spec.getC hid2) (.issue (by simp [Cmd.kind, quietKinds])) hj2 hi2 h2 hb2 fun conn n3 w3 j3 k3 i3 hn3 b3 ⟨hc3, _⟩ => ?_
  refine TS.quietSpec (Spec.getSubConnections conn.key w3) (.getSubConnections (by simp [quietKinds]) _) j3 i3 (by omega) b3 fun refs n4 w4 j4 k4 i4 hn4 b4 hsegs => ?_
  refine TS.quietSpec (Spec.getSs refs w4 hsegs) (.getSs (by simp [quietKinds]) _) j4 i4 (by omega) b4 fun subs n5 w5 j5 k5 i5 hn5 b5 _ => ?_
  refine TS.bind' (TS.ofExcept i5 (by omega) fun dps _ => ?_)
  refine TS.quietSpec (Spec.getC (hc3.keep (k4.1.trans k5.1))) (.issue (by simp [Cmd.kind, quietKinds])) j5 i5 (by omega) b5 fun conn n6 w6 j6 k6 i6 hn6 b6 ⟨hc6, hrow⟩ => ?_
  refine TS.quietSpec (Spec.cmd' fun _ _ _ => trivial) (.issue (by simp [Cmd.kind, quietKinds])) j6 i6 (by omega) b6 fun nid n7 w7 j7 k7 i7 hn7 b7 _ => ?_
  have hk : Keep2 w2 w7 := (((k3.trans k4).trans k5).trans k6).trans k7
  refine TS.bind' (TS.sync rfl (fun e he => by simp [exec] at he) fun _ _ => TS.pure ?_)
  have hd : answersDue cb (exec w7 (.emit (.queryRecursive r.to_ cb' (infoOf conn dps nid scr)))).1 = answersDue cb w7 + if cb' = cb then 1 else 0 := by
    simp only [answersDue, exec, List.countP_append, List.countP_singleton, Out.answers, decide_eq_true_eq]
    by_cases hcb : cb' = cb <;> by_cases hs : (dget w7.qreqs cb).isSome = true <;> simp only [hcb, hs, if_true, if_false] <;> simp
  refine ⟨⟨i7.1, fun hnd => ?_⟩, by rw [hd]; omega⟩
  have hq := i7.2 hnd
  have hk7 : Keep2 w7 (exec w7 (.emit (.queryRecursive r.to_ cb' (infoOf conn dps nid scr)))).1 := ⟨.frame rfl rfl rfl rfl, exec_grow _ _⟩
  refine ⟨hq.nodup, hq.vals, fun r hr => ?_, hq.closed, fun to_ i ho => ?_⟩
  · obtain ⟨id, calls, g1, g2, g3⟩ := hq.asked r hr
    exact ⟨id, calls, g1.keep hk7.1, g2.keep hk7, g3⟩
  · rcases List.mem_append.mp ho with ho | ho
    · obtain ⟨row, g1, g2, g3⟩ := hq.outs to_ i ho
      exact ⟨row, g1, g2, g3.keep hk7⟩
    · simp only [List.mem_singleton, Out.queryRecursive.injEq] at ho
      obtain ⟨rfl, hcb, rfl⟩ := ho
      obtain ⟨row, g1, g2⟩ := IsC.row j7 (hc6.keep k7.1)
      have hcid : (infoOf conn dps nid scr).cid = id.2.1 := by rw [← hrow]; rfl
      refine ⟨row, g1, by rw [hcid, ← g2]; rfl, ?_⟩
      have hkey : row.key = id.1 := by rw [← g2]; rfl
      rw [hcid, hkey]
      exact ((hcomp2 hcb.symm (nodup_prefix hk.2 hnd)).keep hk).keep hk7

theorem queryConfirmed_complete {h : RHdr} {res : List Str} {w : World} (hm : (Msg.queryConfirmed h res, w) ∈ T) (hj : Ids cfg w) (hi : QI T cb w)
    (hb : answersDue cb w + 0 ≤ 1) :
    TS (Ids cfg) Keep2 (QI T cb) (answersDue cb) 1 (queryRecursiveConfirmed h res) 0 w (TPost (QI T cb)) := by
  have hst : ∀ (cb' : Str) (q : Option (List Str)), dget w.qcalls h.corr = some (cb', q) →
      TS (Ids cfg) Keep2 (QI T cb) (answersDue cb) 1 (storeQuery h.corr cb' res) 0 w (TPost (QI T cb)) := by
    intro cb' q hd
    have hi1 : QI T cb (exec w (.setQCall h.corr cb' (some res))).1 := hi.storing hm hd
    have hj1 := (hj.exec (.setQCall h.corr cb' (some res)) trivial).1
    have hdue : answersDue cb (exec w (.setQCall h.corr cb' (some res))).1 = answersDue cb w := rfl
    refine TS.bind' (TS.sync rfl (fun e he => by simp [exec] at he) fun _ _ => ?_)
    rw [hdue, Int.sub_self, Int.sub_zero]
    rw [← hdue] at hb
    clear hd hdue
    generalize (exec w (.setQCall h.corr cb' (some res))).1 = w1 at *
    refine TS.bind' (TS.sync rfl (fun e he => by simp [exec] at he) fun q hq1 => ?_)
    simp only [exec, Except.ok.injEq, Int.sub_self] at hq1 ⊢
    cases q with
    | none => exact TS.throw hi1 (by omega)
    | some r =>
      refine TS.bind' (TS.sync rfl (fun e he => by simp [exec] at he) fun scr hs => ?_)
      simp only [exec, Except.ok.injEq, Int.sub_self] at hs ⊢
      split
      · rename_i hc
        exact answerQuery_complete hj1 hi1 (by omega) hb hq1 hs hc
      · exact TS.pure ⟨hi1, by omega⟩
  unfold queryRecursiveConfirmed
  refine TS.bind' (TS.sync rfl (fun e he => by simp [exec] at he) fun q hq => ?_)
  simp only [exec, Except.ok.injEq, Int.sub_self] at hq ⊢
  split
  · exact TS.pure ⟨hi, by omega⟩
  · exact TS.pure ⟨hi, by omega⟩
  · exact hst _ _ hq

/-- Every message keeps the books. -/
theorem msg_complete {m : Msg} {w : World} (hm : (m, w) ∈ T) (hj : Ids cfg w) (hi : QI T cb w) (hb : answersDue cb w + (if m.asks cb then 1 else 0) ≤ 1) :
    TS (Ids cfg) Keep2 (QI T cb) (answersDue cb) 1 (m.prog cfg) (if m.asks cb then 1 else 0) w (TPost (QI T cb)) := by
  by_cases hk : ∀ k ∈ m.kinds, k ∈ quietKinds
  · exact TS.msg (R := QSame cb) (QSame.refl cb) (fun _ _ _ => QSame.trans) QI.keep (fun _ _ => QSame.due) (fun c w hc => exec_qsame cb c w hc) hk hj hi
      (by split <;> decide)
  · cases m with
    | queryRecursive h cids gids => exact queryRecursive_complete hm hj hi (by simp [Msg.asks]) hb
    | queryConfirmed h res => exact queryConfirmed_complete hm hj hi hb
    | _ => simp [Msg.kinds, quietKinds] at hk

theorem Trace.books {b : Bool} {s : Sys} (h : Trace cfg b T s) (hask : T.countP (fun x => x.1.asks cb) ≤ 1) : QI T cb s.w := by
  have hsum : ∀ ms : List (Msg × World), ((ms.map (·.1)).map fun m => if m.asks cb then (1 : Int) else 0).sum = ms.countP fun x => x.1.asks cb := by
    intro ms
    induction ms with
    | nil => rfl
    | cons m ms ih =>
      simp only [List.map_cons, List.sum_cons, ih, List.countP_cons]
      split <;> omega
  refine (h.tokens (I := QI T cb) (μ := answersDue cb) (g := fun m => if m.asks cb then 1 else 0) (G := 1) (T := T)
    (fun m => by split <;> decide) ?_ ?_ (fun _ _ => rfl) (fun _ w hi => ⟨?_, ?_⟩)
    (fun m w hm hj hi hb => msg_complete hm hj hi hb) (fun _ hx => hx) ?_).1
  · exact ⟨by simp [World.init], fun _ => ⟨by simp [World.init, dkeys], by simp [World.init], by simp [World.init, dget], by simp [World.init], by simp [World.init]⟩⟩
  · intro w o hi
    exact QI.keep w _ ⟨.frame rfl rfl rfl rfl, Grow.refl w⟩ ⟨rfl, rfl, rfl⟩ hi
  · refine ⟨by simp [World.restart], fun hnd => ?_⟩
    have hq := hi.2 hnd
    refine ⟨by simp [World.restart, dkeys], by simp [World.restart], by simp [World.restart, dget], by simp [World.restart], fun to_ i ho => ?_⟩
    exact hq.outs to_ i ho
  · simp only [answersDue, World.restart, dget, Option.isSome_none, Bool.false_eq_true, if_false]
    split <;> omega
  · rw [hsum]
    have h0 : answersDue cb .init = 0 := by simp [answersDue, World.init, dget]
    omega

end

/-- In every interleaving, restarts included: a recursive query with a correlation id used once is answered only when every segment
asked has answered, and the answer contains the first result of the reply of each segment, in order. It goes to the requester that asked,
and the segments asked, each once, are the first ones stored for the connection: at least all that were known when the query was received.
Assumption: the correlation ids generated by the aggregator are different. -/
theorem C37_complete_partial {cfg : Cfg} {b : Bool} {T : List (Msg × World)} {s : Sys} (h : Trace cfg b T s) (hcorr : (s.w.sent.map (·.corr)).Nodup)
    {cb : Str} (hask : T.countP (fun x => x.1.asks cb) ≤ 1) {to_ : Str} {i : Info} (ho : Out.queryRecursive to_ cb i ∈ s.w.outbox) :
    ∃ row ∈ s.w.conns, row.cid = i.cid ∧
    ∃ hdr w0, (Msg.queryRecursive hdr [i.cid] [], w0) ∈ T ∧ hdr.corr = cb ∧ hdr.requester = to_ ∧
    ∃ cids calls, segCids w0 row.key <+: cids ∧ cids <+: segCids s.w row.key ∧ calls <:+: s.w.sent ∧ calls.map (·.op) = cids.map POp.query ∧
      List.Forall₂ (fun c x => ∃ hd xs w1, (Msg.queryConfirmed hd (x :: xs), w1) ∈ T ∧ hd.corr = c.corr) calls i.children := by
  obtain ⟨row, h1, h2, calls, ⟨cids, hdr, w0, g1, g2, g3, g4, g5, g6, g7, g8⟩, h4⟩ := ((h.books hask).2 hcorr).outs to_ i ho
  refine ⟨row, h1, h2, hdr, w0, g1, g2, g3, cids, calls, g4, g5, g8, ?_, h4⟩
  obtain ⟨t, ht⟩ := g7
  have hl := congrArg List.length ht
  simp only [List.length_append, List.length_map] at hl
  have : t = [] := List.length_eq_zero_iff.mp (by omega)
  rw [← ht, this, List.append_nil]

example : ∃ T, T.map (·.1) = (Ex.asked.flatMap fun x => Conc.Choice.msgs x.2) ∧ Trace Ex.cfg false T (runSys Ex.cfg { w := .init } Ex.asked) ∧
    ((runSys Ex.cfg { w := .init } Ex.asked).w.sent.map (·.corr)).Nodup ∧ T.countP (fun x => x.1.asks Ex.hdr.corr) ≤ 1 ∧
    (runSys Ex.cfg { w := .init } Ex.asked).w.outbox.getLast? = some (.queryRecursive ['u'] Ex.hdr.corr
      ⟨['c', '1'], ['u'], ⟨.held, .released, .created⟩, (true, 1, true), ⟨['A'], ['x'], Ex.vlan 3 3⟩, ⟨['B'], ['w'], Ex.vlan 7 7⟩, some 100, some 200, 0,
        [['x'], ['y']]⟩) := by
  obtain ⟨T, h1, h2⟩ := (Hist.init (cfg := Ex.cfg) (restarts := false) |>.runs Ex.asked).trace
  rw [List.nil_append] at h1
  refine ⟨T, h1, h2, by decide +kernel, ?_, by decide +kernel⟩
  have : T.countP (fun x => x.1.asks Ex.hdr.corr) = (T.map (·.1)).countP (Msg.asks Ex.hdr.corr) := by rw [List.countP_map]; rfl
  rw [this, h1]
  decide +kernel

/-- There is a correlation id nobody asked with. -/
theorem unasked (T : List (Msg × World)) : ∃ cb, T.countP (fun x => x.1.asks cb) ≤ 1 := by
  have : ∃ N, ∀ x ∈ T, ∀ h cids gids, x.1 = .queryRecursive h cids gids → h.corr.length < N := by
    induction T with
    | nil => exact ⟨0, by simp⟩
    | cons x T ih =>
      obtain ⟨N, hN⟩ := ih
      have hx : ∃ M, ∀ h cids gids, x.1 = .queryRecursive h cids gids → h.corr.length < M := by
        obtain ⟨m, w⟩ := x
        cases m with
        | queryRecursive h cids gids => exact ⟨h.corr.length + 1, by rintro h' c' g' he; cases he; omega⟩
        | _ => exact ⟨0, by rintro h' c' g' he; cases he⟩
      obtain ⟨M, hM⟩ := hx
      refine ⟨N + M, fun y hy h c g he => ?_⟩
      rcases List.mem_cons.mp hy with rfl | hy
      · have := hM h c g he; omega
      · have := hN y hy h c g he; omega
  obtain ⟨N, hN⟩ := this
  refine ⟨List.replicate N 'a', ?_⟩
  have : T.countP (fun x => x.1.asks (List.replicate N 'a')) = 0 := by
    rw [List.countP_eq_zero]
    intro x hx
    obtain ⟨m, w⟩ := x
    cases m with
    | queryRecursive h cids gids =>
      have := hN _ hx h cids gids rfl
      simp only [Msg.asks, decide_eq_true_eq]
      rintro he
      rw [he, List.length_replicate] at this
      omega
    | _ => simp [Msg.asks]
  omega

/-- A reply with a correlation id that no call had is ignored, in every interleaving. -/
theorem C37_unknown_ignored {cfg : Cfg} {s : Sys} (hs : Reach cfg s) {h : RHdr} (hc : ∀ c ∈ s.w.sent, c.corr ≠ h.corr) (o : Oracle) (res : List Str) :
    (sysStep cfg s o (.start (.queryConfirmed h res))).w = { s.w with orc := o } ∧
    (sysStep cfg s o (.start (.queryConfirmed h res))).tasks = s.tasks := by
  obtain ⟨ms, hh⟩ := hs.hist
  obtain ⟨T, _, ht⟩ := hh.trace
  obtain ⟨cb, hcb⟩ := unasked T
  have hd : dget s.w.qcalls h.corr = none := by
    rw [dget_none]
    intro e he heq
    obtain ⟨c, h1, h2⟩ := (ht.books hcb).1 e he
    exact hc c h1 (h2.trans heq)
  have hp : Msg.prog cfg (.queryConfirmed h res) = .cmd (.getQCall h.corr) _ := rfl
  simp only [sysStep, Conc.step]
  rw [hp]
  simp [Conc.runSync, machine, Cmd.isAsync, exec, hd, Coro.bind]

example : ∀ c ∈ (runSys Ex.cfg { w := .init } Ex.asked).w.sent, c.corr ≠ (⟨['m'], ['z']⟩ : RHdr).corr := by decide +kernel

end OpenNSA.Agg
