import Verif.Agg.Queries
/- Effect of recursive queries and their replies when messages are handled one after the other. -/
namespace OpenNSA.Agg
open OpenNSA Py Coro

theorem sendQueries_run (cfg : Cfg) (cb : Str) : ∀ (L : List SRow) (w : World), ∃ (calls : List PCall) (pre : List SRow) (orc : Oracle)
    (r : Except Err Unit), (sendQueries cfg cb L).run machine w
        = ({ w with sent := w.sent ++ calls, qcalls := dsets w.qcalls (calls.map fun c => (c.corr, (cb, none))), orc }, r) ∧
      List.Forall₂ (OpFor cfg .query) calls pre ∧ pre <+: L ∧ (r = .ok () → pre = L) ∧ calls.map (·.corr) = draws calls.length w.orc.corrs
  | [], w => ⟨[], [], w.orc, .ok (), by simp [sendQueries, dsets], .nil, List.nil_prefix, fun _ => rfl, rfl⟩
  | s :: L, w => by
    rcases hp : cfg.provider s.src.network with e | p
    · exact ⟨[], [], w.orc, .error e, by simp [sendQueries, hp, dsets], .nil, List.nil_prefix, (fun h => by cases h), rfl⟩
    · let call : PCall := ⟨p.1, s.prov, w.orc.corrs.headD [], .query s.cid⟩
      let w1 : World := { w with sent := w.sent ++ [call], orc := { w.orc with corrs := w.orc.corrs.tail },
                                 qcalls := dset w.qcalls call.corr (cb, none) }
      obtain ⟨calls, pre, orc, r, h1, h2, h3, h4, h5⟩ := sendQueries_run cfg cb L w1
      refine ⟨call :: calls, s :: pre, orc, r, ?_, .cons ⟨rfl, ⟨p.2, hp⟩, rfl⟩ h2, by simpa using h3, fun h => by rw [h4 h], ?_⟩
      · have : (sendQueries cfg cb (s :: L)).run machine w = (sendQueries cfg cb L).run machine w1 := by
          simp only [sendQueries, run_bind', run_ofExcept, hp, andThen_ok, run_issue, machine_exec, exec_newCorr]
          simp only [exec_send, exec_setQCall, andThen_ok, w1, call, run_bind', run_issue, machine_exec]
        rw [this, h1]
        simp [w1, dsets]
      · simp only [List.map_cons, List.length_cons, draws, h5]; rfl

/-- The effect of `queryRecursive`. -/
inductive AskEff (cfg : Cfg) (h : Hdr) (cids gids : List Str) (w w' : World) (r : Except Err (Option Str)) : Prop
  | refused (hr : ∃ e, r = .error e) (hs : Same w w')
  | asked {row ref calls pre} (hrow : row ∈ w.conns) (hc : cids = [row.cid]) (hgid : gids = [])
      (hcalls : List.Forall₂ (OpFor cfg .query) calls pre) (hpre : pre <+: w.segments row.key)
      (hcorr : calls.map (·.corr) = draws calls.length w.orc.corrs) (hr : ∀ i, r = .ok i → i = none ∧ pre = w.segments row.key)
      (hlive : LiveC w' ref row)
      (hs : Same { w with
        qreqs := dset w.qreqs h.corr ⟨h.requester, ref, (w.segments row.key).length⟩
        qcalls := dsets w.qcalls (calls.map fun c => (c.corr, (h.corr, none)))
        sent := w.sent ++ calls } w')

theorem good_addQReq {w : World} (hg : Good w) {row : CRow} {ref : Nat} (hl : LiveC w ref row) (corr : Str) (r : QReq) (hr : r.conn = ref) :
    Good { w with qreqs := dset w.qreqs corr r } := by
  refine ⟨hg.ckeys, hg.ckeyb, hg.ccids, hg.skeys, hg.skeyb, hg.scids, hg.ccache, hg.scache, hg.sfk, hg.rfk, ?_⟩
  intro e he
  rcases mem_dset_of he with rfl | he
  · exact ⟨row, hr ▸ hl.obj, hl.mem, hr ▸ hl.cached⟩
  · exact hg.qfk e he

theorem queryRecursive_run {w : World} (hg : Good w) (cfg : Cfg) (h : Hdr) (cids gids : List Str) :
    Good ((queryRecursive cfg h cids gids).run machine w).1 ∧
    AskEff cfg h cids gids w ((queryRecursive cfg h cids gids).run machine w).1 ((queryRecursive cfg h cids gids).run machine w).2 := by
  unfold queryRecursive
  by_cases hgid : gids = []
  · rw [if_neg (by simp [hgid])]
    rcases cids with _ | ⟨cid, _ | ⟨cid2, rest⟩⟩
    · exact ⟨hg, .refused ⟨_, rfl⟩ .rfl⟩
    · simp only [queryOne]
      rcases getConnection_cases hg cid with ⟨h1, h2⟩ | ⟨row, hr, rfl, ref, w1, h1, l1, g1, c1⟩
      · simp only [run_bind', h1, andThen_error]
        exact ⟨hg, .refused ⟨_, rfl⟩ .rfl⟩
      · obtain ⟨w2, refs, h2, l2, g2, s2⟩ := getSubConnections_run g1 row.key
        have c2 := l2.c _ _ c1
        rw [seg_look l1] at s2
        let q : QReq := ⟨h.requester, ref, (w.segments row.key).length⟩
        have g3 := good_addQReq g2 c2 h.corr q rfl
        obtain ⟨calls, pre, orc, r, h4, h5, h6, h7, h8⟩ := sendQueries_run cfg h.corr (w.segments row.key) { w2 with qreqs := dset w2.qreqs h.corr q }
        have hsm := l1.same.trans l2.same
        have horc : w2.orc = w.orc := l2.orc.trans l1.orc
        have h8 : calls.map (·.corr) = draws calls.length w.orc.corrs := by rw [← horc]; exact h8
        simp only [run_bind', h1, andThen_ok, run_issue, machine_exec, exec_getC c1.obj, h2, getSs_run s2, exec_addQReq]
        have h4' : (sendQueries cfg h.corr (w.segments row.key)).run machine
            { w2 with qreqs := dset w2.qreqs h.corr ⟨h.requester, ref, (w.segments row.key).length⟩ } = _ := h4
        simp only [h4']
        have hsame : ∀ orc', Same { w with
            qreqs := dset w.qreqs h.corr ⟨h.requester, ref, (w.segments row.key).length⟩
            qcalls := dsets w.qcalls (calls.map fun c => (c.corr, (h.corr, none)))
            sent := w.sent ++ calls } { w2 with
            qreqs := dset w2.qreqs h.corr q
            sent := w2.sent ++ calls
            qcalls := dsets w2.qcalls (calls.map fun c => (c.corr, (h.corr, none)))
            orc := orc' } := fun orc' =>
          ⟨hsm.conns, hsm.subs, hsm.ckey, hsm.skey, hsm.resv, by simp only [hsm.qreqs, q], by simp only [hsm.qcalls], hsm.notif, hsm.outbox,
            by simp only [hsm.sent]⟩
        cases r with
        | error e =>
          simp only [andThen_error]
          exact ⟨g3.frame _ _ _ _ _, .asked hr rfl hgid h5 h6 h8 (fun i hi => by cases hi) ⟨c2.obj, c2.mem, c2.cached⟩ (hsame _)⟩
        | ok u =>
          obtain ⟨orc2, ha⟩ := acks_run (w.segments row.key).length { w2 with
            qreqs := dset w2.qreqs h.corr q
            sent := w2.sent ++ calls
            qcalls := dsets w2.qcalls (calls.map fun c => (c.corr, (h.corr, none)))
            orc := orc }
          simp only [andThen_ok, run_bind', run_issue, machine_exec, exec_acks, ha]
          have g4 : ∀ o, Good { w2 with
            qreqs := dset w2.qreqs h.corr q
            sent := w2.sent ++ calls
            qcalls := dsets w2.qcalls (calls.map fun c => (c.corr, (h.corr, none)))
            orc := o } := fun o => g3.frame _ _ _ _ _
          split
          · exact ⟨g4 _, .asked hr rfl hgid h5 h6 h8 (fun i hi => ⟨by simpa using hi.symm, h7 rfl⟩) ⟨c2.obj, c2.mem, c2.cached⟩ (hsame orc2)⟩
          · exact ⟨g4 _, .asked hr rfl hgid h5 h6 h8 (fun i hi => by cases hi) ⟨c2.obj, c2.mem, c2.cached⟩ (hsame orc2)⟩
    · exact ⟨hg, .refused ⟨_, rfl⟩ .rfl⟩
  · rw [if_pos hgid]
    exact ⟨hg, .refused ⟨_, rfl⟩ .rfl⟩

/-- Outstanding calls of a query, in order, with the answers that have arrived. -/
def qResultsOf (qcalls : List (Str × (Str × Option (List Str)))) (cb : Str) : List Str :=
  qcalls.filterMap fun e => if e.2.1 = cb then e.2.2.bind List.head? else none

/-- The effect of `queryRecursiveConfirmed`. -/
inductive AnswerEff (h : RHdr) (res : List Str) (w w' : World) : Prop
  | ignored (hd : dget w.qcalls h.corr = none ∨ ∃ cb x xs, dget w.qcalls h.corr = some (cb, some (x :: xs))) (hs : Same w w')
  | orphan {cb q} (hd : dget w.qcalls h.corr = some (cb, q)) (hq : q = none ∨ q = some []) (hn : dget w.qreqs cb = none)
      (hs : Same { w with qcalls := dset w.qcalls h.corr (cb, some res) } w')
  | waiting {cb q r} (hd : dget w.qcalls h.corr = some (cb, q)) (hq : q = none ∨ q = some []) (hn : dget w.qreqs cb = some r)
      (hc : (qResultsOf (dset w.qcalls h.corr (cb, some res)) cb).length ≠ r.count)
      (hs : Same { w with qcalls := dset w.qcalls h.corr (cb, some res) } w')
  | failed {cb q r row e} (hd : dget w.qcalls h.corr = some (cb, q)) (hq : q = none ∨ q = some []) (hn : dget w.qreqs cb = some r)
      (hc : (qResultsOf (dset w.qcalls h.corr (cb, some res)) cb).length = r.count)
      (hl : LiveC w r.conn row) (he : recursiveStatus (w.segments row.key) = .error e)
      (hs : Same { w with
        qcalls := (dset w.qcalls h.corr (cb, some res)).filter fun e => e.2.1 ≠ cb
        qreqs := ddel w.qreqs cb } w')
  | told {cb q r row dps} (hd : dget w.qcalls h.corr = some (cb, q)) (hq : q = none ∨ q = some []) (hn : dget w.qreqs cb = some r)
      (hc : (qResultsOf (dset w.qcalls h.corr (cb, some res)) cb).length = r.count)
      (hl : LiveC w r.conn row) (he : recursiveStatus (w.segments row.key) = .ok dps)
      (hs : Same { w with
        qcalls := (dset w.qcalls h.corr (cb, some res)).filter fun e => e.2.1 ≠ cb
        qreqs := ddel w.qreqs cb
        notif := w.notif + 1
        outbox := w.outbox ++ [.queryRecursive r.to_ cb (infoOf row dps w.notif (qResultsOf (dset w.qcalls h.corr (cb, some res)) cb))] } w')

theorem storeQuery_run {w : World} (hg : Good w) (h : RHdr) (res : List Str) {cb : Str} {q : Option (List Str)}
    (hd : dget w.qcalls h.corr = some (cb, q)) (hq : q = none ∨ q = some []) :
    Good ((storeQuery h.corr cb res).run machine w).1 ∧ AnswerEff h res w ((storeQuery h.corr cb res).run machine w).1 := by
  let w1 : World := { w with qcalls := dset w.qcalls h.corr (cb, some res) }
  have g1 : Good w1 := hg.frame _ _ _ _ _
  have hres : exec w1 (.qResults cb) = (w1, .ok (qResultsOf w1.qcalls cb)) := rfl
  simp only [storeQuery, run_bind', run_issue, machine_exec, exec_setQCall, andThen_ok, exec_getQReq]
  cases hn : dget w.qreqs cb with
  | none => exact ⟨g1, .orphan hd hq hn .rfl⟩
  | some r =>
    simp only [run_bind', run_issue, machine_exec]
    rw [show exec { w with qcalls := dset w.qcalls h.corr (cb, some res) } (.qResults cb) = (w1, .ok (qResultsOf w1.qcalls cb)) from hres]
    simp only [andThen_ok]
    split
    · rename_i hc
      obtain ⟨row, ho, hm, hca⟩ := hg.qfk _ (dget_some_mem hn)
      let w2 : World := { w1 with qreqs := ddel w1.qreqs cb, qcalls := w1.qcalls.filter fun e => e.2.1 ≠ cb }
      have g2 : Good w2 := ⟨hg.ckeys, hg.ckeyb, hg.ccids, hg.skeys, hg.skeyb, hg.scids, hg.ccache, hg.scache, hg.sfk, hg.rfk,
        fun e he => hg.qfk e (List.mem_filter.mp he).1⟩
      have c2 : LiveC w2 r.conn row := ⟨ho, hm, hca⟩
      obtain ⟨w3, refs, h3, l3, g3, s3⟩ := getSubConnections_run g2 row.key
      have c3 := l3.c _ _ c2
      have hsm := l3.same
      simp only [answerQuery, run_bind', run_issue, machine_exec, exec_popQuery, andThen_ok]
      rw [show exec _ (.getC r.conn) = (w2, .ok row) from exec_getC c2.obj]
      simp only [andThen_ok, run_bind', h3, getSs_run s3, run_ofExcept]
      have hseg : w2.segments row.key = w.segments row.key := rfl
      rw [hseg]
      cases he : recursiveStatus (w.segments row.key) with
      | error e => exact ⟨g3, .failed hd hq hn hc ⟨ho, hm, hca⟩ he hsm⟩
      | ok dps =>
        simp only [andThen_ok, run_bind', run_issue, machine_exec, exec_getC c3.obj, exec_notifId, exec_emit, run_pure]
        refine ⟨g3.frame _ _ _ _ _, .told hd hq hn hc ⟨ho, hm, hca⟩ he ?_⟩
        refine ⟨hsm.conns, hsm.subs, hsm.ckey, hsm.skey, hsm.resv, hsm.qreqs, hsm.qcalls, by simp only [hsm.notif]; rfl, ?_, hsm.sent⟩
        simp only [hsm.outbox, hsm.notif]
        rfl
    · rename_i hc
      exact ⟨g1, .waiting hd hq hn hc .rfl⟩

theorem queryConfirmed_run {w : World} (hg : Good w) (h : RHdr) (res : List Str) :
    Good ((queryRecursiveConfirmed h res).run machine w).1 ∧ AnswerEff h res w ((queryRecursiveConfirmed h res).run machine w).1 := by
  simp only [queryRecursiveConfirmed, run_bind', run_issue, machine_exec, exec_getQCall, andThen_ok]
  rcases hd : dget w.qcalls h.corr with _ | ⟨cb, _ | (_ | ⟨x, xs⟩)⟩
  · exact ⟨hg, .ignored (Or.inl hd) .rfl⟩
  · exact storeQuery_run hg h res hd (Or.inl rfl)
  · exact storeQuery_run hg h res hd (Or.inr rfl)
  · exact ⟨hg, .ignored (Or.inr ⟨cb, x, xs, hd⟩) .rfl⟩

end OpenNSA.Agg
