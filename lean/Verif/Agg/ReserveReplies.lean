import Verif.Agg.RequestRun
/- Effect of the replies to reservation requests when messages are handled one after the other. -/
namespace OpenNSA.Agg
open OpenNSA Py Coro

theorem takeResv_run (w : World) (h : RHdr) : (takeResv h).run machine w =
    match dget w.resv h.corr with
    | none => (w, .error .nonExistent)
    | some r => if h.prov ≠ r.prov then (w, .error .security) else ({ w with resv := ddel w.resv h.corr }, .ok r) := by
  simp only [takeResv, run_bind', run_issue, machine_exec, exec_getResv, andThen_ok]
  cases dget w.resv h.corr with
  | none => rfl
  | some r =>
    simp only
    split <;> simp [exec_popResv]

theorem good_pop {w : World} (hg : Good w) (corr : Str) : Good { w with resv := ddel w.resv corr } :=
  ⟨hg.ckeys, hg.ckeyb, hg.ccids, hg.skeys, hg.skeyb, hg.scids, hg.ccache, hg.scache, hg.sfk,
    fun e he => hg.rfk e (List.mem_filter.mp he).1, hg.qfk⟩

/-- The row of a confirmed segment. -/
def segRow (w : World) (r : Resv) (cid : Str) (c : Crit) : SRow := { newSub r cid c with key := w.skey }

/-- The reply is accounted for and the segment stored. -/
def storedSeg (w : World) (corr : Str) (r : Resv) (cid : Str) (c : Crit) : World :=
  { w with resv := ddel w.resv corr, subs := w.subs ++ [segRow w r cid c], skey := w.skey + 1 }

theorem newSeg_run {w : World} (r : Resv) (cid : Str) (c : Crit) (hf : ∀ s ∈ w.subs, s.cid ≠ cid) :
    (do let sref ← issue (.newS (newSub r cid c)); issue (.saveS sref) : Prog Unit).run machine w
      = ({ w with subs := w.subs ++ [segRow w r cid c], skey := w.skey + 1, sheap := w.sheap ++ [⟨segRow w r cid c, false⟩] }, .ok ()) := by
  simp only [run_bind', run_issue, machine_exec, exec_newS, andThen_ok, exec_saveS]
  rw [saveS_new (row := newSub r cid c) (by simp)]
  rw [if_neg]
  · simp [segRow]
  · simp only [List.any_eq_true, Bool.and_eq_true, decide_eq_true_eq, not_exists, not_and]
    intro s hs _ hc
    exact hf s hs hc

theorem newSeg_good {w : World} (hg : Good w) {r : Resv} {cid : Str} (c : Crit) (hf : ∀ s ∈ w.subs, s.cid ≠ cid)
    (hk : ∃ row ∈ w.conns, row.key = r.skey) :
    Good { w with subs := w.subs ++ [segRow w r cid c], skey := w.skey + 1, sheap := w.sheap ++ [⟨segRow w r cid c, false⟩] } := by
  refine ⟨hg.ckeys, hg.ckeyb, hg.ccids, ?_, ?_, ?_, hg.ccache, ?_, ?_, hg.rfk, hg.qfk⟩
  · simp only [List.map_append, List.map_cons, List.map_nil]
    rw [List.nodup_append]
    refine ⟨hg.skeys, by simp, ?_⟩
    rintro a ha b hb rfl
    obtain ⟨s, hs, rfl⟩ := List.mem_map.mp ha
    simp only [List.mem_singleton] at hb
    exact absurd hb (Nat.ne_of_lt (hg.skeyb s hs))
  · intro s hs
    rcases List.mem_append.mp hs with hs | hs
    · exact Nat.lt_succ_of_lt (hg.skeyb s hs)
    · rw [List.mem_singleton.mp hs]; exact Nat.lt_succ_self _
  · simp only [List.map_append, List.map_cons, List.map_nil]
    rw [List.nodup_append]
    refine ⟨hg.scids, by simp, ?_⟩
    rintro a ha b hb rfl
    obtain ⟨s, hs, rfl⟩ := List.mem_map.mp ha
    simp only [List.mem_singleton] at hb
    exact hf s hs hb
  · intro i ref h
    obtain ⟨x, h1, h2, h3⟩ := hg.scache _ _ h
    exact ⟨x, getElem?_append_of h1, by simp [h2], h3⟩
  · intro s hs
    rcases List.mem_append.mp hs with hs | hs
    · exact hg.sfk s hs
    · rw [List.mem_singleton.mp hs]; exact hk

theorem setCRow_setCRow (rows : List CRow) {a b : CRow} (h : b.key = a.key) : setCRow (setCRow rows a) b = setCRow rows b := by
  unfold setCRow
  rw [List.map_map]
  refine List.map_congr_left fun x _ => ?_
  simp only [Function.comp]
  by_cases hx : x.key = a.key
  · simp [hx, h]
  · simp [hx, h]

/-- The connection after a segment has been confirmed. -/
def labelled (w : World) (row : CRow) (r : Resv) (c : Crit) : CRow := confirmLabels row r.order (w.segments row.key).length c

theorem confirmLabels_frame (row : CRow) (o n : Nat) (c : Crit) : (confirmLabels row o n c).key = row.key ∧
    (confirmLabels row o n c).cid = row.cid ∧ (confirmLabels row o n c).st = row.st ∧ (confirmLabels row o n c).requester = row.requester := by
  unfold confirmLabels
  simp only
  split <;> split <;> exact ⟨rfl, rfl, rfl, rfl⟩

/-- The effect of `reserveConfirmed`. -/
inductive ConfirmEff (h : RHdr) (cid : Str) (c : Crit) (w w' : World) : Prop
  | unknown (hd : dget w.resv h.corr = none) (hs : Same w w')
  | other {r} (hd : dget w.resv h.corr = some r) (hp : h.prov ≠ r.prov) (hs : Same w w')
  | stored {r w1 row row'} (hd : dget w.resv h.corr = some r) (hp : h.prov = r.prov) (hw : w1 = storedSeg w h.corr r cid c) (hr : row ∈ w.conns)
      (hk : row.key = r.skey) (hrow : row' = labelled w1 row r c)
      (hq : (∃ e ∈ w1.resv, e.2.skey = row.key) ∨ (∃ s ∈ w1.segments row.key, s.st.r ≠ .held) ∨ row.st.r ≠ .checking)
      (hs : Same { w1 with conns := setCRow w.conns row' } w')
  | told {r w1 row row'} (hd : dget w.resv h.corr = some r) (hp : h.prov = r.prov) (hw : w1 = storedSeg w h.corr r cid c) (hr : row ∈ w.conns)
      (hk : row.key = r.skey) (hrow : row' = labelled w1 row r c) (hc : row.st.r = .checking)
      (hq : (∀ e ∈ w1.resv, e.2.skey ≠ row.key) ∧ ∀ s ∈ w1.segments row.key, s.st.r = .held)
      (hs : Same { w1 with
        conns := setCRow w.conns { row' with st := { row.st with r := .held } }
        outbox := w.outbox ++ [.reserveConfirmed row'.requester row'.cid row'.src row'.dst row'.start row'.end_ row'.bw] } w')

theorem switchR_held (s : ConnStates) : switchR s .held = if s.r = .checking then some { s with r := .held } else none := by
  rcases s with ⟨r, p, l⟩
  cases r <;> simp [switchR, reserveTransitions]

theorem reserveConfirmed_run {w : World} (hg : Good w) (h : RHdr) (cid : Str) (c : Crit)
    (hf : ∀ r, dget w.resv h.corr = some r → h.prov = r.prov → ∀ s ∈ w.subs, s.cid ≠ cid) :
    Good ((reserveConfirmed h cid c).run machine w).1 ∧ ConfirmEff h cid c w ((reserveConfirmed h cid c).run machine w).1 := by
  simp only [reserveConfirmed, run_bind', takeResv_run]
  cases hd : dget w.resv h.corr with
  | none => exact ⟨hg, .unknown hd .rfl⟩
  | some r =>
    simp only
    split
    · rename_i hp
      exact ⟨hg, .other hd hp .rfl⟩
    · rename_i hp
      have hp : h.prov = r.prov := by simpa using hp
      have hf := hf r hd hp
      let w0 : World := { w with resv := ddel w.resv h.corr }
      have g0 : Good w0 := good_pop hg _
      obtain ⟨row, hr, hk⟩ := hg.rfk _ (dget_some_mem hd)
      have hns := newSeg_run (w := w0) r cid c hf
      have g1 := newSeg_good g0 (r := r) c hf ⟨row, hr, hk⟩
      let v1 : World := { w0 with subs := w0.subs ++ [segRow w0 r cid c], skey := w0.skey + 1, sheap := w0.sheap ++ [⟨segRow w0 r cid c, false⟩] }
      have g1 : Good v1 := g1
      obtain ⟨cref, refs, v2, h2, l2, g2, c2, s2⟩ := family_run g1 (row := row) hr
      rw [show row.key = r.skey from hk] at h2
      have hlen : refs.length = (v1.segments row.key).length := s2.length_eq
      let row' : CRow := labelled v1 row r c
      obtain ⟨f1, f2, f3, f4⟩ := confirmLabels_frame row r.order (v1.segments row.key).length c
      obtain ⟨g3, c3, s3⟩ := updC_good g2 c2 (row' := row') f1 f2
      have hsetC := setC_saveC_run (w := v2) row' c2.obj
      simp only [run_bind', run_issue, machine_exec, exec_setC _ c2.obj, andThen_ok, exec_saveC] at hsetC
      simp only [run_bind', run_issue, machine_exec, exec_newS, exec_saveS, andThen_ok] at hns
      have hrow' : confirmLabels row r.order refs.length c = row' := by rw [hlen]; rfl
      let w1 := storedSeg w h.corr r cid c
      have hw1 : Same w1 v1 := by constructor <;> rfl
      have hseg : v1.segments row.key = w1.segments row.key := rfl
      have hs3 : Same { w1 with conns := setCRow w.conns row' } (updC v2 cref row') := by
        have h := hw1.trans l2.same
        exact ⟨by simp only [updC, l2.same.conns]; rfl, h.subs, h.ckey, h.skey, h.resv, h.qreqs, h.qcalls, h.notif, h.outbox, h.sent⟩
      have hresv : (updC v2 cref row').resv = w1.resv := hs3.resv
      simp only [andThen_ok, confirmOk, run_bind', run_issue, machine_exec, exec_newS, exec_saveS]
      rw [show World.saveS _ _ = (v1, Except.ok ()) from hns]
      simp only [andThen_ok, run_bind', h2, run_issue, machine_exec, exec_getC c2.obj, hrow', exec_setC _ c2.obj, exec_saveC, hsetC]
      have hss : List.Forall₂ (LiveS (updC v2 cref row')) refs (v1.segments row.key) := s2.imp fun _ _ x => s3 _ _ x
      simp only [confirmUp, run_bind', run_issue, machine_exec, exec_outstanding, hresv, andThen_ok]
      split
      · rename_i hout
        obtain ⟨e, he⟩ := List.exists_mem_of_length_pos hout
        have he := List.mem_filter.mp he
        exact ⟨g3, .stored hd hp rfl hr hk rfl (Or.inl ⟨e, he.1, by simpa [hk] using he.2⟩) hs3⟩
      · rename_i hout
        have hout' : ∀ e ∈ w1.resv, e.2.skey ≠ row.key := by
          intro e he hek
          apply hout
          exact List.length_pos_of_mem (List.mem_filter.mpr ⟨he, by simp [hek, hk]⟩)
        simp only [run_bind', getSs_run hss, andThen_ok, run_issue, machine_exec, exec_getC c3.obj]
        have hst : row'.st = row.st := f3
        split
        · rename_i hc
          rw [hst] at hc
          simp only [run_bind', switchC_upd _ c3.obj, hst, switchR_held]
          by_cases hchk : row.st.r = .checking
          · simp only [hchk, if_true]
            obtain ⟨g4, c4, _⟩ := updC_good g3 c3 (row' := { row' with st := { row.st with r := .held } }) rfl rfl
            simp only [andThen_ok, run_bind', run_issue, machine_exec, exec_getC c4.obj, exec_emit, run_pure]
            refine ⟨g4.frame _ _ _ _ _, .told hd hp rfl hr hk rfl hchk ⟨hout', fun s hs => ?_⟩ ?_⟩
            · have := List.all_eq_true.mp hc.1 s hs
              simpa using this
            · refine ⟨?_, hs3.subs, hs3.ckey, hs3.skey, hs3.resv, hs3.qreqs, hs3.qcalls, hs3.notif, ?_, hs3.sent⟩
              · simp only [updC]
                rw [l2.same.conns, setCRow_setCRow]
                · rfl
                · rfl
              · rw [show (updC (updC v2 cref row') cref _).outbox = (updC v2 cref row').outbox from rfl, hs3.outbox]
                rfl
          · simp only [hchk, if_false]
            exact ⟨g3, .stored hd hp rfl hr hk rfl (Or.inr (Or.inr hchk)) hs3⟩
        · rename_i hc
          refine ⟨g3, .stored hd hp rfl hr hk rfl ?_ hs3⟩
          rw [hst] at hc
          by_cases hall : ((v1.segments row.key).all fun s => decide (s.st.r = .held)) = true
          · refine Or.inr (Or.inr ?_)
            have : row.st.r = .held := by
              by_contra hne
              exact hc ⟨hall, hne⟩
            rw [this]; simp
          · refine Or.inr (Or.inl ?_)
            simp only [List.all_eq_true, decide_eq_true_eq] at hall
            push Not at hall
            exact hall

/-- The effect of `reserveFailed`. -/
inductive FailEff (h : RHdr) (w w' : World) : Prop
  | unknown (hd : dget w.resv h.corr = none) (hs : Same w w')
  | other {r} (hd : dget w.resv h.corr = some r) (hp : h.prov ≠ r.prov) (hs : Same w w')
  | late {r row} (hd : dget w.resv h.corr = some r) (hp : h.prov = r.prov) (hr : row ∈ w.conns) (hk : row.key = r.skey)
      (hst : row.st.r ≠ .checking ∧ row.st.r ≠ .failed) (hs : Same { w with resv := ddel w.resv h.corr } w')
  | told {r row} (hd : dget w.resv h.corr = some r) (hp : h.prov = r.prov) (hr : row ∈ w.conns) (hk : row.key = r.skey)
      (hst : row.st.r = .checking ∨ row.st.r = .failed)
      (hs : Same { w with
        resv := ddel w.resv h.corr
        conns := setCRow w.conns { row with st := { row.st with r := .failed } }
        outbox := w.outbox ++ [.reserveFailed row.requester row.cid] } w')

theorem switchR_failed (s : ConnStates) : switchR s .failed = if s.r = .checking then some { s with r := .failed } else none := by
  rcases s with ⟨r, p, l⟩
  cases r <;> simp [switchR, reserveTransitions]

theorem setCRow_self {rows : List CRow} {row : CRow} (hk : (rows.map (·.key)).Nodup) (hr : row ∈ rows) : setCRow rows row = rows := by
  unfold setCRow
  conv => rhs; rw [← List.map_id rows]
  refine List.map_congr_left fun x hx => ?_
  simp only [id]
  split
  · rename_i h; exact (nodup_map_inj hk hx hr h).symm
  · rfl

theorem reserveFailed_run {w : World} (hg : Good w) (h : RHdr) :
    Good ((reserveFailed h).run machine w).1 ∧ FailEff h w ((reserveFailed h).run machine w).1 := by
  simp only [reserveFailed, run_bind', takeResv_run]
  cases hd : dget w.resv h.corr with
  | none => exact ⟨hg, .unknown hd .rfl⟩
  | some r =>
    simp only
    split
    · rename_i hp
      exact ⟨hg, .other hd hp .rfl⟩
    · rename_i hp
      have hp : h.prov = r.prov := by simpa using hp
      obtain ⟨row, hr, hk⟩ := hg.rfk _ (dget_some_mem hd)
      have g0 : Good { w with resv := ddel w.resv h.corr } := good_pop hg _
      obtain ⟨ref, w1, h1, l1, g1, c1⟩ := getConnectionByKey_hit g0 (row := row) hr
      rw [hk] at h1
      have hs := l1.same
      simp only [andThen_ok, run_bind', h1, markFailed, run_issue, machine_exec, exec_getC c1.obj]
      by_cases hf : row.st.r = .failed
      · rw [if_neg (by simp [hf])]
        simp only [andThen_ok, run_bind', run_issue, machine_exec, exec_getC c1.obj, exec_emit, run_pure]
        refine ⟨g1.frame _ _ _ _ _, .told hd hp hr hk (Or.inr hf) ?_⟩
        refine ⟨?_, hs.subs, hs.ckey, hs.skey, hs.resv, hs.qreqs, hs.qcalls, hs.notif, by simp only [hs.outbox], hs.sent⟩
        have : ({ row with st := { row.st with r := .failed } } : CRow) = row := by rw [← hf]
        simp only [this, setCRow_self hg.ckeys hr]
        exact hs.conns
      · rw [if_pos hf]
        simp only [switchC_upd _ c1.obj, switchR_failed]
        by_cases hchk : row.st.r = .checking
        · simp only [hchk, if_true]
          obtain ⟨g4, c4, _⟩ := updC_good g1 c1 (row' := { row with st := { row.st with r := .failed } }) rfl rfl
          simp only [andThen_ok, run_bind', run_issue, machine_exec, exec_getC c4.obj, exec_emit, run_pure]
          refine ⟨g4.frame _ _ _ _ _, .told hd hp hr hk (Or.inl hchk) ?_⟩
          exact ⟨by simp only [updC, hs.conns], hs.subs, hs.ckey, hs.skey, hs.resv, hs.qreqs, hs.qcalls, hs.notif,
            by simp only [updC, hs.outbox], hs.sent⟩
        · simp only [hchk, if_false]
          exact ⟨g1, .late hd hp hr hk ⟨hchk, hf⟩ hs⟩

end OpenNSA.Agg
