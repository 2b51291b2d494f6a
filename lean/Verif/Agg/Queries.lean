import Verif.Agg.ReserveReplies
/- Effect of reservation requests and of queries when messages are handled one after the other. -/
namespace OpenNSA.Agg
open OpenNSA Py Coro

/-! ### reserve -/

theorem mem_dsets {κ ν : Type} [DecidableEq κ] : ∀ (l d : List (κ × ν)) (e : κ × ν), e ∈ dsets d l → e ∈ l ∨ e ∈ d
  | [], d, e, h => Or.inr h
  | x :: l, d, e, h => by
    rcases mem_dsets l _ e h with h | h
    · exact Or.inl (by simp [h])
    · rcases mem_dset_of h with h | h
      · exact Or.inl (by simp [h])
      · exact Or.inr h

theorem resvEntries_skey (conn : CRow) : ∀ (i : Nat) (calls : List PCall), ∀ e ∈ resvEntries conn i calls, e.2.skey = conn.key
  | _, [], e, h => by cases h
  | i, c :: cs, e, h => by
    unfold resvEntries at h
    split at h
    · rcases List.mem_cons.mp h with rfl | h
      · rfl
      · exact resvEntries_skey conn _ cs e h
    · exact resvEntries_skey conn _ cs e h

/-- The effect of a reservation request answered by `r`: nothing, or a new connection and requests for an initial part of a path, the whole
path if the answer is positive. -/
inductive ReserveEff (cfg : Cfg) (h : Hdr) (c : Crit) (w w' : World) (r : Except Err (Option Str)) : Prop
  | nothing (hs : Same w w') (hr : ∃ e, r = .error e)
  | made {row calls terms path pre} (hkey : row.key = w.ckey) (hnew : ∀ r ∈ w.conns, r.cid ≠ row.cid) (hreq : row.requester = h.requester)
      (hst : row.st.r = .checking ∧ row.st.p = .released) (hends : row.src = c.src ∧ row.dst = c.dst)
      (hpath : choosePath cfg c.src c.dst = .ok path ∨ pre = []) (hpre : pre <+: path)
      (hcalls : List.Forall₂ (CallFor cfg row c.start c.end_) calls pre) (hcorr : calls.map (·.corr) = draws calls.length w.orc.corrs)
      (hterms : ∀ t ∈ terms, ∃ i, t.op = .terminate i)
      (hs : Same { w with
        conns := w.conns ++ [row]
        ckey := w.ckey + 1
        sent := w.sent ++ calls ++ terms
        resv := dsets w.resv (resvEntries row 0 calls) } w')
      (hok : ∀ i, r = .ok i → i = some row.cid ∧ choosePath cfg c.src c.dst = .ok path ∧ pre = path ∧ row.st.l = .created ∧ terms = [] ∧ row.bw = c.bw)

theorem made_good {w : World} (hg : Good w) {row : CRow} (hkey : row.key = w.ckey) (hnew : ∀ r ∈ w.conns, r.cid ≠ row.cid)
    (heap : List (Obj CRow)) (hh : ∀ (i : Nat) x, w.cheap[i]? = some x → heap[i]? = some x) (calls : List PCall) (sent : List PCall) (orc : Oracle) :
    Good { w with
      conns := w.conns ++ [row]
      cheap := heap
      ckey := w.ckey + 1
      sent := sent
      resv := dsets w.resv (resvEntries row 0 calls)
      orc := orc } := by
  have hmem : ∀ k, (∃ r ∈ w.conns, r.key = k) → ∃ r ∈ w.conns ++ [row], r.key = k :=
    fun k ⟨r, h1, h2⟩ => ⟨r, by simp [h1], h2⟩
  refine ⟨?_, ?_, ?_, hg.skeys, hg.skeyb, hg.scids, ?_, hg.scache, fun s hs => hmem _ (hg.sfk s hs), ?_, ?_⟩
  · simp only [List.map_append, List.map_cons, List.map_nil]
    rw [List.nodup_append]
    refine ⟨hg.ckeys, by simp, ?_⟩
    rintro a ha b hb rfl
    obtain ⟨s, hs, rfl⟩ := List.mem_map.mp ha
    simp only [List.mem_singleton] at hb
    exact absurd (hb.trans hkey) (Nat.ne_of_lt (hg.ckeyb s hs))
  · intro s hs
    rcases List.mem_append.mp hs with hs | hs
    · exact Nat.lt_succ_of_lt (hg.ckeyb s hs)
    · rw [List.mem_singleton.mp hs, hkey]; exact Nat.lt_succ_self _
  · simp only [List.map_append, List.map_cons, List.map_nil]
    rw [List.nodup_append]
    refine ⟨hg.ccids, by simp, ?_⟩
    rintro a ha b hb rfl
    obtain ⟨s, hs, rfl⟩ := List.mem_map.mp ha
    simp only [List.mem_singleton] at hb
    exact hnew s hs hb
  · intro i ref h
    obtain ⟨x, h1, h2, h3⟩ := hg.ccache _ _ h
    exact ⟨x, hh _ _ h1, by simp [h2], h3⟩
  · intro e he
    rcases mem_dsets _ _ _ he with he | he
    · exact ⟨row, by simp, (resvEntries_skey _ _ _ e he).symm⟩
    · exact hmem _ (hg.rfk e he)
  · intro e he
    obtain ⟨x, h1, h2, h3⟩ := hg.qfk e he
    exact ⟨x, hh _ _ h1, by simp [h2], h3⟩

theorem callFor_congr {cfg : Cfg} {row row' : CRow} {s e : Option Time} (hc : row'.cid = row.cid) (hb : row'.bw = row.bw) {calls : List PCall}
    {ls : List Link} (h : List.Forall₂ (CallFor cfg row s e) calls ls) : List.Forall₂ (CallFor cfg row' s e) calls ls :=
  h.imp fun _ _ x => ⟨by rw [x.op, hc, hb], x.prov⟩

theorem resvEntries_congr {row row' : CRow} (hk : row'.key = row.key) : ∀ (i : Nat) (calls : List PCall),
    resvEntries row' i calls = resvEntries row i calls
  | _, [] => rfl
  | i, c :: cs => by
    unfold resvEntries
    split
    · rw [hk, resvEntries_congr hk]
    · exact resvEntries_congr hk _ _

theorem reserve_run {w : World} (hg : Good w) (cfg : Cfg) (h : Hdr) (cid : Option Str) (c : Crit) :
    Good ((reserve cfg h cid c).run machine w).1 ∧ ReserveEff cfg h c w ((reserve cfg h cid c).run machine w).1 ((reserve cfg h cid c).run machine w).2 := by
  unfold reserve
  cases cid with
  | some i => exact ⟨hg, .nothing .rfl ⟨_, rfl⟩⟩
  | none =>
    simp only [run_bind', run_ofExcept]
    cases admit cfg h c with
    | error e => exact ⟨hg, .nothing .rfl ⟨_, rfl⟩⟩
    | ok u =>
      simp only [andThen_ok]
      have ho := reserveNew_outcome cfg h c w hg.ckeyb
      generalize (reserveNew cfg h c).run machine w = wr at ho
      obtain ⟨w', r⟩ := wr
      simp only at ho ⊢
      have happ : ∀ (x : List (Obj CRow)) (i : Nat) y, w.cheap[i]? = some y → (w.cheap ++ x)[i]? = some y := fun x i y hi => getElem?_append_of hi
      cases ho with
      | db =>
        rename_i x orc
        refine ⟨?_, .nothing (by constructor <;> rfl) ⟨_, rfl⟩⟩
        -- the object that could not be stored is not referred to
        exact ⟨hg.ckeys, hg.ckeyb, hg.ccids, hg.skeys, hg.skeyb, hg.scids, fun i ref hi => by
          obtain ⟨x, h1, h2, h3⟩ := hg.ccache i ref hi; exact ⟨x, happ _ _ _ h1, h2, h3⟩, hg.scache, hg.sfk, hg.rfk, fun e he => by
          obtain ⟨x, h1, h2, h3⟩ := hg.qfk e he; exact ⟨x, happ _ _ _ h1, h2, h3⟩⟩
      | nothing hrow he hnew =>
        rename_i row orc e
        have hkey : row.key = w.ckey := by rw [hrow]; rfl
        have hg' := made_good hg hkey hnew (w.cheap ++ [⟨row, false⟩]) (happ _) [] w.sent orc
        refine ⟨hg', .made (row := row) (calls := []) (terms := []) (path := []) (pre := []) hkey hnew (by rw [hrow]; rfl) (by rw [hrow]; exact ⟨rfl, rfl⟩)
          (by rw [hrow]; exact ⟨rfl, rfl⟩) (Or.inr rfl) List.nil_prefix .nil rfl (by simp) ?_ fun i h => by cases h⟩
        constructor <;> simp [storedWorld, dsets, resvEntries]
      | stopped hrow hpath hchk hpre hprov hcalls hcorr hnew =>
        rename_i row orc calls path pre e
        have hkey : row.key = w.ckey := by rw [hrow]; rfl
        have hg' := made_good hg hkey hnew (w.cheap ++ [⟨row, false⟩]) (happ _) calls (w.sent ++ calls) orc
        refine ⟨hg', .made (row := row) (calls := calls) (terms := []) (path := path) (pre := pre) hkey hnew (by rw [hrow]; rfl)
          (by rw [hrow]; exact ⟨rfl, rfl⟩) (by rw [hrow]; exact ⟨rfl, rfl⟩) (Or.inl hpath) hpre hcalls hcorr (by simp) ?_ fun i h => by cases h⟩
        constructor <;> simp [storedWorld]
      | acked hrow hpath hcalls hres hcorr hnew =>
        rename_i row orc calls path
        have hkey : row.key = w.ckey := by rw [hrow]; rfl
        have hg' := made_good hg hkey hnew (w.cheap ++ [⟨row, false⟩]) (happ _) calls (w.sent ++ calls) orc
        refine ⟨hg', .made (row := row) (calls := calls) (terms := []) (path := path) (pre := path) hkey hnew (by rw [hrow]; rfl)
          (by rw [hrow]; exact ⟨rfl, rfl⟩) (by rw [hrow]; exact ⟨rfl, rfl⟩) (Or.inl hpath) (List.prefix_refl _) hcalls hcorr (by simp) ?_ ?_⟩
        · constructor <;> simp [storedWorld]
        · intro i hi
          refine ⟨by simpa using hi.symm, hpath, rfl, by rw [hrow]; rfl, rfl, by rw [hrow]; rfl⟩
      | refused hrow hpath hcalls hresults hres hterm hcorr hnew =>
        rename_i row orc calls path results terms
        let row' : CRow := { row with st := ⟨.checking, .released, .terminated⟩ }
        have hkey : row'.key = w.ckey := by show row.key = _; rw [hrow]; rfl
        have hg' := made_good hg (row := row') hkey hnew (w.cheap ++ [⟨row', false⟩]) (happ _) calls (w.sent ++ calls ++ terms) orc
        rw [resvEntries_congr (row := row) (row' := row') rfl] at hg'
        refine ⟨hg', .made (row := row') (calls := calls) (terms := terms) (path := path) (pre := path) hkey hnew (by show row.requester = _; rw [hrow]; rfl)
          ⟨rfl, rfl⟩ (by show row.src = _ ∧ row.dst = _; rw [hrow]; exact ⟨rfl, rfl⟩) (Or.inl hpath) (List.prefix_refl _)
          (callFor_congr (row := row) (row' := row') rfl rfl hcalls) hcorr ?_ ?_ fun i h => by cases h⟩
        · intro t ht
          obtain ⟨a, _, hx⟩ := forall₂_left_exists hterm t ht
          exact ⟨_, hx.op⟩
        · rw [resvEntries_congr (row := row) (row' := row') rfl]
          constructor <;> simp [storedWorld, row']

/-! ### Queries -/

/-- What a summary query reports. -/
def summaryInfos (w : World) : Nat → List CRow → List Info
  | _, [] => []
  | n, c :: cs => infoOf c (summaryStatus (w.segments c.key)) n [] :: summaryInfos w (n + 1) cs

theorem summaryLoop_run : ∀ (rows : List CRow) (w : World), Good w → ∃ w', (summaryLoop rows).run machine w = (w', .ok (summaryInfos w w.notif rows)) ∧
    Good w' ∧ Same { w with notif := w.notif + rows.length } w'
  | [], w, hg => ⟨w, rfl, hg, by constructor <;> rfl⟩
  | c :: cs, w, hg => by
    obtain ⟨w1, refs, h1, l1, g1, s1⟩ := getSubConnections_run hg c.key
    obtain ⟨w3, h3, g3, hs3⟩ := summaryLoop_run cs { w1 with notif := w1.notif + 1 } (g1.frame w1.orc (w1.notif + 1) w1.outbox w1.sent w1.qcalls)
    refine ⟨w3, ?_, g3, ?_⟩
    · simp only [summaryLoop, run_bind', h1, andThen_ok, getSs_run s1, run_issue, machine_exec, exec_notifId, h3, run_pure, summaryInfos]
      have hseg : ∀ k, World.segments { w1 with notif := w1.notif + 1 } k = w.segments k := fun k => by
        simp only [World.segments, l1.same.subs]
      have hn : w1.notif = w.notif := l1.same.notif
      have : ∀ (n : Nat) (l : List CRow), summaryInfos { w1 with notif := w1.notif + 1 } n l = summaryInfos w n l := by
        intro n l
        induction l generalizing n with
        | nil => rfl
        | cons x l ih => simp only [summaryInfos, hseg, ih]
      rw [this, hn]
    · have h := l1.same
      refine ⟨hs3.conns.trans h.conns, hs3.subs.trans h.subs, hs3.ckey.trans h.ckey, hs3.skey.trans h.skey, hs3.resv.trans h.resv, hs3.qreqs.trans h.qreqs,
        hs3.qcalls.trans h.qcalls, ?_, hs3.outbox.trans h.outbox, hs3.sent.trans h.sent⟩
      rw [hs3.notif]
      simp only [h.notif, List.length_cons]
      omega

/-- The rows a summary query selects. -/
def World.selected (w : World) (cfg : Cfg) (asker : Str) (cids : List Str) : List CRow :=
  w.conns.filter fun r => (decide (asker ∈ cfg.admins) || decide (r.requester = asker)) && (decide (cids = []) || decide (r.cid ∈ cids))

/-- The effect of `querySummary`. -/
inductive SummaryEff (cfg : Cfg) (h : Hdr) (cids gids : List Str) (w w' : World) (r : Except Err (Option Str)) : Prop
  | refused (hq : cids = [] ∧ gids ≠ []) (hr : r = .error .db) (hs : Same w w')
  | told (hq : ¬ (cids = [] ∧ gids ≠ [])) (hr : r = .ok none)
      (hs : Same { w with
        notif := w.notif + (w.selected cfg h.requester cids).length
        outbox := w.outbox ++ [.querySummary h.requester h.corr (summaryInfos w w.notif (w.selected cfg h.requester cids))] } w')

theorem querySummary_run {w : World} (hg : Good w) (cfg : Cfg) (h : Hdr) (cids gids : List Str) :
    Good ((querySummary cfg h cids gids).run machine w).1 ∧
    SummaryEff cfg h cids gids w ((querySummary cfg h cids gids).run machine w).1 ((querySummary cfg h cids gids).run machine w).2 := by
  simp only [querySummary]
  split
  · rename_i hq
    exact ⟨hg, .refused hq rfl .rfl⟩
  · rename_i hq
    have hfind : exec w (.findConns (if h.requester ∈ cfg.admins then none else some h.requester) (if cids = [] then none else some cids))
        = (w, .ok (w.selected cfg h.requester cids)) := by
      simp only [exec, World.selected]
      congr 3
      funext r
      by_cases h1 : h.requester ∈ cfg.admins <;> by_cases h2 : cids = [] <;> simp [h1, h2, Option.all]
    obtain ⟨w1, h1, g1, hs1⟩ := summaryLoop_run (w.selected cfg h.requester cids) w hg
    simp only [run_bind', run_issue, machine_exec, hfind, andThen_ok, h1, exec_emit, run_pure]
    exact ⟨g1.frame _ _ _ _ _, .told hq rfl ⟨hs1.conns, hs1.subs, hs1.ckey, hs1.skey, hs1.resv, hs1.qreqs, hs1.qcalls, hs1.notif,
      by simp only [hs1.outbox], hs1.sent⟩⟩

end OpenNSA.Agg
