import Verif.Agg.Requests
/- Effect of commit, abort, provision, release and terminate when messages are handled one after the other. -/
namespace OpenNSA.Agg
open OpenNSA Py Coro

theorem getConnection_cases {w : World} (hg : Good w) (cid : Str) :
    ((getConnection cid).run machine w = (w, .error .nonExistent) ∧ ∀ r ∈ w.conns, r.cid ≠ cid) ∨
    ∃ row ∈ w.conns, row.cid = cid ∧ ∃ ref w', (getConnection cid).run machine w = (w', .ok ref) ∧ Look w w' ∧ Good w' ∧ LiveC w' ref row := by
  by_cases h : ∃ r ∈ w.conns, r.cid = cid
  · obtain ⟨row, hr, rfl⟩ := h
    exact Or.inr ⟨row, hr, rfl, getConnection_hit hg hr⟩
  · have h' : ∀ r ∈ w.conns, r.cid ≠ cid := fun r hr he => h ⟨r, hr, he⟩
    exact Or.inl ⟨getConnection_miss hg h', h'⟩

theorem checkLive_run {w : World} {ref : Nat} {row : CRow} (h : LiveC w ref row) :
    (checkLive ref).run machine w = (w, if row.st.l = .terminated then .error .gone else .ok ()) := by
  simp only [checkLive, run_bind', run_issue, machine_exec, exec_getC h.obj, andThen_ok]
  split <;> rfl

/-- The switch of the connection and the look-up of its segments. -/
theorem opened {w1 : World} (g1 : Good w1) {ref : Nat} {row : CRow} (c1 : LiveC w1 ref row) (st : ConnStates) :
    ∃ w3 refs, exec (updC w1 ref { row with st }) (.getC ref) = (updC w1 ref { row with st }, .ok { row with st }) ∧
      (getSubConnections row.key).run machine (updC w1 ref { row with st }) = (w3, .ok refs) ∧ Good w3 ∧
      List.Forall₂ (LiveS w3) refs (w1.segments row.key) ∧ refs.Nodup ∧ (∀ s ∈ w1.segments row.key, s.skey = row.key) ∧
      Same { w1 with conns := setCRow w1.conns { row with st } } w3 := by
  obtain ⟨g2, c2, s2⟩ := updC_good g1 c1 (row' := { row with st }) rfl rfl
  obtain ⟨w3, refs, h3, l3, g3, s3⟩ := getSubConnections_run g2 row.key
  have hn : (w1.segments row.key).Nodup := (List.Nodup.of_map _ g1.skeys).filter _
  refine ⟨w3, refs, exec_getC c2.obj, h3, g3, s3, refs_nodup s3 hn, ?_, ?_⟩
  · intro s hs
    simpa using (List.mem_filter.mp hs).2
  · exact Same.trans (by constructor <;> rfl) l3.same

/-- A segment of the connection, moved by `g` if `g` applies to it. -/
def Went (key : Nat) (g : ConnStates → Option ConnStates) (s s' : SRow) : Prop :=
  s.skey = key → ∀ st, g s.st = some st → s' = { s with st }

/-- The outcome `r` of a request: refused, or the connection switched by `f`, segments moved by `g`, and `op` sent for an initial
part of the segments. If the answer is positive, `op` was sent for all of them and all those that `g` applies to were moved. -/
inductive ReqEff (cfg : Cfg) (cid : Str) (f g : ConnStates → Option ConnStates) (op : Str → POp) (w w' : World) (r : Except Err (Option Str)) : Prop
  | refused (hr : ∀ row ∈ w.conns, row.cid = cid → row.st.l ≠ .terminated → f row.st = none)
      (hres : (∃ e, r = .error e) ∨ ∃ row ∈ w.conns, row.cid = cid ∧ row.st.l = .terminated) (h : Same w w')
  | done {row st subs calls pre} (hrow : row ∈ w.conns) (hc : row.cid = cid) (hl : row.st.l ≠ .terminated) (hf : f row.st = some st)
      (hsubs : List.Forall₂ (MovedBy row.key g) w.subs subs) (hcalls : List.Forall₂ (OpFor cfg op) calls pre)
      (hpre : pre <+: w.segments row.key) (hr : ∀ i, r = .ok i → i = some cid ∧ pre = w.segments row.key)
      (h : Same { w with conns := setCRow w.conns { row with st }, subs, sent := w.sent ++ calls } w')
      (hall : ∀ i, r = .ok i → List.Forall₂ (Went row.key g) w.subs subs)

theorem answer_run {w : World} {cid action : Str} {L : List SRow} {rs : List (Except Err Str)} :
    ∃ r, (answer cid action L rs).run machine w = (w, r) ∧ ∀ i, r = .ok i → i = some cid := by
  unfold answer
  split
  · exact ⟨_, rfl, fun i h => by simpa using h.symm⟩
  · exact ⟨_, rfl, fun i h => by cases h⟩

theorem seg_look {w w1 : World} (l : Look w w1) (k : Nat) : w1.segments k = w.segments k := by
  rw [World.segments, World.segments, l.same.subs]

theorem unique_refused {w : World} (hg : Good w) {row : CRow} (hr : row ∈ w.conns) {P : CRow → Prop} (h : P row) :
    ∀ r ∈ w.conns, r.cid = row.cid → P r := fun _ hr' hc => nodup_map_inj hg.ccids hr' hr hc ▸ h

/-- Send the operation and answer. -/
theorem sendAnswer_run {w w3 : World} (cfg : Cfg) {cid : Str} {f g : ConnStates → Option ConnStates} {op : Str → POp} {row : CRow} {st : ConnStates}
    {subs : List SRow} {L : List SRow} (action : Str) (g3 : Good w3) (hrow : row ∈ w.conns) (hc : row.cid = cid) (hl : row.st.l ≠ .terminated)
    (hf : f row.st = some st) (hsubs : List.Forall₂ (MovedBy row.key g) w.subs subs)
    (hL : List.Forall₂ (MovedBy row.key g) (w.segments row.key) L) (hsame : Same { w with conns := setCRow w.conns { row with st }, subs } w3)
    (hall : List.Forall₂ (Went row.key g) w.subs subs) :
    Good ((do
      sendAll cfg op L
      let results ← issue (.acks L.length)
      answer cid action L results : Prog (Option Str)).run machine w3).1 ∧
    ReqEff cfg cid f g op w ((do
      sendAll cfg op L
      let results ← issue (.acks L.length)
      answer cid action L results : Prog (Option Str)).run machine w3).1 ((do
      sendAll cfg op L
      let results ← issue (.acks L.length)
      answer cid action L results : Prog (Option Str)).run machine w3).2 := by
  obtain ⟨calls, pre, orc, r, h1, h2, h3, h4⟩ := sendAll_run cfg op L w3
  -- the calls are for segments as stored before
  obtain ⟨pre0, hp1, hp2, hp3⟩ : ∃ pre0, List.Forall₂ (OpFor cfg op) calls pre0 ∧ pre0 <+: w.segments row.key ∧
      (pre = L → pre0 = w.segments row.key) := by
    obtain ⟨rest, rfl⟩ := h3
    refine ⟨(w.segments row.key).take pre.length, ?_, List.take_prefix _ _, ?_⟩
    · have ht := List.forall₂_take_append _ _ _ hL
      clear h1 h4 hL
      generalize (w.segments row.key).take pre.length = q at ht
      induction h2 generalizing q with
      | nil => cases ht; exact .nil
      | cons hab _ ih =>
        cases ht with
        | cons hm ht =>
          refine .cons ?_ (ih _ ht)
          rcases hm with rfl | ⟨_, st', _, rfl⟩
          · exact hab
          · exact ⟨hab.op, hab.handle, hab.prov⟩
    · intro he
      have : rest = [] := by simpa using he
      subst this
      rw [List.append_nil] at hL
      rw [← hL.length_eq, List.take_length]
  have hsame' : ∀ orc', Same { w with conns := setCRow w.conns { row with st }, subs, sent := w.sent ++ calls }
      { w3 with sent := w3.sent ++ calls, orc := orc' } := fun orc' =>
    ⟨hsame.conns, hsame.subs, hsame.ckey, hsame.skey, hsame.resv, hsame.qreqs, hsame.qcalls, hsame.notif, hsame.outbox,
      by simp only [hsame.sent]⟩
  simp only [run_bind', h1]
  cases r with
  | error e =>
    simp only [andThen_error]
    exact ⟨g3.frame _ _ _ _ _, .done hrow hc hl hf hsubs hp1 hp2 (fun i h => by cases h) (hsame' orc) fun i h => by cases h⟩
  | ok u =>
    obtain ⟨orc2, ha⟩ := acks_run L.length { w3 with sent := w3.sent ++ calls, orc }
    obtain ⟨r', hr', hr2⟩ := answer_run (w := { w3 with sent := w3.sent ++ calls, orc := orc2 }) (cid := cid) (action := action) (L := L)
      (rs := Oracle.outcomes orc L.length)
    simp only [andThen_ok, run_bind', run_issue, machine_exec, exec_acks, ha, hr']
    exact ⟨g3.frame _ _ _ _ _, .done hrow hc hl hf hsubs hp1 hp2 (fun i h => ⟨hr2 i h, hp3 (h4 rfl)⟩) (hsame' orc2) fun _ _ => hall⟩

theorem movedBy_refl (key : Nat) (g : ConnStates → Option ConnStates) (l : List SRow) : List.Forall₂ (MovedBy key g) l l :=
  List.forall₂_same.mpr fun _ _ => Or.inl rfl

theorem went_none (key : Nat) (l : List SRow) : List.Forall₂ (Went key fun _ => none) l l :=
  List.forall₂_same.mpr fun _ _ _ _ h => by cases h

theorem same_conns {w w1 w3 : World} {row : CRow} (h : Same w w1) (h' : Same { w1 with conns := setCRow w1.conns row } w3) :
    Same { w with conns := setCRow w.conns row } w3 :=
  Same.trans (b := { w1 with conns := setCRow w1.conns row }) ⟨by simp only [h.conns], h.subs, h.ckey, h.skey, h.resv, h.qreqs, h.qcalls, h.notif, h.outbox, h.sent⟩ h'

theorem reserveCommit_run {w : World} (hg : Good w) (cfg : Cfg) (cid : Str) :
    Good ((reserveCommit cfg cid).run machine w).1 ∧
    ReqEff cfg cid (switchR · .committing) (fun _ => none) .commit w ((reserveCommit cfg cid).run machine w).1
      ((reserveCommit cfg cid).run machine w).2 := by
  rcases getConnection_cases hg cid with ⟨h1, h2⟩ | ⟨row, hr, rfl, ref, w1, h1, l1, g1, c1⟩
  · simp only [reserveCommit, run_bind', h1, andThen_error]
    exact ⟨hg, .refused (fun r hr hc => absurd hc (h2 r hr)) (Or.inl ⟨_, rfl⟩) .rfl⟩
  · simp only [reserveCommit, run_bind', h1, andThen_ok, checkLive_run c1]
    split
    · rename_i hl
      exact ⟨g1, .refused (unique_refused hg hr fun h => absurd hl h) (Or.inl ⟨_, rfl⟩) l1.same⟩
    · rename_i hl
      simp only [andThen_ok, run_bind', switchC_upd _ c1.obj]
      cases hf : switchR row.st .committing with
      | none => exact ⟨g1, .refused (unique_refused hg hr fun _ => hf) (Or.inl ⟨_, rfl⟩) l1.same⟩
      | some st =>
        obtain ⟨w3, refs, h3, h4, g3, s3, hn, hk, hs⟩ := opened g1 c1 st
        simp only [andThen_ok, run_bind', run_issue, machine_exec, h3, h4, getSs_run s3]
        rw [seg_look l1]
        have := sendAnswer_run (f := (switchR · .committing)) (g := (fun _ => none)) (op := .commit) cfg tCommitted g3 hr rfl hl hf (movedBy_refl _ _ _) (movedBy_refl _ _ _) (same_conns l1.same hs) (went_none _ _)
        simpa only [run_bind', run_issue, machine_exec] using this

theorem terminate_run {w : World} (hg : Good w) (cfg : Cfg) (cid : Str) :
    Good ((terminate cfg cid).run machine w).1 ∧
    ReqEff cfg cid (switchL · .terminating) (fun _ => none) .terminate w ((terminate cfg cid).run machine w).1
      ((terminate cfg cid).run machine w).2 := by
  rcases getConnection_cases hg cid with ⟨h1, h2⟩ | ⟨row, hr, rfl, ref, w1, h1, l1, g1, c1⟩
  · simp only [terminate, run_bind', h1, andThen_error]
    exact ⟨hg, .refused (fun r hr hc => absurd hc (h2 r hr)) (Or.inl ⟨_, rfl⟩) .rfl⟩
  · simp only [terminate, run_bind', h1, andThen_ok, run_issue, machine_exec, exec_getC c1.obj]
    split
    · rename_i hl
      exact ⟨g1, .refused (unique_refused hg hr fun h => absurd hl h) (Or.inr ⟨row, hr, rfl, hl⟩) l1.same⟩
    · rename_i hl
      simp only [terminateLive, run_bind', switchC_upd _ c1.obj]
      cases hf : switchL row.st .terminating with
      | none => exact ⟨g1, .refused (unique_refused hg hr fun _ => hf) (Or.inl ⟨_, rfl⟩) l1.same⟩
      | some st =>
        obtain ⟨w3, refs, h3, h4, g3, s3, hn, hk, hs⟩ := opened g1 c1 st
        simp only [andThen_ok, run_bind', run_issue, machine_exec, h3, h4, getSs_run s3]
        rw [seg_look l1]
        have := sendAnswer_run (f := (switchL · .terminating)) (g := (fun _ => none)) (op := .terminate) cfg tTerminate g3 hr rfl hl hf (movedBy_refl _ _ _) (movedBy_refl _ _ _) (same_conns l1.same hs) (went_none _ _)
        simpa only [run_bind', run_issue, machine_exec] using this

/-- Segments after a number of changes. -/
theorem clean_moved {key : Nat} {g : ConnStates → Option ConnStates} {D : List (Nat × SRow)} {v : World} (hg : Good v) (hu : Upd v key g D)
    (hn : (D.map (·.1)).Nodup) : List.Forall₂ (MovedBy key g) v.subs (clean v D).subs := by
  refine (clean_good D v hg hu hn).2.2.2.2.imp ?_
  rintro s s' (rfl | ⟨p, hp, hl, rfl⟩)
  · exact Or.inl rfl
  · obtain ⟨s0, h1, h2, st, h3, h4⟩ := hu p hp
    obtain rfl := hl.fun_ h1
    exact Or.inr ⟨h2, st, h3, h4⟩

theorem clean_went {key : Nat} {g : ConnStates → Option ConnStates} {D : List (Nat × SRow)} {v : World} (hg : Good v) (hu : Upd v key g D)
    (hn : (D.map (·.1)).Nodup) {L : List SRow} (hL : ∀ s ∈ v.subs, s.skey = key → s ∈ L) (hcov : Covered v g D L) :
    List.Forall₂ (Went key g) v.subs (clean v D).subs := by
  obtain ⟨g1, _, _, h4, h5⟩ := clean_good D v hg hu hn
  have h6 : List.Forall₂ (fun s s' => s ∈ v.subs ∧ s' ∈ (clean v D).subs ∧ (s' = s ∨ ∃ p ∈ D, LiveS v p.1 s ∧ s' = p.2)) v.subs (clean v D).subs :=
    (List.forall₂_and_left _ _).mpr ⟨fun _ h => h, ((List.forall₂_and_left _ _).mpr ⟨fun _ h => h, h5.flip⟩).flip⟩
  refine h6.imp fun s s' ⟨h7, h8, h9⟩ hk st hst => ?_
  rcases hcov s (hL s h7 hk) with h | ⟨p, hp, hl⟩
  · rw [h] at hst
    obtain rfl : s.st = st := by simpa using hst
    rcases h9 with rfl | ⟨q, hq, hlq, rfl⟩
    · rfl
    · obtain ⟨s1, b1, _, st', b3, b4⟩ := hu q hq
      obtain rfl := hlq.fun_ b1
      rw [h] at b3
      obtain rfl : s.st = st' := by simpa using b3
      exact b4
  obtain ⟨s0, a1, _, st', a3, a4⟩ := hu p hp
  obtain rfl := hl.fun_ a1
  rw [hst] at a3
  obtain rfl : st = st' := by simpa using a3
  have hkey : s'.key = s.key := by
    rcases h9 with rfl | ⟨q, hq, hlq, rfl⟩
    · rfl
    · obtain ⟨s1, b1, _, _, _, b4⟩ := hu q hq
      obtain rfl := hlq.fun_ b1
      rw [b4]
  rw [← a4]
  exact nodup_map_inj g1.skeys h8 (h4 p hp).mem (by rw [hkey, a4])

theorem clean_live {key : Nat} {g : ConnStates → Option ConnStates} {D : List (Nat × SRow)} {v : World} (hg : Good v) (hu : Upd v key g D)
    (hn : (D.map (·.1)).Nodup) {refs : List Nat} {L : List SRow} (hL : List.Forall₂ (LiveS v) refs L) :
    ∃ L', List.Forall₂ (LiveS (clean v D)) refs L' ∧ List.Forall₂ (MovedBy key g) L L' := by
  obtain ⟨_, _, h3, h4, _⟩ := clean_good D v hg hu hn
  induction hL with
  | nil => exact ⟨[], .nil, .nil⟩
  | @cons r s refs L hl _ ih =>
    obtain ⟨L', i1, i2⟩ := ih
    by_cases hr : r ∈ D.map (·.1)
    · obtain ⟨p, hp, rfl⟩ := List.mem_map.mp hr
      obtain ⟨s0, h5, h6, st, h7, h8⟩ := hu p hp
      obtain rfl := hl.fun_ h5
      exact ⟨p.2 :: L', .cons (h4 p hp) i1, .cons (Or.inr ⟨h6, st, h7, h8⟩) i2⟩
    · exact ⟨s :: L', .cons (h3 _ _ hl hr) i1, .cons (Or.inl rfl) i2⟩

theorem clean_same {w v : World} {D : List (Nat × SRow)} (h : Same w v) : Same { w with subs := (clean v D).subs } (clean v D) := by
  rw [clean_eq]
  exact ⟨h.conns, rfl, h.ckey, h.skey, h.resv, h.qreqs, h.qcalls, h.notif, h.outbox, h.sent⟩

theorem switchP_again {c : ConnStates} (h : c.p = .provisioning) : switchP c .provisioning = some c := by
  cases c
  simp only at h
  subst h
  simp [switchP, provisionTransitions]

theorem provision_run {w : World} (hg : Good w) (cfg : Cfg) (cid : Str) :
    Good ((provision cfg cid).run machine w).1 ∧
    ReqEff cfg cid (switchP · .provisioning) (switchP · .provisioning) .provision w ((provision cfg cid).run machine w).1
      ((provision cfg cid).run machine w).2 := by
  rcases getConnection_cases hg cid with ⟨h1, h2⟩ | ⟨row, hr, rfl, ref, w1, h1, l1, g1, c1⟩
  · simp only [provision, run_bind', h1, andThen_error]
    exact ⟨hg, .refused (fun r hr hc => absurd hc (h2 r hr)) (Or.inl ⟨_, rfl⟩) .rfl⟩
  · simp only [provision, run_bind', h1, andThen_ok, checkLive_run c1]
    split
    · rename_i hl
      exact ⟨g1, .refused (unique_refused hg hr fun h => absurd hl h) (Or.inl ⟨_, rfl⟩) l1.same⟩
    · rename_i hl
      simp only [andThen_ok, run_bind', switchC_upd _ c1.obj]
      cases hf : switchP row.st .provisioning with
      | none => exact ⟨g1, .refused (unique_refused hg hr fun _ => hf) (Or.inl ⟨_, rfl⟩) l1.same⟩
      | some st =>
        obtain ⟨w3, refs, h3, h4, g3, s3, hn, hk, hs⟩ := opened g1 c1 st
        obtain ⟨D, r, h5, h6, h7, _, hcov⟩ := switchSubs_run (fun s => s.st.p = .provisioning) (switchP · .provisioning)
          (fun s hs => switchP_again (by simpa using hs)) row.key refs _ w3 [] s3 hk
          (by intro p hp; cases hp) (by simpa using hn)
        have h5' : (switchSubs (fun s => s.st.p = .provisioning) (switchP · .provisioning) [] refs).run machine w3 = (clean w3 D, r) := h5
        have hs3 := same_conns l1.same hs
        have hmv := clean_moved g3 h6 h7
        have hsubs3 : w3.subs = w.subs := hs3.subs
        rw [hsubs3] at hmv
        simp only [andThen_ok, run_bind', run_issue, machine_exec, h3, h4, h5']
        cases r with
        | error e =>
          simp only [andThen_error]
          refine ⟨(clean_good D w3 g3 h6 h7).1, .done (calls := []) (pre := []) hr rfl hl hf hmv .nil List.nil_prefix (fun i h => by cases h) ?_ fun i h => by cases h⟩
          simpa using clean_same (D := D) hs3
        | ok u =>
          obtain ⟨L', h8, h9⟩ := clean_live g3 h6 h7 s3
          rw [seg_look l1] at h9
          simp only [andThen_ok, run_bind', getSs_run h8]
          have := sendAnswer_run (f := (switchP · .provisioning)) (g := (switchP · .provisioning)) (op := .provision) cfg tProvision (clean_good D w3 g3 h6 h7).1 hr rfl hl hf hmv h9 (clean_same hs3)
            (hsubs3 ▸ clean_went g3 h6 h7 (fun s hs hk => List.mem_filter.mpr ⟨by rw [l1.same.subs, ← hsubs3]; exact hs, by simpa using hk⟩) (hcov rfl))
          simpa only [run_bind', run_issue, machine_exec] using this

theorem release_run {w : World} (hg : Good w) (cfg : Cfg) (cid : Str) :
    Good ((release cfg cid).run machine w).1 ∧
    ReqEff cfg cid (switchP · .releasing) (switchP · .releasing) .release w ((release cfg cid).run machine w).1
      ((release cfg cid).run machine w).2 := by
  rcases getConnection_cases hg cid with ⟨h1, h2⟩ | ⟨row, hr, rfl, ref, w1, h1, l1, g1, c1⟩
  · simp only [release, run_bind', h1, andThen_error]
    exact ⟨hg, .refused (fun r hr hc => absurd hc (h2 r hr)) (Or.inl ⟨_, rfl⟩) .rfl⟩
  · simp only [release, run_bind', h1, andThen_ok, checkLive_run c1]
    split
    · rename_i hl
      exact ⟨g1, .refused (unique_refused hg hr fun h => absurd hl h) (Or.inl ⟨_, rfl⟩) l1.same⟩
    · rename_i hl
      simp only [andThen_ok, run_bind', switchC_upd _ c1.obj]
      cases hf : switchP row.st .releasing with
      | none => exact ⟨g1, .refused (unique_refused hg hr fun _ => hf) (Or.inl ⟨_, rfl⟩) l1.same⟩
      | some st =>
        obtain ⟨w3, refs, h3, h4, g3, s3, hn, hk, hs⟩ := opened g1 c1 st
        obtain ⟨D, r, h5, h6, h7, _, hcov⟩ := switchSubs_run (fun _ => false) (switchP · .releasing) (fun _ h => by cases h) row.key refs _ w3 [] s3 hk
          (by intro p hp; cases hp) (by simpa using hn)
        have h5' : (switchSubs (fun _ => false) (switchP · .releasing) [] refs).run machine w3 = (clean w3 D, r) := h5
        have hs3 := same_conns l1.same hs
        have hmv := clean_moved g3 h6 h7
        have hsubs3 : w3.subs = w.subs := hs3.subs
        rw [hsubs3] at hmv
        simp only [andThen_ok, run_bind', run_issue, machine_exec, h3, h4, h5']
        cases r with
        | error e =>
          simp only [andThen_error]
          refine ⟨(clean_good D w3 g3 h6 h7).1, .done (calls := []) (pre := []) hr rfl hl hf hmv .nil List.nil_prefix (fun i h => by cases h) ?_ fun i h => by cases h⟩
          simpa using clean_same (D := D) hs3
        | ok u =>
          obtain ⟨L', h8, h9⟩ := clean_live g3 h6 h7 s3
          rw [seg_look l1] at h9
          simp only [andThen_ok, run_bind', getSs_run h8]
          have := sendAnswer_run (f := (switchP · .releasing)) (g := (switchP · .releasing)) (op := .release) cfg tRelease (clean_good D w3 g3 h6 h7).1 hr rfl hl hf hmv h9 (clean_same hs3)
            (hsubs3 ▸ clean_went g3 h6 h7 (fun s hs hk => List.mem_filter.mpr ⟨by rw [l1.same.subs, ← hsubs3]; exact hs, by simpa using hk⟩) (hcov rfl))
          simpa only [run_bind', run_issue, machine_exec] using this

theorem reserveAbort_run {w : World} (hg : Good w) (cfg : Cfg) (cid : Str) :
    Good ((reserveAbort cfg cid).run machine w).1 ∧
    ReqEff cfg cid (switchR · .aborting) (switchR · .aborting) .abort w ((reserveAbort cfg cid).run machine w).1
      ((reserveAbort cfg cid).run machine w).2 := by
  rcases getConnection_cases hg cid with ⟨h1, h2⟩ | ⟨row, hr, rfl, ref, w1, h1, l1, g1, c1⟩
  · simp only [reserveAbort, run_bind', h1, andThen_error]
    exact ⟨hg, .refused (fun r hr hc => absurd hc (h2 r hr)) (Or.inl ⟨_, rfl⟩) .rfl⟩
  · simp only [reserveAbort, run_bind', h1, andThen_ok, checkLive_run c1]
    split
    · rename_i hl
      exact ⟨g1, .refused (unique_refused hg hr fun h => absurd hl h) (Or.inl ⟨_, rfl⟩) l1.same⟩
    · rename_i hl
      simp only [andThen_ok, run_bind', switchC_upd _ c1.obj]
      cases hf : switchR row.st .aborting with
      | none => exact ⟨g1, .refused (unique_refused hg hr fun _ => hf) (Or.inl ⟨_, rfl⟩) l1.same⟩
      | some st =>
        obtain ⟨w3, refs, h3, h4, g3, s3, hn, hk, hs⟩ := opened g1 c1 st
        obtain ⟨D, calls, pre, orc, r, h5, h6, h7, h8, h9, h10, _, hcov⟩ := abortLoop_run cfg row.key refs _ w3 [] s3 hk
          (by intro p hp; cases hp) (by simpa using hn)
        rw [seg_look l1] at h9 h10
        have h5' : (abortLoop cfg [] refs).run machine w3 = (clean { w3 with sent := w3.sent ++ calls, orc } D, r) := h5
        have hs3 := same_conns l1.same hs
        let v : World := { w3 with sent := w3.sent ++ calls, orc }
        have gv : Good v := g3.frame _ _ _ _ _
        have hv : Upd v row.key (switchR · .aborting) D := fun p hp => by
          obtain ⟨s, ⟨a, b, c⟩, h2⟩ := h6 p hp
          exact ⟨s, ⟨a, b, c⟩, h2⟩
        have hmv := clean_moved gv hv h7
        have hsubs3 : v.subs = w.subs := hs3.subs
        rw [hsubs3] at hmv
        have hsame : Same { w with conns := setCRow w.conns { row with st }, sent := w.sent ++ calls } v :=
          ⟨hs3.conns, hs3.subs, hs3.ckey, hs3.skey, hs3.resv, hs3.qreqs, hs3.qcalls, hs3.notif, hs3.outbox, by simp [v, hs3.sent]⟩
        have gc := (clean_good D v gv hv h7).1
        have hcs := clean_same (D := D) hsame
        simp only [andThen_ok, run_bind', run_issue, machine_exec, h3, h4, h5']
        cases r with
        | error e =>
          simp only [andThen_error]
          exact ⟨gc, .done hr rfl hl hf hmv h8 h9 (fun i h => by cases h) hcs fun i h => by cases h⟩
        | ok u =>
          obtain ⟨orc2, ha⟩ := acks_run refs.length (clean v D)
          have ha' : (clean { w3 with sent := w3.sent ++ calls, orc } D).acks refs.length
            = ({ clean v D with orc := orc2 }, (clean v D).orc.outcomes refs.length) := ha
          simp only [andThen_ok, run_bind', run_issue, machine_exec, exec_acks, ha']
          have hc' : Same { w with conns := setCRow w.conns { row with st }, subs := (clean v D).subs, sent := w.sent ++ calls }
              { clean v D with orc := orc2 } :=
            ⟨hcs.conns, hcs.subs, hcs.ckey, hcs.skey, hcs.resv, hcs.qreqs, hcs.qcalls, hcs.notif, hcs.outbox, hcs.sent⟩
          have hwent : List.Forall₂ (Went row.key (switchR · .aborting)) w.subs (clean v D).subs := by
            have := clean_went gv hv h7 (L := w1.segments row.key)
              (fun s hs hk => List.mem_filter.mpr ⟨by rw [l1.same.subs, ← hsubs3]; exact hs, by simpa using hk⟩)
              (fun s hs => (hcov rfl s hs).imp id fun ⟨p, hp, a, b, c⟩ => ⟨p, hp, a, b, c⟩)
            rwa [hsubs3] at this
          split
          · exact ⟨gc.frame _ _ _ _ _, .done hr rfl hl hf hmv h8 h9 (fun i h => ⟨by simpa using h.symm, h10 rfl⟩) hc' fun _ _ => hwent⟩
          · exact ⟨gc.frame _ _ _ _ _, .done hr rfl hl hf hmv h8 h9 (fun i h => by cases h) hc' fun i h => by cases h⟩

end OpenNSA.Agg
