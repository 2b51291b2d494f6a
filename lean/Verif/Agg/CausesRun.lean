import Verif.Agg.Causes
/- The handlers keep the causality invariant (C90). -/
namespace OpenNSA.Agg
open OpenNSA Py Coro

variable {cfg : Cfg} {T : List (Msg × World)} {α β : Type}

/-! ### Coroutines that only look things up -/

abbrev Looks (p : Prog α) : Prop := Issues Cmd.idle p

theorem Looks.bind {p : Prog α} {f : α → Prog β} (hp : Looks p) (hf : ∀ a, Looks (f a)) : Looks (p >>= f) := Issues.bind hp hf
theorem Looks.pure (a : α) : Looks (Coro.pure a : Prog α) := trivial
theorem Looks.throw (e : Err) : Looks (Coro.throw e : Prog α) := trivial
theorem Looks.issue {c : Cmd α} (h : c.idle) : Looks (Coro.issue c : Prog α) := ⟨h, fun r => by cases r <;> trivial⟩
theorem Looks.ofExcept (x : Except Err α) : Looks (Coro.ofExcept x : Prog α) := by cases x <;> trivial

theorem Looks.getConnection (cid : Str) : Looks (getConnection cid) := by
  refine .bind (.issue trivial) fun a => ?_
  cases a with
  | some r => exact .pure _
  | none =>
    refine .bind (.issue trivial) fun a => ?_
    cases a with
    | none => exact .throw _
    | some r => exact .bind (.issue trivial) fun _ => .pure _

theorem Looks.getConnectionByKey (key : Nat) : Looks (getConnectionByKey key) := by
  refine .bind (.issue trivial) fun a => ?_
  cases a with
  | some r => exact .getConnection _
  | none => exact .throw _

theorem Looks.getSubConnection (prov cid : Str) : Looks (getSubConnection prov cid) := by
  refine .bind (.issue trivial) fun a => ?_
  cases a with
  | some r => exact .pure _
  | none =>
    refine .bind (.issue trivial) fun a => ?_
    split
    · exact .bind (.issue trivial) fun _ => .pure _
    · exact .throw _

theorem Looks.lookupSubs : ∀ l : List (Str × Str), Looks (lookupSubs l)
  | [] => .pure _
  | _ :: xs => .bind (.issue trivial) fun _ => .bind (Looks.lookupSubs xs) fun _ => .pure _

theorem Looks.mergeSubs : ∀ (l : List (Str × Str)) (cs fs : List (Option Nat)), Looks (mergeSubs l cs fs)
  | [], cs, fs => by unfold Agg.mergeSubs; exact .pure _
  | x :: xs, [], fs => by unfold Agg.mergeSubs; exact .pure _
  | x :: xs, some r :: cs, fs => by unfold Agg.mergeSubs; exact .bind (Looks.mergeSubs xs cs fs) fun _ => .pure _
  | x :: xs, none :: cs, [] => by unfold Agg.mergeSubs; exact .throw _
  | x :: xs, none :: cs, none :: fs => by unfold Agg.mergeSubs; exact .throw _
  | x :: xs, none :: cs, some r :: fs => by
    unfold Agg.mergeSubs; exact .bind (.issue trivial) fun _ => .bind (Looks.mergeSubs xs cs fs) fun _ => .pure _

theorem Looks.findMissing (l : List (Str × Str)) : Looks (findMissing l) := by
  unfold Agg.findMissing
  split
  · exact .pure _
  · exact .issue trivial

theorem Looks.getSubConnections (key : Nat) : Looks (getSubConnections key) :=
  .bind (.issue trivial) fun _ => .bind (.lookupSubs _) fun _ => .bind (.findMissing _) fun _ => .mergeSubs _ _ _

theorem Looks.getSs : ∀ l : List Nat, Looks (getSs l)
  | [] => .pure _
  | _ :: xs => .bind (.issue trivial) fun _ => .bind (Looks.getSs xs) fun _ => .pure _

theorem Looks.checkLive (ref : Nat) : Looks (checkLive ref) := by
  refine .bind (.issue trivial) fun a => ?_
  split
  · exact .throw _
  · exact .pure _

theorem Looks.sendAll {op : Str → POp} (hop : ∀ a cid src dst st en bw, op a ≠ .reserve cid src dst st en bw) : ∀ l : List SRow, Looks (sendAll cfg op l)
  | [] => .pure _
  | _ :: ss => .bind (.ofExcept _) fun _ => .bind (.issue trivial) fun _ =>
      .bind (.issue fun _ ⟨_, _, _, _, _, h⟩ => hop _ _ _ _ _ _ _ h) fun _ => Looks.sendAll hop ss

theorem Looks.sendTerminates (last : Str) : ∀ l : List (Str × Str), Looks (sendTerminates cfg last l)
  | [] => .pure _
  | s :: ss => .bind (.ofExcept _) fun _ => .bind (.issue trivial) fun _ =>
      .bind (.issue fun cid ⟨_, _, _, _, _, h⟩ => by simp at h) fun _ => Looks.sendTerminates last ss

theorem Looks.answer (cid action : Str) (subs : List SRow) (results : List (Except Err Str)) : Looks (answer cid action subs results) := by
  unfold Agg.answer
  split
  · exact .pure _
  · exact .throw _

theorem Looks.family (skey : Nat) : Looks (family skey) :=
  .bind (.getConnectionByKey _) fun _ => .bind (.issue trivial) fun _ => .bind (.getSubConnections _) fun _ => .pure _

theorem Looks.summaryLoop : ∀ l : List CRow, Looks (summaryLoop l)
  | [] => .pure _
  | _ :: cs => .bind (.getSubConnections _) fun _ => .bind (.getSs _) fun _ => .bind (.issue trivial) fun _ => .bind (Looks.summaryLoop cs) fun _ => .pure _

theorem Looks.querySummary (h : Hdr) (cids gids : List Str) : Looks (querySummary cfg h cids gids) := by
  unfold Agg.querySummary
  simp only
  split
  · exact .throw _
  · exact .bind (.issue trivial) fun _ => .bind (.summaryLoop _) fun _ => .bind (.issue rfl) fun _ => .pure _

theorem Looks.sendQueries (cb : Str) : ∀ l : List SRow, Looks (sendQueries cfg cb l)
  | [] => .pure _
  | s :: ss => .bind (.ofExcept _) fun _ => .bind (.issue trivial) fun _ =>
      .bind (.issue fun cid ⟨_, _, _, _, _, h⟩ => by simp at h) fun _ => .bind (.issue trivial) fun _ => Looks.sendQueries cb ss

theorem Looks.queryRecursive (h : Hdr) (cids gids : List Str) : Looks (queryRecursive cfg h cids gids) := by
  unfold Agg.queryRecursive
  split
  · exact .throw _
  · split
    · exact .throw _
    · refine .bind (.getConnection _) fun _ => .bind (.issue trivial) fun _ => .bind (.getSubConnections _) fun _ => .bind (.getSs _) fun _ =>
        .bind (.issue trivial) fun _ => .bind (.sendQueries _ _) fun _ => .bind (.issue trivial) fun _ => ?_
      split
      · exact .pure _
      · exact .throw _
    · exact .throw _

theorem Looks.queryRecursiveConfirmed (h : RHdr) (res : List Str) : Looks (queryRecursiveConfirmed h res) := by
  have hs : ∀ cb, Looks (storeQuery h.corr cb res) := by
    intro cb
    refine .bind (.issue trivial) fun _ => .bind (.issue trivial) fun r => ?_
    cases r with
    | none => exact .throw _
    | some q =>
      refine .bind (.issue trivial) fun _ => ?_
      split
      · exact .bind (.issue trivial) fun _ => .bind (.issue trivial) fun _ => .bind (.getSubConnections _) fun _ => .bind (.getSs _) fun _ =>
          .bind (.ofExcept _) fun _ => .bind (.issue trivial) fun _ => .bind (.issue trivial) fun _ => .bind (.issue rfl) fun _ => .pure _
      · exact .pure _
  refine .bind (.issue trivial) fun r => ?_
  split
  · exact .pure _
  · exact .pure _
  · exact hs _

/-! ### Look-ups find what was asked for -/

theorem Spec.getConnectionByKey' (key : Nat) (w : World) : Spec cfg (Agg.getConnectionByKey key) w (fun ref v => ∃ id, IsC v ref id ∧ id.1 = key) := by
  unfold Agg.getConnectionByKey
  refine Spec.bind (Q := fun r v => ∀ cid, r = some cid → ∃ row ∈ v.conns, row.key = key ∧ row.cid = cid) (Spec.cmd (fun _ _ _ => trivial) ?_) ?_
  · intro v b _ _ _ hb v' hk' _ cid hc
    simp only [exec, Except.ok.injEq] at hb hk'
    rw [← hb, Option.map_eq_some_iff] at hc
    obtain ⟨r, h1, h2⟩ := hc
    obtain ⟨r', g1, g2⟩ := hk'.conns r (List.mem_of_find?_eq_some h1)
    simp only [CRow.id, Prod.mk.injEq] at g2
    exact ⟨r', g1, g2.1.trans (by simpa using List.find?_some h1), g2.2.1.trans h2⟩
  · intro r v _ _ hr
    cases r with
    | none => exact Spec.throw
    | some cid =>
      refine (Spec.getConnection cid v).mono fun a u hk hi ⟨id, h1, h2⟩ => ⟨id, h1, ?_⟩
      obtain ⟨row, g1, g2, g3⟩ := hr cid rfl
      obtain ⟨row', f1, f2⟩ := hk.conns row g1
      obtain ⟨row2, e1, e2⟩ := IsC.row hi h1
      simp only [CRow.id, Prod.mk.injEq] at f2
      have : row' = row2 := List.inj_on_of_nodup_map hi.ccids f1 e1 (by rw [f2.2.1, g3, ← h2, ← e2]; rfl)
      rw [← e2, ← this]
      exact f2.1.trans g2

theorem Spec.getSubConnection' (prov cid : Str) (w : World) : Spec cfg (Agg.getSubConnection prov cid) w (fun ref v => SegAs v cid ref) := by
  unfold Agg.getSubConnection
  refine Spec.bind (Q := fun r v => ∀ ref, r = some ref → SegAs v cid ref) (Spec.cmd (fun _ _ _ => trivial) ?_) ?_
  · intro v b hk hi _ hb v' hk' hi' ref hr
    simp only [exec, Except.ok.injEq] at hb hk'
    obtain ⟨o, h1, h2, h3⟩ := hi.scache cid ref (hb.trans hr)
    exact ⟨o.row.id, IsS.keep hk' ⟨o, h1, h2, rfl⟩, h3⟩
  · intro r v hk hi hr
    cases r with
    | some ref => exact Spec.pure fun _ => hr ref rfl
    | none =>
      refine Spec.bind (Q := fun r v => List.Forall₂ (Found v) [(prov, cid)] r) (Spec.cmd (fun _ _ _ => trivial) ?_) ?_
      · intro v b hk hi _ hb v' hk' hi'
        simp only [exec, Except.ok.injEq] at hb hk'
        subst hb
        exact (hi.findSubs [(prov, cid)]).2.2.imp fun _ _ h => h.keep hk'
      · intro r v hk hi hr
        cases hr with
        | @cons _ b _ rs hb hrs =>
          cases hrs
          cases b with
          | none => exact Spec.throw
          | some ref =>
            obtain ⟨id, h1, h2, h3⟩ := hb ref rfl
            refine Spec.bind (Spec.cmd' fun v hk hi => ?_) fun _ v hk _ _ => Spec.pure fun _ => ⟨id, h1.keep hk, h2⟩
            obtain ⟨o, g1, g2, g3⟩ := h1.keep hk
            rw [← g3] at h2
            exact ⟨o, g1, g2, h2⟩

theorem Spec.family' (skey : Nat) (w : World) : Spec cfg (Agg.family skey) w (fun f v => (∃ id, IsC v f.1 id ∧ id.1 = skey) ∧
    ∃ cids, segCids w skey <+: cids ∧ SegsOf v skey cids f.2) := by
  unfold Agg.family
  refine Spec.bind (Spec.getConnectionByKey' skey w) fun ref v1 hk1 _ ⟨id, hc, hid⟩ => ?_
  refine Spec.bind (Spec.getC hc) fun conn v2 hk2 _ hr => ?_
  have hkey : conn.key = skey := by rw [← hid, ← hr.2]; rfl
  rw [hkey]
  refine Spec.bind (Spec.getSubConnections' skey v2) fun refs v3 hk3 _ ⟨cids, h1, h2⟩ => ?_
  exact Spec.pure fun _ => ⟨⟨id, hr.1.keep hk3, hid⟩, cids, ((hk1.trans hk2).segCids skey).trans h1, h2⟩

theorem CS.getConnection (cid : Str) (w : World) : CS cfg T (Agg.getConnection cid) w (fun ref v => ∃ id, IsC v ref id ∧ id.2.1 = cid) :=
  .ofSpec (Spec.getConnection cid w) (Looks.getConnection cid)
theorem CS.getConnectionByKey (key : Nat) (w : World) : CS cfg T (Agg.getConnectionByKey key) w (fun ref v => ∃ id, IsC v ref id ∧ id.1 = key) :=
  .ofSpec (Spec.getConnectionByKey' key w) (Looks.getConnectionByKey key)
theorem CS.getSubConnection (prov cid : Str) (w : World) : CS cfg T (Agg.getSubConnection prov cid) w (fun ref v => SegAs v cid ref) :=
  .ofSpec (Spec.getSubConnection' prov cid w) (Looks.getSubConnection prov cid)
theorem CS.getSubConnections (key : Nat) (w : World) :
    CS cfg T (Agg.getSubConnections key) w (fun rs v => ∃ cids, segCids w key <+: cids ∧ SegsOf v key cids rs) :=
  .ofSpec (Spec.getSubConnections' key w) (Looks.getSubConnections key)
theorem CS.family (skey : Nat) (w : World) : CS cfg T (Agg.family skey) w (fun f v => (∃ id, IsC v f.1 id ∧ id.1 = skey) ∧
    ∃ cids, segCids w skey <+: cids ∧ SegsOf v skey cids f.2) := .ofSpec (Spec.family' skey w) (Looks.family skey)

/-! ### Objects -/

theorem CS.getC {ref : Nat} {w : World} {id : Nat × Str × Str} (hc : IsC w ref id) :
    CS cfg T (issue (.getC ref)) w (fun row v => IsC v ref id ∧ row.id = id ∧ ConnOk T row) := by
  refine CS.cmd (fun _ _ _ _ => ⟨trivial, trivial⟩) fun v row hk hi hv hb v' hk' hi' _ => ?_
  obtain ⟨o, h1, h2, h3⟩ := hc.keep hk.1.1
  simp only [exec, h1, Except.ok.injEq] at hb hk'
  subst hb
  exact ⟨IsC.keep hk'.1.1 ⟨o, h1, h2, h3⟩, h3, hv.cheap o (List.mem_of_getElem? h1)⟩

theorem CS.getS {ref : Nat} {w : World} {id : Nat × Nat × Str × Str × Nat} (hc : IsS w ref id) :
    CS cfg T (issue (.getS ref)) w (fun row v => IsS v ref id ∧ row.id = id ∧ SegOk T row) := by
  refine CS.cmd (fun _ _ _ _ => ⟨trivial, trivial⟩) fun v row hk hi hv hb v' hk' hi' _ => ?_
  obtain ⟨o, h1, h2, h3⟩ := hc.keep hk.1.1
  simp only [exec, h1, Except.ok.injEq] at hb hk'
  subst hb
  exact ⟨IsS.keep hk'.1.1 ⟨o, h1, h2, h3⟩, h3, hv.sheap o (List.mem_of_getElem? h1)⟩

theorem CS.setC {ref : Nat} {row : CRow} {w : World} {id : Nat × Str × Str} (hc : IsC w ref id) (hid : row.id = id) (hok : ConnOk T row) :
    CS cfg T (issue (.setC ref row)) w (fun _ _ => True) := by
  refine CS.cmd' fun v hk _ _ => ⟨fun o ho => ?_, hok⟩
  obtain ⟨o', h1, h2, h3⟩ := hc.keep hk.1.1
  obtain rfl := Option.some.inj (ho.symm.trans h1)
  have := hid.trans h3.symm
  simp only [CRow.id, Prod.mk.injEq] at this
  exact ⟨this.2.1, this.2.2, fun _ => this.1⟩

theorem CS.setS {ref : Nat} {row : SRow} {w : World} {id : Nat × Nat × Str × Str × Nat} (hc : IsS w ref id) (hid : row.id = id) (hok : SegOk T row) :
    CS cfg T (issue (.setS ref row)) w (fun _ _ => True) := by
  refine CS.cmd' fun v hk _ _ => ⟨fun o ho => ?_, hok⟩
  obtain ⟨o', h1, h2, h3⟩ := hc.keep hk.1.1
  obtain rfl := Option.some.inj (ho.symm.trans h1)
  have := hid.trans h3.symm
  simp only [SRow.id, Prod.mk.injEq] at this
  exact ⟨this.2.2.1, this.2.2.2.1, this.2.1, this.2.2.2.2, fun _ => this.1⟩

/-- Switching a connection; `P` holds of it because the switch was possible. -/
theorem CS.switchC {ref : Nat} {f : ConnStates → Option ConnStates} {w : World} {id : Nat × Str × Str} {P : Prop} (h : IsC w ref id)
    (hf : ∀ row st, row.id = id → ConnOk T row → f row.st = some st → ConnOk T { row with st } ∧ P) : CS cfg T (switchC ref f) w (fun _ _ => P) := by
  unfold Agg.switchC
  refine CS.bind (CS.getC h) fun row v _ _ _ hr => ?_
  cases hst : f row.st with
  | none => exact CS.throw
  | some st =>
    have := hf row st hr.2.1 hr.2.2 hst
    refine CS.bind (CS.setC hr.1 (row := { row with st }) hr.2.1 this.1) fun _ v' hk' _ _ _ => ?_
    refine CS.mono (CS.cmd' fun _ _ _ _ => ⟨trivial, trivial⟩) fun _ _ _ _ _ => this.2

theorem CS.switchS {ref : Nat} {f : ConnStates → Option ConnStates} {w : World} {id : Nat × Nat × Str × Str × Nat} (h : IsS w ref id)
    (hf : ∀ row st, row.id = id → SegOk T row → f row.st = some st → SegOk T { row with st }) : CS cfg T (switchS ref f) w (fun _ _ => True) := by
  unfold Agg.switchS
  refine CS.bind (CS.getS h) fun row v _ _ _ hr => ?_
  cases hst : f row.st with
  | none => exact CS.throw
  | some st =>
    refine CS.bind (CS.setS hr.1 (row := { row with st }) hr.2.1 (hf row st hr.2.1 hr.2.2 hst)) fun _ v' hk' _ _ _ => ?_
    exact CS.cmd' fun _ _ _ _ => ⟨trivial, trivial⟩

theorem CS.getSs : ∀ (l : List Nat) (cids : List Str) (w : World), List.Forall₂ (SegAs w) cids l →
    CS cfg T (Agg.getSs l) w (fun ss _ => ss.map (·.cid) = cids ∧ ∀ s ∈ ss, SegOk T s)
  | [], [], w, _ => CS.pure ⟨rfl, by simp⟩
  | r :: rs, c :: cids, w, h => by
    unfold Agg.getSs
    rw [List.forall₂_cons] at h
    obtain ⟨⟨id, h1, h2⟩, h3⟩ := h
    refine CS.bind (CS.getS h1) fun s v hk _ _ hs => ?_
    refine CS.bind (CS.getSs rs cids v (h3.imp fun _ _ h => h.keep hk.1.1)) fun ss v' _ _ _ hss => CS.pure ⟨?_, ?_⟩
    · simp only [List.map_cons, hss.1, ← h2, ← hs.2.1]
      rfl
    · intro x hx
      rcases List.mem_cons.mp hx with rfl | hx
      · exact hs.2.2
      · exact hss.2 x hx
  | [], _ :: _, w, h => by cases h
  | _ :: _, [], w, h => by cases h

/-! ### Requests -/

theorem ConnOk.r {row : CRow} (h : ConnOk T row) {r : RState} (h1 : r = .committing → ∃ h, Heard T (.commit h row.cid))
    (h2 : r = .aborting → ∃ h, Heard T (.abort h row.cid)) : ConnOk T { row with st := { row.st with r } } := ⟨h.prov, h.rel, h1, h2⟩
theorem ConnOk.p {row : CRow} (h : ConnOk T row) {p : PState} (h1 : p = .provisioning → ∃ h, Heard T (.provision h row.cid))
    (h2 : p = .releasing → ∃ h, Heard T (.release h row.cid)) : ConnOk T { row with st := { row.st with p } } := ⟨h1, h2, h.commit, h.abort⟩
theorem ConnOk.l {row : CRow} (h : ConnOk T row) (l : LState) : ConnOk T { row with st := { row.st with l } } := ⟨h.prov, h.rel, h.commit, h.abort⟩

theorem switchR_some {s st : ConnStates} {r : RState} (h : OpenNSA.switchR s r = some st) : r ∈ reserveTransitions s.r ∧ st = { s with r } := by
  unfold switchR at h
  split at h
  · rename_i hh; exact ⟨hh, (Option.some.inj h).symm⟩
  · simp at h
theorem switchP_some {s st : ConnStates} {p : PState} (h : OpenNSA.switchP s p = some st) : p ∈ provisionTransitions s.p ∧ st = { s with p } := by
  unfold switchP at h
  split at h
  · rename_i hh; exact ⟨hh, (Option.some.inj h).symm⟩
  · simp at h
theorem switchL_some {s st : ConnStates} {l : LState} (h : OpenNSA.switchL s l = some st) : l ∈ lifecycleTransitions s.l ∧ st = { s with l } := by
  unfold switchL at h
  split at h
  · rename_i hh; exact ⟨hh, (Option.some.inj h).symm⟩
  · simp at h

/-- The row of a connection object. -/
theorem IsC.rowOf {w : World} (hi : Ids cfg w) {ref : Nat} {row : CRow} (h : IsC w ref row.id) : ∃ r ∈ w.conns, r.key = row.key ∧ r.cid = row.cid ∧ r.requester = row.requester := by
  obtain ⟨r, h1, h2⟩ := IsC.row hi h
  simp only [CRow.id, Prod.mk.injEq] at h2
  exact ⟨r, h1, h2⟩

theorem CS.sendReserves (conn : CRow) (start end_ : Option Time) {ref : Nat} : ∀ (ls : List Link) (idx : Nat) (last : Str) (w : World), IsC w ref conn.id →
    ((w.sent.map (·.corr)).Nodup → Live T conn.cid conn.key w) → CS cfg T (Agg.sendReserves cfg conn start end_ idx last ls) w (fun _ _ => True)
  | [], _, _, _, _, _ => CS.pure trivial
  | l :: ls, idx, last, w, hc, hl => by
    unfold Agg.sendReserves
    intro hi hv
    cases hp : cfg.provider l.src.network with
    | error e => exact ⟨⟨hi, hv⟩, .refl w⟩
    | ok p =>
      have hn := hi.exec (Cmd.newCorr) trivial
      have hvn := hv.exec hi (Cmd.newCorr) trivial trivial
      have hno : ∀ e, (exec w Cmd.newCorr).2 ≠ .error e := by intro e; simp only [exec]; split <;> simp
      refine Safe.bind' (p := issue Cmd.newCorr) (Safe.sync rfl (fun corr hb => ?_) (fun e he => absurd he (hno e)))
      refine Safe.bind' (Safe.sync rfl (fun _ _ => ?_) (fun e he => by simp [exec] at he))
      refine Safe.bind' (Safe.sync rfl (fun _ _ => ?_) (fun e he => by simp [exec] at he))
      generalize (exec w Cmd.newCorr).1 = w1 at hn hvn ⊢
      obtain ⟨row, h1, h2, h3, _⟩ := IsC.rowOf hn.1 (hc.keep hn.2)
      have hl1 : (w1.sent.map (·.corr)).Nodup → Live T row.cid row.key w1 := by
        obtain ⟨row0, g1, g2, g3, _⟩ := IsC.rowOf hi hc
        intro hnd
        have := (hvn.2.2 hnd).1 row0 g1 (by rw [g2, g3]; exact hl (sent_nodup hvn.2.1.2 hnd))
        rwa [g2, g3, ← h2, ← h3] at this
      have hstep := CInv.reserveCall hn.1 hvn.1 h1 (corr := corr)
        (e := ⟨p.2, conn.key, idx, l.src.network, l.src.port, l.dst.network, l.dst.port⟩)
        (x := ⟨p.1, p.2, corr, .reserve conn.cid l.src l.dst start end_ conn.bw⟩) ⟨_, _, _, _, _, by rw [h3]⟩ rfl h2.symm rfl hl1
      have hids := ((hn.1.exec (.addResv corr ⟨p.2, conn.key, idx, l.src.network, l.src.port, l.dst.network, l.dst.port⟩) ⟨row, h1, h2⟩).1.exec
        (.send ⟨p.1, p.2, corr, .reserve conn.cid l.src l.dst start end_ conn.bw⟩) trivial).1
      have hk := hvn.2.trans hstep.2.1
      have := CS.sendReserves conn start end_ ls (idx + 1) p.2 _ (hc.keep hk.1.1) (fun hnd => by have := hstep.2.2 hnd; rwa [h2, h3] at this) hids hstep.1
      refine Safe.mono (Safe.before (K := Keep3 T) (fun _ _ _ => Keep3.trans) Keep3.refl this hk) ?_
      rintro b u0 u ⟨u', g0, g1, g2, g3, g4⟩
      exact ⟨g1, g0.trans g2, hk.trans g3, trivial⟩

/-- Saving a new connection: no reserve call was made for it yet. -/
theorem CS.saveNewC {ref : Nat} {w : World} (h : ∃ o, w.cheap[ref]? = some o ∧ o.isNew = true) : CS cfg T (issue (.saveC ref)) w
    (fun _ v => ∃ id : Nat × Str × Str, IsC v ref id ∧ ((v.sent.map (·.corr)).Nodup → Live T id.2.1 id.1 v)) := by
  intro hi hv
  obtain ⟨o, h1, h2⟩ := h
  refine Safe.mono (CS.cmd (Q := fun _ v => ∃ id, IsC v ref id) (fun _ _ _ _ => ⟨trivial, trivial⟩) ?_ hi hv) ?_
  · intro v _ _ hi _ hb v' hk' _ _
    obtain ⟨id, h⟩ := (hi.saveC ref).2.2 hb
    exact ⟨id, h.keep hk'.1.1⟩
  · rintro a v0 v ⟨g1, g2, g3, id, g4⟩
    refine ⟨g1, g2, g3, id, g4, fun hn => ?_⟩
    obtain ⟨o', f1, f2⟩ := (g3.2 hn).2 ref o h1 h2
    obtain ⟨o2, e1, e2, e3⟩ := g4
    obtain rfl := Option.some.inj (f1.symm.trans e1)
    obtain ⟨row, d1, d2, d3⟩ := f2 e2
    rw [e3] at d2
    subst d2
    exact d3

theorem ConnOk.switchR {row : CRow} {st : ConnStates} {r : RState} (h : ConnOk T row) (hs : OpenNSA.switchR row.st r = some st)
    (h1 : r = .committing → ∃ h, Heard T (.commit h row.cid)) (h2 : r = .aborting → ∃ h, Heard T (.abort h row.cid)) : ConnOk T { row with st } := by
  rw [(switchR_some hs).2]; exact h.r h1 h2
theorem ConnOk.switchP {row : CRow} {st : ConnStates} {p : PState} (h : ConnOk T row) (hs : OpenNSA.switchP row.st p = some st)
    (h1 : p = .provisioning → ∃ h, Heard T (.provision h row.cid)) (h2 : p = .releasing → ∃ h, Heard T (.release h row.cid)) : ConnOk T { row with st } := by
  rw [(switchP_some hs).2]; exact h.p h1 h2
theorem ConnOk.switchL {row : CRow} {st : ConnStates} {l : LState} (h : ConnOk T row) (hs : OpenNSA.switchL row.st l = some st) : ConnOk T { row with st } := by
  rw [(switchL_some hs).2]; exact h.l l

theorem ConnOk.ended {row : CRow} {st : ConnStates} (h : ConnOk T row) (hs : OpenNSA.switchR row.st .start = some st) :
    ∃ h, Heard T (.commit h row.cid) ∨ Heard T (.abort h row.cid) := by
  have := (switchR_some hs).1
  cases hr : row.st.r <;> simp [hr, reserveTransitions] at this
  · obtain ⟨h, hh⟩ := h.commit hr; exact ⟨h, .inl hh⟩
  · obtain ⟨h, hh⟩ := h.abort hr; exact ⟨h, .inr hh⟩

theorem CS.switchL {ref : Nat} {l : LState} {w : World} {id : Nat × Str × Str} (h : IsC w ref id) : CS cfg T (Agg.switchC ref fun s => OpenNSA.switchL s l) w (fun _ _ => True) :=
  CS.switchC (P := True) h fun _ _ _ h1 h2 => ⟨h1.switchL h2, trivial⟩

theorem CS.reserveNew (h : Hdr) (c : Crit) (w : World) : CS cfg T (Agg.reserveNew cfg h c) w (fun _ _ => True) := by
  unfold Agg.reserveNew
  refine CS.bind (CS.cmd' fun _ _ _ _ => ⟨trivial, trivial⟩) fun cid v _ _ _ _ => ?_
  refine CS.bind (Q := fun ref v => ∃ o, v.cheap[ref]? = some o ∧ o.isNew = true) ?_ fun ref v _ _ _ hnew => ?_
  · intro hi hv
    have hj : ConnOk T (newConn cid h c) := by constructor <;> simp [newConn, ConnStates.fresh]
    have h1 := (hi.exec (.newC (newConn cid h c)) trivial).1
    have h2 := hv.exec hi (.newC (newConn cid h c)) trivial hj
    refine Safe.sync rfl (fun b hb => ⟨⟨h1, h2.1⟩, h2.2, h2.2, ?_⟩) (fun e he => by simp [exec] at he)
    simp only [exec, Except.ok.injEq] at hb
    subst hb
    exact ⟨⟨newConn cid h c, true⟩, by simp only [exec, List.getElem?_concat_length], rfl⟩
  refine CS.bind (CS.saveNewC hnew) fun _ v _ hi _ ⟨id, hc, hl⟩ => ?_
  refine CS.bind (CS.switchC (P := True) hc fun _ _ _ h1 h2 => ⟨h1.switchR h2 (by simp) (by simp), trivial⟩) fun _ v1 hk1 _ _ _ => ?_
  refine CS.bind (CS.getC (hc.keep hk1.1.1)) fun conn v2 hk2 _ _ hr => ?_
  refine CS.bind CS.ofExcept fun path v3 hk3 _ _ _ => ?_
  refine CS.bind CS.ofExcept fun _ v4 hk4 hi4 _ _ => ?_
  have hk := (hk1.trans hk2).trans (hk3.trans hk4)
  have hc4 := hc.keep hk.1.1
  have hid : conn.id = id := hr.2.1
  subst hid
  refine CS.bind (CS.sendReserves conn c.start c.end_ path 0 [] v4 hc4 fun hn => ?_) fun last v5 hk5 _ _ _ => ?_
  · obtain ⟨row, g1, g2⟩ := IsC.row hi hc
    have := hl (sent_nodup hk.1.2 hn)
    simp only [CRow.id, Prod.mk.injEq] at g2 this
    rw [← g2.1, ← g2.2.1] at this ⊢
    exact (hk.2 hn).1 row g1 this
  refine CS.bind (CS.cmd' fun _ _ _ _ => ⟨trivial, trivial⟩) fun results v6 hk6 _ _ _ => ?_
  split
  · exact CS.pure trivial
  · unfold reserveCleanup
    have hc6 := (hc4.keep hk5.1.1).keep hk6.1.1
    refine CS.bind (CS.switchL hc6) fun _ v7 hk7 _ _ _ => ?_
    refine CS.bind (CS.ofSpec (Spec.sendTerminates last _ v7) (Looks.sendTerminates _ _)) fun _ v8 hk8 _ _ _ => ?_
    refine CS.bind (CS.cmd' fun _ _ _ _ => ⟨trivial, trivial⟩) fun _ v9 hk9 _ _ _ => ?_
    refine CS.bind (CS.switchL (((hc6.keep hk7.1.1).keep hk8.1.1).keep hk9.1.1)) fun _ _ _ _ _ _ => CS.throw

theorem CS.reserve (h : Hdr) (cid : Option Str) (c : Crit) (w : World) : CS cfg T (Agg.reserve cfg h cid c) w (fun _ _ => True) := by
  unfold Agg.reserve
  cases cid with
  | some i => exact CS.bind (CS.cmd' fun _ _ _ _ => ⟨trivial, trivial⟩) fun _ _ _ _ _ _ => CS.throw
  | none => exact CS.bind CS.ofExcept fun _ v2 _ _ _ _ => CS.reserveNew h c v2

/-- The segments of the connection of an object. -/
theorem CS.segments {ref : Nat} {w : World} {id : Nat × Str × Str} (hc : IsC w ref id) {f : Nat → List Nat → Prog β} {R : β → World → Prop}
    (hf : ∀ (conn : CRow) refs v, Keep3 T w v → IsC v ref conn.id → conn.id = id → (∃ cids, List.Forall₂ (SegAs v) cids refs) → CS cfg T (f conn.key refs) v R) :
    CS cfg T (do let conn ← issue (.getC ref); let refs ← Agg.getSubConnections conn.key; f conn.key refs) w R := by
  refine CS.bind (CS.getC hc) fun conn v hk _ _ hr => ?_
  refine CS.bind (CS.getSubConnections conn.key v) fun refs v' hk' _ _ ⟨cids, _, h2⟩ => ?_
  exact hf conn refs v' (hk.trans hk') (by rw [hr.2.1]; exact hr.1.keep hk'.1.1) hr.2.1 ⟨cids, h2.2⟩

theorem CS.checkLive (ref : Nat) (w : World) : CS cfg T (Agg.checkLive ref) w (fun _ _ => True) := .ofSpec Spec.checkLive (Looks.checkLive ref)

theorem CS.sendAll {op : Str → POp} (hop : ∀ a cid src dst st en bw, op a ≠ .reserve cid src dst st en bw) (l : List SRow) (w : World) :
    CS cfg T (Agg.sendAll cfg op l) w (fun _ _ => True) := .ofSpec (Spec.sendAll op l w) (Looks.sendAll hop l)

theorem CS.answer {cid action : Str} {subs : List SRow} {results : List (Except Err Str)} {w : World} :
    CS cfg T (Agg.answer cid action subs results) w (fun _ _ => True) := .ofSpec Spec.answer (Looks.answer ..)

/-- The end of the requests: the operation is sent to all segments. -/
theorem CS.sendOff {op : Str → POp} (hop : ∀ a cid src dst st en bw, op a ≠ .reserve cid src dst st en bw) {cid action : Str} {refs : List Nat} {w : World}
    (h : ∃ cids, List.Forall₂ (SegAs w) cids refs) :
    CS cfg T (do let subs ← Agg.getSs refs; Agg.sendAll cfg op subs; let results ← issue (.acks subs.length); Agg.answer cid action subs results) w
      (fun _ _ => True) := by
  obtain ⟨cids, h⟩ := h
  refine CS.bind (CS.getSs refs cids w h) fun subs v1 _ _ _ _ => ?_
  refine CS.bind (CS.sendAll hop subs v1) fun _ v2 _ _ _ _ => ?_
  exact CS.bind (CS.cmd' fun _ _ _ _ => ⟨trivial, trivial⟩) fun results v3 _ _ _ _ => CS.answer

theorem SegAs.seg {w : World} {cids : List Str} {refs : List Nat} (h : List.Forall₂ (SegAs w) cids refs) : ∀ r ∈ refs, Seg w r := by
  intro r hr
  induction h with
  | nil => simp at hr
  | cons h1 _ ih =>
    rcases List.mem_cons.mp hr with rfl | hr
    · exact ⟨_, h1.choose_spec.1⟩
    · exact ih hr

theorem CS.reserveCommit {h : Hdr} {cid : Str} (hm : Heard T (.commit h cid)) (w : World) : CS cfg T (Agg.reserveCommit cfg cid) w (fun _ _ => True) := by
  unfold Agg.reserveCommit
  refine CS.bind (CS.getConnection cid w) fun ref v1 hk1 _ _ ⟨id, hc, hcid⟩ => ?_
  refine CS.bind (CS.checkLive ref v1) fun _ v2 hk2 _ _ _ => ?_
  refine CS.bind (CS.switchC (P := True) (hc.keep hk2.1.1) fun row st hr h1 h2 => ⟨h1.switchR h2 (fun _ => ⟨h, ?_⟩) (by simp), trivial⟩) fun _ v3 hk3 _ _ _ => ?_
  · rw [show row.cid = cid by rw [← hcid, ← hr]; rfl]; exact hm
  refine CS.segments ((hc.keep hk2.1.1).keep hk3.1.1) (f := fun _ refs => do
    let subs ← Agg.getSs refs; Agg.sendAll cfg .commit subs; let results ← issue (.acks subs.length); Agg.answer cid tCommitted subs results) ?_
  exact fun _ _ _ _ _ _ hs => CS.sendOff (by simp) hs

theorem CS.terminate {cid : Str} (w : World) : CS cfg T (Agg.terminate cfg cid) w (fun _ _ => True) := by
  unfold Agg.terminate
  refine CS.bind (CS.getConnection cid w) fun ref v1 hk1 _ _ ⟨id, hc, hcid⟩ => ?_
  refine CS.bind (CS.getC hc) fun row v2 hk2 _ _ hr => ?_
  split
  · exact CS.pure trivial
  unfold Agg.terminateLive
  refine CS.bind (CS.switchL hr.1) fun _ v3 hk3 _ _ _ => ?_
  refine CS.segments (hr.1.keep hk3.1.1) (f := fun _ refs => do
    let subs ← Agg.getSs refs; Agg.sendAll cfg .terminate subs; let results ← issue (.acks subs.length); Agg.answer cid tTerminate subs results) ?_
  exact fun _ _ _ _ _ _ hs => CS.sendOff (by simp) hs

theorem SegOk.r {row : SRow} (h : SegOk T row) {r : RState} (h1 : r = .start → ∃ h, Heard T (.commitConfirmed h row.cid) ∨ Heard T (.abortConfirmed h row.cid))
    (h2 : r = .timeout → ∃ h n, Heard T (.timeout h row.cid n)) : SegOk T { row with st := { row.st with r } } :=
  ⟨h.made, h.prov, h.term, h1, h2, h.active⟩
theorem SegOk.p {row : SRow} (h : SegOk T row) {p : PState} (h1 : p = .provisioned → ∃ h, Heard T (.provisionConfirmed h row.cid)) :
    SegOk T { row with st := { row.st with p } } := ⟨h.made, h1, h.term, h.done, h.late, h.active⟩
theorem SegOk.l {row : SRow} (h : SegOk T row) {l : LState} (h1 : l = .terminated → ∃ h, Heard T (.terminateConfirmed h row.cid)) :
    SegOk T { row with st := { row.st with l } } := ⟨h.made, h.prov, h1, h.done, h.late, h.active⟩

theorem CS.saveSs {refs : List Nat} {w : World} : CS cfg T (issue (.saveSs refs)) w (fun _ _ => True) := CS.cmd' fun _ _ _ _ => ⟨trivial, trivial⟩

theorem CS.abortLoop : ∀ (l done : List Nat) (w : World), (∀ r ∈ l, Seg w r) → CS cfg T (Agg.abortLoop cfg done l) w (fun _ _ => True)
  | [], done, w, _ => CS.saveSs
  | r :: rs, done, w, h => by
    unfold Agg.abortLoop
    obtain ⟨id, hr⟩ := h r (by simp)
    refine CS.bind (CS.getS hr) fun row v hk _ _ hrow => ?_
    cases hst : OpenNSA.switchR row.st .aborting with
    | none => exact CS.bind CS.saveSs fun _ _ _ _ _ _ => CS.throw
    | some st =>
      refine CS.bind (CS.setS hrow.1 (row := { row with st }) hrow.2.1 (by rw [(switchR_some hst).2]; exact hrow.2.2.r (by simp) (by simp)))
        fun _ v1 hk1 _ _ _ => ?_
      cases cfg.provider row.src.network with
      | error e => exact CS.bind CS.saveSs fun _ _ _ _ _ _ => CS.throw
      | ok p =>
        refine CS.bind (CS.cmd' fun _ _ _ _ => ⟨trivial, trivial⟩) fun corr v2 hk2 _ _ _ => ?_
        refine CS.bind (CS.cmd' fun _ _ _ _ => ⟨trivial, fun cid ⟨_, _, _, _, _, h⟩ => by simp at h⟩) fun _ v3 hk3 _ _ _ => ?_
        exact CS.abortLoop rs _ v3 fun x hx => (h x (by simp [hx])).keep (((hk.trans hk1).trans hk2).trans hk3).1.1

theorem CS.reserveAbort {h : Hdr} {cid : Str} (hm : Heard T (.abort h cid)) (w : World) : CS cfg T (Agg.reserveAbort cfg cid) w (fun _ _ => True) := by
  unfold Agg.reserveAbort
  refine CS.bind (CS.getConnection cid w) fun ref v1 hk1 _ _ ⟨id, hc, hcid⟩ => ?_
  refine CS.bind (CS.checkLive ref v1) fun _ v2 hk2 _ _ _ => ?_
  refine CS.bind (CS.switchC (P := True) (hc.keep hk2.1.1) fun row st hr h1 h2 => ⟨h1.switchR h2 (by simp) (fun _ => ⟨h, ?_⟩), trivial⟩) fun _ v3 hk3 _ _ _ => ?_
  · rw [show row.cid = cid by rw [← hcid, ← hr]; rfl]; exact hm
  refine CS.segments ((hc.keep hk2.1.1).keep hk3.1.1) (f := fun _ refs => do
    Agg.abortLoop cfg [] refs
    let results ← issue (.acks refs.length)
    if allOk results then Coro.pure (some cid) else Coro.throw .type) ?_
  intro _ refs v _ _ _ ⟨cids, hs⟩
  refine CS.bind (CS.abortLoop refs [] v (SegAs.seg hs)) fun _ v4 _ _ _ _ => ?_
  refine CS.bind (CS.cmd' fun _ _ _ _ => ⟨trivial, trivial⟩) fun results v5 _ _ _ _ => ?_
  split
  · exact CS.pure trivial
  · exact CS.throw

theorem CS.switchSubs {skip : SRow → Bool} {f : ConnStates → Option ConnStates} (hf : ∀ row st, SegOk T row → f row.st = some st → SegOk T { row with st }) :
    ∀ (l done : List Nat) (w : World), (∀ r ∈ l, Seg w r) → CS cfg T (Agg.switchSubs skip f done l) w (fun _ _ => True)
  | [], done, w, _ => by
    unfold Agg.switchSubs
    split
    · exact CS.pure trivial
    · exact CS.saveSs
  | r :: rs, done, w, h => by
    unfold Agg.switchSubs
    obtain ⟨id, hr⟩ := h r (by simp)
    refine CS.bind (CS.getS hr) fun row v hk _ _ hrow => ?_
    split
    · exact CS.switchSubs hf rs _ v fun x hx => (h x (by simp [hx])).keep hk.1.1
    · cases hst : f row.st with
      | none => exact CS.bind CS.saveSs fun _ _ _ _ _ _ => CS.throw
      | some st =>
        refine CS.bind (CS.setS hrow.1 (row := { row with st }) hrow.2.1 (hf row st hrow.2.2 hst)) fun _ v1 hk1 _ _ _ => ?_
        exact CS.switchSubs hf rs _ v1 fun x hx => (h x (by simp [hx])).keep (hk.trans hk1).1.1

theorem CS.provision {h : Hdr} {cid : Str} (hm : Heard T (.provision h cid)) (w : World) : CS cfg T (Agg.provision cfg cid) w (fun _ _ => True) := by
  unfold Agg.provision
  refine CS.bind (CS.getConnection cid w) fun ref v1 hk1 _ _ ⟨id, hc, hcid⟩ => ?_
  refine CS.bind (CS.checkLive ref v1) fun _ v2 hk2 _ _ _ => ?_
  refine CS.bind (CS.switchC (P := True) (hc.keep hk2.1.1) fun row st hr h1 h2 => ⟨h1.switchP h2 (fun _ => ⟨h, ?_⟩) (by simp), trivial⟩) fun _ v3 hk3 _ _ _ => ?_
  · rw [show row.cid = cid by rw [← hcid, ← hr]; rfl]; exact hm
  refine CS.segments ((hc.keep hk2.1.1).keep hk3.1.1) (f := fun _ refs => do
    Agg.switchSubs (fun s => s.st.p = .provisioning) (fun s => OpenNSA.switchP s .provisioning) [] refs
    let subs ← Agg.getSs refs; Agg.sendAll cfg .provision subs; let results ← issue (.acks subs.length); Agg.answer cid tProvision subs results) ?_
  intro _ refs v _ _ _ ⟨cids, hs⟩
  refine CS.bind (CS.switchSubs (fun row st h1 h2 => by rw [(switchP_some h2).2]; exact h1.p (by simp)) refs [] v (SegAs.seg hs)) fun _ v4 hk4 _ _ _ => ?_
  exact CS.sendOff (by simp) ⟨cids, hs.imp fun _ _ h => h.keep hk4.1.1⟩

theorem CS.release {h : Hdr} {cid : Str} (hm : Heard T (.release h cid)) (w : World) : CS cfg T (Agg.release cfg cid) w (fun _ _ => True) := by
  unfold Agg.release
  refine CS.bind (CS.getConnection cid w) fun ref v1 hk1 _ _ ⟨id, hc, hcid⟩ => ?_
  refine CS.bind (CS.checkLive ref v1) fun _ v2 hk2 _ _ _ => ?_
  refine CS.bind (CS.switchC (P := True) (hc.keep hk2.1.1) fun row st hr h1 h2 => ⟨h1.switchP h2 (by simp) (fun _ => ⟨h, ?_⟩), trivial⟩) fun _ v3 hk3 _ _ _ => ?_
  · rw [show row.cid = cid by rw [← hcid, ← hr]; rfl]; exact hm
  refine CS.segments ((hc.keep hk2.1.1).keep hk3.1.1) (f := fun _ refs => do
    Agg.switchSubs (fun _ => false) (fun s => OpenNSA.switchP s .releasing) [] refs
    let subs ← Agg.getSs refs; Agg.sendAll cfg .release subs; let results ← issue (.acks subs.length); Agg.answer cid tRelease subs results) ?_
  intro _ refs v _ _ _ ⟨cids, hs⟩
  refine CS.bind (CS.switchSubs (fun row st h1 h2 => by rw [(switchP_some h2).2]; exact h1.p (by simp)) refs [] v (SegAs.seg hs)) fun _ v4 hk4 _ _ _ => ?_
  exact CS.sendOff (by simp) ⟨cids, hs.imp fun _ _ h => h.keep hk4.1.1⟩

/-! ### Replies -/

theorem IsS.mem {w : World} (hi : Ids cfg w) {ref : Nat} {id : Nat × Nat × Str × Str × Nat} (h : IsS w ref id) : id.2.2.1 ∈ segCids w id.2.1 := by
  obtain ⟨o, h1, h2, h3⟩ := h
  obtain ⟨s, g1, g2⟩ := hi.sobj ref o h1 h2
  rw [h3] at g2
  subst g2
  exact List.mem_map.mpr ⟨s, List.mem_filter.mpr ⟨g1, by simp [SRow.id]⟩, rfl⟩

theorem CS.tell {ref : Nat} {conn : CRow} {o : Out} {w : World} (h : IsC w ref conn.id) (ho : o.dest = some (conn.cid, conn.requester))
    (hc : Ids cfg w → o.Caused T w) : CS cfg T (issue (.emit o) >>= fun _ => Coro.pure (none : Option Str)) w (fun _ _ => True) := by
  intro hi hv
  exact CS.bind (CS.cmd' fun v hk hi' _ => ⟨hi'.outOk (h.keep hk.1.1) ho, (hc hi).keep hk.1⟩) (fun _ _ _ _ _ _ => CS.pure trivial) hi hv

theorem Because.mk {w v w0 : World} {key : Nat} {cid : Str} {m : Msg} {seg : Str} {trig : Msg → Str → Prop} {conf : World → Str → Prop} {ref : Nat} {conn : CRow}
    (hi : Ids cfg v) (hk : Keep w v) (hc : IsC v ref conn.id) (hkey : conn.key = key) (hcid : conn.cid = cid) (hm : (m, w0) ∈ T) (ht : trig m seg)
    (hs : seg ∈ segCids w key) (hconf : ∀ c ∈ segCids w0 key, conf w0 c) : Because T v cid trig conf := by
  obtain ⟨row, h1, h2, h3, _⟩ := IsC.rowOf hi hc
  refine ⟨row, h1, h3.trans hcid, m, seg, w0, hm, ht, ?_, ?_⟩
  · rw [h2, hkey]; exact (hk.segCids key).subset hs
  · rw [h2, hkey]; exact hconf

theorem CS.confirmAll {skey : Nat} {there : ConnStates → Bool} {f : ConnStates → Option ConnStates} {msg : Str → Str → Out} {trig : Msg → Str → Prop}
    {conf : World → Str → Prop} {P : Str → Prop} {w w0 : World} {m : Msg} {seg : Str} (hm : (m, w0) ∈ T) (ht : trig m seg) (hk0 : Keep w0 w)
    (hseg : seg ∈ segCids w skey) (hd : ∀ to_ cid, (msg to_ cid).dest = some (cid, to_)) (hthere : ∀ s, SegOk T s → there s.st = true → conf w0 s.cid)
    (hf : ∀ row st, ConnOk T row → f row.st = some st → ConnOk T { row with st } ∧ P row.cid)
    (hcause : ∀ v to_ cid, P cid → Because T v cid trig conf → (msg to_ cid).Caused T v) :
    CS cfg T (Agg.confirmAll skey there f msg) w (fun _ _ => True) := by
  unfold Agg.confirmAll
  refine CS.bind (CS.family skey w) fun fam v1 hk1 _ _ hfam => ?_
  obtain ⟨⟨id, hc, hid⟩, cids, hpre, hsegs⟩ := hfam
  refine CS.bind (CS.getSs fam.2 cids v1 hsegs.2) fun subs v2 hk2 _ _ hss => ?_
  refine CS.bind (CS.getC (hc.keep hk2.1.1)) fun conn v3 hk3 _ _ hr => ?_
  split
  · rename_i hall
    refine CS.bind (CS.switchC (P := P id.2.1) hr.1 fun row st h1 h2 h3 => ?_) fun _ v4 hk4 _ _ hP => ?_
    · have := hf row st h2 h3
      exact ⟨this.1, by rw [← h1]; exact this.2⟩
    · refine CS.bind (CS.getC (hr.1.keep hk4.1.1)) fun conn' v5 hk5 _ _ hr' => ?_
      have hcn : IsC v5 fam.1 conn'.id := by rw [hr'.2.1]; exact hr'.1
      refine CS.tell hcn (hd _ _) fun hi5 => hcause _ _ _ ?_ ?_
      · rw [← hr'.2.1] at hP; exact hP
      · refine Because.mk hi5 ((((hk1.trans hk2).trans hk3).trans hk4).trans hk5).1.1 hcn (by rw [← hid, ← hr'.2.1]; rfl) rfl hm ht hseg fun c hc => ?_
        have : c ∈ subs.map (·.cid) := by rw [hss.1]; exact hpre.subset ((hk0.segCids skey).subset hc)
        obtain ⟨s, h1, rfl⟩ := List.mem_map.mp this
        exact hthere s (hss.2 s h1) (List.all_eq_true.mp hall.1 s h1)
  · exact CS.pure trivial

theorem CS.confirmSet {h : RHdr} {cid : Str} {set : ConnStates → ConnStates} {there : ConnStates → Bool} {f : ConnStates → Option ConnStates}
    {msg : Str → Str → Out} {trig : Msg → Str → Prop} {conf : World → Str → Prop} {P : Str → Prop} {w w0 : World} {m : Msg}
    (hm : (m, w0) ∈ T) (ht : trig m cid) (hk0 : Keep w0 w) (hd : ∀ to_ cid, (msg to_ cid).dest = some (cid, to_))
    (hset : ∀ row, row.cid = cid → SegOk T row → SegOk T { row with st := set row.st }) (hthere : ∀ s, SegOk T s → there s.st = true → conf w0 s.cid)
    (hf : ∀ row st, ConnOk T row → f row.st = some st → ConnOk T { row with st } ∧ P row.cid)
    (hcause : ∀ v to_ cid, P cid → Because T v cid trig conf → (msg to_ cid).Caused T v) :
    CS cfg T (Agg.confirmSet h cid set there f msg) w (fun _ _ => True) := by
  unfold Agg.confirmSet
  refine CS.bind (CS.getSubConnection h.prov cid w) fun sref v1 hk1 _ _ ⟨id, hs, hcid⟩ => ?_
  refine CS.bind (CS.getS hs) fun s v2 hk2 _ _ hr => ?_
  refine CS.bind (CS.setS hr.1 (row := { s with st := set s.st }) hr.2.1 (hset s (by rw [← hcid, ← hr.2.1]; rfl) hr.2.2)) fun _ v3 hk3 _ _ _ => ?_
  refine CS.bind (CS.cmd' fun _ _ _ _ => ⟨trivial, trivial⟩) fun _ v4 hk4 hi4 _ _ => ?_
  have hmem := ((hr.1.keep hk3.1.1).keep hk4.1.1).mem hi4
  refine CS.confirmAll hm ht (hk0.trans (((hk1.trans hk2).trans hk3).trans hk4).1.1) ?_ hd hthere hf hcause
  rw [hcid] at hmem
  rw [show s.skey = id.2.1 by rw [← hr.2.1]; rfl]
  exact hmem

theorem CS.confirmSwitch {h : RHdr} {cid : Str} {g : ConnStates → Option ConnStates} {there : ConnStates → Bool} {f : ConnStates → Option ConnStates}
    {msg : Str → Str → Out} {trig : Msg → Str → Prop} {conf : World → Str → Prop} {P : Str → Prop} {w w0 : World} {m : Msg}
    (hm : (m, w0) ∈ T) (ht : trig m cid) (hk0 : Keep w0 w) (hd : ∀ to_ cid, (msg to_ cid).dest = some (cid, to_))
    (hset : ∀ row st, row.cid = cid → SegOk T row → g row.st = some st → SegOk T { row with st }) (hthere : ∀ s, SegOk T s → there s.st = true → conf w0 s.cid)
    (hf : ∀ row st, ConnOk T row → f row.st = some st → ConnOk T { row with st } ∧ P row.cid)
    (hcause : ∀ v to_ cid, P cid → Because T v cid trig conf → (msg to_ cid).Caused T v) :
    CS cfg T (Agg.confirmSwitch h cid g there f msg) w (fun _ _ => True) := by
  unfold Agg.confirmSwitch
  refine CS.bind (CS.getSubConnection h.prov cid w) fun sref v1 hk1 _ _ ⟨id, hs, hcid⟩ => ?_
  refine CS.bind (CS.getS hs) fun s v2 hk2 _ _ hr => ?_
  refine CS.bind (CS.switchS hr.1 fun row st h1 h2 h3 => hset row st (by rw [← hcid, ← h1]; rfl) h2 h3) fun _ v4 hk4 hi4 _ _ => ?_
  have hmem := (hr.1.keep hk4.1.1).mem hi4
  refine CS.confirmAll hm ht (hk0.trans ((hk1.trans hk2).trans hk4).1.1) ?_ hd hthere hf hcause
  rw [hcid] at hmem
  rw [show s.skey = id.2.1 by rw [← hr.2.1]; rfl]
  exact hmem

/-- Taking the expected answer of a reserve call: the other calls for the connection are answered or expected. -/
theorem CS.takeResv {h : RHdr} (hm : (∃ seg crit, Heard T (.reserveConfirmed h seg crit)) ∨ Heard T (.reserveFailed h)) (w : World) :
    CS cfg T (Agg.takeResv h) w (fun r v => ∃ row ∈ v.conns, row.key = r.skey ∧
      (∃ c ∈ v.sent, c.corr = h.corr ∧ c.prov = h.prov ∧ c.reserves row.cid) ∧ ((v.sent.map (·.corr)).Nodup → Live T row.cid row.key v) ∧
      h.prov = r.prov ∧ ∃ row0 ∈ w.conns, row0.key = r.skey ∧ ∃ c ∈ w.sent, c.corr = h.corr ∧ c.prov = h.prov ∧ c.reserves row0.cid) := by
  intro hi hv
  unfold Agg.takeResv
  refine Safe.bind' (Safe.sync rfl (fun b hb => ?_) (fun e he => by simp [exec] at he))
  simp only [exec, Except.ok.injEq] at hb ⊢
  cases b with
  | none => exact ⟨⟨hi, hv⟩, .refl w⟩
  | some r =>
    simp only
    split
    · exact ⟨⟨hi, hv⟩, .refl w⟩
    · rename_i hprov
      have hj : (Cmd.popResv h.corr).Just T w := by
        refine ⟨h, rfl, hm, fun r' hr' => ?_⟩
        obtain rfl := Option.some.inj (hb.symm.trans hr')
        simpa using hprov
      have h1 := (hi.exec (.popResv h.corr) trivial).1
      have h2 := hv.exec hi (.popResv h.corr) trivial hj
      refine Safe.bind' (Safe.sync rfl (fun _ _ => ⟨⟨h1, h2.1⟩, h2.2, h2.2, ?_⟩) (fun e he => by simp [exec] at he))
      have he := dget_some_mem hb
      obtain ⟨row, g1, g2, c, g3, g4, g5, g6⟩ := hv.entries _ he
      obtain ⟨row', f1, f2⟩ := h2.2.1.1.conns row g1
      simp only [CRow.id, Prod.mk.injEq] at f2
      refine ⟨row', f1, f2.1.trans g2, ⟨c, h2.2.1.2.1.subset g3, g4, g5.trans ?_, by rw [f2.2.1]; exact g6⟩, fun hn => ?_, Decidable.not_not.mp hprov,
        row, g1, g2, c, g3, g4, g5.trans (Decidable.not_not.mp hprov).symm, g6⟩
      · exact (Decidable.not_not.mp hprov).symm
      rw [f2.1, f2.2.1]
      exact (h2.2.2 hn).1 row g1 (hv.live (sent_nodup h2.2.1.2 hn) _ he row g1 g2)

theorem saveS_ok {w : World} {ref : Nat} (h : (w.saveS ref).2 = .ok ()) : ∃ o, (w.saveS ref).1.sheap[ref]? = some o ∧ o.isNew = false := by
  unfold World.saveS at h ⊢
  split
  · rename_i h0; rw [h0] at h; simp at h
  · rename_i o ho
    rw [ho] at h
    simp only at h
    split
    · rename_i hn
      rw [if_pos hn] at h
      split
      · rename_i hd; rw [if_pos hd] at h; simp at h
      · exact ⟨_, List.getElem?_set_self (List.getElem?_eq_some_iff.mp ho).1, rfl⟩
    · rename_i hn
      exact ⟨o, ho, by simpa using hn⟩

theorem CS.confirmUp {h : RHdr} {seg : Str} {crit : Crit} {skey ref : Nat} {refs : List Nat} {cids : List Str} {w w0 : World} {conn0 : CRow}
    (hm : (Msg.reserveConfirmed h seg crit, w0) ∈ T) (hk0 : Keep2 w0 w) (hseg : seg ∈ segCids w skey) (hc : IsC w ref conn0.id) (hkey : conn0.key = skey)
    (hs : List.Forall₂ (SegAs w) cids refs) (hx : ∃ x ∈ w.sent, x.corr = h.corr ∧ x.prov = h.prov ∧ x.reserves conn0.cid)
    (hl : (w.sent.map (·.corr)).Nodup → Live T conn0.cid conn0.key w) :
    CS cfg T (Agg.confirmUp skey ref refs) w (fun _ _ => True) := by
  unfold Agg.confirmUp
  refine CS.bind (Q := fun n v => n = 0 → (v.sent.map (·.corr)).Nodup → ∀ c ∈ w0.sent, c.reserves conn0.cid → c.Answered T)
    ?_ fun n v1 hk1 _ _ hn => ?_
  · intro hi hv
    refine Safe.sync rfl (fun n hn => ⟨⟨hi, hv⟩, .refl w, .refl w, ?_⟩) (fun e he => by simp [exec] at he)
    intro h0 hnd c hcs hres
    subst h0
    simp only [exec, Except.ok.injEq, List.length_eq_zero_iff, List.filter_eq_nil_iff] at hn
    rcases hl hnd c (hk0.2.1.subset hcs) hres with h1 | ⟨r, h1, h2, _⟩
    · exact h1
    · exact absurd (by simpa using h2.trans hkey) (hn _ (dget_some_mem h1))
  · split
    · exact CS.pure trivial
    · rename_i hn0
      have hn0 : n = 0 := by omega
      refine CS.bind (CS.getSs refs cids v1 (hs.imp fun _ _ h => h.keep hk1.1.1)) fun subs v2 hk2 _ _ hss => ?_
      refine CS.bind (CS.getC ((hc.keep hk1.1.1).keep hk2.1.1)) fun conn v3 hk3 _ _ hr => ?_
      split
      · refine CS.bind (CS.switchC (P := True) hr.1 fun row st _ h1 h2 => ⟨h1.switchR h2 (by simp) (by simp), trivial⟩) fun _ v4 hk4 _ _ _ => ?_
        refine CS.bind (CS.getC (hr.1.keep hk4.1.1)) fun conn' v5 hk5 _ _ hr' => ?_
        have hcn : IsC v5 ref conn'.id := by rw [hr'.2.1]; exact hr'.1
        have hk := (((hk1.trans hk2).trans hk3).trans hk4).trans hk5
        have hk' := (((hk2).trans hk3).trans hk4).trans hk5
        have hid := hr'.2.1
        simp only [CRow.id, Prod.mk.injEq] at hid
        refine CS.tell hcn rfl fun hi5 => ?_
        obtain ⟨row, h1, h2, h3, _⟩ := IsC.rowOf hi5 hcn
        refine ⟨row, h1, h3, h, seg, crit, w0, hm, ?_, ?_, fun hnd => ?_⟩
        · rw [h2, hid.1, hkey]; exact (hk.1.1.segCids skey).subset hseg
        · obtain ⟨x, f1, f2, f3, f4⟩ := hx
          exact ⟨x, hk.1.2.1.subset f1, f2, f3, by rw [hid.2.1]; exact f4⟩
        · rw [hid.2.1]; exact hn hn0 (sent_nodup hk'.1.2 hnd)
      · exact CS.pure trivial

theorem CS.reserveConfirmed {h : RHdr} {cid : Str} {c : Crit} {w : World} (hm : (Msg.reserveConfirmed h cid c, w) ∈ T) :
    CS cfg T (Agg.reserveConfirmed h cid c) w (fun _ _ => True) := by
  unfold Agg.reserveConfirmed
  refine CS.bind (CS.takeResv (.inl ⟨cid, c, w, hm⟩) w) fun r v1 hk1 _ _ ⟨row, hrow, hrk, ⟨x, hx1, hx2, hx3, hx4⟩, hlive, hrp, hcall⟩ => ?_
  unfold Agg.confirmOk
  refine CS.bind (Q := fun sref v => ∃ o, v.sheap[sref]? = some o ∧ o.row.cid = cid ∧ o.row.skey = r.skey)
    (CS.cmd (fun v hk _ _ => ⟨?_, ?_⟩) ?_) fun sref v2 hk2 _ _ hobj => ?_
  · obtain ⟨row', g1, g2⟩ := hk.1.1.conns row hrow
    simp only [CRow.id, Prod.mk.injEq] at g2
    exact ⟨row', g1, g2.1.trans hrk⟩
  · exact ⟨⟨h, c, w, hm, hrp, rfl, rfl, hcall⟩, by simp [newSub], by simp [newSub], by simp [newSub], by simp [newSub], by simp [newSub]⟩
  · intro v b _ _ _ hb v' hk' _ _
    simp only [exec, Except.ok.injEq] at hb
    subst hb
    obtain ⟨o', f1, f2, _, f3, _⟩ := hk'.1.1.sobj v.sheap.length ⟨newSub r cid c, true⟩ (by simp only [exec, List.getElem?_concat_length])
    exact ⟨o', f1, f2, f3⟩
  refine CS.bind (Q := fun _ v => ∃ id, IsS v sref id ∧ id.2.2.1 = cid ∧ id.2.1 = r.skey) (CS.cmd (fun _ _ _ _ => ⟨trivial, trivial⟩) ?_)
    fun _ v3 hk3 hi3 _ ⟨sid, hsid, hs1, hs2⟩ => ?_
  · intro v b hk hi _ hb v' hk' _ _
    obtain ⟨o, h1, h2, h3⟩ := hobj
    obtain ⟨o', f1, f2, _, f3, _⟩ := (hk.1.1.trans (hi.saveS sref).2).sobj sref o h1
    obtain ⟨o2, e1, e2⟩ := saveS_ok hb
    obtain rfl := Option.some.inj (e1.symm.trans f1)
    exact ⟨_, IsS.keep hk'.1.1 ⟨o2, e1, e2, rfl⟩, f2.trans h2, f3.trans h3⟩
  have hmem := hsid.mem hi3
  rw [hs1, hs2] at hmem
  refine CS.bind (CS.family r.skey v3) fun fam v4 hk4 _ _ hfam => ?_
  obtain ⟨⟨id, hc, hid⟩, cids, hpre, hsegs⟩ := hfam
  refine CS.bind (CS.getC hc) fun conn v5 hk5 _ _ hr => ?_
  have hlab : (confirmLabels conn r.order fam.2.length c).id = id ∧ (confirmLabels conn r.order fam.2.length c).st = conn.st ∧
      (confirmLabels conn r.order fam.2.length c).cid = conn.cid := by
    rw [← hr.2.1]
    unfold confirmLabels
    simp only
    split <;> split <;> exact ⟨rfl, rfl, rfl⟩
  refine CS.bind (CS.setC hr.1 hlab.1 ?_) fun _ v6 hk6 _ _ _ => ?_
  · have := hr.2.2
    exact ⟨by rw [hlab.2.1, hlab.2.2]; exact this.prov, by rw [hlab.2.1, hlab.2.2]; exact this.rel, by rw [hlab.2.1, hlab.2.2]; exact this.commit,
      by rw [hlab.2.1, hlab.2.2]; exact this.abort⟩
  refine CS.bind (CS.cmd' fun _ _ _ _ => ⟨trivial, trivial⟩) fun _ v7 hk7 hi7 _ _ => ?_
  have hk47 := (hk4.trans hk5).trans (hk6.trans hk7)
  have hc7 : IsC v7 fam.1 conn.id := by rw [hr.2.1]; exact (hr.1.keep hk6.1.1).keep hk7.1.1
  have hkey : conn.key = r.skey := by rw [← hid, ← hr.2.1]; rfl
  have hk17 := hk2.trans (hk3.trans hk47)
  obtain ⟨row7, g1, g2⟩ := hk17.1.1.conns row hrow
  obtain ⟨rowc, f1, f2, f3, _⟩ := IsC.rowOf hi7 hc7
  simp only [CRow.id, Prod.mk.injEq] at g2
  have heq : row7 = rowc := List.inj_on_of_nodup_map hi7.ckeys g1 f1 (by rw [g2.1, hrk, f2, hkey])
  refine CS.confirmUp hm ((hk1.trans hk2).trans (hk3.trans hk47)).1 ((hk47.1.1.segCids _).subset hmem) hc7 hkey
    (hsegs.2.imp fun _ _ h => h.keep (hk5.trans (hk6.trans hk7)).1.1)
    ⟨x, hk17.1.2.1.subset hx1, hx2, hx3, by rw [← f3, ← heq, g2.2.1]; exact hx4⟩ fun hn => ?_
  rw [← f2, ← f3, ← heq, g2.1, g2.2.1]
  exact (hk17.2 hn).1 row hrow (hlive (sent_nodup hk17.1.2 hn))

theorem CS.reserveFailed {h : RHdr} {w : World} (hm : Heard T (.reserveFailed h)) : CS cfg T (Agg.reserveFailed h) w (fun _ _ => True) := by
  unfold Agg.reserveFailed
  refine CS.bind (CS.takeResv (.inr hm) w) fun r v1 hk1 _ _ ⟨row0, hrow0, hrk, ⟨x, hx1, hx2, hx3, hx4⟩, _⟩ => ?_
  refine CS.bind (CS.getConnectionByKey r.skey v1) fun ref v2 hk2 _ _ ⟨id, hc, hid⟩ => ?_
  refine CS.bind (Q := fun _ _ => True) ?_ fun _ v3 hk3 _ _ _ => ?_
  · unfold Agg.markFailed
    refine CS.bind (CS.getC hc) fun conn v5 hk5 _ _ hr => ?_
    split
    · exact CS.switchC (P := True) hr.1 fun row st _ h1 h2 => ⟨h1.switchR h2 (by simp) (by simp), trivial⟩
    · exact CS.pure trivial
  refine CS.bind (CS.getC (hc.keep hk3.1.1)) fun conn v5 hk5 _ _ hr => ?_
  have hcn : IsC v5 ref conn.id := by rw [hr.2.1]; exact hr.1
  refine CS.tell hcn rfl fun hi5 => ?_
  obtain ⟨row, h1, h2, h3, _⟩ := IsC.rowOf hi5 hcn
  have hk := hk2.trans (hk3.trans hk5)
  obtain ⟨row1, g1, g2⟩ := hk.1.1.conns row0 hrow0
  simp only [CRow.id, Prod.mk.injEq] at g2
  have heq : row1 = row := List.inj_on_of_nodup_map hi5.ckeys g1 h1 (by rw [g2.1, hrk, h2, ← hid, ← hr.2.1]; rfl)
  exact ⟨h, hm, x, hk.1.2.1.subset hx1, hx2, hx3, by rw [← h3, ← heq, g2.2.1]; exact hx4⟩

theorem CS.reserveTimeout {h : RHdr} {cid : Str} {n : Nat} {w : World} (hm : (Msg.timeout h cid n, w) ∈ T) :
    CS cfg T (Agg.reserveTimeout h cid n) w (fun _ _ => True) := by
  unfold Agg.reserveTimeout
  refine CS.bind (CS.getSubConnection h.prov cid w) fun sref v1 hk1 _ _ ⟨id, hs, hcid⟩ => ?_
  refine CS.bind (CS.switchS hs fun row st h1 h2 h3 => ?_) fun _ v2 hk2 _ _ _ => ?_
  · rw [(switchR_some h3).2]
    exact h2.r (by simp) fun _ => ⟨h, n, w, by rw [show row.cid = cid by rw [← hcid, ← h1]; rfl]; exact hm⟩
  refine CS.bind (CS.getS (hs.keep hk2.1.1)) fun s v3 hk3 hi3 _ hr => ?_
  have hmem := hr.1.mem hi3
  rw [hcid, show id.2.1 = s.skey by rw [← hr.2.1]; rfl] at hmem
  refine CS.bind (CS.family s.skey v3) fun fam v4 hk4 _ _ hfam => ?_
  obtain ⟨⟨id', hc, hid⟩, cids, hpre, hsegs⟩ := hfam
  refine CS.bind (CS.getSs fam.2 cids v4 hsegs.2) fun subs v5 hk5 _ _ hss => ?_
  refine CS.bind (CS.getC (hc.keep hk5.1.1)) fun conn v6 hk6 _ _ hr' => ?_
  split
  · exact CS.pure trivial
  · split
    · have hcn : IsC v6 fam.1 conn.id := by rw [hr'.2.1]; exact hr'.1
      refine CS.tell hcn rfl fun hi6 => ?_
      exact Because.mk hi6 ((hk4.trans hk5).trans hk6).1.1 hcn (by rw [← hid, ← hr'.2.1]; rfl) rfl hm ⟨h, rfl⟩ hmem fun _ _ => trivial
    · exact CS.pure trivial

theorem CS.errorEvent {h : RHdr} {cid : Str} {n : Nat} {w : World} (hm : (Msg.errorEvent h cid n, w) ∈ T) :
    CS cfg T (Agg.errorEvent h cid n) w (fun _ _ => True) := by
  unfold Agg.errorEvent
  refine CS.bind (CS.getSubConnection h.prov cid w) fun sref v1 hk1 _ _ ⟨id, hs, hcid⟩ => ?_
  refine CS.bind (CS.getS hs) fun s v3 hk3 hi3 _ hr => ?_
  have hmem := hr.1.mem hi3
  rw [hcid, show id.2.1 = s.skey by rw [← hr.2.1]; rfl] at hmem
  refine CS.bind (CS.family s.skey v3) fun fam v4 hk4 _ _ hfam => ?_
  obtain ⟨⟨id', hc, hid⟩, cids, hpre, hsegs⟩ := hfam
  refine CS.bind (CS.getC hc) fun conn v6 hk6 _ _ hr' => ?_
  split
  · have hcn : IsC v6 fam.1 conn.id := by rw [hr'.2.1]; exact hr'.1
    refine CS.tell hcn rfl fun hi6 => ?_
    exact Because.mk hi6 (hk4.trans hk6).1.1 hcn (by rw [← hid, ← hr'.2.1]; rfl) rfl hm ⟨h, rfl⟩ hmem fun _ _ => trivial
  · exact CS.throw

theorem CS.dataPlane {h : RHdr} {cid : Str} {a : Bool} {n : Int} {c : Bool} {w : World} (hm : (Msg.dataPlane h cid a n c, w) ∈ T) :
    CS cfg T (Agg.dataPlaneStateChange h cid a n c) w (fun _ _ => True) := by
  unfold Agg.dataPlaneStateChange
  refine CS.bind (CS.getSubConnection h.prov cid w) fun sref v1 hk1 _ _ ⟨id, hs, hcid⟩ => ?_
  refine CS.bind (CS.getS hs) fun s v2 hk2 _ _ hr => ?_
  have hscid : s.cid = cid := by rw [← hcid, ← hr.2.1]; rfl
  refine CS.bind (CS.setS hr.1 (row := { s with dpActive := a, dpVersion := some n, dpCons := some c }) hr.2.1
    ⟨hr.2.2.made, hr.2.2.prov, hr.2.2.term, hr.2.2.done, hr.2.2.late, fun ha => ⟨h, n, c, w, ?_⟩⟩) fun _ v3 hk3 _ _ _ => ?_
  · simp only at ha
    simp only [hscid]
    rw [← ha]; exact hm
  refine CS.bind (CS.cmd' fun _ _ _ _ => ⟨trivial, trivial⟩) fun _ v4 hk4 hi4 _ _ => ?_
  have hmem := ((hr.1.keep hk3.1.1).keep hk4.1.1).mem hi4
  rw [hcid, show id.2.1 = s.skey by rw [← hr.2.1]; rfl] at hmem
  refine CS.bind (CS.family s.skey v4) fun fam v5 hk5 _ _ hfam => ?_
  obtain ⟨⟨id', hc, hid⟩, cids, hpre, hsegs⟩ := hfam
  refine CS.bind (CS.getSs fam.2 cids v5 hsegs.2) fun subs v6 hk6 _ _ hss => ?_
  refine CS.bind (CS.getC (hc.keep hk6.1.1)) fun conn v7 hk7 _ _ hr' => ?_
  have hcn : IsC v7 fam.1 conn.id := by rw [hr'.2.1]; exact hr'.1
  refine CS.tell hcn rfl fun hi7 => ?_
  refine Because.mk hi7 ((hk5.trans hk6).trans hk7).1.1 hcn (by rw [← hid, ← hr'.2.1]; rfl) rfl hm ⟨h, a, n, c, rfl⟩ hmem fun x hx hact => ?_
  have : x ∈ subs.map (·.cid) := by
    rw [hss.1]
    exact hpre.subset (((((hk1.trans hk2).trans hk3).trans hk4).1.1.segCids _).subset hx)
  obtain ⟨y, h1, rfl⟩ := List.mem_map.mp this
  refine (hss.2 y h1).active ?_
  simp only [changeStatus, List.all_eq_true] at hact
  exact hact y h1

theorem CS.msg {m : Msg} {w : World} (hm : (m, w) ∈ T) : CS cfg T (m.prog cfg) w (fun _ _ => True) := by
  have hh : Heard T m := ⟨w, hm⟩
  cases m with
  | reserve h cid c => exact CS.reserve h cid c w
  | commit h cid => exact CS.reserveCommit hh w
  | abort h cid => exact CS.reserveAbort hh w
  | provision h cid => exact CS.provision hh w
  | release h cid => exact CS.release hh w
  | terminate h cid => exact CS.terminate w
  | querySummary h cids gids => exact .ofSpec (Spec.querySummary h cids gids w) (Looks.querySummary h cids gids)
  | queryRecursive h cids gids => exact .ofSpec (Spec.queryRecursive h cids gids w) (Looks.queryRecursive h cids gids)
  | reserveConfirmed h cid c => exact CS.reserveConfirmed hm
  | reserveFailed h => exact CS.reserveFailed hh
  | commitConfirmed h cid =>
    unfold Msg.prog Agg.reserveCommitConfirmed
    refine CS.confirmSet (P := fun cid => ∃ h, Heard T (.commit h cid) ∨ Heard T (.abort h cid)) (msg := Out.reserveCommitConfirmed) hm ⟨h, rfl⟩ (.refl w)
      (fun _ _ => rfl) (fun row hc hr => hr.r (fun _ => ⟨h, .inl (hc ▸ hh)⟩) (by simp)) (fun s hs h => hs.done (by simpa using h)) ?_ fun v _ _ h1 h2 => ⟨h1, h2⟩
    exact fun row st h1 h2 => ⟨h1.switchR h2 (by simp) (by simp), h1.ended h2⟩
  | abortConfirmed h cid =>
    unfold Msg.prog Agg.reserveAbortConfirmed
    refine CS.confirmSet (P := fun cid => ∃ h, Heard T (.commit h cid) ∨ Heard T (.abort h cid)) (msg := Out.reserveAbortConfirmed) hm ⟨h, rfl⟩ (.refl w)
      (fun _ _ => rfl) (fun row hc hr => hr.r (fun _ => ⟨h, .inr (hc ▸ hh)⟩) (by simp)) (fun s hs h => hs.done (by simpa using h)) ?_ fun v _ _ h1 h2 => ⟨h1, h2⟩
    exact fun row st h1 h2 => ⟨h1.switchR h2 (by simp) (by simp), h1.ended h2⟩
  | provisionConfirmed h cid =>
    refine CS.confirmSwitch (P := fun cid => ∃ h, Heard T (.provision h cid)) (msg := Out.provisionConfirmed) hm ⟨h, rfl⟩ (.refl w)
      (fun _ _ => rfl) (fun row st hc hr hs => by rw [(switchP_some hs).2]; exact hr.p fun _ => ⟨h, hc ▸ hh⟩) (fun s hs h => hs.prov (by simpa using h)) ?_
      fun v _ _ h1 h2 => ⟨h1, h2⟩
    exact fun row st h1 h2 => ⟨h1.switchP h2 (by simp) (by simp), h1.prov (by
      have := (switchP_some h2).1
      cases hp : row.st.p <;> simp [hp, provisionTransitions] at this ⊢)⟩
  | releaseConfirmed h cid =>
    refine CS.confirmSwitch (P := fun cid => ∃ h, Heard T (.release h cid)) (msg := Out.releaseConfirmed) (conf := fun _ _ => True) hm ⟨h, rfl⟩ (.refl w)
      (fun _ _ => rfl) (fun row st hc hr hs => by rw [(switchP_some hs).2]; exact hr.p (by simp)) (fun s hs h => trivial) ?_
      fun v _ _ h1 h2 => ⟨h1, h2⟩
    exact fun row st h1 h2 => ⟨h1.switchP h2 (by simp) (by simp), h1.rel (by
      have := (switchP_some h2).1
      cases hp : row.st.p <;> simp [hp, provisionTransitions] at this ⊢)⟩
  | terminateConfirmed h cid =>
    unfold Msg.prog Agg.terminateConfirmed
    refine CS.confirmSet (P := fun _ => True) (msg := Out.terminateConfirmed) hm ⟨h, rfl⟩ (.refl w)
      (fun _ _ => rfl) (fun row hc hr => hr.l fun _ => ⟨h, hc ▸ hh⟩) (fun s hs h => hs.term (by simpa using h)) ?_ fun v _ _ _ h2 => h2
    exact fun row st h1 h2 => ⟨h1.switchL h2, trivial⟩
  | timeout h cid n => exact CS.reserveTimeout hm
  | dataPlane h cid a v c => exact CS.dataPlane hm
  | errorEvent h cid n => exact CS.errorEvent hm
  | queryConfirmed h res => exact .ofSpec (Spec.queryRecursiveConfirmed h res w) (Looks.queryRecursiveConfirmed h res)

/-! ### Executions -/

theorem SafeSys.step' {cfg : Cfg} {I : World → Prop} {K : World → World → Prop} (hrefl : ∀ w, K w w) (htr : ∀ a b c, K a b → K b c → K a c)
    (ho : ∀ w o, I w → I { w with orc := o }) (hok : ∀ w o, K w { w with orc := o }) {s : Sys} (ih : SafeSys I K s) (o : Oracle) (ch : Conc.Choice Msg)
    (hp : ∀ m w, (m, w) ∈ Conc.Choice.events { s.w with orc := o } ch → I w → Safe I K (m.prog cfg) w w (Post (I := I) (K := K))) :
    SafeSys I K (sysStep cfg s o ch) ∧ K s.w (sysStep cfg s o ch).w := by
  have hi := ho _ o ih.1
  have ht : ∀ t ∈ s.tasks, SafeTask (I := I) (K := K) { s.w with orc := o } t.2 := fun t h => (ih.2 t h).later htr (hok _ o)
  cases ch with
  | start q =>
    have hs := hp q { s.w with orc := o } (by simp [Conc.Choice.events]) hi
    obtain ⟨h1, h2, new, h3, h4⟩ := Safe.runSync s.next { s.w with orc := o } (s := { s with w := { s.w with orc := o }, next := s.next + 1 }) hs
    refine ⟨⟨h1, ?_⟩, htr _ _ _ (hok _ o) h2⟩
    intro t htm
    rw [show (sysStep cfg s o (.start q)).tasks = _ from h3] at htm
    rcases List.mem_append.mp htm with htm | htm
    · exact (ht t htm).later htr h2
    · exact h4 t htm
  | perform n =>
    simp only [sysStep, Conc.step]
    cases hq : Conc.takeTask n s.tasks with
    | none => simp only; exact ⟨⟨hi, ht⟩, hok _ o⟩
    | some x =>
      obtain ⟨t, rest⟩ := x
      obtain ⟨hm1, hm2⟩ := takeTask_mem hq
      cases t with
      | performed p => simp only; exact ⟨⟨hi, ht⟩, hok _ o⟩
      | waiting c k =>
        simp only
        have hst := ht _ hm1 { s.w with orc := o } (hrefl _) hi
        refine ⟨⟨hst.1, ?_⟩, htr _ _ _ (hok _ o) hst.2.1⟩
        intro t htm
        rcases List.mem_append.mp htm with htm | htm
        · exact (ht t (hm2 t htm)).later htr hst.2.1
        · rw [List.mem_singleton.mp htm]
          exact hst.2.2
  | resume n =>
    simp only [sysStep, Conc.step]
    cases hq : Conc.takeTask n s.tasks with
    | none => simp only; exact ⟨⟨hi, ht⟩, hok _ o⟩
    | some x =>
      obtain ⟨t, rest⟩ := x
      obtain ⟨hm1, hm2⟩ := takeTask_mem hq
      cases t with
      | waiting c k => simp only; exact ⟨⟨hi, ht⟩, hok _ o⟩
      | performed p =>
        simp only
        have hst := ht _ hm1 { s.w with orc := o } (hrefl _) hi
        obtain ⟨h1, h2, new, h3, h4⟩ := Safe.runSync n { s.w with orc := o } (s := { s with w := { s.w with orc := o }, tasks := rest }) hst
        refine ⟨⟨h1, ?_⟩, htr _ _ _ (hok _ o) h2⟩
        intro t htm
        rw [h3] at htm
        rcases List.mem_append.mp htm with htm | htm
        · exact (ht t (hm2 t htm)).later htr h2
        · exact h4 t htm

theorem CInv.orc {w : World} (h : CInv T w) (o : Oracle) : CInv T { w with orc := o } ∧ Keep3 T w { w with orc := o } := by
  have hid : Idle w { w with orc := o } := .same rfl rfl rfl rfl rfl rfl rfl
  have hk : Keep w { w with orc := o } := .frame rfl rfl rfl rfl
  exact ⟨hid.inv hk h, ⟨hk, hid.grow⟩, hid.flow⟩

theorem CInv.restart {w : World} (h : CInv T w) : CInv T w.restart := by
  refine ⟨h.conns, by simp [World.restart], h.subs, by simp [World.restart], fun o ho => ?_, h.calls, by simp [World.restart], by simp [World.restart]⟩
  exact h.out o ho

/-- The invariant holds in every interleaving. -/
theorem Trace.causes {cfg : Cfg} {b : Bool} {T t : List (Msg × World)} {s : Sys} (h : Trace cfg b t s) (ht : ∀ x ∈ t, x ∈ T) :
    SafeSys (fun w => Ids cfg w ∧ CInv T w) (Keep3 T) s := by
  induction h with
  | init => exact ⟨⟨Reach.init.ids, by constructor <;> simp [World.init]⟩, by simp⟩
  | restart _ _ ih =>
    have := (ih ht).1
    exact ⟨⟨this.1.restart, this.2.restart⟩, by simp⟩
  | step h o ch ih =>
    have h1 := ih fun x hx => ht x (List.mem_append_left _ hx)
    refine (SafeSys.step' Keep3.refl (fun _ _ _ => Keep3.trans) (fun w o hi => ⟨hi.1.orc _ o, (hi.2.orc o).1⟩) ?_ h1 o ch ?_).1
    · intro w o
      have hid : Idle w { w with orc := o } := .same rfl rfl rfl rfl rfl rfl rfl
      exact ⟨⟨.frame rfl rfl rfl rfl, hid.grow⟩, hid.flow⟩
    · intro m w hm hi
      exact Safe.mono (CS.msg (ht _ (List.mem_append_right _ hm)) hi.1 hi.2) fun _ _ _ h => ⟨h.1, h.2.1⟩

end OpenNSA.Agg
