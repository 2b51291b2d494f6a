import Verif.Backend.OwnShare
/-
Interleaved execution, connection by connection: `reserve`.
-/
namespace OpenNSA.Backend
open OpenNSA Py Prog

section
variable {cfg : Cfg} {cid : Str} {s : Slice}

/-- Only more is known about the calendar. -/
def Grow (s s' : Slice) : Prop := ∃ l, s' = { s with chk := l } ∧ ∀ e ∈ s.chk, e ∈ l

theorem Grow.refl (s : Slice) : Grow s s := ⟨s.chk, rfl, fun _ h => h⟩
theorem Grow.trans {a b c : Slice} (h : Grow a b) (k : Grow b c) : Grow a c := by
  obtain ⟨l, rfl, h⟩ := h
  obtain ⟨l', rfl, k⟩ := k
  exact ⟨l', rfl, fun e he => k e (h e he)⟩

theorem sym_calCheck {Q : Slice → Except Err Unit → Prop} {e : Resv} (hq : ∀ s', Grow s s' → e ∈ s'.chk → Q s' (.ok ()))
    (he : ∀ x, Q s (.error x)) : Sym cfg cid (issue (.calCheck e)) Q s := by
  refine Sym_issue (by
    simp only [Cmd.isAsync, Bool.false_eq_true, if_false]
    refine ⟨trivial, ?_⟩
    rintro s' r (⟨rfl, rfl⟩ | ⟨rfl, x, rfl⟩)
    · exact hq _ ⟨e :: s.chk, rfl, fun _ h => by simp [h]⟩ (by simp)
    · exact he x)

theorem sym_calAdd {Q : Slice → Except Err Unit → Prop} {e : Resv} (h : e ∈ s.chk) (hq : Q { s with mine := s.mine ++ [e] } (.ok ())) :
    Sym cfg cid (issue (.calAdd e)) Q s := by
  refine Sym_issue (by
    simp only [Cmd.isAsync, Bool.false_eq_true, if_false]
    refine ⟨h, ?_⟩
    rintro s' r ⟨rfl, rfl⟩
    exact hq)

theorem ns_firstFree (port : Str) (st en : Option Time) : ∀ l, NoSpawn (firstFree cfg port st en l)
  | [] => trivial
  | lv :: rest => by
    have := ns_firstFree port st en rest
    unfold firstFree; simp only [bind_eq]
    refine ns_tryCatch (ns_bind (ns_issue _) fun _ => trivial) fun e => ?_
    split
    · exact this
    · trivial

theorem sym_firstFree (port : Str) (st en : Option Time) : ∀ (list : List (Option LabelVal)) {s : Slice} {Q : Slice → Except Err (Option LabelVal) → Prop},
    (∀ s' lv, Grow s s' → (⟨cfg.mgr.getResource port lv, st, en⟩ : Resv) ∈ s'.chk → Q s' (.ok lv)) → (∀ s' e, Grow s s' → Q s' (.error e)) →
    Sym cfg cid (firstFree cfg port st en list) Q s
  | [], s, Q, _, he => he s _ (Grow.refl s)
  | lv :: rest, s, Q, hq, he => by
    unfold firstFree
    simp only [bind_eq]
    refine Sym_tryCatch (ns_bind (ns_issue _) fun _ => by trivial) (Sym_bind (ns_issue _) (sym_calCheck (fun s' hg hm => ?_) fun e => ?_))
    · exact hq s' lv hg hm
    · simp only [cont_error, caught_error]
      split
      · exact sym_firstFree port st en rest hq he
      · exact he s e (Grow.refl s)

theorem ns_firstFreeBoth (sp dp : Str) (st en : Option Time) : ∀ l, NoSpawn (firstFreeBoth cfg sp dp st en l)
  | [] => trivial
  | lv :: rest => by
    have := ns_firstFreeBoth sp dp st en rest
    unfold firstFreeBoth; simp only [bind_eq]
    refine ns_tryCatch (ns_bind (ns_issue _) fun _ => ns_bind (ns_issue _) fun _ => ns_bind (ns_issue _) fun _ => ns_bind (ns_issue _) fun _ => trivial) fun e => ?_
    split
    · exact this
    · trivial

theorem sym_firstFreeBoth (sp dp : Str) (st en : Option Time) : ∀ (list : List (Option LabelVal)) {s : Slice} {Q : Slice → Except Err (Option LabelVal) → Prop},
    (∀ s' lv, Grow s s' → Q { s' with mine := s.mine ++ [⟨cfg.mgr.getResource sp lv, st, en⟩, ⟨cfg.mgr.getResource dp lv, st, en⟩] } (.ok lv)) →
    (∀ s' e, Grow s s' → Q s' (.error e)) → Sym cfg cid (firstFreeBoth cfg sp dp st en list) Q s
  | [], s, Q, _, he => he s _ (Grow.refl s)
  | lv :: rest, s, Q, hq, he => by
    have fail : ∀ {s' : Slice} {e : Err}, Grow s s' → Sym cfg cid (if e = .stpUnavailable then firstFreeBoth cfg sp dp st en rest else throw e) Q s' := by
      intro s' e hg
      split
      · refine sym_firstFreeBoth sp dp st en rest (fun s'' lv hg' => ?_) fun s'' e hg' => he s'' e (hg.trans hg')
        have hmine : s'.mine = s.mine := by obtain ⟨l, rfl, _⟩ := hg; rfl
        rw [hmine]
        exact hq s'' lv (hg.trans hg')
      · exact he s' e hg
    unfold firstFreeBoth
    simp only [bind_eq]
    refine Sym_tryCatch (ns_bind (ns_issue _) fun _ => ns_bind (ns_issue _) fun _ => ns_bind (ns_issue _) fun _ => ns_bind (ns_issue _) fun _ => by trivial) ?_
    refine Sym_bind (ns_issue _) (sym_calCheck (fun s1 hg1 hm1 => ?_) fun e => fail (Grow.refl s))
    simp only [cont_ok]
    refine Sym_bind (ns_issue _) (sym_calCheck (fun s2 hg2 hm2 => ?_) fun e => fail hg1)
    simp only [cont_ok]
    have hm1' : (⟨cfg.mgr.getResource sp lv, st, en⟩ : Resv) ∈ s2.chk := by
      obtain ⟨l, rfl, h⟩ := hg2
      exact h _ hm1
    refine Sym_bind (ns_issue _) (sym_calAdd hm1' ?_)
    simp only [cont_ok]
    refine Sym_bind (ns_issue _) (sym_calAdd (s := { s2 with mine := s2.mine ++ [⟨cfg.mgr.getResource sp lv, st, en⟩] }) hm2 ?_)
    simp only [cont_ok, Sym, caught_ok]
    have hmine : s2.mine = s.mine := by obtain ⟨l, rfl, _⟩ := hg1.trans hg2; rfl
    have := hq s2 lv (hg1.trans hg2)
    rw [hmine]
    simpa using this

theorem ns_allocate (src dst : STP) (st en : Option Time) : NoSpawn (allocate cfg src dst st en) := by
  unfold allocate
  simp only [bind_eq]
  split
  · exact ns_bind (ns_firstFree _ _ _ _) fun _ => ns_bind (ns_firstFree _ _ _ _) fun _ => ns_bind (ns_issue _) fun _ => ns_bind (ns_issue _) fun _ => trivial
  · exact ns_bind (ns_ofExcept _) fun _ => ns_bind (ns_firstFreeBoth _ _ _ _ _) fun _ => trivial

theorem sym_allocate {src dst : STP} {st en : Option Time} {Q : Slice → Except Err (Option LabelVal × Option LabelVal) → Prop}
    (hq : ∀ s' sl dl, Grow s s' → Q { s' with mine := s.mine ++ [⟨cfg.mgr.getResource src.port sl, st, en⟩, ⟨cfg.mgr.getResource dst.port dl, st, en⟩] } (.ok (sl, dl)))
    (he : ∀ s' e, Grow s s' → Q s' (.error e)) : Sym cfg cid (allocate cfg src dst st en) Q s := by
  unfold allocate
  simp only [bind_eq]
  split
  · refine Sym_bind (ns_firstFree _ _ _ _) (sym_firstFree _ _ _ _ (fun s1 sl hg1 hm1 => ?_) fun s' e hg => he s' e hg)
    simp only [cont_ok]
    refine Sym_bind (ns_firstFree _ _ _ _) (sym_firstFree _ _ _ _ (fun s2 dl hg2 hm2 => ?_) fun s' e hg => he s' e (hg1.trans hg))
    simp only [cont_ok]
    have hm1' : (⟨cfg.mgr.getResource src.port sl, st, en⟩ : Resv) ∈ s2.chk := by
      obtain ⟨l, rfl, h⟩ := hg2
      exact h _ hm1
    refine Sym_bind (ns_issue _) (sym_calAdd hm1' ?_)
    simp only [cont_ok]
    refine Sym_bind (ns_issue _) (sym_calAdd (s := { s2 with mine := s2.mine ++ [⟨cfg.mgr.getResource src.port sl, st, en⟩] }) hm2 ?_)
    simp only [cont_ok, Sym]
    have hmine : s2.mine = s.mine := by obtain ⟨l, rfl, _⟩ := hg1.trans hg2; rfl
    have := hq s2 sl dl (hg1.trans hg2)
    rw [hmine]
    simpa using this
  · refine Sym_bind (ns_ofExcept _) ?_
    cases labelCandidate src dst with
    | error e => exact he s e (Grow.refl s)
    | ok l =>
      simp only [Prog.ofExcept, Sym, cont_ok]
      refine Sym_bind (ns_firstFreeBoth _ _ _ _ _) (sym_firstFreeBoth _ _ _ _ _ (fun s' lv hg => ?_) fun s' e hg => he s' e hg)
      exact hq s' lv lv hg

/-- No call is pending. -/
def Quiet (tm : Option Timer) : Prop := ∀ due act ref, tm ≠ some ⟨due, act, ref, false⟩

theorem sym_doReserve {ref : Nat} {x : Row} {m : List Resv} {tm : Option Timer} {O : Nat → Option Obj} (corr : Str)
    (h : Has1 cfg cid ref x x m tm O s) (hst : x.st = .fresh) (ha : x.allocated = false) (hac : x.active = false) (hm : m = both cfg x) (hq : Quiet tm) :
    Sym cfg cid (doReserve ref corr) (fun s' _ => RestS cfg s') s := by
  have hok : OkRow ({ x with st := { x.st with r := .held } } : Row) := by
    refine ⟨?_, ?_, Or.inr rfl, ?_, ?_, ?_⟩ <;> simp [hst, ha, hac, ConnStates.fresh]
  have hmp : m.Perm (contrib cfg ({ x with st := { x.st with r := .held } } : Row)) := by
    rw [contrib_eq, if_pos (by simp [hst, ConnStates.fresh]), hm]
    exact List.Perm.refl _
  have rest : ∀ {s' tm'}, Quiet tm' → Has1 cfg cid ref { x with st := { x.st with r := .held } } { x with st := { x.st with r := .held } } m tm' O s' → RestS cfg s' :=
    fun hq' h' => rest_of_has h' hok hmp fun due act ref' he => absurd he (hq' due act ref')
  have tail : ∀ {s' tm'} (t : Time), Quiet tm' → Has1 cfg cid ref { x with st := { x.st with r := .held } } { x with st := { x.st with r := .held } } m tm' O s' →
      Sym cfg cid ((issue (.sched x.cid t .reserveTimeout ref)).bind fun _ => issue (.call (.reserveConfirmed corr x.cid x.srcLabel x.dstLabel x.start x.end_))) (fun s' _ => RestS cfg s') s' := by
    intro s' tm' t hq' h'
    refine Sym_bind (ns_issue _) (sym_sched h' h.cid (fun s2 due h2 => ?_) fun s2 e h2 => rest hq' h2)
    refine sym_call h2.covers fun _ => rest_of_has h2.idle hok hmp ?_
    intro _ _ _ he
    simp only [Option.some.injEq, Timer.mk.injEq, and_true] at he
    obtain ⟨-, rfl, rfl⟩ := he
    exact ⟨rfl, rfl, by simp [hst, ConnStates.fresh]⟩
  unfold doReserve
  simp only [bind_eq]
  refine Sym_bind (ns_multiSwitch _ _) (sym_multiSwitch h (by simp [reserveTransitions]) (fun _ => .of_perm hmp) (fun s1 _ h1 => ?_) fun hn => ?_)
  · simp only [cont_ok]
    refine Sym_bind (ns_issue _) (sym_getObj h1 ?_)
    simp only [cont_ok]
    refine Sym_bind (ns_issue _) (sym_hasCall fun b => ?_)
    simp only [cont_ok]
    refine Sym_bind (ns_whenP (ns_issue _)) ?_
    unfold whenP
    split
    · refine sym_cancel h1 h.cid fun s2 h2 => ?_
      simp only [cont_ok]
      refine Sym_bind (ns_issue _) (sym_now fun t => ?_)
      exact tail _ (fun _ _ _ h => by cases h) h2
    · simp only [Sym, cont_ok]
      refine Sym_bind (ns_issue _) (sym_now fun t => ?_)
      exact tail _ hq h1
  · simp [hst, ConnStates.fresh, reserveTransitions] at hn

theorem Has1.ofNew {n : Nat} {x : Row} {s : Slice} (hx : x.cid = cid) (hc : x.holds = false) :
    Has1 cfg cid n x x s.mine s.tm s.objs ({ s with row := some x, objs := upd (upd s.objs n ⟨x, true⟩) n ⟨x, false⟩ } : Slice) :=
  ⟨by simp, rfl, hx, rfl, rfl, fun k hk => by simp only [upd_ne hk], .of_not hc⟩

/-- `reserve`, after the lookup of the connection id. -/
theorem sym_reserveBody {h : Hdr} {cid? : Option Str} {src dst : STP} {st en : Option Time} (hrow : s.row = none) (hmine : s.mine = [])
    (hq : Quiet s.tm) (hfree : s.free = true) (hid : match cid? with | none => s.fresh = true | some c => c = cid) :
    Sym cfg cid ((reserveBody cfg h cid? src dst st en).bind fun c => Prog.pure (some c)) (Final cfg) s := by
  have h0 : ∀ {s'}, Grow s s' → RestS cfg s' := by
    rintro s' ⟨l, rfl, _⟩
    exact ⟨fun r hr => by simp [hrow] at hr, fun _ => hmine, fun due act ref ht => absurd ht (hq due act ref)⟩
  unfold reserveBody
  simp only [bind_eq, bind_assoc]
  refine Sym_bind (ns_ofExcept _) ?_
  cases admission cfg h src dst st en with
  | error e => exact h0 (Grow.refl s)
  | ok u =>
    simp only [Prog.ofExcept, Sym, cont_ok]
    refine Sym_bind (ns_allocate _ _ _ _) (sym_allocate (fun s1 sl dl hg => ?_) fun s' e hg => h0 hg)
    obtain ⟨l, rfl, _⟩ := hg
    simp only [cont_ok, hmine, List.nil_append]
    simp only [Prog.bind]
    refine Sym_bind (ns_issue _) (sym_now fun now => ?_)
    simp only [cont_ok]
    have tail : ∀ s2 : Slice, s2.row = none → s2.free = true → s2.tm = s.tm →
        s2.mine = [⟨cfg.mgr.getResource src.port sl, st, en⟩, ⟨cfg.mgr.getResource dst.port dl, st, en⟩] →
        Sym cfg cid ((issue (.newObj (newRow cid h now src dst sl dl st en))).bind fun ref => (issue (.save ref)).bind fun _ =>
          Prog.spawn (doReserve ref h.corr) (Prog.pure (some cid))) (Final cfg) s2 := by
      intro s2 k1 k2 k3 k4
      refine Sym_bind (ns_issue _) (Sym_issue ?_)
      simp only [Cmd.isAsync, Bool.false_eq_true, if_false]
      refine ⟨rfl, ?_⟩
      rintro s' r ⟨n, hn, rfl, rfl⟩
      simp only [cont_ok]
      refine Sym_bind (ns_issue _) (Sym_issue ?_)
      simp only [Cmd.isAsync, if_true]
      refine ⟨fun r hr => (by rw [show s2.row = some r from hr] at k1; cases k1), ⟨⟨newRow cid h now src dst sl dl st en, true⟩, by simp [Slice.idle], fun _ => ⟨k1, k2⟩⟩, ?_⟩
      rintro s' r ⟨rfl, o, ho, rfl⟩
      simp only [Slice.idle, upd_self, Option.some.injEq] at ho
      subst ho
      simp only [cont_ok, if_true, Sym]
      have hh := Has1.ofNew (cfg := cfg) (cid := cid) (n := n) (x := newRow cid h now src dst sl dl st en) (s := s2) rfl rfl
      refine ⟨hh.covers, ⟨_, rfl⟩, ?_⟩
      refine sym_doReserve h.corr hh.idle rfl rfl rfl ?_ ?_
      · rw [k4]; rfl
      · rw [k3]; exact hq
    cases cid? with
    | some c =>
      simp only at hid
      subst hid
      exact tail _ hrow hfree rfl rfl
    | none =>
      refine Sym_bind (ns_issue _) (Sym_issue ?_)
      simp only [Cmd.isAsync, Bool.false_eq_true, if_false]
      refine ⟨hid, ?_⟩
      rintro s' r ⟨rfl, rfl⟩
      exact tail _ hrow hfree rfl rfl

theorem sym_reserve {h : Hdr} {cid? : Option Str} {src dst : STP} {st en : Option Time} (hrow : s.row = none) (hmine : s.mine = [])
    (hq : Quiet s.tm) (hfree : s.free = true) (hid : match cid? with | none => s.fresh = true | some c => c = cid) :
    Sym cfg cid (Req.prog cfg h (.reserve cid? src dst st en)) (Final cfg) s := by
  unfold Req.prog reserve
  simp only [bind_eq]
  cases cid? with
  | none => exact sym_reserveBody hrow hmine hq hfree hid
  | some c =>
    simp only at hid
    subst hid
    simp only
    split
    · exact sym_reserveBody hrow hmine hq hfree rfl
    · rw [bind_assoc]
      refine Sym_bind (ns_issue _) (sym_find (fun r hr => by rw [hrow] at hr; cases hr) (fun _ => ?_) (fun r hr => by rw [hrow] at hr; cases hr) fun r n s' hr _ _ => by rw [hrow] at hr; cases hr)
      simp only [cont_ok]
      exact sym_reserveBody (s := s.idle) hrow hmine hq hfree rfl

end
end OpenNSA.Backend
