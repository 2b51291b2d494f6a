import Verif.Backend.ConcOps
/-
Requests, scheduled calls and restart under the invariant of ConcRows.lean.
-/
namespace OpenNSA.Backend
open OpenNSA Py Prog

variable {a : Asked}

/-- Nothing is known. -/
abbrev Any : World → Prop := fun _ => True

theorem stable_any : Stable Any := fun _ _ => trivial

theorem authorize_same {cfg : Cfg} {h : Hdr} {x row : Row} (hs : x.Same row) :
    authorize cfg h row.srcPort row.dstPort = authorize cfg h x.srcPort x.dstPort := by
  rw [hs.2.2.2.1, hs.2.2.2.2.2.1]

theorem isGone_throw {A : World → Prop} {p q : Prog Unit} {c : Prop} [Decidable c] (hp : ¬ c → Calm a A p) (hq : c → Calm a A q) :
    Calm a A (if c then q else p) := by
  split
  · exact hq ‹_›
  · exact hp ‹_›

/-- Loading the connection a request is about. -/
theorem calm_getConnection {β : Type} {cid : Str} {f : Nat → Prog β} (h : ∀ ref x, x.cid = cid → Calm a (Has ref x) (f ref)) :
    Calm a Any ((getConnection cid).bind f) := by
  intro w hi _
  unfold getConnection
  simp only [bind_eq]
  refine Safe_bind (Safe_bind (Safe_async rfl ?_ ?_ fun w2 h1 h2 => ⟨h2, h1⟩))
  · exact fun w1 _ h1 => tame_find cid w1 h1
  · intro w1 hk1 h1 t o ht w2 hk2 h2
    have hs := tame_find (a := a) cid w1 h1 t o ht
    revert hk2 hs
    simp only [execAt]
    split
    · intro hk2 hs
      exact ⟨h2, hk1.trans (hs.2.trans hk2)⟩
    · rename_i r hf
      intro hk2 hs
      simp only [cont_ok]
      refine (h _ r ?_).later h2 ?_ (hk1.trans (hs.2.trans hk2))
      · simpa using List.find?_some hf
      · exact stable_has hk2 ⟨⟨r, false⟩, by simp, rfl, .refl _⟩

theorem calm_commitOn {cfg : Cfg} {h : Hdr} {cid : Str} {ref : Nat} {x : Row} (hx : x.cid = cid)
    (ha : authorize cfg h x.srcPort x.dstPort = .ok () → a.A .commit x) : Calm a (Has ref x) (commitOn cfg h cid ref) := by
  unfold commitOn
  simp only [bind_eq]
  refine Calm.get fun row hs hr => ?_
  rw [authorize_same hs]
  cases hau : authorize cfg h x.srcPort x.dstPort with
  | error e => exact Calm.throw _
  | ok u =>
    show Calm a _ (if _ then _ else _)
    split
    · exact Calm.throw _
    · have h2 : row.Same { row with allocated := true } := ⟨rfl, rfl, rfl, rfl, rfl, rfl, rfl, rfl, rfl⟩
      have hc := ha hau
      refine (Calm.set (hs.trans h2) ⟨hr.born.imp fun _ => a.sameB h2, fun _ => a.sameA (hs.trans h2) hc, fun h0 => ?_⟩).seq fun _ =>
        (calm_multiSwitch _).seq fun _ => (Calm.cancel _).seq fun _ => (calm_schedEnd _ _).seq fun _ => Calm.call ⟨hx, hc⟩
      exact (hr.prov h0).imp (a.sameA h2) (a.sameA h2)

theorem calm_abortOn {cfg : Cfg} {h : Hdr} {cid : Str} {ref : Nat} {x : Row} (hx : x.cid = cid)
    (ha : authorize cfg h x.srcPort x.dstPort = .ok () → a.A .abort x) : Calm a (Has ref x) (abortOn cfg h cid ref) := by
  unfold abortOn
  simp only [bind_eq]
  refine Calm.get fun row hs hr => ?_
  rw [authorize_same hs]
  cases hau : authorize cfg h x.srcPort x.dstPort with
  | error e => exact Calm.throw _
  | ok u =>
    show Calm a _ (if _ then _ else _)
    split
    · exact Calm.throw _
    · exact (calm_doReserveRollback cfg).seq fun _ => Calm.tell ⟨hx, ha hau⟩

theorem calm_provisionOn {cfg : Cfg} {h : Hdr} {cid : Str} {ref : Nat} {x : Row} (hx : x.cid = cid)
    (ha : authorize cfg h x.srcPort x.dstPort = .ok () → a.A .provision x) : Calm a (Has ref x) (provisionOn cfg h cid ref) := by
  unfold provisionOn
  simp only [bind_eq]
  refine Calm.get fun row hs hr => ?_
  rw [authorize_same hs]
  cases hau : authorize cfg h x.srcPort x.dstPort with
  | error e => exact Calm.throw _
  | ok u =>
    show Calm a _ (if _ then _ else _)
    split; · exact Calm.throw _
    rename_i hall
    split; · exact Calm.throw _
    split; · exact Calm.throw _
    have hp : a.A .provision x ∧ a.A .commit x :=
      ⟨ha hau, a.sameA hs.symm (hr.alloc (by simpa using hall))⟩
    refine Calm.now stable_has fun n => ?_
    split; · exact Calm.throw _
    have hrest : Calm a (fun w => Has ref x w ∧ n ≤ w.clk)
        ((switchProvision ref .provisioned).bind fun _ => issue (.tell (.provisionConfirmed cid))) :=
      (calm_switchProvision fun _ => hp).seq fun _ => Calm.tell ⟨hx, hp.1⟩
    refine (calm_switchProvision fun _ => hp).seq fun _ => (Calm.cancel _).seq fun _ => ?_
    have hstart : x.start = row.start := hs.2.2.2.2.2.2.2.1.symm
    split
    · rename_i hst
      refine Calm.spawn (stable_clk stable_has) (calm_doActivate fun w hw => ⟨fun s h0 => ?_, hp⟩) hrest
      rw [hstart, hst] at h0; cases h0
    · rename_i s hst
      split
      · rename_i hle
        refine Calm.spawn (stable_clk stable_has) (calm_doActivate fun w hw => ⟨fun s' h0 => ?_, hp⟩) hrest
        rw [hstart, hst] at h0
        simp only [Option.some.injEq] at h0
        subst h0
        exact Int.le_trans hle hw.2
      · refine (Calm.sched fun _ => ⟨fun s' h0 => ?_, hp⟩).seq fun _ => hrest
        rw [hstart, hst] at h0
        simp only [Option.some.injEq] at h0
        subst h0
        exact Int.le_refl _

theorem calm_releaseOn {cfg : Cfg} {h : Hdr} {cid : Str} {ref : Nat} {x : Row} (hx : x.cid = cid)
    (ha : authorize cfg h x.srcPort x.dstPort = .ok () → a.A .release x) : Calm a (Has ref x) (releaseOn cfg h cid ref) := by
  unfold releaseOn
  simp only [bind_eq]
  refine Calm.get fun row hs hr => ?_
  rw [authorize_same hs]
  cases hau : authorize cfg h x.srcPort x.dstPort with
  | error e => exact Calm.throw _
  | ok u =>
    show Calm a _ (if _ then _ else _)
    split
    · exact Calm.throw _
    · refine (calm_switchProvision fun h => by rcases h with h | h <;> cases h).seq fun _ => (Calm.cancel _).seq fun _ => Calm.get fun row2 _ _ =>
        (calm_whenP (Calm.tryCatch stable_has calm_doTeardown fun _ => Calm.pure _)).seq fun _ => (calm_schedEnd _ _).seq fun _ =>
        (calm_switchProvision fun h => by rcases h with h | h <;> cases h).seq fun _ => Calm.tell ⟨hx, ha hau⟩

theorem calm_terminateOn {cfg : Cfg} {h : Hdr} {cid : Str} {ref : Nat} {x : Row} (hx : x.cid = cid)
    (ha : authorize cfg h x.srcPort x.dstPort = .ok () → a.A .terminate x) : Calm a (Has ref x) (terminateOn cfg h cid ref) := by
  unfold terminateOn
  simp only [bind_eq]
  refine Calm.get fun row hs hr => ?_
  rw [authorize_same hs]
  cases hau : authorize cfg h x.srcPort x.dstPort with
  | error e => exact Calm.throw _
  | ok u =>
    show Calm a _ (if _ then _ else _)
    split
    · exact Calm.throw _
    · exact (Calm.cancel _).seq fun _ => (calm_switchLifecycle _).seq fun _ => (calm_whenP (calm_doFreeResource cfg)).seq fun _ =>
        (Calm.call (m := .terminateConfirmed cid) (x := x) ⟨hx, ha hau⟩).seq fun _ => calm_switchLifecycle _

/-! ### Restart -/

theorem calm_buildOne {cfg : Cfg} {ref : Nat} {x : Row} : Calm a (Has ref x) (buildOne cfg ref) := by
  unfold buildOne
  simp only [bind_eq]
  refine Calm.get fun row hs hr => (Calm.hasCall _).seq fun b => ?_
  split; · exact Calm.pure _
  refine Calm.now stable_has fun n => ?_
  split; · exact Calm.pure _
  split; · exact Calm.pure _
  refine (Calm.calAdd _).seq fun _ => (Calm.calAdd _).seq fun _ => ?_
  have hstart : x.start = row.start := hs.2.2.2.2.2.2.2.1.symm
  have hprov : row.st.p = .provisioned → a.A .provision x ∧ a.A .commit x :=
    fun h => (hr.prov (.inr h)).imp (a.sameA hs.symm) (a.sameA hs.symm)
  have started : (∀ s, row.start = some s → s ≤ n) → Calm a (fun w => Has ref x w ∧ n ≤ w.clk) (buildOne.started ref row) := by
    intro h0
    unfold buildOne.started
    split
    · rename_i hp
      split
      · exact calm_schedEnd _ _
      · exact calm_doActivate fun w hw => ⟨fun s hs => Int.le_trans (h0 s (hstart ▸ hs)) hw.2, hprov hp⟩
    · split
      · exact calm_schedEnd _ _
      · exact Calm.pure _
  split
  · exact calm_doEndtime cfg
  · split
    · split
      · exact calm_doReserveRollback cfg
      · exact Calm.sched fun h => by cases h
    · split
      · rename_i hst
        exact started fun s h => by rw [hst] at h; cases h
      · rename_i s hst
        split
        · rename_i hlt
          exact started fun s' h => by rw [hst] at h; simp only [Option.some.injEq] at h; omega
        · split
          · unfold buildOne.waiting
            simp only [bind_eq]
            split
            · rename_i hp
              refine (Calm.sched fun _ => ⟨fun s' h => ?_, hprov hp.1⟩).seq fun _ => calm_whenP (Calm.throw _)
              rw [hstart, hst] at h; simp only [Option.some.injEq] at h; omega
            · split
              · split
                · exact Calm.throw _
                · exact Calm.sched fun h => by cases h
              · exact Calm.pure _
          · exact Calm.pure _

/-- All of these objects stand for stored connections. -/
def HasAll (refs : List Nat) (w : World) : Prop := ∀ ref ∈ refs, ∃ x, Has ref x w

theorem stable_hasAll {refs : List Nat} : Stable (HasAll refs) := fun hk h ref hr => by
  obtain ⟨x, hx⟩ := h ref hr
  exact ⟨x, stable_has hk hx⟩

theorem calm_buildLoop {cfg : Cfg} : ∀ refs : List Nat, Calm a (HasAll refs) (buildLoop cfg refs)
  | [] => Calm.pure _
  | ref :: refs => by
    intro w hi ha
    unfold buildLoop
    simp only [bind_eq]
    obtain ⟨x, hx⟩ := ha ref (by simp)
    refine Safe_bind (Safe_mono ?_ (calm_buildOne (x := x) w hi hx))
    intro w' r h
    cases r with
    | ok u => exact (calm_buildLoop refs).later h.1 (fun ref hr => stable_hasAll h.2 ha ref (by simp [hr])) h.2
    | error e => exact h

theorem calm_buildSchedule {cfg : Cfg} : Calm a Any (buildSchedule cfg) := by
  intro w hi _
  unfold buildSchedule
  simp only [bind_eq]
  refine Safe_bind (Safe_async rfl ?_ ?_ fun w2 h1 h2 => ⟨h2, h1⟩)
  · exact fun w1 _ h1 => tame_findLive w1 h1
  · intro w1 hk1 h1 t o ht w2 hk2 h2
    have hs := tame_findLive (a := a) w1 h1 t o ht
    revert hk2 hs
    simp only [execAt]
    intro hk2 hs
    simp only [cont_ok]
    refine (calm_buildLoop _).later h2 ?_ (hk1.trans (hs.2.trans hk2))
    refine stable_hasAll hk2 ?_
    intro ref hr
    obtain ⟨i, hi, rfl⟩ := List.mem_map.mp hr
    rw [List.mem_range] at hi
    refine ⟨(w1.rows.filter fun r => decide (r.st.l ≠ .terminated))[i], ⟨_, false⟩, ?_, rfl, .refl _⟩
    simp only
    rw [List.getElem?_append_right (by omega)]
    simp

/-! ### `reserve` -/

/-- Every result of the coroutine is like this. -/
def Yields {α : Type} (φ : α → Prop) : Prog α → Prop
  | .pure x => φ x
  | .throw _ => True
  | .cmd _ k => ∀ r, Yields φ (k r)
  | .spawn _ k => Yields φ k

theorem Yields.bind {α β : Type} {φ : α → Prop} {ψ : β → Prop} {p : Prog α} {f : α → Prog β} (hp : Yields φ p) (hf : ∀ x, φ x → Yields ψ (f x)) :
    Yields ψ (p.bind f) := by
  induction p with
  | pure x => exact hf x hp
  | throw e => trivial
  | cmd c k ih => exact fun r => ih r (hp r) hf
  | spawn p k _ ih => exact ih hp hf

theorem Yields.tryCatch {α : Type} {φ : α → Prop} {p : Prog α} {f : Err → Prog α} (hp : Yields φ p) (hf : ∀ e, Yields φ (f e)) :
    Yields φ (p.tryCatch f) := by
  induction p with
  | pure x => exact hp
  | throw e => exact hf e
  | cmd c k ih => exact fun r => ih r (hp r) hf
  | spawn p k _ ih => exact ih hp hf

theorem Yields.issue {β : Type} (c : Cmd β) : Yields (fun _ => True) (issue c) := by
  intro r
  cases r <;> trivial

theorem Yields.safe {I : World → Prop} {K D : World → World → Prop} {α : Type} {φ : α → Prop} {p : Prog α} (hp : Yields φ p) :
    ∀ {Q : World → Except Err α → Prop} {w : World}, Safe I K D p Q w → Safe I K D p (fun w r => Q w r ∧ ∀ x, r = .ok x → φ x) w := by
  induction p with
  | pure x => intro Q w h; exact ⟨h, fun y hy => by simp only [Except.ok.injEq] at hy; subst hy; exact hp⟩
  | throw e => intro Q w h; exact ⟨h, fun y hy => by cases hy⟩
  | cmd c k ih =>
    intro Q w h
    simp only [Safe] at h ⊢
    split
    · rename_i hc
      rw [if_pos hc] at h
      exact ⟨h.1, fun w1 h1 h2 t o h3 w2 h4 h5 => ih _ (hp _) (h.2.1 w1 h1 h2 t o h3 w2 h4 h5), fun w2 h1 h2 => ih _ (hp _) (h.2.2 w2 h1 h2)⟩
    · rename_i hc
      rw [if_neg hc] at h
      exact ⟨h.1, fun t o ht => ih _ (hp _) (h.2 t o ht)⟩
  | spawn p k _ ih => intro Q w h; exact ⟨h.1, fun w2 h1 h2 => ih hp (h.2 w2 h1 h2)⟩

theorem yields_firstFree {cfg : Cfg} {port : Str} {st en : Option Time} : ∀ list, Yields (· ∈ list) (firstFree cfg port st en list)
  | [] => trivial
  | lv :: rest => by
    unfold firstFree
    simp only [bind_eq]
    refine Yields.tryCatch ((Yields.issue _).bind fun _ _ => by simp [Yields]) fun e => ?_
    split
    · have := yields_firstFree (cfg := cfg) (port := port) (st := st) (en := en) rest
      have := this.bind (f := Prog.pure) (ψ := (· ∈ lv :: rest)) fun x hx => by simp [Yields, hx]
      rw [bind_pure'] at this
      exact this
    · trivial
where
  bind_pure' {α : Type} (p : Prog α) : p.bind Prog.pure = p := by
    induction p with
    | pure x => rfl
    | throw e => rfl
    | cmd c k ih => simp only [Prog.bind]; congr 1; funext r; exact ih r
    | spawn p k _ ih => simp only [Prog.bind]; congr 1

theorem yields_firstFreeBoth {cfg : Cfg} {sp dp : Str} {st en : Option Time} : ∀ list, Yields (· ∈ list) (firstFreeBoth cfg sp dp st en list)
  | [] => trivial
  | lv :: rest => by
    unfold firstFreeBoth
    simp only [bind_eq]
    refine Yields.tryCatch ((Yields.issue _).bind fun _ _ => (Yields.issue _).bind fun _ _ => (Yields.issue _).bind fun _ _ =>
      (Yields.issue _).bind fun _ _ => by simp [Yields]) fun e => ?_
    split
    · have := yields_firstFreeBoth (cfg := cfg) (sp := sp) (dp := dp) (st := st) (en := en) rest
      have := this.bind (f := Prog.pure) (ψ := (· ∈ lv :: rest)) fun x hx => by simp [Yields, hx]
      rw [yields_firstFree.bind_pure'] at this
      exact this
    · trivial

/-- The labels that may be chosen for a request. -/
def Choosable (cfg : Cfg) (src dst : STP) (p : Option LabelVal × Option LabelVal) : Prop :=
  (cfg.mgr.canSwapLabel (labelType src) = true ∧ cfg.mgr.canSwapLabel (labelType dst) = true ∧
    p.1 ∈ labelEnum src.label ∧ p.2 ∈ labelEnum dst.label) ∨
  (¬ (cfg.mgr.canSwapLabel (labelType src) = true ∧ cfg.mgr.canSwapLabel (labelType dst) = true) ∧
    p.1 = p.2 ∧ ∃ cand, labelCandidate src dst = .ok cand ∧ p.1 ∈ labelEnum cand)

theorem yields_allocate {cfg : Cfg} {src dst : STP} {st en : Option Time} : Yields (Choosable cfg src dst) (allocate cfg src dst st en) := by
  unfold allocate
  simp only [bind_eq]
  split
  · rename_i hc
    exact (yields_firstFree _).bind fun sl hs => (yields_firstFree _).bind fun dl hd => (Yields.issue _).bind fun _ _ => (Yields.issue _).bind fun _ _ =>
      .inl ⟨hc.1, hc.2, hs, hd⟩
  · rename_i hc
    cases hl : labelCandidate src dst with
    | error e => trivial
    | ok cand => exact (yields_firstFreeBoth _).bind fun lv hv => .inr ⟨hc, rfl, cand, hl, hv⟩

theorem calm_firstFree {cfg : Cfg} {port : Str} {st en : Option Time} : ∀ list, Calm a Any (firstFree cfg port st en list)
  | [] => Calm.throw _
  | lv :: rest => by
    unfold firstFree
    simp only [bind_eq]
    refine Calm.tryCatch stable_any (Calm.bind stable_any (Calm.sync rfl fun w hi _ => tame_calCheck _ w hi) fun _ => Calm.pure _) fun e => ?_
    split
    · exact calm_firstFree rest
    · exact Calm.throw _

theorem calm_firstFreeBoth {cfg : Cfg} {sp dp : Str} {st en : Option Time} : ∀ list, Calm a Any (firstFreeBoth cfg sp dp st en list)
  | [] => Calm.throw _
  | lv :: rest => by
    unfold firstFreeBoth
    simp only [bind_eq]
    refine Calm.tryCatch stable_any (Calm.bind stable_any (Calm.sync rfl fun w hi _ => tame_calCheck _ w hi) fun _ =>
      Calm.bind stable_any (Calm.sync rfl fun w hi _ => tame_calCheck _ w hi) fun _ =>
      Calm.bind stable_any (Calm.sync rfl fun w hi _ => tame_calAdd _ w hi) fun _ =>
      Calm.bind stable_any (Calm.sync rfl fun w hi _ => tame_calAdd _ w hi) fun _ => Calm.pure _) fun e => ?_
    split
    · exact calm_firstFreeBoth rest
    · exact Calm.throw _

theorem calm_allocate {cfg : Cfg} {src dst : STP} {st en : Option Time} : Calm a Any (allocate cfg src dst st en) := by
  unfold allocate
  simp only [bind_eq]
  split
  · exact Calm.bind stable_any (calm_firstFree _) fun _ => Calm.bind stable_any (calm_firstFree _) fun _ =>
      Calm.bind stable_any (Calm.sync rfl fun w hi _ => tame_calAdd _ w hi) fun _ =>
      Calm.bind stable_any (Calm.sync rfl fun w hi _ => tame_calAdd _ w hi) fun _ => Calm.pure _
  · exact Calm.bind stable_any (Calm.ofExcept _) fun _ => Calm.bind stable_any (calm_firstFreeBoth _) fun _ => Calm.pure _

/-- The object stands for the connection, stored or not. -/
def HasNew (ref : Nat) (x : Row) (w : World) : Prop := ∃ o, w.heap[ref]? = some o ∧ x.Same o.row

theorem stable_hasNew {ref : Nat} {x : Row} : Stable (HasNew ref x) := by
  rintro w w' hk ⟨o, h1, h2⟩
  obtain ⟨o', k1, k2, _⟩ := hk.heap ref o h1
  exact ⟨o', k1, h2.trans k2⟩

/-- After a new connection has been stored. -/
theorem calm_saveNew {β : Type} {ref : Nat} {x : Row} {f : Unit → Prog β} (h : Calm a (Has ref x) (f ())) :
    Calm a (HasNew ref x) ((issue (.save ref)).bind f) := by
  intro w hi ha
  refine Safe_bind (Safe_async rfl ?_ ?_ fun w2 h1 h2 => ⟨h2, h1⟩)
  · exact fun w1 _ h1 => tame_save ref w1 h1
  · intro w1 hk1 h1 t o ht w2 hk2 h2
    have hs := tame_save (a := a) ref w1 h1 t o ht
    have hk := hk1.trans (hs.2.trans hk2)
    obtain ⟨ob, o1, o2⟩ := stable_hasNew hk1 ha
    have hlt := (List.getElem?_eq_some_iff.mp o1).1
    revert hk2
    simp only [execAt, o1]
    split
    · split
      · exact fun _ => ⟨h2, hk⟩
      · intro hk2
        exact h.later h2 (stable_has hk2 ⟨⟨ob.row, false⟩, by simp [hlt], rfl, o2⟩) hk
    · rename_i hn
      intro hk2
      exact h.later h2 (stable_has hk2 ⟨ob, o1, by simpa using hn, o2⟩) hk

/-- The connection a reservation request makes. -/
theorem calm_reserveBody {cfg : Cfg} {h : Hdr} {cid? : Option Str} {src dst : STP} {st en : Option Time}
    (hb : admission cfg h src dst st en = .ok () → ∀ sl dl, Choosable cfg src dst (sl, dl) → ∀ cid, (∀ c, cid? = some c → cid = c) → ∀ now,
      a.B h.corr (newRow cid h now src dst sl dl st en)) : Calm a Any (reserveBody cfg h cid? src dst st en) := by
  unfold reserveBody
  simp only [bind_eq]
  cases hadm : admission cfg h src dst st en with
  | error e => exact Calm.throw _
  | ok u =>
    show Calm a Any ((allocate cfg src dst st en).bind _)
    intro w hi _
    refine Safe_bind (Safe_mono ?_ (yields_allocate.safe (calm_allocate w hi trivial)))
    rintro w' r ⟨h1, h2⟩
    cases r with
    | error e => exact h1
    | ok p =>
      obtain ⟨sl, dl⟩ := p
      have hch := h2 _ rfl
      simp only [cont_ok]
      refine Calm.later (A := Any) ?_ h1.1 trivial h1.2
      refine Calm.bind stable_any (Calm.sync rfl fun w hi _ => tame_now w hi) fun now => ?_
      have hpick : ∀ {β : Type} (f : Str → Prog β), (∀ cid, (∀ c, cid? = some c → cid = c) → Calm a Any (f cid)) → Calm a Any ((pickId cid?).bind f) := by
        intro β f hf
        cases cid? with
        | none => exact Calm.bind stable_any (Calm.sync rfl fun w hi _ => tame_newId w hi) fun x => hf x fun c hc => by cases hc
        | some c => exact hf c fun c' hc => by simp only [Option.some.injEq] at hc; exact hc
      refine hpick _ fun cid hcid => ?_
      have hB := hb hadm sl dl hch cid hcid now
      intro w hi _
      have hrow : RowI a (newRow cid h now src dst sl dl st en) :=
        ⟨⟨_, hB⟩, (fun h => by cases h), (fun h => by rcases h with h | h <;> cases h)⟩
      refine Safe_bind (Safe_sync rfl (safe_newObj hrow w hi) fun t o ht => ?_)
      have hs := safe_newObj hrow w hi t o ht
      revert hs
      simp only [execAt]
      intro hs
      simp only [cont_ok]
      refine (calm_saveNew (x := newRow cid h now src dst sl dl st en) ?_).later hs.1 ⟨⟨newRow cid h now src dst sl dl st en, true⟩, by simp, .refl _⟩ hs.2
      exact Calm.spawn stable_has (calm_doReserve hB) (Calm.pure _)

theorem calm_reserve {cfg : Cfg} {h : Hdr} {cid? : Option Str} {src dst : STP} {st en : Option Time}
    (hb : admission cfg h src dst st en = .ok () → ∀ sl dl, Choosable cfg src dst (sl, dl) → ∀ cid, (∀ c, cid? = some c → cid = c) → ∀ now,
      a.B h.corr (newRow cid h now src dst sl dl st en)) : Calm a Any (reserve cfg h cid? src dst st en) := by
  unfold reserve
  simp only [bind_eq]
  split
  · exact calm_reserveBody hb
  · split
    · exact calm_reserveBody hb
    · refine Calm.bind stable_any (Calm.async rfl rfl stable_any fun w hi _ => tame_find _ w hi) fun r => ?_
      split
      · exact Calm.throw _
      · exact calm_reserveBody hb

/-- The request is of this kind, for this connection. -/
def Kind.req (cid : Str) : Kind → Req
  | .commit => .commit cid
  | .abort => .abort cid
  | .provision => .provision cid
  | .release => .release cid
  | .terminate => .terminate cid

theorem calm_req {cfg : Cfg} {h : Hdr} {q : Req}
    (hA : ∀ k x, q = Kind.req x.cid k → authorize cfg h x.srcPort x.dstPort = .ok () → a.A k x)
    (hB : ∀ cid? src dst st en, q = .reserve cid? src dst st en → admission cfg h src dst st en = .ok () → ∀ sl dl,
      Choosable cfg src dst (sl, dl) → ∀ cid, (∀ c, cid? = some c → cid = c) → ∀ now, a.B h.corr (newRow cid h now src dst sl dl st en)) :
    Calm a Any (q.prog cfg h) := by
  have none' : ∀ (p : Prog Unit), Calm a Any p → Calm a Any (p.bind fun _ => Prog.pure (none : Option Str)) :=
    fun p hp => Calm.bind stable_any hp fun _ => Calm.pure _
  cases q with
  | reserve cid? src dst st en => exact Calm.bind stable_any (calm_reserve (hB _ _ _ _ _ rfl)) fun _ => Calm.pure _
  | commit cid => exact none' _ (calm_getConnection fun ref x hx => calm_commitOn hx fun hau => hA .commit x (by rw [hx]; rfl) hau)
  | abort cid => exact none' _ (calm_getConnection fun ref x hx => calm_abortOn hx fun hau => hA .abort x (by rw [hx]; rfl) hau)
  | provision cid => exact none' _ (calm_getConnection fun ref x hx => calm_provisionOn hx fun hau => hA .provision x (by rw [hx]; rfl) hau)
  | release cid => exact none' _ (calm_getConnection fun ref x hx => calm_releaseOn hx fun hau => hA .release x (by rw [hx]; rfl) hau)
  | terminate cid => exact none' _ (calm_getConnection fun ref x hx => calm_terminateOn hx fun hau => hA .terminate x (by rw [hx]; rfl) hau)

/-- Scheduled calls. -/
theorem safe_fire {cfg : Cfg} {w : World} {due : Time} {act : Act} {ref : Nat} (hi : RowsI a w)
    (ht : ∃ cid, (cid, (⟨due, act, ref, true⟩ : Timer)) ∈ w.tbl) (hd : due ≤ w.clk) :
    Safe (RowsI a) RowsK RowsD (actProg cfg act ref) Done w := by
  obtain ⟨cid, hm⟩ := ht
  obtain ⟨o, h1, h2, h3⟩ := hi.timers cid due act ref true hm
  have hh : Has ref o.row w := ⟨o, h1, h2, .refl _⟩
  cases act with
  | reserveTimeout => exact Safe_mono (fun _ _ _ => trivial) (calm_doReserveTimeout (A := Has ref o.row) cfg w hi hh)
  | endtime => exact Safe_mono (fun _ _ _ => trivial) (calm_doEndtime (A := Has ref o.row) cfg w hi hh)
  | activate =>
    refine Safe_mono (fun _ _ _ => trivial) (calm_doActivate (A := fun v => Has ref o.row v ∧ due ≤ v.clk) ?_ w hi ⟨hh, hd⟩)
    exact fun v hv => (h3 rfl).same (.refl _) hv.2

theorem reboot_ok {w : World} (hi : RowsI a w) : RowsI a w.reboot ∧ RowsD w w.reboot :=
  ⟨⟨hi.nodup, hi.rows, by simp [World.reboot], by simp [World.reboot], by simp [World.reboot], hi.links, hi.outbox⟩,
    ⟨Int.le_refl _, fun r hr => ⟨r, hr, .refl _⟩⟩⟩

/-- The invariant holds along every schedule. -/
theorem rows_run {cfg : Cfg} {s : List (Oracle × Choice)} {c : Conc} (hc : SafeSys (RowsI a) RowsK RowsD c)
    (hA : ∀ o h q, (o, Choice.start h q) ∈ s → ∀ k x, q = Kind.req x.cid k → authorize cfg h x.srcPort x.dstPort = .ok () → a.A k x)
    (hB : ∀ o h cid? src dst st en, (o, Choice.start h (.reserve cid? src dst st en)) ∈ s → admission cfg h src dst st en = .ok () →
      ∀ sl dl, Choosable cfg src dst (sl, dl) → ∀ cid, (∀ c, cid? = some c → cid = c) → ∀ now,
      a.B h.corr (newRow cid h now src dst sl dl st en)) :
    SafeSys (RowsI a) RowsK RowsD (Conc.run cfg c s) ∧ RowsD c.w (Conc.run cfg c s).w := by
  refine SafeSys.run rowsRelies s hc ?_
  rintro ⟨o, ch⟩ hx
  cases ch with
  | start h q =>
    intro w hi
    refine Safe_mono (fun _ _ _ => trivial) (calm_req (hA o h q hx) ?_ w hi trivial)
    rintro cid? src dst st en rfl
    exact hB o h cid? src dst st en hx
  | fire cid => exact fun w due act ref hi ht hd => safe_fire hi ht hd
  | restart =>
    intro w hi
    have := reboot_ok hi
    exact ⟨this.1, this.2, Safe_mono (fun _ _ _ => trivial) (calm_buildSchedule _ this.1 trivial)⟩
  | perform n => trivial
  | resume n => trivial
  | wait us => trivial

theorem init_safe (ids : List Str) (clk : Time) : SafeSys (RowsI a) RowsK RowsD { w := World.init ids clk } :=
  ⟨⟨by simp [World.init], by simp [World.init], by simp [World.init], by simp [World.init], by simp [World.init], by simp [World.init],
    by simp [World.init]⟩, by simp⟩

end OpenNSA.Backend
