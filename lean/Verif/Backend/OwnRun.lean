import Verif.Backend.Own
/-
Interleaved execution, connection by connection: operations that have a connection for themselves (`Sym`), operations that share it
(`SymS`), and the invariant of the whole system.
-/
namespace OpenNSA.Backend
open OpenNSA Py Prog

/-! ### Connections at rest -/

/-- The two rows differ at most in provision state and activity. -/
def Core (x y : Row) : Prop := y = { x with active := y.active, st := { x.st with p := y.st.p } }

theorem Core.refl (x : Row) : Core x x := rfl
theorem Core.trans {x y z : Row} (h : Core x y) (k : Core y z) : Core x z := by
  unfold Core at *
  rw [k]
  simp only
  rw [h]
theorem Core.symm {x y : Row} (h : Core x y) : Core y x := by
  unfold Core at *
  rw [h]

/-- States a connection can be in when no operation on it is under way that changes its bookings. -/
structure OkRow (r : Row) : Prop where
  active : r.active = true → r.allocated = true
  alloc : r.allocated = true → r.st.r = .start
  state : r.st.r = .start ∨ r.st.r = .held
  life : r.st.l ≠ .failed
  ended : r.st.l = .passedEnd → r.st.r = .start
  prov : r.st.p ≠ .released → r.allocated = true

/-- The entries a stored connection should have. -/
def contrib (cfg : Cfg) (r : Row) : List Resv := if r.holds then (r.books cfg).map (·.resv) else []

/-- For which connections a call may be scheduled. -/
def ActOk (r : Row) : Act → Prop
  | .reserveTimeout => r.st.r = .held ∧ r.st.l = .created
  | .endtime => r.st.r = .start
  | .activate => r.allocated = true

/-- No operation that changes its bookings is under way: the calendar has the entries it should have. -/
structure RestS (cfg : Cfg) (s : Slice) : Prop where
  row : ∀ r, s.row = some r → OkRow r ∧ s.mine.Perm (contrib cfg r)
  none : s.row = none → s.mine = []
  tm : ∀ due act ref, s.tm = some ⟨due, act, ref, false⟩ →
    ∃ r o, s.row = some r ∧ s.objs ref = some o ∧ o.isNew = false ∧ Core r o.row ∧ OkRow o.row ∧ ActOk r act

/-- The calendar has at least the entries of the stored connection. -/
def Cov (cfg : Cfg) (s : Slice) : Prop := ∀ r, s.row = some r → ∀ e ∈ contrib cfg r, e ∈ s.mine

theorem RestS.cov {cfg : Cfg} {s : Slice} (h : RestS cfg s) : Cov cfg s := fun r hr _ he => (h.row r hr).2.symm.subset he

/-! ### Operations with a connection for themselves -/

/-- All commands are as required, whatever the results of the asynchronous ones; nobody else works on the connection; whenever it is
suspended, the calendar has the entries of the stored connection. A coroutine may be started only at the very end. -/
def Sym (cfg : Cfg) (cid : Str) {α : Type} : Prog α → (Slice → Except Err α → Prop) → Slice → Prop
  | .pure a, Q, s => Q s (.ok a)
  | .throw e, Q, s => Q s (.error e)
  | .cmd c k, Q, s =>
    if c.isAsync then Cov cfg s ∧ Ok cid c s.idle ∧ ∀ s' r, Eff cid c s.idle s' r → Cov cfg s' ∧ Sym cfg cid (k r) Q s'.idle
    else Ok cid c s ∧ ∀ s' r, Eff cid c s s' r → Sym cfg cid (k r) Q s'
  | .spawn p k, _, s => (∃ a, k = .pure a) ∧ Sym cfg cid p (fun s' _ => RestS cfg s') s

/-- In the end the connection is at rest. -/
def Final (cfg : Cfg) {α : Type} : Slice → Except Err α → Prop := fun s _ => RestS cfg s

/-- A suspended operation with the connection for itself. -/
def SymTask (cfg : Cfg) (cid : Str) (s : Slice) : Susp → Prop
  | .waiting c k _ => Cov cfg s ∧ c.isAsync = true ∧ Ok cid c s ∧ ∀ s' r, Eff cid c s s' r → Cov cfg s' ∧ Sym cfg cid (k r) (Final cfg) s'.idle
  | .performed k r _ => Cov cfg s ∧ Sym cfg cid (k r) (Final cfg) s

section
variable {cfg : Cfg} {cid : Str}

theorem Sym_mono {α : Type} {p : Prog α} : ∀ {Q Q' : Slice → Except Err α → Prop} {s : Slice}, (∀ s r, Q s r → Q' s r) → Sym cfg cid p Q s →
    Sym cfg cid p Q' s := by
  induction p with
  | pure a => intro Q Q' s hq h; exact hq _ _ h
  | throw e => intro Q Q' s hq h; exact hq _ _ h
  | cmd c k ih =>
    intro Q Q' s hq h
    simp only [Sym] at h ⊢
    split
    · rename_i hc; rw [if_pos hc] at h; exact ⟨h.1, h.2.1, fun s' r he => ⟨(h.2.2 s' r he).1, ih r hq (h.2.2 s' r he).2⟩⟩
    · rename_i hc; rw [if_neg hc] at h; exact ⟨h.1, fun s' r he => ih r hq (h.2 s' r he)⟩
  | spawn p k _ _ => intro Q Q' s hq h; exact h

/-- No coroutine is started. -/
def NoSpawn {α : Type} : Prog α → Prop
  | .pure _ => True
  | .throw _ => True
  | .cmd _ k => ∀ r, NoSpawn (k r)
  | .spawn _ _ => False

theorem Sym_bind {α β : Type} {p : Prog α} {f : α → Prog β} (hn : NoSpawn p) : ∀ {Q : Slice → Except Err β → Prop} {s : Slice},
    Sym cfg cid p (cont Q fun a s => Sym cfg cid (f a) Q s) s → Sym cfg cid (p.bind f) Q s := by
  induction p with
  | pure a => intro Q s h; exact h
  | throw e => intro Q s h; exact h
  | cmd c k ih =>
    intro Q s h
    simp only [Sym, Prog.bind] at h ⊢
    split
    · rename_i hc; rw [if_pos hc] at h; exact ⟨h.1, h.2.1, fun s' r he => ⟨(h.2.2 s' r he).1, ih r (hn r) (h.2.2 s' r he).2⟩⟩
    · rename_i hc; rw [if_neg hc] at h; exact ⟨h.1, fun s' r he => ih r (hn r) (h.2 s' r he)⟩
  | spawn p k _ _ => exact hn.elim

theorem Sym_tryCatch {α : Type} {p : Prog α} {f : Err → Prog α} (hn : NoSpawn p) : ∀ {Q : Slice → Except Err α → Prop} {s : Slice},
    Sym cfg cid p (caught Q fun e s => Sym cfg cid (f e) Q s) s → Sym cfg cid (p.tryCatch f) Q s := by
  induction p with
  | pure a => intro Q s h; exact h
  | throw e => intro Q s h; exact h
  | cmd c k ih =>
    intro Q s h
    simp only [Sym, Prog.tryCatch] at h ⊢
    split
    · rename_i hc; rw [if_pos hc] at h; exact ⟨h.1, h.2.1, fun s' r he => ⟨(h.2.2 s' r he).1, ih r (hn r) (h.2.2 s' r he).2⟩⟩
    · rename_i hc; rw [if_neg hc] at h; exact ⟨h.1, fun s' r he => ih r (hn r) (h.2 s' r he)⟩
  | spawn p k _ _ => exact hn.elim

theorem Sym_issue {β : Type} {c : Cmd β} {Q : Slice → Except Err β → Prop} {s : Slice}
    (h : if c.isAsync then Cov cfg s ∧ Ok cid c s.idle ∧ ∀ s' r, Eff cid c s.idle s' r → Cov cfg s' ∧ Q s'.idle r else Ok cid c s ∧ ∀ s' r, Eff cid c s s' r → Q s' r) :
    Sym cfg cid (issue c) Q s := by
  simp only [issue, Sym]
  split
  · rename_i hc
    rw [if_pos hc] at h
    refine ⟨h.1, h.2.1, fun s' r he => ?_⟩
    have := h.2.2 s' r he
    cases r <;> exact this
  · rename_i hc
    rw [if_neg hc] at h
    refine ⟨h.1, fun s' r he => ?_⟩
    have := h.2 s' r he
    cases r <;> exact this

theorem RestS.idle {s : Slice} (h : RestS cfg s) : RestS cfg s.idle := ⟨h.row, h.none, h.tm⟩

/-! Tasks of a connection -/

/-- The tasks labelled with a connection. -/
def tasksOf (lab : Nat → Str × Bool) (b : Str) (ts : List Task) : List Task := ts.filter fun t => (lab t.id).1 = b

/-- The scheduled calls are labelled with their connection. -/
def Owned (lab : Nat → Str × Bool) (ts : List Task) : Prop := ∀ t ∈ ts, ∀ o, t.owner = some o → (lab t.id).1 = o

theorem tasksOf_append (lab : Nat → Str × Bool) (b : Str) (ts us : List Task) : tasksOf lab b (ts ++ us) = tasksOf lab b ts ++ tasksOf lab b us := by
  simp [tasksOf]

theorem cancel_none {lab : Nat → Str × Bool} {ts : List Task} (ho : Owned lab ts) (hn : tasksOf lab cid ts = []) (n : Nat) :
    (ts.flatMap fun t => if t.owner = some cid then t.cancelled n else [t]) = ts := by
  induction ts with
  | nil => rfl
  | cons t ts ih =>
    have ht : ¬ t.owner = some cid := by
      intro h
      have := ho t (by simp) cid h
      simp [tasksOf, this] at hn
    have hts : tasksOf lab cid ts = [] := by
      simp only [tasksOf, List.filter_eq_nil_iff] at hn ⊢
      exact fun x hx => hn x (by simp [hx])
    simp only [List.flatMap_cons, if_neg ht, ih (fun x hx => ho x (by simp [hx])) hts]
    rfl

theorem disown_none {lab : Nat → Str × Bool} {ts : List Task} (ho : Owned lab ts) (hn : tasksOf lab cid ts = []) :
    (ts.map fun t => if t.owner = some cid then { t with owner := none } else t) = ts := by
  induction ts with
  | nil => rfl
  | cons t ts ih =>
    have ht : ¬ t.owner = some cid := by
      intro h
      have := ho t (by simp) cid h
      simp [tasksOf, this] at hn
    have hts : tasksOf lab cid ts = [] := by
      simp only [tasksOf, List.filter_eq_nil_iff] at hn ⊢
      exact fun x hx => hn x (by simp [hx])
    simp only [List.map_cons, if_neg ht, ih (fun x hx => ho x (by simp [hx])) hts]

/-- A command on a connection without suspended operations does nothing to tasks. -/
theorem affect_none {β : Type} {lab : Nat → Str × Bool} {c : Conc} {w : World} {b : Bool} {x : Cmd β} {s : Slice} (hok : Ok cid x s)
    (ho : Owned lab c.tasks) (hn : tasksOf lab cid c.tasks = []) : (c.affect w b x).tasks = c.tasks ∧ c.next ≤ (c.affect w b x).next := by
  cases x with
  | cancel a =>
    cases (show a = cid from hok)
    simp only [Conc.affect]
    split
    · exact ⟨cancel_none ho hn _, Nat.le_succ _⟩
    · exact ⟨rfl, Nat.le_refl _⟩
  | sched a t act ref =>
    cases (show a = cid from hok)
    simp only [Conc.affect]
    split
    · exact ⟨disown_none ho hn, Nat.le_refl _⟩
    · exact ⟨rfl, Nat.le_refl _⟩
  | _ => exact ⟨rfl, Nat.le_refl _⟩

/-- After a running operation: it has ended, or is suspended. -/
def Stopped (cfg : Cfg) (lab : Nat → Str × Bool) (cid : Str) (owner : Option Str) (c c' : Conc) (tc' : List (Str × Resv)) : Prop :=
  (c'.tasks = c.tasks ∧ RestS cfg (slice cid c'.w tc')) ∨
  ∃ t, c'.tasks = c.tasks ++ [t] ∧ t.id < c'.next ∧ lab t.id = (cid, true) ∧ (t.owner = none ∨ t.owner = owner) ∧ SymTask cfg cid (slice cid c'.w tc') t.susp

theorem sym_runSync {lab : Nat → Str × Bool} {α : Type} {p : Prog α} : ∀ (id : Nat) (owner : Option Str) (fin : Except Err α → Except Err (Option Str))
    {c : Conc} {tc : List (Str × Resv)} {s : Slice}, Glob c.w tc → At cid c.w tc s → Sym cfg cid p (Final cfg) s → Owned lab c.tasks →
    tasksOf lab cid c.tasks = [] → id < c.next → lab id = (cid, true) → (∀ n, c.next ≤ n → lab n = (cid, true)) →
    ∃ tc', Glob (Conc.runSync id owner p fin c).w tc' ∧ Frame cid c.w tc (Conc.runSync id owner p fin c).w tc' ∧
      c.next ≤ (Conc.runSync id owner p fin c).next ∧ Stopped cfg lab cid owner c (Conc.runSync id owner p fin c) tc' := by
  induction p with
  | pure a =>
    intro id owner fin c tc s hg ha hp ho hn hid hl hl'
    exact ⟨tc, hg, Frame.refl _ _ _, Nat.le_refl _, Or.inl ⟨rfl, ha.core ▸ RestS.idle hp⟩⟩
  | throw e =>
    intro id owner fin c tc s hg ha hp ho hn hid hl hl'
    exact ⟨tc, hg, Frame.refl _ _ _, Nat.le_refl _, Or.inl ⟨rfl, ha.core ▸ RestS.idle hp⟩⟩
  | cmd x k ih =>
    intro id owner fin c tc s hg ha hp ho hn hid hl hl'
    simp only [Sym] at hp
    simp only [Conc.runSync]
    split
    · rename_i hc
      rw [if_pos hc] at hp
      refine ⟨tc, hg, Frame.refl _ _ _, Nat.le_refl _, Or.inr ⟨⟨id, owner, .waiting x k fin⟩, rfl, hid, hl, Or.inr rfl, ?_⟩⟩
      obtain ⟨k1, k2, k3⟩ := hp
      have k1' : Cov cfg s.idle := k1
      rw [ha.core] at k1' k2 k3
      exact ⟨k1', hc, k2, k3⟩
    · rename_i hc
      rw [if_neg hc] at hp
      obtain ⟨tc', s', h1, h2, h3, h4⟩ := goes_exec x hg ha hp.1
      have hcw : (c.sync x).1.w = (exec c.w x).1 := by simp only [Conc.sync, affect_w]
      obtain ⟨ht, hnx⟩ := affect_none (c := { c with w := (exec c.w x).1 }) (w := c.w) (b := isOk (exec c.w x).2) hp.1 ho hn
      have ht' : (c.sync x).1.tasks = c.tasks := ht
      have hnx' : c.next ≤ (c.sync x).1.next := hnx
      obtain ⟨tc'', g1, g2, g3, g4⟩ := ih (c.sync x).2 id owner fin (c := (c.sync x).1) (tc := tc') (s := s') (hcw ▸ h1) (hcw ▸ h2) (hp.2 s' _ h4)
        (ht' ▸ ho) (ht' ▸ hn) (by omega) hl (fun n hh => hl' n (by omega))
      refine ⟨tc'', g1, h3.trans (hcw ▸ g2), by omega, ?_⟩
      unfold Stopped at g4 ⊢
      rw [ht'] at g4
      exact g4
  | spawn p k ihp ihk =>
    intro id owner fin c tc s hg ha hp ho hn hid hl hl'
    obtain ⟨⟨a, rfl⟩, hp⟩ := hp
    simp only [Conc.runSync]
    obtain ⟨tc', g1, g2, g3, g4⟩ := ihp c.next none (fun _ => .ok none) (c := { c with next := c.next + 1 }) hg ha hp ho hn (by simp) (hl' _ (Nat.le_refl _))
      (fun n hh => hl' n (by simp only at hh; omega))
    refine ⟨tc', g1, g2, by simp only at g3 ⊢; omega, ?_⟩
    rcases g4 with ⟨e1, e2⟩ | ⟨t, e1, e2, e3, e4, e5⟩
    · exact Or.inl ⟨e1, e2⟩
    · exact Or.inr ⟨t, e1, e2, e3, Or.inl (e4.elim (fun h => h) fun h => h), e5⟩

end

/-! ### Operations that share a connection -/

/-- Row objects of the connection, stored, differing from the row at most in provision state and activity. -/
def Tracked (r0 : Option Row) (s : Slice) (T : List Nat) : Prop :=
  ∀ ref ∈ T, ∃ x o, r0 = some x ∧ s.objs ref = some o ∧ o.isNew = false ∧ Core x o.row ∧ OkRow o.row

/-- The row, up to provision state and activity. -/
def CoreOpt (r0 : Option Row) (row : Option Row) : Prop :=
  (r0 = none ∧ row = none) ∨ ∃ x y, r0 = some x ∧ row = some y ∧ Core x y

/-- Commands that leave the bookings alone. -/
def OkS (cid : Str) (r0 : Option Row) {β : Type} (c : Cmd β) (T : List Nat) : Prop :=
  match c with
  | .find c => c = cid
  | .save ref => ref ∈ T
  | .getObj ref => ref ∈ T
  | .setObj ref row => ref ∈ T ∧ ∃ x, r0 = some x ∧ Core x row ∧ OkRow row
  | .sched c _ act ref => c = cid ∧ ref ∈ T ∧ ∃ x, r0 = some x ∧ ActOk x act
  | .cancel c => c = cid
  | .setup _ | .teardown _ | .call _ | .tell _ | .now | .hasCall _ | .notifId => True
  | _ => False

/-- What they return. -/
def EffS (r0 : Option Row) {β : Type} (c : Cmd β) (T T' : List Nat) (r : Except Err β) : Prop :=
  match c, r with
  | .find _, r => (r0 = none ∧ T' = T ∧ r = .ok none) ∨ ∃ n, r = .ok (some n) ∧ T' = n :: T
  | .save _, r => T' = T ∧ r = .ok ()
  | .setObj _ _, r => T' = T ∧ r = .ok ()
  | .getObj _, r => T' = T ∧ ∃ x row, r0 = some x ∧ Core x row ∧ OkRow row ∧ r = .ok row
  | .now, r => T' = T ∧ ∃ t, r = .ok t
  | .tell _, r => T' = T ∧ r = .ok ()
  | .notifId, r => T' = T ∧ ∃ n, r = .ok n
  | .cancel _, r => T' = T ∧ r = .ok ()
  | _, _ => T' = T

/-- All commands are as required, whatever other such operations on the connection do meanwhile, and also if the coroutine is
cancelled at a suspension. -/
def SymS (cid : Str) (r0 : Option Row) {α : Type} : Prog α → (List Nat → Except Err α → Prop) → List Nat → Prop
  | .pure a, Q, T => Q T (.ok a)
  | .throw e, Q, T => Q T (.error e)
  | .cmd c k, Q, T => OkS cid r0 c T ∧ (∀ T' r, EffS r0 c T T' r → SymS cid r0 (k r) Q T') ∧
      (c.isAsync = true → SymS cid r0 (k (.error .runtime)) Q T)
  | .spawn p k, Q, T => SymS cid r0 p (fun _ _ => True) T ∧ SymS cid r0 k Q T

/-- Nothing is required in the end. -/
def AnyEnd {α : Type} : List Nat → Except Err α → Prop := fun _ _ => True

/-- A suspended operation that shares its connection. -/
def SymTaskS (cid : Str) (r0 : Option Row) (s : Slice) : Susp → Prop
  | .waiting c k _ => c.isAsync = true ∧ ∃ T, Tracked r0 s T ∧ OkS cid r0 c T ∧ (∀ T' r, EffS r0 c T T' r → SymS cid r0 (k r) AnyEnd T') ∧
      SymS cid r0 (k (.error .runtime)) AnyEnd T
  | .performed k r _ => (∃ T, Tracked r0 s T ∧ SymS cid r0 (k r) AnyEnd T) ∧ ∃ T, Tracked r0 s T ∧ SymS cid r0 (k (.error .runtime)) AnyEnd T

/-- The connection is at rest, and known up to provision state and activity. -/
structure Calm1 (cfg : Cfg) (r0 : Option Row) (s : Slice) : Prop where
  rest : RestS cfg s
  core : CoreOpt r0 s.row

section
variable {cfg : Cfg} {cid : Str} {r0 : Option Row}

/-- A command of a sharing operation keeps everything. -/
theorem shared_eff {β : Type} {c : Cmd β} {s s' : Slice} {T : List Nat} {r : Except Err β} (hs : Calm1 cfg r0 s) (ht : Tracked r0 s T)
    (hok : OkS cid r0 c T) (he : Eff cid c s s' r) :
    Calm1 cfg r0 s' ∧ (∀ T0, Tracked r0 s T0 → Tracked r0 s' T0) ∧ ∃ T', Tracked r0 s' T' ∧ EffS r0 c T T' r := by
  have stay : s' = s → (∀ T0, Tracked r0 s T0 → Tracked r0 s' T0) := fun e T0 h => e ▸ h
  cases c with
  | find b =>
    rcases he with ⟨h1, rfl, rfl⟩ | ⟨x, n, h1, h2, rfl, rfl⟩
    · refine ⟨hs, stay rfl, T, ht, Or.inl ⟨?_, rfl, rfl⟩⟩
      rcases hs.core with h | ⟨x, y, h, k, _⟩
      · exact h.1
      · rw [h1] at k; cases k
    · have keep : ∀ ref o, s.objs ref = some o → upd s.objs n ⟨x, false⟩ ref = some o := by
        intro ref o h
        rw [upd_ne (by rintro rfl; rw [h2] at h; cases h)]
        exact h
      have tr : ∀ T0, Tracked r0 s T0 → Tracked r0 { s with objs := upd s.objs n ⟨x, false⟩ } T0 := by
        intro T0 h ref hr
        obtain ⟨a, o, h3, h4, h5⟩ := h ref hr
        exact ⟨a, o, h3, keep _ _ h4, h5⟩
      refine ⟨⟨⟨hs.rest.row, hs.rest.none, ?_⟩, hs.core⟩, tr, n :: T, ?_, Or.inr ⟨n, rfl, rfl⟩⟩
      · intro due act ref h
        obtain ⟨r, o, k1, k2, k3⟩ := hs.rest.tm due act ref h
        exact ⟨r, o, k1, keep _ _ k2, k3⟩
      · intro ref hr
        rcases List.mem_cons.mp hr with rfl | hr
        · rcases hs.core with h | ⟨a, y, h, k, hc⟩
          · rw [h1] at h; cases h.2
          · rw [h1] at k
            simp only [Option.some.injEq] at k
            subst k
            exact ⟨a, ⟨x, false⟩, h, by simp, rfl, hc, (hs.rest.row x h1).1⟩
        · exact tr T ht ref hr
  | save ref =>
    obtain ⟨rfl, o, ho, rfl⟩ := he
    obtain ⟨x, o', hx, ho', hnew, hcore, hokr⟩ := ht ref hok
    rw [ho] at ho'
    simp only [Option.some.injEq] at ho'
    subst ho'
    rw [hnew]
    simp only [Bool.false_eq_true, if_false]
    rcases hs.core with h | ⟨a, y, h, k, hc⟩
    · rw [hx] at h; cases h.1
    · rw [hx] at h
      simp only [Option.some.injEq] at h
      subst h
      have hyo : Core y o.row := hc.symm.trans hcore
      refine ⟨⟨⟨?_, ?_, ?_⟩, ?_⟩, fun T0 h => h, T, ht, rfl, rfl⟩
      · intro r hr
        simp only [k, Option.map_some, Option.some.injEq] at hr
        subst hr
        refine ⟨hokr, ?_⟩
        have := (hs.rest.row y k).2
        have e : contrib cfg o.row = contrib cfg y := by
          have h1 := hyo
          unfold Core at h1
          rw [h1]
          rfl
        rw [e]
        exact this
      · intro h
        simp [k] at h
      · intro due act ref' h
        obtain ⟨r, o2, k1, k2, k3, k4, k5, k6⟩ := hs.rest.tm due act ref' h
        rw [k] at k1
        simp only [Option.some.injEq] at k1
        subst k1
        refine ⟨o.row, o2, by simp [k], k2, k3, hyo.symm.trans k4, k5, ?_⟩
        have h1 := hyo
        unfold Core at h1
        cases act <;> (simp only [ActOk] at k6 ⊢; rw [h1]; exact k6)
      · exact Or.inr ⟨x, o.row, hx, by simp [k], hcore⟩
  | setup b => cases (show s' = s from he); exact ⟨hs, stay rfl, T, ht, rfl⟩
  | teardown b => cases (show s' = s from he); exact ⟨hs, stay rfl, T, ht, rfl⟩
  | call m => cases (show s' = s from he); exact ⟨hs, stay rfl, T, ht, rfl⟩
  | tell m =>
    obtain ⟨rfl, rfl⟩ := he
    exact ⟨hs, stay rfl, T, ht, rfl, rfl⟩
  | getObj ref =>
    obtain ⟨rfl, o, ho, rfl⟩ := he
    obtain ⟨x, o', hx, ho', hnew, hcore, hokr⟩ := ht ref hok
    rw [ho] at ho'
    simp only [Option.some.injEq] at ho'
    subst ho'
    exact ⟨hs, stay rfl, T, ht, rfl, x, o.row, hx, hcore, hokr, rfl⟩
  | setObj ref row =>
    obtain ⟨rfl, o, ho, rfl⟩ := he
    obtain ⟨hr, x, hx, hcr, hokr⟩ := hok
    obtain ⟨x', o', hx', ho', hnew, hcore, hokr'⟩ := ht ref hr
    rw [ho] at ho'
    simp only [Option.some.injEq] at ho'
    subst ho'
    have tr : ∀ T0, Tracked r0 s T0 → Tracked r0 { s with objs := upd s.objs ref { o with row } } T0 := by
      intro T0 h ref' hr'
      by_cases e : ref' = ref
      · subst e
        exact ⟨x, { o with row }, hx, by simp, hnew, hcr, hokr⟩
      · obtain ⟨a, o2, h3, h4, h5⟩ := h ref' hr'
        exact ⟨a, o2, h3, by simp only [upd_ne e]; exact h4, h5⟩
    refine ⟨⟨⟨hs.rest.row, hs.rest.none, ?_⟩, hs.core⟩, tr, T, tr T ht, rfl, rfl⟩
    intro due act ref' h
    obtain ⟨r, o2, k1, k2, k3, k4, k5, k6⟩ := hs.rest.tm due act ref' h
    by_cases e : ref' = ref
    · subst e
      rcases hs.core with h | ⟨a, y, h, k, hc⟩
      · rw [hx] at h; cases h.1
      · rw [hx] at h
        simp only [Option.some.injEq] at h
        subst h
        rw [k] at k1
        simp only [Option.some.injEq] at k1
        subst k1
        exact ⟨y, { o with row }, k, by simp, hnew, hc.symm.trans hcr, hokr, k6⟩
    · exact ⟨r, o2, k1, by simp only [upd_ne e]; exact k2, k3, k4, k5, k6⟩
  | now =>
    obtain ⟨rfl, t, rfl⟩ := he
    exact ⟨hs, stay rfl, T, ht, rfl, t, rfl⟩
  | sched b t act ref =>
    obtain ⟨hb, hr, x, hx, hact⟩ := hok
    rcases he with ⟨due, rfl, rfl⟩ | ⟨rfl, e, rfl⟩
    · refine ⟨⟨⟨hs.rest.row, hs.rest.none, ?_⟩, hs.core⟩, fun T0 h => h, T, ht, rfl⟩
      intro due' act' ref' h
      simp only [Option.some.injEq, Timer.mk.injEq, and_true] at h
      obtain ⟨rfl, rfl, rfl⟩ := h
      obtain ⟨x', o, hx', ho, hnew, hcore, hokr⟩ := ht ref hr
      rcases hs.core with h | ⟨a, y, h, k, hc⟩
      · rw [hx] at h; cases h.1
      · rw [hx] at h hx'
        simp only [Option.some.injEq] at h hx'
        subst h
        subst hx'
        refine ⟨y, o, k, ho, hnew, hc.symm.trans hcore, hokr, ?_⟩
        have h1 := hc
        unfold Core at h1
        cases act <;> (simp only [ActOk] at hact ⊢; rw [h1]; exact hact)
    · exact ⟨hs, stay rfl, T, ht, rfl⟩
  | cancel b =>
    obtain ⟨rfl, rfl⟩ := he
    exact ⟨⟨⟨hs.rest.row, hs.rest.none, fun _ _ _ h => by cases h⟩, hs.core⟩, fun T0 h => h, T, ht, rfl, rfl⟩
  | hasCall b =>
    obtain ⟨rfl, b, rfl⟩ := he
    exact ⟨hs, stay rfl, T, ht, rfl⟩
  | notifId =>
    obtain ⟨rfl, n, rfl⟩ := he
    exact ⟨hs, stay rfl, T, ht, rfl, n, rfl⟩
  | findLive => exact absurd hok (by simp [OkS])
  | newObj row => exact absurd hok (by simp [OkS])
  | calCheck e => exact absurd hok (by simp [OkS])
  | calAdd e => exact absurd hok (by simp [OkS])
  | calRemove e => exact absurd hok (by simp [OkS])
  | newId => exact absurd hok (by simp [OkS])

theorem OkS.ok {β : Type} {c : Cmd β} {s : Slice} {T : List Nat} (hcid : ∀ x, r0 = some x → x.cid = cid) (ht : Tracked r0 s T) (hok : OkS cid r0 c T) : Ok cid c s := by
  cases c with
  | find b => exact hok
  | save ref =>
    obtain ⟨x, o, hx, ho, hnew, _⟩ := ht ref hok
    exact ⟨o, ho, fun h => by rw [hnew] at h; cases h⟩
  | getObj ref =>
    obtain ⟨x, o, hx, ho, hnew, _⟩ := ht ref hok
    exact ⟨o, ho⟩
  | setObj ref row =>
    obtain ⟨hr, x, hx, hc, _⟩ := hok
    obtain ⟨_, o, _, ho, hnew, _⟩ := ht ref hr
    refine ⟨⟨o, ho⟩, ?_⟩
    unfold Core at hc
    rw [hc]
    exact hcid x hx
  | sched b t act ref => exact hok.1
  | cancel b => exact hok
  | setup b => trivial
  | teardown b => trivial
  | call m => trivial
  | tell m => trivial
  | now => trivial
  | hasCall b => trivial
  | notifId => trivial
  | findLive => exact absurd hok (by simp [OkS])
  | newObj row => exact absurd hok (by simp [OkS])
  | calCheck e => exact absurd hok (by simp [OkS])
  | calAdd e => exact absurd hok (by simp [OkS])
  | calRemove e => exact absurd hok (by simp [OkS])
  | newId => exact absurd hok (by simp [OkS])

end
end OpenNSA.Backend
