import Verif.Agg.OwnRun
/- A handler of the connection among others and the same handler alone: related states, commands and coroutines. -/
namespace OpenNSA.Agg
open OpenNSA Py Coro

variable {M : Mark} {cfg : Cfg} {α β γ δ : Type}

/-- Objects standing for the same row on both sides. -/
structure Prs where
  A : List (Nat × Nat)
  B : List (Nat × Nat)

/-- More objects are related. -/
structure Prs.Le (P P' : Prs) : Prop where
  A : ∀ p ∈ P.A, p ∈ P'.A
  B : ∀ p ∈ P.B, p ∈ P'.B

theorem Prs.Le.refl (P : Prs) : P.Le P := ⟨fun _ h => h, fun _ h => h⟩
theorem Prs.Le.trans {P P' P'' : Prs} (h : P.Le P') (h' : P'.Le P'') : P.Le P'' := ⟨fun p hp => h'.A p (h.A p hp), fun p hp => h'.B p (h.B p hp)⟩

/-- Both or neither, and related. -/
def OptRel (A : List (Nat × Nat)) (a b : Option Nat) : Prop := (a = none ∧ b = none) ∨ ∃ i j, a = some i ∧ b = some j ∧ (i, j) ∈ A

theorem OptRel.mono {A A' : List (Nat × Nat)} (h : ∀ p ∈ A, p ∈ A') {a b : Option Nat} (hr : OptRel A a b) : OptRel A' a b := by
  rcases hr with hr | ⟨i, j, h1, h2, h3⟩
  · exact Or.inl hr
  · exact Or.inr ⟨i, j, h1, h2, h _ h3⟩

/-- `u` has the rows of the connection in `v` and no others; related objects are equal; the same has been said about the connection. -/
structure Mir (M : Mark) (P : Prs) (v u : World) : Prop where
  conns : u.conns = v.conns.filter fun r => decide (r.key = M.key)
  subs : u.subs = v.subs.filter fun s => decide (s.skey = M.key)
  cobj : ∀ p ∈ P.A, ∃ o, v.cheap[p.1]? = some o ∧ u.cheap[p.2]? = some o ∧ o.isNew = false ∧ o.row.key = M.key
  sobj : ∀ p ∈ P.B, ∃ o, v.sheap[p.1]? = some o ∧ u.sheap[p.2]? = some o ∧ o.isNew = false ∧ o.row.skey = M.key
  cinj : ∀ p ∈ P.A, ∀ q ∈ P.A, p.1 = q.1 ↔ p.2 = q.2
  sinj : ∀ p ∈ P.B, ∀ q ∈ P.B, p.1 = q.1 ↔ p.2 = q.2
  ccache : OptRel P.A (dget v.ccache M.cid) (dget u.ccache M.cid)
  scache : ∀ c ∈ M.segs, OptRel P.B (dget v.scache c) (dget u.scache c)
  outs : u.outbox.filter (fun o => decide (o.about = some M.cid)) = v.outbox.filter fun o => decide (o.about = some M.cid)

theorem Mir.apart {P : Prs} {w v u : World} (h : Mir M P w u) (ha : Apart M w v) : Mir M P v u := by
  refine ⟨h.conns.trans ha.conns.symm, h.subs.trans ha.subs.symm, fun p hp => ?_, fun p hp => ?_, h.cinj, h.sinj, ?_, fun c hc => ?_, h.outs.trans ha.outs.symm⟩
  · obtain ⟨o, h1, h2, h3, h4⟩ := h.cobj p hp
    exact ⟨o, ha.cobj _ o h1 h3 h4, h2, h3, h4⟩
  · obtain ⟨o, h1, h2, h3, h4⟩ := h.sobj p hp
    exact ⟨o, ha.sobj _ o h1 h4, h2, h3, h4⟩
  · rw [ha.ccache]; exact h.ccache
  · rw [ha.scache c hc]; exact h.scache c hc

theorem Mir.orc {P : Prs} {v u : World} (h : Mir M P v u) (o : Oracle) : Mir M P v { u with orc := o } := ⟨h.1, h.2, h.3, h.4, h.5, h.6, h.7, h.8, h.9⟩

/-- Interference by others: the connection is left alone, and the invariants hold. -/
abbrev Ext (cfg : Cfg) (M : Mark) (w v : World) : Prop := Apart M w v ∧ Inv2 cfg M v

/-- The coroutine can take the state from `w` to `x` and answer `r`, with interference before its commands and after its end. -/
inductive Itf (cfg : Cfg) (M : Mark) {α : Type} : Prog α → World → Except Err α → World → Prop
  | pure {a : α} {w x : World} (h : Apart M w x) : Itf cfg M (.pure a) w (.ok a) x
  | throw {e : Err} {w x : World} (h : Apart M w x) : Itf cfg M (.throw e) w (.error e) x
  | cmd {β : Type} {c : Cmd β} {k : Except Err β → Prog α} {w v x : World} {r : Except Err α} (h : Ext cfg M w v)
      (hr : Itf cfg M (k (exec v c).2) (exec v c).1 r x) : Itf cfg M (.cmd c k) w r x

theorem Itf.weaken {p : Prog α} {w v x : World} {r : Except Err α} (ha : Apart M w v) (h : Itf cfg M p v r x) : Itf cfg M p w r x := by
  cases h with
  | pure h => exact .pure (ha.trans h)
  | throw h => exact .throw (ha.trans h)
  | cmd h hr => exact .cmd ⟨ha.trans h.1, h.2⟩ hr

theorem Itf.bind {p : Prog α} {f : α → Prog β} {x : World} {r : Except Err β} : ∀ {w : World}, Itf cfg M (p >>= f) w r x →
    (∃ a v, Itf cfg M p w (.ok a) v ∧ Itf cfg M (f a) v r x) ∨ (∃ e, r = .error e ∧ Itf cfg M p w (.error e) x) := by
  induction p with
  | pure a => intro w h; exact Or.inl ⟨a, w, .pure (.refl w), h⟩
  | throw e =>
    intro w h
    have h' : Itf cfg M (.throw e) w r x := h
    cases h' with
    | throw h => exact Or.inr ⟨e, rfl, .throw h⟩
  | cmd c k ih =>
    intro w h
    have h' : Itf cfg M (.cmd c fun r => (k r).bind f) w r x := h
    cases h' with
    | cmd h hr =>
      rcases ih _ hr with ⟨a, v, h1, h2⟩ | ⟨e, h1, h2⟩
      · exact Or.inl ⟨a, v, .cmd h h1, h2⟩
      · exact Or.inr ⟨e, h1, .cmd h h2⟩

/-- One choice list after the other. -/
def Oracle.app (o o' : Oracle) : Oracle := ⟨o.cids ++ o'.cids, o.corrs ++ o'.corrs, o.acks ++ o'.acks⟩

theorem Oracle.app_assoc (a b c : Oracle) : (a.app b).app c = a.app (b.app c) := by simp [Oracle.app]
theorem Oracle.nil_app (a : Oracle) : Oracle.app {} a = a := by simp [Oracle.app]

/-- Related results. -/
def ResRel (R : α → β → Prop) : Except Err α → Except Err β → Prop
  | .ok a, .ok b => R a b
  | .error e, .error e' => e = e'
  | _, _ => False

/-- Whatever `p` can do among others, `q` does alone, for suitable choices of the environment. -/
def Ref (cfg : Cfg) (M : Mark) (P : Prs) (p : Prog α) (q : Prog β) (R : Prs → α → β → Prop) : Prop :=
  ∀ w r x, Itf cfg M p w r x → ∀ u, Mir M P w u → ∃ o P' u' r', P.Le P' ∧ Mir M P' x u' ∧
    (∀ o', q.run machine { u with orc := Oracle.app o o' } = ({ u' with orc := o' }, r')) ∧ ResRel (R P') r r'

theorem Ref.pure {P : Prs} {a : α} {b : β} {R : Prs → α → β → Prop} (h : R P a b) : Ref cfg M P (Coro.pure a) (Coro.pure b) R := by
  intro w r x hi u hm
  cases hi with
  | pure ha => exact ⟨{}, P, u, .ok b, .refl P, hm.apart ha, fun o' => by rw [Oracle.nil_app]; rfl, h⟩

theorem Ref.throw {P : Prs} {e : Err} {R : Prs → α → β → Prop} : Ref cfg M P (Coro.throw e) (Coro.throw e) R := by
  intro w r x hi u hm
  cases hi with
  | throw ha => exact ⟨{}, P, u, .error e, .refl P, hm.apart ha, fun o' => by rw [Oracle.nil_app]; rfl, rfl⟩

theorem Ref.ofExcept {P : Prs} (r : Except Err α) : Ref cfg M P (Coro.ofExcept r) (Coro.ofExcept r) (fun _ a b => a = b) := by
  cases r with
  | ok a => exact Ref.pure rfl
  | error e => exact Ref.throw

theorem run_bind (p : Prog α) (f : α → Prog β) : ∀ w : World, (p >>= f).run machine w =
    (match (p.run machine w).2 with | .ok a => (f a).run machine (p.run machine w).1 | .error e => ((p.run machine w).1, .error e)) := by
  induction p with
  | pure a => intro w; rfl
  | throw e => intro w; rfl
  | cmd c k ih => intro w; exact ih _ _

theorem Ref.bind {P : Prs} {p : Prog α} {q : Prog β} {f : α → Prog γ} {g : β → Prog δ} {R : Prs → α → β → Prop} {S : Prs → γ → δ → Prop}
    (hp : Ref cfg M P p q R) (hf : ∀ a b P', P.Le P' → R P' a b → Ref cfg M P' (f a) (g b) S) : Ref cfg M P (p >>= f) (q >>= g) S := by
  intro w r x hi u hm
  rcases hi.bind with ⟨a, v, h1, h2⟩ | ⟨e, rfl, h1⟩
  · obtain ⟨o, P', u', r', hle, hm', hrun, hres⟩ := hp w _ v h1 u hm
    cases r' with
    | error e => exact hres.elim
    | ok b =>
      obtain ⟨o2, P2, u2, r2, hle2, hm2, hrun2, hres2⟩ := hf a b P' hle hres v r x h2 u' hm'
      refine ⟨o.app o2, P2, u2, r2, hle.trans hle2, hm2, fun o' => ?_, hres2⟩
      rw [Oracle.app_assoc, run_bind, hrun]
      exact hrun2 o'
  · obtain ⟨o, P', u', r', hle, hm', hrun, hres⟩ := hp w _ x h1 u hm
    cases r' with
    | ok b => exact hres.elim
    | error e' =>
      refine ⟨o, P', u', .error e', hle, hm', fun o' => ?_, hres⟩
      rw [run_bind, hrun]

theorem Ref.mono {P : Prs} {p : Prog α} {q : Prog β} {R S : Prs → α → β → Prop} (hp : Ref cfg M P p q R)
    (h : ∀ a b P', P.Le P' → R P' a b → S P' a b) : Ref cfg M P p q S := by
  intro w r x hi u hm
  obtain ⟨o, P', u', r', hle, hm', hrun, hres⟩ := hp w r x hi u hm
  refine ⟨o, P', u', r', hle, hm', hrun, ?_⟩
  cases r <;> cases r' <;> first | exact hres | exact h _ _ _ hle hres

/-- Commands: one related step, for suitable choices. -/
theorem Ref.cmd {P : Prs} {c : Cmd α} {c' : Cmd β} {R : Prs → α → β → Prop}
    (h : ∀ v u, Inv2 cfg M v → Mir M P v u → ∃ o P' u' r', P.Le P' ∧ Mir M P' (exec v c).1 u' ∧
      (∀ o', exec { u with orc := Oracle.app o o' } c' = ({ u' with orc := o' }, r')) ∧ ResRel (R P') (exec v c).2 r') :
    Ref cfg M P (issue c) (issue c') R := by
  intro w r x hi u hm
  cases hi with
  | cmd he hr =>
    rename_i v
    obtain ⟨o, P', u', r', hle, hm', hex, hres⟩ := h v u he.2 (hm.apart he.1)
    have hrun : ∀ o', (issue (ε := Err) c').run machine { u with orc := Oracle.app o o' } = ({ u' with orc := o' }, r') := by
      intro o'
      have : (issue (ε := Err) c').run machine { u with orc := Oracle.app o o' } = exec { u with orc := Oracle.app o o' } c' := by rw [run_issue, machine_exec]
      rw [this, hex o']
    cases hv : (exec v c).2 with
    | ok a =>
      rw [hv] at hr hres
      cases r' with
      | error e => exact hres.elim
      | ok b =>
        cases hr with
        | pure ha => exact ⟨o, P', u', .ok b, hle, hm'.apart ha, fun o' => hrun o', hres⟩
    | error e =>
      rw [hv] at hr hres
      cases r' with
      | ok b => exact hres.elim
      | error e' =>
        cases hr with
        | throw ha => exact ⟨o, P', u', .error e', hle, hm'.apart ha, fun o' => hrun o', hres⟩

/-- Commands that do not ask the environment for anything. -/
def Cmd.Plain {β : Type} : Cmd β → Prop
  | .newCid => False
  | .acks _ => False
  | .newCorr => False
  | _ => True

theorem saveC_orc (w : World) (r : Nat) (o : Oracle) : World.saveC { w with orc := o } r = ({ (w.saveC r).1 with orc := o }, (w.saveC r).2) := by
  simp only [World.saveC]
  split
  · rfl
  · split
    · split <;> rfl
    · rfl

theorem saveS_orc (w : World) (r : Nat) (o : Oracle) : World.saveS { w with orc := o } r = ({ (w.saveS r).1 with orc := o }, (w.saveS r).2) := by
  simp only [World.saveS]
  split
  · rfl
  · split
    · split <;> rfl
    · rfl

theorem saveSs_orc (l : List Nat) (o : Oracle) : ∀ w : World, World.saveSs { w with orc := o } l = { w.saveSs l with orc := o } := by
  induction l with
  | nil => intro w; rfl
  | cons r rs ih => intro w; simp only [World.saveSs, saveS_orc, ih]

theorem findSub_orc (w : World) (x : Str × Str) (o : Oracle) : World.findSub { w with orc := o } x = ({ (w.findSub x).1 with orc := o }, (w.findSub x).2) := by
  simp only [World.findSub]
  split <;> rfl

theorem findSubs_orc (l : List (Str × Str)) (o : Oracle) : ∀ w : World, World.findSubs { w with orc := o } l = ({ (w.findSubs l).1 with orc := o }, (w.findSubs l).2) := by
  induction l with
  | nil => intro w; rfl
  | cons r rs ih => intro w; simp only [World.findSubs, findSub_orc, ih]

theorem exec_orc (c : Cmd β) (hc : c.Plain) (w : World) (o : Oracle) : exec { w with orc := o } c = ({ (exec w c).1 with orc := o }, (exec w c).2) := by
  cases c with
  | newCid => exact hc.elim
  | acks n => exact hc.elim
  | newCorr => exact hc.elim
  | saveC r => exact saveC_orc w r o
  | saveS r => exact saveS_orc w r o
  | saveSs l => simp only [exec, saveSs_orc]
  | findSubs l => simp only [exec, findSubs_orc]
  | findConn cid => simp only [exec]; split <;> rfl
  | getC r => simp only [exec]; split <;> rfl
  | setC r row => simp only [exec]; split <;> rfl
  | getS r => simp only [exec]; split <;> rfl
  | setS r row => simp only [exec]; split <;> rfl
  | _ => rfl

theorem Ref.plain {P : Prs} {c : Cmd α} {c' : Cmd β} {R : Prs → α → β → Prop} (hc : c'.Plain)
    (h : ∀ v u, Inv2 cfg M v → Mir M P v u → ∃ P', P.Le P' ∧ Mir M P' (exec v c).1 (exec u c').1 ∧ ResRel (R P') (exec v c).2 (exec u c').2) :
    Ref cfg M P (issue c) (issue c') R := by
  refine Ref.cmd fun v u hi hm => ?_
  obtain ⟨P', h1, h2, h3⟩ := h v u hi hm
  exact ⟨{}, P', (exec u c').1, (exec u c').2, h1, h2, fun o' => by rw [Oracle.nil_app]; exact exec_orc c' hc u o', h3⟩

/-! ### Commands -/

theorem find?_filter_eq {ρ : Type} {l : List ρ} {p q : ρ → Bool} (h : ∀ r ∈ l, p r = true → q r = true) : (l.filter q).find? p = l.find? p := by
  induction l with
  | nil => rfl
  | cons r rs ih =>
    have ih' := ih fun x hx => h x (by simp [hx])
    cases hp : p r with
    | true =>
      rw [List.find?_cons_of_pos hp, List.filter_cons_of_pos (h r (by simp) hp), List.find?_cons_of_pos hp]
    | false =>
      rw [List.find?_cons_of_neg (by simp [hp])]
      cases hq : q r with
      | true => rw [List.filter_cons_of_pos hq, List.find?_cons_of_neg (by simp [hp])]; exact ih'
      | false => rw [List.filter_cons_of_neg (by simp [hq])]; exact ih'

variable {P : Prs}

theorem Ref.cachedC : Ref cfg M P (issue (.cachedC M.cid)) (issue (.cachedC M.cid)) (fun P' a b => OptRel P'.A a b) :=
  Ref.plain trivial fun _ _ _ hm => ⟨P, .refl P, hm, hm.ccache⟩

theorem Ref.cachedS {c : Str} (hc : c ∈ M.segs) : Ref cfg M P (issue (.cachedS c)) (issue (.cachedS c)) (fun P' a b => OptRel P'.B a b) :=
  Ref.plain trivial fun _ _ _ hm => ⟨P, .refl P, hm, hm.scache c hc⟩

theorem Mir.find {v u : World} (hi : Inv2 cfg M v) (hm : Mir M P v u) : u.conns.find? (fun r => r.cid = M.cid) = v.conns.find? (fun r => r.cid = M.cid) := by
  rw [hm.conns]
  refine find?_filter_eq fun r hr hc => ?_
  simp only [decide_eq_true_eq] at hc ⊢
  exact (row_key hi.1 hi.2 hr).mpr hc

theorem Ref.findConn : Ref cfg M P (issue (.findConn M.cid)) (issue (.findConn M.cid)) (fun P' a b => OptRel P'.A a b) := by
  refine Ref.plain trivial fun v u hi hm => ?_
  simp only [exec, hm.find hi]
  cases hf : v.conns.find? (fun r => r.cid = M.cid) with
  | none => exact ⟨P, .refl P, hm, Or.inl ⟨rfl, rfl⟩⟩
  | some r =>
    have hk : r.key = M.key := (row_key hi.1 hi.2 (List.mem_of_find?_eq_some hf)).mpr (by simpa using List.find?_some hf)
    have hb : ∀ p ∈ P.A, p.1 < v.cheap.length ∧ p.2 < u.cheap.length := fun p hp => by
      obtain ⟨o, h1, h2, _⟩ := hm.cobj p hp
      exact ⟨lt_of_getElem? h1, lt_of_getElem? h2⟩
    refine ⟨⟨P.A ++ [(v.cheap.length, u.cheap.length)], P.B⟩, ⟨fun p hp => by simp [hp], fun p hp => hp⟩, ?_, Or.inr ⟨_, _, rfl, rfl, by simp⟩⟩
    refine ⟨hm.conns, hm.subs, fun p hp => ?_, hm.sobj, fun p hp q hq => ?_, hm.sinj, hm.ccache.mono fun p hp => by simp [hp], hm.scache, hm.outs⟩
    · rcases List.mem_append.mp hp with hp | hp
      · obtain ⟨o, h1, h2, h3⟩ := hm.cobj p hp
        exact ⟨o, getElem?_app h1, getElem?_app h2, h3⟩
      · rw [List.mem_singleton.mp hp]
        exact ⟨⟨r, false⟩, by simp, by simp, rfl, hk⟩
    · rcases List.mem_append.mp hp with hp | hp <;> rcases List.mem_append.mp hq with hq | hq
      · exact hm.cinj p hp q hq
      · have := hb p hp
        rw [List.mem_singleton.mp hq]; simp only; omega
      · have := hb q hq
        rw [List.mem_singleton.mp hp]; simp only; omega
      · rw [List.mem_singleton.mp hp, List.mem_singleton.mp hq]; simp

theorem Ref.cacheC {i j : Nat} (h : (i, j) ∈ P.A) : Ref cfg M P (issue (.cacheC M.cid i)) (issue (.cacheC M.cid j)) (fun _ _ _ => True) := by
  refine Ref.plain trivial fun v u hi hm => ⟨P, .refl P, ?_, trivial⟩
  refine ⟨hm.conns, hm.subs, hm.cobj, hm.sobj, hm.cinj, hm.sinj, ?_, hm.scache, hm.outs⟩
  simp only [exec, dget_dset, if_true]
  exact Or.inr ⟨i, j, rfl, rfl, h⟩

theorem Ref.cacheS {c : Str} {i j : Nat} (h : (i, j) ∈ P.B) : Ref cfg M P (issue (.cacheS c i)) (issue (.cacheS c j)) (fun _ _ _ => True) := by
  refine Ref.plain trivial fun v u hi hm => ⟨P, .refl P, ?_, trivial⟩
  refine ⟨hm.conns, hm.subs, hm.cobj, hm.sobj, hm.cinj, hm.sinj, hm.ccache, fun c' hc' => ?_, hm.outs⟩
  simp only [exec, dget_dset]
  split
  · exact Or.inr ⟨i, j, rfl, rfl, h⟩
  · exact hm.scache c' hc'

theorem Ref.findConnByKey : Ref cfg M P (issue (.findConnByKey M.key)) (issue (.findConnByKey M.key)) (fun _ a b => a = b ∧ ∀ c, a = some c → c = M.cid) := by
  refine Ref.plain trivial fun v u hi hm => ⟨P, .refl P, hm, ?_⟩
  simp only [exec, hm.conns]
  rw [find?_filter_eq (fun r _ h => h)]
  refine ⟨rfl, fun c hc => ?_⟩
  obtain ⟨r, h1, rfl⟩ := Option.map_eq_some_iff.mp hc
  exact (row_key hi.1 hi.2 (List.mem_of_find?_eq_some h1)).mp (by simpa using List.find?_some h1)

theorem Ref.getC {i j : Nat} (h : (i, j) ∈ P.A) : Ref cfg M P (issue (.getC i)) (issue (.getC j)) (fun _ a b => a = b ∧ a.key = M.key ∧ a.cid = M.cid) := by
  refine Ref.plain trivial fun v u hi hm => ⟨P, .refl P, ?_⟩
  obtain ⟨o, h1, h2, h3, h4⟩ := hm.cobj _ h
  simp only [exec, h1, h2]
  exact ⟨hm, rfl, h4, (isC_key hi.1 hi.2 ⟨o, h1, h3, rfl⟩).mp h4⟩

theorem Ref.getS {i j : Nat} (h : (i, j) ∈ P.B) : Ref cfg M P (issue (.getS i)) (issue (.getS j)) (fun _ a b => a = b ∧ a.skey = M.key ∧ a.cid ∈ M.segs) := by
  refine Ref.plain trivial fun v u hi hm => ⟨P, .refl P, ?_⟩
  obtain ⟨o, h1, h2, h3, h4⟩ := hm.sobj _ h
  simp only [exec, h1, h2]
  exact ⟨hm, rfl, h4, (hi.2.sobj _ o h1).mp h4⟩

theorem getElem?_set_self' {ρ : Type} {l : List ρ} {i : Nat} {o x : ρ} (h : l[i]? = some o) : (l.set i x)[i]? = some x := by
  rw [List.getElem?_set, if_pos rfl, if_pos (lt_of_getElem? h)]

theorem Ref.setC {i j : Nat} {row : CRow} (h : (i, j) ∈ P.A) (hk : row.key = M.key) :
    Ref cfg M P (issue (.setC i row)) (issue (.setC j row)) (fun _ _ _ => True) := by
  refine Ref.plain trivial fun v u hi hm => ⟨P, .refl P, ?_⟩
  obtain ⟨o, h1, h2, h3, h4⟩ := hm.cobj _ h
  simp only [exec, h1, h2]
  refine ⟨⟨hm.conns, hm.subs, fun p hp => ?_, hm.sobj, hm.cinj, hm.sinj, hm.ccache, hm.scache, hm.outs⟩, trivial⟩
  by_cases hpi : p.1 = i
  · have hpj : p.2 = j := (hm.cinj p hp _ h).mp hpi
    rw [hpi, hpj]
    exact ⟨{ o with row }, getElem?_set_self' h1, getElem?_set_self' h2, h3, hk⟩
  · have hpj : p.2 ≠ j := fun he => hpi ((hm.cinj p hp _ h).mpr he)
    obtain ⟨o', g1, g2, g3⟩ := hm.cobj p hp
    exact ⟨o', by rw [getElem?_set_other (Ne.symm hpi)]; exact g1, by rw [getElem?_set_other (Ne.symm hpj)]; exact g2, g3⟩

theorem Ref.setS {i j : Nat} {row : SRow} (h : (i, j) ∈ P.B) (hk : row.skey = M.key) :
    Ref cfg M P (issue (.setS i row)) (issue (.setS j row)) (fun _ _ _ => True) := by
  refine Ref.plain trivial fun v u hi hm => ⟨P, .refl P, ?_⟩
  obtain ⟨o, h1, h2, h3, h4⟩ := hm.sobj _ h
  simp only [exec, h1, h2]
  refine ⟨⟨hm.conns, hm.subs, hm.cobj, fun p hp => ?_, hm.cinj, hm.sinj, hm.ccache, hm.scache, hm.outs⟩, trivial⟩
  by_cases hpi : p.1 = i
  · have hpj : p.2 = j := (hm.sinj p hp _ h).mp hpi
    rw [hpi, hpj]
    exact ⟨{ o with row }, getElem?_set_self' h1, getElem?_set_self' h2, h3, hk⟩
  · have hpj : p.2 ≠ j := fun he => hpi ((hm.sinj p hp _ h).mpr he)
    obtain ⟨o', g1, g2, g3⟩ := hm.sobj p hp
    exact ⟨o', by rw [getElem?_set_other (Ne.symm hpi)]; exact g1, by rw [getElem?_set_other (Ne.symm hpj)]; exact g2, g3⟩

theorem setCRow_own {rows : List CRow} {row : CRow} {key : Nat} (h : row.key = key) :
    setCRow (rows.filter fun r => decide (r.key = key)) row = (setCRow rows row).filter fun r => decide (r.key = key) := by
  unfold setCRow
  rw [List.filter_map]
  congr 1
  refine List.filter_congr fun r _ => ?_
  simp only [Function.comp]
  split
  · rename_i he; rw [he, h]
  · rfl

theorem setSRow_own {rows : List SRow} {row : SRow} {key : Nat} (h : row.skey = key) (hr : ∀ s ∈ rows, s.key = row.key → s.skey = key) :
    setSRow (rows.filter fun r => decide (r.skey = key)) row = (setSRow rows row).filter fun r => decide (r.skey = key) := by
  unfold setSRow
  rw [List.filter_map]
  congr 1
  refine List.filter_congr fun r hm => ?_
  simp only [Function.comp]
  split
  · rename_i he; rw [hr r hm he, h]
  · rfl

theorem Ref.saveC {i j : Nat} (h : (i, j) ∈ P.A) : Ref cfg M P (issue (.saveC i)) (issue (.saveC j)) (fun _ _ _ => True) := by
  refine Ref.plain trivial fun v u hi hm => ⟨P, .refl P, ?_⟩
  obtain ⟨o, h1, h2, h3, h4⟩ := hm.cobj _ h
  simp only [exec, World.saveC, h1, h2, h3, Bool.false_eq_true, if_false]
  refine ⟨⟨?_, hm.subs, hm.cobj, hm.sobj, hm.cinj, hm.sinj, hm.ccache, hm.scache, hm.outs⟩, trivial⟩
  simp only [hm.conns]
  exact setCRow_own h4

theorem Mir.saveS {v u : World} (hi : Inv2 cfg M v) (hm : Mir M P v u) {i j : Nat} (h : (i, j) ∈ P.B) :
    Mir M P (v.saveS i).1 (u.saveS j).1 ∧ (v.saveS i).2 = .ok () ∧ (u.saveS j).2 = .ok () := by
  obtain ⟨o, h1, h2, h3, h4⟩ := hm.sobj _ h
  simp only [World.saveS, h1, h2, h3, Bool.false_eq_true, if_false]
  refine ⟨⟨hm.conns, ?_, hm.cobj, hm.sobj, hm.cinj, hm.sinj, hm.ccache, hm.scache, hm.outs⟩, trivial, trivial⟩
  simp only [hm.subs]
  refine setSRow_own h4 fun s hs he => ?_
  have := hi.1.rowOf h1 h3 hs he
  simp only [SRow.id, Prod.mk.injEq] at this
  exact this.2.1.trans h4

theorem Ref.saveS {i j : Nat} (h : (i, j) ∈ P.B) : Ref cfg M P (issue (.saveS i)) (issue (.saveS j)) (fun _ _ _ => True) := by
  refine Ref.plain trivial fun v u hi hm => ⟨P, .refl P, ?_⟩
  obtain ⟨h1, h2, h3⟩ := hm.saveS hi h
  refine ⟨h1, ?_⟩
  simp only [exec, h2, h3]; trivial

theorem Mir.saveSs {is js : List Nat} (h : List.Forall₂ (fun i j => (i, j) ∈ P.B) is js) : ∀ {v u : World}, Inv2 cfg M v → Mir M P v u → Mir M P (v.saveSs is) (u.saveSs js) := by
  induction h with
  | nil => intro v u _ hm; exact hm
  | cons hij _ ih =>
    intro v u hi hm
    exact ih ⟨(hi.1.saveS _).1, hi.2.saveS hi.1 _⟩ (hm.saveS hi hij).1

theorem Ref.saveSs {is js : List Nat} (h : List.Forall₂ (fun i j => (i, j) ∈ P.B) is js) :
    Ref cfg M P (issue (.saveSs is)) (issue (.saveSs js)) (fun _ _ _ => True) :=
  Ref.plain trivial fun _ _ hi hm => ⟨P, .refl P, hm.saveSs h hi, trivial⟩

theorem Ref.selectSubs : Ref cfg M P (issue (.selectSubs M.key)) (issue (.selectSubs M.key)) (fun _ a b => a = b ∧ ∀ x ∈ a, x.2 ∈ M.segs) := by
  refine Ref.plain trivial fun v u hi hm => ⟨P, .refl P, hm, ?_⟩
  simp only [exec, hm.subs, List.filter_filter, Bool.and_self]
  refine ⟨rfl, fun x hx => ?_⟩
  obtain ⟨s, hs, rfl⟩ := List.mem_map.mp hx
  rw [List.mem_filter] at hs
  exact (hi.2.subs s hs.1).mp (by simpa using hs.2)

theorem Mir.findSub {v u : World} (hi : Inv2 cfg M v) (hm : Mir M P v u) {x : Str × Str} (hx : x.2 ∈ M.segs) :
    ∃ P', P.Le P' ∧ Mir M P' (v.findSub x).1 (u.findSub x).1 ∧ OptRel P'.B (v.findSub x).2 (u.findSub x).2 := by
  have he : u.subs.find? (fun r => r.prov = x.1 && r.cid = x.2) = v.subs.find? (fun r => r.prov = x.1 && r.cid = x.2) := by
    rw [hm.subs]
    refine find?_filter_eq fun s hs hc => ?_
    simp only [Bool.and_eq_true, decide_eq_true_eq] at hc ⊢
    exact (hi.2.subs s hs).mpr (hc.2 ▸ hx)
  simp only [World.findSub, he]
  cases hf : v.subs.find? (fun r => r.prov = x.1 && r.cid = x.2) with
  | none => exact ⟨P, .refl P, hm, Or.inl ⟨rfl, rfl⟩⟩
  | some s =>
    have hk : s.skey = M.key := by
      have := List.find?_some hf
      simp only [Bool.and_eq_true, decide_eq_true_eq] at this
      exact (hi.2.subs s (List.mem_of_find?_eq_some hf)).mpr (this.2 ▸ hx)
    have hb : ∀ p ∈ P.B, p.1 < v.sheap.length ∧ p.2 < u.sheap.length := fun p hp => by
      obtain ⟨o, h1, h2, _⟩ := hm.sobj p hp
      exact ⟨lt_of_getElem? h1, lt_of_getElem? h2⟩
    refine ⟨⟨P.A, P.B ++ [(v.sheap.length, u.sheap.length)]⟩, ⟨fun p hp => hp, fun p hp => by simp [hp]⟩, ?_, Or.inr ⟨_, _, rfl, rfl, by simp⟩⟩
    refine ⟨hm.conns, hm.subs, hm.cobj, fun p hp => ?_, hm.cinj, fun p hp q hq => ?_, hm.ccache, fun c hc => (hm.scache c hc).mono fun p hp => by simp [hp], hm.outs⟩
    · rcases List.mem_append.mp hp with hp | hp
      · obtain ⟨o, h1, h2, h3⟩ := hm.sobj p hp
        exact ⟨o, getElem?_app h1, getElem?_app h2, h3⟩
      · rw [List.mem_singleton.mp hp]
        exact ⟨⟨s, false⟩, by simp, by simp, rfl, hk⟩
    · rcases List.mem_append.mp hp with hp | hp <;> rcases List.mem_append.mp hq with hq | hq
      · exact hm.sinj p hp q hq
      · have := hb p hp
        rw [List.mem_singleton.mp hq]; simp only; omega
      · have := hb q hq
        rw [List.mem_singleton.mp hp]; simp only; omega
      · rw [List.mem_singleton.mp hp, List.mem_singleton.mp hq]; simp

theorem Mir.findSubs (l : List (Str × Str)) (hl : ∀ x ∈ l, x.2 ∈ M.segs) : ∀ {P : Prs} {v u : World}, Inv2 cfg M v → Mir M P v u →
    ∃ P', P.Le P' ∧ Mir M P' (v.findSubs l).1 (u.findSubs l).1 ∧ List.Forall₂ (OptRel P'.B) (v.findSubs l).2 (u.findSubs l).2 := by
  induction l with
  | nil => intro P v u _ hm; exact ⟨P, .refl P, hm, .nil⟩
  | cons x xs ih =>
    intro P v u hi hm
    obtain ⟨P1, h1, h2, h3⟩ := hm.findSub hi (hl x (by simp))
    obtain ⟨P2, g1, g2, g3⟩ := ih (fun y hy => hl y (by simp [hy])) ⟨(hi.1.findSub x).1, hi.2.findSub hi.1 x⟩ h2
    exact ⟨P2, h1.trans g1, g2, .cons (h3.mono g1.B) g3⟩

theorem Ref.findSubs {l : List (Str × Str)} (hl : ∀ x ∈ l, x.2 ∈ M.segs) :
    Ref cfg M P (issue (.findSubs l)) (issue (.findSubs l)) (fun P' a b => List.Forall₂ (OptRel P'.B) a b) := by
  refine Ref.plain trivial fun v u hi hm => ?_
  obtain ⟨P', h1, h2, h3⟩ := Mir.findSubs l hl hi hm
  exact ⟨P', h1, h2, h3⟩

theorem Ref.send {c : PCall} : Ref cfg M P (issue (.send c)) (issue (.send c)) (fun _ _ _ => True) :=
  Ref.plain trivial fun _ _ _ hm => ⟨P, .refl P, ⟨hm.1, hm.2, hm.3, hm.4, hm.5, hm.6, hm.7, hm.8, hm.9⟩, trivial⟩

theorem Ref.emit {o : Out} : Ref cfg M P (issue (.emit o)) (issue (.emit o)) (fun _ _ _ => True) := by
  refine Ref.plain trivial fun _ _ _ hm => ⟨P, .refl P, ⟨hm.1, hm.2, hm.3, hm.4, hm.5, hm.6, hm.7, hm.8, ?_⟩, trivial⟩
  simp only [exec, List.filter_append, hm.outs]

theorem Ref.newCorr : Ref cfg M P (issue .newCorr) (issue .newCorr) (fun _ a b => a = b) := by
  refine Ref.cmd fun v u hi hm => ?_
  have hm' : Mir M P (exec v .newCorr).1 u := by
    simp only [exec]
    split
    · exact hm
    · exact ⟨hm.1, hm.2, hm.3, hm.4, hm.5, hm.6, hm.7, hm.8, hm.9⟩
  obtain ⟨i, hr⟩ : ∃ i, (exec v .newCorr).2 = .ok i := by
    simp only [exec]
    split <;> exact ⟨_, rfl⟩
  rw [hr]
  exact ⟨⟨[], [i], []⟩, P, u, .ok i, .refl P, hm', fun o' => rfl, rfl⟩

theorem acks_given (l : List (Except Err Str)) : ∀ (u : World) (o' : Oracle),
    World.acks { u with orc := Oracle.app ⟨[], [], l⟩ o' } l.length = ({ u with orc := o' }, l) := by
  induction l with
  | nil => intro u o'; simp [World.acks, Oracle.app]
  | cons a as ih =>
    intro u o'
    have := ih u o'
    simp only [Oracle.app, List.nil_append] at this
    simp only [List.length_cons, World.acks, Oracle.app, List.cons_append, List.nil_append]
    rw [this]

theorem acks_len (n : Nat) : ∀ v : World, (v.acks n).2.length = n := by
  induction n with
  | zero => intro v; rfl
  | succ n ih =>
    intro v
    simp only [World.acks]
    split
    · simp [ih]
    · simp [ih]

theorem Ref.acks {n : Nat} : Ref cfg M P (issue (.acks n)) (issue (.acks n)) (fun _ a b => a = b) := by
  refine Ref.cmd fun v u hi hm => ?_
  have hm' : Mir M P (exec v (.acks n)).1 u := by
    rw [exec_acks, acks_frame]
    exact ⟨hm.1, hm.2, hm.3, hm.4, hm.5, hm.6, hm.7, hm.8, hm.9⟩
  refine ⟨⟨[], [], (v.acks n).2⟩, P, u, .ok (v.acks n).2, .refl P, hm', fun o' => ?_, rfl⟩
  have := acks_given (v.acks n).2 u o'
  rw [acks_len] at this
  simp only [exec, this]

end OpenNSA.Agg
