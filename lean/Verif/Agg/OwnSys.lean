import Verif.Agg.OwnRef
/- Messages about one connection, handled one after the other while other messages are handled at the same time. -/
namespace OpenNSA.Agg
open OpenNSA Py Coro

variable {M : Mark} {cfg : Cfg}

/-- The aggregator as if there were only the connection. -/
def World.alone (M : Mark) (w : World) : World :=
  { w with
    conns := w.conns.filter fun r => decide (r.key = M.key)
    subs := w.subs.filter fun s => decide (s.skey = M.key)
    ccache := w.ccache.filter fun e => decide (e.1 = M.cid)
    scache := w.scache.filter fun e => decide (e.1 ∈ M.segs)
    resv := []
    qreqs := [] }

/-- Executions from `s0`: messages that are not about the connection come at any time, and are handled in any interleaving; one about
the connection only comes when no other one about it is being handled. The messages about it are listed with their numbers. -/
inductive Turns (cfg : Cfg) (M : Mark) (s0 : Sys) : List (Nat × Msg) → Sys → Prop
  | nil : Turns cfg M s0 [] s0
  | other {l : List (Nat × Msg)} {s : Sys} (h : Turns cfg M s0 l s) (o : Oracle) (m : Msg) (hm : m.other cfg M) :
      Turns cfg M s0 l (sysStep cfg s o (.start m))
  | own {l : List (Nat × Msg)} {s : Sys} (h : Turns cfg M s0 l s) (o : Oracle) (m : Msg) (hm : m.mine M)
      (hi : ∀ t ∈ s.tasks, t.1 ∉ l.map Prod.fst) : Turns cfg M s0 (l ++ [(s.next, m)]) (sysStep cfg s o (.start m))
  | perform {l : List (Nat × Msg)} {s : Sys} (h : Turns cfg M s0 l s) (o : Oracle) (n : Nat) : Turns cfg M s0 l (sysStep cfg s o (.perform n))
  | resume {l : List (Nat × Msg)} {s : Sys} (h : Turns cfg M s0 l s) (o : Oracle) (n : Nat) : Turns cfg M s0 l (sysStep cfg s o (.resume n))

/-- The answers to messages handled one after the other. -/
def runAnswers (cfg : Cfg) (w : World) : List (Oracle × Msg) → List (Except Err (Option Str))
  | [] => []
  | (o, m) :: ms => (step cfg w o m).2 :: runAnswers cfg (step cfg w o m).1 ms

theorem runMsgs_snoc (w : World) (tr : List (Oracle × Msg)) (o : Oracle) (m : Msg) :
    runMsgs cfg w (tr ++ [(o, m)]) = (step cfg (runMsgs cfg w tr) o m).1 := by
  induction tr generalizing w with
  | nil => rfl
  | cons e tr ih => exact ih _

theorem runAnswers_snoc (w : World) (tr : List (Oracle × Msg)) (o : Oracle) (m : Msg) :
    runAnswers cfg w (tr ++ [(o, m)]) = runAnswers cfg w tr ++ [(step cfg (runMsgs cfg w tr) o m).2] := by
  induction tr generalizing w with
  | nil => rfl
  | cons e tr ih => simp only [List.cons_append, runAnswers, runMsgs, ih]

theorem runAnswers_length (w : World) (tr : List (Oracle × Msg)) : (runAnswers cfg w tr).length = tr.length := by
  induction tr generalizing w with
  | nil => rfl
  | cons e tr ih => simp only [runAnswers, List.length_cons, ih]

/-- What is left of a suspended handler. -/
def rest : Susp Cmd Err (Option Str) → Prog (Option Str)
  | .waiting c k => .cmd c k
  | .performed p => p

/-- All that is left fits. -/
abbrev TameT (b : Bool) (cfg : Cfg) (M : Mark) (p : Prog (Option Str)) (w : World) : Prop := Tame b cfg M p w fun _ _ => True

theorem Tame.later {b : Bool} {p : Prog (Option Str)} {w v : World} (hk : Keep w v) (hu : Unborn M w v) (h : TameT b cfg M p w) : TameT b cfg M p v := by
  cases p with
  | pure a => trivial
  | throw e => trivial
  | cmd c k => exact fun x hx hux hi hs => h x (hk.trans hx) (hu.trans hux) hi hs

/-- What a piece of a handler leads to. -/
structure Piece (b : Bool) (cfg : Cfg) (M : Mark) (w v : World) : Prop where
  inv : Inv2 cfg M v
  keep : Keep w v
  unborn : Unborn M w v
  apart : b = false → Apart M w v

theorem Piece.refl {b : Bool} {w : World} (h : Inv2 cfg M w) : Piece b cfg M w w := ⟨h, .refl w, .refl w, fun _ => .refl w⟩
theorem Piece.trans {b : Bool} {u v w : World} (h : Piece b cfg M u v) (h' : Piece b cfg M v w) : Piece b cfg M u w :=
  ⟨h'.inv, h.keep.trans h'.keep, h.unborn.trans h'.unborn, fun hb => (h.apart hb).trans (h'.apart hb)⟩

theorem Piece.exec {b : Bool} {w : World} (h : Inv2 cfg M w) {β : Type} (c : Cmd β) (hf : c.Fits b cfg M w) : Piece b cfg M w (exec w c).1 := by
  have he := h.1.exec c hf.1
  have hs := h.2.exec h.1 c hf
  exact ⟨⟨he.1, hs.1⟩, he.2, Unborn.exec h.2 c hf.1, hs.2⟩

theorem Piece.orc {b : Bool} {w : World} (h : Inv2 cfg M w) (o : Oracle) : Piece b cfg M w { w with orc := o } :=
  ⟨⟨h.1.orc w o, h.2.same h.1 (.frame rfl rfl rfl rfl) rfl rfl rfl rfl⟩, .frame rfl rfl rfl rfl, .frame rfl, fun _ => .frame rfl rfl rfl rfl rfl rfl rfl⟩

/-- A handler runs until it is done or has to wait. -/
theorem runSync_piece {b : Bool} (id : Nat) {p : Prog (Option Str)} : ∀ {s : Sys}, Inv2 cfg M s.w → TameT b cfg M p s.w →
    Piece b cfg M s.w (Conc.runSync machine id p s).w ∧ (Conc.runSync machine id p s).next = s.next ∧
      ((∃ r, (Conc.runSync machine id p s).tasks = s.tasks ∧ (Conc.runSync machine id p s).done = s.done ++ [(id, r)] ∧
          Itf cfg M p s.w r (Conc.runSync machine id p s).w) ∨
        ∃ t, (Conc.runSync machine id p s).tasks = s.tasks ++ [(id, t)] ∧ (Conc.runSync machine id p s).done = s.done ∧
          TameT b cfg M (rest t) (Conc.runSync machine id p s).w ∧ ∀ r x, Itf cfg M (rest t) (Conc.runSync machine id p s).w r x → Itf cfg M p s.w r x) := by
  induction p with
  | pure a => intro s hi _; exact ⟨.refl hi, rfl, Or.inl ⟨_, rfl, rfl, .pure (.refl _)⟩⟩
  | throw e => intro s hi _; exact ⟨.refl hi, rfl, Or.inl ⟨_, rfl, rfl, .throw (.refl _)⟩⟩
  | cmd c k ih =>
    intro s hi ht
    simp only [Conc.runSync]
    split
    · exact ⟨.refl hi, rfl, Or.inr ⟨_, rfl, rfl, ht, fun _ _ h => h⟩⟩
    · obtain ⟨hf, hk⟩ := ht s.w (.refl _) (.refl _) hi.1 hi.2
      have hp := Piece.exec hi c hf
      obtain ⟨h1, h2, h3⟩ := ih (exec s.w c).2 (s := { s with w := (exec s.w c).1 }) hp.inv hk
      refine ⟨hp.trans h1, h2, ?_⟩
      rcases h3 with ⟨r, g1, g2, g3⟩ | ⟨t, g1, g2, g3, g4⟩
      · exact Or.inl ⟨r, g1, g2, .cmd ⟨.refl _, hi⟩ g3⟩
      · exact Or.inr ⟨t, g1, g2, g3, fun r x h => .cmd ⟨.refl _, hi⟩ (g4 r x h)⟩

/-- The numbers of the messages about the connection. -/
abbrev nums (l : List (Nat × Msg)) : List Nat := l.map Prod.fst

/-- The messages about the connection that have been answered, and the answers to them, are as if they had been handled alone. -/
structure Caught (cfg : Cfg) (M : Mark) (s0 : Sys) (l : List (Nat × Msg)) (w : World) (new : List (Nat × Except Err (Option Str))) (tr : List (Oracle × Msg)) (P : Prs) : Prop where
  msgs : tr.map Prod.snd = l.map Prod.snd
  mir : Mir M P w (runMsgs cfg (s0.w.alone M) tr)
  answers : new.filter (fun d => decide (d.1 ∈ nums l)) = (nums l).zip (runAnswers cfg (s0.w.alone M) tr)

/-- The state during such executions. -/
structure Sim (cfg : Cfg) (M : Mark) (s0 : Sys) (l : List (Nat × Msg)) (s : Sys) : Prop where
  inv : Inv2 cfg M s.w
  tasks : ∀ t ∈ s.tasks, t.1 < s.next
  nodup : (s.tasks.map Prod.fst).Nodup
  own : ∀ n ∈ nums l, n < s.next
  tame : ∀ t ∈ s.tasks, TameT (decide (t.1 ∈ nums l)) cfg M (rest t.2) s.w
  state : ∃ new, s.done = s0.done ++ new ∧ (∀ d ∈ new, d.1 < s.next) ∧
    (((∀ t ∈ s.tasks, t.1 ∉ nums l) ∧ ∃ tr P, Caught cfg M s0 l s.w new tr P) ∨
      ∃ l' n m t w1 tr P, l = l' ++ [(n, m)] ∧ n ∉ nums l' ∧ m.mine M ∧ (n, t) ∈ s.tasks ∧ (∀ x ∈ s.tasks, x.1 ∉ nums l') ∧ (∀ d ∈ new, d.1 ≠ n) ∧
        Caught cfg M s0 l' w1 new tr P ∧ ∀ r x, Itf cfg M (rest t) s.w r x → Itf cfg M (m.prog cfg) w1 r x)

theorem Caught.apart {s0 : Sys} {l : List (Nat × Msg)} {w v : World} {new : List (Nat × Except Err (Option Str))} {tr : List (Oracle × Msg)} {P : Prs}
    (h : Caught cfg M s0 l w new tr P) (ha : Apart M w v) : Caught cfg M s0 l v new tr P := ⟨h.msgs, h.mir.apart ha, h.answers⟩

/-- Answers to others do not count. -/
theorem Caught.more {s0 : Sys} {l : List (Nat × Msg)} {w : World} {new : List (Nat × Except Err (Option Str))} {tr : List (Oracle × Msg)} {P : Prs}
    (h : Caught cfg M s0 l w new tr P) {n : Nat} (hn : n ∉ nums l) (r : Except Err (Option Str)) : Caught cfg M s0 l w (new ++ [(n, r)]) tr P := by
  refine ⟨h.msgs, h.mir, ?_⟩
  rw [List.filter_append, h.answers, List.filter_cons_of_neg (by simpa using hn)]
  simp

/-- A message about the connection has been handled. -/
theorem Caught.finish {s0 : Sys} {l : List (Nat × Msg)} {w x : World} {new : List (Nat × Except Err (Option Str))} {tr : List (Oracle × Msg)} {P : Prs}
    (h : Caught cfg M s0 l w new tr P) {n : Nat} {m : Msg} (hm : m.mine M) (hd : ∀ d ∈ new, d.1 ≠ n) {r : Except Err (Option Str)}
    (hi : Itf cfg M (m.prog cfg) w r x) : ∃ tr' P', Caught cfg M s0 (l ++ [(n, m)]) x (new ++ [(n, r)]) tr' P' := by
  obtain ⟨o, P', u', r', _, hmir, hrun, hres⟩ := Ref.mine m hm P w r x hi _ h.mir
  have ho : o.app {} = o := by simp [Oracle.app]
  have hs : step cfg (runMsgs cfg (s0.w.alone M) tr) o m = ({ u' with orc := {} }, r') := by
    rw [← hrun {}, ho]; rfl
  have hr : r' = r := by
    cases r <;> cases r' <;> simp only [ResRel] at hres <;> first | exact hres.elim | rw [hres]
  refine ⟨tr ++ [(o, m)], P', by simp [h.msgs], ?_, ?_⟩
  · rw [runMsgs_snoc, hs]; exact hmir.orc {}
  · have hlen : (nums l).length = (runAnswers cfg (s0.w.alone M) tr).length := by
      rw [runAnswers_length, List.length_map, ← List.length_map (as := l) Prod.snd, ← h.msgs, List.length_map]
    rw [runAnswers_snoc, hs, hr]
    simp only [nums, List.map_append, List.map_cons, List.map_nil]
    rw [List.zip_append hlen, List.filter_append, List.filter_cons_of_pos (by simp)]
    congr 1
    rw [← h.answers]
    refine List.filter_congr fun d hd' => ?_
    simp [hd d hd', nums]

theorem takeTask_perm {τ : Type 1} {id : Nat} : ∀ {l : List (Nat × τ)} {t : τ} {r : List (Nat × τ)}, Conc.takeTask id l = some (t, r) → l.Perm ((id, t) :: r)
  | [], _, _, h => by simp [Conc.takeTask] at h
  | x :: l, t, r, h => by
    simp only [Conc.takeTask] at h
    split at h
    · rename_i he
      simp only [Option.some.injEq, Prod.mk.injEq] at h
      obtain ⟨rfl, rfl⟩ := h
      subst he
      exact .refl _
    · obtain ⟨y, h1, h2⟩ := Option.map_eq_some_iff.mp h
      simp only [Prod.mk.injEq] at h2
      obtain ⟨rfl, rfl⟩ := h2
      exact ((takeTask_perm h1).cons x).trans (.swap _ _ _)

theorem Sim.nil {s0 : Sys} (hi : Inv2 cfg M s0.w) (ht : s0.tasks = []) (hm : ∃ P, Mir M P s0.w (s0.w.alone M)) : Sim cfg M s0 [] s0 := by
  refine ⟨hi, by simp [ht], by simp [ht], by simp, by simp [ht], [], by simp, by simp, Or.inl ⟨by simp, ?_⟩⟩
  obtain ⟨P, hm⟩ := hm
  exact ⟨[], P, rfl, hm, by simp⟩

/-- A handler of another message has run, or been performed: nothing changed for the connection. -/
theorem Sim.others {s0 s s' : Sys} {l : List (Nat × Msg)} (h : Sim cfg M s0 l s) {id : Nat} {ts : List (Nat × Susp Cmd Err (Option Str))} (hid : id ∉ nums l)
    (hlt : id < s'.next) (hts : ∀ t ∈ ts, t ∈ s.tasks) (hown : ∀ t ∈ s.tasks, t.1 ∈ nums l → t ∈ ts) (hnd : (id :: ts.map Prod.fst).Nodup) (hnext : s.next ≤ s'.next)
    (hp : Piece false cfg M s.w s'.w)
    (hc : (∃ r, s'.tasks = ts ∧ s'.done = s.done ++ [(id, r)]) ∨ ∃ t, s'.tasks = ts ++ [(id, t)] ∧ s'.done = s.done ∧ TameT false cfg M (rest t) s'.w) :
    Sim cfg M s0 l s' := by
  rw [List.nodup_cons] at hnd
  have hsub : ∀ x ∈ s'.tasks, x ∈ ts ∨ x.1 = id := by
    intro x hx
    rcases hc with ⟨r, h1, _⟩ | ⟨t, h1, _⟩
    · rw [h1] at hx; exact Or.inl hx
    · rw [h1] at hx
      rcases List.mem_append.mp hx with hx | hx
      · exact Or.inl hx
      · rw [List.mem_singleton.mp hx]; exact Or.inr rfl
  have hts' : ∀ x ∈ ts, x ∈ s'.tasks := by
    intro x hx
    rcases hc with ⟨r, h1, _⟩ | ⟨t, h1, _⟩
    · rw [h1]; exact hx
    · rw [h1]; exact List.mem_append_left _ hx
  obtain ⟨new, hdone, hnew, hst⟩ := h.state
  refine ⟨hp.inv, fun t ht => ?_, ?_, fun n hn => Nat.lt_of_lt_of_le (h.own n hn) hnext, fun t ht => ?_, ?_⟩
  · rcases hsub t ht with ht | ht
    · exact Nat.lt_of_lt_of_le (h.tasks t (hts t ht)) hnext
    · rw [ht]; exact hlt
  · rcases hc with ⟨r, h1, _⟩ | ⟨t, h1, _⟩
    · rw [h1]; exact hnd.2
    · rw [h1, List.map_append, List.nodup_append]
      refine ⟨hnd.2, by simp, fun a ha b hb => ?_⟩
      rw [List.map_singleton, List.mem_singleton] at hb
      subst hb
      exact fun he => hnd.1 (he ▸ ha)
  · rcases hc with ⟨r, h1, _⟩ | ⟨t', h1, _, h3⟩
    · rw [h1] at ht; exact Tame.later hp.keep hp.unborn (h.tame t (hts t ht))
    · rw [h1] at ht
      rcases List.mem_append.mp ht with ht | ht
      · exact Tame.later hp.keep hp.unborn (h.tame t (hts t ht))
      · rw [List.mem_singleton.mp ht]
        simp only [hid, decide_false]
        exact h3
  · obtain ⟨new', hd', hn', hmem⟩ : ∃ new', s'.done = s0.done ++ new' ∧ (∀ d ∈ new', d.1 < s'.next) ∧ (new' = new ∨ ∃ r, new' = new ++ [(id, r)]) := by
      rcases hc with ⟨r, _, h2⟩ | ⟨t, _, h2, _⟩
      · refine ⟨new ++ [(id, r)], by rw [h2, hdone, List.append_assoc], fun d hd => ?_, Or.inr ⟨r, rfl⟩⟩
        rcases List.mem_append.mp hd with hd | hd
        · exact Nat.lt_of_lt_of_le (hnew d hd) hnext
        · rw [List.mem_singleton.mp hd]; exact hlt
      · exact ⟨new, h2.trans hdone, fun d hd => Nat.lt_of_lt_of_le (hnew d hd) hnext, Or.inl rfl⟩
    have hmore : ∀ {l' w tr P}, id ∉ nums l' → Caught cfg M s0 l' w new tr P → Caught cfg M s0 l' w new' tr P := by
      intro l' w tr P hl' hcg
      rcases hmem with rfl | ⟨r, rfl⟩
      · exact hcg
      · exact hcg.more hl' r
    refine ⟨new', hd', hn', ?_⟩
    rcases hst with ⟨h1, tr, P, h2⟩ | ⟨l', n, m, t, w1, tr, P, rfl, h2, h3, h4, h5, h6, h7, h8⟩
    · refine Or.inl ⟨fun t ht => ?_, tr, P, hmore hid (h2.apart (hp.apart rfl))⟩
      rcases hsub t ht with ht | ht
      · exact h1 t (hts t ht)
      · rw [ht]; exact hid
    · simp only [nums, List.map_append, List.map_cons, List.map_nil, List.mem_append, List.mem_singleton, not_or] at hid hown
      refine Or.inr ⟨l', n, m, t, w1, tr, P, rfl, h2, h3, hts' _ (hown _ h4 (Or.inr rfl)), fun x hx => ?_, fun d hd => ?_, hmore hid.1 h7, fun r x hr => ?_⟩
      · rcases hsub x hx with hx | hx
        · exact h5 x (hts x hx)
        · rw [hx]; exact hid.1
      · rcases hmem with rfl | ⟨r, rfl⟩
        · exact h6 d hd
        · rcases List.mem_append.mp hd with hd | hd
          · exact h6 d hd
          · rw [List.mem_singleton.mp hd]; exact hid.2
      · exact h8 r x (Itf.weaken (hp.apart rfl) hr)

/-- The handler for the connection has run, or been performed. -/
theorem Sim.mine {s0 s' : Sys} {l' : List (Nat × Msg)} {n : Nat} {m : Msg} {w1 : World} {tr : List (Oracle × Msg)} {P : Prs} {new : List (Nat × Except Err (Option Str))}
    {ts : List (Nat × Susp Cmd Err (Option Str))}
    (hm : m.mine M) (hn : n ∉ nums l') (hts : ∀ t ∈ ts, t.1 < s'.next ∧ t.1 ∉ nums l' ∧ TameT false cfg M (rest t.2) s'.w) (hnd : (n :: ts.map Prod.fst).Nodup)
    (hlt : n < s'.next) (hown : ∀ i ∈ nums l', i < s'.next) (hnew : ∀ d ∈ new, d.1 < s'.next ∧ d.1 ≠ n) (hcg : Caught cfg M s0 l' w1 new tr P) (hi : Inv2 cfg M s'.w)
    (hc : (∃ r, s'.tasks = ts ∧ s'.done = s0.done ++ (new ++ [(n, r)]) ∧ Itf cfg M (m.prog cfg) w1 r s'.w) ∨
      ∃ t, s'.tasks = ts ++ [(n, t)] ∧ s'.done = s0.done ++ new ∧ TameT true cfg M (rest t) s'.w ∧ ∀ r x, Itf cfg M (rest t) s'.w r x → Itf cfg M (m.prog cfg) w1 r x) :
    Sim cfg M s0 (l' ++ [(n, m)]) s' := by
  rw [List.nodup_cons] at hnd
  have hne : ∀ t ∈ ts, t.1 ≠ n := fun t ht he => hnd.1 (he ▸ List.mem_map_of_mem ht)
  have hnot : ∀ t ∈ ts, t.1 ∉ nums (l' ++ [(n, m)]) := fun t ht => by
    simp only [nums, List.map_append, List.map_cons, List.map_nil, List.mem_append, List.mem_singleton, not_or]
    exact ⟨(hts t ht).2.1, hne t ht⟩
  have hin : n ∈ nums (l' ++ [(n, m)]) := by simp
  refine ⟨hi, fun t ht => ?_, ?_, fun i hi' => ?_, fun t ht => ?_, ?_⟩
  · rcases hc with ⟨r, h1, _⟩ | ⟨t', h1, _⟩
    · rw [h1] at ht; exact (hts t ht).1
    · rw [h1] at ht
      rcases List.mem_append.mp ht with ht | ht
      · exact (hts t ht).1
      · rw [List.mem_singleton.mp ht]; exact hlt
  · rcases hc with ⟨r, h1, _⟩ | ⟨t, h1, _⟩
    · rw [h1]; exact hnd.2
    · rw [h1, List.map_append, List.nodup_append]
      refine ⟨hnd.2, by simp, fun a ha b hb => ?_⟩
      rw [List.map_singleton, List.mem_singleton] at hb
      subst hb
      exact fun he => hnd.1 (he ▸ ha)
  · simp only [nums, List.map_append, List.map_cons, List.map_nil, List.mem_append, List.mem_singleton] at hi'
    rcases hi' with hi' | rfl
    · exact hown i hi'
    · exact hlt
  · rcases hc with ⟨r, h1, _⟩ | ⟨t', h1, _, h3, _⟩
    · rw [h1] at ht
      simp only [hnot t ht, decide_false]
      exact (hts t ht).2.2
    · rw [h1] at ht
      rcases List.mem_append.mp ht with ht | ht
      · simp only [hnot t ht, decide_false]
        exact (hts t ht).2.2
      · rw [List.mem_singleton.mp ht]
        simp only [hin, decide_true]
        exact h3
  · rcases hc with ⟨r, h1, h2, h3⟩ | ⟨t', h1, h2, _, h4⟩
    · refine ⟨_, h2, fun d hd => ?_, Or.inl ⟨fun t ht => hnot t (h1 ▸ ht), hcg.finish hm (fun d hd => (hnew d hd).2) h3⟩⟩
      rcases List.mem_append.mp hd with hd | hd
      · exact (hnew d hd).1
      · rw [List.mem_singleton.mp hd]; exact hlt
    · refine ⟨_, h2, fun d hd => (hnew d hd).1, Or.inr ⟨l', n, m, t', w1, tr, P, rfl, hn, hm, by rw [h1]; simp, fun x hx => ?_, fun d hd => (hnew d hd).2, hcg, h4⟩⟩
      rw [h1] at hx
      rcases List.mem_append.mp hx with hx | hx
      · exact (hts x hx).2.1
      · rw [List.mem_singleton.mp hx]; exact hn

theorem Sim.start_other {s0 s : Sys} {l : List (Nat × Msg)} (h : Sim cfg M s0 l s) (o : Oracle) {m : Msg} (hm : m.other cfg M) :
    Sim cfg M s0 l (sysStep cfg s o (.start m)) := by
  have ho := Piece.orc (b := false) h.inv o
  have ht : TameT false cfg M (m.prog cfg) { s.w with orc := o } := Tm.other m _ hm ho.inv.1 ho.inv.2
  obtain ⟨h1, h2, h3⟩ := runSync_piece (b := false) s.next (s := { s with w := { s.w with orc := o }, next := s.next + 1 }) ho.inv ht
  have hs : sysStep cfg s o (.start m) = Conc.runSync machine s.next (m.prog cfg) { s with w := { s.w with orc := o }, next := s.next + 1 } := rfl
  rw [hs]
  refine h.others (id := s.next) (ts := s.tasks) (fun hn => Nat.lt_irrefl _ (h.own _ hn)) (by rw [h2]; exact Nat.lt_succ_self _) (fun _ h => h) (fun _ h _ => h) ?_
    (by rw [h2]; exact Nat.le_succ _) (ho.trans h1) ?_
  · rw [List.nodup_cons]
    refine ⟨fun hn => ?_, h.nodup⟩
    obtain ⟨t, ht, he⟩ := List.mem_map.mp hn
    exact Nat.lt_irrefl _ (he ▸ h.tasks t ht)
  · rcases h3 with ⟨r, g1, g2, _⟩ | ⟨t, g1, g2, g3, _⟩
    · exact Or.inl ⟨r, g1, g2⟩
    · exact Or.inr ⟨t, g1, g2, g3⟩

theorem Sim.start_own {s0 s : Sys} {l : List (Nat × Msg)} (h : Sim cfg M s0 l s) (o : Oracle) {m : Msg} (hm : m.mine M) (hq : ∀ t ∈ s.tasks, t.1 ∉ nums l) :
    Sim cfg M s0 (l ++ [(s.next, m)]) (sysStep cfg s o (.start m)) := by
  have ho := Piece.orc (b := true) h.inv o
  have ho' := Piece.orc (b := false) h.inv o
  have ht : TameT true cfg M (m.prog cfg) { s.w with orc := o } := Tm.mine m _ hm ho.inv.1 ho.inv.2
  obtain ⟨h1, h2, h3⟩ := runSync_piece (b := true) s.next (s := { s with w := { s.w with orc := o }, next := s.next + 1 }) ho.inv ht
  have hs : sysStep cfg s o (.start m) = Conc.runSync machine s.next (m.prog cfg) { s with w := { s.w with orc := o }, next := s.next + 1 } := rfl
  rw [hs]
  obtain ⟨new, hdone, hnew, hst⟩ := h.state
  obtain ⟨tr, P, hcg⟩ : ∃ tr P, Caught cfg M s0 l s.w new tr P := by
    rcases hst with ⟨_, h⟩ | ⟨l', n, m, t, w1, tr, P, rfl, h2, h3, h4, _⟩
    · exact h
    · exact absurd (by simp) (hq _ h4)
  have hnext : (Conc.runSync machine s.next (m.prog cfg) { s with w := { s.w with orc := o }, next := s.next + 1 }).next = s.next + 1 := h2
  refine Sim.mine (n := s.next) (ts := s.tasks) (w1 := s.w) hm (fun hn => Nat.lt_irrefl _ (h.own _ hn)) (fun t ht => ⟨?_, hq t ht, ?_⟩) ?_ (by rw [hnext]; exact Nat.lt_succ_self _)
    (fun i hi => by rw [hnext]; exact Nat.lt_succ_of_lt (h.own i hi)) (fun d hd => ⟨by rw [hnext]; exact Nat.lt_succ_of_lt (hnew d hd), Nat.ne_of_lt (hnew d hd)⟩) hcg h1.inv ?_
  · rw [hnext]; exact Nat.lt_succ_of_lt (h.tasks t ht)
  · have := h.tame t ht
    simp only [hq t ht, decide_false] at this
    exact Tame.later (ho.keep.trans h1.keep) (ho.unborn.trans h1.unborn) this
  · rw [List.nodup_cons]
    refine ⟨fun hn => ?_, h.nodup⟩
    obtain ⟨t, ht, he⟩ := List.mem_map.mp hn
    exact Nat.lt_irrefl _ (he ▸ h.tasks t ht)
  · rcases h3 with ⟨r, g1, g2, g3⟩ | ⟨t, g1, g2, g3, g4⟩
    · exact Or.inl ⟨r, g1, by rw [g2]; show s.done ++ _ = _; rw [hdone, List.append_assoc], .weaken (ho'.apart rfl) g3⟩
    · exact Or.inr ⟨t, g1, by rw [g2]; exact hdone, g3, fun r x hr => .weaken (ho'.apart rfl) (g4 r x hr)⟩

/-- A suspended handler goes on: `s'` is the state after it, `sus` what it was before. -/
theorem Sim.goon {s0 s s' : Sys} {l : List (Nat × Msg)} (h : Sim cfg M s0 l s) {n : Nat} {sus : Susp Cmd Err (Option Str)} {ts : List (Nat × Susp Cmd Err (Option Str))}
    (ht : Conc.takeTask n s.tasks = some (sus, ts)) (hnext : s'.next = s.next)
    (hstep : ∀ b, TameT b cfg M (rest sus) s.w → Piece b cfg M s.w s'.w ∧
      ((∃ r, s'.tasks = ts ∧ s'.done = s.done ++ [(n, r)] ∧ Itf cfg M (rest sus) s.w r s'.w) ∨
        ∃ t, s'.tasks = ts ++ [(n, t)] ∧ s'.done = s.done ∧ TameT b cfg M (rest t) s'.w ∧ ∀ r x, Itf cfg M (rest t) s'.w r x → Itf cfg M (rest sus) s.w r x)) :
    Sim cfg M s0 l s' := by
  have hperm := takeTask_perm ht
  have hmem : (n, sus) ∈ s.tasks := hperm.mem_iff.mpr (by simp)
  have hts : ∀ t ∈ ts, t ∈ s.tasks := fun t ht => hperm.mem_iff.mpr (by simp [ht])
  have hnd : (n :: ts.map Prod.fst).Nodup := by
    have := (hperm.map Prod.fst).nodup_iff.mp h.nodup
    simpa using this
  have htame := h.tame _ hmem
  obtain ⟨hp, hc⟩ := hstep _ htame
  by_cases hn : n ∈ nums l
  · simp only [hn, decide_true] at hp hc
    obtain ⟨new, hdone, hnew, hst⟩ := h.state
    rcases hst with ⟨h1, _⟩ | ⟨l', n', m, t, w1, tr, P, rfl, h2, h3, h4, h5, h6, h7, h8⟩
    · exact absurd hn (h1 _ hmem)
    · have hnn : n = n' := by
        simp only [nums, List.map_append, List.map_cons, List.map_nil, List.mem_append, List.mem_singleton] at hn
        rcases hn with hn | hn
        · exact absurd hn (h5 _ hmem)
        · exact hn
      subst hnn
      have hsus : t = sus := by
        rw [List.nodup_cons] at hnd
        rcases List.mem_cons.mp (hperm.mem_iff.mp h4) with he | he
        · simpa using he
        · exact absurd (List.mem_map_of_mem (f := Prod.fst) he) hnd.1
      subst hsus
      have hne : ∀ x ∈ ts, x.1 ≠ n := fun x hx he => by
        rw [List.nodup_cons] at hnd
        exact hnd.1 (he ▸ List.mem_map_of_mem hx)
      refine Sim.mine (n := n) (ts := ts) (w1 := w1) h3 h2 (fun x hx => ⟨?_, h5 x (hts x hx), ?_⟩) hnd (by rw [hnext]; exact h.own n (by simp))
        (fun i hi => by rw [hnext]; exact h.own i (by simp only [nums, List.map_append, List.mem_append]; exact Or.inl hi))
        (fun d hd => ⟨by rw [hnext]; exact hnew d hd, h6 d hd⟩) h7 hp.inv ?_
      · rw [hnext]; exact h.tasks x (hts x hx)
      · have hx' : x.1 ∉ nums (l' ++ [(n, m)]) := by
          simp only [nums, List.map_append, List.map_cons, List.map_nil, List.mem_append, List.mem_singleton, not_or]
          exact ⟨h5 x (hts x hx), hne x hx⟩
        have := h.tame x (hts x hx)
        simp only [hx', decide_false] at this
        exact Tame.later hp.keep hp.unborn this
      · rcases hc with ⟨r, g1, g2, g3⟩ | ⟨t', g1, g2, g3, g4⟩
        · exact Or.inl ⟨r, g1, by rw [g2, hdone, List.append_assoc], h8 r _ g3⟩
        · exact Or.inr ⟨t', g1, g2.trans hdone, g3, fun r x hr => h8 r x (g4 r x hr)⟩
  · simp only [hn, decide_false] at hp hc
    refine h.others (id := n) (ts := ts) hn (by rw [hnext]; exact h.tasks _ hmem) hts (fun t ht hl => ?_) hnd (Nat.le_of_eq hnext.symm) hp ?_
    · rcases List.mem_cons.mp (hperm.mem_iff.mp ht) with he | he
      · rw [he] at hl; exact absurd hl hn
      · exact he
    · rcases hc with ⟨r, g1, g2, _⟩ | ⟨t, g1, g2, g3, _⟩
      · exact Or.inl ⟨r, g1, g2⟩
      · exact Or.inr ⟨t, g1, g2, g3⟩

/-- Only the choices of the environment changed. -/
theorem Sim.idle {s0 s : Sys} {l : List (Nat × Msg)} (h : Sim cfg M s0 l s) (o : Oracle) : Sim cfg M s0 l { s with w := { s.w with orc := o } } := by
  have ho := Piece.orc (b := false) h.inv o
  obtain ⟨new, hdone, hnew, hst⟩ := h.state
  refine ⟨ho.inv, h.tasks, h.nodup, h.own, fun t ht => Tame.later ho.keep ho.unborn (h.tame t ht), new, hdone, hnew, ?_⟩
  rcases hst with ⟨h1, tr, P, h2⟩ | ⟨l', n', m, t, w1, tr, P, rfl, h2, h3, h4, h5, h6, h7, h8⟩
  · exact Or.inl ⟨h1, tr, P, h2.apart (ho.apart rfl)⟩
  · exact Or.inr ⟨l', n', m, t, w1, tr, P, rfl, h2, h3, h4, h5, h6, h7, fun r x hr => h8 r x (.weaken (ho.apart rfl) hr)⟩

theorem Sim.perform {s0 s : Sys} {l : List (Nat × Msg)} (h : Sim cfg M s0 l s) (o : Oracle) (n : Nat) : Sim cfg M s0 l (sysStep cfg s o (.perform n)) := by
  have ho := h.idle o
  simp only [sysStep, Conc.step]
  cases ht : Conc.takeTask n s.tasks with
  | none => exact ho
  | some x =>
    obtain ⟨sus, ts⟩ := x
    cases sus with
    | performed p => exact ho
    | waiting c k =>
      refine ho.goon (sus := .waiting c k) (ts := ts) ht rfl fun b htm => ?_
      obtain ⟨hf, hk⟩ := htm _ (.refl _) (.refl _) ho.inv.1 ho.inv.2
      exact ⟨.exec ho.inv c hf, Or.inr ⟨_, rfl, rfl, hk, fun r x hr => .cmd ⟨.refl _, ho.inv⟩ hr⟩⟩

theorem Sim.resume {s0 s : Sys} {l : List (Nat × Msg)} (h : Sim cfg M s0 l s) (o : Oracle) (n : Nat) : Sim cfg M s0 l (sysStep cfg s o (.resume n)) := by
  have ho := h.idle o
  simp only [sysStep, Conc.step]
  cases ht : Conc.takeTask n s.tasks with
  | none => exact ho
  | some x =>
    obtain ⟨sus, ts⟩ := x
    cases sus with
    | waiting c k => exact ho
    | performed p =>
      have hn : ∀ (q : Prog (Option Str)) (c : Sys), (Conc.runSync machine n q c).next = c.next := by
        intro q
        induction q with
        | pure a => intro c; rfl
        | throw e => intro c; rfl
        | cmd c k ih => intro s; simp only [Conc.runSync]; split <;> first | rfl | exact ih _ _
      refine ho.goon (sus := .performed p) (ts := ts) ht (hn _ _) fun b htm => ?_
      obtain ⟨h1, _, h3⟩ := runSync_piece (b := b) n (p := p) (s := { s with w := { s.w with orc := o }, tasks := ts }) ho.inv htm
      exact ⟨h1, h3⟩

theorem Turns.sim {s0 s : Sys} {l : List (Nat × Msg)} (hi : Inv2 cfg M s0.w) (ht : s0.tasks = []) (hm : ∃ P, Mir M P s0.w (s0.w.alone M)) (h : Turns cfg M s0 l s) :
    Sim cfg M s0 l s := by
  induction h with
  | nil => exact Sim.nil hi ht hm
  | other _ o m hm ih => exact ih.start_other o hm
  | own _ o m hm hq ih => exact ih.start_own o hm hq
  | perform _ o n ih => exact ih.perform o n
  | resume _ o n ih => exact ih.resume o n

theorem dget_filter {κ ν : Type} [DecidableEq κ] {d : List (κ × ν)} {p : κ → Prop} [DecidablePred p] {k : κ} (hk : p k) :
    dget (d.filter fun e => decide (p e.1)) k = dget d k := by
  induction d with
  | nil => rfl
  | cons e d ih =>
    obtain ⟨k', v⟩ := e
    by_cases hp : p k'
    · rw [List.filter_cons_of_pos (by simpa using hp)]
      simp only [dget, ih]
    · rw [List.filter_cons_of_neg (by simpa using hp), ih]
      simp only [dget]
      rw [if_neg]
      rintro rfl
      exact hp hk

/-- The connection alone, at the start. -/
theorem Mir.alone {w : World} (h : Inv2 cfg M w) : ∃ P, Mir M P w (w.alone M) := by
  refine ⟨⟨(dget w.ccache M.cid).toList.map fun i => (i, i), (M.segs.filterMap fun c => dget w.scache c).map fun i => (i, i)⟩, rfl, rfl, ?_, ?_, ?_, ?_, ?_, ?_, rfl⟩
  · intro p hp
    obtain ⟨i, hi, rfl⟩ := List.mem_map.mp hp
    have hd : dget w.ccache M.cid = some i := by simpa using hi
    obtain ⟨o, h1, h2, h3⟩ := h.1.ccache M.cid i hd
    exact ⟨o, h1, h1, h2, (isC_key h.1 h.2 ⟨o, h1, h2, rfl⟩).mpr h3⟩
  · intro p hp
    obtain ⟨i, hi, rfl⟩ := List.mem_map.mp hp
    obtain ⟨c, hc, hd⟩ := List.mem_filterMap.mp hi
    obtain ⟨o, h1, h2, h3⟩ := h.1.scache c i hd
    exact ⟨o, h1, h1, h2, (h.2.sobj i o h1).mpr (h3 ▸ hc)⟩
  · intro p hp q hq
    obtain ⟨i, _, rfl⟩ := List.mem_map.mp hp
    obtain ⟨j, _, rfl⟩ := List.mem_map.mp hq
    exact Iff.rfl
  · intro p hp q hq
    obtain ⟨i, _, rfl⟩ := List.mem_map.mp hp
    obtain ⟨j, _, rfl⟩ := List.mem_map.mp hq
    exact Iff.rfl
  · simp only [World.alone]
    rw [dget_filter (p := fun k => k = M.cid) rfl]
    cases hd : dget w.ccache M.cid with
    | none => exact Or.inl ⟨rfl, rfl⟩
    | some i => exact Or.inr ⟨i, i, rfl, rfl, by simp⟩
  · intro c hc
    simp only [World.alone]
    rw [dget_filter (p := fun k => k ∈ M.segs) hc]
    cases hd : dget w.scache c with
    | none => exact Or.inl ⟨rfl, rfl⟩
    | some i =>
      refine Or.inr ⟨i, i, rfl, rfl, ?_⟩
      simp only [List.mem_map, List.mem_filterMap, Prod.mk.injEq]
      exact ⟨i, ⟨c, hc, hd⟩, rfl, rfl⟩

end OpenNSA.Agg
