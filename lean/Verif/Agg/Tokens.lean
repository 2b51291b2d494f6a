import Verif.Agg.SegIds
import Verif.Agg.Kinds
/-
Counting under interleaving. A measure `μ` of the state may be increased by a coroutine only as far as it holds tokens; a message
brings tokens with it when it is started, and a coroutine that decreases the measure gains tokens. So the measure never exceeds the
number of tokens brought in (`G` is a bound on it). `J` and `K` are facts about states and state changes established before.
-/
namespace OpenNSA.Agg
open OpenNSA Py Coro

section
variable (J : World → Prop) (K : World → World → Prop) (I : World → Prop) (μ : World → Int) (G : Int)

/-- The coroutine, holding `n` tokens in state `w`, keeps `I` and never owes tokens when it is suspended or ends. -/
def TS {α : Type} : Prog α → Int → World → (α → Int → World → Prop) → Prop
  | .pure a, n, w, Q => Q a n w
  | .throw _, n, w, _ => I w ∧ 0 ≤ n
  | .cmd c k, n, w, Q =>
    if Cmd.isAsync c then
      I w ∧ 0 ≤ n ∧ ∀ w1, K w w1 → J w1 → I w1 → μ w1 + n ≤ G →
        (I (exec w1 c).1 ∧ 0 ≤ n - (μ (exec w1 c).1 - μ w1) ∧ ∀ w2, K (exec w1 c).1 w2 → J w2 → I w2 →
          μ w2 + (n - (μ (exec w1 c).1 - μ w1)) ≤ G → TS (k (exec w1 c).2) (n - (μ (exec w1 c).1 - μ w1)) w2 Q)
    else TS (k (exec w c).2) (n - (μ (exec w c).1 - μ w)) (exec w c).1 Q

variable {J K I μ G}

theorem TS.mono {α : Type} {p : Prog α} : ∀ {n : Int} {w : World} {Q Q' : α → Int → World → Prop}, TS J K I μ G p n w Q →
    (∀ a n v, Q a n v → Q' a n v) → TS J K I μ G p n w Q' := by
  induction p with
  | pure a => intro n w Q Q' h hq; exact hq _ _ _ h
  | throw e => intro n w Q Q' h _; exact h
  | cmd c k ih =>
    intro n w Q Q' h hq
    simp only [TS] at h ⊢
    split
    · rename_i hc
      rw [if_pos hc] at h
      refine ⟨h.1, h.2.1, fun w1 h1 h2 h3 h4 => ?_⟩
      have h' := h.2.2 w1 h1 h2 h3 h4
      exact ⟨h'.1, h'.2.1, fun w2 g1 g2 g3 g4 => ih _ (h'.2.2 w2 g1 g2 g3 g4) hq⟩
    · rename_i hc
      rw [if_neg hc] at h
      exact ih _ h hq

theorem TS.bind {α β : Type} {p : Prog α} {f : α → Prog β} : ∀ {n : Int} {w : World} {Q : β → Int → World → Prop},
    TS J K I μ G p n w (fun a n v => TS J K I μ G (f a) n v Q) → TS J K I μ G (p.bind f) n w Q := by
  induction p with
  | pure a => intro n w Q h; exact h
  | throw e => intro n w Q h; exact h
  | cmd c k ih =>
    intro n w Q h
    simp only [TS, Coro.bind] at h ⊢
    split
    · rename_i hc
      rw [if_pos hc] at h
      refine ⟨h.1, h.2.1, fun w1 h1 h2 h3 h4 => ?_⟩
      have h' := h.2.2 w1 h1 h2 h3 h4
      exact ⟨h'.1, h'.2.1, fun w2 g1 g2 g3 g4 => ih _ (h'.2.2 w2 g1 g2 g3 g4)⟩
    · rename_i hc
      rw [if_neg hc] at h
      exact ih _ h

theorem TS.bind' {α β : Type} {p : Prog α} {f : α → Prog β} {n : Int} {w : World} {Q : β → Int → World → Prop}
    (h : TS J K I μ G p n w (fun a n v => TS J K I μ G (f a) n v Q)) : TS J K I μ G (p >>= f) n w Q := TS.bind h

/-- At the end of a coroutine. -/
def TPost (I : World → Prop) {α : Type} : α → Int → World → Prop := fun _ n w => I w ∧ 0 ≤ n

/-- A coroutine none of whose commands matters. -/
theorem TS.quiet {α : Type} {p : Prog α} (hp : Issues (fun c => ∀ w, I w → I (exec w c).1 ∧ μ (exec w c).1 ≤ μ w) p) :
    ∀ {n : Int} {w : World}, I w → 0 ≤ n → TS J K I μ G p n w (fun _ n' v => I v ∧ n ≤ n') := by
  induction p with
  | pure a => intro n w hi hn; exact ⟨hi, Int.le_refl _⟩
  | throw e => intro n w hi hn; exact ⟨hi, hn⟩
  | cmd c k ih =>
    intro n w hi hn
    simp only [Issues] at hp
    simp only [TS]
    split
    · refine ⟨hi, hn, fun w1 _ _ h3 _ => ?_⟩
      have h := hp.1 w1 h3
      refine ⟨h.1, by omega, fun w2 _ _ g3 _ => ?_⟩
      exact TS.mono (ih _ (hp.2 _) g3 (by omega)) fun a n' v h' => ⟨h'.1, by have := h'.2; omega⟩
    · have h := hp.1 w hi
      exact TS.mono (ih _ (hp.2 _) h.1 (by omega)) fun a n' v h' => ⟨h'.1, by have := h'.2; omega⟩

/-- A suspended coroutine holding tokens. -/
def TSTask (J : World → Prop) (K : World → World → Prop) (I : World → Prop) (μ : World → Int) (G : Int) (w : World) (n : Int) :
    Susp Cmd Err (Option Str) → Prop
  | .waiting c k => 0 ≤ n ∧ ∀ w1, K w w1 → J w1 → I w1 → μ w1 + n ≤ G →
        (I (exec w1 c).1 ∧ 0 ≤ n - (μ (exec w1 c).1 - μ w1) ∧ ∀ w2, K (exec w1 c).1 w2 → J w2 → I w2 →
          μ w2 + (n - (μ (exec w1 c).1 - μ w1)) ≤ G → TS J K I μ G (k (exec w1 c).2) (n - (μ (exec w1 c).1 - μ w1)) w2 (TPost I))
  | .performed p => 0 ≤ n ∧ ∀ w2, K w w2 → J w2 → I w2 → μ w2 + n ≤ G → TS J K I μ G p n w2 (TPost I)

theorem TSTask.nonneg {w : World} {n : Int} {t : Susp Cmd Err (Option Str)} (h : TSTask J K I μ G w n t) : 0 ≤ n := by
  cases t with
  | waiting c k => exact h.1
  | performed p => exact h.1

theorem TSTask.later {w w' : World} (htr : ∀ a b c, K a b → K b c → K a c) (hk : K w w') {n : Int} {t : Susp Cmd Err (Option Str)}
    (h : TSTask J K I μ G w n t) : TSTask J K I μ G w' n t := by
  cases t with
  | waiting c k => exact ⟨h.1, fun w1 h1 => h.2 w1 (htr _ _ _ hk h1)⟩
  | performed p => exact ⟨h.1, fun w1 h1 => h.2 w1 (htr _ _ _ hk h1)⟩

/-- The system: the suspended coroutines hold tokens, which together with the measure are at most `T`. -/
structure TSys (J : World → Prop) (K : World → World → Prop) (I : World → Prop) (μ : World → Int) (G T : Int) (s : Sys) : Prop where
  safe : SafeSys J K s
  inv : I s.w
  tok : ∃ ns : List Int, List.Forall₂ (fun t n => TSTask J K I μ G s.w n t.2) s.tasks ns ∧ μ s.w + ns.sum ≤ T

theorem sum_nonneg {w : World} : ∀ {ts : List (Nat × Susp Cmd Err (Option Str))} {ns : List Int},
    List.Forall₂ (fun t n => TSTask J K I μ G w n t.2) ts ns → 0 ≤ ns.sum
  | _, _, .nil => by simp
  | _, _, .cons h t => by
    have := sum_nonneg t
    have := h.nonneg
    simp only [List.sum_cons]
    omega

theorem forall₂_later {w w' : World} (htr : ∀ a b c, K a b → K b c → K a c) (hk : K w w') {ts : List (Nat × Susp Cmd Err (Option Str))} {ns : List Int}
    (h : List.Forall₂ (fun t n => TSTask J K I μ G w n t.2) ts ns) : List.Forall₂ (fun t n => TSTask J K I μ G w' n t.2) ts ns :=
  h.imp fun _ _ h => h.later htr hk

/-- Taking a task out of the list. -/
theorem takeTask_forall₂ {w : World} {id : Nat} : ∀ {l : List (Nat × Susp Cmd Err (Option Str))} {ns : List Int} {t : Susp Cmd Err (Option Str)}
    {rest : List (Nat × Susp Cmd Err (Option Str))}, List.Forall₂ (fun t n => TSTask J K I μ G w n t.2) l ns → Conc.takeTask id l = some (t, rest) →
    ∃ n ns', TSTask J K I μ G w n t ∧ List.Forall₂ (fun t n => TSTask J K I μ G w n t.2) rest ns' ∧ ns.sum = n + ns'.sum
  | _, _, _, _, .nil, h => by simp [Conc.takeTask] at h
  | _, _, t, rest, @List.Forall₂.cons _ _ _ x n l ns hx hl, h => by
    simp only [Conc.takeTask] at h
    split at h
    · simp only [Option.some.injEq, Prod.mk.injEq] at h
      obtain ⟨rfl, rfl⟩ := h
      exact ⟨n, ns, hx, hl, by simp⟩
    · cases hr : Conc.takeTask id l with
      | none => simp [hr] at h
      | some p =>
        rw [hr] at h
        simp only [Option.map_some, Option.some.injEq, Prod.mk.injEq] at h
        obtain ⟨rfl, rfl⟩ := h
        obtain ⟨n', ns', h1, h2, h3⟩ := takeTask_forall₂ hl (t := p.1) (rest := p.2) hr
        exact ⟨n', n :: ns', h1, .cons hx h2, by simp only [List.sum_cons, h3]; omega⟩

/-- Running up to the next suspension. -/
theorem TS.runSync {p : Prog (Option Str)} (id : Nat) : ∀ {n : Int} {s : Sys}, TS J K I μ G p n s.w (TPost I) →
    I (Conc.runSync machine id p s).w ∧ ∃ new ns, (Conc.runSync machine id p s).tasks = s.tasks ++ new ∧
      List.Forall₂ (fun t n => TSTask J K I μ G (Conc.runSync machine id p s).w n t.2) new ns ∧
      μ (Conc.runSync machine id p s).w + ns.sum ≤ μ s.w + n := by
  induction p with
  | pure a => intro n s h; exact ⟨h.1, [], [], by simp [Conc.runSync], .nil, by simp only [Conc.runSync, List.sum_nil]; have := h.2; omega⟩
  | throw e => intro n s h; exact ⟨h.1, [], [], by simp [Conc.runSync], .nil, by simp only [Conc.runSync, List.sum_nil]; have := h.2; omega⟩
  | cmd c k ih =>
    intro n s h
    simp only [TS] at h
    simp only [Conc.runSync]
    by_cases hc : c.isAsync = true
    · rw [if_pos hc] at h
      rw [if_pos (show machine.isAsync c = true from hc)]
      exact ⟨h.1, [(id, .waiting c k)], [n], rfl, .cons h.2 .nil, by simp⟩
    · rw [if_neg hc] at h
      rw [if_neg (show ¬ machine.isAsync c = true from hc)]
      obtain ⟨h1, new, ns, h2, h3, h4⟩ := ih _ (s := { s with w := (exec s.w c).1 }) h
      refine ⟨h1, new, ns, h2, h3, ?_⟩
      have : μ ({ s with w := (exec s.w c).1 } : Sys).w = μ (exec s.w c).1 := rfl
      simp only [machine_exec] at h4 ⊢
      omega

/-- The tokens a scheduling choice brings in. -/
def Conc.Choice.tokens (g : Msg → Int) : Conc.Choice Msg → Int
  | .start m => g m
  | _ => 0

theorem TSys.step {cfg : Cfg} (hrefl : ∀ w, K w w) (htr : ∀ a b c, K a b → K b c → K a c)
    (hoj : ∀ w o, J w → J { w with orc := o }) (hok : ∀ w o, K w { w with orc := o })
    (hj : ∀ (m : Msg) w, J w → Safe J K (m.prog cfg) w w (Post (I := J) (K := K)))
    (hoi : ∀ w o, I w → I { w with orc := o }) (hoμ : ∀ w o, μ { w with orc := o } = μ w) {g : Msg → Int} {T : Int} {s : Sys}
    (h : TSys J K I μ G T s) (o : Oracle) (ch : Conc.Choice Msg) (hT : T + Conc.Choice.tokens g ch ≤ G)
    (hp : ∀ m, ch = .start m → J { s.w with orc := o } → I { s.w with orc := o } → μ { s.w with orc := o } + g m ≤ G →
      TS J K I μ G (m.prog cfg) (g m) { s.w with orc := o } (TPost I)) : TSys J K I μ G (T + Conc.Choice.tokens g ch) (sysStep cfg s o ch) := by
  obtain ⟨hs1, hk⟩ := h.safe.step hrefl htr hoj hok hj o ch
  suffices hh : I (sysStep cfg s o ch).w ∧ ∃ ns : List Int,
      List.Forall₂ (fun t n => TSTask J K I μ G (sysStep cfg s o ch).w n t.2) (sysStep cfg s o ch).tasks ns ∧
      μ (sysStep cfg s o ch).w + ns.sum ≤ T + Conc.Choice.tokens g ch from ⟨hs1, hh.1, hh.2⟩
  have hi := hoi _ o h.inv
  have hjo := hoj _ o h.safe.1
  have hko := hok s.w o
  have hμ := hoμ s.w o
  obtain ⟨ns, hns, hsum⟩ := h.tok
  have hpos := sum_nonneg hns
  have hstep : sysStep cfg s o ch = Conc.step machine (Msg.prog cfg) { s with w := { s.w with orc := o } } ch := rfl
  rw [hstep] at hk ⊢
  generalize hwo : ({ s.w with orc := o } : World) = wo at *
  have hns' := forall₂_later htr hko hns
  cases ch with
  | start q =>
    simp only [Conc.Choice.tokens] at hT ⊢
    have ht := hp q rfl hjo hi (by omega)
    obtain ⟨h1, new, ns2, h2, h3, h4⟩ := TS.runSync s.next (s := { s with w := wo, next := s.next + 1 }) ht
    refine ⟨h1, ns ++ ns2, ?_, ?_⟩
    · simp only [Conc.step] at hk ⊢
      rw [h2]
      exact List.rel_append (forall₂_later htr hk hns) h3
    · rw [List.sum_append]
      have h4' : μ (Conc.step machine (Msg.prog cfg) { s with w := wo } (.start q)).w + ns2.sum ≤ μ wo + g q := h4
      omega
  | perform n =>
    simp only [Conc.Choice.tokens, Int.add_zero] at hT ⊢
    simp only [Conc.step] at hk ⊢
    cases hq : Conc.takeTask n s.tasks with
    | none => exact ⟨hi, ns, hns', by simp only; omega⟩
    | some x =>
      obtain ⟨t, rest⟩ := x
      cases t with
      | performed p => exact ⟨hi, ns, hns', by simp only; omega⟩
      | waiting c k =>
        obtain ⟨n1, ns1, h1, h2, h3⟩ := takeTask_forall₂ hns hq
        rw [hq] at hk
        simp only at hk ⊢
        have hpos1 := sum_nonneg h2
        obtain ⟨h4, h5, h6⟩ := h1.2 wo hko hjo hi (by omega)
        refine ⟨h4, ns1 ++ [n1 - (μ (exec wo c).1 - μ wo)], ?_, ?_⟩
        · exact List.rel_append (forall₂_later htr hk h2) (.cons ⟨h5, h6⟩ .nil)
        · rw [List.sum_append, List.sum_singleton, machine_exec]
          omega
  | resume n =>
    simp only [Conc.Choice.tokens, Int.add_zero] at hT ⊢
    simp only [Conc.step] at hk ⊢
    cases hq : Conc.takeTask n s.tasks with
    | none => exact ⟨hi, ns, hns', by simp only; omega⟩
    | some x =>
      obtain ⟨t, rest⟩ := x
      cases t with
      | waiting c k => exact ⟨hi, ns, hns', by simp only; omega⟩
      | performed p =>
        obtain ⟨n1, ns1, h1, h2, h3⟩ := takeTask_forall₂ hns hq
        rw [hq] at hk
        simp only at hk ⊢
        have hpos1 := sum_nonneg h2
        have ht := h1.2 wo hko hjo hi (by omega)
        obtain ⟨g1, new, ns2, g2, g3, g4⟩ := TS.runSync n (s := { s with w := wo, tasks := rest }) ht
        refine ⟨g1, ns1 ++ ns2, ?_, ?_⟩
        · rw [g2]
          exact List.rel_append (forall₂_later htr hk h2) g3
        · rw [List.sum_append]
          simp only at g4
          omega

end

/-! ### What is only ever added to -/

/-- Messages are only added. -/
def Grow (w w' : World) : Prop := w.sent <+: w'.sent ∧ w.outbox <+: w'.outbox

theorem Grow.refl (w : World) : Grow w w := ⟨List.prefix_refl _, List.prefix_refl _⟩
theorem Grow.trans {a b c : World} (h : Grow a b) (h' : Grow b c) : Grow a c := ⟨h.1.trans h'.1, h.2.trans h'.2⟩

theorem saveS_grow (w : World) (r : Nat) : Grow w (w.saveS r).1 := by
  unfold World.saveS
  split
  · exact .refl w
  · split
    · split <;> exact .refl w
    · exact .refl w

theorem saveSs_grow : ∀ (l : List Nat) (w : World), Grow w (w.saveSs l)
  | [], w => .refl w
  | r :: rs, w => (saveS_grow w r).trans (saveSs_grow rs _)

theorem exec_grow {β : Type} (c : Cmd β) (w : World) : Grow w (exec w c).1 := by
  cases c with
  | findConn cid => simp only [exec]; split <;> exact .refl w
  | findSubs l => simp only [exec]; rw [findSubs_frame]; exact .refl w
  | saveC ref =>
    simp only [exec]
    unfold World.saveC
    split
    · exact .refl w
    · split
      · split <;> exact .refl w
      · exact .refl w
  | saveS ref => exact saveS_grow w ref
  | saveSs refs => exact saveSs_grow refs w
  | newCid => simp only [exec]; split <;> exact .refl w
  | newCorr => simp only [exec]; split <;> exact .refl w
  | acks n => simp only [exec]; rw [acks_frame]; exact .refl w
  | getC ref => simp only [exec]; split <;> exact .refl w
  | setC ref row => simp only [exec]; split <;> exact .refl w
  | getS ref => simp only [exec]; split <;> exact .refl w
  | setS ref row => simp only [exec]; split <;> exact .refl w
  | send x => exact ⟨List.prefix_append _ _, List.prefix_refl _⟩
  | emit o => exact ⟨List.prefix_refl _, List.prefix_append _ _⟩
  | _ => exact .refl w

/-- What the handlers may change while another one is suspended. -/
def Keep2 (w w' : World) : Prop := Keep w w' ∧ Grow w w'

theorem Keep2.refl (w : World) : Keep2 w w := ⟨.refl w, .refl w⟩
theorem Keep2.trans {a b c : World} (h : Keep2 a b) (h' : Keep2 b c) : Keep2 a c := ⟨h.1.trans h'.1, h.2.trans h'.2⟩

theorem Safe.grow {J : World → Prop} {K : World → World → Prop} {α : Type} {p : Prog α} : ∀ {w0 w : World} {Q : α → World → World → Prop},
    Safe J K p w0 w Q → Grow w0 w → Safe J (fun a b => K a b ∧ Grow a b) p w0 w (fun a v0 v => Q a v0 v ∧ Grow v0 v) := by
  induction p with
  | pure a => intro w0 w Q h hg; exact ⟨h, hg⟩
  | throw e => intro w0 w Q h hg; exact ⟨h.1, h.2, hg⟩
  | cmd c k ih =>
    intro w0 w Q h hg
    simp only [Safe] at h ⊢
    split
    · rename_i hc
      rw [if_pos hc] at h
      refine ⟨h.1, ⟨h.2.1, hg⟩, fun w1 h1 h2 => ?_⟩
      have h' := h.2.2 w1 h1.1 h2
      exact ⟨h'.1, ⟨h'.2.1, exec_grow c w1⟩, fun w2 h3 h4 => ih _ (h'.2.2 w2 h3.1 h4) (.refl _)⟩
    · rename_i hc
      rw [if_neg hc] at h
      exact ih _ h (hg.trans (exec_grow c w))

theorem Spec.safe2 {cfg : Cfg} (m : Msg) (w : World) (hi : Ids cfg w) : Safe (Ids cfg) Keep2 (m.prog cfg) w w (Post (I := Ids cfg) (K := Keep2)) :=
  Safe.mono (Safe.grow (Spec.safe m w hi) (.refl w)) fun _ _ _ h => ⟨h.1.1, h.1.2, h.2⟩

theorem Ids.restart {cfg : Cfg} {w : World} (hi : Ids cfg w) : Ids cfg w.restart :=
  ⟨hi.ckeys, hi.ckeyb, hi.ccids, hi.skeys, hi.skeyb, by simp [World.restart], by simp [World.restart], by simp [World.restart, dget],
    by simp [World.restart, dget], hi.sfk, by simp [World.restart], by simp [World.restart], by simp [World.restart], hi.out⟩

theorem Reach.keepSys {cfg : Cfg} {s : Sys} (h : Reach cfg s) : SafeSys (Ids cfg) Keep2 s :=
  h.safeSys (I := Ids cfg) (K := Keep2) Keep2.refl (fun _ _ _ => Keep2.trans) Reach.init.ids Ids.orc
    (fun w _ => ⟨.frame rfl rfl rfl rfl, Grow.refl w⟩) (fun _ => Ids.restart) Spec.safe2

/-! ### Histories -/

/-- The message started by a scheduling choice. -/
def Conc.Choice.msgs : Conc.Choice Msg → List Msg
  | .start m => [m]
  | _ => []

/-- States that can be reached, with the messages received on the way; `restarts` tells whether the process may be restarted. -/
inductive Hist (cfg : Cfg) (restarts : Bool) : List Msg → Sys → Prop
  | init : Hist cfg restarts [] { w := .init }
  | step {ms : List Msg} {s : Sys} (h : Hist cfg restarts ms s) (o : Oracle) (ch : Conc.Choice Msg) :
      Hist cfg restarts (ms ++ Conc.Choice.msgs ch) (sysStep cfg s o ch)
  | restart {ms : List Msg} {s : Sys} (h : Hist cfg restarts ms s) (hr : restarts = true) : Hist cfg restarts ms { w := s.w.restart }

theorem Hist.reach {cfg : Cfg} {b : Bool} {ms : List Msg} {s : Sys} (h : Hist cfg b ms s) : Reach cfg s := by
  induction h with
  | init => exact .init
  | step _ o ch ih => exact ih.step o ch
  | restart _ _ ih => exact ih.restart

theorem Reach.hist {cfg : Cfg} {s : Sys} (h : Reach cfg s) : ∃ ms, Hist cfg true ms s := by
  induction h with
  | init => exact ⟨_, .init⟩
  | step _ o ch ih => exact ⟨_, ih.choose_spec.step o ch⟩
  | restart _ ih => exact ⟨_, ih.choose_spec.restart rfl⟩

theorem tokens_msgs (g : Msg → Int) (ch : Conc.Choice Msg) : ((Conc.Choice.msgs ch).map g).sum = Conc.Choice.tokens g ch := by
  cases ch <;> simp [Conc.Choice.msgs, Conc.Choice.tokens]

/-- The message started by a scheduling choice and the state in which it is received. -/
def Conc.Choice.events (w : World) : Conc.Choice Msg → List (Msg × World)
  | .start m => [(m, w)]
  | _ => []

/-- A history that also records the state in which each message was received. -/
inductive Trace (cfg : Cfg) (restarts : Bool) : List (Msg × World) → Sys → Prop
  | init : Trace cfg restarts [] { w := .init }
  | step {t : List (Msg × World)} {s : Sys} (h : Trace cfg restarts t s) (o : Oracle) (ch : Conc.Choice Msg) :
      Trace cfg restarts (t ++ Conc.Choice.events { s.w with orc := o } ch) (sysStep cfg s o ch)
  | restart {t : List (Msg × World)} {s : Sys} (h : Trace cfg restarts t s) (hr : restarts = true) : Trace cfg restarts t { w := s.w.restart }

theorem events_msgs (w : World) (ch : Conc.Choice Msg) : (Conc.Choice.events w ch).map (·.1) = Conc.Choice.msgs ch := by cases ch <;> rfl

theorem Trace.hist {cfg : Cfg} {b : Bool} {t : List (Msg × World)} {s : Sys} (h : Trace cfg b t s) : Hist cfg b (t.map (·.1)) s := by
  induction h with
  | init => exact .init
  | step _ o ch ih => rw [List.map_append, events_msgs]; exact ih.step o ch
  | restart _ hr ih => exact ih.restart hr

theorem Hist.trace {cfg : Cfg} {b : Bool} {ms : List Msg} {s : Sys} (h : Hist cfg b ms s) : ∃ t, t.map (·.1) = ms ∧ Trace cfg b t s := by
  induction h with
  | init => exact ⟨_, rfl, .init⟩
  | step _ o ch ih => obtain ⟨t, h1, h2⟩ := ih; exact ⟨_, by rw [List.map_append, events_msgs, h1], h2.step o ch⟩
  | restart _ hr ih => obtain ⟨t, h1, h2⟩ := ih; exact ⟨t, h1, h2.restart hr⟩

/-- In every interleaving the measure is at most what it was plus the tokens of the messages received. -/
theorem Trace.tokens {cfg : Cfg} {b : Bool} {I : World → Prop} {μ : World → Int} {g : Msg → Int} {G : Int} {T : List (Msg × World)} (hg : ∀ m, 0 ≤ g m)
    (h0 : I .init) (hoi : ∀ w o, I w → I { w with orc := o }) (hoμ : ∀ w o, μ { w with orc := o } = μ w)
    (hr : b = true → ∀ w, I w → I w.restart ∧ μ w.restart ≤ μ w)
    (hp : ∀ m w, (m, w) ∈ T → Ids cfg w → I w → μ w + g m ≤ G → TS (Ids cfg) Keep2 I μ G (m.prog cfg) (g m) w (TPost I))
    {t : List (Msg × World)} {s : Sys} (h : Trace cfg b t s) (hms : ∀ x ∈ t, x ∈ T) (hG : μ .init + ((t.map (·.1)).map g).sum ≤ G) :
    I s.w ∧ μ s.w ≤ μ .init + ((t.map (·.1)).map g).sum := by
  suffices hh : TSys (Ids cfg) Keep2 I μ G (μ .init + ((t.map (·.1)).map g).sum) s by
    obtain ⟨ns, h1, h2⟩ := hh.tok
    have := sum_nonneg h1
    exact ⟨hh.inv, by omega⟩
  induction h with
  | init => exact ⟨Reach.init.keepSys, h0, [], .nil, by simp⟩
  | @step t s h o ch ih =>
    rw [List.map_append, List.map_append, List.sum_append, events_msgs, tokens_msgs, ← Int.add_assoc] at hG ⊢
    have hpos : 0 ≤ Conc.Choice.tokens g ch := by cases ch <;> simp [Conc.Choice.tokens, hg]
    have hs := ih (fun m hm => hms m (List.mem_append_left _ hm)) (by omega)
    refine hs.step Keep2.refl (fun _ _ _ => Keep2.trans) Ids.orc (fun w _ => ⟨.frame rfl rfl rfl rfl, Grow.refl w⟩) Spec.safe2 hoi hoμ o ch hG ?_
    intro m hm hj hi hμ
    refine hp m _ (hms _ (List.mem_append_right _ ?_)) hj hi hμ
    simp [hm, Conc.Choice.events]
  | @restart t s h hb ih =>
    have hs := ih hms hG
    obtain ⟨ns, h1, h2⟩ := hs.tok
    have := sum_nonneg h1
    have h3 := hr hb _ hs.inv
    exact ⟨⟨hs.safe.1.restart, by simp⟩, h3.1, [], .nil, by have := h3.2; simp only [List.sum_nil]; omega⟩

/-- The same without the states. -/
theorem Hist.tokens {cfg : Cfg} {b : Bool} {I : World → Prop} {μ : World → Int} {g : Msg → Int} {G : Int} {MS : List Msg} (hg : ∀ m, 0 ≤ g m)
    (h0 : I .init) (hoi : ∀ w o, I w → I { w with orc := o }) (hoμ : ∀ w o, μ { w with orc := o } = μ w)
    (hr : b = true → ∀ w, I w → I w.restart ∧ μ w.restart ≤ μ w)
    (hp : ∀ m ∈ MS, ∀ w, Ids cfg w → I w → μ w + g m ≤ G → TS (Ids cfg) Keep2 I μ G (m.prog cfg) (g m) w (TPost I))
    {ms : List Msg} {s : Sys} (h : Hist cfg b ms s) (hms : ∀ m ∈ ms, m ∈ MS) (hG : μ .init + (ms.map g).sum ≤ G) :
    I s.w ∧ μ s.w ≤ μ .init + (ms.map g).sum := by
  obtain ⟨t, rfl, ht⟩ := h.trace
  exact ht.tokens (T := t) hg h0 hoi hoμ hr (fun m w hm => hp m (hms m (List.mem_map.mpr ⟨_, hm, rfl⟩)) w) (fun _ hx => hx) hG

/-! ### Rules -/

section
variable {J : World → Prop} {K : World → World → Prop} {I : World → Prop} {μ : World → Int} {G : Int}

theorem TS.pure {α : Type} {a : α} {n : Int} {w : World} {Q : α → Int → World → Prop} (h : Q a n w) : TS J K I μ G (Coro.pure a) n w Q := h

theorem TS.throw {α : Type} {e : Err} {n : Int} {w : World} {Q : α → Int → World → Prop} (hi : I w) (hn : 0 ≤ n) :
    TS J K I μ G (Coro.throw e) n w Q := ⟨hi, hn⟩

theorem TS.ofExcept {α : Type} {x : Except Err α} {n : Int} {w : World} {Q : α → Int → World → Prop} (hi : I w) (hn : 0 ≤ n)
    (h : ∀ a, x = .ok a → Q a n w) : TS J K I μ G (Coro.ofExcept x) n w Q := by
  cases x with
  | error e => exact ⟨hi, hn⟩
  | ok a => exact h a rfl

/-- A command without suspension, which may depend on the state. -/
theorem TS.sync {α : Type} {c : Cmd α} {n : Int} {w : World} {Q : α → Int → World → Prop} (hc : c.isAsync = false)
    (he : ∀ e, (exec w c).2 = .error e → I (exec w c).1 ∧ 0 ≤ n - (μ (exec w c).1 - μ w))
    (h : ∀ a, (exec w c).2 = .ok a → Q a (n - (μ (exec w c).1 - μ w)) (exec w c).1) : TS J K I μ G (issue c) n w Q := by
  show TS J K I μ G (.cmd c _) n w Q
  simp only [TS, hc, Bool.false_eq_true, if_false]
  cases hx : (exec w c).2 with
  | error e => exact he e hx
  | ok a => exact h a hx

/-- A coroutine of harmless commands; the measure may go down meanwhile, other coroutines may run. -/
theorem TS.uses {α β : Type} {L : List CKind} {p : Prog α} {f : α → Prog β} {n : Int} {w : World} {Q : β → Int → World → Prop} (hp : Uses L p)
    (hq : ∀ {γ : Type} (c : Cmd γ) w, c.kind ∈ L → I w → I (exec w c).1 ∧ μ (exec w c).1 ≤ μ w) (hi : I w) (hn : 0 ≤ n)
    (h : ∀ a n' w', I w' → n ≤ n' → TS J K I μ G (f a) n' w' Q) : TS J K I μ G (p >>= f) n w Q :=
  TS.bind' (TS.mono (TS.quiet (Issues.mono (fun c hc w => hq c w hc) hp) hi hn) fun a n' v hv => h a n' v hv.1 hv.2)

theorem TS.all {p : Prog (Option Str)} {L : List CKind} {n : Int} {w : World} (hp : Uses L p)
    (hq : ∀ {γ : Type} (c : Cmd γ) w, c.kind ∈ L → I w → I (exec w c).1 ∧ μ (exec w c).1 ≤ μ w) (hi : I w) (hn : 0 ≤ n) :
    TS J K I μ G p n w (TPost I) :=
  TS.mono (TS.quiet (Issues.mono (fun c hc w => hq c w hc) hp) hi hn) fun _ _ _ hv => ⟨hv.1, by have := hv.2; omega⟩

end

/-- Tokens and measure never exceed the bound. -/
theorem TS.bound {J : World → Prop} {K : World → World → Prop} {I : World → Prop} {μ : World → Int} {G : Int} {α : Type} {p : Prog α} :
    ∀ {n : Int} {w : World} {Q : α → Int → World → Prop}, TS J K I μ G p n w Q → μ w + n ≤ G →
    TS J K I μ G p n w (fun a n' v => Q a n' v ∧ μ v + n' ≤ G) := by
  induction p with
  | pure a => intro n w Q h hb; exact ⟨h, hb⟩
  | throw e => intro n w Q h _; exact h
  | cmd c k ih =>
    intro n w Q h hb
    simp only [TS] at h ⊢
    split
    · rename_i hc
      rw [if_pos hc] at h
      refine ⟨h.1, h.2.1, fun w1 h1 h2 h3 h4 => ?_⟩
      have h' := h.2.2 w1 h1 h2 h3 h4
      exact ⟨h'.1, h'.2.1, fun w2 g1 g2 g3 g4 => ih _ (h'.2.2 w2 g1 g2 g3 g4) g4⟩
    · rename_i hc
      rw [if_neg hc] at h
      exact ih _ h (by omega)

theorem TS.grow {J : World → Prop} {K : World → World → Prop} (hK : ∀ a b, K a b → Grow a b) {I : World → Prop} {μ : World → Int} {G : Int}
    {α : Type} {p : Prog α} : ∀ {n : Int} {u w : World} {Q : α → Int → World → Prop}, TS J K I μ G p n w Q → Grow u w →
    TS J K I μ G p n w (fun a n' v => Q a n' v ∧ Grow u v) := by
  induction p with
  | pure a => intro n u w Q h hg; exact ⟨h, hg⟩
  | throw e => intro n u w Q h _; exact h
  | cmd c k ih =>
    intro n u w Q h hg
    simp only [TS] at h ⊢
    split
    · rename_i hc
      rw [if_pos hc] at h
      refine ⟨h.1, h.2.1, fun w1 h1 h2 h3 h4 => ?_⟩
      have h' := h.2.2 w1 h1 h2 h3 h4
      exact ⟨h'.1, h'.2.1, fun w2 g1 g2 g3 g4 =>
        ih _ (h'.2.2 w2 g1 g2 g3 g4) (((hg.trans (hK _ _ h1)).trans (exec_grow c w1)).trans (hK _ _ g1))⟩
    · rename_i hc
      rw [if_neg hc] at h
      exact ih _ h (hg.trans (exec_grow c w))

/-- A coroutine that is safe and whose commands only do what `R` allows. -/
theorem TS.safe {J : World → Prop} {K : World → World → Prop} {I : World → Prop} {μ : World → Int} {G : Int} {R : World → World → Prop}
    (hrefl : ∀ w, R w w) (htr : ∀ a b c, R a b → R b c → R a c) (hI : ∀ w w', K w w' → R w w' → I w → I w')
    (hμ : ∀ w w', R w w' → μ w' ≤ μ w) {α : Type} {p : Prog α} : ∀ {n : Int} {w0 w : World} {Q : α → World → World → Prop},
    Safe J K p w0 w Q → Issues (fun c => ∀ w, R w (exec w c).1) p → I w0 → R w0 w → 0 ≤ n →
    TS J K I μ G p n w (fun a n' v => ∃ v0, Q a v0 v ∧ I v0 ∧ R v0 v ∧ n ≤ n') := by
  induction p with
  | pure a => intro n w0 w Q h _ hi hr hn; exact ⟨w0, h, hi, hr, Int.le_refl _⟩
  | throw e => intro n w0 w Q h _ hi hr hn; exact ⟨hI _ _ h.2 hr hi, hn⟩
  | cmd c k ih =>
    intro n w0 w Q h hu hi hr hn
    simp only [TS]
    simp only [Safe] at h
    simp only [Issues] at hu
    split
    · rename_i hc
      rw [if_pos hc] at h
      refine ⟨hI _ _ h.2.1 hr hi, hn, fun w1 h1 h2 h3 _ => ?_⟩
      have h' := h.2.2 w1 h1 h2
      have hle := hμ _ _ (hu.1 w1)
      refine ⟨hI _ _ h'.2.1 (hu.1 w1) h3, by omega, fun w2 g1 g2 g3 _ => ?_⟩
      exact TS.mono (ih _ (h'.2.2 w2 g1 g2) (hu.2 _) g3 (hrefl _) (by omega)) fun a n' v ⟨v0, q1, q2, q3, q4⟩ => ⟨v0, q1, q2, q3, by omega⟩
    · rename_i hc
      rw [if_neg hc] at h
      have hle := hμ _ _ (hu.1 w)
      exact TS.mono (ih _ h (hu.2 _) hi (htr _ _ _ hr (hu.1 w)) (by omega)) fun a n' v ⟨v0, q1, q2, q3, q4⟩ => ⟨v0, q1, q2, q3, by omega⟩

/-- The same for the specifications of the parts of the handlers. -/
theorem TS.spec {cfg : Cfg} {I : World → Prop} {μ : World → Int} {G : Int} {R : World → World → Prop} {L : List CKind}
    (hrefl : ∀ w, R w w) (htr : ∀ a b c, R a b → R b c → R a c) (hI : ∀ w w', Keep2 w w' → R w w' → I w → I w')
    (hμ : ∀ w w', R w w' → μ w' ≤ μ w) (hR : ∀ {γ : Type} (c : Cmd γ) w, c.kind ∈ L → R w (exec w c).1)
    {α β : Type} {p : Prog α} {f : α → Prog β} {n : Int} {w : World} {Q : α → World → Prop} {Q' : β → Int → World → Prop}
    (hs : Spec cfg p w Q) (hu : Uses L p) (hj : Ids cfg w) (hi : I w) (hn : 0 ≤ n) (hb : μ w + n ≤ G)
    (h : ∀ a n' v, Ids cfg v → Keep2 w v → I v → n ≤ n' → μ v + n' ≤ G → Q a v → TS (Ids cfg) Keep2 I μ G (f a) n' v Q') :
    TS (Ids cfg) Keep2 I μ G (p >>= f) n w Q' := by
  have h1 := Safe.grow (hs hj w (.refl w)) (.refl w)
  have h2 : TS (Ids cfg) Keep2 I μ G p n w _ :=
    TS.safe (K := Keep2) hrefl htr hI hμ h1 (Issues.mono (fun c hc w => hR c w hc) hu) hi (hrefl w) hn
  refine TS.bind' (TS.mono (TS.bound (TS.grow (fun _ _ h => h.2) h2 (.refl w)) hb) ?_)
  rintro a n' v ⟨⟨⟨v0, ⟨⟨q1, q2, q3, q4⟩, q5⟩, q6, q7, q8⟩, q9⟩, q10⟩
  exact h a n' v q1 ⟨q3, q9⟩ (hI _ _ ⟨q2, q5⟩ q7 q6) q8 q10 q4

/-- The same for a whole message. -/
theorem TS.msg {cfg : Cfg} {I : World → Prop} {μ : World → Int} {G : Int} {R : World → World → Prop} {L : List CKind}
    (hrefl : ∀ w, R w w) (htr : ∀ a b c, R a b → R b c → R a c) (hI : ∀ w w', Keep2 w w' → R w w' → I w → I w')
    (hμ : ∀ w w', R w w' → μ w' ≤ μ w) (hR : ∀ {γ : Type} (c : Cmd γ) w, c.kind ∈ L → R w (exec w c).1)
    {m : Msg} {n : Int} {w : World} (hu : ∀ k ∈ m.kinds, k ∈ L) (hj : Ids cfg w) (hi : I w) (hn : 0 ≤ n) :
    TS (Ids cfg) Keep2 I μ G (m.prog cfg) n w (TPost I) := by
  have h1 := Safe.grow (Spec.safe m w hj) (.refl w)
  have h2 : TS (Ids cfg) Keep2 I μ G (m.prog cfg) n w _ :=
    TS.safe (K := Keep2) hrefl htr hI hμ h1 (Issues.mono (fun c hc w => hR c w hc) ((m.uses cfg).mono hu)) hi (hrefl w) hn
  refine TS.mono h2 ?_
  rintro a n' v ⟨v0, ⟨⟨q1, q2⟩, q5⟩, q6, q7, q8⟩
  exact ⟨hI _ _ ⟨q2, q5⟩ q7 q6, by omega⟩

/-- Programs that are never suspended. -/
theorem TS.atomic {J : World → Prop} {K : World → World → Prop} {I : World → Prop} {μ : World → Int} {G : Int} {α : Type} {p : Prog α}
    (hp : Issues (fun c => c.isAsync = false) p) : ∀ {n : Int} {w : World} {Q : α → Int → World → Prop},
    (∀ e, (p.run machine w).2 = .error e → I (p.run machine w).1 ∧ 0 ≤ n - (μ (p.run machine w).1 - μ w)) →
    (∀ a, (p.run machine w).2 = .ok a → Q a (n - (μ (p.run machine w).1 - μ w)) (p.run machine w).1) → TS J K I μ G p n w Q := by
  induction p with
  | pure a =>
    intro n w Q _ h
    have := h a rfl
    simp only [Coro.run, Int.sub_self, Int.sub_zero] at this
    exact this
  | throw e =>
    intro n w Q h _
    have := h e rfl
    simp only [Coro.run, Int.sub_self, Int.sub_zero] at this
    exact this
  | cmd c k ih =>
    intro n w Q h1 h2
    simp only [Issues] at hp
    simp only [TS, hp.1, Bool.false_eq_true, if_false]
    have hrun : (Coro.cmd c k).run machine w = (k (exec w c).2).run machine (exec w c).1 := rfl
    rw [hrun] at h1 h2
    have ha : ∀ x : Int, n - (μ (exec w c).1 - μ w) - (x - μ (exec w c).1) = n - (x - μ w) := by intro x; omega
    refine ih _ (hp.2 _) (fun e he => ?_) fun a ha' => ?_
    · rw [ha]; exact h1 e he
    · rw [ha]; exact h2 a ha'

/-! ### Commands and the books kept in memory -/

/-- What commands of kind `base` leave alone. -/
structure BaseSame (w w' : World) : Prop where
  resv : w'.resv = w.resv
  qreqs : w'.qreqs = w.qreqs
  qcalls : w'.qcalls = w.qcalls
  notif : w'.notif = w.notif
  outbox : w'.outbox = w.outbox
  sent : w'.sent = w.sent

theorem saveS_base (w : World) (r : Nat) : BaseSame w (w.saveS r).1 := by
  unfold World.saveS
  split
  · exact ⟨rfl, rfl, rfl, rfl, rfl, rfl⟩
  · split
    · split <;> exact ⟨rfl, rfl, rfl, rfl, rfl, rfl⟩
    · exact ⟨rfl, rfl, rfl, rfl, rfl, rfl⟩

theorem saveSs_base : ∀ (l : List Nat) (w : World), BaseSame w (w.saveSs l)
  | [], _ => ⟨rfl, rfl, rfl, rfl, rfl, rfl⟩
  | r :: rs, w => by
    have h1 := saveS_base w r
    have h2 := saveSs_base rs (w.saveS r).1
    exact ⟨h2.1.trans h1.1, h2.2.trans h1.2, h2.3.trans h1.3, h2.4.trans h1.4, h2.5.trans h1.5, h2.6.trans h1.6⟩

theorem exec_base {β : Type} (c : Cmd β) (w : World) (hc : c.kind ∈ [CKind.base, .newS, .saveS]) : BaseSame w (exec w c).1 := by
  cases c with
  | findConn cid => simp only [exec]; split <;> exact ⟨rfl, rfl, rfl, rfl, rfl, rfl⟩
  | findSubs l => simp only [exec]; rw [findSubs_frame]; exact ⟨rfl, rfl, rfl, rfl, rfl, rfl⟩
  | saveC ref =>
    simp only [exec]
    unfold World.saveC
    split
    · exact ⟨rfl, rfl, rfl, rfl, rfl, rfl⟩
    · split
      · split <;> exact ⟨rfl, rfl, rfl, rfl, rfl, rfl⟩
      · exact ⟨rfl, rfl, rfl, rfl, rfl, rfl⟩
  | saveS ref => exact saveS_base w ref
  | saveSs refs => exact saveSs_base refs w
  | newCid => simp only [exec]; split <;> exact ⟨rfl, rfl, rfl, rfl, rfl, rfl⟩
  | newCorr => simp only [exec]; split <;> exact ⟨rfl, rfl, rfl, rfl, rfl, rfl⟩
  | acks n => simp only [exec]; rw [acks_frame]; exact ⟨rfl, rfl, rfl, rfl, rfl, rfl⟩
  | getC ref => simp only [exec]; split <;> exact ⟨rfl, rfl, rfl, rfl, rfl, rfl⟩
  | setC ref row => simp only [exec]; split <;> exact ⟨rfl, rfl, rfl, rfl, rfl, rfl⟩
  | getS ref => simp only [exec]; split <;> exact ⟨rfl, rfl, rfl, rfl, rfl, rfl⟩
  | setS ref row => simp only [exec]; split <;> exact ⟨rfl, rfl, rfl, rfl, rfl, rfl⟩
  | send x => obtain ⟨_, _, _, op⟩ := x; cases op <;> simp [Cmd.kind] at hc
  | emit o => cases o <;> simp [Cmd.kind] at hc
  | popResv _ => simp [Cmd.kind] at hc
  | addResv _ _ => simp [Cmd.kind] at hc
  | notifId => simp [Cmd.kind] at hc
  | addQReq _ _ => simp [Cmd.kind] at hc
  | setQCall _ _ _ => simp [Cmd.kind] at hc
  | popQuery _ => simp [Cmd.kind] at hc
  | _ => exact ⟨rfl, rfl, rfl, rfl, rfl, rfl⟩

end OpenNSA.Agg
