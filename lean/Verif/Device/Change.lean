import Verif.Device.Junos
/-
Sequences of set ups and tear downs on a device that is configured with statements.
-/
namespace OpenNSA.Device
open Py

/-! ### Specification -/

/-- A connection of type `C` is set up or taken down. -/
inductive Op (C : Type)
  | up (c : C)
  | down (c : C)
  deriving DecidableEq, Repr

/-- The commands for setting up a connection and for taking it down. -/
structure Dev (C : Type) where
  up : C → List Cmd
  down : C → List Cmd

/-- The configuration after the operations. -/
def Dev.run {C : Type} (d : Dev C) (cfg : List Path) : List (Op C) → List Path
  | [] => cfg
  | .up c :: ops => d.run (runCmds cfg (d.up c)) ops
  | .down c :: ops => d.run (runCmds cfg (d.down c)) ops

/-- The connections that are up after the operations, if those in `l` are up before. -/
def upAfter {C : Type} [DecidableEq C] (l : List C) : List (Op C) → List C
  | [] => l
  | .up c :: ops => upAfter (l ++ [c]) ops
  | .down c :: ops => upAfter (l.erase c) ops

/-- The operations are proper: what is set up is apart from what is up, and what is taken down is up. -/
def Proper {C : Type} [DecidableEq C] (apart : C → C → Prop) (l : List C) : List (Op C) → Prop
  | [] => True
  | .up c :: ops => (∀ x ∈ l, apart x c) ∧ Proper apart (l ++ [c]) ops
  | .down c :: ops => c ∈ l ∧ Proper apart (l.erase c) ops

/-- The connections that the operations are about. -/
def Op.conn {C : Type} : Op C → C
  | .up c => c
  | .down c => c

/-- The command does not touch a statement of `base`. -/
def Spares (base : List Path) (c : Cmd) : Prop := ∀ q ∈ base, c.removes q = false

/-! ### Lemmas -/

/-- The statement that a command sets. -/
def Cmd.adds : Cmd → Option Path
  | .set p => some (canon p)
  | .delete _ => none

theorem mem_run {cfg : List Path} {c : Cmd} {q : Path} :
    q ∈ c.run cfg ↔ (q ∈ cfg ∧ c.removes q = false) ∨ c.adds = some q := by
  unfold Cmd.run
  cases c with
  | set p =>
    simp only [Cmd.adds, Option.some.injEq]
    split
    · rename_i h
      rw [List.contains_iff_mem] at h
      simp only [List.mem_filter, Bool.not_eq_eq_eq_not, Bool.not_true] at h ⊢
      constructor
      · exact Or.inl
      · rintro (h1 | rfl)
        · exact h1
        · exact h
    · simp only [List.mem_append, List.mem_filter, Bool.not_eq_eq_eq_not, Bool.not_true, List.mem_singleton, eq_comm (a := q)]
  | delete p => simp [Cmd.adds]

/-- What survives a list of commands. -/
theorem mem_runCmds_mono {q : Path} {cs : List Cmd} (h : ∀ c ∈ cs, c.removes q = false) :
    ∀ {cfg : List Path}, q ∈ cfg → q ∈ runCmds cfg cs := by
  induction cs with
  | nil => exact fun h => h
  | cons c cs ih =>
    intro cfg hq
    exact ih (fun x hx => h x (List.mem_cons_of_mem _ hx)) (mem_run.2 (Or.inl ⟨hq, h c List.mem_cons_self⟩))

/-- What is set by a list of commands and not removed by it is there afterwards. -/
theorem mem_runCmds_set {q : Path} {cs : List Cmd} (h : ∀ c ∈ cs, c.removes q = false) {a : Cmd} (ha : a ∈ cs) (hq : a.adds = some q) :
    ∀ {cfg : List Path}, q ∈ runCmds cfg cs := by
  induction cs with
  | nil => simp at ha
  | cons c cs ih =>
    intro cfg
    have ht : ∀ c ∈ cs, c.removes q = false := fun x hx => h x (List.mem_cons_of_mem _ hx)
    rcases List.mem_cons.1 ha with rfl | ha
    · exact mem_runCmds_mono ht (mem_run.2 (Or.inr hq))
    · exact ih ht ha

/-- Where a statement comes from. -/
theorem mem_runCmds_from {q : Path} {cs : List Cmd} :
    ∀ {cfg : List Path}, q ∈ runCmds cfg cs → (q ∈ cfg ∧ ∀ c ∈ cs, c.removes q = false) ∨ ∃ a ∈ cs, a.adds = some q := by
  induction cs with
  | nil => exact fun h => Or.inl ⟨h, by simp⟩
  | cons c cs ih =>
    intro cfg h
    rcases ih (cfg := c.run cfg) h with ⟨h1, h2⟩ | ⟨a, ha, hq⟩
    · rcases mem_run.1 h1 with ⟨h3, h4⟩ | h3
      · refine Or.inl ⟨h3, ?_⟩
        intro x hx
        rcases List.mem_cons.1 hx with rfl | hx
        · exact h4
        · exact h2 x hx
      · exact Or.inr ⟨c, List.mem_cons_self, h3⟩
    · exact Or.inr ⟨a, List.mem_cons_of_mem _ ha, hq⟩

/-- What is needed of a device and a way for connections to be apart. `left` are the statements that may be left behind. -/
structure Sound {C : Type} (d : Dev C) (apart : C → C → Prop) (good : C → Prop) (left : Path → Prop) : Prop where
  /-- Setting up a connection sets all its statements. -/
  own : ∀ c, good c → ∀ a ∈ d.up c, ∀ q, a.adds = some q → ∀ b ∈ d.up c, b.removes q = false
  /-- Taking a connection down removes all its statements. -/
  gone : ∀ c, good c → ∀ a ∈ d.up c, ∀ q, a.adds = some q → left q ∨ ∃ b ∈ d.down c, b.removes q = true
  /-- Taking a connection down sets nothing. -/
  quiet : ∀ c, good c → ∀ b ∈ d.down c, b.adds = none
  /-- Nothing is done to connections that are apart. -/
  other : ∀ x c, good x → good c → apart x c ∨ apart c x → ∀ a ∈ d.up x, ∀ q, a.adds = some q →
    (∀ b ∈ d.up c, b.removes q = false) ∧ ∀ b ∈ d.down c, b.removes q = false
  /-- No connection is apart from itself. -/
  irrefl : ∀ c, ¬ apart c c

section
variable {C : Type} [DecidableEq C] {d : Dev C} {apart : C → C → Prop} {good : C → Prop} {left : Path → Prop}

/-- The state of the device: `l` are the connections that are up. -/
structure Inv (d : Dev C) (apart : C → C → Prop) (good : C → Prop) (left : Path → Prop) (base cfg : List Path) (l : List C) : Prop where
  pair : l.Pairwise apart
  good : ∀ c ∈ l, good c
  keeps : ∀ q ∈ base, q ∈ cfg
  sets : ∀ c ∈ l, ∀ a ∈ d.up c, ∀ q, a.adds = some q → q ∈ cfg
  srcs : ∀ q ∈ cfg, q ∈ base ∨ (∃ c ∈ l, ∃ a ∈ d.up c, a.adds = some q) ∨ left q

omit [DecidableEq C] in
theorem Inv.up (hs : Sound d apart good left) {base cfg : List Path} {l : List C} {c : C} (h : Inv d apart good left base cfg l)
    (ha : ∀ x ∈ l, apart x c) (hg : good c) (hb : ∀ b ∈ d.up c, Spares base b) : Inv d apart good left base (runCmds cfg (d.up c)) (l ++ [c]) where
  pair := by
    rw [List.pairwise_append]
    refine ⟨h.pair, List.pairwise_singleton _ _, ?_⟩
    intro x hx y hy
    simp only [List.mem_singleton] at hy; subst hy
    exact ha x hx
  good := by
    intro x hx
    rcases List.mem_append.1 hx with hx | hx
    · exact h.good x hx
    · simp only [List.mem_singleton] at hx; subst hx; exact hg
  keeps := fun q hq => mem_runCmds_mono (fun b hb' => hb b hb' q hq) (h.keeps q hq)
  sets := by
    intro x hx a hax q hq
    rcases List.mem_append.1 hx with hx | hx
    · exact mem_runCmds_mono (hs.other x c (h.good x hx) hg (Or.inl (ha x hx)) a hax q hq).1 (h.sets x hx a hax q hq)
    · simp only [List.mem_singleton] at hx; subst hx
      exact mem_runCmds_set (hs.own x hg a hax q hq) hax hq
  srcs := by
    intro q hq
    rcases mem_runCmds_from hq with ⟨h1, _⟩ | ⟨a, hac, hq⟩
    · rcases h.srcs q h1 with h2 | ⟨x, hx, h2⟩ | h2
      · exact Or.inl h2
      · exact Or.inr (Or.inl ⟨x, List.mem_append_left _ hx, h2⟩)
      · exact Or.inr (Or.inr h2)
    · exact Or.inr (Or.inl ⟨c, by simp, a, hac, hq⟩)

theorem Inv.down (hs : Sound d apart good left) {base cfg : List Path} {l : List C} {c : C} (h : Inv d apart good left base cfg l)
    (hc : c ∈ l) (hb : ∀ b ∈ d.down c, Spares base b) : Inv d apart good left base (runCmds cfg (d.down c)) (l.erase c) := by
  have hnd : l.Nodup := List.Pairwise.imp (fun {a b} hab => by rintro rfl; exact hs.irrefl a hab) h.pair
  have hg := h.good c hc
  have hap : ∀ x ∈ l.erase c, x ∈ l ∧ (apart x c ∨ apart c x) := by
    intro x hx
    rw [hnd.mem_erase_iff] at hx
    refine ⟨hx.2, ?_⟩
    have key : ∀ l : List C, l.Pairwise apart → ∀ a ∈ l, ∀ b ∈ l, a ≠ b → apart a b ∨ apart b a := by
      intro l hl
      induction hl with
      | nil => simp
      | cons hr _ ih =>
        intro a ha b hb hne
        rcases List.mem_cons.1 ha with rfl | ha' <;> rcases List.mem_cons.1 hb with rfl | hb'
        · exact absurd rfl hne
        · exact Or.inl (hr b hb')
        · exact Or.inr (hr a ha')
        · exact ih a ha' b hb' hne
    exact key l h.pair x hx.2 c hc hx.1
  exact {
    pair := h.pair.sublist List.erase_sublist
    good := fun x hx => h.good x (hap x hx).1
    keeps := fun q hq => mem_runCmds_mono (fun b hb' => hb b hb' q hq) (h.keeps q hq)
    sets := fun x hx a hax q hq =>
      mem_runCmds_mono (hs.other x c (h.good x (hap x hx).1) hg (hap x hx).2 a hax q hq).2 (h.sets x (hap x hx).1 a hax q hq)
    srcs := by
      intro q hq
      rcases mem_runCmds_from hq with ⟨h1, h2⟩ | ⟨b, hbc, hq⟩
      · rcases h.srcs q h1 with h3 | ⟨x, hx, a, hax, hqa⟩ | h3
        · exact Or.inl h3
        · by_cases hxc : x = c
          · subst hxc
            rcases hs.gone x hg a hax q hqa with h4 | ⟨b, hb1, hb2⟩
            · exact Or.inr (Or.inr h4)
            · rw [h2 b hb1] at hb2; exact absurd hb2 (by simp)
          · exact Or.inr (Or.inl ⟨x, (hnd.mem_erase_iff).2 ⟨hxc, hx⟩, a, hax, hqa⟩)
        · exact Or.inr (Or.inr h3)
      · rw [hs.quiet c hg b hbc] at hq; exact absurd hq (by simp) }

theorem inv_run (hs : Sound d apart good left) {base : List Path} : ∀ (ops : List (Op C)) (cfg : List Path) (l : List C),
    Inv d apart good left base cfg l → Proper apart l ops → (∀ o ∈ ops, good o.conn) →
    (∀ o ∈ ops, ∀ b ∈ d.up o.conn ++ d.down o.conn, Spares base b) →
    Inv d apart good left base (d.run cfg ops) (upAfter l ops) := by
  intro ops
  induction ops with
  | nil => exact fun _ _ h _ _ _ => h
  | cons o ops ih =>
    intro cfg l h hp hg hb
    have hg' : ∀ o ∈ ops, good o.conn := fun x hx => hg x (List.mem_cons_of_mem _ hx)
    have hb' : ∀ o ∈ ops, ∀ b ∈ d.up o.conn ++ d.down o.conn, Spares base b := fun x hx => hb x (List.mem_cons_of_mem _ hx)
    have hg0 := hg o List.mem_cons_self
    have hb0 := hb o List.mem_cons_self
    cases o with
    | up c => exact ih _ _ (h.up hs hp.1 hg0 fun b hbc => hb0 b (List.mem_append_left _ hbc)) hp.2 hg' hb'
    | down c => exact ih _ _ (h.down hs hp.1 fun b hbc => hb0 b (List.mem_append_right _ hbc)) hp.2 hg' hb'

omit [DecidableEq C] in
theorem inv_base (base : List Path) : Inv d apart good left base base [] where
  pair := List.Pairwise.nil
  good := by simp
  keeps := fun _ h => h
  sets := by simp
  srcs := fun _ h => Or.inl h

theorem proper_ups {l : List C} : ∀ (m : List C), (l ++ m).Pairwise apart → Proper apart l (m.map Op.up) := by
  intro m
  induction m generalizing l with
  | nil => exact fun _ => trivial
  | cons c m ih =>
    intro h
    refine ⟨?_, ih (by simpa using h)⟩
    rw [List.pairwise_append] at h
    exact fun x hx => h.2.2 x hx c List.mem_cons_self

theorem upAfter_ups {l : List C} : ∀ (m : List C), upAfter l (m.map Op.up) = l ++ m := by
  intro m
  induction m generalizing l with
  | nil => simp [upAfter]
  | cons c m ih => simp [upAfter, ih]

theorem upAfter_conn : ∀ (ops : List (Op C)) (l : List C) (c : C), c ∈ upAfter l ops → c ∈ l ∨ ∃ o ∈ ops, o.conn = c := by
  intro ops
  induction ops with
  | nil => exact fun _ _ h => Or.inl h
  | cons o ops ih =>
    intro l c h
    cases o with
    | up x =>
      rcases ih _ c h with h | ⟨o, ho, h⟩
      · rcases List.mem_append.1 h with h | h
        · exact Or.inl h
        · simp only [List.mem_singleton] at h; subst h
          exact Or.inr ⟨_, List.mem_cons_self, rfl⟩
      · exact Or.inr ⟨o, List.mem_cons_of_mem _ ho, h⟩
    | down x =>
      rcases ih _ c h with h | ⟨o, ho, h⟩
      · exact Or.inl (List.mem_of_mem_erase h)
      · exact Or.inr ⟨o, List.mem_cons_of_mem _ ho, h⟩

/-- After any proper operations the device is configured as if only the connections that are up had ever been set up, apart from
statements that may be left behind. -/
theorem run_as_up (hs : Sound d apart good left) (base : List Path) (ops : List (Op C)) (hp : Proper apart [] ops)
    (hg : ∀ o ∈ ops, good o.conn) (hb : ∀ o ∈ ops, ∀ b ∈ d.up o.conn ++ d.down o.conn, Spares base b) :
    (∀ q ∈ d.run base ((upAfter [] ops).map Op.up), q ∈ d.run base ops) ∧
    ∀ q ∈ d.run base ops, q ∈ d.run base ((upAfter [] ops).map Op.up) ∨ left q := by
  have h1 := inv_run hs ops base [] (inv_base base) hp hg hb
  have hm : ∀ o ∈ (upAfter [] ops).map Op.up, ∃ o' ∈ ops, o'.conn = o.conn := by
    intro o ho
    obtain ⟨c, hc, rfl⟩ := List.mem_map.1 ho
    rcases upAfter_conn ops [] c hc with h | ⟨o', ho', h⟩
    · simp at h
    · exact ⟨o', ho', h⟩
  have h2 := inv_run hs ((upAfter [] ops).map Op.up) base [] (inv_base base) (proper_ups _ (by simpa using h1.pair))
    (fun o ho => by obtain ⟨o', ho', he⟩ := hm o ho; rw [← he]; exact hg o' ho')
    (fun o ho => by obtain ⟨o', ho', he⟩ := hm o ho; rw [← he]; exact hb o' ho')
  rw [upAfter_ups, List.nil_append] at h2
  refine ⟨?_, ?_⟩
  · intro q hq
    have : q ∈ base ∨ ∃ c ∈ upAfter [] ops, ∃ a ∈ d.up c, a.adds = some q := by
      have key : ∀ (m : List C) (cfg : List Path), q ∈ d.run cfg (m.map Op.up) → q ∈ cfg ∨ ∃ c ∈ m, ∃ a ∈ d.up c, a.adds = some q := by
        intro m
        induction m with
        | nil => exact fun _ h => Or.inl h
        | cons c m ih =>
          intro cfg h
          rcases ih _ h with h | ⟨x, hx, h⟩
          · rcases mem_runCmds_from h with ⟨h, _⟩ | ⟨a, ha, h⟩
            · exact Or.inl h
            · exact Or.inr ⟨c, List.mem_cons_self, a, ha, h⟩
          · exact Or.inr ⟨x, List.mem_cons_of_mem _ hx, h⟩
      exact key _ _ hq
    rcases this with h | ⟨c, hc, a, ha, hq⟩
    · exact h1.keeps q h
    · exact h1.sets c hc a ha q hq
  · intro q hq
    rcases h1.srcs q hq with h | ⟨c, hc, a, ha, hq⟩ | h
    · exact Or.inl (h2.keeps q h)
    · exact Or.inl (h2.sets c hc a ha q hq)
    · exact Or.inr h

end

/-! ### A criterion -/

/-- The delete command covers the statement, and what is next to it if it is a value. -/
def Covers (b : Cmd) (q : Path) : Prop := ∃ p, b = .delete p ∧ canon p <+: q ∧ (single q = true → canon p <+: q.dropLast)

theorem single_parent {p q : Path} (h : q.dropLast = p.dropLast) : single q = single p := by
  unfold single; rw [h]

theorem removes_set {p q : Path} (h : (Cmd.set p).removes q = true) :
    single (canon p) = true ∧ q ≠ canon p ∧ q.dropLast = (canon p).dropLast := by
  simp only [Cmd.removes, Bool.and_eq_true, decide_eq_true_eq] at h
  exact ⟨h.1.1, h.1.2, h.2⟩

theorem removes_delete {p q : Path} : (Cmd.delete p).removes q = true ↔ canon p <+: q := by
  simp [Cmd.removes]

/-- Two prefixes of one list are comparable. -/
theorem comparable {a b q : Path} (ha : a <+: q) (hb : b <+: q) : a <+: b ∨ b <+: a :=
  List.prefix_or_prefix_of_prefix ha hb

/-- Connections are kept apart by the prefixes that their delete commands remove. `shared` are statements that connections may have in
common; they are left behind. -/
theorem sound_of {C : Type} {d : Dev C} {apart : C → C → Prop} {good : C → Prop} {left : Path → Prop} (shared : C → Path → Prop)
    (hset : ∀ c, good c → ∀ a ∈ d.up c, ∃ p, a = .set p)
    (hdel : ∀ c, good c → ∀ b ∈ d.down c, ∃ p, b = .delete p)
    (hcov : ∀ c, good c → ∀ p, Cmd.set p ∈ d.up c → (∃ b ∈ d.down c, Covers b (canon p)) ∨ shared c (canon p))
    (hleft : ∀ c q, shared c q → left q)
    (hself : ∀ c, good c → ∀ p p', Cmd.set p ∈ d.up c → Cmd.set p' ∈ d.up c → single (canon p) = true →
      (canon p).dropLast = (canon p').dropLast → canon p = canon p')
    (hirr : ∀ c, ¬ apart c c)
    (hsym : ∀ x c, apart x c → apart c x)
    (hown : ∀ x c, good x → good c → apart x c → ∀ p p', Cmd.delete p ∈ d.down x → Cmd.delete p' ∈ d.down c → ¬ canon p <+: canon p')
    (hosh : ∀ x c, good x → good c → apart x c → ∀ p q, Cmd.delete p ∈ d.down x → shared c q → ¬ canon p <+: q)
    (hshs : ∀ x c, good x → good c → apart x c → ∀ q q', shared x q → shared c q' → single q = true → q.dropLast = q'.dropLast → q = q') :
    Sound d apart good left where
  own := by
    intro c hg a ha q hq b hb
    obtain ⟨p, rfl⟩ := hset c hg a ha
    obtain ⟨p', rfl⟩ := hset c hg b hb
    simp only [Cmd.adds, Option.some.injEq] at hq
    subst hq
    rw [Bool.eq_false_iff]
    intro hr
    obtain ⟨h1, h2, h3⟩ := removes_set hr
    exact h2 (hself c hg p' p hb ha h1 h3.symm).symm
  gone := by
    intro c hg a ha q hq
    obtain ⟨p, rfl⟩ := hset c hg a ha
    simp only [Cmd.adds, Option.some.injEq] at hq
    subst hq
    rcases hcov c hg p ha with ⟨b, hb, r, rfl, hr, _⟩ | h
    · exact Or.inr ⟨_, hb, removes_delete.2 hr⟩
    · exact Or.inl (hleft c _ h)
  quiet := by
    intro c hg b hb
    obtain ⟨p, rfl⟩ := hdel c hg b hb
    rfl
  other := by
    intro x c hgx hgc hap a ha q hq
    obtain ⟨p, rfl⟩ := hset x hgx a ha
    simp only [Cmd.adds, Option.some.injEq] at hq
    subst hq
    have hxc : apart x c := hap.elim id (hsym c x)
    have hcx : apart c x := hsym x c hxc
    refine ⟨?_, ?_⟩
    · intro b hb
      obtain ⟨p', rfl⟩ := hset c hgc b hb
      rw [Bool.eq_false_iff]
      intro hr
      obtain ⟨h1, h2, h3⟩ := removes_set hr
      have hs1 : single (canon p) = true := by rw [single_parent h3]; exact h1
      rcases hcov x hgx p ha with ⟨_, hb1, r, rfl, _, hr⟩ | h <;> rcases hcov c hgc p' hb with ⟨_, hb2, r', rfl, _, hr'⟩ | h'
      · rcases comparable (hr hs1) (h3 ▸ hr' h1) with h | h
        · exact hown x c hgx hgc hxc r r' hb1 hb2 h
        · exact hown c x hgc hgx hcx r' r hb2 hb1 h
      · exact hosh x c hgx hgc hxc r _ hb1 h' ((h3 ▸ hr hs1).trans (List.dropLast_prefix _))
      · exact hosh c x hgc hgx hcx r' _ hb2 h ((h3.symm ▸ hr' h1).trans (List.dropLast_prefix _))
      · exact h2 (hshs x c hgx hgc hxc _ _ h h' hs1 h3)
    · intro b hb
      obtain ⟨p', rfl⟩ := hdel c hgc b hb
      rw [Bool.eq_false_iff]
      intro hr
      rw [removes_delete] at hr
      rcases hcov x hgx p ha with ⟨_, hb1, r, rfl, h1, _⟩ | h
      · rcases comparable h1 hr with h | h
        · exact hown x c hgx hgc hxc r p' hb1 hb h
        · exact hown c x hgc hgx hcx p' r hb hb1 h
      · exact hosh c x hgc hgx hcx p' _ hb h hr
  irrefl := hirr

end OpenNSA.Device
