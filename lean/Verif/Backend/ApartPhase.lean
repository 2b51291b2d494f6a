import Verif.Backend.ApartReserve
/-
Interleaved execution, at most one operation at a time per connection: the steps considered, and the phases of a connection.
-/
namespace OpenNSA.Backend
open OpenNSA Py Prog

/-! ### The steps considered -/

/-- An operation: its connection, what it is, and when it began. -/
structure Job where
  cid : Str
  kind : OpKind
  began : Time
  deriving DecidableEq, Repr

def Req.kind : Req → OpKind
  | .reserve _ _ _ _ _ => .reserve
  | .commit _ => .commit
  | .abort _ => .abort
  | .provision _ => .provision
  | .release _ => .release
  | .terminate _ => .terminate

def Act.kind : Act → OpKind
  | .reserveTimeout => .timeout
  | .endtime => .endtime
  | .activate => .activate

/-- The operation that makes progress. `L` has the operations of the tasks. -/
def Conc.job (c : Conc) (L : Nat → Job) (o : Oracle) : Choice → Option Job
  | .start _ q => some ⟨q.conn o, q.kind, c.w.clk⟩
  | .fire cid =>
    match dget c.w.tbl cid with
    | some ⟨due, act, _, false⟩ => if due ≤ c.w.clk then some ⟨cid, act.kind, c.w.clk⟩ else none
    | _ => none
  | .perform n => if c.tasks.any (fun t => t.id = n) then some (L n) else none
  | .resume n => if c.tasks.any (fun t => t.id = n) then some (L n) else none
  | .wait _ => none
  | .restart => none

/-- New tasks belong to the operation that makes progress. -/
def Conc.rejob (c : Conc) (L : Nat → Job) (j : Option Job) : Nat → Job := fun n => if n < c.next then L n else j.getD ⟨[], .reserve, 0⟩

/-- No operation on the connection is under way. -/
def Conc.Idle (c : Conc) (L : Nat → Job) (cid : Str) : Prop := ∀ t ∈ c.tasks, (L t.id).cid ≠ cid

/-- Requests are made, and scheduled calls run, only when no other operation on the connection is under way; ids of new connections are
not in use; the process is not restarted. -/
def Conc.May (c : Conc) (L : Nat → Job) (o : Oracle) : Choice → Prop
  | .start _ q => c.Idle L (q.conn o) ∧ (q.kind = .reserve → c.w.idTaken (q.conn o) = false)
  | .fire cid => ∀ due act ref, dget c.w.tbl cid = some ⟨due, act, ref, false⟩ → due ≤ c.w.clk → c.Idle L cid
  | .restart => False
  | _ => True

/-- After a step: the requester took the confirmations of terminations; connections without start time do not end before they were
reserved; with `T`, operations were over in time (see `OnTime`). -/
structure Fine (T : Bool) (L : Nat → Job) (j : Option Job) (c : Conc) : Prop where
  taken : ∀ n, (n, .error .parent) ∈ c.done → (L n).kind ≠ .terminate
  timely : ∀ r ∈ c.w.rows, r.start = none → ∀ e, r.end_ = some e → r.reserveTime ≤ e
  ontime : T = true → ∀ k, j = some k → c.Idle L k.cid → ∀ r, c.w.row? k.cid = some r → r.st.l = .created → OnTime k.kind k.began r c.w.clk

/-- A schedule of such steps. -/
def OneByOne (T : Bool) (cfg : Cfg) : Conc → (Nat → Job) → List (Oracle × Choice) → Prop
  | _, _, [] => True
  | c, L, (o, ch) :: s => c.May L o ch ∧ Fine T (c.rejob L (c.job L o ch)) (c.job L o ch) (c.step cfg o ch) ∧
      OneByOne T cfg (c.step cfg o ch) (c.rejob L (c.job L o ch)) s

/-- The operations of the tasks in the end. -/
def jobs (cfg : Cfg) : Conc → (Nat → Job) → List (Oracle × Choice) → (Nat → Job)
  | _, L, [] => L
  | c, L, (o, ch) :: s => jobs cfg (c.step cfg o ch) (c.rejob L (c.job L o ch)) s

/-- The connections of the tasks. -/
def tags (L : Nat → Job) : Nat → Str × Bool := fun n => ((L n).cid, false)

/-! ### A connection on which no operation is under way -/

/-- Nothing is left of the connection, apart from what it has in the calendar. -/
structure Absent (cid : Str) (w : World) : Prop where
  row : w.row? cid = none
  tm : ∀ tm, dget w.tbl cid = some tm → tm.called = true
  link : cid ∉ w.links
  conf : ¬ Confirmed w.outbox cid

/-- No operation is under way. -/
structure AtRest (T : Bool) (cfg : Cfg) (cid : Str) (w : World) (tc : List (Str × Resv)) : Prop where
  here : ∀ r, w.row? cid = some r → ConnOk true w r ∧ OkRow r ∧ (own cid tc).Perm (ents cfg r) ∧ (T = true → Due w.clk r (dget w.tbl cid) w.outbox)
  away : w.row? cid = none → Absent cid w ∧ own cid tc = []

/-- A later time. -/
theorem Others.tick (cid : Str) (w : World) (tc : List (Str × Resv)) {t : Time} (o : Oracle) (ht : w.clk ≤ t) : Others cid w tc { w with clk := t, orc := o } tc :=
  { Others.refl cid w tc with clk := ht }

theorem Absent.others {b cid : Str} {w w' : World} {tc tc' : List (Str × Resv)} (h : Absent b w) (ho : Others cid w tc w' tc') (hne : b ≠ cid) : Absent b w' where
  row := by rw [ho.row b hne]; exact h.row
  tm tm e := h.tm tm (by rw [← ho.tbl b hne]; exact e)
  link e := h.link ((ho.links b hne).mp e)
  conf e := h.conf (ho.conf b hne e)

theorem Reported.sub {o o' : List Msg} {c : Str} (h : Reported o c) (hs : ∀ m ∈ o, m ∈ o') : Reported o' c := by
  obtain ⟨n, h⟩ := h
  exact ⟨n, h.imp (hs _) (hs _)⟩

theorem AtRest.others {T : Bool} {cfg : Cfg} {b cid : Str} {w w' : World} {tc tc' : List (Str × Resv)} (h : AtRest T cfg b w tc) (ho : Others cid w tc w' tc')
    (hne : b ≠ cid) : AtRest T cfg b w' tc' where
  here r hr := by
    rw [ho.row b hne] at hr
    obtain ⟨h1, h2, h3, h4⟩ := h.here r hr
    have hc := row?_cid hr
    have htb : dget w'.tbl b = dget w.tbl b := ho.tbl b hne
    refine ⟨?_, h2, by rw [ho.own b hne]; exact h3, fun hT => ?_⟩
    · refine ⟨h1.row.mono ho.clk, ?_, ?_, ?_⟩
      · intro tm e hn
        rw [hc, htb, ← hc] at e
        obtain ⟨k1, k2⟩ := h1.timer tm e hn
        exact ⟨k1, ho.heap _ _ k2 (by simp only [hc]; exact hne)⟩
      · have hl : decide (r.cid ∈ w'.links) = decide (r.cid ∈ w.links) := by rw [hc]; simp [ho.links b hne]
        rw [hl]
        exact ⟨h1.link.1, fun hu => (h1.link.2 hu).imp _root_.id fun hr => hr.sub ho.out⟩
      · intro _ k1 k2 k3
        rw [hc, htb, ← hc]
        refine (h1.exp rfl k1 k2 ?_).mono ho.clk
        rw [hc] at k3 ⊢
        exact ho.conf b hne k3
    · rw [htb]
      exact (h4 hT).mono ho.clk ho.out
  away hr := by
    rw [ho.row b hne] at hr
    obtain ⟨h1, h2⟩ := h.away hr
    exact ⟨h1.others ho hne, by rw [ho.own b hne]; exact h2⟩

/-- After an operation. -/
theorem rested {T : Bool} {cfg : Cfg} {x : Ctx} {w : World} {tc : List (Str × Resv)} {s : S} (hv : View x w tc s) (hr : Rested T cfg x s)
    (hon : T = true → s.row.st.l = .created → OnTime x.kind x.began s.row w.clk) : AtRest T cfg x.cid w tc where
  here r hrow := by
    rw [hv.row] at hrow
    cases hrow
    have hc := row?_cid hv.row
    refine ⟨⟨hr.row.mono hv.clk, ?_, ?_, ?_⟩, hr.ok, by rw [hv.cal]; exact hr.cal, fun hT => ?_⟩
    · intro tm e hn
      rw [hc, hv.tm] at e
      obtain ⟨k1, k2⟩ := hr.timer tm e hn
      refine ⟨k1, ?_⟩
      rcases k2 with ⟨k2, k3⟩ | ⟨k2, k3⟩
      · rw [k3]
        exact (hv.old tm (by rw [← k2]; exact e) hn).2
      · rw [k2, hv.obj, k3]
    · rw [hc, hv.up]
      exact ⟨hr.link.1, fun hu => (hr.link.2 hu).imp _root_.id fun hr => hr.sub hv.out⟩
    · intro _ k1 k2 k3
      rw [hc, hv.tm]
      refine (hr.exp k1 k2 ?_).mono hv.clk
      rw [hc] at k3 ⊢
      exact hv.conf k3
    · rw [hv.tm]
      refine (hr.due hT fun hl => ?_).mono hv.clk hv.out
      have := hon hT hl
      exact ⟨fun hk e he => Int.le_trans hv.clk (this.ends hk e he), fun hk s hs hb => Int.le_trans hv.clk (this.starts hk s hs hb)⟩
  away hrow := by rw [hv.row] at hrow; cases hrow

/-! ### Phases -/

/-- A request that looks its connection up. -/
def LookP (T : Bool) (cfg : Cfg) (cid : Str) (j : Job) {α : Type} (fin : Except Err α → Except Err (Option Str)) : Prog α → Prop
  | .cmd (.find b) k => b = cid ∧ (∃ e e', k (.ok none) = .throw e ∧ fin (.error e) = .error e') ∧ ∀ (x : Ctx) (s : S), x.cid = cid → x.kind = j.kind → x.began = j.began → StartAt T cfg x s →
      R1 x.cid x.ref none (fun s' => ∀ a, Ends T cfg x s' a) (k (.ok (some x.ref))) (fun s' r => Ends T cfg x s' (fin r)) s
  | _ => False

/-- `reserve` after the check of the id: refuses, or makes a row object with the two calendar entries, and saves it. -/
def BodyOk (cfg : Cfg) (cid : Str) {α : Type} (fin : Except Err α → Except Err (Option Str)) (p : Prog α) : Prop :=
  ∃ corr, ∀ (n : Nat) (c : Conc),
    (∃ t o e, c.w.clk ≤ t ∧ Conc.runSync n none p fin c = { c with w := c.w.at t o, done := c.done ++ [(n, .error e)] }) ∨
    (∃ t o row, c.w.clk ≤ t ∧ NewOk row t ∧ row.cid = cid ∧
      Conc.runSync n none p fin c = Conc.runSync n none (saveProg c.w.heap.length corr cid) _root_.id { c with w := c.w.made cfg t o row })

/-- `reserve` that checks whether the id is in use. -/
def AskP (cfg : Cfg) (cid : Str) {α : Type} (fin : Except Err α → Except Err (Option Str)) : Prog α → Prop
  | .cmd (.find b) k => b = cid ∧ BodyOk cfg cid fin (k (.ok none))
  | _ => False

/-- `reserve` that saves its row object. -/
def MakeP (T : Bool) (cfg : Cfg) (cid : Str) (ref : Nat) {α : Type} (fin : Except Err α → Except Err (Option Str)) : Prog α → Prop
  | .cmd (.save r) k => r = ref ∧ ∀ (x : Ctx) (s : S), x.cid = cid → x.ref = ref → NewAt cfg x s →
      R1 x.cid x.ref none (fun s' => ∀ a, Ends T cfg x s' a) (k (.ok ())) (fun s' r => Ends T cfg x s' (fin r)) s
  | _ => False

def LookT (T : Bool) (cfg : Cfg) (cid : Str) (j : Job) (t : Task) : Prop :=
  match t.susp with
  | .waiting y k fin => LookP T cfg cid j fin (.cmd y k)
  | .performed _ _ _ => False

def MissT (t : Task) : Prop :=
  match t.susp with
  | .waiting _ _ _ => False
  | .performed k r fin => ∃ e e', k r = .throw e ∧ fin (.error e) = .error e'

def AskT (cfg : Cfg) (cid : Str) (t : Task) : Prop :=
  match t.susp with
  | .waiting y k fin => AskP cfg cid fin (.cmd y k)
  | .performed k r fin => BodyOk cfg cid fin (k r)

def MakeT (T : Bool) (cfg : Cfg) (cid : Str) (ref : Nat) (t : Task) : Prop :=
  match t.susp with
  | .waiting y k fin => MakeP T cfg cid ref fin (.cmd y k)
  | .performed _ _ _ => False

/-- The row and the call of a connection. -/
def World.seen (w : World) (cid : Str) : Option (Row × Option Timer) := (w.row? cid).map fun r => (r, dget w.tbl cid)

theorem World.seen_none {w : World} {cid : Str} (h : w.row? cid = none) : w.seen cid = none := by rw [World.seen, h]; rfl

theorem World.seen_some {w : World} {cid : Str} {r : Row} (h : w.row? cid = some r) : w.seen cid = some (r, dget w.tbl cid) := by rw [World.seen, h]; rfl

theorem Others.seen {b cid : Str} {w w' : World} {tc tc' : List (Str × Resv)} (h : Others cid w tc w' tc') (hne : b ≠ cid) : w'.seen b = w.seen b := by
  rw [World.seen, World.seen, h.row b hne, h.tbl b hne]

/-- Phases of a connection with the given tasks. `P` is something known about its row and its call when no operation is under way. -/
inductive Ph (T : Bool) (cfg : Cfg) (P : Str → Option (Row × Option Timer) → Prop) (L : Nat → Job) (cid : Str) (w : World) (tc : List (Str × Resv)) : List Task → Prop
  | rest : AtRest T cfg cid w tc → P cid (w.seen cid) → Ph T cfg P L cid w tc []
  | look {t : Task} : AtRest T cfg cid w tc → P cid (w.seen cid) → t.owner = none → ((L t.id).kind ≠ .reserve ∧ (L t.id).began ≤ w.clk) → (L t.id).kind.call = false → LookT T cfg cid (L t.id) t → Ph T cfg P L cid w tc [t]
  | missed {t : Task} : Absent cid w → own cid tc = [] → P cid none → t.owner = none → (L t.id).kind.call = false → MissT t → Ph T cfg P L cid w tc [t]
  | ask {t : Task} : Absent cid w → own cid tc = [] → P cid none → cid ∉ w.otherIds → t.owner = none → (L t.id).kind = .reserve → AskT cfg cid t →
      Ph T cfg P L cid w tc [t]
  | make {t : Task} {row : Row} {ref : Nat} : Absent cid w → own cid tc = [srcResv cfg row, dstResv cfg row] → P cid none → cid ∉ w.otherIds → t.owner = none →
      (L t.id).kind = .reserve → NewOk row w.clk → row.cid = cid → w.heap[ref]? = some ⟨row, true⟩ → MakeT T cfg cid ref t → Ph T cfg P L cid w tc [t]
  | go {x : Ctx} {s : S} {ts : List Task} : View x w tc s → Going x (Ends T cfg x) s ts → x.cid = cid → x.s0.row.cid = cid →
      (x.kind = .reserve → ∀ r, P cid (some r)) →
      (x.kind ≠ .reserve → ∃ tm, P cid (some (x.s0.row, tm)) ∧ (x.kind.call = false → tm = x.s0.tm)) →
      (∀ t ∈ ts, (L t.id).kind = x.kind ∧ (L t.id).began = x.began) → Ph T cfg P L cid w tc ts

/-- The whole system. -/
structure Apart (T : Bool) (cfg : Cfg) (P : Str → Option (Row × Option Timer) → Prop) (L : Nat → Job) (c : Conc) (tc : List (Str × Resv)) : Prop where
  nd : (c.w.rows.map (·.cid)).Nodup
  cal : c.w.cal.Perm (tc.map (·.2))
  owned : Owned (tags L) c.tasks
  ids : ∀ t ∈ c.tasks, t.id < c.next
  ph : ∀ cid, Ph T cfg P L cid c.w tc (tasksOf (tags L) cid c.tasks)

/-- `P` stays true when the connection is operated on, and when it is made. -/
structure Lasts (P : Str → Option (Row × Option Timer) → Prop) : Prop where
  ev : ∀ cid a tm b tm', (∃ t, RowOk t b) → Evolves a b → (b.st.l = .created → b.st.r = .held → tm' = tm) → P cid (some (a, tm)) → P cid (some (b, tm'))
  new : ∀ cid r, P cid none → P cid (some r)

/-- `P` stays true when one of the operations `K` is done on the connection, and when it is made. -/
structure LastsOn (K : Str → OpKind → Prop) (P : Str → Option (Row × Option Timer) → Prop) : Prop where
  ev : ∀ (x : Ctx) (s : S) tm a, K x.cid x.kind → x.kind ≠ .reserve → (∃ t, RowOk t s.row) → Evolves x.s0.row s.row →
    (s.row.st.l = .created → s.row.st.r = .held → s.tm = tm) → Effect x s a → P x.cid (some (x.s0.row, tm)) → P x.cid (some (s.row, s.tm))
  new : ∀ cid r, P cid none → P cid (some r)

theorem Lasts.on {P : Str → Option (Row × Option Timer) → Prop} (h : Lasts P) : LastsOn (fun _ _ => True) P :=
  ⟨fun _ _ _ _ _ _ h1 h2 h3 _ h4 => h.ev _ _ _ _ _ h1 h2 h3 h4, h.new⟩

section
variable {T : Bool} {cfg : Cfg} {P : Str → Option (Row × Option Timer) → Prop} {L L' : Nat → Job}

/-- Nothing happened to the connection. -/
theorem Ph.others {b cid : Str} {w w' : World} {tc tc' : List (Str × Resv)} {ts : List Task} (h : Ph T cfg P L b w tc ts) (ho : Others cid w tc w' tc')
    (hne : b ≠ cid) (hall : w'.cal.Perm (tc'.map (·.2))) (hl : ∀ t ∈ ts, L' t.id = L t.id) : Ph T cfg P L' b w' tc' ts := by
  cases h with
  | rest h1 h2 => exact .rest (h1.others ho hne) (by rw [ho.seen hne]; exact h2)
  | look h1 h2 h3 h4 hc h5 =>
    refine .look (h1.others ho hne) (by rw [ho.seen hne]; exact h2) h3 ?_ (by rw [hl _ (by simp)]; exact hc) ?_
    · rw [hl _ (by simp)]; exact ⟨h4.1, Int.le_trans h4.2 ho.clk⟩
    · rw [hl _ (by simp)]; exact h5
  | missed h1 h2 h3 h4 hc h5 => exact .missed (h1.others ho hne) (by rw [ho.own b hne]; exact h2) h3 h4 (by rw [hl _ (by simp)]; exact hc) h5
  | ask h1 h2 h3 h4 h5 h6 h7 =>
    exact .ask (h1.others ho hne) (by rw [ho.own b hne]; exact h2) h3 (by rw [ho.ids]; exact h4) h5 (by rw [hl _ (by simp)]; exact h6) h7
  | make h1 h2 h3 h4 h5 h6 h7 h8 h9 h10 =>
    refine .make (h1.others ho hne) (by rw [ho.own b hne]; exact h2) h3 (by rw [ho.ids]; exact h4) h5 (by rw [hl _ (by simp)]; exact h6)
      { h7 with made := Int.le_trans h7.made ho.clk } h8 (ho.heap _ _ h9 (by simp only [h8]; exact hne)) h10
  | go h1 h2 h3 h4 h5 h6 h7 =>
    refine .go (h1.others ho (by rw [h3]; exact hne) (by rw [h3]; exact h4) hall) h2 h3 h4 h5 h6 ?_
    intro t ht
    rw [hl t ht]
    exact h7 t ht

theorem Ph.nil {cid : Str} {w : World} {tc : List (Str × Resv)} (h : Ph T cfg P L cid w tc []) : AtRest T cfg cid w tc ∧ P cid (w.seen cid) := by
  generalize hts : ([] : List Task) = ts at h
  cases h with
  | rest h1 h2 => exact ⟨h1, h2⟩
  | go h1 h2 =>
    subst hts
    cases h2
  | _ => cases hts

theorem mem_tasksOf {b : Str} {ts : List Task} {t : Task} : t ∈ tasksOf (tags L) b ts ↔ t ∈ ts ∧ (L t.id).cid = b := by
  unfold tasksOf
  rw [List.mem_filter]
  exact and_congr Iff.rfl decide_eq_true_iff

theorem idle_iff {c : Conc} {cid : Str} : c.Idle L cid ↔ tasksOf (tags L) cid c.tasks = [] := by
  unfold Conc.Idle tasksOf
  rw [List.filter_eq_nil_iff]
  exact forall_congr' fun t => imp_congr Iff.rfl (not_congr decide_eq_true_iff.symm)

theorem tasksOf_congr {b : Str} {ts : List Task} (h : ∀ t ∈ ts, L' t.id = L t.id) : tasksOf (tags L') b ts = tasksOf (tags L) b ts := by
  unfold tasksOf tags
  exact List.filter_congr fun t ht => by rw [h t ht]

/-- A step on one connection. -/
theorem Apart.join {c c' : Conc} {tc tc' : List (Str × Resv)} {cid : Str} (hs : Apart T cfg P L c tc) (ho : Others cid c.w tc c'.w tc')
    (hcal : c'.w.cal.Perm (tc'.map (·.2))) (hoth : ∀ b, b ≠ cid → tasksOf (tags L') b c'.tasks = tasksOf (tags L) b c.tasks)
    (hl : ∀ t ∈ c.tasks, L' t.id = L t.id) (howned : Owned (tags L') c'.tasks) (hids : ∀ t ∈ c'.tasks, t.id < c'.next)
    (hph : Ph T cfg P L' cid c'.w tc' (tasksOf (tags L') cid c'.tasks)) : Apart T cfg P L' c' tc' where
  nd := ho.nd hs.nd
  cal := hcal
  owned := howned
  ids := hids
  ph b := by
    by_cases hb : b = cid
    · subst hb; exact hph
    · rw [hoth b hb]
      exact (hs.ph b).others ho hb hcal fun t ht => hl t (mem_tasksOf.mp ht).1

end
end OpenNSA.Backend
