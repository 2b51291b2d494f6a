import Verif.Backend.ApartProv
import Verif.Backend.ReserveInv
import Verif.Backend.TraceInv
/-
Interleaved execution, at most one operation at a time per connection: `reserve`, up to the point where the connection is stored, and from there on.
-/
namespace OpenNSA.Backend
open OpenNSA Py Prog

/-! ### Commands before the first suspension -/

/-- Commands before the first suspension of `reserve`. -/
def _root_.OpenNSA.Backend.Cmd.meek {β : Type} : Cmd β → Bool
  | .calCheck _ | .calAdd _ | .now => true
  | _ => false

/-- Only such commands. -/
def Meek {α : Type} : Prog α → Prop
  | .pure _ => True
  | .throw _ => True
  | .cmd c k => c.meek = true ∧ ∀ r, Meek (k r)
  | .spawn _ _ => False

theorem meek_bind {α β : Type} {p : Prog α} {f : α → Prog β} (hp : Meek p) (hf : ∀ a, Meek (f a)) : Meek (p.bind f) := by
  induction p with
  | pure a => exact hf a
  | throw e => trivial
  | cmd c k ih => exact ⟨hp.1, fun r => ih r (hp.2 r) hf⟩
  | spawn p k _ _ => exact hp.elim

theorem meek_tryCatch {α : Type} {p : Prog α} {f : Err → Prog α} (hp : Meek p) (hf : ∀ e, Meek (f e)) : Meek (p.tryCatch f) := by
  induction p with
  | pure a => trivial
  | throw e => exact hf e
  | cmd c k ih => exact ⟨hp.1, fun r => ih r (hp.2 r) hf⟩
  | spawn p k _ _ => exact hp.elim

theorem meek_issue {β : Type} {c : Cmd β} (h : c.meek = true) : Meek (issue c) := ⟨h, fun r => by cases r <;> trivial⟩
theorem meek_ofExcept {α : Type} (r : Except Err α) : Meek (ofExcept r) := by cases r <;> trivial

theorem meek_firstFree (cfg : Cfg) (port : Str) (st en : Option Time) : ∀ l, Meek (firstFree cfg port st en l)
  | [] => trivial
  | a :: l => by
    have := meek_firstFree cfg port st en l
    unfold firstFree
    simp only [bind_eq]
    repeat' first
      | exact trivial
      | assumption
      | exact meek_issue rfl
      | (refine meek_tryCatch ?_ fun _ => ?_)
      | (refine meek_bind ?_ fun _ => ?_)
      | split

theorem meek_firstFreeBoth (cfg : Cfg) (port port' : Str) (st en : Option Time) : ∀ l, Meek (firstFreeBoth cfg port port' st en l)
  | [] => trivial
  | a :: l => by
    have := meek_firstFreeBoth cfg port port' st en l
    unfold firstFreeBoth
    simp only [bind_eq]
    repeat' first
      | exact trivial
      | assumption
      | exact meek_issue rfl
      | (refine meek_tryCatch ?_ fun _ => ?_)
      | (refine meek_bind ?_ fun _ => ?_)
      | split

theorem meek_allocate (cfg : Cfg) (src dst : STP) (st en : Option Time) : Meek (allocate cfg src dst st en) := by
  have h1 := fun p l => meek_firstFree cfg p st en l
  have h2 := fun p q l => meek_firstFreeBoth cfg p q st en l
  unfold allocate
  simp only [bind_eq]
  repeat' first
    | exact trivial
    | exact h1 _ _
    | exact h2 _ _ _
    | exact meek_ofExcept _
    | exact meek_issue rfl
    | (refine meek_bind ?_ fun _ => ?_)
    | split

theorem advance_ids (w : World) : w.advance.orc.ids = w.orc.ids := by
  unfold World.advance; split <;> rfl

theorem meek_ids {α : Type} {p : Prog α} : ∀ {w : World}, Meek p → (p.run w).1.orc.ids = w.orc.ids := by
  induction p with
  | pure a => intro w _; rfl
  | throw e => intro w _; rfl
  | cmd c k ih =>
    intro w h
    simp only [Prog.run]
    rw [ih _ (h.2 _)]
    have hm := h.1
    cases c <;> simp only [Cmd.meek, Bool.false_eq_true] at hm
    · simp only [exec, execAt, advance_ids]
    · simp only [exec, execAt, advance_ids]
    · simp only [exec, execAt, advance_ids]
  | spawn p k _ _ => intro w h; exact h.elim

/-- A coroutine that begins with such commands. -/
theorem runSync_meek {α β : Type} {p : Prog α} {f : α → Prog β} : ∀ (id : Nat) (ow : Option Str) (fin : Except Err β → Except Err (Option Str)) {c : Conc}, Meek p →
    Conc.runSync id ow (p.bind f) fin c = match p.run c.w with
      | (w', .ok a) => Conc.runSync id ow (f a) fin { c with w := w' }
      | (w', .error e) => { c with w := w', done := c.done ++ [(id, fin (.error e))] } := by
  induction p with
  | pure a => intro id ow fin c _; rfl
  | throw e => intro id ow fin c _; rfl
  | cmd y k ih =>
    intro id ow fin c h
    simp only [Prog.bind, Conc.runSync, Prog.run]
    have hm := h.1
    have hy : y.isAsync = false ∧ c.sync y = ({ c with w := (exec c.w y).1 }, (exec c.w y).2) := by
      cases y <;> first | exact ⟨rfl, rfl⟩ | simp [Cmd.meek] at hm
    rw [hy.1]
    simp only [Bool.false_eq_true, if_false]
    rw [hy.2]
    exact ih _ id ow fin (h.2 _)
  | spawn p k _ _ => intro id ow fin c h; exact h.elim

/-! ### A new connection -/

/-- What is known about the row of a new connection. -/
structure NewOk (row : Row) (clk : Time) : Prop where
  st : row.st = .fresh
  alloc : row.allocated = false
  act : row.active = false
  made : row.reserveTime ≤ clk
  order : ∀ s e, row.start = some s → row.end_ = some e → s ≤ e
  s95 : ∀ s, row.start = some s → s ≤ year2095

/-- `reserve` once the row object is made. -/
def saveProg (ref : Nat) (corr cid : Str) : Prog (Option Str) :=
  (issue (.save ref)).bind fun _ => Prog.spawn (doReserve ref corr) (Prog.pure (some cid))

/-- `reserve` from the choice of labels on. -/
theorem body_eq (cfg : Cfg) (h : Hdr) (cid? : Option Str) (src dst : STP) (st en : Option Time) :
    (reserveBody cfg h cid? src dst st en).bind (fun c => Prog.pure (some c)) =
      (ofExcept (admission cfg h src dst st en)).bind fun _ => (allocate cfg src dst st en).bind fun x => (issue .now).bind fun now =>
        (pickId cid?).bind fun cid => (issue (.newObj (newRow cid h now src dst x.1 x.2 st en))).bind fun ref => saveProg ref h.corr cid := by
  unfold reserveBody saveProg
  simp only [bind_eq, bind_assoc]
  rfl

/-- The new connection as the calendar and the memory have it before it is stored. -/
def World.made (w : World) (cfg : Cfg) (t : Time) (o : Oracle) (row : Row) : World :=
  { w with heap := w.heap ++ [⟨row, true⟩], cal := w.cal ++ [srcResv cfg row] ++ [dstResv cfg row], clk := t, orc := o }

/-- `reserve`, after the check of the id, up to its next suspension. -/
theorem run_body {cfg : Cfg} {h : Hdr} {cid? : Option Str} {src dst : STP} {st en : Option Time} {id : Nat} {c : Conc} {cid : Str}
    (hid : cid = cid?.getD (c.w.orc.ids.headD [])) :
    (∃ t o e, c.w.clk ≤ t ∧ Conc.runSync id none ((reserveBody cfg h cid? src dst st en).bind fun x => Prog.pure (some x)) _root_.id c =
      { c with w := c.w.at t o, done := c.done ++ [(id, .error e)] }) ∨
    (∃ t o row, c.w.clk ≤ t ∧ NewOk row t ∧ row.cid = cid ∧
      Conc.runSync id none ((reserveBody cfg h cid? src dst st en).bind fun x => Prog.pure (some x)) _root_.id c =
      Conc.runSync id none (saveProg c.w.heap.length h.corr cid) _root_.id { c with w := c.w.made cfg t o row }) := by
  rw [body_eq]
  cases ha : admission cfg h src dst st en with
  | error e => exact Or.inl ⟨c.w.clk, c.w.orc, e, Int.le_refl _, rfl⟩
  | ok u =>
    simp only [Prog.ofExcept, Prog.bind]
    rw [runSync_meek id none _ (meek_allocate cfg src dst st en)]
    have hids := meek_ids (w := c.w) (meek_allocate cfg src dst st en)
    obtain ⟨t, o, ht, hw, hr⟩ := run_of_All (allocate_spec (cfg := cfg) (src := src) (dst := dst) (st := st) (en := en) (w := c.w))
    generalize (allocate cfg src dst st en).run c.w = res at hids hw hr
    obtain ⟨w1, r⟩ := res
    simp only at hids hw hr
    cases r with
    | error e =>
      simp only at hw hr
      subst hw
      exact Or.inl ⟨t, o, e, ht, rfl⟩
    | ok x =>
      obtain ⟨sl, dl⟩ := x
      simp only at hw hr ⊢
      rw [hw] at hids
      simp only at hids
      right
      obtain ⟨hord, hst⟩ := hr.sane
      -- `utcnow`
      rw [runSync_meek id none _ (meek_issue rfl)]
      obtain ⟨t2, o2, ht2, he2⟩ := advance_eq w1
      have hids2 : o2.ids = c.w.orc.ids := by
        have := advance_ids w1
        rw [he2, hw] at this
        simp only at this
        rw [this, hids]
      have hnow : (issue Cmd.now).run w1 = ({ w1 with clk := t2, orc := o2 }, .ok t2) := by
        simp only [Prog.run, issue, exec, he2, execAt]
      rw [hnow]
      simp only
      have hclk : t ≤ t2 := by rw [hw] at ht2; exact ht2
      -- the row object
      have obj : ∀ (t3 : Time) (o3 : Oracle) (w3 : World), t2 ≤ t3 → w3 = { w1 with clk := t3, orc := o3 } →
          ∃ t o row, c.w.clk ≤ t ∧ NewOk row t ∧ row.cid = cid ∧
            Conc.runSync id none ((issue (.newObj (newRow cid h t2 src dst sl dl st en))).bind fun ref => saveProg ref h.corr cid) _root_.id { c with w := w3 } =
            Conc.runSync id none (saveProg c.w.heap.length h.corr cid) _root_.id { c with w := c.w.made cfg t o row } := by
        intro t3 o3 w3 ht3 hw3
        obtain ⟨t4, o4, ht4, he4⟩ := advance_eq w3
        refine ⟨t4, o4, newRow cid h t2 src dst sl dl st en, ?_, ?_, rfl, ?_⟩
        · rw [hw3] at ht4
          exact Int.le_trans ht (Int.le_trans hclk (Int.le_trans ht3 ht4))
        · rw [hw3] at ht4
          exact ⟨rfl, rfl, rfl, Int.le_trans ht3 ht4, hord, fun s hs => (hst s hs).2⟩
        · simp only [issue, Prog.bind, Conc.runSync, Cmd.isAsync, Bool.false_eq_true, if_false, Conc.sync, Conc.affect, exec, he4, execAt]
          rw [hw3, hw]
          rfl
      cases cid? with
      | some a =>
        simp only [Option.getD_some] at hid
        subst hid
        exact obj t2 o2 _ (Int.le_refl _) rfl
      | none =>
        simp only [Option.getD_none] at hid
        simp only [pickId]
        obtain ⟨t3, o3, ht3, he3⟩ := advance_eq ({ w1 with clk := t2, orc := o2 } : World)
        have hids3 : o3.ids = c.w.orc.ids := by
          have := advance_ids ({ w1 with clk := t2, orc := o2 } : World)
          rw [he3] at this
          simp only at this
          rw [this, hids2]
        have key : ∃ o4, Conc.sync { c with w := { w1 with clk := t2, orc := o2 } } Cmd.newId = ({ c with w := { w1 with clk := t3, orc := o4 } }, .ok cid) := by
          simp only [Conc.sync, Conc.affect, exec, he3, execAt]
          rw [hids3, hid]
          cases e : c.w.orc.ids with
          | nil => exact ⟨o3, rfl⟩
          | cons i is => exact ⟨_, rfl⟩
        obtain ⟨o4, key⟩ := key
        have := obj t3 o4 _ ht3 rfl
        show ∃ t o row, _ ∧ _ ∧ _ ∧ Conc.runSync id none (Prog.cmd Cmd.newId _) _ _ = _
        simp only [Conc.runSync, Cmd.isAsync, Bool.false_eq_true, if_false, key]
        exact this

/-! ### From the time it is stored -/

/-- A connection that has just been stored. -/
structure NewAt (cfg : Cfg) (x : Ctx) (s : S) : Prop where
  new : NewOk s.row s.clk
  timely : s.row.start = none → ∀ e, s.row.end_ = some e → s.row.reserveTime ≤ e
  cid : s.row.cid = x.cid
  obj : s.obj = s.row
  cal : s.cal = [srcResv cfg s.row, dstResv cfg s.row]
  tm : ∀ tm, s.tm = some tm → tm.called = true
  up : s.up = false
  out : s.out = []
  conf : ¬ Confirmed x.out0 x.cid
  kind : x.kind = .reserve

theorem reserve_ends {T : Bool} {cfg : Cfg} {x : Ctx} {s : S} {corr : Str} (h : NewAt cfg x s) :
    R1 x.cid x.ref none (fun s' => ∀ a, Ends T cfg x s' a) (Prog.spawn (doReserve x.ref corr) (Prog.pure (some x.cid))) (fun s' r => Ends T cfg x s' r) s := by
  refine ⟨rfl, Or.inl ⟨⟨_, rfl⟩, R0_of_plain (pl_doReserve _ _) ?_ (by rw [h.obj, h.cid])⟩⟩
  have hst := h.new.st
  -- the held connection
  have key : ∀ t tm' out', s.clk ≤ t → (∀ tm, tm' = some tm → TimerOk (s.row.withR .held) tm ∧ tm.ref = x.ref) →
      (Confirmed (x.out0 ++ out') x.cid → ExpTimer t (s.row.withR .held) tm') →
      ∀ a, Ends T cfg x { (s.put (s.row.withR .held)) with clk := t, tm := tm', out := out' } a := by
    intro t tm' out' ht htm hexp a _
    refine ⟨?_, by unfold Effect; rw [h.kind]; trivial⟩
    exact
      { row :=
          { lc := Or.inl (by simp [Row.withR, hst, ConnStates.fresh])
            rs := Or.inr (Or.inl ⟨rfl, h.new.alloc⟩)
            pv := fun hp => absurd (show (s.row.withR .held).st.p = .released by simp [Row.withR, hst, ConnStates.fresh]) hp
            act := fun ha => by have : s.row.active = true := ha; rw [h.new.act] at this; cases this
            ended := fun he => by
              have he : (s.row.withR .held).st.l = .passedEnd := he
              simp [Row.withR, hst, ConnStates.fresh] at he
            order := h.new.order
            timely := h.timely
            made := Int.le_trans h.new.made ht
            s95 := h.new.s95 }
        ok :=
          { active := fun ha => by have : s.row.active = true := ha; rw [h.new.act] at this; cases this
            alloc := fun ha => by have : s.row.allocated = true := ha; rw [h.new.alloc] at this; cases this
            state := Or.inr rfl
            life := by
              show (s.row.withR .held).st.l ≠ .failed
              simp [Row.withR, hst, ConnStates.fresh]
            ended := fun he => by
              have he : (s.row.withR .held).st.l = .passedEnd := he
              simp [Row.withR, hst, ConnStates.fresh] at he
            prov := fun hp => absurd (show (s.row.withR .held).st.p = .released by simp [Row.withR, hst, ConnStates.fresh]) hp }
        timer := fun tm h1 _ => ⟨(htm tm h1).1, Or.inr ⟨(htm tm h1).2, rfl⟩⟩
        link := ⟨fun ha => absurd (show s.row.active = true from ha) (by simp [h.new.act]), fun hu => absurd (show s.up = true from hu) (by simp [h.up])⟩
        cal := by
          have : (s.row.withR .held).holds = true := holds_iff.mpr ⟨by simp [Row.withR, hst, ConnStates.fresh], Or.inl rfl⟩
          show s.cal.Perm (ents cfg (s.row.withR .held))
          rw [ents_holds this, h.cal]
          exact List.Perm.refl _
        exp := fun _ _ hc => hexp (by rw [← h.cid]; exact hc)
        due := fun _ _ => Due.idle h.new.alloc (by simp [Row.withR, hst, ConnStates.fresh])
        ev := fun hk => absurd h.kind hk
        held := fun hk => absurd h.kind hk }
  have hconf : Confirmed (x.out0 ++ []) x.cid → False := by
    rw [List.append_nil]; exact h.conf
  apply L_doReserve (by rw [h.obj, h.cid]) (by rw [h.obj, hst]; rfl)
  · intro t due res out' ht hd1 hd2 _ hout _
    rw [h.obj] at hd2 hout ⊢
    refine key t _ _ ht ?_ ?_
    · intro tm e; simp only [Option.some.injEq] at e; subst e
      exact ⟨⟨rfl, by simp [Row.withR, hst, ConnStates.fresh]⟩, rfl⟩
    · intro _; exact ⟨due, _, rfl, hd1, hd2⟩
  · intro t e ht _ _
    have := key t none [] ht (fun tm h => by cases h) (fun hc => (hconf hc).elim)
    rw [h.obj]
    have e1 : s.out = [] := h.out
    simp only [e1] at this ⊢
    exact this
  · intro t ht'
    have ht : s.clk ≤ t := by
      have : (0 : Int) ≤ tpcTimeout := by decide
      have : (0 : Int) ≤ second := by decide
      omega
    have := key t none [] ht (fun tm h => by cases h) (fun hc => (hconf hc).elim)
    rw [h.obj]
    have e1 : s.out = [] := h.out
    simp only [e1] at this ⊢
    exact this

end OpenNSA.Backend
