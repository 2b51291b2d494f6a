import Verif.Agg.Own
/- Handlers of messages about the connection, and about others, and what they may do while others run. -/
namespace OpenNSA.Agg
open OpenNSA Py Coro

/-- Objects with the connection's id that were not stored stay so: there is a row with that id already. -/
def Unborn (M : Mark) (w v : World) : Prop := ∀ (ref : Nat) o, w.cheap[ref]? = some o → o.isNew = true → o.row.cid = M.cid →
  ∃ o', v.cheap[ref]? = some o' ∧ o'.isNew = true ∧ o'.row.cid = M.cid

variable {M : Mark} {cfg : Cfg} {b : Bool} {α β : Type}

theorem Unborn.refl (w : World) : Unborn M w w := fun _ o h1 h2 h3 => ⟨o, h1, h2, h3⟩
theorem Unborn.trans {u v w : World} (h : Unborn M u v) (h' : Unborn M v w) : Unborn M u w := fun r o h1 h2 h3 => by
  obtain ⟨o', g1, g2, g3⟩ := h r o h1 h2 h3
  exact h' r o' g1 g2 g3
theorem Unborn.frame {w v : World} (h : v.cheap = w.cheap) : Unborn M w v := fun _ o h1 h2 h3 => ⟨o, by rw [h]; exact h1, h2, h3⟩

theorem Unborn.saveC {w : World} (h : Sep M w) (ref : Nat) : Unborn M w (w.saveC ref).1 := by
  intro i o h1 h2 h3
  simp only [World.saveC]
  cases ho : w.cheap[ref]? with
  | none => exact ⟨o, h1, h2, h3⟩
  | some x =>
    simp only
    split
    · split
      · exact ⟨o, h1, h2, h3⟩
      · rename_i hc
        have : ref ≠ i := by
          intro he; subst he
          obtain rfl := Option.some.inj (ho.symm.trans h1)
          obtain ⟨r, hr, hid⟩ := h.row
          simp only [CRow.id, Prod.mk.injEq] at hid
          refine hc ?_
          rw [Bool.or_eq_true, List.any_eq_true]
          exact Or.inl ⟨r, hr, by rw [decide_eq_true_eq, hid.2.1, h3]⟩
        refine ⟨o, ?_, h2, h3⟩
        show (w.cheap.set _ _)[i]? = _
        rw [getElem?_set_other this]; exact h1
    · exact ⟨o, h1, h2, h3⟩

theorem findSubs_cheap (l : List (Str × Str)) (w : World) : (w.findSubs l).1.cheap = w.cheap := by rw [findSubs_frame]
theorem saveS_cheap (w : World) (r : Nat) : (w.saveS r).1.cheap = w.cheap := by
  unfold World.saveS
  split
  · rfl
  · split
    · split <;> rfl
    · rfl
theorem saveSs_cheap (l : List Nat) : ∀ w : World, (w.saveSs l).cheap = w.cheap := by
  induction l with
  | nil => intro w; rfl
  | cons r rs ih => intro w; exact (ih _).trans (saveS_cheap w r)

theorem Unborn.exec {w : World} (h : Sep M w) {β : Type} (c : Cmd β) (hg : c.Guard cfg w) : Unborn M w (Agg.exec w c).1 := by
  cases c with
  | findConn cid =>
    simp only [Agg.exec]
    split
    · exact .refl w
    · exact fun _ o h1 h2 h3 => ⟨o, getElem?_app h1, h2, h3⟩
  | newC row => exact fun _ o h1 h2 h3 => ⟨o, getElem?_app h1, h2, h3⟩
  | saveC ref => exact Unborn.saveC h ref
  | setC ref row =>
    simp only [Agg.exec]
    cases ho : w.cheap[ref]? with
    | none => exact .refl w
    | some x =>
      intro i o h1 h2 h3
      simp only
      by_cases hi : ref = i
      · subst hi
        obtain rfl := Option.some.inj (ho.symm.trans h1)
        refine ⟨{ x with row }, ?_, h2, (hg x ho).1.trans h3⟩
        rw [List.getElem?_set, if_pos rfl, if_pos (List.getElem?_eq_some_iff.mp ho).1]
      · exact ⟨o, by rw [getElem?_set_other hi]; exact h1, h2, h3⟩
  | findSubs l => exact .frame (findSubs_cheap l w)
  | saveS r => exact .frame (saveS_cheap w r)
  | saveSs l => exact .frame (saveSs_cheap l w)
  | acks n => rw [exec_acks, acks_frame]; exact .frame rfl
  | newCid => simp only [Agg.exec]; split <;> exact .frame rfl
  | newCorr => simp only [Agg.exec]; split <;> exact .frame rfl
  | getC r => simp only [Agg.exec]; split <;> exact .frame rfl
  | getS r => simp only [Agg.exec]; split <;> exact .frame rfl
  | setS r row => simp only [Agg.exec]; split <;> exact .frame rfl
  | _ => exact .frame rfl

/-- All commands fit, whatever others do in between, and the result has `Q`. -/
def Tame (b : Bool) (cfg : Cfg) (M : Mark) {α : Type} : Prog α → World → (α → World → Prop) → Prop
  | .pure a, w, Q => Q a w
  | .throw _, _, _ => True
  | .cmd c k, w, Q => ∀ v, Keep w v → Unborn M w v → Ids cfg v → Sep M v →
      c.Fits b cfg M v ∧ Tame b cfg M (k (exec v c).2) (exec v c).1 Q

/-- The same, in states with the invariants. -/
def Tm (b : Bool) (cfg : Cfg) (M : Mark) {α : Type} (p : Prog α) (w : World) (Q : α → World → Prop) : Prop :=
  Ids cfg w → Sep M w → Tame b cfg M p w Q

theorem Tame.bind {p : Prog α} {f : α → Prog β} {Q : α → World → Prop} {R : β → World → Prop} {w0 : World} : ∀ {w : World}, Keep w0 w → Ids cfg w → Sep M w →
    Tame b cfg M p w Q → (∀ a v, Keep w0 v → Ids cfg v → Sep M v → Q a v → Tame b cfg M (f a) v R) → Tame b cfg M (p >>= f) w R := by
  induction p with
  | pure a => intro w hk hi hs hp hf; exact hf a w hk hi hs hp
  | throw e => intro w _ _ _ _ _; trivial
  | cmd c k ih =>
    intro w hk hi hs hp hf v hv hfr hiv hsv
    obtain ⟨h1, h2⟩ := hp v hv hfr hiv hsv
    have he := hiv.exec c h1.1
    exact ⟨h1, ih _ ((hk.trans hv).trans he.2) he.1 (hsv.exec hiv c h1).1 h2 hf⟩

/-- The invariants. -/
abbrev Inv2 (cfg : Cfg) (M : Mark) (v : World) : Prop := Ids cfg v ∧ Sep M v

theorem Tm.bind {p : Prog α} {f : α → Prog β} {w : World} {Q : α → World → Prop} {R : β → World → Prop} (hp : Tm b cfg M p w Q)
    (hf : ∀ a v, Keep w v → Inv2 cfg M v → Q a v → Tm b cfg M (f a) v R) : Tm b cfg M (p >>= f) w R :=
  fun hi hs => Tame.bind (.refl w) hi hs (hp hi hs) fun a v hk hi hs hq => hf a v hk ⟨hi, hs⟩ hq hi hs

theorem Tm.pure {a : α} {w : World} {Q : α → World → Prop} (h : Inv2 cfg M w → Q a w) : Tm b cfg M (Coro.pure a) w Q := fun h1 h2 => h ⟨h1, h2⟩
theorem Tm.throw {e : Err} {w : World} {Q : α → World → Prop} : Tm b cfg M (Coro.throw e) w Q := fun _ _ => trivial
theorem Tm.ofExcept {r : Except Err α} {w : World} : Tm b cfg M (Coro.ofExcept r) w fun _ _ => True := by
  cases r with
  | ok a => exact Tm.pure fun _ => trivial
  | error e => exact Tm.throw

theorem Tame.mono {p : Prog α} {Q R : α → World → Prop} {w0 : World} : ∀ {w : World}, Keep w0 w → Ids cfg w → Sep M w → Tame b cfg M p w Q →
    (∀ a v, Keep w0 v → Ids cfg v → Sep M v → Q a v → R a v) → Tame b cfg M p w R := by
  induction p with
  | pure a => intro w hk hi hs hp h; exact h a w hk hi hs hp
  | throw e => intro w _ _ _ _ _; trivial
  | cmd c k ih =>
    intro w hk hi hs hp h v hv hfr hiv hsv
    obtain ⟨h1, h2⟩ := hp v hv hfr hiv hsv
    have he := hiv.exec c h1.1
    exact ⟨h1, ih _ ((hk.trans hv).trans he.2) he.1 (hsv.exec hiv c h1).1 h2 h⟩

theorem Tm.mono {p : Prog α} {w : World} {Q R : α → World → Prop} (hp : Tm b cfg M p w Q) (h : ∀ a v, Keep w v → Inv2 cfg M v → Q a v → R a v) :
    Tm b cfg M p w R := fun hi hs => Tame.mono (.refl w) hi hs (hp hi hs) fun a v hk hi hs => h a v hk ⟨hi, hs⟩

theorem Tm.cmd {c : Cmd β} {w : World} {Q : β → World → Prop} (hg : ∀ v, Keep w v → Inv2 cfg M v → c.Fits b cfg M v)
    (h : ∀ v r, Keep w v → Inv2 cfg M v → Inv2 cfg M (exec v c).1 → (exec v c).2 = .ok r → Q r (exec v c).1) : Tm b cfg M (issue c) w Q := by
  intro _ _ v hv _ hiv hsv
  have hf := hg v hv ⟨hiv, hsv⟩
  refine ⟨hf, ?_⟩
  cases hr : (exec v c).2 with
  | ok r => exact h v r hv ⟨hiv, hsv⟩ ⟨(hiv.exec c hf.1).1, (hsv.exec hiv c hf).1⟩ hr
  | error e => trivial

theorem Tm.cmd' {c : Cmd β} {w : World} (hg : ∀ v, Keep w v → Inv2 cfg M v → c.Fits b cfg M v) : Tm b cfg M (issue c) w fun _ _ => True :=
  Tm.cmd hg fun _ _ _ _ _ _ => trivial

/-- A command that fits always. -/
theorem fits_of {c : Cmd β} {v : World} (h1 : c.Guard cfg v) (h2 : c.Mild) (h3 : c.Away M v) : c.Fits b cfg M v := by
  refine ⟨h1, ?_⟩
  cases b
  · exact h3
  · exact h2

theorem Tm.free {c : Cmd β} {w : World} (h1 : ∀ v, c.Guard cfg v) (h2 : c.Mild) (h3 : ∀ v, c.Away M v) : Tm b cfg M (issue c) w fun _ _ => True :=
  Tm.cmd' fun v _ _ => fits_of (h1 v) h2 (h3 v)

/-- For commands without conditions. -/
macro "tfree" : term => `(Tm.free (fun _ => trivial) trivial (fun _ => trivial))

/-! ### Objects of other connections -/

/-- An object standing for a connection; in a handler for another connection, not for ours. -/
def ConnF (b : Bool) (M : Mark) (w : World) (ref : Nat) : Prop := ∃ id, IsC w ref id ∧ (b = false → id.1 ≠ M.key ∧ id.2.1 ≠ M.cid)
/-- An object standing for a segment; in a handler for another connection, not for one of ours. -/
def SegF (b : Bool) (M : Mark) (w : World) (ref : Nat) : Prop := ∃ id, IsS w ref id ∧ (b = false → id.2.1 ≠ M.key ∧ id.2.2.1 ∉ M.segs)

theorem ConnF.keep {w w' : World} (hk : Keep w w') {ref : Nat} (h : ConnF b M w ref) : ConnF b M w' ref := by
  obtain ⟨id, h, h'⟩ := h; exact ⟨id, h.keep hk, h'⟩
theorem SegF.keep {w w' : World} (hk : Keep w w') {ref : Nat} (h : SegF b M w ref) : SegF b M w' ref := by
  obtain ⟨id, h, h'⟩ := h; exact ⟨id, h.keep hk, h'⟩

theorem row_key {w : World} (hi : Ids cfg w) (hs : Sep M w) {r : CRow} (hr : r ∈ w.conns) : r.key = M.key ↔ r.cid = M.cid := by
  obtain ⟨r0, h0, hid⟩ := hs.row
  simp only [CRow.id, Prod.mk.injEq] at hid
  constructor
  · intro h
    rw [nodup_map_inj hi.ckeys hr h0 (h.trans hid.1.symm)]; exact hid.2.1
  · intro h
    rw [nodup_map_inj hi.ccids hr h0 (h.trans hid.2.1.symm)]; exact hid.1

theorem isC_key {w : World} (hi : Ids cfg w) (hs : Sep M w) {ref : Nat} {id : Nat × Str × Str} (h : IsC w ref id) : id.1 = M.key ↔ id.2.1 = M.cid := by
  obtain ⟨o, h1, h2, h3⟩ := h
  obtain ⟨r, hr, hid⟩ := hi.cobj ref o h1 h2
  have := row_key hi hs hr
  rw [← h3, ← hid]; exact this

theorem isS_key {w : World} (hs : Sep M w) {ref : Nat} {id : Nat × Nat × Str × Str × Nat} (h : IsS w ref id) : id.2.1 = M.key ↔ id.2.2.1 ∈ M.segs := by
  obtain ⟨o, h1, h2, h3⟩ := h
  have := hs.sobj ref o h1
  rw [← h3]; exact this

theorem ConnF.ofCid {w : World} (hi : Ids cfg w) (hs : Sep M w) {ref : Nat} {id : Nat × Str × Str} (h : IsC w ref id) (hn : b = false → id.2.1 ≠ M.cid) :
    ConnF b M w ref := ⟨id, h, fun hb => ⟨fun he => hn hb ((isC_key hi hs h).mp he), hn hb⟩⟩
theorem ConnF.ofKey {w : World} (hi : Ids cfg w) (hs : Sep M w) {ref : Nat} {id : Nat × Str × Str} (h : IsC w ref id) (hn : b = false → id.1 ≠ M.key) :
    ConnF b M w ref := ⟨id, h, fun hb => ⟨hn hb, fun he => hn hb ((isC_key hi hs h).mpr he)⟩⟩
theorem SegF.ofCid {w : World} (hs : Sep M w) {ref : Nat} {id : Nat × Nat × Str × Str × Nat} (h : IsS w ref id) (hn : b = false → id.2.2.1 ∉ M.segs) :
    SegF b M w ref := ⟨id, h, fun hb => ⟨fun he => hn hb ((isS_key hs h).mp he), hn hb⟩⟩

theorem Tm.getC {ref : Nat} {w : World} {id : Nat × Str × Str} (hc : IsC w ref id) :
    Tm b cfg M (issue (.getC ref)) w (fun row v => IsC v ref id ∧ row.id = id) := by
  refine Tm.cmd (fun _ _ _ => fits_of trivial trivial trivial) fun v row hk _ _ hb => ?_
  obtain ⟨o, h1, h2, h3⟩ := hc.keep hk
  simp only [exec, h1, Except.ok.injEq] at hb ⊢
  subst hb
  exact ⟨⟨o, h1, h2, h3⟩, h3⟩

theorem Tm.getCF {ref : Nat} {w : World} (hc : ConnF b M w ref) :
    Tm b cfg M (issue (.getC ref)) w (fun row v => IsC v ref row.id ∧ (b = false → row.key ≠ M.key ∧ row.cid ≠ M.cid)) := by
  obtain ⟨id, h1, h2⟩ := hc
  refine (Tm.getC h1).mono fun row v _ _ h => ?_
  obtain ⟨g1, rfl⟩ := h
  exact ⟨g1, h2⟩

theorem Tm.getS {ref : Nat} {w : World} {id : Nat × Nat × Str × Str × Nat} (hc : IsS w ref id) :
    Tm b cfg M (issue (.getS ref)) w (fun row v => IsS v ref id ∧ row.id = id) := by
  refine Tm.cmd (fun _ _ _ => fits_of trivial trivial trivial) fun v row hk _ _ hb => ?_
  obtain ⟨o, h1, h2, h3⟩ := hc.keep hk
  simp only [exec, h1, Except.ok.injEq] at hb ⊢
  subst hb
  exact ⟨⟨o, h1, h2, h3⟩, h3⟩

theorem Tm.getSF {ref : Nat} {w : World} (hc : SegF b M w ref) :
    Tm b cfg M (issue (.getS ref)) w (fun row v => IsS v ref row.id ∧ (b = false → row.skey ≠ M.key ∧ row.cid ∉ M.segs)) := by
  obtain ⟨id, h1, h2⟩ := hc
  refine (Tm.getS h1).mono fun row v _ _ h => ?_
  obtain ⟨g1, rfl⟩ := h
  exact ⟨g1, h2⟩

theorem fits_split {c : Cmd β} {v : World} (h1 : c.Guard cfg v) (h2 : c.Mild) (h3 : b = false → c.Away M v) : c.Fits b cfg M v := by
  refine ⟨h1, ?_⟩
  cases b
  · exact h3 rfl
  · exact h2

theorem Tm.setC {ref : Nat} {row : CRow} {w : World} (hc : IsC w ref row.id) (hn : b = false → row.key ≠ M.key) :
    Tm b cfg M (issue (.setC ref row)) w (fun _ _ => True) := by
  refine Tm.cmd' fun v hk _ => ?_
  obtain ⟨o', h1, h2, h3⟩ := hc.keep hk
  simp only [CRow.id, Prod.mk.injEq] at h3
  refine fits_split (fun o ho => ?_) trivial fun hb o ho => ?_
  · obtain rfl := Option.some.inj (ho.symm.trans h1)
    exact ⟨h3.2.1.symm, h3.2.2.symm, fun _ => h3.1.symm⟩
  · obtain rfl := Option.some.inj (ho.symm.trans h1)
    exact fun h => hn hb (h3.1.symm.trans h.2)

theorem Tm.setS {ref : Nat} {row : SRow} {w : World} (hc : IsS w ref row.id) (hn : b = false → row.skey ≠ M.key) :
    Tm b cfg M (issue (.setS ref row)) w (fun _ _ => True) := by
  refine Tm.cmd' fun v hk _ => ?_
  obtain ⟨o', h1, h2, h3⟩ := hc.keep hk
  simp only [SRow.id, Prod.mk.injEq] at h3
  refine fits_split (fun o ho => ?_) trivial fun hb o ho => ?_
  · obtain rfl := Option.some.inj (ho.symm.trans h1)
    exact ⟨h3.2.2.1.symm, h3.2.2.2.1.symm, h3.2.1.symm, h3.2.2.2.2.symm, fun _ => h3.1.symm⟩
  · obtain rfl := Option.some.inj (ho.symm.trans h1)
    rw [h3.2.1]; exact hn hb

theorem Tm.saveC {ref : Nat} {w : World} (hc : ConnF b M w ref) : Tm b cfg M (issue (.saveC ref)) w (fun _ _ => True) := by
  obtain ⟨id, h, hn⟩ := hc
  refine Tm.cmd' fun v hk _ => fits_split trivial trivial fun hb o ho hh => ?_
  obtain ⟨o', h1, h2, h3⟩ := h.keep hk
  obtain rfl := Option.some.inj (ho.symm.trans h1)
  exact (hn hb).1 (by rw [← h3]; exact hh.2)

theorem SegF.away {w : World} {ref : Nat} (h : SegF false M w ref) {o : Obj SRow} (ho : w.sheap[ref]? = some o) : o.row.skey ≠ M.key := by
  obtain ⟨id, ⟨o', h1, _, h3⟩, hn⟩ := h
  obtain rfl := Option.some.inj (ho.symm.trans h1)
  have := (hn rfl).1
  rw [← h3] at this; exact this

theorem Tm.saveS {ref : Nat} {w : World} (hc : SegF b M w ref) : Tm b cfg M (issue (.saveS ref)) w (fun _ _ => True) :=
  Tm.cmd' fun v hk _ => fits_split trivial trivial fun hb o ho => by subst hb; exact (hc.keep hk).away ho

theorem Tm.saveSs {refs : List Nat} {w : World} (hc : ∀ r ∈ refs, SegF b M w r) : Tm b cfg M (issue (.saveSs refs)) w (fun _ _ => True) :=
  Tm.cmd' fun v hk _ => fits_split trivial trivial fun hb r hr o ho => by subst hb; exact ((hc r hr).keep hk).away ho

end OpenNSA.Agg
