import Verif.Agg.IdsRun
import Verif.Agg.Life
/-
One connection among others: what belongs to it, and what handlers of messages about other connections do not touch.
-/
namespace OpenNSA.Agg
open OpenNSA Py Coro

/-- The connection looked at: key, connection id, requester, and the ids of its segments. -/
structure Mark where
  key : Nat
  cid : Str
  req : Str
  segs : List Str

variable {M : Mark} {cfg : Cfg} {w w' v : World}

/-- What belongs to the connection can be told from what belongs to others, and nothing is outstanding for it. -/
structure Sep (M : Mark) (w : World) : Prop where
  row : ∃ r ∈ w.conns, r.id = (M.key, M.cid, M.req)
  subs : ∀ s ∈ w.subs, s.skey = M.key ↔ s.cid ∈ M.segs
  sobj : ∀ (ref : Nat) o, w.sheap[ref]? = some o → (o.row.skey = M.key ↔ o.row.cid ∈ M.segs)
  resv : ∀ e ∈ w.resv, e.2.skey ≠ M.key
  qreqs : ∀ e ∈ w.qreqs, ∀ id, IsC w e.2.conn id → id.1 ≠ M.key

/-- What belongs to the connection is the same: its rows, the objects standing for them, and what has been sent about it. -/
structure Apart (M : Mark) (w v : World) : Prop where
  conns : v.conns.filter (fun r => decide (r.key = M.key)) = w.conns.filter fun r => decide (r.key = M.key)
  subs : v.subs.filter (fun s => decide (s.skey = M.key)) = w.subs.filter fun s => decide (s.skey = M.key)
  cobj : ∀ (ref : Nat) o, w.cheap[ref]? = some o → o.isNew = false → o.row.key = M.key → v.cheap[ref]? = some o
  sobj : ∀ (ref : Nat) o, w.sheap[ref]? = some o → o.row.skey = M.key → v.sheap[ref]? = some o
  ccache : dget v.ccache M.cid = dget w.ccache M.cid
  scache : ∀ c ∈ M.segs, dget v.scache c = dget w.scache c
  outs : v.outbox.filter (fun o => decide (o.about = some M.cid)) = w.outbox.filter fun o => decide (o.about = some M.cid)

theorem Apart.refl (w : World) : Apart M w w := ⟨rfl, rfl, fun _ _ h _ _ => h, fun _ _ h _ => h, rfl, fun _ _ => rfl, rfl⟩

theorem Apart.trans {a b c : World} (h : Apart M a b) (h' : Apart M b c) : Apart M a c :=
  ⟨h'.conns.trans h.conns, h'.subs.trans h.subs, fun r o h1 h2 h3 => h'.cobj r o (h.cobj r o h1 h2 h3) h2 h3,
    fun r o h1 h2 => h'.sobj r o (h.sobj r o h1 h2) h2, h'.ccache.trans h.ccache, fun x hx => (h'.scache x hx).trans (h.scache x hx), h'.outs.trans h.outs⟩

/-- The command does not touch the connection. -/
def Cmd.Away (M : Mark) (w : World) {β : Type} : Cmd β → Prop
  | .setC ref _ => ∀ o, w.cheap[ref]? = some o → ¬ (o.isNew = false ∧ o.row.key = M.key)
  | .saveC ref => ∀ o, w.cheap[ref]? = some o → ¬ (o.isNew = false ∧ o.row.key = M.key)
  | .setS ref _ => ∀ o, w.sheap[ref]? = some o → o.row.skey ≠ M.key
  | .saveS ref => ∀ o, w.sheap[ref]? = some o → o.row.skey ≠ M.key
  | .saveSs refs => ∀ ref ∈ refs, ∀ o, w.sheap[ref]? = some o → o.row.skey ≠ M.key
  | .cacheC c _ => c ≠ M.cid
  | .cacheS c _ => c ∉ M.segs
  | .newS row => row.skey ≠ M.key ∧ row.cid ∉ M.segs
  | .addResv _ r => r.skey ≠ M.key
  | .addQReq _ r => ∀ id, IsC w r.conn id → id.1 ≠ M.key
  | .emit o => o.about ≠ some M.cid
  | _ => True

/-- The command does not ask for new segments or start a query. -/
def Cmd.Mild {β : Type} : Cmd β → Prop
  | .newS _ => False
  | .addResv _ _ => False
  | .addQReq _ _ => False
  | _ => True

/-- What is required of the commands of a handler: of one for the connection (`b`), or for another one. -/
def Cmd.Fits (b : Bool) (cfg : Cfg) (M : Mark) (w : World) {β : Type} (c : Cmd β) : Prop :=
  c.Guard cfg w ∧ if b then c.Mild else c.Away M w

theorem IsC.unique {w : World} {ref : Nat} {a b : Nat × Str × Str} (h : IsC w ref a) (h' : IsC w ref b) : a = b := by
  obtain ⟨o, h1, _, h3⟩ := h
  obtain ⟨o', g1, _, g3⟩ := h'
  obtain rfl := Option.some.inj (h1.symm.trans g1)
  exact h3.symm.trans g3

theorem Sep.of (h : Sep M w) (hi : Ids cfg w) (hk : Keep w w') (h1 : ∀ s ∈ w'.subs, s.skey = M.key ↔ s.cid ∈ M.segs)
    (h2 : ∀ (ref : Nat) o, w'.sheap[ref]? = some o → (o.row.skey = M.key ↔ o.row.cid ∈ M.segs)) (h3 : ∀ e ∈ w'.resv, e.2.skey ≠ M.key)
    (h4 : ∀ e ∈ w'.qreqs, e ∈ w.qreqs) : Sep M w' := by
  refine ⟨?_, h1, h2, h3, fun e he id hid => ?_⟩
  · obtain ⟨r, hr, hid⟩ := h.row
    obtain ⟨r', hr', hid'⟩ := hk.conns r hr
    exact ⟨r', hr', hid'.trans hid⟩
  · obtain ⟨id0, h0⟩ := hi.qfk e (h4 e he)
    rw [hid.unique (h0.keep hk)]
    exact h.qreqs e (h4 e he) id0 h0

theorem Sep.same (h : Sep M w) (hi : Ids cfg w) (hk : Keep w w') (h1 : w'.subs = w.subs) (h2 : w'.sheap = w.sheap) (h3 : w'.resv = w.resv)
    (h4 : w'.qreqs = w.qreqs) : Sep M w' :=
  h.of hi hk (by rw [h1]; exact h.subs) (by rw [h2]; exact h.sobj) (by rw [h3]; exact h.resv) (by rw [h4]; exact fun _ h => h)

theorem Apart.frame (h1 : w'.conns = w.conns) (h2 : w'.subs = w.subs) (h3 : w'.cheap = w.cheap) (h4 : w'.sheap = w.sheap) (h5 : w'.ccache = w.ccache)
    (h6 : w'.scache = w.scache) (h7 : w'.outbox = w.outbox) : Apart M w w' :=
  ⟨by rw [h1], by rw [h2], by rw [h3]; exact fun _ _ h _ _ => h, by rw [h4]; exact fun _ _ h _ => h, by rw [h5], by rw [h6]; exact fun _ _ => rfl, by rw [h7]⟩

theorem getElem?_app {ρ : Type} {l : List ρ} {x o : ρ} {i : Nat} (h : l[i]? = some o) : (l ++ [x])[i]? = some o := by
  rw [List.getElem?_append_left]; exact h
  exact (List.getElem?_eq_some_iff.mp h).1

theorem getElem?_app_cases {ρ : Type} {l : List ρ} {x o : ρ} {i : Nat} (h : (l ++ [x])[i]? = some o) : l[i]? = some o ∨ o = x := by
  rcases Nat.lt_or_ge i l.length with hlt | hge
  · exact Or.inl (by simpa [List.getElem?_append_left hlt] using h)
  · rw [List.getElem?_append_right hge] at h
    cases hd : i - l.length with
    | zero => rw [hd] at h; exact Or.inr (by simpa using h.symm)
    | succ n => rw [hd] at h; simp at h

theorem getElem?_set_cases {ρ : Type} {l : List ρ} {x o : ρ} {r i : Nat} (h : (l.set r x)[i]? = some o) : (r = i ∧ o = x) ∨ (r ≠ i ∧ l[i]? = some o) := by
  rw [List.getElem?_set] at h
  split at h
  · rename_i hi
    split at h
    · exact Or.inl ⟨hi, by simpa using h.symm⟩
    · simp at h
  · rename_i hi; exact Or.inr ⟨hi, h⟩

theorem getElem?_set_other {ρ : Type} {l : List ρ} {x : ρ} {r i : Nat} (h : r ≠ i) : (l.set r x)[i]? = l[i]? := by
  rw [List.getElem?_set, if_neg h]

theorem setCRow_filter {rows : List CRow} {row : CRow} {key : Nat} (h : row.key ≠ key) :
    (setCRow rows row).filter (fun r => decide (r.key = key)) = rows.filter fun r => decide (r.key = key) := by
  unfold setCRow
  induction rows with
  | nil => rfl
  | cons r rs ih =>
    simp only [List.map_cons, List.filter_cons, ih]
    split
    · rename_i hr; simp [h, hr]
    · rfl

theorem setSRow_filter {rows : List SRow} {row : SRow} {key : Nat} (h : row.skey ≠ key) (hr : ∀ s ∈ rows, s.key = row.key → s.skey ≠ key) :
    (setSRow rows row).filter (fun r => decide (r.skey = key)) = rows.filter fun r => decide (r.skey = key) := by
  unfold setSRow
  induction rows with
  | nil => rfl
  | cons r rs ih =>
    simp only [List.map_cons, List.filter_cons, ih (fun s hs => hr s (by simp [hs]))]
    split
    · rename_i he; simp [h, hr r (by simp) he]
    · rfl

/-- The rows written by a save. -/
theorem Ids.rowOf (h : Ids cfg w) {ref : Nat} {o : Obj SRow} (ho : w.sheap[ref]? = some o) (hn : o.isNew = false) {s : SRow} (hs : s ∈ w.subs)
    (hk : s.key = o.row.key) : s.id = o.row.id := by
  obtain ⟨s', hs', hid⟩ := h.sobj ref o ho hn
  have : s = s' := nodup_map_inj h.skeys hs hs' (by rw [hk]; simp only [SRow.id, Prod.mk.injEq] at hid; exact hid.1.symm)
  rw [this]; exact hid

theorem Sep.saveS (h : Sep M w) (hi : Ids cfg w) (ref : Nat) : Sep M (w.saveS ref).1 := by
  have hk := (hi.saveS ref).2
  simp only [World.saveS] at hk ⊢
  cases ho : w.sheap[ref]? with
  | none => exact h
  | some o =>
    rw [ho] at hk
    simp only at hk ⊢
    split at hk
    · rename_i hn
      rw [if_pos hn]
      split at hk
      · rename_i hc; rw [if_pos hc]; exact h
      · rename_i hc; rw [if_neg hc]
        refine h.of hi hk (fun s hs => ?_) (fun i x hx => ?_) h.resv (fun _ h => h)
        · rcases List.mem_append.mp hs with hs | hs
          · exact h.subs s hs
          · rw [List.mem_singleton.mp hs]; exact h.sobj ref o ho
        · rcases getElem?_set_cases hx with ⟨_, rfl⟩ | ⟨_, hx⟩
          · exact h.sobj ref o ho
          · exact h.sobj i x hx
    · rename_i hn
      rw [if_neg hn]
      have hn' : o.isNew = false := by simpa using hn
      refine h.of hi hk (fun s hs => ?_) h.sobj h.resv (fun _ h => h)
      obtain ⟨s', hs', hid⟩ := mem_id (setSRow_id hi.skeys (hi.sobj ref o ho hn')).symm hs
      simp only [SRow.id, Prod.mk.injEq] at hid
      rw [← hid.2.1, ← hid.2.2.1]
      exact h.subs s' hs'

theorem Apart.saveS (hi : Ids cfg w) {ref : Nat} (ha : ∀ o, w.sheap[ref]? = some o → o.row.skey ≠ M.key) : Apart M w (w.saveS ref).1 := by
  simp only [World.saveS]
  cases ho : w.sheap[ref]? with
  | none => exact .refl w
  | some o =>
    have hne := ha o ho
    simp only
    split
    · split
      · exact .refl w
      · refine ⟨rfl, ?_, fun _ _ h _ _ => h, fun i x hx hk => ?_, rfl, fun _ _ => rfl, rfl⟩
        · simp [List.filter_append, hne]
        · have : ref ≠ i := fun he => by subst he; exact ha x hx hk
          show (w.sheap.set _ _)[i]? = _
          rw [getElem?_set_other this]; exact hx
    · rename_i hn
      have hn' : o.isNew = false := by simpa using hn
      refine ⟨rfl, setSRow_filter hne fun s hs hk => ?_, fun _ _ h _ _ => h, fun _ _ h _ => h, rfl, fun _ _ => rfl, rfl⟩
      have := hi.rowOf ho hn' hs hk
      simp only [SRow.id, Prod.mk.injEq] at this
      rw [this.2.1]; exact hne

theorem Sep.saveSs (refs : List Nat) : ∀ {w : World}, Sep M w → Ids cfg w → Sep M (w.saveSs refs) := by
  induction refs with
  | nil => intro w h _; exact h
  | cons r rs ih => intro w h hi; exact ih (h.saveS hi r) (hi.saveS r).1

theorem Apart.saveSs (refs : List Nat) : ∀ {w : World}, Ids cfg w → (∀ ref ∈ refs, ∀ o, w.sheap[ref]? = some o → o.row.skey ≠ M.key) →
    Apart M w (w.saveSs refs) := by
  induction refs with
  | nil => intro w _ _; exact .refl w
  | cons r rs ih =>
    intro w hi ha
    have h1 : Apart M w (w.saveS r).1 := Apart.saveS hi (ha r (by simp))
    refine h1.trans (ih (hi.saveS r).1 fun ref hr o ho => ?_)
    rcases hw : w.sheap[ref]? with _ | o0
    · exfalso
      have : (w.saveS r).1.sheap.length = w.sheap.length := by
        simp only [World.saveS]
        split
        · rfl
        · split
          · split
            · rfl
            · simp
          · rfl
      have h2 := (List.getElem?_eq_some_iff.mp ho).1
      rw [this] at h2
      rw [List.getElem?_eq_none_iff] at hw
      omega
    · obtain ⟨o', g1, _, _, g2, _⟩ := (hi.saveS r).2.sobj ref o0 hw
      obtain rfl := Option.some.inj (ho.symm.trans g1)
      rw [g2]
      exact ha ref (by simp [hr]) o0 hw

theorem Sep.findSub (h : Sep M w) (hi : Ids cfg w) (x : Str × Str) : Sep M (w.findSub x).1 := by
  have hk := (hi.findSub x).2.1
  unfold World.findSub at hk ⊢
  split
  · exact h
  · rename_i r hf
    rw [hf] at hk
    refine h.of hi hk h.subs (fun i o ho => ?_) h.resv (fun _ h => h)
    rcases getElem?_app_cases ho with ho | rfl
    · exact h.sobj i o ho
    · exact h.subs r (List.mem_of_find?_eq_some hf)

theorem Apart.findSub (x : Str × Str) : Apart M w (w.findSub x).1 := by
  unfold World.findSub
  split
  · exact .refl w
  · exact ⟨rfl, rfl, fun _ _ h _ _ => h, fun _ _ h _ => getElem?_app h, rfl, fun _ _ => rfl, rfl⟩

theorem Sep.findSubs (l : List (Str × Str)) : ∀ {w : World}, Sep M w → Ids cfg w → Sep M (w.findSubs l).1 := by
  induction l with
  | nil => intro w h _; exact h
  | cons x xs ih => intro w h hi; exact ih (h.findSub hi x) (hi.findSub x).1

theorem Apart.findSubs (l : List (Str × Str)) : ∀ {w : World}, Apart M w (w.findSubs l).1 := by
  induction l with
  | nil => intro w; exact .refl w
  | cons x xs ih => intro w; exact (Apart.findSub x).trans ih

theorem Apart.saveC (hi : Ids cfg w) (h : Sep M w) {ref : Nat} (ha : ∀ o, w.cheap[ref]? = some o → ¬ (o.isNew = false ∧ o.row.key = M.key)) :
    Apart M w (w.saveC ref).1 := by
  simp only [World.saveC]
  cases ho : w.cheap[ref]? with
  | none => exact .refl w
  | some o =>
    have hne := ha o ho
    simp only
    split
    · split
      · exact .refl w
      · obtain ⟨r, hr, hid⟩ := h.row
        have hlt := hi.ckeyb r hr
        simp only [CRow.id, Prod.mk.injEq] at hid
        refine ⟨?_, rfl, fun i x hx hn hk => ?_, fun _ _ h _ => h, rfl, fun _ _ => rfl, rfl⟩
        · have : w.ckey ≠ M.key := by omega
          simp [List.filter_append, this]
        · have : ref ≠ i := fun he => by subst he; exact ha x hx ⟨hn, hk⟩
          show (w.cheap.set _ _)[i]? = _
          rw [getElem?_set_other this]; exact hx
    · rename_i hn
      have hn' : o.isNew = false := by simpa using hn
      exact ⟨setCRow_filter fun he => hne ⟨hn', he⟩, rfl, fun _ _ h _ _ => h, fun _ _ h _ => h, rfl, fun _ _ => rfl, rfl⟩

/-- What a fitting command does. -/
theorem Sep.exec {b : Bool} (h : Sep M w) (hi : Ids cfg w) {β : Type} (c : Cmd β) (hf : c.Fits b cfg M w) :
    Sep M (exec w c).1 ∧ (b = false → Apart M w (exec w c).1) := by
  have hk := (hi.exec c hf.1).2
  obtain ⟨hg, hf⟩ := hf
  cases c with
  | existsConn cid => exact ⟨h, fun _ => .refl w⟩
  | findConnByKey key => exact ⟨h, fun _ => .refl w⟩
  | findConn cid =>
    simp only [Agg.exec] at hk ⊢
    cases hq : w.conns.find? (fun r => r.cid = cid) with
    | none => exact ⟨h, fun _ => .refl w⟩
    | some r =>
      rw [hq] at hk
      exact ⟨h.same hi hk rfl rfl rfl rfl, fun _ => ⟨rfl, rfl, fun _ _ h _ _ => getElem?_app h, fun _ _ h _ => h, rfl, fun _ _ => rfl, rfl⟩⟩
  | selectSubs key => exact ⟨h, fun _ => .refl w⟩
  | findSubs l => exact ⟨h.findSubs l hi, fun _ => Apart.findSubs l⟩
  | findConns r c => exact ⟨h, fun _ => .refl w⟩
  | saveC ref =>
    refine ⟨?_, fun hb => Apart.saveC hi h (by subst hb; exact hf)⟩
    have h1 : (w.saveC ref).1.subs = w.subs ∧ (w.saveC ref).1.sheap = w.sheap ∧ (w.saveC ref).1.resv = w.resv ∧ (w.saveC ref).1.qreqs = w.qreqs := by
      unfold World.saveC
      split
      · exact ⟨rfl, rfl, rfl, rfl⟩
      · split
        · split <;> exact ⟨rfl, rfl, rfl, rfl⟩
        · exact ⟨rfl, rfl, rfl, rfl⟩
    exact h.same hi hk h1.1 h1.2.1 h1.2.2.1 h1.2.2.2
  | saveS ref => exact ⟨h.saveS hi ref, fun hb => Apart.saveS hi (by subst hb; exact hf)⟩
  | saveSs refs => exact ⟨h.saveSs refs hi, fun hb => Apart.saveSs refs hi (by subst hb; exact hf)⟩
  | newCid =>
    simp only [Agg.exec] at hk ⊢
    split
    · exact ⟨h, fun _ => .refl w⟩
    · rename_i hq
      rw [hq] at hk
      exact ⟨h.same hi hk rfl rfl rfl rfl, fun _ => .frame rfl rfl rfl rfl rfl rfl rfl⟩
  | acks n =>
    rw [exec_acks] at hk ⊢
    rw [acks_frame] at hk ⊢
    exact ⟨h.same hi hk rfl rfl rfl rfl, fun _ => .frame rfl rfl rfl rfl rfl rfl rfl⟩
  | newC row => exact ⟨h.same hi hk rfl rfl rfl rfl, fun _ => ⟨rfl, rfl, fun _ _ h _ _ => getElem?_app h, fun _ _ h _ => h, rfl, fun _ _ => rfl, rfl⟩⟩
  | newS row =>
    cases b with
    | true => exact hf.elim
    | false =>
      refine ⟨h.of hi hk h.subs (fun i o ho => ?_) h.resv (fun _ h => h),
        fun _ => ⟨rfl, rfl, fun _ _ h _ _ => h, fun _ _ h _ => getElem?_app h, rfl, fun _ _ => rfl, rfl⟩⟩
      rcases getElem?_app_cases ho with ho | rfl
      · exact h.sobj i o ho
      · exact ⟨fun he => absurd he hf.1, fun he => absurd he hf.2⟩
  | getC ref =>
    simp only [Agg.exec]
    split <;> exact ⟨h, fun _ => .refl w⟩
  | setC ref row =>
    simp only [Agg.exec] at hk ⊢
    cases ho : w.cheap[ref]? with
    | none => exact ⟨h, fun _ => .refl w⟩
    | some o =>
      rw [ho] at hk
      refine ⟨h.same hi hk rfl rfl rfl rfl, fun hb => ⟨rfl, rfl, fun i x hx hn hkey => ?_, fun _ _ h _ => h, rfl, fun _ _ => rfl, rfl⟩⟩
      subst hb
      have : ref ≠ i := fun he => by subst he; exact hf x hx ⟨hn, hkey⟩
      show (w.cheap.set _ _)[i]? = _
      rw [getElem?_set_other this]; exact hx
  | getS ref =>
    simp only [Agg.exec]
    split <;> exact ⟨h, fun _ => .refl w⟩
  | setS ref row =>
    simp only [Agg.exec] at hk ⊢
    cases ho : w.sheap[ref]? with
    | none => exact ⟨h, fun _ => .refl w⟩
    | some o =>
      rw [ho] at hk
      have hg' := hg o ho
      refine ⟨h.of hi hk h.subs (fun i x hx => ?_) h.resv (fun _ h => h), fun hb => ⟨rfl, rfl, fun _ _ h _ _ => h, fun i x hx hkey => ?_, rfl, fun _ _ => rfl, rfl⟩⟩
      · rcases getElem?_set_cases hx with ⟨_, rfl⟩ | ⟨_, hx⟩
        · simp only
          rw [hg'.2.2.1, hg'.1]
          exact h.sobj ref o ho
        · exact h.sobj i x hx
      · subst hb
        have : ref ≠ i := fun he => by subst he; exact hf x hx hkey
        show (w.sheap.set _ _)[i]? = _
        rw [getElem?_set_other this]; exact hx
  | cachedC cid => exact ⟨h, fun _ => .refl w⟩
  | cacheC cid ref =>
    refine ⟨h.same hi hk rfl rfl rfl rfl, fun hb => ⟨rfl, rfl, fun _ _ h _ _ => h, fun _ _ h _ => h, ?_, fun _ _ => rfl, rfl⟩⟩
    subst hb
    simp only [Agg.exec, dget_dset]
    rw [if_neg hf]
  | cachedS cid => exact ⟨h, fun _ => .refl w⟩
  | cacheS cid ref =>
    refine ⟨h.same hi hk rfl rfl rfl rfl, fun hb => ⟨rfl, rfl, fun _ _ h _ _ => h, fun _ _ h _ => h, rfl, fun c hc => ?_, rfl⟩⟩
    subst hb
    simp only [Agg.exec, dget_dset]
    have hf' : cid ∉ M.segs := hf
    rw [if_neg (fun (he : cid = c) => hf' (he ▸ hc))]
  | getResv corr => exact ⟨h, fun _ => .refl w⟩
  | popResv corr =>
    exact ⟨h.of hi hk h.subs h.sobj (fun e he => h.resv e (mem_ddel_iff.mp he).2) (fun _ h => h), fun _ => .frame rfl rfl rfl rfl rfl rfl rfl⟩
  | addResv corr r =>
    cases b with
    | true => exact hf.elim
    | false =>
      refine ⟨h.of hi hk h.subs h.sobj (fun e he => ?_) (fun _ h => h), fun _ => .frame rfl rfl rfl rfl rfl rfl rfl⟩
      rcases mem_dset_of he with he | he
      · rw [he]; exact hf
      · exact h.resv e he
  | outstanding k => exact ⟨h, fun _ => .refl w⟩
  | newCorr =>
    simp only [Agg.exec] at hk ⊢
    split
    · exact ⟨h, fun _ => .refl w⟩
    · rename_i hq
      rw [hq] at hk
      exact ⟨h.same hi hk rfl rfl rfl rfl, fun _ => .frame rfl rfl rfl rfl rfl rfl rfl⟩
  | send c => exact ⟨h.same hi hk rfl rfl rfl rfl, fun _ => .frame rfl rfl rfl rfl rfl rfl rfl⟩
  | emit o =>
    refine ⟨h.same hi hk rfl rfl rfl rfl, fun hb => ⟨rfl, rfl, fun _ _ h _ _ => h, fun _ _ h _ => h, rfl, fun _ _ => rfl, ?_⟩⟩
    subst hb
    simp only [Agg.exec, List.filter_append]
    have hf' : o.about ≠ some M.cid := hf
    simp [hf']
  | notifId => exact ⟨h.same hi hk rfl rfl rfl rfl, fun _ => .frame rfl rfl rfl rfl rfl rfl rfl⟩
  | addQReq corr r =>
    cases b with
    | true => exact hf.elim
    | false =>
      refine ⟨⟨h.row, h.subs, h.sobj, h.resv, fun e he id hid => ?_⟩, fun _ => .frame rfl rfl rfl rfl rfl rfl rfl⟩
      rcases mem_dset_of he with he | he
      · subst he; exact hf id hid
      · exact h.qreqs e he id hid
  | getQReq corr => exact ⟨h, fun _ => .refl w⟩
  | getQCall corr => exact ⟨h, fun _ => .refl w⟩
  | setQCall corr cb res => exact ⟨h.same hi hk rfl rfl rfl rfl, fun _ => .frame rfl rfl rfl rfl rfl rfl rfl⟩
  | qResults cb => exact ⟨h, fun _ => .refl w⟩
  | popQuery cb =>
    exact ⟨h.of hi hk h.subs h.sobj h.resv (fun e he => (mem_ddel_iff.mp he).2), fun _ => .frame rfl rfl rfl rfl rfl rfl rfl⟩

end OpenNSA.Agg
