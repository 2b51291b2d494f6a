import Verif.Agg.Rely
import Verif.PyLemmas
import Mathlib.Data.List.Nodup
/-
What no interleaving can break: objects in memory keep the identity of their row, and what is sent to a requester is about
connections that requester made.
-/
namespace OpenNSA.Agg
open OpenNSA Py Coro

/-- What identifies a connection. -/
def CRow.id (r : CRow) : Nat × Str × Str := (r.key, r.cid, r.requester)
/-- What identifies a segment. -/
def SRow.id (s : SRow) : Nat × Nat × Str × Str × Nat := (s.key, s.skey, s.cid, s.prov, s.order)

/-- A message about a connection: the connection and the addressee. -/
def Out.dest : Out → Option (Str × Str)
  | .reserveConfirmed to_ cid _ _ _ _ _ => some (cid, to_)
  | .reserveFailed to_ cid | .reserveCommitConfirmed to_ cid | .reserveAbortConfirmed to_ cid | .provisionConfirmed to_ cid
  | .releaseConfirmed to_ cid | .terminateConfirmed to_ cid | .reserveTimeout to_ cid _ | .dataPlane to_ cid _ _ | .errorEvent to_ cid _ => some (cid, to_)
  | .querySummary _ _ _ | .queryRecursive _ _ _ => none

/-- There is that connection of that requester. -/
def Owns (w : World) (cid requester : Str) : Prop := ∃ row ∈ w.conns, row.cid = cid ∧ row.requester = requester

/-- The message goes to the requester of the connection; a summary contains connections of the addressee only, unless that is an
administrator. -/
def OutOk (cfg : Cfg) (w : World) (o : Out) : Prop :=
  (∀ x, o.dest = some x → Owns w x.1 x.2) ∧
  (∀ to_ corr infos, o = .querySummary to_ corr infos → ∀ i ∈ infos, Owns w i.cid i.requester ∧ (to_ ∈ cfg.admins ∨ i.requester = to_)) ∧
  (∀ to_ corr i, o = .queryRecursive to_ corr i → Owns w i.cid i.requester)

/-- What nobody changes. -/
structure Keep (w w' : World) : Prop where
  cobj : ∀ (ref : Nat) o, w.cheap[ref]? = some o → ∃ o', w'.cheap[ref]? = some o' ∧ o'.row.cid = o.row.cid ∧ o'.row.requester = o.row.requester ∧
    (o.isNew = false → o'.isNew = false ∧ o'.row.key = o.row.key)
  sobj : ∀ (ref : Nat) o, w.sheap[ref]? = some o → ∃ o', w'.sheap[ref]? = some o' ∧ o'.row.cid = o.row.cid ∧ o'.row.prov = o.row.prov ∧
    o'.row.skey = o.row.skey ∧ o'.row.order = o.row.order ∧ (o.isNew = false → o'.isNew = false ∧ o'.row.key = o.row.key)
  conns : ∀ r ∈ w.conns, ∃ r' ∈ w'.conns, r'.id = r.id
  spre : w.subs.map SRow.id <+: w'.subs.map SRow.id

theorem Keep.refl (w : World) : Keep w w :=
  ⟨fun _ o h => ⟨o, h, rfl, rfl, fun h => ⟨h, rfl⟩⟩, fun _ o h => ⟨o, h, rfl, rfl, rfl, rfl, fun h => ⟨h, rfl⟩⟩, fun r h => ⟨r, h, rfl⟩, List.prefix_refl _⟩

theorem Keep.trans {a b c : World} (h : Keep a b) (h' : Keep b c) : Keep a c := by
  refine ⟨fun ref o ho => ?_, fun ref o ho => ?_, fun r hr => ?_, h.spre.trans h'.spre⟩
  · obtain ⟨o1, h1, h2, h3, h4⟩ := h.cobj ref o ho
    obtain ⟨o2, h5, h6, h7, h8⟩ := h'.cobj ref o1 h1
    exact ⟨o2, h5, h6.trans h2, h7.trans h3, fun hn => ⟨(h8 (h4 hn).1).1, (h8 (h4 hn).1).2.trans (h4 hn).2⟩⟩
  · obtain ⟨o1, h1, h2, h3, h3', h3'', h4⟩ := h.sobj ref o ho
    obtain ⟨o2, h5, h6, h7, h7', h7'', h8⟩ := h'.sobj ref o1 h1
    exact ⟨o2, h5, h6.trans h2, h7.trans h3, h7'.trans h3', h7''.trans h3'', fun hn => ⟨(h8 (h4 hn).1).1, (h8 (h4 hn).1).2.trans (h4 hn).2⟩⟩
  · obtain ⟨r1, h1, h2⟩ := h.conns r hr
    obtain ⟨r2, h3, h4⟩ := h'.conns r1 h1
    exact ⟨r2, h3, h4.trans h2⟩

theorem Keep.subs {w w' : World} (h : Keep w w') : ∀ s ∈ w.subs, ∃ s' ∈ w'.subs, s'.id = s.id := fun s hs => by
  have := h.spre.subset (List.mem_map.mpr ⟨s, hs, rfl⟩)
  obtain ⟨s', h1, h2⟩ := List.mem_map.mp this
  exact ⟨s', h1, h2⟩

/-- The same tables and objects. -/
theorem Keep.frame {w w' : World} (h1 : w'.cheap = w.cheap) (h2 : w'.sheap = w.sheap) (h3 : w'.conns = w.conns) (h4 : w'.subs = w.subs) : Keep w w' := by
  have := Keep.refl w
  exact ⟨by rw [h1]; exact this.cobj, by rw [h2]; exact this.sobj, by rw [h3]; exact this.conns, by rw [h4]; exact this.spre⟩

/-- A connection object that has been stored. -/
def IsC (w : World) (ref : Nat) (id : Nat × Str × Str) : Prop := ∃ o, w.cheap[ref]? = some o ∧ o.isNew = false ∧ o.row.id = id
/-- A segment object that has been stored. -/
def IsS (w : World) (ref : Nat) (id : Nat × Nat × Str × Str × Nat) : Prop := ∃ o, w.sheap[ref]? = some o ∧ o.isNew = false ∧ o.row.id = id

theorem IsC.keep {w w' : World} (hk : Keep w w') {ref : Nat} {id : Nat × Str × Str} (h : IsC w ref id) : IsC w' ref id := by
  obtain ⟨o, h1, h2, h3⟩ := h
  obtain ⟨o', h4, h5, h6, h7⟩ := hk.cobj ref o h1
  exact ⟨o', h4, (h7 h2).1, by rw [← h3]; simp only [CRow.id, h5, h6, (h7 h2).2]⟩

theorem IsS.keep {w w' : World} (hk : Keep w w') {ref : Nat} {id : Nat × Nat × Str × Str × Nat} (h : IsS w ref id) : IsS w' ref id := by
  obtain ⟨o, h1, h2, h3⟩ := h
  obtain ⟨o', h4, h5, h6, h7, h8, h9⟩ := hk.sobj ref o h1
  exact ⟨o', h4, (h9 h2).1, by rw [← h3]; simp only [SRow.id, h5, h6, h7, h8, (h9 h2).2]⟩

/-- There is a connection with that key. -/
def HasKey (w : World) (key : Nat) : Prop := ∃ r ∈ w.conns, r.key = key

theorem HasKey.keep {w w' : World} (hk : Keep w w') {key : Nat} (h : HasKey w key) : HasKey w' key := by
  obtain ⟨r, h1, h2⟩ := h
  obtain ⟨r', h3, h4⟩ := hk.conns r h1
  exact ⟨r', h3, by simp only [CRow.id, Prod.mk.injEq] at h4; exact h4.1.trans h2⟩

theorem Owns.keep {w w' : World} (hk : Keep w w') {cid requester : Str} (h : Owns w cid requester) : Owns w' cid requester := by
  obtain ⟨r, h1, h2, h3⟩ := h
  obtain ⟨r', h4, h5⟩ := hk.conns r h1
  simp only [CRow.id, Prod.mk.injEq] at h5
  exact ⟨r', h4, h5.2.1.trans h2, h5.2.2.trans h3⟩

theorem OutOk.keep {cfg : Cfg} {w w' : World} (hk : Keep w w') {o : Out} (h : OutOk cfg w o) : OutOk cfg w' o := by
  exact ⟨fun x hx => (h.1 x hx).keep hk, fun to_ corr infos ho i hi => ⟨(h.2.1 to_ corr infos ho i hi).1.keep hk, (h.2.1 to_ corr infos ho i hi).2⟩,
    fun to_ corr i ho => (h.2.2 to_ corr i ho).keep hk⟩

/-- The invariant. -/
structure Ids (cfg : Cfg) (w : World) : Prop where
  ckeys : (w.conns.map (·.key)).Nodup
  ckeyb : ∀ r ∈ w.conns, r.key < w.ckey
  ccids : (w.conns.map (·.cid)).Nodup
  skeys : (w.subs.map (·.key)).Nodup
  skeyb : ∀ s ∈ w.subs, s.key < w.skey
  cobj : ∀ (ref : Nat) o, w.cheap[ref]? = some o → o.isNew = false → ∃ r ∈ w.conns, r.id = o.row.id
  sobj : ∀ (ref : Nat) o, w.sheap[ref]? = some o → o.isNew = false → ∃ s ∈ w.subs, s.id = o.row.id
  ccache : ∀ cid ref, dget w.ccache cid = some ref → ∃ o, w.cheap[ref]? = some o ∧ o.isNew = false ∧ o.row.cid = cid
  scache : ∀ cid ref, dget w.scache cid = some ref → ∃ o, w.sheap[ref]? = some o ∧ o.isNew = false ∧ o.row.cid = cid
  sfk : ∀ s ∈ w.subs, HasKey w s.skey
  nfk : ∀ (ref : Nat) o, w.sheap[ref]? = some o → HasKey w o.row.skey
  rfk : ∀ e ∈ w.resv, HasKey w e.2.skey
  qfk : ∀ e ∈ w.qreqs, ∃ id, IsC w e.2.conn id
  out : ∀ o ∈ w.outbox, OutOk cfg w o

/-- What a command needs. -/
def Cmd.Guard (cfg : Cfg) (w : World) {β : Type} : Cmd β → Prop
  | .setC ref row => ∀ o, w.cheap[ref]? = some o → row.cid = o.row.cid ∧ row.requester = o.row.requester ∧ (o.isNew = false → row.key = o.row.key)
  | .setS ref row => ∀ o, w.sheap[ref]? = some o → row.cid = o.row.cid ∧ row.prov = o.row.prov ∧ row.skey = o.row.skey ∧ row.order = o.row.order ∧
      (o.isNew = false → row.key = o.row.key)
  | .cacheC cid ref => ∃ o, w.cheap[ref]? = some o ∧ o.isNew = false ∧ o.row.cid = cid
  | .cacheS cid ref => ∃ o, w.sheap[ref]? = some o ∧ o.isNew = false ∧ o.row.cid = cid
  | .addResv _ r => HasKey w r.skey
  | .newS row => HasKey w row.skey
  | .addQReq _ r => ∃ id, IsC w r.conn id
  | .emit o => OutOk cfg w o
  | _ => True

/-- Changes of other components. -/
theorem Ids.frame {cfg : Cfg} {w w' : World} (h : Ids cfg w) (h1 : w'.conns = w.conns) (h2 : w'.subs = w.subs) (h3 : w'.ckey = w.ckey)
    (h4 : w'.skey = w.skey) (hk : Keep w w')
    (hc : ∀ (ref : Nat) o, w'.cheap[ref]? = some o → o.isNew = false → ∃ r ∈ w.conns, r.id = o.row.id)
    (hs : ∀ (ref : Nat) o, w'.sheap[ref]? = some o → o.isNew = false → ∃ s ∈ w.subs, s.id = o.row.id)
    (hn : ∀ (ref : Nat) o, w'.sheap[ref]? = some o → HasKey w o.row.skey)
    (hcc : ∀ cid ref, dget w'.ccache cid = some ref → ∃ o, w'.cheap[ref]? = some o ∧ o.isNew = false ∧ o.row.cid = cid)
    (hsc : ∀ cid ref, dget w'.scache cid = some ref → ∃ o, w'.sheap[ref]? = some o ∧ o.isNew = false ∧ o.row.cid = cid)
    (hr : ∀ e ∈ w'.resv, HasKey w e.2.skey) (hq : ∀ e ∈ w'.qreqs, ∃ id, IsC w' e.2.conn id) (ho : ∀ o ∈ w'.outbox, OutOk cfg w o) : Ids cfg w' :=
  ⟨by rw [h1]; exact h.ckeys, by rw [h1, h3]; exact h.ckeyb, by rw [h1]; exact h.ccids, by rw [h2]; exact h.skeys, by rw [h2, h4]; exact h.skeyb,
    by rw [h1]; exact hc, by rw [h2]; exact hs, hcc, hsc, by rw [h2]; exact fun s hm => (h.sfk s hm).keep hk, fun r o hm => (hn r o hm).keep hk,
    fun e he => (hr e he).keep hk, hq, fun o hm => (ho o hm).keep hk⟩

/-- Same objects. -/
theorem Ids.same {cfg : Cfg} {w w' : World} (h : Ids cfg w) (h1 : w'.conns = w.conns) (h2 : w'.subs = w.subs) (h3 : w'.ckey = w.ckey)
    (h4 : w'.skey = w.skey) (h5 : w'.cheap = w.cheap) (h6 : w'.sheap = w.sheap) (h7 : w'.ccache = w.ccache) (h8 : w'.scache = w.scache)
    (hr : ∀ e ∈ w'.resv, HasKey w e.2.skey) (hq : ∀ e ∈ w'.qreqs, ∃ id, IsC w e.2.conn id) (ho : ∀ o ∈ w'.outbox, OutOk cfg w o) :
    Ids cfg w' ∧ Keep w w' := by
  have hk : Keep w w' := .frame h5 h6 h1 h2
  refine ⟨h.frame h1 h2 h3 h4 hk (by rw [h5]; exact h.cobj) (by rw [h6]; exact h.sobj) (by rw [h6]; exact h.nfk) (by rw [h5, h7]; exact h.ccache)
    (by rw [h6, h8]; exact h.scache) hr (fun e he => ?_) ho, hk⟩
  obtain ⟨id, hi⟩ := hq e he
  exact ⟨id, hi.keep hk⟩

theorem Ids.self {cfg : Cfg} {w w' : World} (h : Ids cfg w) (h1 : w'.conns = w.conns) (h2 : w'.subs = w.subs) (h3 : w'.ckey = w.ckey)
    (h4 : w'.skey = w.skey) (h5 : w'.cheap = w.cheap) (h6 : w'.sheap = w.sheap) (h7 : w'.ccache = w.ccache) (h8 : w'.scache = w.scache)
    (h9 : w'.resv = w.resv) (h10 : w'.qreqs = w.qreqs) (h11 : w'.outbox = w.outbox) : Ids cfg w' ∧ Keep w w' :=
  h.same h1 h2 h3 h4 h5 h6 h7 h8 (by rw [h9]; exact h.rfk) (by rw [h10]; exact h.qfk) (by rw [h11]; exact h.out)

/-- New connection objects. -/
theorem Ids.addC {cfg : Cfg} {w : World} (h : Ids cfg w) (o : Obj CRow) (ho : o.isNew = false → ∃ r ∈ w.conns, r.id = o.row.id) :
    Ids cfg { w with cheap := w.cheap ++ [o] } ∧ Keep w { w with cheap := w.cheap ++ [o] } := by
  have happ : ∀ (i : Nat) x, w.cheap[i]? = some x → (w.cheap ++ [o])[i]? = some x := fun i x hi => by
    rw [List.getElem?_append_left]; exact hi
    exact (List.getElem?_eq_some_iff.mp hi).1
  have hk : Keep w { w with cheap := w.cheap ++ [o] } :=
    ⟨fun ref x hx => ⟨x, happ _ _ hx, rfl, rfl, fun hn => ⟨hn, rfl⟩⟩, (Keep.refl w).sobj, (Keep.refl w).conns, (Keep.refl w).spre⟩
  refine ⟨h.frame rfl rfl rfl rfl hk ?_ h.sobj h.nfk ?_ h.scache h.rfk ?_ h.out, hk⟩
  · intro ref x hx hn
    rcases Nat.lt_or_ge ref w.cheap.length with hlt | hge
    · exact h.cobj ref x (by simpa [List.getElem?_append_left hlt] using hx) hn
    · simp only [List.getElem?_append_right hge] at hx
      have : x = o := by
        cases hd : ref - w.cheap.length with
        | zero => rw [hd] at hx; simpa using hx.symm
        | succ n => rw [hd] at hx; simp at hx
      subst this
      exact ho hn
  · intro cid ref hc
    obtain ⟨x, h1, h2, h3⟩ := h.ccache cid ref hc
    exact ⟨x, happ _ _ h1, h2, h3⟩
  · intro e he
    obtain ⟨id, hi⟩ := h.qfk e he
    exact ⟨id, hi.keep hk⟩

/-- New segment objects. -/
theorem Ids.addS {cfg : Cfg} {w : World} (h : Ids cfg w) (o : Obj SRow) (ho : o.isNew = false → ∃ r ∈ w.subs, r.id = o.row.id) (hs : HasKey w o.row.skey) :
    Ids cfg { w with sheap := w.sheap ++ [o] } ∧ Keep w { w with sheap := w.sheap ++ [o] } := by
  have happ : ∀ (i : Nat) x, w.sheap[i]? = some x → (w.sheap ++ [o])[i]? = some x := fun i x hi => by
    rw [List.getElem?_append_left]; exact hi
    exact (List.getElem?_eq_some_iff.mp hi).1
  have hk : Keep w { w with sheap := w.sheap ++ [o] } :=
    ⟨(Keep.refl w).cobj, fun ref x hx => ⟨x, happ _ _ hx, rfl, rfl, rfl, rfl, fun hn => ⟨hn, rfl⟩⟩, (Keep.refl w).conns, (Keep.refl w).spre⟩
  have hcase : ∀ (ref : Nat) x, (w.sheap ++ [o])[ref]? = some x → w.sheap[ref]? = some x ∨ x = o := by
    intro ref x hx
    rcases Nat.lt_or_ge ref w.sheap.length with hlt | hge
    · exact Or.inl (by simpa [List.getElem?_append_left hlt] using hx)
    · simp only [List.getElem?_append_right hge] at hx
      cases hd : ref - w.sheap.length with
      | zero => rw [hd] at hx; exact Or.inr (by simpa using hx.symm)
      | succ n => rw [hd] at hx; simp at hx
  refine ⟨h.frame rfl rfl rfl rfl hk h.cobj ?_ ?_ h.ccache ?_ h.rfk ?_ h.out, hk⟩
  · intro ref x hx hn
    rcases hcase ref x hx with hx | rfl
    · exact h.sobj ref x hx hn
    · exact ho hn
  · intro ref x hx
    rcases hcase ref x hx with hx | rfl
    · exact h.nfk ref x hx
    · exact hs
  · intro cid ref hc
    obtain ⟨x, h1, h2, h3⟩ := h.scache cid ref hc
    exact ⟨x, happ _ _ h1, h2, h3⟩
  · intro e he
    obtain ⟨id, hi⟩ := h.qfk e he
    exact ⟨id, hi.keep hk⟩

/-- Changes of a connection object. -/
theorem Ids.setC {cfg : Cfg} {w : World} (h : Ids cfg w) {ref : Nat} {o o' : Obj CRow} (ho : w.cheap[ref]? = some o) (h1 : o'.row.cid = o.row.cid)
    (h2 : o'.row.requester = o.row.requester) (h3 : o'.isNew = o.isNew) (h4 : o.isNew = false → o'.row.key = o.row.key) :
    Ids cfg { w with cheap := w.cheap.set ref o' } ∧ Keep w { w with cheap := w.cheap.set ref o' } := by
  have hlt : ref < w.cheap.length := (List.getElem?_eq_some_iff.mp ho).1
  have hget : ∀ i : Nat, (w.cheap.set ref o')[i]? = if ref = i then some o' else w.cheap[i]? := by
    intro i
    rw [List.getElem?_set]
    by_cases hi : ref = i
    · subst hi; simp [hlt]
    · simp [hi]
  have hobj : ∀ (i : Nat) x, w.cheap[i]? = some x → ∃ x', (w.cheap.set ref o')[i]? = some x' ∧ x'.row.cid = x.row.cid ∧ x'.row.requester = x.row.requester ∧
      (x.isNew = false → x'.isNew = false ∧ x'.row.key = x.row.key) := by
    intro i x hx
    rw [hget]
    by_cases hi : ref = i
    · subst hi
      obtain rfl := Option.some.inj (ho.symm.trans hx)
      exact ⟨o', by simp, h1, h2, fun hn => ⟨h3.trans hn, h4 hn⟩⟩
    · exact ⟨x, by simp [hi, hx], rfl, rfl, fun hn => ⟨hn, rfl⟩⟩
  have hk : Keep w { w with cheap := w.cheap.set ref o' } := ⟨hobj, (Keep.refl w).sobj, (Keep.refl w).conns, (Keep.refl w).spre⟩
  refine ⟨h.frame rfl rfl rfl rfl hk ?_ h.sobj h.nfk ?_ h.scache h.rfk ?_ h.out, hk⟩
  · intro i x hx hn
    rw [show ({ w with cheap := w.cheap.set ref o' } : World).cheap = w.cheap.set ref o' from rfl, hget] at hx
    split at hx
    · obtain rfl := Option.some.inj hx
      have hn' : o.isNew = false := h3.symm.trans hn
      obtain ⟨r, hr, hid⟩ := h.cobj ref o ho hn'
      exact ⟨r, hr, by rw [hid]; simp only [CRow.id, h1, h2, h4 hn']⟩
    · exact h.cobj i x hx hn
  · intro cid i hc
    obtain ⟨x, hx, hn, hcid⟩ := h.ccache cid i hc
    obtain ⟨x', hx', hcid', _, hn'⟩ := hobj i x hx
    exact ⟨x', hx', (hn' hn).1, hcid'.trans hcid⟩
  · intro e he
    obtain ⟨id, hi⟩ := h.qfk e he
    exact ⟨id, hi.keep hk⟩

/-- Changes of a segment object. -/
theorem Ids.setS {cfg : Cfg} {w : World} (h : Ids cfg w) {ref : Nat} {o o' : Obj SRow} (ho : w.sheap[ref]? = some o) (h1 : o'.row.cid = o.row.cid)
    (h2 : o'.row.prov = o.row.prov) (h2' : o'.row.skey = o.row.skey) (h2'' : o'.row.order = o.row.order) (h3 : o'.isNew = o.isNew)
    (h4 : o.isNew = false → o'.row.key = o.row.key) :
    Ids cfg { w with sheap := w.sheap.set ref o' } ∧ Keep w { w with sheap := w.sheap.set ref o' } := by
  have hlt : ref < w.sheap.length := (List.getElem?_eq_some_iff.mp ho).1
  have hget : ∀ i : Nat, (w.sheap.set ref o')[i]? = if ref = i then some o' else w.sheap[i]? := by
    intro i
    rw [List.getElem?_set]
    by_cases hi : ref = i
    · subst hi; simp [hlt]
    · simp [hi]
  have hobj : ∀ (i : Nat) x, w.sheap[i]? = some x → ∃ x', (w.sheap.set ref o')[i]? = some x' ∧ x'.row.cid = x.row.cid ∧ x'.row.prov = x.row.prov ∧
      x'.row.skey = x.row.skey ∧ x'.row.order = x.row.order ∧ (x.isNew = false → x'.isNew = false ∧ x'.row.key = x.row.key) := by
    intro i x hx
    rw [hget]
    by_cases hi : ref = i
    · subst hi
      obtain rfl := Option.some.inj (ho.symm.trans hx)
      exact ⟨o', by simp, h1, h2, h2', h2'', fun hn => ⟨h3.trans hn, h4 hn⟩⟩
    · exact ⟨x, by simp [hi, hx], rfl, rfl, rfl, rfl, fun hn => ⟨hn, rfl⟩⟩
  have hk : Keep w { w with sheap := w.sheap.set ref o' } := ⟨(Keep.refl w).cobj, hobj, (Keep.refl w).conns, (Keep.refl w).spre⟩
  refine ⟨h.frame rfl rfl rfl rfl hk h.cobj ?_ ?_ h.ccache ?_ h.rfk ?_ h.out, hk⟩
  · intro i x hx hn
    rw [show ({ w with sheap := w.sheap.set ref o' } : World).sheap = w.sheap.set ref o' from rfl, hget] at hx
    split at hx
    · obtain rfl := Option.some.inj hx
      have hn' : o.isNew = false := h3.symm.trans hn
      obtain ⟨r, hr, hid⟩ := h.sobj ref o ho hn'
      exact ⟨r, hr, by rw [hid]; simp only [SRow.id, h1, h2, h2', h2'', h4 hn']⟩
    · exact h.sobj i x hx hn
  · intro i x hx
    rw [show ({ w with sheap := w.sheap.set ref o' } : World).sheap = w.sheap.set ref o' from rfl, hget] at hx
    split at hx
    · obtain rfl := Option.some.inj hx
      rw [h2']
      exact h.nfk ref o ho
    · exact h.nfk i x hx
  · intro cid i hc
    obtain ⟨x, hx, hn, hcid⟩ := h.scache cid i hc
    obtain ⟨x', hx', hcid', _, _, _, hn'⟩ := hobj i x hx
    exact ⟨x', hx', (hn' hn).1, hcid'.trans hcid⟩
  · intro e he
    obtain ⟨id, hi⟩ := h.qfk e he
    exact ⟨id, hi.keep hk⟩


theorem setCRow_id {rows : List CRow} (hk : (rows.map (·.key)).Nodup) {row : CRow} (h : ∃ r ∈ rows, r.id = row.id) :
    (setCRow rows row).map CRow.id = rows.map CRow.id := by
  obtain ⟨r0, hr0, hid⟩ := h
  simp only [setCRow, List.map_map]
  refine List.map_congr_left fun r hr => ?_
  simp only [Function.comp]
  split
  · rename_i hkey
    simp only [CRow.id, Prod.mk.injEq] at hid
    have : r = r0 := List.inj_on_of_nodup_map hk hr hr0 (hkey.trans hid.1.symm)
    subst this
    simp only [CRow.id, hid]
  · rfl

theorem setSRow_id {rows : List SRow} (hk : (rows.map (·.key)).Nodup) {row : SRow} (h : ∃ r ∈ rows, r.id = row.id) :
    (setSRow rows row).map SRow.id = rows.map SRow.id := by
  obtain ⟨r0, hr0, hid⟩ := h
  simp only [setSRow, List.map_map]
  refine List.map_congr_left fun r hr => ?_
  simp only [Function.comp]
  split
  · rename_i hkey
    simp only [SRow.id, Prod.mk.injEq] at hid
    have : r = r0 := List.inj_on_of_nodup_map hk hr hr0 (hkey.trans hid.1.symm)
    subst this
    simp only [SRow.id, hid]
  · rfl

theorem mem_id {ρ ι : Type} {f : ρ → ι} {l l' : List ρ} (h : l'.map f = l.map f) {r : ρ} (hr : r ∈ l) : ∃ r' ∈ l', f r' = f r := by
  have : f r ∈ l'.map f := by rw [h]; exact List.mem_map_of_mem hr
  obtain ⟨r', h1, h2⟩ := List.mem_map.mp this
  exact ⟨r', h1, h2⟩

/-- Rows changed, but not their identity. -/
theorem Ids.rows {cfg : Cfg} {w w' : World} (h : Ids cfg w) (h1 : w'.conns.map CRow.id = w.conns.map CRow.id) (h2 : w'.subs.map SRow.id = w.subs.map SRow.id)
    (h3 : w'.ckey = w.ckey) (h4 : w'.skey = w.skey) (h5 : w'.cheap = w.cheap) (h6 : w'.sheap = w.sheap) (h7 : w'.ccache = w.ccache)
    (h8 : w'.scache = w.scache) (h9 : w'.resv = w.resv) (h10 : w'.qreqs = w.qreqs) (h11 : w'.outbox = w.outbox) :
    Ids cfg w' ∧ Keep w w' := by
  have hk : Keep w w' := ⟨by rw [h5]; exact (Keep.refl w).cobj, by rw [h6]; exact (Keep.refl w).sobj, fun r hr => mem_id h1 hr, by rw [h2]; exact List.prefix_refl _⟩
  have hck : w'.conns.map (·.key) = w.conns.map (·.key) := by
    have := congrArg (List.map (·.1)) h1
    simpa [List.map_map, Function.comp_def, CRow.id] using this
  have hcc : w'.conns.map (·.cid) = w.conns.map (·.cid) := by
    have := congrArg (List.map (·.2.1)) h1
    simpa [List.map_map, Function.comp_def, CRow.id] using this
  have hsk : w'.subs.map (·.key) = w.subs.map (·.key) := by
    have := congrArg (List.map (·.1)) h2
    simpa [List.map_map, Function.comp_def, SRow.id] using this
  refine ⟨⟨by rw [hck]; exact h.ckeys, fun r hr => ?_, by rw [hcc]; exact h.ccids, by rw [hsk]; exact h.skeys, fun s hs => ?_, fun ref o ho hn => ?_,
    fun ref o ho hn => ?_, by rw [h7, h5]; exact h.ccache, by rw [h8, h6]; exact h.scache, fun s hs => ?_, fun ref o ho => ?_, fun e he => ?_,
    fun e he => ?_, fun o ho => ?_⟩, hk⟩
  · obtain ⟨r', h1', h2'⟩ := mem_id h1.symm hr
    simp only [CRow.id, Prod.mk.injEq] at h2'
    rw [h3, ← h2'.1]; exact h.ckeyb r' h1'
  · obtain ⟨r', h1', h2'⟩ := mem_id h2.symm hs
    simp only [SRow.id, Prod.mk.injEq] at h2'
    rw [h4, ← h2'.1]; exact h.skeyb r' h1'
  · obtain ⟨r, hr, hid⟩ := h.cobj ref o (h5 ▸ ho) hn
    obtain ⟨r', hr', hid'⟩ := mem_id h1 hr
    exact ⟨r', hr', hid'.trans hid⟩
  · obtain ⟨r, hr, hid⟩ := h.sobj ref o (h6 ▸ ho) hn
    obtain ⟨r', hr', hid'⟩ := mem_id h2 hr
    exact ⟨r', hr', hid'.trans hid⟩
  · obtain ⟨r', h1', h2'⟩ := mem_id h2.symm hs
    simp only [SRow.id, Prod.mk.injEq] at h2'
    rw [← h2'.2.1]
    exact (h.sfk r' h1').keep hk
  · exact (h.nfk ref o (h6 ▸ ho)).keep hk
  · exact (h.rfk e (h9 ▸ he)).keep hk
  · obtain ⟨id, hi⟩ := h.qfk e (h10 ▸ he)
    exact ⟨id, hi.keep hk⟩
  · exact (h.out o (h11 ▸ ho)).keep hk

/-- Storing a connection object. -/
theorem Ids.saveC {cfg : Cfg} {w : World} (h : Ids cfg w) (ref : Nat) : Ids cfg (w.saveC ref).1 ∧ Keep w (w.saveC ref).1 ∧
    ((w.saveC ref).2 = .ok () → ∃ id, IsC (w.saveC ref).1 ref id) := by
  simp only [World.saveC]
  cases ho : w.cheap[ref]? with
  | none => exact ⟨h, .refl w, fun h => by simp at h⟩
  | some o =>
    simp only
    by_cases hn : o.isNew = true
    · rw [if_pos hn]
      split
      · exact ⟨h, .refl w, fun h => by simp at h⟩
      · rename_i hc
        simp only [Bool.or_eq_true, List.any_eq_true, decide_eq_true_eq, not_or, not_exists, not_and] at hc
        have hlt : ref < w.cheap.length := (List.getElem?_eq_some_iff.mp ho).1
        let o' : Obj CRow := ⟨{ o.row with key := w.ckey }, false⟩
        have hget : ∀ i : Nat, (w.cheap.set ref o')[i]? = if ref = i then some o' else w.cheap[i]? := by
          intro i
          rw [List.getElem?_set]
          by_cases hi : ref = i
          · subst hi; simp [hlt]
          · simp [hi]
        have hobj : ∀ (i : Nat) x, w.cheap[i]? = some x → ∃ x', (w.cheap.set ref o')[i]? = some x' ∧ x'.row.cid = x.row.cid ∧
            x'.row.requester = x.row.requester ∧ (x.isNew = false → x'.isNew = false ∧ x'.row.key = x.row.key) := by
          intro i x hx
          rw [hget]
          by_cases hi : ref = i
          · subst hi
            obtain rfl := Option.some.inj (ho.symm.trans hx)
            exact ⟨o', by simp, rfl, rfl, fun hn' => by simp [hn] at hn'⟩
          · exact ⟨x, by simp [hi, hx], rfl, rfl, fun hn => ⟨hn, rfl⟩⟩
        have hk : Keep w { w with conns := w.conns ++ [o'.row], cheap := w.cheap.set ref o', ckey := w.ckey + 1 } :=
          ⟨hobj, (Keep.refl w).sobj, fun r hr => ⟨r, by simp [hr], rfl⟩, (Keep.refl w).spre⟩
        refine ⟨⟨?_, ?_, ?_, h.skeys, h.skeyb, ?_, h.sobj, ?_, h.scache, fun s hs => (h.sfk s hs).keep hk, fun r o ho => (h.nfk r o ho).keep hk,
          fun e he => (h.rfk e he).keep hk, fun e he => ?_, fun o ho => (h.out o ho).keep hk⟩, hk, fun _ => ⟨_, o', ?_, rfl, rfl⟩⟩
        · simp only [List.map_append, List.map_cons, List.map_nil]
          rw [List.nodup_append]
          refine ⟨h.ckeys, by simp, fun a ha b hb hab => ?_⟩
          obtain ⟨r, hr, rfl⟩ := List.mem_map.mp ha
          have := h.ckeyb r hr
          simp only [List.mem_singleton] at hb
          omega
        · intro r hr
          rcases List.mem_append.mp hr with hr | hr
          · exact Nat.lt_succ_of_lt (h.ckeyb r hr)
          · rw [List.mem_singleton.mp hr]; exact Nat.lt_succ_self _
        · simp only [List.map_append, List.map_cons, List.map_nil]
          rw [List.nodup_append]
          refine ⟨h.ccids, by simp, fun a ha b hb hab => ?_⟩
          obtain ⟨r, hr, rfl⟩ := List.mem_map.mp ha
          exact hc.1 r hr (by rw [hab]; simpa using hb)
        · intro i x hx hnx
          rw [hget] at hx
          split at hx
          · obtain rfl := Option.some.inj hx
            exact ⟨o'.row, List.mem_append_right _ (List.mem_singleton.mpr rfl), rfl⟩
          · obtain ⟨r, hr, hid⟩ := h.cobj i x hx hnx
            exact ⟨r, by simp [hr], hid⟩
        · intro cid i hc
          obtain ⟨x, hx, hn, hcid⟩ := h.ccache cid i hc
          obtain ⟨x', hx', hcid', _, hn'⟩ := hobj i x hx
          exact ⟨x', hx', (hn' hn).1, hcid'.trans hcid⟩
        · obtain ⟨id, hi⟩ := h.qfk e he
          exact ⟨id, hi.keep hk⟩
        · show (w.cheap.set ref o')[ref]? = _
          rw [hget, if_pos rfl]
    · rw [if_neg hn]
      have hn' : o.isNew = false := by simpa using hn
      have := h.rows (w' := { w with conns := setCRow w.conns o.row }) (setCRow_id h.ckeys (h.cobj ref o ho hn')) rfl rfl rfl rfl rfl rfl rfl rfl rfl rfl
      exact ⟨this.1, this.2, fun _ => ⟨_, o, ho, hn', rfl⟩⟩

/-- Storing a segment object. -/
theorem Ids.saveS {cfg : Cfg} {w : World} (h : Ids cfg w) (ref : Nat) : Ids cfg (w.saveS ref).1 ∧ Keep w (w.saveS ref).1 := by
  simp only [World.saveS]
  cases ho : w.sheap[ref]? with
  | none => exact ⟨h, .refl w⟩
  | some o =>
    simp only
    by_cases hn : o.isNew = true
    · rw [if_pos hn]
      split
      · exact ⟨h, .refl w⟩
      · have hlt : ref < w.sheap.length := (List.getElem?_eq_some_iff.mp ho).1
        let o' : Obj SRow := ⟨{ o.row with key := w.skey }, false⟩
        have hget : ∀ i : Nat, (w.sheap.set ref o')[i]? = if ref = i then some o' else w.sheap[i]? := by
          intro i
          rw [List.getElem?_set]
          by_cases hi : ref = i
          · subst hi; simp [hlt]
          · simp [hi]
        have hobj : ∀ (i : Nat) x, w.sheap[i]? = some x → ∃ x', (w.sheap.set ref o')[i]? = some x' ∧ x'.row.cid = x.row.cid ∧
            x'.row.prov = x.row.prov ∧ x'.row.skey = x.row.skey ∧ x'.row.order = x.row.order ∧
            (x.isNew = false → x'.isNew = false ∧ x'.row.key = x.row.key) := by
          intro i x hx
          rw [hget]
          by_cases hi : ref = i
          · subst hi
            obtain rfl := Option.some.inj (ho.symm.trans hx)
            exact ⟨o', by simp, rfl, rfl, rfl, rfl, fun hn' => by simp [hn] at hn'⟩
          · exact ⟨x, by simp [hi, hx], rfl, rfl, rfl, rfl, fun hn => ⟨hn, rfl⟩⟩
        have hk : Keep w { w with subs := w.subs ++ [o'.row], sheap := w.sheap.set ref o', skey := w.skey + 1 } :=
          ⟨(Keep.refl w).cobj, hobj, (Keep.refl w).conns, by simp⟩
        refine ⟨⟨h.ckeys, h.ckeyb, h.ccids, ?_, ?_, h.cobj, ?_, h.ccache, ?_, ?_, ?_,
          h.rfk, h.qfk, h.out⟩, hk⟩
        · simp only [List.map_append, List.map_cons, List.map_nil]
          rw [List.nodup_append]
          refine ⟨h.skeys, by simp, fun a ha b hb hab => ?_⟩
          obtain ⟨r, hr, rfl⟩ := List.mem_map.mp ha
          have := h.skeyb r hr
          simp only [List.mem_singleton] at hb
          omega
        · intro r hr
          rcases List.mem_append.mp hr with hr | hr
          · exact Nat.lt_succ_of_lt (h.skeyb r hr)
          · rw [List.mem_singleton.mp hr]; exact Nat.lt_succ_self _
        · intro i x hx hnx
          rw [hget] at hx
          split at hx
          · obtain rfl := Option.some.inj hx
            exact ⟨o'.row, List.mem_append_right _ (List.mem_singleton.mpr rfl), rfl⟩
          · obtain ⟨r, hr, hid⟩ := h.sobj i x hx hnx
            exact ⟨r, by simp [hr], hid⟩
        · intro cid i hc
          obtain ⟨x, hx, hn, hcid⟩ := h.scache cid i hc
          obtain ⟨x', hx', hcid', _, _, _, hn'⟩ := hobj i x hx
          exact ⟨x', hx', (hn' hn).1, hcid'.trans hcid⟩
        · intro s hs
          rcases List.mem_append.mp hs with hs | hs
          · exact h.sfk s hs
          · rw [List.mem_singleton.mp hs]; exact h.nfk ref o ho
        · intro i x hx
          rw [hget] at hx
          split at hx
          · obtain rfl := Option.some.inj hx
            exact h.nfk ref o ho
          · exact h.nfk i x hx
    · rw [if_neg hn]
      have hn' : o.isNew = false := by simpa using hn
      exact h.rows (w' := { w with subs := setSRow w.subs o.row }) rfl (setSRow_id h.skeys (h.sobj ref o ho hn')) rfl rfl rfl rfl rfl rfl rfl rfl rfl

theorem Ids.saveSs {cfg : Cfg} (refs : List Nat) : ∀ {w : World}, Ids cfg w → Ids cfg (w.saveSs refs) ∧ Keep w (w.saveSs refs) := by
  induction refs with
  | nil => intro w h; exact ⟨h, .refl w⟩
  | cons r rs ih =>
    intro w h
    have h1 := h.saveS r
    have h2 := ih h1.1
    exact ⟨h2.1, h1.2.trans h2.2⟩

/-- Objects for the rows found. -/
def Found (w : World) (x : Str × Str) (r : Option Nat) : Prop := ∀ ref, r = some ref → ∃ id, IsS w ref id ∧ id.2.2.1 = x.2 ∧ id.2.2.2.1 = x.1

theorem Found.keep {w w' : World} (hk : Keep w w') {x : Str × Str} {r : Option Nat} (h : Found w x r) : Found w' x r := by
  intro ref hr
  obtain ⟨id, h1, h2⟩ := h ref hr
  exact ⟨id, h1.keep hk, h2⟩

theorem Ids.findSub {cfg : Cfg} {w : World} (h : Ids cfg w) (x : Str × Str) : Ids cfg (w.findSub x).1 ∧ Keep w (w.findSub x).1 ∧
    Found (w.findSub x).1 x (w.findSub x).2 := by
  simp only [World.findSub]
  cases hf : w.subs.find? (fun r => r.prov = x.1 && r.cid = x.2) with
  | none => exact ⟨h, .refl w, fun ref hr => by simp at hr⟩
  | some r =>
    have hr := List.mem_of_find?_eq_some hf
    have hp := List.find?_some hf
    simp only [Bool.and_eq_true, decide_eq_true_eq] at hp
    have := h.addS ⟨r, false⟩ (fun _ => ⟨r, hr, rfl⟩) (h.sfk r hr)
    refine ⟨this.1, this.2, fun ref href => ?_⟩
    simp only [Option.some.injEq] at href
    subst href
    exact ⟨r.id, ⟨⟨r, false⟩, by simp, rfl, rfl⟩, hp.2, hp.1⟩

theorem Ids.findSubs {cfg : Cfg} (l : List (Str × Str)) : ∀ {w : World}, Ids cfg w → Ids cfg (w.findSubs l).1 ∧ Keep w (w.findSubs l).1 ∧
    List.Forall₂ (Found (w.findSubs l).1) l (w.findSubs l).2 := by
  induction l with
  | nil => intro w h; exact ⟨h, .refl w, .nil⟩
  | cons x xs ih =>
    intro w h
    have h1 := h.findSub x
    have h2 := ih h1.1
    exact ⟨h2.1, h1.2.1.trans h2.2.1, .cons (h1.2.2.keep h2.2.1) h2.2.2⟩

/-- Every command keeps the invariant. -/
theorem Ids.exec {cfg : Cfg} {w : World} (h : Ids cfg w) {β : Type} (c : Cmd β) (hg : c.Guard cfg w) : Ids cfg (exec w c).1 ∧ Keep w (exec w c).1 := by
  cases c with
  | existsConn cid => exact ⟨h, .refl w⟩
  | findConnByKey key => exact ⟨h, .refl w⟩
  | findConn cid =>
    simp only [Agg.exec]
    cases hf : w.conns.find? (fun r => r.cid = cid) with
    | none => exact ⟨h, .refl w⟩
    | some r => exact h.addC ⟨r, false⟩ (fun _ => ⟨r, List.mem_of_find?_eq_some hf, rfl⟩)
  | selectSubs key => exact ⟨h, .refl w⟩
  | findSubs l => exact ⟨(h.findSubs l).1, (h.findSubs l).2.1⟩
  | findConns r c => exact ⟨h, .refl w⟩
  | saveC ref => exact ⟨(h.saveC ref).1, (h.saveC ref).2.1⟩
  | saveS ref => exact h.saveS ref
  | saveSs refs => exact h.saveSs refs
  | newCid =>
    simp only [Agg.exec]
    split
    · exact ⟨h, .refl w⟩
    · exact h.self rfl rfl rfl rfl rfl rfl rfl rfl rfl rfl rfl
  | acks n =>
    rw [exec_acks, acks_frame]
    exact h.self rfl rfl rfl rfl rfl rfl rfl rfl rfl rfl rfl
  | newC row => exact h.addC ⟨row, true⟩ (fun hn => by simp at hn)
  | newS row => exact h.addS ⟨row, true⟩ (fun hn => by simp at hn) hg
  | getC ref =>
    simp only [Agg.exec]
    split <;> exact ⟨h, .refl w⟩
  | setC ref row =>
    simp only [Agg.exec]
    cases ho : w.cheap[ref]? with
    | none => exact ⟨h, .refl w⟩
    | some o =>
      have := hg o ho
      exact h.setC ho this.1 this.2.1 rfl this.2.2
  | getS ref =>
    simp only [Agg.exec]
    split <;> exact ⟨h, .refl w⟩
  | setS ref row =>
    simp only [Agg.exec]
    cases ho : w.sheap[ref]? with
    | none => exact ⟨h, .refl w⟩
    | some o =>
      have := hg o ho
      exact h.setS ho this.1 this.2.1 this.2.2.1 this.2.2.2.1 rfl this.2.2.2.2
  | cachedC cid => exact ⟨h, .refl w⟩
  | cacheC cid ref =>
    have hk : Keep w (Agg.exec w (.cacheC cid ref)).1 := .frame rfl rfl rfl rfl
    refine ⟨h.frame rfl rfl rfl rfl hk h.cobj h.sobj h.nfk ?_ h.scache h.rfk (fun e he => ?_) h.out, hk⟩
    · intro cid' ref' hd
      simp only [Agg.exec, dget_dset] at hd
      split at hd
      · rename_i hc
        simp only [Option.some.injEq] at hd
        subst hd
        obtain ⟨o, h1, h2, h3⟩ := hg
        exact ⟨o, h1, h2, h3.trans (hc)⟩
      · exact h.ccache cid' ref' hd
    · obtain ⟨id, hi⟩ := h.qfk e he
      exact ⟨id, hi.keep hk⟩
  | cachedS cid => exact ⟨h, .refl w⟩
  | cacheS cid ref =>
    have hk : Keep w (Agg.exec w (.cacheS cid ref)).1 := .frame rfl rfl rfl rfl
    refine ⟨h.frame rfl rfl rfl rfl hk h.cobj h.sobj h.nfk h.ccache ?_ h.rfk (fun e he => ?_) h.out, hk⟩
    · intro cid' ref' hd
      simp only [Agg.exec, dget_dset] at hd
      split at hd
      · rename_i hc
        simp only [Option.some.injEq] at hd
        subst hd
        obtain ⟨o, h1, h2, h3⟩ := hg
        exact ⟨o, h1, h2, h3.trans (hc)⟩
      · exact h.scache cid' ref' hd
    · obtain ⟨id, hi⟩ := h.qfk e he
      exact ⟨id, hi.keep hk⟩
  | getResv corr => exact ⟨h, .refl w⟩
  | popResv corr => exact h.same rfl rfl rfl rfl rfl rfl rfl rfl (fun e he => h.rfk e (mem_ddel_iff.mp he).2) h.qfk h.out
  | addResv corr r =>
    refine h.same rfl rfl rfl rfl rfl rfl rfl rfl (fun e he => ?_) h.qfk h.out
    rcases mem_dset_of he with he | he
    · exact he ▸ hg
    · exact h.rfk e he
  | outstanding k => exact ⟨h, .refl w⟩
  | newCorr =>
    simp only [Agg.exec]
    split
    · exact ⟨h, .refl w⟩
    · exact h.self rfl rfl rfl rfl rfl rfl rfl rfl rfl rfl rfl
  | send c => exact h.self rfl rfl rfl rfl rfl rfl rfl rfl rfl rfl rfl
  | emit o =>
    refine h.same rfl rfl rfl rfl rfl rfl rfl rfl h.rfk h.qfk (fun x hx => ?_)
    rcases List.mem_append.mp hx with hx | hx
    · exact h.out x hx
    · rw [List.mem_singleton.mp hx]; exact hg
  | notifId => exact h.self rfl rfl rfl rfl rfl rfl rfl rfl rfl rfl rfl
  | addQReq corr r =>
    refine h.same rfl rfl rfl rfl rfl rfl rfl rfl h.rfk (fun e he => ?_) h.out
    rcases mem_dset_of he with he | he
    · exact he ▸ hg
    · exact h.qfk e he
  | getQReq corr => exact ⟨h, .refl w⟩
  | getQCall corr => exact ⟨h, .refl w⟩
  | setQCall corr cb res => exact h.self rfl rfl rfl rfl rfl rfl rfl rfl rfl rfl rfl
  | qResults cb => exact ⟨h, .refl w⟩
  | popQuery cb => exact h.same rfl rfl rfl rfl rfl rfl rfl rfl h.rfk (fun e he => h.qfk e (mem_ddel_iff.mp he).2) h.out

end OpenNSA.Agg
