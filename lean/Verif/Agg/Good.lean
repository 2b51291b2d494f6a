import Verif.Agg.ReachLemmas
import Verif.PyLemmas
import Mathlib.Data.List.Nodup
/-
State of the aggregator between messages handled one after the other: the cached objects agree with the database. Look-ups and
updates under that invariant.
-/
namespace OpenNSA.Agg
open OpenNSA Py Coro

/-- The cached objects agree with the rows, keys and ids are unique, references point to existing rows. -/
structure Good (w : World) : Prop where
  ckeys : (w.conns.map (·.key)).Nodup
  ckeyb : ∀ r ∈ w.conns, r.key < w.ckey
  ccids : (w.conns.map (·.cid)).Nodup
  skeys : (w.subs.map (·.key)).Nodup
  skeyb : ∀ s ∈ w.subs, s.key < w.skey
  scids : (w.subs.map (·.cid)).Nodup
  ccache : ∀ cid ref, dget w.ccache cid = some ref → ∃ row, w.cheap[ref]? = some ⟨row, false⟩ ∧ row ∈ w.conns ∧ row.cid = cid
  scache : ∀ cid ref, dget w.scache cid = some ref → ∃ row, w.sheap[ref]? = some ⟨row, false⟩ ∧ row ∈ w.subs ∧ row.cid = cid
  sfk : ∀ s ∈ w.subs, ∃ r ∈ w.conns, r.key = s.skey
  rfk : ∀ e ∈ w.resv, ∃ r ∈ w.conns, r.key = e.2.skey
  qfk : ∀ e ∈ w.qreqs, ∃ row, w.cheap[e.2.conn]? = some ⟨row, false⟩ ∧ row ∈ w.conns ∧ dget w.ccache row.cid = some e.2.conn

/-- The cached object of a stored connection. -/
structure LiveC (w : World) (ref : Nat) (row : CRow) : Prop where
  obj : w.cheap[ref]? = some ⟨row, false⟩
  mem : row ∈ w.conns
  cached : dget w.ccache row.cid = some ref

/-- The cached object of a stored segment. -/
structure LiveS (w : World) (ref : Nat) (row : SRow) : Prop where
  obj : w.sheap[ref]? = some ⟨row, false⟩
  mem : row ∈ w.subs
  cached : dget w.scache row.cid = some ref

/-- Equal except for objects, caches and the oracle. -/
structure Same (w w' : World) : Prop where
  conns : w'.conns = w.conns
  subs : w'.subs = w.subs
  ckey : w'.ckey = w.ckey
  skey : w'.skey = w.skey
  resv : w'.resv = w.resv
  qreqs : w'.qreqs = w.qreqs
  qcalls : w'.qcalls = w.qcalls
  notif : w'.notif = w.notif
  outbox : w'.outbox = w.outbox
  sent : w'.sent = w.sent

theorem Same.rfl {w : World} : Same w w := by constructor <;> rfl

theorem Same.trans {a b c : World} (h : Same a b) (h' : Same b c) : Same a c :=
  .mk (h'.conns.trans h.conns) (h'.subs.trans h.subs) (h'.ckey.trans h.ckey) (h'.skey.trans h.skey) (h'.resv.trans h.resv)
    (h'.qreqs.trans h.qreqs) (h'.qcalls.trans h.qcalls) (h'.notif.trans h.notif) (h'.outbox.trans h.outbox) (h'.sent.trans h.sent)

/-- The effect of look-ups: nothing changes but objects and caches grow. -/
structure Look (w w' : World) : Prop where
  same : Same w w'
  orc : w'.orc = w.orc
  c : ∀ ref row, LiveC w ref row → LiveC w' ref row
  s : ∀ ref row, LiveS w ref row → LiveS w' ref row

theorem Look.rfl {w : World} : Look w w := ⟨.rfl, by rfl, fun _ _ h => h, fun _ _ h => h⟩
theorem Look.trans {a b c : World} (h : Look a b) (h' : Look b c) : Look a c :=
  ⟨h.same.trans h'.same, h'.orc.trans h.orc, fun _ _ x => h'.c _ _ (h.c _ _ x), fun _ _ x => h'.s _ _ (h.s _ _ x)⟩

theorem nodup_map_inj {α β : Type} {f : α → β} {l : List α} (h : (l.map f).Nodup) {a b : α} (ha : a ∈ l) (hb : b ∈ l) (he : f a = f b) : a = b :=
  List.inj_on_of_nodup_map h ha hb he

/-! ### Look-ups -/

theorem find?_of_unique {α : Type} {p : α → Bool} {l : List α} {a : α} (ha : a ∈ l) (hp : p a = true) (hu : ∀ b ∈ l, p b = true → b = a) :
    l.find? p = some a := by
  cases h : l.find? p with
  | none => exact absurd hp (by simpa using List.find?_eq_none.mp h a ha)
  | some b => rw [hu b (List.mem_of_find?_eq_some h) (List.find?_some h)]

theorem getConnection_hit {w : World} (hg : Good w) {row : CRow} (hr : row ∈ w.conns) :
    ∃ ref w', (getConnection row.cid).run machine w = (w', .ok ref) ∧ Look w w' ∧ Good w' ∧ LiveC w' ref row := by
  simp only [getConnection, run_bind', run_issue, machine_exec, exec_cachedC, andThen_ok]
  cases hc : dget w.ccache row.cid with
  | some ref =>
    obtain ⟨row', hobj, hmem, hcid⟩ := hg.ccache _ _ hc
    have : row' = row := nodup_map_inj hg.ccids hmem hr hcid
    subst this
    exact ⟨ref, w, rfl, .rfl, hg, hobj, hr, hc⟩
  | none =>
    have hf : w.conns.find? (fun r => r.cid = row.cid) = some row :=
      find?_of_unique hr (by simp) fun b hb he => nodup_map_inj hg.ccids hb hr (by simpa using he)
    simp only [run_bind', run_issue, machine_exec, exec, hf, andThen_ok, run_pure]
    refine ⟨_, _, rfl, ?_, ?_, ?_⟩
    · refine ⟨by constructor <;> rfl, by rfl, ?_, fun _ _ h => ⟨h.obj, h.mem, h.cached⟩⟩
      intro ref r h
      refine ⟨?_, h.mem, ?_⟩
      · show (w.cheap ++ [⟨row, false⟩])[ref]? = _
        rw [List.getElem?_append_left (by
          rcases Nat.lt_or_ge ref w.cheap.length with h' | h'
          · exact h'
          · have := h.obj; simp [List.getElem?_eq_none h'] at this)]
        exact h.obj
      · show dget (dset w.ccache row.cid _) r.cid = some ref
        rw [dget_dset]
        split
        · rename_i he
          have := h.cached; rw [← he, hc] at this; cases this
        · exact h.cached
    · refine ⟨hg.ckeys, hg.ckeyb, hg.ccids, hg.skeys, hg.skeyb, hg.scids, ?_, hg.scache, hg.sfk, hg.rfk, ?_⟩
      · intro cid ref h
        change dget (dset w.ccache row.cid w.cheap.length) cid = some ref at h
        rw [dget_dset] at h
        split at h
        · rename_i he
          simp only [Option.some.injEq] at h
          exact ⟨row, by subst h; simp, hr, he⟩
        · obtain ⟨r, h1, h2, h3⟩ := hg.ccache _ _ h
          refine ⟨r, ?_, h2, h3⟩
          show (w.cheap ++ [⟨row, false⟩])[ref]? = _
          rw [List.getElem?_append_left (by
            rcases Nat.lt_or_ge ref w.cheap.length with h' | h'
            · exact h'
            · simp [List.getElem?_eq_none h'] at h1)]
          exact h1
      · intro e he
        obtain ⟨r, h1, h2, h3⟩ := hg.qfk e he
        refine ⟨r, ?_, h2, ?_⟩
        · show (w.cheap ++ [⟨row, false⟩])[e.2.conn]? = _
          rw [List.getElem?_append_left (by
            rcases Nat.lt_or_ge e.2.conn w.cheap.length with h' | h'
            · exact h'
            · simp [List.getElem?_eq_none h'] at h1)]
          exact h1
        · show dget (dset w.ccache row.cid _) r.cid = _
          rw [dget_dset]
          split
          · rename_i hee
            rw [← hee, hc] at h3; cases h3
          · exact h3
    · refine ⟨by simp, hr, ?_⟩
      show dget (dset w.ccache row.cid _) row.cid = _
      rw [dget_dset, if_pos rfl]

theorem getConnection_miss {w : World} (hg : Good w) {cid : Str} (hr : ∀ r ∈ w.conns, r.cid ≠ cid) :
    (getConnection cid).run machine w = (w, .error .nonExistent) := by
  simp only [getConnection, run_bind', run_issue, machine_exec, exec_cachedC, andThen_ok]
  cases hc : dget w.ccache cid with
  | some ref =>
    obtain ⟨row', _, hmem, hcid⟩ := hg.ccache _ _ hc
    exact absurd hcid (hr _ hmem)
  | none =>
    have hf : w.conns.find? (fun r => r.cid = cid) = none := by
      rw [List.find?_eq_none]; intro x hx; simpa using hr x hx
    simp only [run_bind', run_issue, machine_exec, exec, hf, andThen_ok, run_throw]

theorem getConnectionByKey_hit {w : World} (hg : Good w) {row : CRow} (hr : row ∈ w.conns) :
    ∃ ref w', (getConnectionByKey row.key).run machine w = (w', .ok ref) ∧ Look w w' ∧ Good w' ∧ LiveC w' ref row := by
  have hf : w.conns.find? (fun r => r.key = row.key) = some row :=
    find?_of_unique hr (by simp) fun b hb he => nodup_map_inj hg.ckeys hb hr (by simpa using he)
  simp only [getConnectionByKey, run_bind', run_issue, machine_exec, exec_findConnByKey, hf, andThen_ok, Option.map_some]
  exact getConnection_hit hg hr

/-- Caching a segment object. -/
def cacheSub (w : World) (row : SRow) : World :=
  { w with sheap := w.sheap ++ [⟨row, false⟩], scache := dset w.scache row.cid w.sheap.length }

theorem lt_of_getElem? {α : Type} {l : List α} {i : Nat} {a : α} (h : l[i]? = some a) : i < l.length := by
  rcases Nat.lt_or_ge i l.length with h' | h'
  · exact h'
  · simp [List.getElem?_eq_none h'] at h

theorem getElem?_append_of {α : Type} {l m : List α} {i : Nat} {a : α} (h : l[i]? = some a) : (l ++ m)[i]? = some a := by
  rw [List.getElem?_append_left (lt_of_getElem? h)]; exact h

theorem cacheSub_good {w : World} (hg : Good w) {row : SRow} (hr : row ∈ w.subs) (hc : dget w.scache row.cid = none) :
    Look w (cacheSub w row) ∧ Good (cacheSub w row) ∧ LiveS (cacheSub w row) w.sheap.length row := by
  refine ⟨⟨by constructor <;> rfl, by rfl, fun _ _ h => ⟨h.obj, h.mem, h.cached⟩, ?_⟩, ?_, ?_⟩
  · intro ref r h
    refine ⟨getElem?_append_of h.obj, h.mem, ?_⟩
    show dget (dset w.scache row.cid _) r.cid = some ref
    rw [dget_dset]
    split
    · rename_i he
      have := h.cached; rw [← he, hc] at this; cases this
    · exact h.cached
  · refine ⟨hg.ckeys, hg.ckeyb, hg.ccids, hg.skeys, hg.skeyb, hg.scids, hg.ccache, ?_, hg.sfk, hg.rfk, hg.qfk⟩
    intro cid ref h
    change dget (dset w.scache row.cid w.sheap.length) cid = some ref at h
    rw [dget_dset] at h
    split at h
    · rename_i he
      simp only [Option.some.injEq] at h
      exact ⟨row, by subst h; simp [cacheSub], hr, he⟩
    · obtain ⟨r, h1, h2, h3⟩ := hg.scache _ _ h
      exact ⟨r, getElem?_append_of h1, h2, h3⟩
  · refine ⟨by simp [cacheSub], hr, ?_⟩
    show dget (dset w.scache row.cid _) row.cid = _
    rw [dget_dset, if_pos rfl]

theorem findSub_hit {w : World} (hg : Good w) {row : SRow} (hr : row ∈ w.subs) :
    w.findSub (row.prov, row.cid) = ({ w with sheap := w.sheap ++ [⟨row, false⟩] }, some w.sheap.length) := by
  have hf : w.subs.find? (fun r => r.prov = row.prov && r.cid = row.cid) = some row :=
    find?_of_unique hr (by simp) fun b hb he => nodup_map_inj hg.scids hb hr (by
      simp only [Bool.and_eq_true, decide_eq_true_eq] at he; exact he.2)
  simp only [World.findSub, hf]

/-- A reply about a segment finds it if it is cached, or comes from its provider. -/
theorem getSubConnection_hit {w : World} (hg : Good w) {row : SRow} (hr : row ∈ w.subs) (prov : Str)
    (hp : row.prov = prov ∨ (dget w.scache row.cid).isSome) :
    ∃ ref w', (getSubConnection prov row.cid).run machine w = (w', .ok ref) ∧ Look w w' ∧ Good w' ∧ LiveS w' ref row := by
  simp only [getSubConnection, run_bind', run_issue, machine_exec, exec_cachedS, andThen_ok]
  cases hc : dget w.scache row.cid with
  | some ref =>
    obtain ⟨row', hobj, hmem, hcid⟩ := hg.scache _ _ hc
    have : row' = row := nodup_map_inj hg.scids hmem hr hcid
    subst this
    exact ⟨ref, w, rfl, .rfl, hg, hobj, hr, hc⟩
  | none =>
    rcases hp with rfl | hp
    · have := cacheSub_good hg hr hc
      refine ⟨_, cacheSub w row, ?_, this.1, this.2.1, this.2.2⟩
      simp only [run_bind', run_issue, machine_exec, exec_findSubs, World.findSubs, findSub_hit hg hr, andThen_ok, exec_cacheS, run_pure]
      rfl
    · rw [hc] at hp; cases hp

theorem getSubConnection_miss {w : World} (hg : Good w) {prov cid : Str}
    (hr : ∀ s ∈ w.subs, s.cid = cid → s.prov ≠ prov ∧ dget w.scache cid = none) :
    (getSubConnection prov cid).run machine w = (w, .error .nonExistent) := by
  simp only [getSubConnection, run_bind', run_issue, machine_exec, exec_cachedS, andThen_ok]
  cases hc : dget w.scache cid with
  | some ref =>
    obtain ⟨row', _, hmem, hcid⟩ := hg.scache _ _ hc
    have := (hr _ hmem hcid).2
    rw [hc] at this; cases this
  | none =>
    have hf : w.subs.find? (fun r => r.prov = prov && r.cid = cid) = none := by
      rw [List.find?_eq_none]; intro x hx
      simp only [Bool.and_eq_true, decide_eq_true_eq, not_and]
      intro h1 h2
      exact (hr x hx h2).1 h1
    simp only [run_bind', run_issue, machine_exec, exec_findSubs, World.findSubs, World.findSub, hf, andThen_ok, run_throw]

end OpenNSA.Agg
