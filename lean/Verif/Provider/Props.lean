import Verif.Provider.Model
/-
C41: each confirmation reaches the request it answers, once.
-/
namespace OpenNSA.Provider
open Py

/-! ### Specification -/

/-- The request an event makes, if any. -/
def Ev.asks : Ev → Option Nat
  | .reserveAcked rid _ _ => some rid
  | .request _ rid _ _ => some rid
  | .syncQuery rid _ => some rid
  | _ => none

/-- The operation, header and connection of the request `rid` among the events. -/
def Asked (es : List Ev) (rid : Nat) (op : Op) (hdr : Hdr) (cid : Str) : Prop :=
  (op = .reserve ∧ .reserveAcked rid hdr cid ∈ es) ∨ (op ≠ .reserve ∧ .request op rid hdr cid ∈ es)

/-- The requests answered with a confirmation. -/
def confirmed (out : List Out) : List Nat := out.filterMap fun
  | .conf rid _ _ _ => some rid
  | _ => none

/-- The synchronous queries answered. -/
def synced (out : List Out) : List Nat := out.filterMap fun
  | .sync rid _ => some rid
  | _ => none

/-- The operation a confirmation answers. -/
def Conf.op : Conf → Op
  | .reserveConfirmed => .reserve
  | .reserveFailed => .reserve
  | .commitConfirmed => .commit
  | .abortConfirmed => .abort
  | .provisionConfirmed => .provision
  | .releaseConfirmed => .release
  | .terminateConfirmed => .terminate

/-! ### At most once -/

/-- `used` are the requests made so far. -/
structure Inv (s : Prov) (used : List Nat) : Prop where
  keys : (dkeys s.notifications).Nodup
  one : ∀ k k' rid h h', (k, (rid, h)) ∈ s.notifications → (k', (rid, h')) ∈ s.notifications → k = k'
  pending : ∀ k rid h, (k, (rid, h)) ∈ s.notifications → rid ∈ used ∧ rid ∉ confirmed s.out
  out : (confirmed s.out).Nodup ∧ ∀ rid ∈ confirmed s.out, rid ∈ used
  skeys : (dkeys s.syncs).Nodup
  sone : ∀ k k' rid, (k, rid) ∈ s.syncs → (k', rid) ∈ s.syncs → k = k'
  spending : ∀ k rid, (k, rid) ∈ s.syncs → rid ∈ used ∧ rid ∉ synced s.out
  sout : (synced s.out).Nodup ∧ ∀ rid ∈ synced s.out, rid ∈ used

theorem Inv.mono {s : Prov} {used used' : List Nat} (h : Inv s used) (hs : ∀ r ∈ used, r ∈ used') : Inv s used' :=
  ⟨h.keys, h.one, fun k rid x hm => ⟨hs _ (h.pending k rid x hm).1, (h.pending k rid x hm).2⟩, ⟨h.out.1, fun r hr => hs _ (h.out.2 r hr)⟩,
   h.skeys, h.sone, fun k rid hm => ⟨hs _ (h.spending k rid hm).1, (h.spending k rid hm).2⟩, ⟨h.sout.1, fun r hr => hs _ (h.sout.2 r hr)⟩⟩

theorem confirmed_append (a b : List Out) : confirmed (a ++ b) = confirmed a ++ confirmed b := by simp [confirmed, List.filterMap_append]
theorem synced_append (a b : List Out) : synced (a ++ b) = synced a ++ synced b := by simp [synced, List.filterMap_append]

theorem Inv.remember {s : Prov} {used : List Nat} (h : Inv s used) (op : Op) (rid : Nat) (hdr : Hdr) (cid : Str) (hn : rid ∉ used) :
    Inv (s.remember op rid hdr cid) (rid :: used) := by
  unfold Prov.remember
  split
  · have hfresh : ∀ k x, (k, (rid, x)) ∉ s.notifications := fun k x hm => hn (h.pending k rid x hm).1
    refine ⟨nodup_dset h.keys _ _, ?_, ?_, ⟨h.out.1, fun r hr => List.mem_cons_of_mem _ (h.out.2 r hr)⟩, h.skeys, h.sone,
      fun k r hm => ⟨List.mem_cons_of_mem _ (h.spending k r hm).1, (h.spending k r hm).2⟩, ⟨h.sout.1, fun r hr => List.mem_cons_of_mem _ (h.sout.2 r hr)⟩⟩
    · intro k k' r x x' h1 h2
      rcases (mem_dset_iff h.keys).1 h1 with ⟨rfl, e1⟩ | ⟨_, h1⟩ <;> rcases (mem_dset_iff h.keys).1 h2 with ⟨rfl, e2⟩ | ⟨_, h2⟩
      · rfl
      · cases e1; exact absurd h2 (hfresh _ _)
      · cases e2; exact absurd h1 (hfresh _ _)
      · exact h.one k k' r x x' h1 h2
    · intro k r x hm
      rcases (mem_dset_iff h.keys).1 hm with ⟨rfl, e1⟩ | ⟨_, hm⟩
      · cases e1
        exact ⟨List.mem_cons_self, fun hc => hn (h.out.2 _ hc)⟩
      · exact ⟨List.mem_cons_of_mem _ (h.pending k r x hm).1, (h.pending k r x hm).2⟩
  · exact h.mono fun r hr => List.mem_cons_of_mem _ hr

theorem Inv.step {s : Prov} {used : List Nat} (h : Inv s used) (e : Ev) (hn : ∀ r, e.asks = some r → r ∉ used) :
    Inv (s.step e) (e.asks.toList ++ used) := by
  cases e with
  | reserveAcked rid hdr cid => exact h.remember _ rid hdr cid (hn rid rfl)
  | request op rid hdr cid =>
    simp only [Prov.step]
    split
    · exact h.mono fun r hr => List.mem_append_right _ hr
    · exact h.remember op rid hdr cid (hn rid rfl)
  | refused rid =>
    have h1 : confirmed (s.out ++ [.fault rid]) = confirmed s.out := by simp [confirmed, List.filterMap_append]
    have h2 : synced (s.out ++ [.fault rid]) = synced s.out := by simp [synced, List.filterMap_append]
    exact ⟨h.keys, h.one, by simpa only [Prov.step, Ev.asks, Option.toList, List.nil_append, h1] using h.pending, by simpa only [Prov.step, Ev.asks, Option.toList, List.nil_append, h1] using h.out, h.skeys, h.sone,
      by simpa only [Prov.step, Ev.asks, Option.toList, List.nil_append, h2] using h.spending, by simpa only [Prov.step, Ev.asks, Option.toList, List.nil_append, h2] using h.sout⟩
  | confirmed kind cid =>
    show Inv (s.confirm kind cid) used
    unfold Prov.confirm
    cases hg : dget s.notifications (cid, kind.resp) with
    | none => exact h
    | some p =>
      obtain ⟨rid, hdr⟩ := p
      have hm := dget_some_mem hg
      have h1 : OpenNSA.Provider.confirmed (s.out ++ [.conf rid kind hdr cid]) = OpenNSA.Provider.confirmed s.out ++ [rid] := by
        simp [OpenNSA.Provider.confirmed, List.filterMap_append]
      have h2 : synced (s.out ++ [.conf rid kind hdr cid]) = synced s.out := by simp [synced, List.filterMap_append]
      refine ⟨nodup_ddel h.keys _, ?_, ?_, ?_, h.skeys, h.sone, by simpa only [h2] using h.spending, by simpa only [h2] using h.sout⟩
      · intro k k' r x x' a b
        exact h.one k k' r x x' (mem_ddel_iff.1 a).2 (mem_ddel_iff.1 b).2
      · intro k r x a
        have a' := (mem_ddel_iff.1 a).2
        refine ⟨(h.pending k r x a').1, ?_⟩
        rw [h1, List.mem_append, not_or]
        refine ⟨(h.pending k r x a').2, ?_⟩
        simp only [List.mem_singleton]
        rintro rfl
        exact (mem_ddel_iff.1 a).1 (h.one _ _ _ _ _ a' hm)
      · rw [h1]
        refine ⟨?_, ?_⟩
        · refine List.nodup_append.2 ⟨h.out.1, by simp, ?_⟩
          intro a ha b hb
          simp only [List.mem_singleton] at hb
          subst hb
          rintro rfl
          exact (h.pending _ _ _ hm).2 ha
        · intro r hr
          rcases List.mem_append.1 hr with hr | hr
          · exact h.out.2 r hr
          · simp only [List.mem_singleton] at hr
            subst hr
            exact (h.pending _ _ _ hm).1
  | syncQuery rid hdr =>
    have hm : Inv s (rid :: used) := h.mono fun r hr => List.mem_cons_of_mem _ hr
    show Inv (s.step (.syncQuery rid hdr)) (rid :: used)
    simp only [Prov.step]
    split
    · cases truthyText hdr.correlation with
      | none => exact hm
      | some c =>
        have hn' := hn rid rfl
        refine ⟨hm.keys, hm.one, hm.pending, hm.out, nodup_dset h.skeys _ _, ?_, ?_, hm.sout⟩
        · intro k k' r h1 h2
          rcases (mem_dset_iff h.skeys).1 h1 with ⟨rfl, e1⟩ | ⟨_, h1'⟩ <;> rcases (mem_dset_iff h.skeys).1 h2 with ⟨rfl, e2⟩ | ⟨_, h2'⟩
          · rfl
          · subst e1; exact absurd (h.spending _ _ h2').1 hn'
          · subst e2; exact absurd (h.spending _ _ h1').1 hn'
          · exact h.sone k k' r h1' h2'
        · intro k r hk
          rcases (mem_dset_iff h.skeys).1 hk with ⟨rfl, e1⟩ | ⟨_, hk⟩
          · subst e1
            exact ⟨List.mem_cons_self, fun hc => hn' (h.sout.2 _ hc)⟩
          · exact hm.spending k r hk
    · exact hm
  | summary hdr payload =>
    show Inv (s.step (.summary hdr payload)) used
    simp only [Prov.step]
    cases hdr.replyTo with
    | none => exact h
    | some _ =>
      cases hb : hdr.correlation.bind (dget s.syncs) with
      | none =>
        have h1 : OpenNSA.Provider.confirmed (s.out ++ [.query hdr payload]) = OpenNSA.Provider.confirmed s.out := by simp [OpenNSA.Provider.confirmed, List.filterMap_append]
        have h2 : synced (s.out ++ [.query hdr payload]) = synced s.out := by simp [synced, List.filterMap_append]
        exact ⟨h.keys, h.one, by simpa only [h1] using h.pending, by simpa only [h1] using h.out, h.skeys, h.sone,
          by simpa only [h2] using h.spending, by simpa only [h2] using h.sout⟩
      | some rid =>
        obtain ⟨c, hc, hg⟩ := Option.bind_eq_some_iff.1 hb
        have hm := dget_some_mem hg
        have h1 : OpenNSA.Provider.confirmed (s.out ++ [.sync rid payload]) = OpenNSA.Provider.confirmed s.out := by simp [OpenNSA.Provider.confirmed, List.filterMap_append]
        have h2 : synced (s.out ++ [.sync rid payload]) = synced s.out ++ [rid] := by simp [synced, List.filterMap_append]
        simp only [hc, Option.getD_some]
        refine ⟨h.keys, h.one, by simpa only [h1] using h.pending, by simpa only [h1] using h.out, nodup_ddel h.skeys _, ?_, ?_, ?_⟩
        · intro k k' r a b
          exact h.sone k k' r (mem_ddel_iff.1 a).2 (mem_ddel_iff.1 b).2
        · intro k r a
          have a' := (mem_ddel_iff.1 a).2
          refine ⟨(h.spending k r a').1, ?_⟩
          rw [h2, List.mem_append, not_or]
          refine ⟨(h.spending k r a').2, ?_⟩
          simp only [List.mem_singleton]
          rintro rfl
          exact (mem_ddel_iff.1 a).1 (h.sone _ _ _ a' hm)
        · rw [h2]
          refine ⟨?_, ?_⟩
          · refine List.nodup_append.2 ⟨h.sout.1, by simp, ?_⟩
            intro a ha b hb
            simp only [List.mem_singleton] at hb
            subst hb
            rintro rfl
            exact (h.spending _ _ hm).2 ha
          · intro r hr
            rcases List.mem_append.1 hr with hr | hr
            · exact h.sout.2 r hr
            · simp only [List.mem_singleton] at hr
              subst hr
              exact (h.spending _ _ hm).1
  | recursive hdr payload =>
    have h1 : confirmed (s.out ++ [.query hdr payload]) = confirmed s.out := by simp [confirmed, List.filterMap_append]
    have h2 : synced (s.out ++ [.query hdr payload]) = synced s.out := by simp [synced, List.filterMap_append]
    exact ⟨h.keys, h.one, by simpa only [Prov.step, Ev.asks, Option.toList, List.nil_append, h1] using h.pending, by simpa only [Prov.step, Ev.asks, Option.toList, List.nil_append, h1] using h.out, h.skeys, h.sone,
      by simpa only [Prov.step, Ev.asks, Option.toList, List.nil_append, h2] using h.spending, by simpa only [Prov.step, Ev.asks, Option.toList, List.nil_append, h2] using h.sout⟩

theorem Inv.run {s : Prov} {used : List Nat} (h : Inv s used) (es : List Ev) (hn : (es.filterMap Ev.asks).Nodup)
    (hd : ∀ r ∈ es.filterMap Ev.asks, r ∉ used) : ∃ used', Inv (s.run es) used' := by
  induction es generalizing s used with
  | nil => exact ⟨used, h⟩
  | cons e es ih =>
    have hstep := h.step e (by
      intro r hr
      exact hd r (List.mem_filterMap.2 ⟨e, List.mem_cons_self, hr⟩))
    have hrun : s.run (e :: es) = (s.step e).run es := rfl
    rw [hrun]
    cases ha : e.asks with
    | none =>
      rw [List.filterMap_cons_none ha] at hn hd
      rw [ha] at hstep
      exact ih hstep hn hd
    | some r =>
      rw [List.filterMap_cons_some ha] at hn hd
      rw [ha] at hstep
      refine ih hstep (List.nodup_cons.1 hn).2 ?_
      intro q hq hc
      rcases List.mem_cons.1 hc with rfl | hc
      · exact (List.nodup_cons.1 hn).1 hq
      · exact hd q (List.mem_cons_of_mem _ hq) hc

/-- **C41, once.** In every sequence of requests, confirmations, refusals and queries, over all connections, each request is sent at
most one confirmation, and each synchronous query is answered at most once. -/
theorem C41_at_most_once (es : List Ev) (hn : (es.filterMap Ev.asks).Nodup) :
    (confirmed (Prov.new.run es).out).Nodup ∧ (synced (Prov.new.run es).out).Nodup := by
  have h0 : Inv Prov.new [] := by
    constructor <;> simp [Prov.new, dkeys, confirmed, synced]
  obtain ⟨u, hu⟩ := h0.run es hn (by simp)
  exact ⟨hu.out.1, hu.sout.1⟩

/-! ### To the request that asked -/

/-- Every pending entry belongs to a request for that connection and kind of response. -/
def Known (s : Prov) (es : List Ev) : Prop :=
  (∀ k rid h, (k, (rid, h)) ∈ s.notifications → h.replies ∧ ∃ op, Asked es rid op h k.1 ∧ op.resp = k.2) ∧
  (∀ rid kind h cid, Out.conf rid kind h cid ∈ s.out → h.replies ∧ ∃ op, Asked es rid op h cid ∧ op.resp = kind.resp) ∧
  (∀ c rid, (c, rid) ∈ s.syncs → ∃ h, .syncQuery rid h ∈ es ∧ h.correlation = some c) ∧
  (∀ rid p, Out.sync rid p ∈ s.out → ∃ h h', .syncQuery rid h ∈ es ∧ .summary h' p ∈ es ∧ h.correlation = h'.correlation) ∧
  (∀ h p, Out.query h p ∈ s.out → (.summary h p ∈ es ∨ .recursive h p ∈ es))

theorem Asked.mono {es es' : List Ev} {rid op hdr cid} (h : Asked es rid op hdr cid) (hs : ∀ e ∈ es, e ∈ es') : Asked es' rid op hdr cid :=
  h.imp (fun ⟨a, b⟩ => ⟨a, hs _ b⟩) fun ⟨a, b⟩ => ⟨a, hs _ b⟩

theorem Known.mono {s : Prov} {es es' : List Ev} (h : Known s es) (hs : ∀ e ∈ es, e ∈ es') : Known s es' := by
  obtain ⟨h1, h2, h3, h4, h5⟩ := h
  refine ⟨?_, ?_, ?_, ?_, ?_⟩
  · intro k rid h hm
    obtain ⟨a, op, b, c⟩ := h1 k rid h hm
    exact ⟨a, op, b.mono hs, c⟩
  · intro rid kind h cid hm
    obtain ⟨a, op, b, c⟩ := h2 rid kind h cid hm
    exact ⟨a, op, b.mono hs, c⟩
  · intro c rid hm
    obtain ⟨h, a, b⟩ := h3 c rid hm
    exact ⟨h, hs _ a, b⟩
  · intro rid p hm
    obtain ⟨h, h', a, b, c⟩ := h4 rid p hm
    exact ⟨h, h', hs _ a, hs _ b, c⟩
  · intro h p hm
    exact (h5 h p hm).imp (hs _) (hs _)

theorem Known.remember {s : Prov} {es : List Ev} (h : Known s es) (op : Op) (rid : Nat) (hdr : Hdr) (cid : Str) (ha : Asked es rid op hdr cid) :
    Known (s.remember op rid hdr cid) es := by
  unfold Prov.remember
  split
  · rename_i hr
    refine ⟨?_, h.2⟩
    intro k r x hm
    rcases mem_dset_of hm with e | hm
    · cases e
      exact ⟨hr, op, ha, rfl⟩
    · exact h.1 k r x hm
  · exact h

theorem Known.step {s : Prov} {es : List Ev} (h : Known s es) (e : Ev) : Known (s.step e) (es ++ [e]) := by
  have hm : Known s (es ++ [e]) := h.mono fun x hx => List.mem_append_left _ hx
  have he : e ∈ es ++ [e] := by simp
  cases e with
  | reserveAcked rid hdr cid => exact hm.remember _ rid hdr cid (Or.inl ⟨rfl, he⟩)
  | request op rid hdr cid =>
    simp only [Prov.step]
    split
    · exact hm
    · rename_i hop
      exact hm.remember op rid hdr cid (Or.inr ⟨hop, he⟩)
  | refused rid =>
    obtain ⟨h1, h2, h3, h4, h5⟩ := hm
    refine ⟨h1, ?_, h3, ?_, ?_⟩
    · intro r kind x cid ho
      simp only [Prov.step, List.mem_append, List.mem_singleton, reduceCtorEq, or_false] at ho
      exact h2 r kind x cid ho
    · intro r p ho
      simp only [Prov.step, List.mem_append, List.mem_singleton, reduceCtorEq, or_false] at ho
      exact h4 r p ho
    · intro x p ho
      simp only [Prov.step, List.mem_append, List.mem_singleton, reduceCtorEq, or_false] at ho
      exact h5 x p ho
  | confirmed kind cid =>
    obtain ⟨h1, h2, h3, h4, h5⟩ := hm
    show Known (s.confirm kind cid) _
    unfold Prov.confirm
    cases hg : dget s.notifications (cid, kind.resp) with
    | none => exact ⟨h1, h2, h3, h4, h5⟩
    | some p =>
      obtain ⟨rid, hdr⟩ := p
      refine ⟨?_, ?_, h3, ?_, ?_⟩
      · intro k r x a
        exact h1 k r x (mem_ddel_iff.1 a).2
      · intro r kd x c ho
        rcases List.mem_append.1 ho with ho | ho
        · exact h2 r kd x c ho
        · simp only [List.mem_singleton, Out.conf.injEq] at ho
          obtain ⟨rfl, rfl, rfl, rfl⟩ := ho
          exact h1 _ _ _ (dget_some_mem hg)
      · intro r p ho
        simp only [List.mem_append, List.mem_singleton, reduceCtorEq, or_false] at ho
        exact h4 r p ho
      · intro x p ho
        simp only [List.mem_append, List.mem_singleton, reduceCtorEq, or_false] at ho
        exact h5 x p ho
  | syncQuery rid hdr =>
    simp only [Prov.step]
    split
    · cases hc : truthyText hdr.correlation with
      | none => exact hm
      | some c =>
        obtain ⟨h1, h2, h3, h4, h5⟩ := hm
        refine ⟨h1, h2, ?_, h4, h5⟩
        intro c' r a
        rcases mem_dset_of a with e | a
        · cases e
          refine ⟨hdr, he, ?_⟩
          unfold truthyText at hc
          split at hc <;> simp_all
        · exact h3 c' r a
    · exact hm
  | summary hdr payload =>
    obtain ⟨h1, h2, h3, h4, h5⟩ := hm
    simp only [Prov.step]
    cases hdr.replyTo with
    | none => exact ⟨h1, h2, h3, h4, h5⟩
    | some _ =>
      cases hb : hdr.correlation.bind (dget s.syncs) with
      | none =>
        refine ⟨h1, ?_, h3, ?_, ?_⟩
        · intro r kind x cid ho
          simp only [List.mem_append, List.mem_singleton, reduceCtorEq, or_false] at ho
          exact h2 r kind x cid ho
        · intro r p ho
          simp only [List.mem_append, List.mem_singleton, reduceCtorEq, or_false] at ho
          exact h4 r p ho
        · intro x p ho
          rcases List.mem_append.1 ho with ho | ho
          · exact h5 x p ho
          · simp only [List.mem_singleton, Out.query.injEq] at ho
            obtain ⟨rfl, rfl⟩ := ho
            exact Or.inl he
      | some rid =>
        obtain ⟨c, hc, hg⟩ := Option.bind_eq_some_iff.1 hb
        refine ⟨h1, ?_, ?_, ?_, ?_⟩
        · intro r kind x cid ho
          simp only [List.mem_append, List.mem_singleton, reduceCtorEq, or_false] at ho
          exact h2 r kind x cid ho
        · intro c' r a
          exact h3 c' r (mem_ddel_iff.1 a).2
        · intro r p ho
          rcases List.mem_append.1 ho with ho | ho
          · exact h4 r p ho
          · simp only [List.mem_singleton, Out.sync.injEq] at ho
            obtain ⟨rfl, rfl⟩ := ho
            obtain ⟨x, hx, hxc⟩ := h3 c r (dget_some_mem hg)
            exact ⟨x, hdr, hx, he, by rw [hxc, hc]⟩
        · intro x p ho
          simp only [List.mem_append, List.mem_singleton, reduceCtorEq, or_false] at ho
          exact h5 x p ho
  | recursive hdr payload =>
    obtain ⟨h1, h2, h3, h4, h5⟩ := hm
    refine ⟨h1, ?_, h3, ?_, ?_⟩
    · intro r kind x cid ho
      simp only [Prov.step, List.mem_append, List.mem_singleton, reduceCtorEq, or_false] at ho
      exact h2 r kind x cid ho
    · intro r p ho
      simp only [Prov.step, List.mem_append, List.mem_singleton, reduceCtorEq, or_false] at ho
      exact h4 r p ho
    · intro x p ho
      rcases List.mem_append.1 ho with ho | ho
      · exact h5 x p ho
      · simp only [List.mem_singleton, Out.query.injEq] at ho
        obtain ⟨rfl, rfl⟩ := ho
        exact Or.inr he

theorem known_run (es : List Ev) : Known (Prov.new.run es) es := by
  have : ∀ (es done : List Ev) (s : Prov), Known s done → Known (s.run es) (done ++ es) := by
    intro es
    induction es with
    | nil => intro done s h; simpa [Prov.run] using h
    | cons e es ih =>
      intro done s h
      have := ih (done ++ [e]) (s.step e) (h.step e)
      rw [List.append_assoc] at this
      exact this
  exact this es [] Prov.new ⟨by simp [Prov.new], by simp [Prov.new], by simp [Prov.new], by simp [Prov.new], by simp [Prov.new]⟩

/-- **C41, addressed.** Every confirmation that is sent, in every sequence of events, goes to the reply address and has the correlation
id of a request that was made for that connection, with a reply address, and that asked for the operation confirmed — or, as the
two share a constant, for an abort when a commit is confirmed and the other way round (`C41_commit_abort_fails`). -/
theorem C41_addressed (es : List Ev) (rid : Nat) (kind : Conf) (hdr : Hdr) (cid : Str) (h : Out.conf rid kind hdr cid ∈ (Prov.new.run es).out) :
    hdr.replies ∧ ∃ op, Asked es rid op hdr cid ∧ (op = kind.op ∨ (op = .commit ∧ kind = .abortConfirmed) ∨ (op = .abort ∧ kind = .commitConfirmed)) := by
  obtain ⟨h1, op, h2, h3⟩ := (known_run es).2.1 rid kind hdr cid h
  refine ⟨h1, op, h2, ?_⟩
  cases op <;> cases kind <;> simp_all [Op.resp, Conf.resp, Conf.op]

/-- **C41, queries.** The answer to a query goes to the reply address of the header it is for; a synchronous query is answered with
results for a header with its correlation id. -/
theorem C41_queries (es : List Ev) :
    (∀ hdr p, Out.query hdr p ∈ (Prov.new.run es).out → .summary hdr p ∈ es ∨ .recursive hdr p ∈ es) ∧
    (∀ rid p, Out.sync rid p ∈ (Prov.new.run es).out → ∃ h h', .syncQuery rid h ∈ es ∧ .summary h' p ∈ es ∧ h.correlation = h'.correlation) :=
  ⟨(known_run es).2.2.2.2, (known_run es).2.2.2.1⟩

/-- **C41, unasked.** A confirmation nobody asked for — no request of that kind for that connection is pending — changes nothing and
sends nothing. -/
theorem C41_unasked (s : Prov) (kind : Conf) (cid : Str) (h : ∀ rid hdr, ((cid, kind.resp), (rid, hdr)) ∉ s.notifications) :
    s.step (.confirmed kind cid) = s := by
  show s.confirm kind cid = s
  unfold Prov.confirm
  cases hg : dget s.notifications (cid, kind.resp) with
  | none => rfl
  | some p => exact absurd (dget_some_mem hg) (h p.1 p.2)

/-- An event that concerns the pending entry of a connection and kind of response. -/
def Ev.touches (cid : Str) (r : Resp) : Ev → Prop
  | .reserveAcked _ _ c => c = cid ∧ r = .reserve_response
  | .request op _ _ c => c = cid ∧ op.resp = r
  | .confirmed kind c => c = cid ∧ kind.resp = r
  | _ => False

theorem step_untouched (s : Prov) (e : Ev) (cid : Str) (r : Resp) (h : ¬ e.touches cid r) :
    dget (s.step e).notifications (cid, r) = dget s.notifications (cid, r) := by
  have hrem : ∀ op rid hdr c, ¬ (c = cid ∧ op.resp = r) → dget (s.remember op rid hdr c).notifications (cid, r) = dget s.notifications (cid, r) := by
    intro op rid hdr c hne
    unfold Prov.remember
    split
    · simp only [dget_dset]
      rw [if_neg]
      intro he
      exact hne ⟨congrArg Prod.fst he, congrArg Prod.snd he⟩
    · rfl
  cases e with
  | reserveAcked rid hdr c => exact hrem _ _ _ _ fun ⟨a, b⟩ => h ⟨a, b.symm⟩
  | request op rid hdr c =>
    simp only [Prov.step]
    split
    · rfl
    · exact hrem _ _ _ _ h
  | refused rid => rfl
  | confirmed kind c =>
    show dget (s.confirm kind c).notifications _ = _
    unfold Prov.confirm
    cases dget s.notifications (c, kind.resp) with
    | none => rfl
    | some p =>
      simp only [dget_ddel]
      rw [if_neg]
      intro he
      exact h ⟨congrArg Prod.fst he, congrArg Prod.snd he⟩
  | syncQuery rid hdr =>
    simp only [Prov.step]
    split
    · cases truthyText hdr.correlation <;> rfl
    · rfl
  | summary hdr p =>
    simp only [Prov.step]
    cases hdr.replyTo with
    | none => rfl
    | some _ => cases hdr.correlation.bind (dget s.syncs) <;> rfl
  | recursive hdr p => rfl

theorem run_untouched (s : Prov) (es : List Ev) (cid : Str) (r : Resp) (h : ∀ e ∈ es, ¬ e.touches cid r) :
    dget (s.run es).notifications (cid, r) = dget s.notifications (cid, r) := by
  induction es generalizing s with
  | nil => rfl
  | cons e es ih =>
    show dget ((s.step e).run es).notifications _ = _
    rw [ih _ fun x hx => h x (List.mem_cons_of_mem _ hx), step_untouched s e cid r (h e List.mem_cons_self)]

/-- **C41, answered.** A request with a reply address that is confirmed before another request of that kind for the connection — or
another confirmation — comes in is sent the confirmation: exactly this message leaves, to its reply address and with its
correlation id. Anything may happen in between for other connections and operations. For `reserve` the request counts from the
moment the connection id is known. -/
theorem C41_answered (s : Prov) (op : Op) (kind : Conf) (rid : Nat) (hdr : Hdr) (cid : Str) (mid : List Ev) (hk : kind.op = op)
    (hr : hdr.replies) (hmid : ∀ e ∈ mid, ¬ e.touches cid kind.resp) :
    ∃ s', (s.run ((if op = .reserve then .reserveAcked rid hdr cid else .request op rid hdr cid) :: mid)) = s' ∧
      (s'.step (.confirmed kind cid)).out = s'.out ++ [.conf rid kind hdr cid] := by
  refine ⟨_, rfl, ?_⟩
  have hresp : op.resp = kind.resp := by subst hk; cases kind <;> rfl
  have h1 : s.step (if op = .reserve then .reserveAcked rid hdr cid else .request op rid hdr cid) =
      { s with notifications := dset s.notifications (cid, op.resp) (rid, hdr) } := by
    by_cases ho : op = .reserve
    · subst ho; simp [Prov.step, Prov.remember, hr]
    · simp [ho, Prov.step, Prov.remember, hr]
  have h2 : dget (s.run ((if op = .reserve then .reserveAcked rid hdr cid else .request op rid hdr cid) :: mid)).notifications (cid, kind.resp) = some (rid, hdr) := by
    show dget ((s.step _).run mid).notifications _ = _
    rw [run_untouched _ _ _ _ hmid, h1, hresp]
    simp only [dget_dset, if_true]
  show ((s.run _).confirm kind cid).out = _
  unfold Prov.confirm
  rw [h2]

namespace Ex
def h1 : Hdr := ⟨some "http://a/".toList, "urn:a".toList, "urn:p".toList, some "uuid:1".toList⟩
def h2 : Hdr := ⟨some "http://b/".toList, "urn:b".toList, "urn:p".toList, some "uuid:2".toList⟩
def silent : Hdr := ⟨none, "urn:c".toList, "urn:p".toList, some "uuid:3".toList⟩
def cid : Str := "C-1".toList
def other : Str := "C-2".toList
def mixed : List Ev := [.reserveAcked 1 h1 cid, .request .provision 2 h2 other, .syncQuery 3 h1, .confirmed .reserveConfirmed cid,
  .confirmed .provisionConfirmed other, .summary h1 "r".toList, .confirmed .reserveConfirmed cid]
end Ex

/-- `C41_at_most_once`, `C41_addressed`, `C41_queries`: three requests of two requesters, one confirmation too many. -/
example : (Ex.mixed.filterMap Ev.asks).Nodup ∧
    (Prov.new.run Ex.mixed).out = [.conf 1 .reserveConfirmed Ex.h1 Ex.cid, .conf 2 .provisionConfirmed Ex.h2 Ex.other, .sync 3 "r".toList] := by
  decide +kernel

/-- `C41_answered` -/
example : Conf.commitConfirmed.op = Op.commit ∧ Ex.h1.replies = true ∧
    (∀ e ∈ [Ev.request .provision 2 Ex.h2 Ex.cid, .request .commit 3 Ex.h2 Ex.other], ¬ e.touches Ex.cid Conf.commitConfirmed.resp) := by
  refine ⟨rfl, rfl, ?_⟩
  intro e he
  simp only [List.mem_cons, List.mem_nil_iff, or_false] at he
  rcases he with rfl | rfl <;> simp [Ev.touches, Op.resp, Conf.resp, Ex.cid, Ex.other]

/-- `C41_unasked` -/
example : ∀ rid hdr, ((Ex.cid, Conf.provisionConfirmed.resp), (rid, hdr)) ∉ (Prov.new.run [.request .release 1 Ex.h1 Ex.cid]).notifications := by
  intro rid hdr h
  have : (Prov.new.run [.request .release 1 Ex.h1 Ex.cid]).notifications = [((Ex.cid, .release_response), (1, Ex.h1))] := by decide +kernel
  rw [this] at h
  simp [Conf.resp] at h

/-! ### Violations -/

/-- **C41 is violated between commit and abort**: both constants have the same value (provider.py:13-14), so that the confirmation of a
commit is sent with the correlation id and to the address of an abort that came in meanwhile, and the commit is never confirmed. -/
theorem C41_commit_abort_fails :
    (Prov.new.run [.request .commit 1 Ex.h1 Ex.cid, .request .abort 2 Ex.h2 Ex.cid, .confirmed .commitConfirmed Ex.cid, .confirmed .abortConfirmed Ex.cid]).out =
      [.conf 2 .commitConfirmed Ex.h2 Ex.cid] := by decide +kernel

/-- **C41 is violated for two requests of the same kind**: of two provision requests for a connection the first is never confirmed; its
confirmation goes to the second. -/
theorem C41_overwritten_fails :
    (Prov.new.run [.request .provision 1 Ex.h1 Ex.cid, .request .provision 2 Ex.h2 Ex.cid, .confirmed .provisionConfirmed Ex.cid,
      .confirmed .provisionConfirmed Ex.cid]).out = [.conf 2 .provisionConfirmed Ex.h2 Ex.cid] := by decide +kernel

/-- **C41 is violated for early confirmations of reservations**: a confirmation that comes before the service provider returned the
connection id (the comment of provider.py:47-48) is lost, and the entry stays for ever. -/
theorem C41_early_fails :
    (Prov.new.run [.confirmed .reserveConfirmed Ex.cid, .reserveAcked 1 Ex.h1 Ex.cid]).out = [] ∧
    (Prov.new.run [.confirmed .reserveConfirmed Ex.cid, .reserveAcked 1 Ex.h1 Ex.cid]).notifications = [((Ex.cid, .reserve_response), (1, Ex.h1))] := by
  decide +kernel

/-- **C41 is violated for refused requests**: a request that was refused with a fault stays pending, and is sent the confirmation
of a later request without reply address. It is answered twice. -/
theorem C41_refused_fails :
    (Prov.new.run [.request .provision 1 Ex.h1 Ex.cid, .refused 1, .request .provision 2 Ex.silent Ex.cid, .confirmed .provisionConfirmed Ex.cid]).out =
      [.fault 1, .conf 1 .provisionConfirmed Ex.h1 Ex.cid] := by decide +kernel

/-- **C41 is violated for synchronous queries with the same correlation id**: correlation ids are chosen by requesters and the key does
not contain the requester. Of two queries the second is given the results of the first and, besides, a message with its own; the first
is never answered. -/
theorem C41_sync_fails : ∃ a b : Hdr, a.requester ≠ b.requester ∧ a.correlation = b.correlation ∧
    (Prov.new.run [.syncQuery 1 a, .syncQuery 2 b, .summary a "of a".toList, .summary b "of b".toList]).out =
      [.sync 2 "of a".toList, .query b "of b".toList] :=
  ⟨Ex.h1, { Ex.h2 with correlation := Ex.h1.correlation }, by decide, rfl, by decide +kernel⟩

end OpenNSA.Provider
