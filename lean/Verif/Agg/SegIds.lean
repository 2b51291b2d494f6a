import Verif.Agg.IdsRun
/- Which segments `getSubConnections` finds, whatever happens meanwhile. -/
namespace OpenNSA.Agg
open OpenNSA Py Coro

variable {cfg : Cfg} {α β : Type}

/-- The ids of the segments of a connection, in the order they were stored. -/
def segCids (w : World) (key : Nat) : List Str := (w.subs.filter fun s => s.skey = key).map (·.cid)

theorem segCids_ids (w : World) (key : Nat) : segCids w key = ((w.subs.map SRow.id).filter fun i => i.2.1 = key).map (·.2.2.1) := by
  rw [List.filter_map, List.map_map]
  rfl

/-- Segments are only added. -/
theorem Keep.segCids {w w' : World} (h : Keep w w') (key : Nat) : segCids w key <+: segCids w' key := by
  rw [segCids_ids, segCids_ids]
  exact (h.spre.filter _).map _

/-- The object of a segment with that id. -/
def SegAs (w : World) (cid : Str) (ref : Nat) : Prop := ∃ id, IsS w ref id ∧ id.2.2.1 = cid

theorem SegAs.keep {w w' : World} (hk : Keep w w') {cid : Str} {ref : Nat} (h : SegAs w cid ref) : SegAs w' cid ref := by
  obtain ⟨id, h1, h2⟩ := h
  exact ⟨id, h1.keep hk, h2⟩

def CachedAs (w : World) (x : Str × Str) (r : Option Nat) : Prop := ∀ ref, r = some ref → SegAs w x.2 ref

theorem CachedAs.keep {w w' : World} (hk : Keep w w') {x : Str × Str} {r : Option Nat} (h : CachedAs w x r) : CachedAs w' x r :=
  fun ref hr => (h ref hr).keep hk

theorem Spec.lookupSubs' (l : List (Str × Str)) : ∀ w, Spec cfg (Agg.lookupSubs l) w (fun rs v => List.Forall₂ (CachedAs v) l rs) := by
  induction l with
  | nil => intro w; exact Spec.pure fun _ => List.Forall₂.nil
  | cons x xs ih =>
    intro w
    unfold Agg.lookupSubs
    refine Spec.bind (Q := fun r v => CachedAs v x r) (Spec.cmd (fun _ _ _ => trivial) ?_) fun r v hk hi hr => ?_
    · intro v b hk hi _ hb v' hk' hi' ref hr
      simp only [exec, Except.ok.injEq] at hb hk'
      obtain ⟨o, h1, h2, h3⟩ := hi.scache x.2 ref (hb.trans hr)
      exact ⟨o.row.id, IsS.keep hk' ⟨o, h1, h2, rfl⟩, h3⟩
    · exact Spec.bind (ih v) fun rs v' hk' hi' hrs => Spec.pure fun _ => .cons (hr.keep hk') hrs

theorem Spec.mergeSubs' : ∀ (l : List (Str × Str)) (cs fs : List (Option Nat)) (w : World), List.Forall₂ (CachedAs w) l cs →
    List.Forall₂ (Found w) (missingSubs l cs) fs → Spec cfg (Agg.mergeSubs l cs fs) w (fun rs v => List.Forall₂ (SegAs v) (l.map (·.2)) rs)
  | [], _, _, w, _, _ => by unfold Agg.mergeSubs; exact Spec.pure fun _ => List.Forall₂.nil
  | _ :: _, [], _, w, h, _ => by cases h
  | x :: xs, some r :: cs, fs, w, hc, hf => by
    unfold Agg.mergeSubs
    rw [List.forall₂_cons] at hc
    refine Spec.bind (Spec.mergeSubs' xs cs fs w hc.2 (by simpa [missingSubs] using hf)) fun rs v hk hi hrs => Spec.pure fun _ => ?_
    exact .cons ((hc.1 r rfl).keep hk) hrs
  | x :: xs, none :: cs, [], w, _, _ => by unfold Agg.mergeSubs; exact Spec.throw
  | x :: xs, none :: cs, none :: fs, w, _, _ => by unfold Agg.mergeSubs; exact Spec.throw
  | x :: xs, none :: cs, some r :: fs, w, hc, hf => by
    unfold Agg.mergeSubs
    rw [List.forall₂_cons] at hc
    simp only [missingSubs, List.forall₂_cons] at hf
    obtain ⟨id, h1, h2, h3⟩ := hf.1 r rfl
    refine Spec.bind (Spec.cmd' fun v hk hi => ?_) fun _ v hk hi _ => ?_
    · obtain ⟨o, g1, g2, g3⟩ := h1.keep hk
      exact ⟨o, g1, g2, by rw [← h2, ← g3]; rfl⟩
    · refine Spec.bind (Spec.mergeSubs' xs cs fs v (hc.2.imp fun _ _ h => h.keep hk) (Forall₂.keepF hk hf.2)) fun rs v' hk' hi' hrs => Spec.pure fun _ => ?_
      exact .cons ⟨id, (h1.keep hk).keep hk', h2⟩ hrs

/-- The objects found are those of the segments stored at some moment. -/
def SegsOf (w : World) (key : Nat) (cids : List Str) (rs : List Nat) : Prop := cids <+: segCids w key ∧ List.Forall₂ (SegAs w) cids rs

theorem Spec.getSubConnections' (key : Nat) (w : World) :
    Spec cfg (Agg.getSubConnections key) w (fun rs v => ∃ cids, segCids w key <+: cids ∧ SegsOf v key cids rs) := by
  unfold Agg.getSubConnections
  refine Spec.bind (Q := fun rows v => segCids w key <+: rows.map (·.2) ∧ rows.map (·.2) <+: segCids v key)
    (Spec.cmd (fun _ _ _ => trivial) ?_) fun rows v hk hi hrows => ?_
  · intro v b hk hi _ hb v' hk' hi'
    simp only [exec, Except.ok.injEq] at hb hk'
    subst hb
    have : ((v.subs.filter fun r => r.skey = key).map fun r => (r.prov, r.cid)).map (·.2) = segCids v key := by
      simp [segCids, List.map_map, Function.comp_def]
    rw [this]
    exact ⟨hk.segCids key, hk'.segCids key⟩
  refine Spec.bind (Spec.lookupSubs' rows v) fun cs v1 hk1 _ hcs => ?_
  refine Spec.bind (Q := fun fs v => List.Forall₂ (Found v) (missingSubs rows cs) fs) ?_ fun fs v2 hk2 _ hfs =>
    (Spec.mergeSubs' rows cs fs v2 (hcs.imp fun _ _ h => h.keep hk2) hfs).mono fun rs u hu _ hrs =>
      ⟨_, hrows.1, hrows.2.trans (((hk1.trans hk2).trans hu).segCids key), hrs⟩
  unfold findMissing
  split
  · rename_i he; rw [he]; exact Spec.pure fun _ => List.Forall₂.nil
  · refine Spec.cmd (fun _ _ _ => trivial) ?_
    intro v b hk hi _ hb v' hk' hi'
    simp only [exec, Except.ok.injEq] at hb hk'
    subst hb
    exact Forall₂.keepF hk' (hi.findSubs _).2.2

theorem Spec.getSs' : ∀ (l : List Nat) (cids : List Str) (w : World), List.Forall₂ (SegAs w) cids l →
    Spec cfg (Agg.getSs l) w (fun ss _ => ss.map (·.cid) = cids)
  | [], [], w, _ => Spec.pure fun _ => rfl
  | r :: rs, c :: cids, w, h => by
    unfold Agg.getSs
    rw [List.forall₂_cons] at h
    obtain ⟨⟨id, h1, h2⟩, h3⟩ := h
    refine Spec.bind (Spec.getS h1) fun s v hk _ hs => ?_
    refine Spec.bind (Spec.getSs' rs cids v (h3.imp fun _ _ h => h.keep hk)) fun ss v' _ _ hss => Spec.pure fun _ => ?_
    simp only [List.map_cons, hss, ← h2, ← hs.2]
    rfl
  | [], _ :: _, w, h => by cases h
  | _ :: _, [], w, h => by cases h

end OpenNSA.Agg
