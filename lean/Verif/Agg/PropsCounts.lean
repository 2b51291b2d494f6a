import Verif.Agg.Shape
import Verif.Agg.PropsReplyFails
/- C28 and C30 in executions handling one message after the other: how often the requester is told. -/
namespace OpenNSA.Agg
open OpenNSA Py Coro

/-- The message says that the reservation of the connection failed. -/
def Out.isFail (cid : Str) : Out → Bool
  | .reserveFailed _ c => c = cid
  | _ => false

/-- The requests that are confirmed when all segments have confirmed. -/
inductive Kind
  | commit | abort | provision | release | terminate
  deriving DecidableEq, Repr

/-- The message is such a request for the connection. -/
def Msg.requests : Kind → Str → Msg → Bool
  | .commit, cid, .commit _ c => c = cid
  | .abort, cid, .abort _ c => c = cid
  | .provision, cid, .provision _ c => c = cid
  | .release, cid, .release _ c => c = cid
  | .terminate, cid, .terminate _ c => c = cid
  | _, _, _ => false

/-- The message to the requester confirms such a request for the connection. -/
def Out.confirms : Kind → Str → Out → Bool
  | .commit, cid, .reserveCommitConfirmed _ c => c = cid
  | .abort, cid, .reserveAbortConfirmed _ c => c = cid
  | .provision, cid, .provisionConfirmed _ c => c = cid
  | .release, cid, .releaseConfirmed _ c => c = cid
  | .terminate, cid, .terminateConfirmed _ c => c = cid
  | _, _, _ => false

theorem Out.confirms_about {k : Kind} {cid : Str} {o : Out} (h : o.confirms k cid = true) : o.about = some cid := by
  cases k <;> cases o <;> simp_all [Out.confirms, Out.about]

theorem Out.isConfirm_about {cid : Str} {o : Out} (h : o.isConfirm cid = true) : o.about = some cid := by
  cases o <;> simp_all [Out.isConfirm, Out.about]

theorem Out.isFail_about {cid : Str} {o : Out} (h : o.isFail cid = true) : o.about = some cid := by
  cases o <;> simp_all [Out.isFail, Out.about]

theorem countP_about {l : List Out} {p : Out → Bool} {cid : Str} (h : ∀ o, p o = true → o.about = some cid) :
    l.countP p = (l.filter fun o => o.about = some cid).countP p := by
  rw [List.countP_filter]
  refine List.countP_congr fun o _ => ?_
  simp only [Bool.and_eq_true, decide_eq_true_eq]
  exact ⟨fun hp => ⟨hp, h o hp⟩, fun hp => hp.1⟩

/-- Lift a statement about one connection to all ids. -/
theorem Runs.count_of {cfg : Cfg} {ms : List Msg} {w : World} (I : List Msg → Str → ConnStates → List Out → Prop)
    (hnew : ∀ ms cid st, st.r = .checking → st.p = .released → I ms cid st [])
    (hstep : ∀ ms m cid to_ s s' outs new, I ms cid s outs → Tr m cid to_ s s' new → I (ms ++ [m]) cid s' (outs ++ new))
    (h : Runs cfg ms w) (cid : Str) (p : Out → Bool) (hp : ∀ o, p o = true → o.about = some cid) (n : Nat)
    (hI : ∀ st outs, I ms cid st outs → outs.countP p ≤ n) : w.outbox.countP p ≤ n := by
  obtain ⟨h1, h2⟩ := h.conn_inv I hnew hstep
  by_cases hc : ∃ row ∈ w.conns, row.cid = cid
  · obtain ⟨row, hr, rfl⟩ := hc
    rw [countP_about hp]
    exact hI _ _ (h1 row hr)
  · have : w.outbox.countP p = 0 := by
      rw [List.countP_eq_zero]
      intro o ho hpo
      exact hc (h2 o ho cid (hp o hpo))
    omega

/-! ### C28 -/

/-- Told success at most once, not both success and failure; while checking neither, while failed no success. -/
def Verdict (_ : List Msg) (cid : Str) (s : ConnStates) (outs : List Out) : Prop :=
  (s.r = .checking ∧ outs.countP (Out.isConfirm cid) = 0 ∧ outs.countP (Out.isFail cid) = 0) ∨
  (s.r = .failed ∧ outs.countP (Out.isConfirm cid) = 0) ∨
  (s.r ≠ .checking ∧ s.r ≠ .failed ∧
    (outs.countP (Out.isConfirm cid) = 0 ∨ outs.countP (Out.isConfirm cid) = 1 ∧ outs.countP (Out.isFail cid) = 0))

theorem isNote_counts {o : Out} (h : o.isNote = true) (cid : Str) : o.isConfirm cid = false ∧ o.isFail cid = false ∧ ∀ k, o.confirms k cid = false := by
  cases o <;> simp_all [Out.isNote, Out.isConfirm, Out.isFail] <;> intro k <;> cases k <;> rfl

theorem switchR_r {s s' : ConnStates} {t : RState} (h : switchR s t = some s') : s'.r = t ∧ t ∈ reserveTransitions s.r ∧ s'.p = s.p ∧ s'.l = s.l := by
  unfold switchR at h
  split at h
  · cases h; exact ⟨rfl, ‹_›, rfl, rfl⟩
  · cases h

theorem switchP_p {s s' : ConnStates} {t : PState} (h : switchP s t = some s') : s'.p = t ∧ t ∈ provisionTransitions s.p ∧ s'.r = s.r ∧ s'.l = s.l := by
  unfold switchP at h
  split at h
  · cases h; exact ⟨rfl, ‹_›, rfl, rfl⟩
  · cases h

theorem switchL_l {s s' : ConnStates} {t : LState} (h : switchL s t = some s') : s'.l = t ∧ t ∈ lifecycleTransitions s.l ∧ s'.r = s.r ∧ s'.p = s.p := by
  unfold switchL at h
  split at h
  · cases h; exact ⟨rfl, ‹_›, rfl, rfl⟩
  · cases h

theorem verdict_step (ms : List Msg) (m : Msg) (cid to_ : Str) (s s' : ConnStates) (outs new : List Out) (h : Verdict ms cid s outs)
    (ht : Tr m cid to_ s s' new) : Verdict (ms ++ [m]) cid s' (outs ++ new) := by
  have keep : ∀ {o : Out}, o.isConfirm cid = false → o.isFail cid = false → s'.r = s.r → Verdict (ms ++ [m]) cid s' (outs ++ [o]) := by
    intro o h1 h2 h3
    simpa [Verdict, List.countP_append, List.countP_cons, h1, h2, h3] using h
  have leave : ∀ {new : List Out}, (∀ o ∈ new, o.isConfirm cid = false ∧ o.isFail cid = false) → s.r ≠ .checking → s'.r ≠ .checking → s'.r ≠ .failed →
      Verdict (ms ++ [m]) cid s' (outs ++ new) := by
    intro new hn h1 h2 h3
    have e1 : new.countP (Out.isConfirm cid) = 0 := by
      rw [List.countP_eq_zero]; intro o ho; simp [(hn o ho).1]
    have e2 : new.countP (Out.isFail cid) = 0 := by
      rw [List.countP_eq_zero]; intro o ho; simp [(hn o ho).2]
    unfold Verdict at h ⊢
    simp only [List.countP_append, e1, e2, Nat.add_zero]
    rcases h with ⟨h, _⟩ | ⟨_, h⟩ | ⟨_, _, h⟩
    · exact absurd h h1
    · exact Or.inr (Or.inr ⟨h2, h3, Or.inl h⟩)
    · exact Or.inr (Or.inr ⟨h2, h3, h⟩)
  cases ht with
  | same => simpa [Verdict] using h
  | commit _ hs =>
    obtain ⟨h1, h2, _⟩ := switchR_r hs
    refine leave (by simp) ?_ (by simp [h1]) (by simp [h1])
    intro hc; rw [hc] at h2; simp [reserveTransitions] at h2
  | abort _ hs =>
    obtain ⟨h1, h2, _⟩ := switchR_r hs
    refine leave (by simp) ?_ (by simp [h1]) (by simp [h1])
    intro hc; rw [hc] at h2; simp [reserveTransitions] at h2
  | provision _ hs => simpa [Verdict, (switchP_p hs).2.2.1] using h
  | release _ hs => simpa [Verdict, (switchP_p hs).2.2.1] using h
  | terminate _ hs => simpa [Verdict, (switchL_l hs).2.2.1] using h
  | held _ hs =>
    rcases h with ⟨_, h1, h2⟩ | ⟨h, _⟩ | ⟨h, _⟩
    · exact Or.inr (Or.inr ⟨by simp, by simp, Or.inr ⟨by simp [List.countP_append, h1, Out.isConfirm], by simp [List.countP_append, h2, Out.isFail]⟩⟩)
    · rw [hs] at h; cases h
    · exact absurd hs h
  | failed _ hs =>
    rcases h with ⟨_, h1, h2⟩ | ⟨_, h1⟩ | ⟨h1, h2, _⟩
    · exact Or.inr (Or.inl ⟨rfl, by simp [List.countP_append, h1, Out.isConfirm]⟩)
    · exact Or.inr (Or.inl ⟨rfl, by simp [List.countP_append, h1, Out.isConfirm]⟩)
    · rcases hs with hs | hs <;> contradiction
  | committed _ hs =>
    obtain ⟨h1, h2, _⟩ := switchR_r hs
    refine leave (by simp [Out.isConfirm, Out.isFail]) ?_ (by simp [h1]) (by simp [h1])
    intro hc; rw [hc] at h2; simp [reserveTransitions] at h2
  | aborted _ hs =>
    obtain ⟨h1, h2, _⟩ := switchR_r hs
    refine leave (by simp [Out.isConfirm, Out.isFail]) ?_ (by simp [h1]) (by simp [h1])
    intro hc; rw [hc] at h2; simp [reserveTransitions] at h2
  | provisioned _ hs => exact keep rfl rfl (switchP_p hs).2.2.1
  | released _ hs => exact keep rfl rfl (switchP_p hs).2.2.1
  | terminated _ hs => exact keep rfl rfl (switchL_l hs).2.2.1
  | note ho => exact keep (isNote_counts ho cid).1 (isNote_counts ho cid).2.1 rfl

/-- With messages handled one after the other and unique segment ids, reserveConfirmed is sent at most once for a connection and not if
reserveFailed is ever sent for it. -/
theorem C28_once_partial {cfg : Cfg} {ms : List Msg} {w : World} (h : Runs cfg ms w) (cid : Str) :
    w.outbox.countP (Out.isConfirm cid) ≤ 1 ∧ ¬ ((∃ o ∈ w.outbox, o.isConfirm cid = true) ∧ ∃ o ∈ w.outbox, o.isFail cid = true) := by
  obtain ⟨h1, h2⟩ := h.conn_inv Verdict (fun _ _ _ h1 _ => Or.inl ⟨h1, rfl, rfl⟩) verdict_step
  have hv : w.outbox.countP (Out.isConfirm cid) = 0 ∨ w.outbox.countP (Out.isConfirm cid) = 1 ∧ w.outbox.countP (Out.isFail cid) = 0 := by
    by_cases hc : ∃ row ∈ w.conns, row.cid = cid
    · obtain ⟨row, hr, rfl⟩ := hc
      rw [countP_about (fun _ => Out.isConfirm_about), countP_about (fun _ => Out.isFail_about)]
      rcases h1 row hr with ⟨_, h, _⟩ | ⟨_, h⟩ | ⟨_, _, h⟩
      · exact Or.inl h
      · exact Or.inl h
      · exact h
    · refine Or.inl (List.countP_eq_zero.mpr fun o ho hp => hc (h2 o ho cid (Out.isConfirm_about hp)))
  refine ⟨by omega, ?_⟩
  rintro ⟨⟨o, ho, hoc⟩, o', ho', hof⟩
  rcases hv with hv | ⟨_, hv⟩
  · exact List.countP_eq_zero.mp hv o ho hoc
  · exact List.countP_eq_zero.mp hv o' ho' hof

instance (w : World) (m : Msg) : Decidable (NewSeg w m) := by
  cases m with
  | reserveConfirmed h cid c =>
    simp only [NewSeg]
    cases hd : dget w.resv h.corr with
    | none => exact isTrue (by simp)
    | some r => exact decidable_of_iff (h.prov = r.prov → ∀ s ∈ w.subs, s.cid ≠ cid) (by simp)
  | _ => exact isTrue trivial

/-- Segment ids are new in all steps of the history. -/
def newSegs (cfg : Cfg) : World → List (Oracle × Msg) → Bool
  | _, [] => true
  | w, x :: xs => decide (NewSeg w x.2) && newSegs cfg (Agg.step cfg w x.1 x.2).1 xs

theorem Runs.msgs {cfg : Cfg} {ms : List Msg} {w : World} (h : Runs cfg ms w) (l : List (Oracle × Msg)) (hn : newSegs cfg w l = true) :
    Runs cfg (ms ++ l.map (·.2)) (runMsgs cfg w l) := by
  induction l generalizing w ms with
  | nil => simpa [runMsgs] using h
  | cons x xs ih =>
    simp only [newSegs, Bool.and_eq_true, decide_eq_true_eq] at hn
    simpa [runMsgs] using ih (h.step x.1 x.2 hn.1) hn.2

/-- Two segments, confirmed in the other order; the second confirmation is repeated. -/
example : let l := Ex.held ++ [(Ex.nil, Ex.confB)]
    newSegs Ex.cfg .init l = true ∧ (runMsgs Ex.cfg .init l).outbox.countP (Out.isConfirm ['c', '1']) = 1 := by decide +kernel
/-- One of two segments fails, the other one is confirmed later. -/
example : let l := [Ex.reserve2, (Ex.nil, Msg.reserveFailed ⟨['m'], ['2']⟩), (Ex.nil, Ex.confA)]
    newSegs Ex.cfg .init l = true ∧ (runMsgs Ex.cfg .init l).outbox = [.reserveFailed ['u'] ['c', '1']] := by decide +kernel

/-! ### C30 -/

/-- The request is being carried out. -/
def Kind.pending : Kind → ConnStates → Bool
  | .commit, s => s.r = .committing
  | .abort, s => s.r = .aborting
  | .provision, s => s.p = .provisioning
  | .release, s => s.p = .releasing
  | .terminate, s => s.l = .terminating

/-- At most as many confirmations as requests (provision, release). -/
def Paid (k : Kind) (ms : List Msg) (cid : Str) (s : ConnStates) (outs : List Out) : Prop :=
  outs.countP (Out.confirms k cid) + (if k.pending s then 1 else 0) ≤ ms.countP (Msg.requests k cid)

theorem paid_step {k : Kind} (hk : k = .provision ∨ k = .release) (ms : List Msg) (m : Msg) (cid to_ : Str) (s s' : ConnStates) (outs new : List Out)
    (h : Paid k ms cid s outs) (ht : Tr m cid to_ s s' new) : Paid k (ms ++ [m]) cid s' (outs ++ new) := by
  -- nothing relevant happened
  have keep : s'.p = s.p → (∀ o ∈ new, o.confirms k cid = false) → Paid k (ms ++ [m]) cid s' (outs ++ new) := by
    intro h1 h2
    have e : new.countP (Out.confirms k cid) = 0 := by
      rw [List.countP_eq_zero]; intro o ho; simp [h2 o ho]
    have e2 : k.pending s' = k.pending s := by rcases hk with rfl | rfl <;> simp [Kind.pending, h1]
    unfold Paid at h ⊢
    simp only [List.countP_append, e, e2]
    omega
  rcases hk with rfl | rfl
  all_goals cases ht with
  | same => exact keep rfl (by simp)
  | commit _ hs => exact keep (switchR_r hs).2.2.1 (by simp)
  | abort _ hs => exact keep (switchR_r hs).2.2.1 (by simp)
  | provision hm hs =>
    unfold Paid at h ⊢
    simp only [Kind.pending, (switchP_p hs).1, hm, Msg.requests, List.countP_append, List.countP_singleton, List.countP_nil] at h ⊢
    simp
    exact Nat.le_trans (Nat.le_add_right _ _) h
  | release hm hs =>
    unfold Paid at h ⊢
    simp only [Kind.pending, (switchP_p hs).1, hm, Msg.requests, List.countP_append, List.countP_singleton, List.countP_nil] at h ⊢
    simp
    exact Nat.le_trans (Nat.le_add_right _ _) h
  | terminate _ hs => exact keep (switchL_l hs).2.2.2 (by simp)
  | held _ hs => exact keep rfl (by simp [Out.confirms])
  | failed _ hs => exact keep rfl (by simp [Out.confirms])
  | committed _ hs => exact keep (switchR_r hs).2.2.1 (by simp [Out.confirms])
  | aborted _ hs => exact keep (switchR_r hs).2.2.1 (by simp [Out.confirms])
  | provisioned _ hs =>
    obtain ⟨h1, h2, _⟩ := switchP_p hs
    have : s.p = .provisioning := by
      cases hp : s.p <;> rw [hp] at h2 <;> simp [provisionTransitions] at h2 ⊢
    simp only [Paid, Kind.pending, this, h1, Out.confirms, List.countP_append, List.countP_singleton] at h ⊢
    simp at h ⊢
    omega
  | released _ hs =>
    obtain ⟨h1, h2, _⟩ := switchP_p hs
    have : s.p = .releasing := by
      cases hp : s.p <;> rw [hp] at h2 <;> simp [provisionTransitions] at h2 ⊢
    simp only [Paid, Kind.pending, this, h1, Out.confirms, List.countP_append, List.countP_singleton] at h ⊢
    simp at h ⊢
    omega
  | terminated _ hs => exact keep (switchL_l hs).2.2.2 (by simp [Out.confirms])
  | note ho => exact keep rfl (by simpa using (isNote_counts ho cid).2.2 _)

/-- With messages handled one after the other and unique segment ids, there are at most as many provisionConfirmed (releaseConfirmed) for
a connection as there were requests to provision (release) it. -/
theorem C30_provision_release_count_partial {cfg : Cfg} {ms : List Msg} {w : World} (h : Runs cfg ms w) (cid : Str) (k : Kind) (hk : k = .provision ∨ k = .release) :
    w.outbox.countP (Out.confirms k cid) ≤ ms.countP (Msg.requests k cid) := by
  refine h.count_of (Paid k) ?_ (paid_step hk) cid _ (fun _ => Out.confirms_about) _ ?_
  · intro ms cid st _ hp
    rcases hk with rfl | rfl <;> simp [Paid, Kind.pending, hp]
  · intro st outs hI
    exact Nat.le_trans (Nat.le_add_right _ _) hI

/-- The request or its counterpart for reservations. -/
def Out.ends (cid : Str) (o : Out) : Bool := o.confirms .commit cid || o.confirms .abort cid
def Msg.closes (cid : Str) (m : Msg) : Bool := m.requests .commit cid || m.requests .abort cid

/-- At most as many confirmations of commits and aborts as requests. -/
def PaidR (ms : List Msg) (cid : Str) (s : ConnStates) (outs : List Out) : Prop :=
  outs.countP (Out.ends cid) + (if s.r = .committing ∨ s.r = .aborting then 1 else 0) ≤ ms.countP (Msg.closes cid)

theorem paidR_step (ms : List Msg) (m : Msg) (cid to_ : Str) (s s' : ConnStates) (outs new : List Out)
    (h : PaidR ms cid s outs) (ht : Tr m cid to_ s s' new) : PaidR (ms ++ [m]) cid s' (outs ++ new) := by
  have keep : (s'.r = .committing ∨ s'.r = .aborting → s.r = .committing ∨ s.r = .aborting) → (∀ o ∈ new, o.ends cid = false) →
      PaidR (ms ++ [m]) cid s' (outs ++ new) := by
    intro h1 h2
    have e : new.countP (Out.ends cid) = 0 := by
      rw [List.countP_eq_zero]; intro o ho; simp [h2 o ho]
    unfold PaidR at h ⊢
    simp only [List.countP_append, e]
    split
    · rename_i hc; rw [if_pos (h1 hc)] at h; omega
    · split at h <;> omega
  have pay : m.closes cid = true → (s'.r = .committing ∨ s'.r = .aborting) → new = [] → ¬ (s.r = .committing ∨ s.r = .aborting) →
      PaidR (ms ++ [m]) cid s' (outs ++ new) := by
    intro h1 h2 h3 h4
    unfold PaidR at h ⊢
    rw [if_pos h2, h3]
    rw [if_neg h4] at h
    simp [List.countP_append, h1]
    omega
  have use : ∀ o, new = [o] → o.ends cid = true → (s.r = .committing ∨ s.r = .aborting) → ¬ (s'.r = .committing ∨ s'.r = .aborting) →
      PaidR (ms ++ [m]) cid s' (outs ++ new) := by
    intro o h1 h2 h3 h4
    unfold PaidR at h ⊢
    rw [if_neg h4, h1]
    rw [if_pos h3] at h
    simp [List.countP_append, h2]
    omega
  cases ht with
  | same => exact keep id (by simp)
  | commit hm hs =>
    obtain ⟨h1, h2, _⟩ := switchR_r hs
    refine pay (by simp [hm, Msg.closes, Msg.requests]) (Or.inl h1) rfl ?_
    rintro (hr | hr) <;> rw [hr] at h2 <;> simp [reserveTransitions] at h2
  | abort hm hs =>
    obtain ⟨h1, h2, _⟩ := switchR_r hs
    refine pay (by simp [hm, Msg.closes, Msg.requests]) (Or.inr h1) rfl ?_
    rintro (hr | hr) <;> rw [hr] at h2 <;> simp [reserveTransitions] at h2
  | provision _ hs => exact keep (by rw [(switchP_p hs).2.2.1]; exact id) (by simp)
  | release _ hs => exact keep (by rw [(switchP_p hs).2.2.1]; exact id) (by simp)
  | terminate _ hs => exact keep (by rw [(switchL_l hs).2.2.1]; exact id) (by simp)
  | held _ hs => exact keep (by simp) (by simp [Out.ends, Out.confirms])
  | failed _ hs => exact keep (by simp) (by simp [Out.ends, Out.confirms])
  | committed _ hs =>
    obtain ⟨h1, h2, _⟩ := switchR_r hs
    refine use _ rfl (by simp [Out.ends, Out.confirms]) ?_ (by simp [h1])
    cases hr : s.r <;> rw [hr] at h2 <;> simp [reserveTransitions] at h2 ⊢
  | aborted _ hs =>
    obtain ⟨h1, h2, _⟩ := switchR_r hs
    refine use _ rfl (by simp [Out.ends, Out.confirms]) ?_ (by simp [h1])
    cases hr : s.r <;> rw [hr] at h2 <;> simp [reserveTransitions] at h2 ⊢
  | provisioned _ hs => exact keep (by rw [(switchP_p hs).2.2.1]; exact id) (by simp [Out.ends, Out.confirms])
  | released _ hs => exact keep (by rw [(switchP_p hs).2.2.1]; exact id) (by simp [Out.ends, Out.confirms])
  | terminated _ hs => exact keep (by rw [(switchL_l hs).2.2.1]; exact id) (by simp [Out.ends, Out.confirms])
  | note ho => exact keep id (by simp [Out.ends, (isNote_counts ho cid).2.2])

/-- At most as many confirmations of commit or abort as requests to commit or abort. (A commit can be confirmed as an abort:
`C30_mixed_fails`.) -/
theorem C30_commit_abort_count_partial {cfg : Cfg} {ms : List Msg} {w : World} (h : Runs cfg ms w) (cid : Str) :
    w.outbox.countP (Out.confirms .commit cid) + w.outbox.countP (Out.confirms .abort cid)
      ≤ ms.countP (Msg.requests .commit cid) + ms.countP (Msg.requests .abort cid) := by
  have h1 : w.outbox.countP (Out.ends cid) ≤ ms.countP (Msg.closes cid) := by
    refine h.count_of PaidR ?_ paidR_step cid _ ?_ _ ?_
    · intro ms cid st hr _
      simp [PaidR, hr]
    · intro o ho
      simp only [Out.ends, Bool.or_eq_true] at ho
      rcases ho with ho | ho <;> exact Out.confirms_about ho
    · intro st outs hI
      unfold PaidR at hI
      omega
  have split : ∀ {α : Type} (l : List α) (p q r : α → Bool), (∀ x, r x = (p x || q x)) → (∀ x, ¬ (p x = true ∧ q x = true)) →
      l.countP r = l.countP p + l.countP q := by
    intro α l p q r h1 h2
    induction l with
    | nil => rfl
    | cons x l ih =>
      simp only [List.countP_cons, ih, h1]
      have := h2 x
      cases hp : p x <;> cases hq : q x <;> simp_all <;> omega
  rw [← split w.outbox _ _ (Out.ends cid) (fun _ => rfl), ← split ms _ _ (Msg.closes cid) (fun _ => rfl)]
  · exact h1
  · intro m; cases m <;> simp [Msg.requests]
  · intro o; cases o <;> simp [Out.confirms]

/-- terminateConfirmed is sent at most once for a connection. -/
theorem C30_terminate_once_partial {cfg : Cfg} {ms : List Msg} {w : World} (h : Runs cfg ms w) (cid : Str) :
    w.outbox.countP (Out.confirms .terminate cid) ≤ 1 := by
  refine h.count_of (fun _ cid s outs => outs.countP (Out.confirms .terminate cid) + (if s.l = .terminated then 0 else 1) ≤ 1) ?_ ?_ cid _
    (fun _ => Out.confirms_about) _ ?_
  · intro ms cid st _ _
    simp only [List.countP_nil]
    split <;> omega
  · intro ms m cid to_ s s' outs new hI ht
    have keep : (s.l = .terminated → s'.l = .terminated) → (∀ o ∈ new, o.confirms .terminate cid = false) →
        (outs ++ new).countP (Out.confirms .terminate cid) + (if s'.l = .terminated then 0 else 1) ≤ 1 := by
      intro h1 h2
      have e : new.countP (Out.confirms .terminate cid) = 0 := by
        rw [List.countP_eq_zero]; intro o ho; simp [h2 o ho]
      rw [List.countP_append, e]
      by_cases hl : s.l = .terminated
      · rw [if_pos (h1 hl)]; rw [if_pos hl] at hI; omega
      · rw [if_neg hl] at hI; split <;> omega
    cases ht with
    | same => exact keep id (by simp)
    | commit _ hs => exact keep (by rw [(switchR_r hs).2.2.2]; exact id) (by simp)
    | abort _ hs => exact keep (by rw [(switchR_r hs).2.2.2]; exact id) (by simp)
    | provision _ hs => exact keep (by rw [(switchP_p hs).2.2.2]; exact id) (by simp)
    | release _ hs => exact keep (by rw [(switchP_p hs).2.2.2]; exact id) (by simp)
    | terminate _ hs =>
      refine keep (fun hl => ?_) (by simp)
      have := (switchL_l hs).2.1
      rw [hl] at this
      simp [lifecycleTransitions] at this
    | held _ hs => exact keep id (by simp [Out.confirms])
    | failed _ hs => exact keep id (by simp [Out.confirms])
    | committed _ hs => exact keep (by rw [(switchR_r hs).2.2.2]; exact id) (by simp [Out.confirms])
    | aborted _ hs => exact keep (by rw [(switchR_r hs).2.2.2]; exact id) (by simp [Out.confirms])
    | provisioned _ hs => exact keep (by rw [(switchP_p hs).2.2.2]; exact id) (by simp [Out.confirms])
    | released _ hs => exact keep (by rw [(switchP_p hs).2.2.2]; exact id) (by simp [Out.confirms])
    | terminated _ hs =>
      obtain ⟨h1, h2, _⟩ := switchL_l hs
      have : s.l ≠ .terminated := by
        intro hl; rw [hl] at h2; simp [lifecycleTransitions] at h2
      rw [if_neg this] at hI
      rw [if_pos h1]
      simpa [List.countP_append, Out.confirms] using hI
    | note ho => exact keep id (by simpa using (isNote_counts ho cid).2.2 _)
  · intro st outs hI
    exact Nat.le_trans (Nat.le_add_right _ _) hI

/-- terminateConfirmed can be sent without a request to terminate: a provider's word is enough. -/
theorem C30_unrequested_fails : ¬ ∀ (ms : List Msg) (w : World) (cid : Str), Runs Ex.cfg ms w →
    w.outbox.countP (Out.confirms .terminate cid) ≤ ms.countP (Msg.requests .terminate cid) := by
  intro h
  have hr := (Runs.init (cfg := Ex.cfg)).msgs (Ex.two ++ [(Ex.nil, .terminateConfirmed ⟨['m'], []⟩ ['s', '1'])]) (by decide +kernel)
  exact absurd (h _ _ ['c', '1'] hr) (by decide +kernel)

namespace Ex
/-- A connection through its whole life, with repeated and reordered confirmations. -/
def life : List (Oracle × Msg) := held ++
  [(o, .commit hdr ['c', '1']), (nil, .commitConfirmed ⟨['m'], []⟩ ['s', '2']), (nil, .commitConfirmed ⟨['m'], []⟩ ['s', '1']),
   (o, .provision hdr ['c', '1']), (nil, .provisionConfirmed ⟨['m'], []⟩ ['s', '1']), (nil, .provisionConfirmed ⟨['m'], []⟩ ['s', '1']),
   (nil, .provisionConfirmed ⟨['m'], []⟩ ['s', '2']), (o, .release hdr ['c', '1']), (nil, .releaseConfirmed ⟨['m'], []⟩ ['s', '1']),
   (nil, .releaseConfirmed ⟨['m'], []⟩ ['s', '2']), (o, .provision hdr ['c', '1']), (nil, .provisionConfirmed ⟨['m'], []⟩ ['s', '2']),
   (nil, .provisionConfirmed ⟨['m'], []⟩ ['s', '1']), (o, .terminate hdr ['c', '1']), (nil, .terminateConfirmed ⟨['m'], []⟩ ['s', '1']),
   (nil, .terminateConfirmed ⟨['m'], []⟩ ['s', '2']), (nil, .terminateConfirmed ⟨['m'], []⟩ ['s', '2'])]
end Ex

example : newSegs Ex.cfg .init Ex.life = true ∧ (runMsgs Ex.cfg .init Ex.life).outbox.tail =
    [.reserveCommitConfirmed ['u'] ['c', '1'], .provisionConfirmed ['u'] ['c', '1'], .releaseConfirmed ['u'] ['c', '1'],
     .provisionConfirmed ['u'] ['c', '1'], .terminateConfirmed ['u'] ['c', '1']] := by decide +kernel

end OpenNSA.Agg
