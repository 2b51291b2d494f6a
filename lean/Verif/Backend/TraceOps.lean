import Verif.Backend.Trace
/-
The operations of the backend tell the device at most one thing each, under the right conditions.
-/
namespace OpenNSA.Backend
open OpenNSA Py Prog

section
variable {F : Prop} {cfg : Cfg} {cid : Str} {ref : Nat} {st : Option Time} {s : S}

theorem LG_getObj {α : Type} {k : Row → Prog α} (h : ∀ t, s.clk ≤ t → LG F cid ref st (k s.obj) (s.at t)) :
    LG F cid ref st ((issue (.getObj ref)).bind k) s := by
  apply LG_pre (NoDev_issue rfl)
  rw [LAll_issue]
  exact ⟨rfl, h⟩

theorem LG_now {α : Type} {k : Time → Prog α} (h : ∀ t, s.clk ≤ t → LG F cid ref st (k t) (s.at t)) :
    LG F cid ref st ((issue .now).bind k) s := by
  apply LG_pre (NoDev_issue rfl)
  rw [LAll_issue]
  exact h

theorem LG_ofExcept {α β : Type} {x : Except Err α} {k : α → Prog β} (h : ∀ a, x = .ok a → LG F cid ref st (k a) s) :
    LG F cid ref st ((ofExcept x).bind k) s := by
  cases x with
  | ok a => exact h a rfl
  | error e => trivial

theorem LG_cancel {α : Type} {k : Unit → Prog α} (h : ∀ t, s.clk ≤ t → LG F cid ref st (k ()) { s with tm := none, clk := t }) :
    LG F cid ref st ((issue (.cancel cid)).bind k) s := by
  apply LG_pre (NoDev_issue rfl)
  rw [LAll_issue]
  exact ⟨rfl, h⟩

theorem LG_switchReserve {α : Type} {x : RState} {k : Unit → Prog α} (hc : s.obj.cid = cid)
    (h : x ∈ reserveTransitions s.obj.st.r → ∀ t, s.clk ≤ t → LG F cid ref st (k ()) ((s.put (s.obj.withR x)).at t)) :
    LG F cid ref st ((switchReserve ref x).bind k) s := by
  apply LG_pre (NoDev_switchReserve _ _)
  apply L_switchReserve hc
  · exact h
  · intro _ t _; trivial

theorem LG_switchProvision {α : Type} {x : PState} {k : Unit → Prog α} (hc : s.obj.cid = cid)
    (h : x ∈ provisionTransitions s.obj.st.p → ∀ t, s.clk ≤ t → LG F cid ref st (k ()) ((s.put (s.obj.withP x)).at t)) :
    LG F cid ref st ((switchProvision ref x).bind k) s := by
  apply LG_pre (NoDev_switchProvision _ _)
  apply L_switchProvision hc
  · exact h
  · intro _ t _; trivial

theorem LG_switchLifecycle {α : Type} {x : LState} {k : Unit → Prog α} (hc : s.obj.cid = cid)
    (h : x ∈ lifecycleTransitions s.obj.st.l → ∀ t, s.clk ≤ t → LG F cid ref st (k ()) ((s.put (s.obj.withL x)).at t)) :
    LG F cid ref st ((switchLifecycle ref x).bind k) s := by
  apply LG_pre (NoDev_switchLifecycle _ _)
  apply L_switchLifecycle hc
  · exact h
  · intro _ t _; trivial

theorem LG_removeBoth {α : Type} {k : Unit → Prog α}
    (h : ∀ t cal', s.clk ≤ t → LG F cid ref st (k ()) { s with cal := cal', clk := t }) :
    LG F cid ref st ((removeBoth cfg ref).bind k) s := by
  apply LG_pre (NoDev_removeBoth _ _)
  apply L_removeBoth
  intro t ht
  generalize (rm2 s.cal (srcResv cfg s.obj) (dstResv cfg s.obj)).2 = e
  cases e with
  | none => exact h t _ ht
  | some e => trivial

theorem LG_doTeardown (hc : s.obj.cid = cid) (hu : s.up = true) : LG F cid ref st (doTeardown ref) s := by
  unfold doTeardown
  simp only [bind_eq]
  apply LG_getObj; intro t ht
  apply LG_post
  · intro b
    have h1 := NoDev_setActive ref false
    split
    · exact NoDev_tryCatch (NoDev_bind h1 fun _ => NoDev_bind (NoDev_issue rfl) fun _ => NoDev_issue rfl) fun _ => trivial
    · exact NoDev_bind h1 fun _ => NoDev_bind (NoDev_issue rfl) fun _ => NoDev_issue rfl
  apply LG_try
  · intro _; trivial
  refine ⟨⟨fun _ _ => True, hc, fun _ _ => ⟨trivial, fun _ => trivial⟩⟩, hu, fun r => ?_⟩
  cases r <;> trivial

theorem LG_doFreeResource (hc : s.obj.cid = cid) (hu : s.obj.active = true → s.up = true) :
    LG F cid ref st (doFreeResource cfg ref) s := by
  unfold doFreeResource
  simp only [bind_eq]
  apply LG_getObj; intro t ht
  split
  · rename_i ha
    exact LG_post (fun _ => NoDev_removeBoth _ _) (LG_doTeardown hc (hu ha))
  · split
    · exact LG_of_NoDev (NoDev_removeBoth _ _) _
    · trivial

theorem LG_doEndtime (hc : s.obj.cid = cid) (hu : s.obj.active = true → s.up = true) : LG F cid ref st (doEndtime cfg ref) s := by
  unfold doEndtime
  simp only [bind_eq]
  apply LG_getObj; intro t ht
  split
  · trivial
  · rw [hc]
    apply LG_cancel; intro t2 ht2
    apply LG_switchLifecycle (by exact hc); intro _ t3 ht3
    exact LG_doFreeResource hc hu

theorem LG_doReserveRollback (hc : s.obj.cid = cid) (ha : RState.aborting ∈ reserveTransitions s.obj.st.r → s.obj.active = false) :
    LG F cid ref st (doReserveRollback cfg ref) s := by
  unfold doReserveRollback
  simp only [bind_eq]
  apply LG_try
  · intro _; trivial
  apply LG_switchReserve (by exact hc); intro hx t ht
  have ha := ha hx
  apply LG_getObj; intro t2 ht2
  simp only [withR_cid, hc]
  apply LG_cancel; intro t3 ht3
  apply LG_removeBoth; intro t4 cal' ht4
  apply LG_switchReserve (by exact hc); intro _ t5 ht5
  apply LG_now; intro t6 ht6
  split
  · trivial
  · split
    · exact LG_doEndtime hc (fun h => by simp only [withR_active] at h; rw [ha] at h; exact absurd h (by simp))
    · exact LG_of_NoDev (NoDev_issue rfl) _

theorem LG_doReserveTimeout (hc : s.obj.cid = cid) (ha : RState.timeout ∈ reserveTransitions s.obj.st.r → s.obj.active = false) :
    LG F cid ref st (doReserveTimeout cfg ref) s := by
  unfold doReserveTimeout
  simp only [bind_eq]
  apply LG_try
  · intro _; trivial
  apply LG_switchReserve (by exact hc); intro hx t ht
  apply LG_post
  · intro _
    exact NoDev_bind (NoDev_issue rfl) fun _ => NoDev_bind (NoDev_issue rfl) fun _ => NoDev_issue rfl
  · exact LG_doReserveRollback hc fun _ => ha hx

theorem LG_doActivate (hc : s.obj.cid = cid) (hu : F ∨ s.up = false) (hb : Begun st s.clk) : LG F cid ref st (doActivate ref) s := by
  unfold doActivate
  simp only [bind_eq]
  apply LG_getObj; intro t ht
  apply LG_post
  · intro b
    have h1 := fun b => NoDev_setActive ref b
    split
    · exact NoDev_tryCatch (NoDev_bind (h1 _) fun _ => NoDev_bind (NoDev_issue rfl) fun _ => NoDev_bind (NoDev_schedEnd _ _ _) fun _ =>
        NoDev_bind (NoDev_issue rfl) fun _ => NoDev_issue rfl) fun _ => trivial
    · exact NoDev_bind (h1 _) fun _ => NoDev_bind (NoDev_issue rfl) fun _ => NoDev_issue rfl
  apply LG_try
  · intro _; trivial
  refine ⟨⟨fun _ _ => True, hc, fun _ _ => ⟨trivial, fun _ => trivial⟩⟩, ⟨hu, hb.mono ht⟩, fun r => ?_⟩
  cases r <;> trivial

theorem LG_abortOn {h : Hdr} (hc : s.obj.cid = cid) (ha : RState.aborting ∈ reserveTransitions s.obj.st.r → s.obj.active = false) :
    LG F cid ref st (abortOn cfg h cid ref) s := by
  unfold abortOn
  simp only [bind_eq]
  apply LG_getObj; intro t ht
  apply LG_ofExcept; intro _ _
  split
  · trivial
  · exact LG_post (fun _ => NoDev_issue rfl) (LG_doReserveRollback hc ha)

theorem LG_provisionOn {h : Hdr} (hc : s.obj.cid = cid) (hu : PState.provisioning ∈ provisionTransitions s.obj.st.p → F ∨ s.up = false)
    (hst : s.obj.start = st) : LG F cid ref st (provisionOn cfg h cid ref) s := by
  have hrest : NoDev (switchProvision ref .provisioned |>.bind fun _ => issue (.tell (.provisionConfirmed cid))) :=
    NoDev_bind (NoDev_switchProvision _ _) fun _ => NoDev_issue rfl
  unfold provisionOn
  simp only [bind_eq]
  apply LG_getObj; intro t ht
  apply LG_ofExcept; intro _ _
  split
  · trivial
  split
  · trivial
  split
  · trivial
  apply LG_now; intro t1 ht1
  split
  · trivial
  apply LG_switchProvision (by exact hc); intro hx t2 ht2
  apply LG_cancel; intro t3 ht3
  split
  · rename_i hs
    exact Or.inl ⟨LG_doActivate hc (hu hx) (fun x hx => by rw [← hst, hs] at hx; exact absurd hx (by simp)), hrest⟩
  · rename_i x hs
    split
    · rename_i hle
      refine Or.inl ⟨LG_doActivate hc (hu hx) (fun y hy => ?_), hrest⟩
      rw [← hst, hs] at hy
      simp only [Option.some.injEq] at hy
      subst hy
      simp only at ht1 ht2 ht3 ⊢
      omega
    · exact LG_of_NoDev (NoDev_bind (NoDev_issue rfl) fun _ => hrest) _

theorem LG_releaseOn {h : Hdr} (hc : s.obj.cid = cid) (hu : s.obj.active = true → s.up = true) :
    LG F cid ref st (releaseOn cfg h cid ref) s := by
  unfold releaseOn
  simp only [bind_eq]
  apply LG_getObj; intro t ht
  apply LG_ofExcept; intro _ _
  split
  · trivial
  apply LG_switchProvision (by exact hc); intro hx t2 ht2
  apply LG_cancel; intro t3 ht3
  apply LG_getObj; intro t4 ht4
  apply LG_post
  · intro _
    exact NoDev_bind (NoDev_schedEnd _ _ _) fun _ => NoDev_bind (NoDev_switchProvision _ _) fun _ => NoDev_issue rfl
  unfold whenP
  split
  · rename_i ha
    apply LG_try
    · intro _; trivial
    · exact LG_doTeardown hc (hu ha)
  · trivial

theorem LG_terminateOn {h : Hdr} (hc : s.obj.cid = cid) (hu : s.obj.active = true → s.up = true) :
    LG F cid ref st (terminateOn cfg h cid ref) s := by
  unfold terminateOn
  simp only [bind_eq]
  apply LG_getObj; intro t ht
  apply LG_ofExcept; intro _ _
  split
  · trivial
  apply LG_cancel; intro t2 ht2
  apply LG_switchLifecycle (by exact hc); intro hx t3 ht3
  apply LG_post
  · intro _
    exact NoDev_bind (NoDev_issue rfl) fun _ => NoDev_switchLifecycle _ _
  unfold whenP
  split
  · exact LG_doFreeResource hc hu
  · trivial

theorem LG_buildOne (hc : s.obj.cid = cid) (hu : s.obj.active = true → s.up = true)
    (hd : s.obj.active = false → F ∨ s.up = false)
    (ha : RState.aborting ∈ reserveTransitions s.obj.st.r → s.obj.active = false)
    (hst : s.obj.start = st) : LG F cid ref st (buildOne cfg ref) s := by
  have started : ∀ {s1 : S}, Begun s.obj.start s1.clk → s1.obj = s.obj → s1.up = s.up →
      LG F cid ref st (buildOne.started ref s.obj) s1 := by
    intro s1 hb h1 h2
    unfold buildOne.started
    split
    · split
      · exact LG_of_NoDev (NoDev_schedEnd _ _ _) _
      · rename_i hn
        exact LG_doActivate (by rw [h1]; exact hc) (by rw [h2]; exact hd (by simpa using hn)) (by rw [← hst]; exact hb)
    · split
      · exact LG_of_NoDev (NoDev_schedEnd _ _ _) _
      · trivial
  have waiting : ∀ x, NoDev (buildOne.waiting ref s.obj x) := by
    intro x
    unfold buildOne.waiting
    simp only [bind_eq, whenP]
    nodev
  unfold buildOne
  simp only [bind_eq]
  apply LG_getObj; intro t ht
  apply LG_pre (NoDev_issue rfl)
  rw [LAll_issue]
  refine ⟨hc, fun t1 ht1 => ?_⟩
  simp only [cont_ok]
  split
  · trivial
  apply LG_now; intro t2 ht2
  split
  · trivial
  split
  · trivial
  apply LG_pre (NoDev_issue rfl)
  rw [LAll_issue]
  intro t3 ht3
  simp only [cont_ok]
  apply LG_pre (NoDev_issue rfl)
  rw [LAll_issue]
  intro t4 ht4
  simp only [cont_ok]
  split
  · exact LG_doEndtime hc hu
  split
  · split
    · exact LG_doReserveRollback hc ha
    · exact LG_of_NoDev (NoDev_issue rfl) _
  split
  · rename_i hs
    exact started (fun x hx => by rw [hs] at hx; exact absurd hx (by simp)) rfl rfl
  · rename_i x hs
    split
    · rename_i hlt
      refine started (fun y hy => ?_) rfl rfl
      rw [hs] at hy
      simp only [Option.some.injEq] at hy
      subst hy
      simp only at ht3 ht4 ⊢
      omega
    · split
      · exact LG_of_NoDev (waiting _) _
      · trivial

end
end OpenNSA.Backend
