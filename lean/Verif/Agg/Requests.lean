import Verif.Agg.Replies
import Verif.Agg.ReserveRun
/- Effect of requests on existing connections when messages are handled one after the other. -/
namespace OpenNSA.Agg
open OpenNSA Py Coro

/-! ### Several segments changed, then saved -/

/-- Changed objects that have not been saved. -/
def dirty (v : World) (D : List (Nat × SRow)) : World :=
  { v with sheap := D.foldl (fun h p => h.set p.1 ⟨p.2, false⟩) v.sheap }
/-- Changed objects that have been saved. -/
def clean (v : World) (D : List (Nat × SRow)) : World := D.foldl (fun v p => updS v p.1 p.2) v

theorem clean_eq (D : List (Nat × SRow)) : ∀ v : World, clean v D =
    { v with sheap := D.foldl (fun h p => h.set p.1 ⟨p.2, false⟩) v.sheap, subs := D.foldl (fun r p => setSRow r p.2) v.subs } := by
  induction D with
  | nil => intro v; rfl
  | cons p D ih => intro v; exact ih _

theorem foldl_set_length (D : List (Nat × SRow)) : ∀ h : List (Obj SRow),
    (D.foldl (fun h p => h.set p.1 ⟨p.2, false⟩) h).length = h.length := by
  induction D with
  | nil => intro h; rfl
  | cons p D ih => intro h; simp only [List.foldl_cons]; rw [ih]; simp

theorem foldl_set_ne (D : List (Nat × SRow)) : ∀ (h : List (Obj SRow)) (r : Nat), r ∉ D.map (·.1) →
    (D.foldl (fun h p => h.set p.1 ⟨p.2, false⟩) h)[r]? = h[r]? := by
  induction D with
  | nil => intro h r _; rfl
  | cons p D ih =>
    intro h r hr
    rw [List.map_cons, List.mem_cons, not_or] at hr
    simp only [List.foldl_cons]
    rw [ih _ _ hr.2, List.getElem?_set_ne (Ne.symm hr.1)]

theorem foldl_set_mem (D : List (Nat × SRow)) : ∀ (h : List (Obj SRow)), (D.map (·.1)).Nodup → (∀ p ∈ D, p.1 < h.length) →
    ∀ p ∈ D, (D.foldl (fun h p => h.set p.1 ⟨p.2, false⟩) h)[p.1]? = some ⟨p.2, false⟩ := by
  induction D with
  | nil => intro h _ _ p hp; cases hp
  | cons q D ih =>
    intro h hn hlt p hp
    rw [List.map_cons, List.nodup_cons] at hn
    simp only [List.foldl_cons]
    rcases List.mem_cons.mp hp with rfl | hp
    · rw [foldl_set_ne _ _ _ hn.1]
      simp [hlt p (by simp)]
    · exact ih _ hn.2 (fun x hx => by rw [List.length_set]; exact hlt x (by simp [hx])) p hp

theorem saveSs_known (D : List (Nat × SRow)) : ∀ v : World, (∀ p ∈ D, v.sheap[p.1]? = some ⟨p.2, false⟩) →
    v.saveSs (D.map (·.1)) = { v with subs := D.foldl (fun r p => setSRow r p.2) v.subs } := by
  induction D with
  | nil => intro v _; rfl
  | cons p D ih =>
    intro v h
    simp only [List.map_cons, World.saveSs]
    rw [saveS_old (h p (by simp)), ih]
    · rfl
    · intro q hq; exact h q (by simp [hq])

theorem saveSs_dirty {v : World} {D : List (Nat × SRow)} (hn : (D.map (·.1)).Nodup) (hlt : ∀ p ∈ D, p.1 < v.sheap.length) :
    (dirty v D).saveSs (D.map (·.1)) = clean v D := by
  rw [saveSs_known, clean_eq]
  · rfl
  · exact foldl_set_mem D v.sheap hn hlt

/-- Changes of segments of the connection with key `key` by the state function `g`. -/
def Upd (v : World) (key : Nat) (g : ConnStates → Option ConnStates) (D : List (Nat × SRow)) : Prop :=
  ∀ p ∈ D, ∃ s, LiveS v p.1 s ∧ s.skey = key ∧ ∃ st, g s.st = some st ∧ p.2 = { s with st }

/-- A segment left alone or moved by `g`. -/
def MovedBy (key : Nat) (g : ConnStates → Option ConnStates) (s s' : SRow) : Prop :=
  s' = s ∨ (s.skey = key ∧ ∃ st, g s.st = some st ∧ s' = { s with st })

theorem LiveS.inj {v : World} {r r' : Nat} {s : SRow} (h : LiveS v r s) (h' : LiveS v r' s) : r = r' := by
  have := h.cached.symm.trans h'.cached
  simpa using this

theorem setSRow_forall₂ {rows : List SRow} {s s' : SRow} (hk : (rows.map (·.key)).Nodup) (hs : s ∈ rows) (he : s'.key = s.key) :
    List.Forall₂ (fun x x' => (x ≠ s ∧ x' = x) ∨ (x = s ∧ x' = s')) rows (setSRow rows s') := by
  unfold setSRow
  rw [List.forall₂_map_right_iff, List.forall₂_same]
  intro x hx
  split
  · rename_i h
    exact Or.inr ⟨nodup_map_inj hk hx hs (h.trans he), rfl⟩
  · rename_i h
    refine Or.inl ⟨fun hxs => h ?_, rfl⟩
    rw [hxs, he]

theorem forall₂_comp {α : Type} {R S T : α → α → Prop} {l m n : List α} (h : List.Forall₂ R l m) (h' : List.Forall₂ S m n)
    (hc : ∀ a b c, a ∈ l → R a b → S b c → T a c) : List.Forall₂ T l n := by
  induction h generalizing n with
  | nil => cases h'; exact .nil
  | cons hab _ ih =>
    cases h' with
    | cons hbc ht =>
      exact .cons (hc _ _ _ (by simp) hab hbc) (ih ht fun a b c ha => hc a b c (by simp [ha]))

theorem clean_good {key : Nat} {g : ConnStates → Option ConnStates} : ∀ (D : List (Nat × SRow)) (v : World), Good v → Upd v key g D →
    (D.map (·.1)).Nodup →
    Good (clean v D) ∧ (∀ r c, LiveC v r c → LiveC (clean v D) r c) ∧
    (∀ r s, LiveS v r s → r ∉ D.map (·.1) → LiveS (clean v D) r s) ∧
    (∀ p ∈ D, LiveS (clean v D) p.1 p.2) ∧
    List.Forall₂ (fun s s' => s' = s ∨ ∃ p ∈ D, LiveS v p.1 s ∧ s' = p.2) v.subs (clean v D).subs
  | [], v, hg, _, _ => ⟨hg, fun _ _ h => h, fun _ _ h _ => h, by simp, List.forall₂_same.mpr fun s _ => Or.inl rfl⟩
  | p :: D, v, hg, hu, hn => by
    rw [List.map_cons, List.nodup_cons] at hn
    obtain ⟨s0, hl0, hk0, st, hg0, hp2⟩ := hu p (by simp)
    have hk : p.2.key = s0.key ∧ p.2.cid = s0.cid ∧ p.2.skey = s0.skey := by rw [hp2]; exact ⟨rfl, rfl, rfl⟩
    obtain ⟨g1, l1, c1, o1⟩ := updS_good hg hl0 hk.1 hk.2.1 hk.2.2
    have hne : ∀ q ∈ D, ∀ s, LiveS v q.1 s → s ≠ s0 := by
      rintro q hq s hs rfl
      exact hn.1 (List.mem_map.mpr ⟨q, hq, hs.inj hl0⟩)
    have hu1 : Upd (updS v p.1 p.2) key g D := by
      intro q hq
      obtain ⟨s, hs, hks, st', h1, h2⟩ := hu q (by simp [hq])
      exact ⟨s, o1 _ _ (hne q hq s hs) hs, hks, st', h1, h2⟩
    obtain ⟨G, C, S, M, F⟩ := clean_good D (updS v p.1 p.2) g1 hu1 hn.2
    refine ⟨G, fun r c h => C r c (c1 r c h), ?_, ?_, ?_⟩
    · intro r s h hr
      rw [List.map_cons, List.mem_cons, not_or] at hr
      refine S r s (o1 r s ?_ h) hr.2
      rintro rfl
      exact hr.1 (h.inj hl0)
    · intro q hq
      rcases List.mem_cons.mp hq with rfl | hq
      · exact S _ _ l1 hn.1
      · exact M q hq
    · refine forall₂_comp (setSRow_forall₂ hg.skeys hl0.mem hk.1) F ?_
      rintro a b c _ (⟨hne0, rfl⟩ | ⟨rfl, rfl⟩) (rfl | ⟨q, hq, hl, rfl⟩)
      · exact Or.inl rfl
      · refine Or.inr ⟨q, by simp [hq], ?_, rfl⟩
        obtain ⟨s, hs, _⟩ := hu q (by simp [hq])
        have h1 := o1 _ _ (hne q hq s hs) hs
        have : b = s := by
          have := hl.obj.symm.trans h1.obj
          simpa using this
        rw [this]; exact hs
      · exact Or.inr ⟨p, by simp, hl0, rfl⟩
      · exact absurd (List.mem_map.mpr ⟨q, hq, hl.inj l1⟩) hn.1

theorem LiveS.fun_ {v : World} {r : Nat} {s s' : SRow} (h : LiveS v r s) (h' : LiveS v r s') : s = s' := by
  have := h.obj.symm.trans h'.obj
  simpa using this

theorem forall₂_left_exists {α β : Type} {R : α → β → Prop} {l : List α} {m : List β} (h : List.Forall₂ R l m) :
    ∀ a ∈ l, ∃ b ∈ m, R a b := by
  induction h with
  | nil => simp
  | cons hab _ ih =>
    intro a ha
    rcases List.mem_cons.mp ha with rfl | ha
    · exact ⟨_, by simp, hab⟩
    · obtain ⟨b, hb, hr⟩ := ih a ha
      exact ⟨b, by simp [hb], hr⟩

theorem refs_nodup {v : World} {refs : List Nat} {L : List SRow} (h : List.Forall₂ (LiveS v) refs L) (hn : L.Nodup) : refs.Nodup := by
  induction h with
  | nil => exact .nil
  | cons hab ht ih =>
    rw [List.nodup_cons] at hn ⊢
    refine ⟨fun hm => hn.1 ?_, ih hn.2⟩
    obtain ⟨b, hb, hl⟩ := forall₂_left_exists ht _ hm
    rw [hab.fun_ hl]; exact hb

theorem Upd.lt {v : World} {key : Nat} {g : ConnStates → Option ConnStates} {D : List (Nat × SRow)} (h : Upd v key g D) :
    ∀ p ∈ D, p.1 < v.sheap.length := fun p hp => by
  obtain ⟨s, hs, _⟩ := h p hp
  exact lt_of_getElem? hs.obj

/-- An operation on a segment, on the provider of its source network and addressed to the provider it was made by. -/
structure OpFor (cfg : Cfg) (op : Str → POp) (c : PCall) (s : SRow) : Prop where
  op : c.op = op s.cid
  handle : ∃ urn, cfg.provider s.src.network = .ok (c.handle, urn)
  prov : c.prov = s.prov

theorem sendAll_run (cfg : Cfg) (op : Str → POp) : ∀ (L : List SRow) (w : World), ∃ (calls : List PCall) (pre : List SRow) (orc : Oracle)
    (r : Except Err Unit), (sendAll cfg op L).run machine w = ({ w with sent := w.sent ++ calls, orc }, r) ∧
      List.Forall₂ (OpFor cfg op) calls pre ∧ pre <+: L ∧ (r = .ok () → pre = L)
  | [], w => ⟨[], [], w.orc, .ok (), by simp [sendAll], .nil, List.nil_prefix, fun _ => rfl⟩
  | s :: L, w => by
    rcases hp : cfg.provider s.src.network with e | p
    · exact ⟨[], [], w.orc, .error e, by simp [sendAll, hp], .nil, List.nil_prefix, fun h => by cases h⟩
    · let call : PCall := ⟨p.1, s.prov, w.orc.corrs.headD [], op s.cid⟩
      let w1 : World := { w with sent := w.sent ++ [call], orc := { w.orc with corrs := w.orc.corrs.tail } }
      obtain ⟨calls, pre, orc, r, h1, h2, h3, h4⟩ := sendAll_run cfg op L w1
      refine ⟨call :: calls, s :: pre, orc, r, ?_, .cons ⟨rfl, ⟨p.2, hp⟩, rfl⟩ h2, by simpa using h3, fun h => by rw [h4 h]⟩
      have : (sendAll cfg op (s :: L)).run machine w = (sendAll cfg op L).run machine w1 := by
        simp only [sendAll, run_bind', run_ofExcept, hp, andThen_ok, run_issue, machine_exec, exec_newCorr]
        simp only [exec_send, andThen_ok, w1, call]
      rw [this, h1]
      simp [w1]

theorem LiveS.frame {v : World} {r : Nat} {s : SRow} (h : LiveS v r s) (o : Oracle) (l : List PCall) :
    LiveS { v with orc := o, sent := l } r s := ⟨h.obj, h.mem, h.cached⟩

theorem forall₂_imp_mem {α β : Type} {R S : α → β → Prop} {l : List α} {m : List β} (h : List.Forall₂ R l m)
    (hi : ∀ a b, R a b → S a b) : List.Forall₂ S l m := h.imp hi

/-- Every segment of `L` is among the changed ones, unless `g` does not change it. -/
def Covered (v : World) (g : ConnStates → Option ConnStates) (D : List (Nat × SRow)) (L : List SRow) : Prop :=
  ∀ s ∈ L, g s.st = some s.st ∨ ∃ p ∈ D, LiveS v p.1 s

theorem abortLoop_run (cfg : Cfg) (key : Nat) : ∀ (refs : List Nat) (L : List SRow) (v : World) (D : List (Nat × SRow)),
    List.Forall₂ (LiveS v) refs L → (∀ s ∈ L, s.skey = key) → Upd v key (switchR · .aborting) D → (D.map (·.1) ++ refs).Nodup →
    ∃ (D' : List (Nat × SRow)) (calls : List PCall) (pre : List SRow) (orc : Oracle) (r : Except Err Unit),
      (abortLoop cfg (D.map (·.1)) refs).run machine (dirty v D) = (clean { v with sent := v.sent ++ calls, orc } D', r) ∧
      Upd v key (switchR · .aborting) D' ∧ (D'.map (·.1)).Nodup ∧ List.Forall₂ (OpFor cfg .abort) calls pre ∧ pre <+: L ∧ (r = .ok () → pre = L) ∧
      (∀ p ∈ D, p ∈ D') ∧ (r = .ok () → Covered v (switchR · .aborting) D' L)
  | [], _, v, D, .nil, _, hu, hn => by
    rw [List.append_nil] at hn
    refine ⟨D, [], [], v.orc, .ok (), ?_, hu, hn, .nil, List.nil_prefix, fun _ => rfl, fun _ h => h, fun _ _ h => by cases h⟩
    simp only [abortLoop, run_issue, machine_exec, exec_saveSs, saveSs_dirty hn hu.lt, List.append_nil]
  | ref :: refs, s :: L, v, D, .cons hl ht, hL, hu, hn => by
    have hn1 : (D.map (·.1)).Nodup := (List.nodup_append.mp hn).1
    have hnd : ref ∉ D.map (·.1) := by
      have := (List.nodup_append.mp hn).2.2
      exact fun h => this ref h ref (by simp) rfl
    have hobj : (dirty v D).sheap[ref]? = some ⟨s, false⟩ := by
      simp only [dirty]; rw [foldl_set_ne _ _ _ hnd]; exact hl.obj
    simp only [abortLoop, run_bind', run_issue, machine_exec, exec_getS hobj, andThen_ok]
    cases hsw : switchR s.st .aborting with
    | none =>
      refine ⟨D, [], [], v.orc, .error .internal, ?_, hu, hn1, .nil, List.nil_prefix, (fun h => by cases h), fun _ h => h, (fun h => by cases h)⟩
      simp only [run_bind', run_issue, machine_exec, exec_saveSs, saveSs_dirty hn1 hu.lt, andThen_ok, run_throw, List.append_nil]
    | some st =>
      let D1 := D ++ [(ref, { s with st })]
      have hD1 : D1.map (·.1) = D.map (·.1) ++ [ref] := by simp [D1]
      have hn1' : (D1.map (·.1) ++ refs).Nodup := by rw [hD1]; simpa using hn
      have hn1'' : (D1.map (·.1)).Nodup := (List.nodup_append.mp hn1').1
      have hu1 : Upd v key (switchR · .aborting) D1 := by
        intro p hp
        rcases List.mem_append.mp hp with hp | hp
        · exact hu p hp
        · rw [List.mem_singleton.mp hp]
          exact ⟨s, hl, hL s (by simp), st, hsw, rfl⟩
      have hset : exec (dirty v D) (.setS ref { s with st }) = (dirty v D1, .ok ()) := by
        rw [exec_setS _ hobj]
        simp [dirty, D1]
      simp only [run_bind', run_issue, machine_exec, hset, andThen_ok]
      rcases hp : cfg.provider s.src.network with e | p
      · refine ⟨D1, [], [], v.orc, .error e, ?_, hu1, hn1'', .nil, List.nil_prefix, (fun h => by cases h),
          fun _ h => List.mem_append_left _ h, fun h => by cases h⟩
        simp only [run_bind', run_issue, machine_exec, ← hD1, exec_saveSs, saveSs_dirty hn1'' hu1.lt, andThen_ok, run_throw, List.append_nil]
      · let call : PCall := ⟨p.1, s.prov, v.orc.corrs.headD [], .abort s.cid⟩
        let v1 : World := { v with sent := v.sent ++ [call], orc := { v.orc with corrs := v.orc.corrs.tail } }
        obtain ⟨D', calls, pre, orc, r, h1, h2, h3, h4, h5, h6, h7, h8⟩ := abortLoop_run cfg key refs L v1 D1
          (ht.imp fun _ _ h => h.frame _ _) (fun x hx => hL x (by simp [hx]))
          (fun p hp => by obtain ⟨x, h1, h2⟩ := hu1 p hp; exact ⟨x, h1.frame _ _, h2⟩) hn1'
        refine ⟨D', call :: calls, s :: pre, orc, r, ?_, ?_, h3, .cons ⟨rfl, ⟨p.2, hp⟩, rfl⟩ h4, by simpa using h5, (fun h => by rw [h6 h]),
          fun p hp => h7 p (List.mem_append_left _ hp), fun hr x hx => ?_⟩
        · simp only [run_bind', run_issue, machine_exec, exec_newCorr, andThen_ok, exec_send, ← hD1]
          refine Eq.trans ?_ (h1.trans ?_)
          · rfl
          · simp [v1]
        · intro p hp
          obtain ⟨x, ⟨hx1, hx2, hx3⟩, h2⟩ := h2 p hp
          exact ⟨x, ⟨hx1, hx2, hx3⟩, h2⟩
        · rcases List.mem_cons.mp hx with rfl | hx
          · exact Or.inr ⟨_, h7 _ (List.mem_append_right _ (List.mem_singleton.mpr rfl)), hl⟩
          · rcases h8 hr x hx with h | ⟨q, hq, hx1, hx2, hx3⟩
            · exact Or.inl h
            · exact Or.inr ⟨q, hq, hx1, hx2, hx3⟩

theorem switchSubs_run (skip : SRow → Bool) (g : ConnStates → Option ConnStates) (hsk : ∀ s, skip s = true → g s.st = some s.st) (key : Nat) : ∀ (refs : List Nat) (L : List SRow) (v : World)
    (D : List (Nat × SRow)), List.Forall₂ (LiveS v) refs L → (∀ s ∈ L, s.skey = key) → Upd v key g D → (D.map (·.1) ++ refs).Nodup →
    ∃ (D' : List (Nat × SRow)) (r : Except Err Unit),
      (switchSubs skip g (D.map (·.1)) refs).run machine (dirty v D) = (clean v D', r) ∧ Upd v key g D' ∧ (D'.map (·.1)).Nodup ∧
      (∀ p ∈ D, p ∈ D') ∧ (r = .ok () → Covered v g D' L)
  | [], _, v, D, .nil, _, hu, hn => by
    rw [List.append_nil] at hn
    refine ⟨D, .ok (), ?_, hu, hn, fun _ h => h, fun _ _ h => by cases h⟩
    simp only [switchSubs]
    split
    · rename_i h
      have : D = [] := by simpa using h
      subst this
      rfl
    · simp only [run_issue, machine_exec, exec_saveSs, saveSs_dirty hn hu.lt]
  | ref :: refs, s :: L, v, D, .cons hl ht, hL, hu, hn => by
    have hn1 : (D.map (·.1)).Nodup := (List.nodup_append.mp hn).1
    have hnd : ref ∉ D.map (·.1) := by
      have := (List.nodup_append.mp hn).2.2
      exact fun h => this ref h ref (by simp) rfl
    have hobj : (dirty v D).sheap[ref]? = some ⟨s, false⟩ := by
      simp only [dirty]; rw [foldl_set_ne _ _ _ hnd]; exact hl.obj
    simp only [switchSubs, run_bind', run_issue, machine_exec, exec_getS hobj, andThen_ok]
    split
    · rename_i hs
      obtain ⟨D', r, h1, h2, h3, h4, h5⟩ := switchSubs_run skip g hsk key refs L v D ht (fun x hx => hL x (by simp [hx])) hu
        (hn.sublist (List.Sublist.append_left (List.sublist_cons_self _ _) _))
      refine ⟨D', r, h1, h2, h3, h4, fun hr x hx => ?_⟩
      rcases List.mem_cons.mp hx with rfl | hx
      · exact Or.inl (hsk _ hs)
      · exact h5 hr x hx
    · cases hsw : g s.st with
      | none =>
        refine ⟨D, .error .internal, ?_, hu, hn1, fun _ h => h, fun h => by cases h⟩
        simp only [run_bind', run_issue, machine_exec, exec_saveSs, saveSs_dirty hn1 hu.lt, andThen_ok, run_throw]
      | some st =>
        let D1 := D ++ [(ref, { s with st })]
        have hD1 : D1.map (·.1) = D.map (·.1) ++ [ref] := by simp [D1]
        have hn1' : (D1.map (·.1) ++ refs).Nodup := by rw [hD1]; simpa using hn
        have hu1 : Upd v key g D1 := by
          intro p hp
          rcases List.mem_append.mp hp with hp | hp
          · exact hu p hp
          · rw [List.mem_singleton.mp hp]
            exact ⟨s, hl, hL s (by simp), st, hsw, rfl⟩
        have hset : exec (dirty v D) (.setS ref { s with st }) = (dirty v D1, .ok ()) := by
          rw [exec_setS _ hobj]
          simp [dirty, D1]
        simp only [run_bind', run_issue, machine_exec, hset, andThen_ok, ← hD1]
        obtain ⟨D', r, h1, h2, h3, h4, h5⟩ := switchSubs_run skip g hsk key refs L v D1 ht (fun x hx => hL x (by simp [hx])) hu1 hn1'
        refine ⟨D', r, h1, h2, h3, fun p hp => h4 p (List.mem_append_left _ hp), fun hr x hx => ?_⟩
        rcases List.mem_cons.mp hx with rfl | hx
        · exact Or.inr ⟨_, h4 _ (List.mem_append_right _ (List.mem_singleton.mpr rfl)), hl⟩
        · exact h5 hr x hx

end OpenNSA.Agg
