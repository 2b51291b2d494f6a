import Verif.Backend.Ops
/-
Local behaviour of the requests.
-/
namespace OpenNSA.Backend
open OpenNSA Py Prog

/-- Row after a commit. -/
def Row.committed (r : Row) : Row := { r with allocated := true, st := { r.st with r := .start } }

section
variable {cid : Str} {ref : Nat} {cfg : Cfg} {h : Hdr}

theorem L_commitOn {Q : S → Except Err Unit → Prop} {s : S} (hc : s.obj.cid = cid)
    (h0 : ∀ t e o, s.clk ≤ t → o.cid = cid →
      (authorize cfg h s.obj.srcPort s.obj.dstPort = .error e ∨ (isGone s.obj = true ∧ e = .gone) ∨
        (isGone s.obj = false ∧ s.obj.st.r ≠ .held ∧ e = .internal)) → Q { s with obj := o, clk := t } (.error e))
    (h1 : authorize cfg h s.obj.srcPort s.obj.dstPort = .ok () → isGone s.obj = false → s.obj.st.r = .held →
      ∀ t tm', s.clk ≤ t → EndTimer ref s.obj tm' → EndCall s.obj.end_ tm' t → ∀ res,
      res = .ok () ∨ res = .error .parent →
      Q { (s.put s.obj.committed) with tm := tm', clk := t, out := s.out ++ [.reserveCommitConfirmed cid] } res)
    (h2 : authorize cfg h s.obj.srcPort s.obj.dstPort = .ok () → isGone s.obj = false → s.obj.st.r = .held →
      ∀ t e, s.clk ≤ t → s.obj.end_ = some e → e + second < t →
      Q { (s.put s.obj.committed) with tm := none, clk := t } (.error .assertion)) :
    LAll cid ref (commitOn cfg h cid ref) Q s := by
  unfold commitOn
  apply L_getObj; intro t1 ht1
  apply L_ofExcept
  cases ha : authorize cfg h s.obj.srcPort s.obj.dstPort with
  | error e => exact h0 t1 e s.obj ht1 hc (Or.inl ha)
  | ok _ =>
    simp only
    by_cases hg : isGone s.obj = true
    · rw [if_pos hg]; exact h0 t1 .gone s.obj ht1 hc (Or.inr (Or.inl ⟨hg, rfl⟩))
    · rw [if_neg hg]
      apply L_assign (by exact hc)
      intro t2 ht2
      apply L_bind
      apply L_multiSwitch2 (by exact hc)
      · intro hx _ t3 ht3
        have hh : s.obj.st.r = .held := by
          revert hx; simp only; cases s.obj.st.r <;> decide
        simp only [cont_ok]
        apply L_cancel; intro t4 ht4
        apply L_bind
        apply L_schedEnd rfl
        · intro he
          simp only [cont_ok]
          rw [LAll_issue]
          intro t5 ht5
          exact ⟨h1 ha (by simpa using hg) hh t5 none (by simp only at *; omega) (Or.inl rfl) (fun x hx => by rw [he] at hx; simp at hx) _ (Or.inl rfl),
            h1 ha (by simpa using hg) hh t5 none (by simp only at *; omega) (Or.inl rfl) (fun x hx => by rw [he] at hx; simp at hx) _ (Or.inr rfl)⟩
        · intro e t5 he ht5 hle
          simp only [cont_ok]
          rw [LAll_issue]
          intro t6 ht6
          exact ⟨h1 ha (by simpa using hg) hh t6 _ (by simp only at *; omega) (Or.inr ⟨e, _, he, by omega, rfl⟩)
              (fun x hx => by rw [he] at hx; simp at hx; subst hx; exact Or.inl ⟨_, _, rfl, by omega, by simp only at *; omega⟩) _ (Or.inl rfl),
            h1 ha (by simpa using hg) hh t6 _ (by simp only at *; omega) (Or.inr ⟨e, _, he, by omega, rfl⟩)
              (fun x hx => by rw [he] at hx; simp at hx; subst hx; exact Or.inl ⟨_, _, rfl, by omega, by simp only at *; omega⟩) _ (Or.inr rfl)⟩
        · intro e t5 he ht5 hlt
          simp only [cont_error]
          exact h2 ha (by simpa using hg) hh t5 e (by simp only at *; omega) he hlt
      · intro hx o t3 ht3 ho
        simp only [cont_error]
        refine h0 t3 .internal o (by simp only at *; omega) ho (Or.inr (Or.inr ⟨by simpa using hg, ?_, rfl⟩))
        intro hh
        rcases hx with hx | hx
        · exact hx (by simp only; rw [hh]; decide)
        · exact hx (by decide)

theorem L_abortOn {Q : S → Except Err Unit → Prop} {s : S} (hc : s.obj.cid = cid)
    (hna : RState.aborting ∈ reserveTransitions s.obj.st.r → s.obj.active = false ∧ s.obj.allocated = false)
    (h00 : ∀ t e, s.clk ≤ t →
      (authorize cfg h s.obj.srcPort s.obj.dstPort = .error e ∨ (isGone s.obj = true ∧ e = .gone)) →
      Q (s.at t) (.error e))
    (h0 : isGone s.obj = false → RState.aborting ∉ reserveTransitions s.obj.st.r → ∀ t, s.clk ≤ t →
      Q { s with out := s.out ++ [.reserveAbortConfirmed cid], clk := t } (.ok ()))
    (h1 : isGone s.obj = false → RState.aborting ∈ reserveTransitions s.obj.st.r →
      (rm2 s.cal (srcResv cfg s.obj) (dstResv cfg s.obj)).2 ≠ none → ∀ t, s.clk ≤ t →
      Q { (s.put (s.obj.withR .aborting)) with
        tm := none, clk := t, out := s.out ++ [.reserveAbortConfirmed cid],
        cal := (rm2 s.cal (srcResv cfg s.obj) (dstResv cfg s.obj)).1 } (.ok ()))
    (h2 : isGone s.obj = false → RState.aborting ∈ reserveTransitions s.obj.st.r →
      (rm2 s.cal (srcResv cfg s.obj) (dstResv cfg s.obj)).2 = none → ∀ t tm', s.clk ≤ t → EndTimer ref s.obj tm' →
      Q { (s.put (s.obj.withR .start)) with
        tm := tm', clk := t, out := s.out ++ [.reserveAbortConfirmed cid],
        cal := (rm2 s.cal (srcResv cfg s.obj) (dstResv cfg s.obj)).1 } (.ok ()))
    (h3 : isGone s.obj = false → RState.aborting ∈ reserveTransitions s.obj.st.r →
      (rm2 s.cal (srcResv cfg s.obj) (dstResv cfg s.obj)).2 = none → s.obj.st.l = .created →
      ∀ t e, s.clk ≤ t → s.obj.end_ = some e → e < t →
      Q { (s.put ((s.obj.withR .start).withL .passedEnd)) with
        tm := none, clk := t, out := s.out ++ [.reserveAbortConfirmed cid],
        cal := (rm2 s.cal (srcResv cfg s.obj) (dstResv cfg s.obj)).1 } (.ok ())) :
    LAll cid ref (abortOn cfg h cid ref) Q s := by
  unfold abortOn
  apply L_getObj; intro t1 ht1
  apply L_ofExcept
  cases ha : authorize cfg h s.obj.srcPort s.obj.dstPort with
  | error e => exact h00 t1 e ht1 (Or.inl ha)
  | ok _ =>
    simp only
    by_cases hg : isGone s.obj = true
    · rw [if_pos hg]; exact h00 t1 .gone ht1 (Or.inr ⟨hg, rfl⟩)
    · rw [if_neg hg]
      have hg' : isGone s.obj = false := by simpa using hg
      apply L_bind
      apply L_doReserveRollback (by exact hc)
      · exact hna
      · intro hx t2 ht2
        simp only [cont_ok]
        apply L_tell; intro t3 ht3
        exact h0 hg' hx t3 (by simp only at *; omega)
      · intro hx hrm t2 ht2
        simp only [cont_ok]
        apply L_tell; intro t3 ht3
        exact h1 hg' hx hrm t3 (by simp only at *; omega)
      · intro hx hrm t2 tm' ht2 htm
        simp only [cont_ok]
        apply L_tell; intro t3 ht3
        exact h2 hg' hx hrm t3 tm' (by simp only at *; omega) htm
      · intro hx hrm hl t2 e ht2 he hlt
        simp only [cont_ok]
        apply L_tell; intro t3 ht3
        exact h3 hg' hx hrm hl t3 e (by simp only at *; omega) he (by simp only at *; omega)

/-- Reasons for refusing to provision. -/
def ProvRefused (cfg : Cfg) (h : Hdr) (o : Row) (now : Time) (e : Err) : Prop :=
  authorize cfg h o.srcPort o.dstPort = .error e ∨ (o.allocated = false ∧ e = .connection) ∨ (isGone o = true ∧ e = .gone) ∨
  (isGone o = false ∧ o.st.r ≠ .start ∧ e = .invalidTransition) ∨ (∃ x, o.end_ = some x ∧ x ≤ now ∧ e = .gone) ∨
  (isGone o = false ∧ o.st.p ≠ .released ∧ o.st.p ≠ .provisioning ∧ e = .internal)

/-- The connection may be provisioned at `now`. -/
structure ProvOk (cfg : Cfg) (h : Hdr) (o : Row) (now : Time) : Prop where
  auth : authorize cfg h o.srcPort o.dstPort = .ok ()
  alloc : o.allocated = true
  gone : isGone o = false
  r : o.st.r = .start
  p : o.st.p = .released ∨ o.st.p = .provisioning
  end_ : ∀ x, o.end_ = some x → now < x

theorem L_provisionOn {Q : S → Except Err Unit → Prop} {s : S} (hc : s.obj.cid = cid)
    (h0 : ∀ t e, s.clk ≤ t → ProvRefused cfg h s.obj t e → Q (s.at t) (.error e))
    (h1 : ∀ now t up' a tm' out', s.clk ≤ now → now ≤ t → ProvOk cfg h s.obj now → (∀ x, s.obj.start = some x → x ≤ now) →
      Activated cid ref s.obj.end_ s.up up' a none tm' out' t →
      Q { (s.put ((s.obj.withP .provisioned).withA a)) with
          up := up', tm := tm', out := s.out ++ out' ++ [.provisionConfirmed cid], clk := t } (.ok ()))
    (h2 : ∀ now t due x, s.clk ≤ now → now ≤ t → ProvOk cfg h s.obj now → s.obj.start = some x → now < x → x ≤ due →
      (due ≤ x ∨ due ≤ t) →
      Q { (s.put (s.obj.withP .provisioned)) with
          tm := some ⟨due, .activate, ref, false⟩, out := s.out ++ [.provisionConfirmed cid], clk := t } (.ok ()))
    (h3 : ∀ now t x, s.clk ≤ now → now ≤ t → ProvOk cfg h s.obj now → s.obj.start = some x → now < x → x + second < t →
      Q { (s.put (s.obj.withP .provisioning)) with tm := none, clk := t } (.error .assertion)) :
    LAll cid ref (provisionOn cfg h cid ref) Q s := by
  unfold provisionOn
  apply L_getObj; intro t1 ht1
  apply L_ofExcept
  cases ha : authorize cfg h s.obj.srcPort s.obj.dstPort with
  | error e => exact h0 t1 e ht1 (Or.inl ha)
  | ok _ =>
    simp only
    by_cases hal : s.obj.allocated = true
    · rw [if_neg (by simp [hal])]
      by_cases hg : isGone s.obj = true
      · rw [if_pos hg]; exact h0 t1 .gone ht1 (Or.inr (Or.inr (Or.inl ⟨hg, rfl⟩)))
      · rw [if_neg hg]
        by_cases hr : s.obj.st.r = .start
        · rw [if_neg (by simp [hr])]
          apply L_now; intro t2 ht2
          by_cases he : ended s.obj.end_ t2 = true
          · rw [if_pos he]
            refine h0 t2 .gone (by simp only at *; omega) (Or.inr (Or.inr (Or.inr (Or.inr (Or.inl ?_)))))
            cases hx : s.obj.end_ with
            | none => rw [hx] at he; simp [ended] at he
            | some x => rw [hx] at he; exact ⟨x, rfl, by simpa [ended] using he, rfl⟩
          · rw [if_neg he]
            have hend : ∀ x, s.obj.end_ = some x → t2 < x := by
              intro x hx; rw [hx] at he; simp [ended] at he; omega
            apply L_bind
            apply L_switchProvision (by exact hc)
            · intro hp t3 ht3
              have hp' : s.obj.st.p = .released ∨ s.obj.st.p = .provisioning := by
                revert hp; simp only; cases s.obj.st.p <;> decide
              have hok : ProvOk cfg h s.obj t2 := ⟨ha, hal, by simpa using hg, hr, hp', hend⟩
              simp only [cont_ok]
              apply L_cancel; intro t4 ht4
              have spawned : (∀ x, s.obj.start = some x → x ≤ t2) →
                  LAll cid ref ((doActivate ref).spawn ((switchProvision ref .provisioned).bind fun _ =>
                    issue (.tell (.provisionConfirmed cid)))) Q
                  { (s.put (s.obj.withP .provisioning)) with tm := none, clk := t4 } := by
                intro hst
                simp only [LAll]
                apply L_doActivate (by exact hc) rfl
                intro t5 up' a tm' out' ht5 hact
                apply L_bind
                apply L_switchProvision (by exact hc)
                · intro _ t6 ht6
                  simp only [cont_ok]
                  apply L_tell; intro t7 ht7
                  have := h1 t2 t7 up' a tm' out' (by simp only at *; omega) (by simp only at *; omega) hok hst (Activated.mono hact (by simp only at *; omega))
                  simpa [List.append_assoc, Row.withP, Row.withA] using this
                · intro hx; exact absurd (by simp [Row.withP, Row.withA, provisionTransitions]) hx
              cases hst : s.obj.start with
              | none => exact spawned (by simp [hst])
              | some x =>
                simp only
                by_cases hx : x ≤ t2
                · rw [if_pos hx]; exact spawned (by intro y hy; rw [hst] at hy; simp at hy; omega)
                · rw [if_neg hx]
                  apply L_bind
                  apply L_sched rfl
                  · intro t5 ht5 _
                    simp only [cont_ok]
                    apply L_bind
                    apply L_switchProvision (by exact hc)
                    · intro _ t6 ht6
                      simp only [cont_ok]
                      apply L_tell; intro t7 ht7
                      have := h2 t2 t7 (max x t5) x (by simp only at *; omega) (by simp only at *; omega) hok hst (by omega)
                        (by omega) (by simp only at *; omega)
                      simpa [Row.withP] using this
                    · intro hx; exact absurd (by simp [Row.withP, provisionTransitions]) hx
                  · intro t5 ht5 hlt
                    simp only [cont_error]
                    exact h3 t2 t5 x (by simp only at *; omega) (by simp only at *; omega) hok hst (by omega) hlt
            · intro hp t3 ht3
              simp only [cont_error]
              refine h0 t3 .internal (by simp only at *; omega) (Or.inr (Or.inr (Or.inr (Or.inr (Or.inr ⟨by simpa using hg, ?_, ?_, rfl⟩)))))
              · intro e; exact hp (by simp only; rw [e]; decide)
              · intro e; exact hp (by simp only; rw [e]; decide)
        · rw [if_pos hr]; exact h0 t1 _ ht1 (Or.inr (Or.inr (Or.inr (Or.inl ⟨by simpa using hg, hr, rfl⟩))))
    · rw [if_pos hal]
      exact h0 t1 _ ht1 (Or.inr (Or.inl ⟨by simpa using hal, rfl⟩))

/-- The link and the messages after the teardown part of a release. -/
def RelDown (cid : Str) (act up up' : Bool) (out' : List Msg) : Prop :=
  (act = false ∧ up' = up ∧ out' = []) ∨ (act = true ∧ ∃ m, TornDown cid up up' m ∧ out' = [m])

theorem L_releaseOn {Q : S → Except Err Unit → Prop} {s : S} (hc : s.obj.cid = cid)
    (h0 : ∀ t e, s.clk ≤ t →
      (authorize cfg h s.obj.srcPort s.obj.dstPort = .error e ∨ (isGone s.obj = true ∧ e = .gone) ∨
        (isGone s.obj = false ∧ s.obj.st.p ≠ .provisioned ∧ s.obj.st.p ≠ .releasing ∧ e = .internal)) → Q (s.at t) (.error e))
    (h1 : authorize cfg h s.obj.srcPort s.obj.dstPort = .ok () → isGone s.obj = false →
      s.obj.st.p = .provisioned ∨ s.obj.st.p = .releasing →
      ∀ t up' tm' out', s.clk ≤ t → RelDown cid s.obj.active s.up up' out' → EndTimer ref s.obj tm' →
      EndCall s.obj.end_ tm' t →
      Q { (s.put ((s.obj.withP .released).withA false)) with
        up := up', tm := tm', out := s.out ++ out' ++ [.releaseConfirmed cid], clk := t } (.ok ()))
    (h2 : authorize cfg h s.obj.srcPort s.obj.dstPort = .ok () → isGone s.obj = false →
      s.obj.st.p = .provisioned ∨ s.obj.st.p = .releasing →
      ∀ t e up' out', s.clk ≤ t → RelDown cid s.obj.active s.up up' out' → s.obj.end_ = some e → e + second < t →
      Q { (s.put ((s.obj.withP .releasing).withA false)) with
        up := up', tm := none, out := s.out ++ out', clk := t } (.error .assertion)) :
    LAll cid ref (releaseOn cfg h cid ref) Q s := by
  unfold releaseOn
  apply L_getObj; intro t1 ht1
  apply L_ofExcept
  cases ha : authorize cfg h s.obj.srcPort s.obj.dstPort with
  | error e => exact h0 t1 e ht1 (Or.inl ha)
  | ok _ =>
    simp only
    by_cases hg : isGone s.obj = true
    · rw [if_pos hg]; exact h0 t1 .gone ht1 (Or.inr (Or.inl ⟨hg, rfl⟩))
    · rw [if_neg hg]
      have hg' : isGone s.obj = false := by simpa using hg
      apply L_bind
      apply L_switchProvision (by exact hc)
      · intro hp t2 ht2
        have hp' : s.obj.st.p = .provisioned ∨ s.obj.st.p = .releasing := by
          revert hp; simp only; cases s.obj.st.p <;> decide
        simp only [cont_ok]
        apply L_cancel; intro t3 ht3
        apply L_getObj; intro t4 ht4
        -- the part after the teardown
        have rest : ∀ t5 up' out', t4 ≤ t5 → RelDown cid s.obj.active s.up up' out' →
            LAll cid ref ((schedEnd cid s.obj.end_ ref).bind fun _ =>
              (switchProvision ref .released).bind fun _ => issue (.tell (.releaseConfirmed cid))) Q
            { (s.put ((s.obj.withP .releasing).withA false)) with
              up := up', tm := none, out := s.out ++ out', clk := t5 } := by
          intro t5 up' out' ht5 hd
          have fin : ∀ t6 tm', t5 ≤ t6 → EndTimer ref s.obj tm' → EndCall s.obj.end_ tm' t6 →
              LAll cid ref ((switchProvision ref .released).bind fun _ => issue (.tell (.releaseConfirmed cid))) Q
              { (s.put ((s.obj.withP .releasing).withA false)) with
                up := up', tm := tm', out := s.out ++ out', clk := t6 } := by
            intro t6 tm' ht6 htm htm2
            apply L_bind
            apply L_switchProvision (by exact hc)
            · intro _ t7 ht7
              simp only [cont_ok]
              apply L_tell; intro t8 ht8
              have := h1 ha hg' hp' t8 up' tm' out' (by simp only at *; omega) hd htm (htm2.mono (by simp only at *; omega))
              simpa [Row.withP, Row.withA] using this
            · intro hx; exact absurd (by simp [Row.withP, Row.withA, provisionTransitions]) hx
          apply L_bind
          apply L_schedEnd rfl
          · intro he; exact fin t5 none (Int.le_refl _) (Or.inl rfl) (fun x hx => by rw [he] at hx; simp at hx)
          · intro e t6 he ht6 hle
            exact fin t6 _ ht6 (Or.inr ⟨e, _, he, by omega, rfl⟩)
              (fun x hx => by rw [he] at hx; simp at hx; subst hx; exact Or.inl ⟨_, _, rfl, by omega, by omega⟩)
          · intro e t6 he ht6 hlt
            simp only [cont_error]
            exact h2 ha hg' hp' t6 e up' out' (by simp only at *; omega) hd he hlt
        simp only [bind_eq, withP_active, withP_end]
        by_cases hact : s.obj.active = true
        · rw [hact]
          simp only [whenP, if_true]
          apply L_bind
          rw [LAll_tryCatch]
          apply L_doTeardown (by exact hc)
          intro t5 up' m ht5 htd
          simp only [caught_ok, cont_ok]
          exact rest t5 up' [m] ht5 (Or.inr ⟨hact, m, htd, rfl⟩)
        · have hact' : s.obj.active = false := by simpa using hact
          rw [hact']
          simp only [whenP, Bool.false_eq_true, if_false, Prog.bind]
          have := rest t4 s.up [] (Int.le_refl _) (Or.inl ⟨hact', rfl, rfl⟩)
          have e : (s.obj.withP .releasing).withA false = s.obj.withP .releasing := by
            simp only [Row.withA, Row.withP]; rw [← hact']
          rw [e] at this
          simpa using this
      · intro hp t2 ht2
        simp only [cont_error]
        refine h0 t2 .internal (by simp only at *; omega) (Or.inr (Or.inr ⟨by simpa using hg, ?_, ?_, rfl⟩))
        · intro e; exact hp (by simp only; rw [e]; decide)
        · intro e; exact hp (by simp only; rw [e]; decide)

/-- Effect of freeing the resources of `o`: calendar, error, activity flag, link, messages. -/
def Freed (cid : Str) (cfg : Cfg) (o : Row) (cal cal' : Cal) (err : Option Err) (up up' : Bool) (out' : List Msg) : Prop :=
  (o.active = true ∧ cal' = (rm2 cal (srcResv cfg o) (dstResv cfg o)).1 ∧ err = (rm2 cal (srcResv cfg o) (dstResv cfg o)).2 ∧
    ∃ m, TornDown cid up up' m ∧ out' = [m]) ∨
  (o.active = false ∧ (o.allocated = true ∨ o.st.r = .held) ∧ cal' = (rm2 cal (srcResv cfg o) (dstResv cfg o)).1 ∧
    err = (rm2 cal (srcResv cfg o) (dstResv cfg o)).2 ∧ up' = up ∧ out' = []) ∨
  (o.active = false ∧ o.allocated = false ∧ o.st.r ≠ .held ∧ cal' = cal ∧ err = none ∧ up' = up ∧ out' = [])

theorem withA_self {r : Row} {b : Bool} (h : r.active = b) : r.withA b = r := by subst h; rfl

theorem L_free {Q : S → Except Err Unit → Prop} {s : S} (hc : s.obj.cid = cid)
    (h1 : ∀ t cal' err up' out' r', s.clk ≤ t → Freed cid cfg s.obj s.cal cal' err s.up up' out' →
      r' = (if s.obj.active = true then s.obj.withA false else s.row) →
      Q { s with row := r', obj := s.obj.withA false, cal := cal', up := up', out := s.out ++ out', clk := t } (resOf err)) :
    LAll cid ref (doFreeResource cfg ref) Q s := by
  apply L_doFreeResource hc
  · intro ha t up' m ht htd
    exact h1 t _ _ up' [m] _ ht (Or.inl ⟨ha, rfl, rfl, m, htd, rfl⟩) (by rw [if_pos ha])
  · intro ha hb t ht
    have := h1 t _ _ s.up [] _ ht (Or.inr (Or.inl ⟨ha, hb, rfl, rfl, rfl, rfl⟩)) rfl
    rw [if_neg (by simp [ha]), withA_self ha] at this
    simpa using this
  · intro ha hb hb' t ht
    have := h1 t _ _ s.up [] _ ht (Or.inr (Or.inr ⟨ha, hb, hb', rfl, rfl, rfl, rfl⟩)) rfl
    rw [if_neg (by simp [ha]), withA_self ha] at this
    simpa [resOf] using this

theorem L_terminateOn {Q : S → Except Err Unit → Prop} {s : S} (hc : s.obj.cid = cid)
    (h0 : ∀ t e, s.clk ≤ t →
      (authorize cfg h s.obj.srcPort s.obj.dstPort = .error e ∨ (s.obj.st.l = .terminated ∧ e = .attribute)) →
      Q (s.at t) (.error e))
    -- end time already passed: nothing to free
    (h1 : authorize cfg h s.obj.srcPort s.obj.dstPort = .ok () → s.obj.st.l = .passedEnd →
      ∀ t, s.clk ≤ t →
      Q { (s.put (s.obj.withL .terminated)) with
        tm := none, out := s.out ++ [.terminateConfirmed cid], clk := t } (.ok ()))
    (h1' : authorize cfg h s.obj.srcPort s.obj.dstPort = .ok () → s.obj.st.l = .passedEnd →
      ∀ t, s.clk ≤ t →
      Q { (s.put (s.obj.withL .terminating)) with
        tm := none, out := s.out ++ [.terminateConfirmed cid], clk := t } (.error .parent))
    (h2 : authorize cfg h s.obj.srcPort s.obj.dstPort = .ok () → s.obj.st.l ≠ .terminated → s.obj.st.l ≠ .passedEnd →
      ∀ t cal' up' out', s.clk ≤ t → Freed cid cfg s.obj s.cal cal' none s.up up' out' →
      Q { (s.put ((s.obj.withL .terminated).withA false)) with
        tm := none, out := s.out ++ out' ++ [.terminateConfirmed cid], clk := t, up := up', cal := cal' } (.ok ()))
    (h3 : authorize cfg h s.obj.srcPort s.obj.dstPort = .ok () → s.obj.st.l ≠ .terminated → s.obj.st.l ≠ .passedEnd →
      ∀ t cal' up' out' err, s.clk ≤ t → Freed cid cfg s.obj s.cal cal' err s.up up' out' →
      ∀ m e, (err = some e ∧ m = []) ∨ (err = none ∧ e = .parent ∧ m = [.terminateConfirmed cid]) →
      Q { (s.put ((s.obj.withL .terminating).withA false)) with
        tm := none, out := s.out ++ out' ++ m, clk := t, up := up', cal := cal' } (.error e)) :
    LAll cid ref (terminateOn cfg h cid ref) Q s := by
  unfold terminateOn
  apply L_getObj; intro t1 ht1
  apply L_ofExcept
  cases ha : authorize cfg h s.obj.srcPort s.obj.dstPort with
  | error e => exact h0 t1 e ht1 (Or.inl ha)
  | ok _ =>
    simp only
    by_cases hg : s.obj.st.l = .terminated
    · rw [if_pos hg]; exact h0 t1 _ ht1 (Or.inr ⟨hg, rfl⟩)
    · rw [if_neg hg]
      apply L_cancel; intro t2 ht2
      apply L_bind
      apply L_switchLifecycle (by exact hc)
      · intro hl t3 ht3
        simp only [cont_ok, bind_eq]
        apply L_bind
        by_cases hp : s.obj.st.l = .passedEnd
        · simp only [whenP, hp, ne_eq, not_true_eq_false, decide_false, Bool.false_eq_true, if_false, LAll, cont_ok]
          apply L_bind
          rw [LAll_issue]
          intro t4 ht4
          refine ⟨?_, ?_⟩
          · simp only [cont_ok]
            apply L_switchLifecycle (by exact hc)
            · intro _ t5 ht5
              have := h1 ha hp t5 (by simp only at *; omega)
              simpa [Row.withL] using this
            · intro hx; exact absurd (by simp [Row.withL, lifecycleTransitions]) hx
          · simp only [cont_error]
            exact h1' ha hp t4 (by simp only at *; omega)
        · simp only [whenP, ne_eq, hp, not_false_eq_true, decide_true, if_true]
          apply L_free (by exact hc)
          intro t4 cal' err up' out' r' ht4 hf hr'
          have hr'' : r' = (s.obj.withL .terminating).withA false := by
            rw [hr']
            split
            · rfl
            · rename_i hx
              rw [withA_self]
              simpa using hx
          subst hr''
          have hf' : Freed cid cfg s.obj s.cal cal' err s.up up' out' := hf
          cases err with
          | some e =>
            simp only [resOf, cont_error]
            have := h3 ha hg hp t4 cal' up' out' (some e) (by simp only at *; omega) hf' [] e (Or.inl ⟨rfl, rfl⟩)
            simpa using this
          | none =>
            simp only [resOf, cont_ok]
            apply L_bind
            rw [LAll_issue]
            intro t5 ht5
            refine ⟨?_, ?_⟩
            · simp only [cont_ok]
              apply L_switchLifecycle (by exact hc)
              · intro _ t6 ht6
                have := h2 ha hg hp t6 cal' up' out' (by simp only at *; omega) hf'
                simpa [Row.withL, Row.withA] using this
              · intro hx; exact absurd (by simp [Row.withL, Row.withA, lifecycleTransitions]) hx
            · simp only [cont_error]
              exact h3 ha hg hp t5 cal' up' out' none (by simp only at *; omega) hf' _ _ (Or.inr ⟨rfl, rfl, rfl⟩)
      · intro hl
        refine absurd ?_ hl
        show LState.terminating ∈ lifecycleTransitions s.obj.st.l
        cases hx : s.obj.st.l <;> first | decide | exact absurd hx hg

end
end OpenNSA.Backend
