import Verif.Backend.OwnOps
/-
Interleaved execution, connection by connection: the operations that share a connection (`provision`, `release`, activation).
-/
namespace OpenNSA.Backend
open OpenNSA Py Prog

theorem bind_assoc {α β γ : Type} (p : Prog α) (f : α → Prog β) (g : β → Prog γ) : (p.bind f).bind g = p.bind fun a => (f a).bind g := by
  induction p with
  | pure a => rfl
  | throw e => rfl
  | cmd c k ih => simp only [Prog.bind, ih]
  | spawn p k _ ihk => simp only [Prog.bind, ihk]

section
variable {cid : Str} {r0 : Option Row} {T : List Nat} {ref : Nat}

theorem SymS_bind {α β : Type} {p : Prog α} {f : α → Prog β} : ∀ {Q : List Nat → Except Err β → Prop} {T : List Nat},
    SymS cid r0 p (cont Q fun a T => SymS cid r0 (f a) Q T) T → SymS cid r0 (p.bind f) Q T := by
  induction p with
  | pure a => intro Q T h; exact h
  | throw e => intro Q T h; exact h
  | cmd c k ih => intro Q T h; exact ⟨h.1, fun T' r he => ih r (h.2.1 T' r he), fun hc => ih _ (h.2.2 hc)⟩
  | spawn p k _ ihk => intro Q T h; exact ⟨h.1, ihk h.2⟩

theorem SymS_tryCatch {α : Type} {p : Prog α} {f : Err → Prog α} : ∀ {Q : List Nat → Except Err α → Prop} {T : List Nat},
    SymS cid r0 p (caught Q fun e T => SymS cid r0 (f e) Q T) T → SymS cid r0 (p.tryCatch f) Q T := by
  induction p with
  | pure a => intro Q T h; exact h
  | throw e => intro Q T h; exact h
  | cmd c k ih => intro Q T h; exact ⟨h.1, fun T' r he => ih r (h.2.1 T' r he), fun hc => ih _ (h.2.2 hc)⟩
  | spawn p k _ ihk => intro Q T h; exact ⟨h.1, ihk h.2⟩

theorem SymS_mono {α : Type} {p : Prog α} : ∀ {Q Q' : List Nat → Except Err α → Prop} {T : List Nat}, (∀ T r, Q T r → Q' T r) → SymS cid r0 p Q T →
    SymS cid r0 p Q' T := by
  induction p with
  | pure a => intro Q Q' T hq h; exact hq _ _ h
  | throw e => intro Q Q' T hq h; exact hq _ _ h
  | cmd c k ih => intro Q Q' T hq h; exact ⟨h.1, fun T' r he => ih r hq (h.2.1 T' r he), fun hc => ih _ hq (h.2.2 hc)⟩
  | spawn p k _ ihk => intro Q Q' T hq h; exact ⟨h.1, ihk hq h.2⟩

theorem SymS_issue {β : Type} {c : Cmd β} {Q : List Nat → Except Err β → Prop} (h1 : OkS cid r0 c T) (h2 : ∀ T' r, EffS r0 c T T' r → Q T' r)
    (h3 : c.isAsync = true → Q T (.error .runtime)) : SymS cid r0 (issue c) Q T := by
  refine ⟨h1, fun T' r he => ?_, fun hc => h3 hc⟩
  have := h2 T' r he
  cases r <;> exact this

/-- The known row objects stay the same. -/
def Same {α : Type} (T : List Nat) : List Nat → Except Err α → Prop := fun T' _ => T' = T

theorem ss_seq {α β : Type} {p : Prog α} {f : α → Prog β} (hp : SymS cid r0 p (Same T) T) (hf : ∀ a, SymS cid r0 (f a) (Same T) T) :
    SymS cid r0 (p.bind f) (Same T) T := by
  refine SymS_bind (SymS_mono ?_ hp)
  rintro _ r rfl
  cases r with
  | ok a => exact hf a
  | error e => rfl

theorem ss_try {α : Type} {p : Prog α} {f : Err → Prog α} (hp : SymS cid r0 p (Same T) T) (hf : ∀ a, SymS cid r0 (f a) (Same T) T) :
    SymS cid r0 (p.tryCatch f) (Same T) T := by
  refine SymS_tryCatch (SymS_mono ?_ hp)
  rintro _ r rfl
  cases r with
  | ok a => rfl
  | error e => exact hf e

theorem ss_pure {α : Type} (a : α) : SymS cid r0 (Prog.pure a) (Same T) T := rfl
theorem ss_throw {α : Type} (e : Err) : SymS cid r0 (throw e : Prog α) (Same T) T := rfl
theorem ss_when {b : Bool} {p : Prog Unit} (h : b = true → SymS cid r0 p (Same T) T) : SymS cid r0 (whenP b p) (Same T) T := by
  unfold whenP
  split
  · exact h ‹_›
  · rfl
theorem ss_ofExcept {α : Type} (x : Except Err α) : SymS cid r0 (ofExcept x) (Same T) T := by cases x <;> rfl

theorem ss_save (h : ref ∈ T) : SymS cid r0 (issue (.save ref)) (Same T) T :=
  SymS_issue h (fun _ _ he => he.1) fun _ => rfl
theorem ss_setObj {row x : Row} (h : ref ∈ T) (hx : r0 = some x) (hc : Core x row) (ho : OkRow row) : SymS cid r0 (issue (.setObj ref row)) (Same T) T :=
  SymS_issue ⟨h, x, hx, hc, ho⟩ (fun _ _ he => he.1) fun _ => rfl
theorem ss_getObj {α : Type} {f : Row → Prog α} (h : ref ∈ T) (hf : ∀ x row, r0 = some x → Core x row → OkRow row → SymS cid r0 (f row) (Same T) T) :
    SymS cid r0 ((issue (.getObj ref)).bind f) (Same T) T := by
  refine SymS_bind (SymS_issue h ?_ fun _ => rfl)
  rintro _ r ⟨rfl, x, row, hx, hc, ho, rfl⟩
  exact hf x row hx hc ho
theorem ss_tell (m : Msg) : SymS cid r0 (issue (.tell m)) (Same T) T := SymS_issue trivial (fun _ _ he => he.1) fun _ => rfl
theorem ss_now : SymS cid r0 (issue .now) (Same T) T := SymS_issue trivial (fun _ _ he => he.1) fun _ => rfl
theorem ss_notifId : SymS cid r0 (issue .notifId) (Same T) T := SymS_issue trivial (fun _ _ he => he.1) fun _ => rfl
theorem ss_setup (c : Str) : SymS cid r0 (issue (.setup c)) (Same T) T := SymS_issue trivial (fun _ _ he => he) fun _ => rfl
theorem ss_teardown (c : Str) : SymS cid r0 (issue (.teardown c)) (Same T) T := SymS_issue trivial (fun _ _ he => he) fun _ => rfl
theorem ss_cancel : SymS cid r0 (issue (.cancel cid)) (Same T) T := SymS_issue rfl (fun _ _ he => he.1) fun _ => rfl
theorem ss_sched {t : Time} {act : Act} {x : Row} (h : ref ∈ T) (hx : r0 = some x) (ha : ActOk x act) :
    SymS cid r0 (issue (.sched cid t act ref)) (Same T) T :=
  SymS_issue ⟨rfl, h, x, hx, ha⟩ (fun _ _ he => he) fun _ => rfl

theorem ss_schedEnd {e : Option Time} {x : Row} (h : ref ∈ T) (hx : r0 = some x) (ha : x.st.r = .start) : SymS cid r0 (schedEnd cid e ref) (Same T) T := by
  unfold schedEnd
  split
  · exact ss_pure _
  · exact ss_sched h hx ha

theorem Core.allocated {x y : Row} (h : Core x y) : y.allocated = x.allocated := by unfold Core at h; rw [h]
theorem Core.r {x y : Row} (h : Core x y) : y.st.r = x.st.r := by unfold Core at h; rw [h]
theorem Core.cid_eq {x y : Row} (h : Core x y) : y.cid = x.cid := by unfold Core at h; rw [h]

theorem ss_switchProvision {new : PState} (h : ref ∈ T) (hn : new = .provisioning → ∀ x, r0 = some x → x.allocated = true) :
    SymS cid r0 (switchProvision ref new) (Same T) T := by
  unfold switchProvision
  simp only [bind_eq]
  refine ss_getObj h fun x row hx hc ho => ?_
  split
  · exact ss_throw _
  · rename_i st hst
    unfold switchP at hst
    split at hst
    · rename_i hmem
      simp only [Option.some.injEq] at hst
      subst hst
      refine ss_seq (ss_setObj h hx ?_ ⟨ho.active, ho.alloc, ho.state, ho.life, ho.ended, fun hp => ?_⟩) fun _ => ss_save h
      · unfold Core at hc ⊢
        rw [hc]
      · simp only at hp ⊢
        by_cases e : row.st.p = .released
        · rw [e] at hmem
          simp only [provisionTransitions, List.mem_cons, List.not_mem_nil, or_false] at hmem
          rw [hc.allocated]
          exact hn hmem x hx
        · exact ho.prov e
    · cases hst

theorem ss_setActive {b : Bool} (h : ref ∈ T) (hn : b = true → ∀ x, r0 = some x → x.allocated = true) : SymS cid r0 (setActive ref b) (Same T) T := by
  unfold setActive
  simp only [bind_eq]
  refine ss_getObj h fun x row hx hc ho => ss_seq (ss_setObj h hx ?_ ⟨fun hb => ?_, ho.alloc, ho.state, ho.life, ho.ended, ho.prov⟩) fun _ => ss_save h
  · unfold Core at hc ⊢
    rw [hc]
  · simp only at hb ⊢
    rw [hc.allocated]
    exact hn hb x hx

theorem ss_doTeardown (h : ref ∈ T) : SymS cid r0 (doTeardown ref) (Same T) T := by
  unfold doTeardown
  simp only [bind_eq]
  refine ss_getObj h fun x row hx hc ho => ss_seq (ss_try (ss_seq (ss_teardown _) fun _ => ss_pure _) fun _ => ss_pure _) fun up => ?_
  split
  · exact ss_try (ss_seq (ss_setActive h (by simp)) fun _ => ss_seq ss_notifId fun _ => ss_tell _) fun _ => ss_pure _
  · exact ss_seq (ss_setActive h (by simp)) fun _ => ss_seq ss_notifId fun _ => ss_tell _

theorem ss_doActivate {x : Row} (h : ref ∈ T) (hx : r0 = some x) (hcid : x.cid = cid) (ha : x.allocated = true) (hr : x.st.r = .start) :
    SymS cid r0 (doActivate ref) (Same T) T := by
  have hn : ∀ b, b = true → ∀ y, r0 = some y → y.allocated = true := by
    rintro _ _ y hy
    rw [hx] at hy
    cases hy
    exact ha
  unfold doActivate
  simp only [bind_eq]
  refine ss_getObj h fun x' row hx' hc ho => ss_seq (ss_try (ss_seq (ss_setup _) fun _ => ss_pure _) fun _ => ss_pure _) fun up => ?_
  rw [hx] at hx'
  cases hx'
  have e : row.cid = cid := hc.cid_eq.trans hcid
  rw [e]
  split
  · exact ss_try (ss_seq (ss_setActive h (hn true)) fun _ => ss_seq ss_now fun _ => ss_seq (ss_schedEnd h hx hr) fun _ => ss_seq ss_notifId fun _ => ss_tell _)
      fun _ => ss_pure _
  · exact ss_seq (ss_setActive h (hn false)) fun _ => ss_seq ss_notifId fun _ => ss_tell _

theorem ss_any {α : Type} {p : Prog α} (h : SymS cid r0 p (Same T) T) : SymS cid r0 p AnyEnd T := SymS_mono (fun _ _ _ => trivial) h

theorem ss_provisionOn (cfg : Cfg) (hd : Hdr) (h : ref ∈ T) (hcid : ∀ x, r0 = some x → x.cid = cid) : SymS cid r0 (provisionOn cfg hd cid ref) (Same T) T := by
  unfold provisionOn
  simp only [bind_eq]
  refine ss_getObj h fun x row hx hc ho => ss_seq (ss_ofExcept _) fun _ => ?_
  split
  · exact ss_throw _
  · rename_i hal
    split
    · exact ss_throw _
    · split
      · exact ss_throw _
      · rename_i hst
        have hal' : x.allocated = true := by rw [← hc.allocated]; simpa using hal
        have hst' : x.st.r = .start := by rw [← hc.r]; simpa using hst
        have hn : ∀ y, r0 = some y → y.allocated = true := by
          intro y hy
          rw [hx] at hy
          cases hy
          exact hal'
        have hact : SymS cid r0 (doActivate ref) (fun _ _ => True) T := ss_any (ss_doActivate h hx (hcid x hx) hal' hst')
        have hrest : SymS cid r0 ((switchProvision ref .provisioned).bind fun _ => issue (.tell (.provisionConfirmed cid))) (Same T) T :=
          ss_seq (ss_switchProvision h fun _ => hn) fun _ => ss_tell _
        refine ss_seq ss_now fun now => ?_
        split
        · exact ss_throw _
        · refine ss_seq (ss_switchProvision h fun _ => hn) fun _ => ss_seq ss_cancel fun _ => ?_
          split
          · exact ⟨hact, hrest⟩
          · split
            · exact ⟨hact, hrest⟩
            · exact ss_seq (ss_sched h hx hal') fun _ => hrest

/-- Only what is provisioned can be released. -/
theorem ss_releasing {f : Unit → Prog Unit} (h : ref ∈ T) (hf : ∀ x, r0 = some x → x.st.r = .start → SymS cid r0 (f ()) (Same T) T) :
    SymS cid r0 ((switchProvision ref .releasing).bind f) (Same T) T := by
  unfold switchProvision
  simp only [bind_eq]
  refine SymS_bind (SymS_bind (SymS_issue h ?_ fun _ => rfl))
  rintro _ r ⟨rfl, x, row, hx, hc, ho, rfl⟩
  simp only [cont_ok]
  split
  · rfl
  · rename_i st hst
    unfold switchP at hst
    split at hst
    · rename_i hmem
      simp only [Option.some.injEq] at hst
      subst hst
      have hal : row.allocated = true := by
        refine ho.prov fun e => ?_
        rw [e] at hmem
        simp [provisionTransitions] at hmem
      refine SymS_bind (SymS_issue ⟨h, x, hx, ?_, ⟨ho.active, ho.alloc, ho.state, ho.life, ho.ended, fun _ => hal⟩⟩ ?_ fun _ => rfl)
      · unfold Core at hc ⊢
        rw [hc]
      · rintro _ r ⟨rfl, rfl⟩
        simp only [cont_ok]
        refine SymS_issue h ?_ fun _ => rfl
        rintro _ r ⟨rfl, rfl⟩
        exact hf x hx (by rw [← hc.r]; exact ho.alloc hal)
    · cases hst

theorem ss_releaseOn (cfg : Cfg) (hd : Hdr) (h : ref ∈ T) : SymS cid r0 (releaseOn cfg hd cid ref) (Same T) T := by
  unfold releaseOn
  simp only [bind_eq]
  refine ss_getObj h fun x row hx hc ho => ss_seq (ss_ofExcept _) fun _ => ?_
  split
  · exact ss_throw _
  · refine ss_releasing h fun x hx hr => ss_seq ss_cancel fun _ => ss_getObj h fun _ row _ _ _ => ?_
    refine ss_seq (ss_when fun _ => ss_try (ss_doTeardown h) fun _ => ss_pure _) fun _ => ss_seq (ss_schedEnd h hx hr) fun _ => ?_
    exact ss_seq (ss_switchProvision h (by simp)) fun _ => ss_tell _

theorem ss_getConnection {α : Type} {f : Nat → Prog α} (hf : ∀ n, SymS cid r0 (f n) (Same (n :: T)) (n :: T)) :
    SymS cid r0 ((getConnection cid).bind f) AnyEnd T := by
  unfold getConnection
  simp only [bind_eq]
  refine SymS_bind (SymS_bind (SymS_issue rfl ?_ fun _ => trivial))
  rintro T' r (⟨_, rfl, rfl⟩ | ⟨n, rfl, rfl⟩)
  · trivial
  · exact ss_any (hf n)

theorem ss_provision (cfg : Cfg) (hd : Hdr) (hcid : ∀ x, r0 = some x → x.cid = cid) :
    SymS cid r0 (Req.prog cfg hd (.provision cid)) AnyEnd T := by
  unfold Req.prog provision
  simp only [bind_eq, bind_assoc]
  exact ss_getConnection fun n => ss_seq (ss_provisionOn cfg hd (by simp) hcid) fun _ => ss_pure _

theorem ss_release (cfg : Cfg) (hd : Hdr) : SymS cid r0 (Req.prog cfg hd (.release cid)) AnyEnd T := by
  unfold Req.prog release
  simp only [bind_eq, bind_assoc]
  exact ss_getConnection fun n => ss_seq (ss_releaseOn cfg hd (by simp)) fun _ => ss_pure _

end
end OpenNSA.Backend
