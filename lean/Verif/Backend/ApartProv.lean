import Verif.Backend.ApartOps
/-
Interleaved execution, at most one operation at a time per connection: provisioning, which starts the activation as a coroutine of its own.
-/
namespace OpenNSA.Backend
open OpenNSA Py Prog

variable {T : Bool} {cfg : Cfg} {x : Ctx} {s : S} {cid : Str} {ref : Nat}

/-- `_doActivate` from the device command on, genericbackend.py:655-697. -/
def actRest (ref : Nat) (row : Row) : Prog Unit :=
  (tryCatch ((issue (.setup row.cid)).bind fun _ => Prog.pure true) fun _ => Prog.pure false).bind fun up =>
  if up then
    tryCatch ((setActive ref true).bind fun _ => (issue .now).bind fun now =>
      (schedEnd row.cid (row.end_.map fun e => if e < now then now else e) ref).bind fun _ => (issue .notifId).bind fun n =>
      issue (.tell (.dataPlane row.cid n true))) fun _ => Prog.pure ()
  else
    (setActive ref false).bind fun _ => (issue .notifId).bind fun n => issue (.tell (.activateFailed row.cid n))

theorem doActivate_eq (ref : Nat) : doActivate ref = (issue (.getObj ref)).bind (actRest ref) := rfl

theorem L_actRest {row : Row} {Q : S → Except Err Unit → Prop} {s : S} (hrc : row.cid = cid) (hc : s.obj.cid = cid) (hb : busy s.tm = false)
    (h : ∀ t up' a tm' out', s.clk ≤ t → Activated cid ref row.end_ s.up up' a s.tm tm' out' t →
      Q { (s.put (s.obj.withA a)) with up := up', tm := tm', out := s.out ++ out', clk := t } (.ok ())) :
    LAll cid ref (actRest ref row) Q s := by
  unfold actRest
  rw [LAll_bind, LAll_tryCatch, LAll_bind, LAll_issue]
  refine ⟨hrc, fun t2 ht2 => ⟨?_, fun b => ?_⟩⟩
  · simp only [cont_ok, LAll, caught_ok, if_true]
    rw [LAll_tryCatch]
    apply L_bind
    apply L_setActive (by exact hc)
    intro t3 ht3
    simp only [cont_ok]
    apply L_now; intro t4 ht4
    rw [hrc]
    apply L_bind
    apply L_schedEnd (by exact hb)
    · intro he
      simp only [cont_ok]
      apply L_notif; intro t5 n ht5
      apply L_tell; intro t6 ht6
      refine h t6 true true s.tm _ (by simp only at *; omega) (Or.inl ⟨rfl, rfl, Or.inl ⟨n, rfl, Or.inl ⟨?_, rfl⟩⟩⟩)
      simpa using he
    · intro e t5 he ht5 hle
      simp only [cont_ok]
      apply L_notif; intro t6 n ht6
      apply L_tell; intro t7 ht7
      simp only [Option.map_eq_some_iff] at he
      obtain ⟨e0, he0, he⟩ := he
      refine h t7 true true _ _ (by simp only at *; omega) (Or.inl ⟨rfl, rfl, Or.inl ⟨n, rfl, Or.inr ⟨e0, _, he0, ?_, ?_, rfl⟩⟩⟩)
      · split at he <;> omega
      · simp only at *; split at he <;> omega
    · intro e t5 he ht5 hlt
      simp only [cont_error, caught_error, LAll]
      have := h t5 true true s.tm [] (by simp only at *; omega) (Or.inl ⟨rfl, rfl, Or.inr ⟨rfl, rfl, ?_⟩⟩)
      · simpa using this
      · simp only [Option.map_eq_some_iff] at he
        obtain ⟨e0, he0, he⟩ := he
        refine ⟨e0, he0, ?_⟩
        split at he <;> omega
  · simp only [cont_error, LAll, caught_error, cont_ok]
    rw [if_neg (by simp)]
    apply L_bind
    apply L_setActive (by exact hc)
    intro t3 ht3
    apply L_notif; intro t4 n ht4
    apply L_tell; intro t5 ht5
    rw [hrc]
    refine h t5 (b || s.up) false s.tm _ (by simp only at *; omega) (Or.inr ⟨rfl, ?_, rfl, n, rfl⟩)
    intro hu; simp [hu]

theorem pl_actRest {rm : Bool} (ref : Nat) (row : Row) : Plain cid rm (actRest ref row) := by
  have h1 : ∀ c e, Plain cid rm (schedEnd c e ref) := fun c e => pl_schedEnd c e ref
  have h2 : ∀ b, Plain cid rm (setActive ref b) := fun b => pl_setActive ref b
  unfold actRest
  repeat' first
    | exact h1 _ _
    | exact h2 _
    | exact trivial
    | exact pl_issue trivial
    | (refine pl_tell ?_; intro _ _ _ _ _ _; simp; done)
    | (refine pl_bind ?_ fun _ => ?_)
    | (refine pl_tryCatch ?_ fun _ => ?_)
    | split

theorem quick_bind {α β : Type} {p : Prog α} {f : α → Prog β} (hp : Quick p) (hf : ∀ a, Quick (f a)) : Quick (p.bind f) := by
  induction p with
  | pure a => exact hf a
  | throw e => trivial
  | cmd c k ih => exact ⟨hp.1, fun r => ih r (hp.2 r) hf⟩
  | spawn p k _ _ => exact hp.elim

theorem quick_issue {β : Type} {c : Cmd β} (h : c.isAsync = false) : Quick (issue c) := ⟨h, fun r => by cases r <;> trivial⟩

theorem quick_tryCatch {α : Type} {p : Prog α} {f : Err → Prog α} (hp : Quick p) (hf : ∀ e, Quick (f e)) : Quick (tryCatch p f) := by
  induction p with
  | pure a => trivial
  | throw e => exact hf e
  | cmd c k ih => exact ⟨hp.1, fun r => ih r (hp.2 r) hf⟩
  | spawn p k _ _ => exact hp.elim

theorem shape_bind {α β : Type} {p : Prog α} {f : α → Prog β} (hp : Shape p) (hf : ∀ a, Quick (f a)) (hq : ∀ {γ : Type} {g : Prog γ}, Quick g → Shape g) : Shape (p.bind f) := by
  induction p with
  | pure a => exact hq (hf a)
  | throw e => trivial
  | cmd c k ih => cases c <;> first | exact fun r => quick_bind (hp r) hf | exact fun r => ih r (hp r) hf
  | spawn p k _ _ => exact hp.elim

theorem Quick.shape {α : Type} {p : Prog α} (hp : Quick p) : Shape p := by
  induction p with
  | pure a => trivial
  | throw e => trivial
  | cmd c k ih => cases c <;> first | exact fun r => ih r (hp.2 r) | exact absurd hp.1 (by simp [Cmd.isAsync])
  | spawn p k _ _ => exact hp.elim

theorem shape_tryCatch {α : Type} {p : Prog α} {f : Err → Prog α} (hp : Shape p) (hf : ∀ e, Quick (f e)) : Shape (tryCatch p f) := by
  induction p with
  | pure a => trivial
  | throw e => exact (hf e).shape
  | cmd c k ih => cases c <;> first | exact fun r => quick_tryCatch (hp r) hf | exact fun r => ih r (hp r) hf
  | spawn p k _ _ => exact hp.elim

theorem shape_setActive (ref : Nat) (b : Bool) : Shape (setActive ref b) := by
  unfold setActive
  intro r
  cases r with
  | error e => trivial
  | ok row =>
    intro r
    cases r with
    | error e => trivial
    | ok u => intro r; cases r <;> trivial

theorem quick_schedEnd (c : Str) (e : Option Time) (ref : Nat) : Quick (schedEnd c e ref) := by
  unfold schedEnd; split
  · trivial
  · exact quick_issue rfl

theorem shape_actRest (ref : Nat) (row : Row) : Shape (actRest ref row) := by
  unfold actRest
  intro r
  have h1 : Shape (tryCatch ((setActive ref true).bind fun _ => (issue .now).bind fun now =>
      (schedEnd row.cid (row.end_.map fun e => if e < now then now else e) ref).bind fun _ => (issue .notifId).bind fun n =>
      issue (.tell (.dataPlane row.cid n true))) fun _ => Prog.pure ()) :=
    shape_tryCatch (shape_bind (shape_setActive _ _) (fun _ => quick_bind (quick_issue rfl) fun _ => quick_bind (quick_schedEnd _ _ _) fun _ =>
      quick_bind (quick_issue rfl) fun _ => quick_issue rfl) Quick.shape) fun _ => trivial
  have h2 : Shape ((setActive ref false).bind fun _ => (issue .notifId).bind fun n => issue (.tell (.activateFailed row.cid n))) :=
    shape_bind (shape_setActive _ _) (fun _ => quick_bind (quick_issue rfl) fun _ => quick_issue rfl) Quick.shape
  cases r with
  | ok _ => exact h1
  | error e => exact h2

/-- `provision` from the confirmation on, genericbackend.py:443-446. -/
def provRest (cid : Str) (ref : Nat) : Prog (Option Str) :=
  ((switchProvision ref .provisioned).bind fun _ => issue (.tell (.provisionConfirmed cid))).bind fun _ => Prog.pure none

theorem R1_provisionOn {hd : Hdr} {D : S → Prop} {Q : S → Except Err (Option Str) → Prop} (hc : s.obj.cid = cid)
    (h0 : ∀ t e, s.clk ≤ t → ProvRefused cfg hd s.obj t e → Q (s.at t) (.error e))
    (h1 : ∀ now t up' a tm' out', s.clk ≤ now → now ≤ t → ProvOk cfg hd s.obj now → (∀ x, s.obj.start = some x → x ≤ now) →
      Activated cid ref s.obj.end_ s.up up' a none tm' out' t →
      D { (s.put ((s.obj.withP .provisioned).withA a)) with up := up', tm := tm', out := s.out ++ out', clk := t })
    (h2 : ∀ now t due x, s.clk ≤ now → now ≤ t → ProvOk cfg hd s.obj now → s.obj.start = some x → now < x → x ≤ due →
      (due ≤ x ∨ due ≤ t) →
      Q { (s.put (s.obj.withP .provisioned)) with
          tm := some ⟨due, .activate, ref, false⟩, out := s.out ++ [.provisionConfirmed cid], clk := t } (.ok none))
    (h3 : ∀ now t x, s.clk ≤ now → now ≤ t → ProvOk cfg hd s.obj now → s.obj.start = some x → now < x → x + second < t →
      Q { (s.put (s.obj.withP .provisioning)) with tm := none, clk := t } (.error .assertion)) :
    R1 cid ref none D ((provisionOn cfg hd cid ref).bind fun _ => Prog.pure none) Q s := by
  unfold provisionOn
  refine ⟨trivial, rfl, fun t1 ht1 => ?_⟩
  cases ha : authorize cfg hd s.obj.srcPort s.obj.dstPort with
  | error e =>
    show R1 cid ref none D (((ofExcept (authorize cfg hd s.obj.srcPort s.obj.dstPort)).bind _).bind _) Q _
    rw [ha]
    exact h0 t1 e ht1 (Or.inl ha)
  | ok _ =>
    show R1 cid ref none D (((ofExcept (authorize cfg hd s.obj.srcPort s.obj.dstPort)).bind fun _ => _).bind _) Q _
    rw [ha]
    show R1 cid ref none D (Prog.bind (if ¬ s.obj.allocated = true then _ else _) _) Q _
    by_cases hal : s.obj.allocated = true
    · rw [if_neg (by simp [hal])]
      by_cases hg : isGone s.obj = true
      · rw [if_pos hg]; exact h0 t1 .gone ht1 (Or.inr (Or.inr (Or.inl ⟨hg, rfl⟩)))
      · rw [if_neg hg]
        by_cases hr : s.obj.st.r = .start
        · rw [if_neg (by simp [hr])]
          refine ⟨trivial, fun t2 ht2 => ?_⟩
          show R1 cid ref none D (Prog.bind (if ended s.obj.end_ t2 = true then _ else _) _) Q _
          by_cases he : ended s.obj.end_ t2 = true
          · rw [if_pos he]
            refine h0 t2 .gone (by simp only at *; omega) (Or.inr (Or.inr (Or.inr (Or.inr (Or.inl ?_)))))
            cases hx : s.obj.end_ with
            | none => rw [hx] at he; simp [ended] at he
            | some x => rw [hx] at he; exact ⟨x, rfl, by simpa [ended] using he, rfl⟩
          · rw [if_neg he]
            have hend : ∀ x, s.obj.end_ = some x → t2 < x := by
              intro x hx; rw [hx] at he; simp [ended] at he; omega
            simp only [bind_eq, bind_assoc]
            apply R1_bind
            refine R0_of_plain (pl_switchProvision _ _) ?_ hc
            apply L_switchProvision (by exact hc)
            · intro hp t3 ht3
              have hp' : s.obj.st.p = .released ∨ s.obj.st.p = .provisioning := by
                revert hp; simp only; cases s.obj.st.p <;> decide
              have hok : ProvOk cfg hd s.obj t2 := ⟨ha, hal, by simpa using hg, hr, hp', hend⟩
              simp only [cont_ok]
              refine ⟨trivial, rfl, fun t4 ht4 => ?_⟩
              have spawned : (∀ x, s.obj.start = some x → x ≤ t2) →
                  R1 cid ref none D ((doActivate ref).spawn (provRest cid ref)) Q
                  { (s.put (s.obj.withP .provisioning)) with tm := none, clk := t4 } := by
                intro hst
                refine ⟨rfl, Or.inr ?_⟩
                rw [doActivate_eq]
                refine ⟨trivial, rfl, fun t5 ht5 => ?_⟩
                show Head cid ref (actRest ref (s.obj.withP .provisioning)) _ _
                show Head cid ref (provRest cid ref) (fun b s2 => Lone cid ref D (actRest ref (s.obj.withP .provisioning)) s2 ∧ SaveTail ref b) _
                refine ⟨trivial, rfl, fun t6 ht6 => ?_⟩
                refine ⟨trivial, rfl, hc, fun t7 ht7 => ?_⟩
                refine ⟨⟨shape_actRest _ _, fun ρ => ?_⟩, rfl, ?_⟩
                · refine R0_of_plain (pl_actRest _ _) ?_ (by exact hc)
                  refine L_actRest (by exact hc) (by exact hc) (by rfl) ?_
                  intro t8 up' a tm' out' ht8 hact
                  refine ⟨rfl, ?_⟩
                  exact h1 t2 t8 up' a tm' out' (by simp only [S.at] at *; omega) (by simp only [S.at] at *; omega) hok hst hact
                · intro r
                  cases r with
                  | error e => trivial
                  | ok _ =>
                    refine ⟨by intro a b c d e f; simp, fun r => ?_⟩
                    cases r <;> trivial
              cases hst : s.obj.start with
              | none =>
                exact spawned (by simp [hst])
              | some x =>
                show R1 cid ref none D (Prog.bind (if x ≤ t2 then _ else _) _) Q _
                by_cases hx : x ≤ t2
                · rw [if_pos hx]; exact spawned (by intro y hy; rw [hst] at hy; simp at hy; omega)
                · rw [if_neg hx]
                  apply R1_of_R0
                  refine R0_of_plain ?_ ?_ (by exact hc)
                  · refine pl_bind (pl_bind (pl_issue trivial) fun _ => pl_bind (pl_switchProvision _ _) fun _ => ?_) fun _ => trivial
                    refine pl_tell ?_
                    intro _ _ _ _ _ _; simp
                  simp only [bind_assoc]
                  apply L_bind
                  apply L_sched rfl
                  · intro t5 ht5 _
                    simp only [cont_ok]
                    apply L_bind
                    apply L_switchProvision (by exact hc)
                    · intro _ t6 ht6
                      simp only [cont_ok]
                      apply L_bind
                      apply L_tell; intro t7 ht7
                      have := h2 t2 t7 (max x t5) x (by simp only [S.at] at *; omega) (by simp only [S.at] at *; omega) hok hst (by omega)
                        (by omega) (by simp only [S.at] at *; omega)
                      simpa [Row.withP, LAll] using this
                    · intro hx; exact absurd (by simp [Row.withP, provisionTransitions]) hx
                  · intro t5 ht5 hlt
                    simp only [cont_error]
                    exact h3 t2 t5 x (by simp only [S.at] at *; omega) (by simp only [S.at] at *; omega) hok hst (by omega) hlt
            · intro hp t3 ht3
              simp only [cont_error]
              refine h0 t3 .internal (by simp only at *; omega) (Or.inr (Or.inr (Or.inr (Or.inr (Or.inr ⟨by simpa using hg, ?_, ?_, rfl⟩)))))
              · intro e; exact hp (by simp only; rw [e]; decide)
              · intro e; exact hp (by simp only; rw [e]; decide)
        · rw [if_pos hr]; exact h0 t1 _ ht1 (Or.inr (Or.inr (Or.inr (Or.inl ⟨by simpa using hg, hr, rfl⟩))))
    · rw [if_pos hal]
      exact h0 t1 _ ht1 (Or.inr (Or.inl ⟨by simpa using hal, rfl⟩))

theorem provision_ends {hd : Hdr} (h : StartAt T cfg x s) (hk : x.kind = .provision) :
    R1 x.cid x.ref none (fun s' => ∀ a, Ends T cfg x s' a) ((provisionOn cfg hd x.cid x.ref).bind fun _ => Prog.pure none) (fun s' r => Ends T cfg x s' r) s := by
  have hs := h.start
  have refused : ∀ {s' : S} {e : Err}, Rested T cfg x s' → Ends T cfg x s' (.error e) := by
    intro s' e hset _
    exact ⟨hset, by unfold Effect; rw [hk]; exact fun _ => ⟨e, rfl⟩⟩
  have ends : ∀ {s' : S} {a : Except Err (Option Str)} {now : Time}, ProvOk cfg hd s.row now → Rested T cfg x s' → Ends T cfg x s' a := by
    intro s' a now hok hset _
    refine ⟨hset, ?_⟩
    unfold Effect
    rw [hk, h.s0]
    intro hg
    rw [hok.gone] at hg
    cases hg
  have hcre : ∀ now, s.clk ≤ now → ProvOk cfg hd s.row now → s.row.st.l = .created ∧ s.row.active = false := by
    intro now hnow hok
    have hl : s.row.st.l = .created := by
      rcases hs.ok.lc with h1 | h1 | h1
      · exact h1
      · obtain ⟨e, h2, h3, _⟩ := hs.ok.ended h1
        have := hok.end_ e h2; omega
      · have := hok.gone; simp [isGone, h1] at this
    refine ⟨hl, ?_⟩
    cases ha : s.row.active with
    | false => rfl
    | true =>
      have := (hs.ok.act ha).2.1
      rcases hok.p with h1 | h1 <;> rw [h1] at this <;> exact absurd this (by simp)
  apply R1_provisionOn h.ocid
  · intro t e ht _
    exact refused (settle h (hs.same (h.exp (by rw [hk]; rfl)) ht) h.ok (fun _ _ => ⟨rfl, by rw [hk]; rfl⟩) fun hT _ => due_same h rfl rfl ht hT (by rw [hk]; rfl))
  · rw [hs.obj, hs.out]
    intro now t up' a tm' out' h1 h2 hok hst hactd b
    obtain ⟨hl, hna⟩ := hcre now h1 hok
    refine ends hok (settle h ?_ (okRow_prov h.ok hok.alloc _ _) (fun _ hr => absurd (hok.r.symm.trans hr) (by simp)) fun hT hon => ?_)
    · simp only [List.nil_append]
      refine good_prov hs (by omega) hok.alloc (fun _ => ⟨hl, rfl, fun x hx => by have := hst x hx; omega⟩) ?_ ?_ hactd.noConf ?_
      · exact hactd.timer rfl hok.r (by simp)
      · have := Activated.linkOk (row' := (s.row.withP .provisioned).withA a) (by rw [← h.cid] at hactd; exact hactd) rfl x.out0 []
        rwa [List.append_nil] at this
      · intro _; exact Or.inr ⟨hok.alloc, rfl, hl, fun x hx => by have := hst x hx; omega⟩
    · have hon := hon hl
      refine ⟨fun _ => Or.inr rfl, fun _ _ hp => ?_, fun _ _ ha => ?_⟩
      · have ha : a = true := by
          rcases hp with hp | hp
          · exact absurd hp (by simp)
          · exact hp
        exact EndCall.due (hactd.endCall ha) (fun e he => hon.ends (by simp [hk]) e he)
      · have ha : a = false := ha
        rcases hactd with ⟨h3, _⟩ | ⟨_, _, _, n, h3⟩
        · rw [h3] at ha; exact absurd ha (by simp)
        · refine Or.inr ⟨n, List.mem_append_right _ ?_⟩
          rw [h3, ← h.cid]; simp
  · rw [hs.obj, hs.out]
    intro now t due y h1 h2 hok hst hlt hdue hdue2
    obtain ⟨hl, hna⟩ := hcre now h1 hok
    have hrow : ((s.row.withP .provisioned).withA false) = s.row.withP .provisioned := withA_self (r := s.row.withP .provisioned) (by simpa using hna)
    refine ends hok (settle h ?_ ?_ (fun _ hr => absurd (hok.r.symm.trans hr) (by simp)) fun hT hon => ?_)
    · have := good_prov hs (t := t) (p := .provisioned) (a := false) (up' := s.up)
        (tm' := some ⟨due, .activate, x.ref, false⟩) (out' := [.provisionConfirmed x.cid]) (by omega) hok.alloc
        (fun h => absurd h (by simp)) ?_ ?_ (by simp [NoConf]) Or.inl
      · rw [hrow] at this
        exact this
      · intro tm h3 _; simp at h3; subst h3
        exact ⟨⟨hok.r, rfl, hl, rfl, y, hst, hdue⟩, rfl⟩
      · have := hs.link.mono (o' := [.provisionConfirmed x.cid])
        refine ⟨fun x => absurd x (by simp), fun x => ?_⟩
        rcases this.2 x with h3 | h3
        · rw [hna] at h3; exact absurd h3 (by simp)
        · exact Or.inr h3
    · have := okRow_prov h.ok hok.alloc .provisioned false
      rwa [hrow] at this
    · refine ⟨fun _ => Or.inr rfl, fun _ _ hp => ?_, fun _ _ ha => ?_⟩
      · rcases hp with hp | hp
        · exact absurd hp (by simp)
        · rw [show s.row.active = true from hp] at hna; exact absurd hna (by simp)
      · exact Or.inl ⟨y, due, x.ref, hst, hdue, hdue2, rfl⟩
  · rw [hs.obj]
    intro now t y h1 h2 hok hst hlt hlate
    obtain ⟨hl, hna⟩ := hcre now h1 hok
    have hrow : ((s.row.withP .provisioning).withA false) = s.row.withP .provisioning := withA_self (r := s.row.withP .provisioning) (by simpa using hna)
    refine ends hok (settle h ?_ ?_ (fun _ hr => absurd (hok.r.symm.trans hr) (by simp)) fun hT hon => ?_)
    · have := good_prov hs (t := t) (p := .provisioning) (a := false) (up' := s.up)
        (tm' := none) (out' := []) (by omega) hok.alloc (fun h => absurd h (by simp)) noTimer ?_ (by simp [NoConf]) Or.inl
      · rw [hrow, ← hs.out] at this
        exact this
      · refine ⟨fun x => absurd x (by simp), fun x => ?_⟩
        rcases hs.link.2 x with h3 | h3
        · rw [hna] at h3; exact absurd h3 (by simp)
        · exact Or.inr (by simpa using h3)
    · have := okRow_prov h.ok hok.alloc .provisioning false
      rwa [hrow] at this
    · have := (hon hl).starts hk y hst (by have := h.began; omega)
      simp only at this
      omega

end OpenNSA.Backend
