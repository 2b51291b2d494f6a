import Verif.Backend.InvOps
/-
Provision, release, terminate and the scheduled calls preserve the invariant.
-/
namespace OpenNSA.Backend
open OpenNSA Py Prog

section
variable {cfg : Cfg} {w : World} {ref : Nat} {row0 : Row} {out0 : List Msg} {rest : List Resv} {s : S}

/-- The message is no confirmation of a reservation. -/
abbrev NoConf (out : List Msg) : Prop := ∀ m ∈ out, ∀ a b c d e f, m ≠ Msg.reserveConfirmed a b c d e f

theorem NoConf.append {a b : List Msg} (ha : NoConf a) (hb : NoConf b) : NoConf (a ++ b) := by
  intro m hm
  rcases List.mem_append.mp hm with h | h
  · exact ha m h
  · exact hb m h

theorem Activated.noConf {cid : Str} {t : Time} {end_ : Option Time} {up up' a : Bool} {tm tm' : Option Timer} {out' : List Msg}
    (h : Activated cid ref end_ up up' a tm tm' out' t) : NoConf out' := by
  rcases h with ⟨_, _, ⟨n, h, _⟩ | ⟨h, _⟩⟩ | ⟨_, _, _, n, h⟩ <;> rw [h] <;> simp [NoConf]

theorem Activated.linkOk {t : Time} {end_ : Option Time} {up up' a : Bool} {tm tm' : Option Timer} {out' : List Msg} {row' : Row}
    (h : Activated row'.cid ref end_ up up' a tm tm' out' t) (ha : row'.active = a) (o1 o2 : List Msg) :
    LinkOk row' up' (o1 ++ (out' ++ o2)) := by
  rcases h with ⟨h1, h2, _⟩ | ⟨h1, _, _, n, h⟩
  · exact ⟨fun _ => h2, fun _ => Or.inl (by rw [ha, h1])⟩
  · refine ⟨fun x => by rw [ha, h1] at x; exact absurd x (by simp), fun _ => Or.inr ⟨n, Or.inl ?_⟩⟩
    rw [h]; simp

theorem Activated.timer {cid : Str} {t : Time} {end_ : Option Time} {up up' a : Bool} {tm tm' : Option Timer} {out' : List Msg} {row' : Row}
    (h : Activated cid ref end_ up up' a tm tm' out' t) (he : row'.end_ = end_) (hr : row'.st.r = .start)
    (htm : ∀ x, tm = some x → x.called = true) :
    ∀ tm, tm' = some tm → tm.called = false → TimerOk row' tm ∧ tm.ref = ref := by
  intro x h1 h2
  have old : tm' = tm → TimerOk row' x ∧ x.ref = ref := by
    intro e; rw [e] at h1; have := htm x h1; rw [h2] at this; exact absurd this (by simp)
  rcases h with ⟨_, _, ⟨n, _, ⟨_, h⟩ | ⟨e, due, h3, h4, _, h5⟩⟩ | ⟨_, h, _⟩⟩ | ⟨_, _, h, _⟩
  · exact old h
  · rw [h5] at h1; simp at h1; subst h1
    exact ⟨⟨hr, e, by rw [he]; exact h3, h4⟩, rfl⟩
  · exact old h
  · exact old h

theorem holds_congr {a b : Row} (h1 : a.st.l = b.st.l) (h2 : a.st.r = b.st.r) (h3 : a.allocated = b.allocated) :
    a.holds = b.holds := by unfold Row.holds; rw [h1, h2, h3]

theorem ents_congr {a b : Row} (h1 : a.st.l = b.st.l) (h2 : a.st.r = b.st.r) (h3 : a.allocated = b.allocated)
    (h4 : srcResv cfg a = srcResv cfg b) (h5 : dstResv cfg a = dstResv cfg b) : ents cfg a = ents cfg b := by
  unfold ents; rw [holds_congr h1 h2 h3, h4, h5]

/-- Changes of provision state and activity of a created connection keep its claim. -/
theorem good_prov (hs : Start cfg w ref row0 out0 rest s) {t : Time} {p : PState} {a up' : Bool} {tm' : Option Timer}
    {out' : List Msg} (ht : s.clk ≤ t) (hal : row0.allocated = true)
    (hact : a = true → row0.st.l = .created ∧ p = .provisioned ∧ ∀ s, row0.start = some s → s ≤ t)
    (htm : ∀ tm, tm' = some tm → tm.called = false → TimerOk ((row0.withP p).withA a) tm ∧ tm.ref = ref)
    (hlink : LinkOk ((row0.withP p).withA a) up' (out0 ++ out')) (hout : NoConf out')
    (hup : up' = true → s.up = true ∨ SetUpOk t ((row0.withP p).withA a)) :
    GoodL cfg w ref row0 s out0 rest
      { (s.put ((row0.withP p).withA a)) with up := up', tm := tm', out := out', clk := t } := by
  have hok := hs.ok.mono ht
  have hr : row0.st.r = .start := by
    rcases hok.rs with h | h | h
    · exact h
    · rw [h.2] at hal; exact absurd hal (by simp)
    · rw [h.2.2] at hal; exact absurd hal (by simp)
  refine hs.change ?_ htm hlink ?_ ?_ ?_ hout hup ht
    ⟨⟨rfl, rfl, rfl, rfl, rfl, rfl, rfl, rfl, rfl⟩, id, id, fun a b => ⟨a, b⟩, id⟩
  · exact { hok with pv := fun _ => hal, act := hact }
  · rw [ents_congr (a := (row0.withP p).withA a) (b := row0) rfl rfl rfl rfl rfl]; exact hs.cal
  · rintro (h | h)
    · exact hs.nc (Or.inl (by rw [← h]; exact holds_congr rfl rfl rfl))
    · exact hs.nc (Or.inr h)
  · intro _ h; rw [show row0.st.r = .held from h] at hr; exact absurd hr (by simp)

/-! ### Provision -/

theorem Activated.endCall {cid : Str} {t : Time} {end_ : Option Time} {up up' a : Bool} {tm tm' : Option Timer} {out' : List Msg}
    (h : Activated cid ref end_ up up' a tm tm' out' t) (ha : a = true) : EndCall end_ tm' t := by
  intro e he
  rcases h with ⟨_, _, ⟨n, _, ⟨h, _⟩ | ⟨e', due, h1, h2, h3, h4⟩⟩ | ⟨_, _, e', h1, h2⟩⟩ | ⟨h, _⟩
  · rw [h] at he; exact absurd he (by simp)
  · rw [h1] at he; simp at he; subst he; exact Or.inl ⟨due, ref, h4, h2, h3⟩
  · rw [h1] at he; simp at he; subst he; exact Or.inr h2
  · rw [h] at ha; exact absurd ha (by simp)

/-- Results of a provision request that was not refused. -/
def Provisioned (cfg : Cfg) (h : Hdr) (cid : Str) (row0 : Row) (s s' : S) (r : Except Err Unit) : Prop :=
  ∃ now, s.clk ≤ now ∧ now ≤ s'.clk ∧ ProvOk cfg h row0 now ∧
    -- started: the link was set up now
    ((r = .ok () ∧ (∀ x, row0.start = some x → x ≤ now) ∧ ∃ a, s'.row = (row0.withP .provisioned).withA a ∧
        (a = true → s'.up = true ∧ EndCall row0.end_ s'.tm s'.clk) ∧ (a = false → ∃ n, Msg.activateFailed cid n ∈ s'.out)) ∨
    -- not started yet: the activation is scheduled
    (r = .ok () ∧ s'.row = row0.withP .provisioned ∧ s'.up = s.up ∧ ∃ x due ref, row0.start = some x ∧ x ≤ due ∧
        (due ≤ x ∨ due ≤ s'.clk) ∧ s'.tm = some ⟨due, .activate, ref, false⟩) ∨
    -- the start time passed while the request was processed
    (r = .error .assertion ∧ s'.row = row0.withP .provisioning ∧ s'.up = s.up ∧
        ∃ x, row0.start = some x ∧ now < x ∧ x + second < s'.clk))

theorem provision_good {h : Hdr} (hs : Start cfg w ref row0 out0 rest s) (he : Expires s.clk row0 s.tm out0) :
    LAll row0.cid ref (provisionOn cfg h row0.cid ref) (fun s' r => GoodL cfg w ref row0 s out0 rest s' ∧
      (Refused s s' r (ProvRefused cfg h row0 s'.clk) ∨ Provisioned cfg h row0.cid row0 s s' r)) s := by
  have hc : s.obj.cid = row0.cid := by rw [hs.obj]
  -- facts about a row that may be provisioned
  have hcre : ∀ now, s.clk ≤ now → ProvOk cfg h row0 now → row0.st.l = .created ∧ row0.active = false := by
    intro now hnow hok
    have hl : row0.st.l = .created := by
      rcases hs.ok.lc with h1 | h1 | h1
      · exact h1
      · obtain ⟨e, h2, h3, _⟩ := hs.ok.ended h1
        have := hok.end_ e h2; omega
      · have := hok.gone; simp [isGone, h1] at this
    refine ⟨hl, ?_⟩
    cases ha : row0.active with
    | false => rfl
    | true =>
      have := (hs.ok.act ha).2.1
      rcases hok.p with h1 | h1 <;> rw [h1] at this <;> exact absurd this (by simp)
  apply L_provisionOn hc
  · intro t e ht hwhy
    rw [hs.obj] at hwhy
    exact ⟨hs.same he ht, Or.inl ⟨rfl, rfl, rfl, rfl, rfl, e, rfl, hwhy⟩⟩
  · rw [hs.obj, hs.out]
    intro now t up' a tm' out' h1 h2 hok hst hactd
    obtain ⟨hl, hna⟩ := hcre now h1 hok
    refine ⟨?_, Or.inr ⟨now, h1, h2, hok, Or.inl ⟨rfl, hst, a, rfl, ?_, ?_⟩⟩⟩
    · simp only [List.nil_append]
      refine good_prov hs (by omega) hok.alloc (fun _ => ⟨hl, rfl, fun x hx => by have := hst x hx; omega⟩) ?_ ?_
        (hactd.noConf.append (by simp [NoConf])) ?_
      · exact hactd.timer rfl hok.r (by simp)
      · exact Activated.linkOk (row' := (row0.withP .provisioned).withA a) hactd rfl _ _
      · intro _; exact Or.inr ⟨hok.alloc, rfl, hl, fun x hx => by have := hst x hx; omega⟩
    · have hec := hactd.endCall
      rcases hactd with ⟨_, h3, _⟩ | ⟨h3, _⟩
      · intro ha; exact ⟨h3, hec ha⟩
      · rw [h3]; intro x; exact absurd x (by simp)
    · rcases hactd with ⟨h3, _⟩ | ⟨_, _, _, n, h3⟩
      · rw [h3]; intro x; exact absurd x (by simp)
      · intro _; exact ⟨n, by rw [h3]; simp⟩
  · rw [hs.obj, hs.out]
    intro now t due x h1 h2 hok hst hlt hdue hdue2
    obtain ⟨hl, hna⟩ := hcre now h1 hok
    refine ⟨?_, Or.inr ⟨now, h1, h2, hok, Or.inr (Or.inl ⟨rfl, rfl, rfl, x, due, ref, hst, hdue, hdue2, rfl⟩)⟩⟩
    have := good_prov hs (t := t) (p := .provisioned) (a := false) (up' := s.up)
      (tm' := some ⟨due, .activate, ref, false⟩) (out' := [.provisionConfirmed row0.cid]) (by omega) hok.alloc
      (fun h => absurd h (by simp)) ?_ ?_ (by simp [NoConf]) Or.inl
    · rw [withA_self (r := row0.withP .provisioned) (by simpa using hna)] at this
      exact this
    · intro tm h3 _; simp at h3; subst h3
      exact ⟨⟨hok.r, rfl, hl, rfl, x, hst, hdue⟩, rfl⟩
    · have := hs.link.mono (o' := [.provisionConfirmed row0.cid])
      refine ⟨fun x => absurd x (by simp), fun x => ?_⟩
      rcases this.2 x with h3 | h3
      · rw [hna] at h3; exact absurd h3 (by simp)
      · exact Or.inr h3
  · rw [hs.obj]
    intro now t x h1 h2 hok hst hlt hlate
    obtain ⟨hl, hna⟩ := hcre now h1 hok
    refine ⟨?_, Or.inr ⟨now, h1, h2, hok, Or.inr (Or.inr ⟨rfl, rfl, rfl, x, hst, hlt, hlate⟩)⟩⟩
    have := good_prov hs (t := t) (p := .provisioning) (a := false) (up' := s.up)
      (tm' := none) (out' := []) (by omega) hok.alloc (fun h => absurd h (by simp)) noTimer ?_ (by simp [NoConf]) Or.inl
    · rw [withA_self (r := row0.withP .provisioning) (by simpa using hna), ← hs.out] at this
      exact this
    · refine ⟨fun x => absurd x (by simp), fun x => ?_⟩
      rcases hs.link.2 x with h3 | h3
      · rw [hna] at h3; exact absurd h3 (by simp)
      · exact Or.inr (by simpa using h3)

/-! ### Release -/

theorem RelDown.noConf {cid : Str} {act up up' : Bool} {out' : List Msg} (h : RelDown cid act up up' out') : NoConf out' := by
  rcases h with ⟨_, _, h⟩ | ⟨_, m, h, h'⟩
  · rw [h]; simp [NoConf]
  · rw [h']
    rcases h with ⟨_, n, h⟩ | ⟨_, n, h⟩ <;> rw [h] <;> simp [NoConf]

/-- After the teardown the link is down, or was not this connection's, or the failure is reported. -/
theorem RelDown.link {row0 row' : Row} {up up' : Bool} {out' : List Msg} (h : RelDown row0.cid row0.active up up' out')
    (hcid : row'.cid = row0.cid) (ha : row'.active = false) (hl : LinkOk row0 up out0) (o : List Msg) :
    LinkOk row' up' (out0 ++ (out' ++ o)) := by
  refine ⟨fun x => by rw [ha] at x; exact absurd x (by simp), fun x => Or.inr ?_⟩
  rw [hcid]
  rcases h with ⟨h1, h2, h3⟩ | ⟨_, m, h, h'⟩
  · rcases hl.2 (by rw [← h2]; exact x) with h4 | h4
    · rw [h1] at h4; exact absurd h4 (by simp)
    · exact h4.mono
  · rcases h with ⟨h, _⟩ | ⟨_, n, h⟩
    · rw [h] at x; exact absurd x (by simp)
    · exact ⟨n, Or.inr (by rw [h', h]; simp)⟩

theorem RelDown.newUp {cid : Str} {act up up' : Bool} {out' : List Msg} (h : RelDown cid act up up' out') :
    up' = true → up = true := by
  rcases h with ⟨_, h, _⟩ | ⟨_, m, h, _⟩
  · rw [h]; exact id
  · rcases h with ⟨h, _⟩ | ⟨h, _⟩
    · rw [h]; intro x; exact absurd x (by simp)
    · exact h

/-- Results of a release request that was not refused. -/
def Released (cid : Str) (row0 : Row) (s s' : S) (r : Except Err Unit) : Prop :=
  isGone row0 = false ∧ (row0.st.p = .provisioned ∨ row0.st.p = .releasing) ∧
    (row0.active = true → s'.up = true → ∃ n, Msg.deactivateFailed cid n ∈ s'.out) ∧ (s'.up = true → s.up = true) ∧
    ((r = .ok () ∧ s'.row = (row0.withP .released).withA false ∧ EndCall row0.end_ s'.tm s'.clk) ∨
      (r = .error .assertion ∧ s'.row = (row0.withP .releasing).withA false ∧ ∃ e, row0.end_ = some e ∧ e + second < s'.clk))

theorem release_good {h : Hdr} (hs : Start cfg w ref row0 out0 rest s) (he : Expires s.clk row0 s.tm out0) :
    LAll row0.cid ref (releaseOn cfg h row0.cid ref) (fun s' r => GoodL cfg w ref row0 s out0 rest s' ∧
      (Refused s s' r (fun e => authorize cfg h row0.srcPort row0.dstPort = .error e ∨ (isGone row0 = true ∧ e = .gone) ∨
          (isGone row0 = false ∧ row0.st.p ≠ .provisioned ∧ row0.st.p ≠ .releasing ∧ e = .internal)) ∨
        Released row0.cid row0 s s' r)) s := by
  have hc : s.obj.cid = row0.cid := by rw [hs.obj]
  have hall : row0.st.p = .provisioned ∨ row0.st.p = .releasing → row0.allocated = true := by
    intro hp; apply hs.ok.pv; rcases hp with h1 | h1 <;> rw [h1] <;> simp
  have hrep : ∀ up' out' (o : List Msg), RelDown row0.cid row0.active s.up up' out' → row0.active = true → up' = true →
      ∃ n, Msg.deactivateFailed row0.cid n ∈ out' ++ o := by
    intro up' out' o hd ha hu
    rcases hd with ⟨h1, _⟩ | ⟨_, m, h, h'⟩
    · rw [h1] at ha; exact absurd ha (by simp)
    · rcases h with ⟨h, _⟩ | ⟨_, n, h⟩
      · rw [h] at hu; exact absurd hu (by simp)
      · exact ⟨n, by rw [h', h]; simp⟩
  have hr : row0.allocated = true → row0.st.r = .start := by
    intro hal
    rcases hs.ok.rs with h | h | h
    · exact h
    · rw [h.2] at hal; exact absurd hal (by simp)
    · rw [h.2.2] at hal; exact absurd hal (by simp)
  apply L_releaseOn hc
  · intro t e ht hwhy
    rw [hs.obj] at hwhy
    exact ⟨hs.same he ht, Or.inl ⟨rfl, rfl, rfl, rfl, rfl, e, rfl, hwhy⟩⟩
  · rw [hs.obj, hs.out]
    intro _ hg hp t up' tm' out' ht hd htm hec
    refine ⟨?_, Or.inr ⟨hg, hp, ?_, hd.newUp, Or.inl ⟨rfl, rfl, hec⟩⟩⟩
    · simp only [List.nil_append]
      exact good_prov hs ht (hall hp) (fun x => absurd x (by simp)) (htm.ok rfl (hr (hall hp)))
        (hd.link (row' := (row0.withP .released).withA false) rfl rfl hs.link _) (hd.noConf.append (by simp [NoConf])) (fun x => Or.inl (hd.newUp x))
    · intro ha hu
      have := hrep up' out' [.releaseConfirmed row0.cid] hd ha hu
      simpa using this
  · rw [hs.obj, hs.out]
    intro _ hg hp t e up' out' ht hd hend hlt
    refine ⟨?_, Or.inr ⟨hg, hp, ?_, hd.newUp, Or.inr ⟨rfl, rfl, e, hend, hlt⟩⟩⟩
    · simp only [List.nil_append]
      have := hd.link (row' := (row0.withP .releasing).withA false) rfl rfl hs.link []
      rw [List.append_nil] at this
      exact good_prov hs ht (hall hp) (fun x => absurd x (by simp)) noTimer this hd.noConf (fun x => Or.inl (hd.newUp x))
    · intro ha hu
      have := hrep up' out' [] hd ha hu
      simpa using this

/-! ### Freeing, end time, termination -/

theorem Freed.holds {o : Row} {cal cal' : Cal} {err : Option Err} {up up' : Bool} {out' : List Msg}
    (hf : Freed o.cid cfg o cal cal' err up up' out') (hh : o.holds = true) (hcal : cal.Perm (ents cfg o ++ rest)) :
    err = none ∧ cal'.Perm rest := by
  rw [ents_holds hh] at hcal
  have hrm := rm2_perm hcal
  rcases hf with ⟨_, h1, h2, _⟩ | ⟨_, _, h1, h2, _⟩ | ⟨_, h1, h2, _⟩
  · exact ⟨by rw [h2, hrm.1], by rw [h1]; exact hrm.2⟩
  · exact ⟨by rw [h2, hrm.1], by rw [h1]; exact hrm.2⟩
  · rw [holds_iff] at hh
    rcases hh.2 with h | h
    · exact absurd h h2
    · rw [h1] at h; exact absurd h (by simp)

theorem Freed.relDown {cid : Str} {o : Row} {cal cal' : Cal} {err : Option Err} {up up' : Bool} {out' : List Msg}
    (hf : Freed cid cfg o cal cal' err up up' out') : RelDown cid o.active up up' out' := by
  rcases hf with ⟨h0, _, _, h1⟩ | ⟨h0, _, _, _, h1, h2⟩ | ⟨h0, _, _, _, _, h1, h2⟩
  · exact Or.inr ⟨h0, h1⟩
  · exact Or.inl ⟨h0, h1, h2⟩
  · exact Or.inl ⟨h0, h1, h2⟩

/-- Freeing a created connection gives its entries back, if it has any. -/
theorem Freed.created {o : Row} {cal cal' : Cal} {err : Option Err} {up up' : Bool} {out' : List Msg} {t : Time}
    (hf : Freed o.cid cfg o cal cal' err up up' out') (hl : o.st.l = .created) (hok : RowOk t o)
    (hcal : cal.Perm (ents cfg o ++ rest)) : err = none ∧ cal'.Perm rest := by
  cases hh : o.holds with
  | true => exact hf.holds hh hcal
  | false =>
    rw [ents_free hh] at hcal
    have hnot : ¬ (o.st.r = .held ∨ o.allocated = true) := by
      intro x; rw [holds_iff.mpr ⟨hl, x⟩] at hh; exact absurd hh (by simp)
    rcases hf with ⟨h0, _⟩ | ⟨_, h1, _⟩ | ⟨_, h1, h2, h3, h4, _⟩
    · have := (hok.act h0).2.1
      have := hok.pv (by rw [this]; simp)
      exact absurd (Or.inr this) hnot
    · rcases h1 with h1 | h1
      · exact absurd (Or.inr h1) hnot
      · exact absurd (Or.inl h1) hnot
    · exact ⟨h4, by rw [h3]; exact hcal⟩

/-- A row that has ended or is terminated. -/
theorem good_final (hs : Start cfg w ref row0 out0 rest s) {t : Time} {l : LState} {up' : Bool} {out' o : List Msg} {cal' : Cal}
    (ht : s.clk ≤ t) (hterm : row0.st.l = .terminated → l = .terminated) (hl : l = .terminated ∨ (l = .passedEnd ∧ ∃ e, row0.end_ = some e ∧ e ≤ t ∧ row0.st.r ≠ .held))
    (hd : RelDown row0.cid row0.active s.up up' out') (hcal : cal'.Perm rest) (ho : NoConf o) :
    GoodL cfg w ref row0 s out0 rest
      { (s.put ((row0.withL l).withA false)) with tm := none, out := out' ++ o, clk := t, up := up', cal := cal' } := by
  have hok := hs.ok.mono ht
  have hne : l ≠ .created := by rcases hl with h | h <;> (first | rw [h] | rw [h.1]) <;> simp
  have hf : ((row0.withL l).withA false).holds = false := by
    apply holds_false; rintro ⟨h, _⟩; exact hne h
  refine hs.change ?_ noTimer ?_ ?_ ?_ (fun h => absurd h hne) (hd.noConf.append ho) (fun x => Or.inl (hd.newUp x)) ht
    ⟨⟨rfl, rfl, rfl, rfl, rfl, rfl, rfl, rfl, rfl⟩, hterm, fun _ => hne, fun a b => ⟨a, b⟩, id⟩
  · exact { hok with
      lc := by
        rcases hl with h | h
        · exact Or.inr (Or.inr h)
        · exact Or.inr (Or.inl h.1)
      rs := by
        rcases hok.rs with h | h | h
        · exact Or.inl h
        · exact Or.inr (Or.inl h)
        · exact Or.inr (Or.inr ⟨h.1, hne, h.2.2⟩)
      act := fun x => absurd x (by simp)
      ended := fun x => by
        rcases hl with h | ⟨_, e, h1, h2, h3⟩
        · rw [show l = .passedEnd from x] at h; exact absurd h (by simp)
        · exact ⟨e, h1, h2, fun y => absurd y h3⟩ }
  · exact hd.link (row' := (row0.withL l).withA false) rfl rfl hs.link _
  · rw [ents_free hf]; simpa using hcal
  · rintro (h | h)
    · rw [hf] at h; exact absurd h (by simp)
    · rcases hl with h1 | h1
      · rw [h1] at h; exact absurd h.1 (by simp)
      · exact absurd h.2 h1.2.choose_spec.2.2

/-- Results of a terminate request that was not refused, with the parent accepting the confirmation. -/
def Terminated (cid : Str) (row0 : Row) (s s' : S) (r : Except Err Unit) : Prop :=
  row0.st.l ≠ .terminated ∧ r = .ok () ∧ s'.row = (row0.withL .terminated).withA false ∧ (s'.up = true → s.up = true) ∧
    (row0.active = true → s'.up = true → ∃ n, Msg.deactivateFailed cid n ∈ s'.out) ∧ s'.tm = none

theorem terminate_good {h : Hdr} (hs : Start cfg w ref row0 out0 rest s) (he : Expires s.clk row0 s.tm out0) :
    LAll row0.cid ref (terminateOn cfg h row0.cid ref) (fun s' r => r ≠ .error .parent → GoodL cfg w ref row0 s out0 rest s' ∧
      (Refused s s' r (fun e => authorize cfg h row0.srcPort row0.dstPort = .error e ∨
          (row0.st.l = .terminated ∧ e = .attribute)) ∨
        Terminated row0.cid row0 s s' r)) s := by
  have hc : s.obj.cid = row0.cid := by rw [hs.obj]
  apply L_terminateOn hc
  · intro t e ht hwhy _
    rw [hs.obj] at hwhy
    exact ⟨hs.same he ht, Or.inl ⟨rfl, rfl, rfl, rfl, rfl, e, rfl, hwhy⟩⟩
  · rw [hs.obj, hs.out]
    intro _ hl t ht _
    have hna : row0.active = false := by
      cases ha : row0.active with
      | false => rfl
      | true => have := (hs.ok.act ha).1; rw [hl] at this; exact absurd this (by simp)
    have hf : row0.holds = false := by apply holds_false; rintro ⟨h, _⟩; exact absurd (hl.symm.trans h) (by simp)
    have hd : RelDown row0.cid row0.active s.up s.up [] := Or.inl ⟨hna, rfl, rfl⟩
    have hcal := hs.cal
    rw [ents_free hf] at hcal
    have := good_final hs (l := .terminated) (o := [.terminateConfirmed row0.cid]) ht (fun _ => rfl) (Or.inl rfl) hd hcal (by simp [NoConf])
    have e : (row0.withL .terminated).withA false = row0.withL .terminated := withA_self (by simpa using hna)
    rw [e] at this
    refine ⟨this, Or.inr ⟨by rw [hl]; simp, rfl, e.symm, id, ?_, rfl⟩⟩
    intro ha; rw [hna] at ha; exact absurd ha (by simp)
  · intro _ _ t ht hx; exact absurd rfl hx
  · rw [hs.obj, hs.out]
    intro _ hnt hnp t cal' up' out' ht hf _
    have hl : row0.st.l = .created := by
      rcases hs.ok.lc with h1 | h1 | h1
      · exact h1
      · exact absurd h1 hnp
      · exact absurd h1 hnt
    have hfr := hf.created hl hs.ok hs.cal
    refine ⟨good_final hs ht (fun _ => rfl) (Or.inl rfl) hf.relDown hfr.2 (by simp [NoConf]), Or.inr ⟨hnt, rfl, rfl, hf.relDown.newUp, ?_, rfl⟩⟩
    intro ha hu
    rcases hf.relDown with ⟨h1, _⟩ | ⟨_, m, h, h'⟩
    · rw [h1] at ha; exact absurd ha (by simp)
    · rcases h with ⟨h, _⟩ | ⟨_, n, h⟩
      · rw [show up' = true from hu] at h; exact absurd h (by simp)
      · exact ⟨n, by rw [h', h]; simp⟩
  · rw [hs.obj, hs.out]
    intro _ hnt hnp t cal' up' out' err ht hf m e hwhy hr
    have hl : row0.st.l = .created := by
      rcases hs.ok.lc with h1 | h1 | h1
      · exact h1
      · exact absurd h1 hnp
      · exact absurd h1 hnt
    have hfr := hf.created hl hs.ok hs.cal
    rcases hwhy with ⟨h1, _⟩ | ⟨_, h1, _⟩
    · rw [hfr.1] at h1; exact absurd h1 (by simp)
    · rw [h1] at hr; exact absurd rfl hr

/-! ### Scheduled calls -/

theorem endtime_good (hs : Start cfg w ref row0 out0 rest s) (hr : row0.st.r = .start) {e : Time} (hend : row0.end_ = some e)
    (het : e ≤ s.clk) :
    LAll row0.cid ref (doEndtime cfg ref) (fun s' r => GoodL cfg w ref row0 s out0 rest s' ∧
      (row0.st.l = .created → r = .ok () ∧ s'.row.st.l = .passedEnd ∧ s'.row.active = false)) s := by
  have hc : s.obj.cid = row0.cid := by rw [hs.obj]
  have hex : Expires s.clk row0 s.tm out0 := fun _ hh => by rw [hr] at hh; exact absurd hh (by simp)
  have hne : row0.st.r ≠ .held := by rw [hr]; simp
  have main : row0.st.l = .created → ∀ t cal' err up' out', s.clk ≤ t →
      Freed row0.cid cfg row0 s.cal cal' err s.up up' out' → (GoodL cfg w ref row0 s out0 rest
      { (s.put ((row0.withL .passedEnd).withA false)) with tm := none, out := out' ++ [], clk := t, up := up', cal := cal' } ∧
      err = none) := by
    intro hl t cal' err up' out' ht hf
    have hfr := hf.created hl hs.ok hs.cal
    exact ⟨good_final hs ht (fun x => by rw [hl] at x; exact absurd x (by simp)) (Or.inr ⟨rfl, e, hend, by omega, hne⟩) hf.relDown hfr.2 (by simp [NoConf]), hfr.1⟩
  apply L_doEndtime hc
  · rw [hs.obj]
    intro hl t ht
    exact ⟨hs.same hex ht, fun h => absurd h hl⟩
  · rw [hs.obj, hs.out]
    intro hl ha t up' m ht htd
    obtain ⟨h1, h2⟩ := main hl t _ _ up' [m] ht (Or.inl ⟨ha, rfl, rfl, m, htd, rfl⟩)
    rw [h2]
    exact ⟨h1, fun _ => ⟨rfl, rfl, rfl⟩⟩
  · rw [hs.obj]
    intro hl ha hb t ht
    obtain ⟨h1, h2⟩ := main hl t _ _ s.up [] ht (Or.inr (Or.inl ⟨ha, hb, rfl, rfl, rfl, rfl⟩))
    rw [h2]
    rw [withA_self (r := row0.withL .passedEnd) (by simpa using ha), List.append_nil, ← hs.out] at h1
    exact ⟨h1, fun _ => ⟨rfl, rfl, ha⟩⟩
  · rw [hs.obj]
    intro hl ha hb hb' t ht
    obtain ⟨h1, h2⟩ := main hl t _ _ s.up [] ht (Or.inr (Or.inr ⟨ha, hb, hb', rfl, rfl, rfl, rfl⟩))
    rw [withA_self (r := row0.withL .passedEnd) (by simpa using ha), List.append_nil, ← hs.out] at h1
    exact ⟨h1, fun _ => ⟨rfl, rfl, ha⟩⟩

theorem activate_good (hs : Start cfg w ref row0 out0 rest s) (hr : row0.st.r = .start) (hp : row0.st.p = .provisioned)
    (hl : row0.st.l = .created) (hst : ∀ x, row0.start = some x → x ≤ s.clk)
    (hb : ∀ x, s.tm = some x → x.called = true) :
    LAll row0.cid ref (doActivate ref) (fun s' r => GoodL cfg w ref row0 s out0 rest s' ∧ r = .ok () ∧
      ∃ a, s'.row = row0.withA a ∧ (a = true → s'.up = true ∧ EndCall row0.end_ s'.tm s'.clk) ∧
        (a = false → ∃ n, Msg.activateFailed row0.cid n ∈ s'.out)) s := by
  have hc : s.obj.cid = row0.cid := by rw [hs.obj]
  have hal : row0.allocated = true := hs.ok.pv (by rw [hp]; simp)
  apply L_doActivate hc
  · unfold busy
    split
    · rename_i h; have := hb _ h; simp at this
    · rfl
  · rw [hs.obj, hs.out]
    intro t up' a tm' out' ht hactd
    have e : row0.withP .provisioned = row0 := by
      simp only [Row.withP]; rw [← hp]
    refine ⟨?_, rfl, a, rfl, ?_, ?_⟩
    · have hlink := Activated.linkOk (row' := (row0.withP .provisioned).withA a) hactd rfl out0 []
      rw [List.append_nil] at hlink
      have := good_prov hs (p := .provisioned) (t := t) (a := a) (up' := up') (tm' := tm') (out' := out') ht hal
        (fun _ => ⟨hl, rfl, fun x hx => by have := hst x hx; omega⟩) (hactd.timer rfl hr hb) hlink hactd.noConf
        (fun _ => Or.inr ⟨hal, rfl, hl, fun x hx => by have := hst x hx; omega⟩)
      rw [e] at this
      simpa using this
    · have hec := hactd.endCall
      rcases hactd with ⟨_, h3, _⟩ | ⟨h3, _⟩
      · intro ha; exact ⟨h3, hec ha⟩
      · rw [h3]; intro x; exact absurd x (by simp)
    · rcases hactd with ⟨h3, _⟩ | ⟨_, _, _, n, h3⟩
      · rw [h3]; intro x; exact absurd x (by simp)
      · intro _; exact ⟨n, by rw [h3]; simp⟩

theorem timeout_good (hs : Start cfg w ref row0 out0 rest s) (hh : row0.st.r = .held) (hl : row0.st.l = .created) :
    LAll row0.cid ref (doReserveTimeout cfg ref) (fun s' r => GoodL cfg w ref row0 s out0 rest s' ∧ r = .ok () ∧
      s'.row.st.r = .start ∧ s'.row.allocated = false ∧ s'.up = s.up ∧ (∃ n, Msg.reserveTimeout row0.cid n ∈ s'.out)) s := by
  have hc : s.obj.cid = row0.cid := by rw [hs.obj]
  obtain ⟨hal, hact, hp⟩ := hs.ok.held hh
  have hrm := hs.rm2_holds (holds_iff.mpr ⟨hl, Or.inl hh⟩)
  apply L_doReserveTimeout hc (by rw [hs.obj]; exact hh) (by rw [hs.obj]; exact hact) (by rw [hs.obj]; exact hal)
  · rw [hs.obj]; intro h; exact absurd hrm.1 h
  · rw [hs.obj, hs.out]
    intro _ t tm' n ht htm
    exact ⟨good_rolled hs hh hl ht htm (by simp) hrm.2, rfl, rfl, hal, rfl, n, by simp⟩
  · rw [hs.obj, hs.out]
    intro _ _ t e n ht hend het
    exact ⟨good_rolledEnd hs hh (by rw [hl]; simp) ht hend het (by simp) hrm.2, rfl, rfl, hal, rfl, n, by simp⟩

end
end OpenNSA.Backend
