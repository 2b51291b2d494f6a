import Verif.Agg.IdsRun
import Verif.Agg.Tokens
/-
What the handlers return: the answer to a reserve request is the id of a connection that was stored for its requester.
-/
namespace OpenNSA.Agg
open OpenNSA Py Coro

section
variable {I : World → Prop} {K : World → World → Prop}

/-- At the end of a coroutine, with something about its result. -/
def PostQ (I : World → Prop) (K : World → World → Prop) (Φ : Option Str → World → Prop) : Option Str → World → World → Prop :=
  fun a w0 w => I w ∧ K w0 w ∧ Φ a w

/-- A suspended coroutine that will return such a result. -/
def SafeTaskQ (I : World → Prop) (K : World → World → Prop) (Φ : Option Str → World → Prop) (w : World) : Susp Cmd Err (Option Str) → Prop
  | .waiting c k => ∀ w1, K w w1 → I w1 → (I (exec w1 c).1 ∧ K w1 (exec w1 c).1 ∧
      ∀ w2, K (exec w1 c).1 w2 → I w2 → Safe I K (k (exec w1 c).2) w2 w2 (PostQ I K Φ))
  | .performed p => ∀ w2, K w w2 → I w2 → Safe I K p w2 w2 (PostQ I K Φ)

variable {Φ : Option Str → World → Prop}

theorem SafeTaskQ.later {w w' : World} (htr : ∀ a b c, K a b → K b c → K a c) (hk : K w w') {t : Susp Cmd Err (Option Str)}
    (h : SafeTaskQ I K Φ w t) : SafeTaskQ I K Φ w' t := by
  cases t with
  | waiting c k => exact fun w1 h1 h2 => h w1 (htr _ _ _ hk h1) h2
  | performed p => exact fun w1 h1 h2 => h w1 (htr _ _ _ hk h1) h2

theorem Safe.runSyncQ {p : Prog (Option Str)} (id : Nat) (w0 : World) : ∀ {s : Sys}, Safe I K p w0 s.w (PostQ I K Φ) →
    I (Conc.runSync machine id p s).w ∧ K w0 (Conc.runSync machine id p s).w ∧ (Conc.runSync machine id p s).next = s.next ∧
      (∃ new, (Conc.runSync machine id p s).tasks = s.tasks ++ new ∧ ∀ t ∈ new, t.1 = id ∧ SafeTaskQ I K Φ (Conc.runSync machine id p s).w t.2) ∧
      ∃ new, (Conc.runSync machine id p s).done = s.done ++ new ∧ ∀ x ∈ new, x.1 = id ∧ ∀ a, x.2 = .ok a → Φ a (Conc.runSync machine id p s).w := by
  induction p with
  | pure a =>
    intro s h
    refine ⟨h.1, h.2.1, rfl, ⟨[], by simp [Conc.runSync], by simp⟩, [(id, .ok a)], rfl, fun x hx => ?_⟩
    rw [List.mem_singleton.1 hx]
    exact ⟨rfl, fun b hb => by cases hb; exact h.2.2⟩
  | throw e =>
    intro s h
    refine ⟨h.1, h.2, rfl, ⟨[], by simp [Conc.runSync], by simp⟩, [(id, .error e)], rfl, fun x hx => ?_⟩
    rw [List.mem_singleton.1 hx]
    exact ⟨rfl, fun b hb => by cases hb⟩
  | cmd c k ih =>
    intro s h
    simp only [Safe] at h
    simp only [Conc.runSync]
    by_cases hc : c.isAsync = true
    · rw [if_pos hc] at h
      rw [if_pos (show machine.isAsync c = true from hc)]
      refine ⟨h.1, h.2.1, rfl, ⟨[(id, .waiting c k)], rfl, fun t ht => ?_⟩, [], by simp, by simp⟩
      rw [List.mem_singleton.1 ht]
      exact ⟨rfl, h.2.2⟩
    · rw [if_neg hc] at h
      rw [if_neg (show ¬ machine.isAsync c = true from hc)]
      exact ih _ (s := { s with w := (exec s.w c).1 }) h

/-- `L` are the messages handled since the last start, in the order of their arrival: handlers are numbered by them. -/
structure Tracked (I : World → Prop) (K : World → World → Prop) (Φ : Msg → Option Str → World → Prop) (L : List Msg) (s : Sys) : Prop where
  len : s.next = L.length
  inv : I s.w
  tasks : ∀ t ∈ s.tasks, ∃ m, L[t.1]? = some m ∧ SafeTaskQ I K (Φ m) s.w t.2
  done : ∀ x ∈ s.done, ∃ m, L[x.1]? = some m ∧ ∀ a, x.2 = .ok a → Φ m a s.w

theorem getElem?_append_some {α : Type} {l l' : List α} {n : Nat} {a : α} (h : l[n]? = some a) : (l ++ l')[n]? = some a := by
  rw [List.getElem?_append_left (List.getElem?_eq_some_iff.1 h).1]; exact h

theorem Tracked.step {cfg : Cfg} {Φ : Msg → Option Str → World → Prop} {L : List Msg} {s : Sys} (h : Tracked I K Φ L s) (hrefl : ∀ w, K w w)
    (htr : ∀ a b c, K a b → K b c → K a c) (ho : ∀ w o, I w → I { w with orc := o }) (hok : ∀ w o, K w { w with orc := o })
    (hΦ : ∀ m a w w', K w w' → Φ m a w → Φ m a w') (hp : ∀ (m : Msg) w, I w → Safe I K (m.prog cfg) w w (PostQ I K (Φ m)))
    (o : Oracle) (ch : Conc.Choice Msg) : Tracked I K Φ (L ++ Conc.Choice.msgs ch) (sysStep cfg s o ch) := by
  have hi := ho _ o h.inv
  have ht : ∀ t ∈ s.tasks, ∃ m, L[t.1]? = some m ∧ SafeTaskQ I K (Φ m) { s.w with orc := o } t.2 :=
    fun t hm => (h.tasks t hm).imp fun m hm => ⟨hm.1, hm.2.later htr (hok _ o)⟩
  have hd : ∀ x ∈ s.done, ∃ m, L[x.1]? = some m ∧ ∀ a, x.2 = .ok a → Φ m a { s.w with orc := o } :=
    fun t hm => (h.done t hm).imp fun m hm => ⟨hm.1, fun a ha => hΦ _ _ _ _ (hok _ o) (hm.2 a ha)⟩
  cases ch with
  | start q =>
    have hs := hp q { s.w with orc := o } hi
    obtain ⟨h1, h2, hn, ⟨new, h3, h4⟩, newd, h5, h6⟩ :=
      Safe.runSyncQ s.next { s.w with orc := o } (s := { s with w := { s.w with orc := o }, next := s.next + 1 }) hs
    have hl : (L ++ [q])[s.next]? = some q := by rw [h.len]; simp
    refine ⟨by rw [show (sysStep cfg s o (.start q)).next = _ from hn]; simp [h.len, Conc.Choice.msgs], h1, fun t hm => ?_, fun x hm => ?_⟩
    · rw [show (sysStep cfg s o (.start q)).tasks = _ from h3] at hm
      rcases List.mem_append.mp hm with hm | hm
      · exact (ht t hm).imp fun m hm => ⟨getElem?_append_some hm.1, hm.2.later htr h2⟩
      · exact ⟨q, by rw [(h4 t hm).1]; exact hl, (h4 t hm).2⟩
    · rw [show (sysStep cfg s o (.start q)).done = _ from h5] at hm
      rcases List.mem_append.mp hm with hm | hm
      · exact (hd x hm).imp fun m hm => ⟨getElem?_append_some hm.1, fun a ha => hΦ _ _ _ _ h2 (hm.2 a ha)⟩
      · exact ⟨q, by rw [(h6 x hm).1]; exact hl, (h6 x hm).2⟩
  | perform n =>
    simp only [Conc.Choice.msgs, List.append_nil]
    simp only [sysStep, Conc.step]
    cases hq : Conc.takeTask n s.tasks with
    | none => exact ⟨h.len, hi, ht, hd⟩
    | some x =>
      obtain ⟨t, rest⟩ := x
      obtain ⟨hm1, hm2⟩ := takeTask_mem hq
      cases t with
      | performed p => exact ⟨h.len, hi, ht, hd⟩
      | waiting c k =>
        obtain ⟨m, hl, hst⟩ := ht _ hm1
        have hst := hst { s.w with orc := o } (hrefl _) hi
        refine ⟨h.len, hst.1, fun t htm => ?_, fun x hm => (hd x hm).imp fun m hm => ⟨hm.1, fun a ha => hΦ _ _ _ _ hst.2.1 (hm.2 a ha)⟩⟩
        rcases List.mem_append.mp htm with htm | htm
        · exact (ht t (hm2 t htm)).imp fun m hm => ⟨hm.1, hm.2.later htr hst.2.1⟩
        · rw [List.mem_singleton.mp htm]
          exact ⟨m, hl, hst.2.2⟩
  | resume n =>
    simp only [Conc.Choice.msgs, List.append_nil]
    simp only [sysStep, Conc.step]
    cases hq : Conc.takeTask n s.tasks with
    | none => exact ⟨h.len, hi, ht, hd⟩
    | some x =>
      obtain ⟨t, rest⟩ := x
      obtain ⟨hm1, hm2⟩ := takeTask_mem hq
      cases t with
      | waiting c k => exact ⟨h.len, hi, ht, hd⟩
      | performed p =>
        obtain ⟨m, hl, hst⟩ := ht _ hm1
        have hst := hst { s.w with orc := o } (hrefl _) hi
        obtain ⟨h1, h2, hn, ⟨new, h3, h4⟩, newd, h5, h6⟩ :=
          Safe.runSyncQ n { s.w with orc := o } (s := { s with w := { s.w with orc := o }, tasks := rest }) hst
        refine ⟨hn.trans h.len, h1, fun t htm => ?_, fun x hm => ?_⟩
        · rw [h3] at htm
          rcases List.mem_append.mp htm with htm | htm
          · exact (ht t (hm2 t htm)).imp fun m hm => ⟨hm.1, hm.2.later htr h2⟩
          · exact ⟨m, by rw [(h4 t htm).1]; exact hl, (h4 t htm).2⟩
        · rw [h5] at hm
          rcases List.mem_append.mp hm with hm | hm
          · exact (hd x hm).imp fun m hm => ⟨hm.1, fun a ha => hΦ _ _ _ _ h2 (hm.2 a ha)⟩
          · exact ⟨m, by rw [(h6 x hm).1]; exact hl, (h6 x hm).2⟩

end

/-- The answer to a reserve request is the id of a connection of its requester. -/
def Returned (m : Msg) (a : Option Str) (w : World) : Prop :=
  ∀ h cid? c, m = .reserve h cid? c → ∃ cid, a = some cid ∧ Owns w cid h.requester

variable {cfg : Cfg}

theorem Spec.reserveNew_owned (h : Hdr) (c : Crit) (w : World) :
    Spec cfg (Agg.reserveNew cfg h c) w (fun a v => ∃ cid, a = some cid ∧ Owns v cid h.requester) := by
  unfold Agg.reserveNew
  refine Spec.bind (Spec.cmd' fun _ _ _ => trivial) fun cid v _ _ _ => ?_
  refine Spec.bind (Q := fun ref v => ∃ o, v.cheap[ref]? = some o ∧ o.row.cid = cid ∧ o.row.requester = h.requester) (Spec.cmd (fun _ _ _ => trivial) ?_)
    fun ref v _ _ hobj => ?_
  · intro v b _ hi _ hb v' hk' _
    simp only [exec, Except.ok.injEq] at hb hk'
    subst hb
    obtain ⟨o', h1, h2, h3, _⟩ := hk'.cobj v.cheap.length ⟨newConn cid h c, true⟩ (by simp)
    exact ⟨o', h1, h2, h3⟩
  refine Spec.bind (Q := fun _ v => Conn v ref ∧ Owns v cid h.requester) (Spec.cmd (fun _ _ _ => trivial) ?_) fun _ v _ _ hc => ?_
  · intro v1 b hk hi _ hb v' hk' hi'
    obtain ⟨id, hs⟩ := (hi.saveC ref).2.2 hb
    obtain ⟨o, h1, h2, h3⟩ := hobj
    obtain ⟨o', g1, g2, g3, _⟩ := (hk.trans (hi.saveC ref).2.1).cobj ref o h1
    refine ⟨⟨id, hs.keep hk'⟩, ?_⟩
    obtain ⟨o2, k1, k2, k3⟩ := hs.keep hk'
    obtain ⟨o3, l1, l2, l3, _⟩ := hk'.cobj ref o' g1
    rw [k1] at l1
    cases l1
    obtain ⟨r, hr, hid⟩ := hi'.cobj ref o2 k1 k2
    simp only [CRow.id, Prod.mk.injEq] at hid
    exact ⟨r, hr, by rw [hid.2.1, l2, g2, h2], by rw [hid.2.2, l3, g3, h3]⟩
  obtain ⟨hc, hown⟩ := hc
  refine Spec.bind (Spec.switchC hc) fun _ v' hk _ _ => ?_
  obtain ⟨id, hc⟩ := hc.keep hk
  replace hown := hown.keep hk
  refine Spec.bind (Spec.getC hc) fun conn v hk hi hr => ?_
  replace hown := hown.keep hk
  have hkey : HasKey v conn.key := by
    have := hi.hasKey hr.1
    rw [← hr.2] at this; exact this
  refine Spec.bind (Q := fun _ _ => True) (Spec.ofExcept fun _ _ => trivial) fun path v1 hk1 _ _ => ?_
  refine Spec.bind (Q := fun _ _ => True) (Spec.ofExcept fun _ _ => trivial) fun _ v2 hk2 _ _ => ?_
  refine Spec.bind (Spec.sendReserves conn c.start c.end_ path 0 [] v2 ((hkey.keep hk1).keep hk2)) fun last v3 hk3 _ _ => ?_
  refine Spec.bind (Spec.cmd' fun _ _ _ => trivial) fun results v4 hk4 _ _ => ?_
  replace hown := (((hown.keep hk1).keep hk2).keep hk3).keep hk4
  split
  · exact Spec.pure fun _ => ⟨cid, rfl, hown⟩
  · unfold reserveCleanup
    have hc4 : Conn v4 ref := ⟨id, (((hr.1.keep hk1).keep hk2).keep hk3).keep hk4⟩
    refine Spec.bind (Spec.switchC hc4) fun _ v5 hk5 _ _ => ?_
    refine Spec.bind (Spec.sendTerminates last _ v5) fun _ v6 hk6 _ _ => ?_
    refine Spec.bind (Spec.cmd' fun _ _ _ => trivial) fun _ v7 hk7 _ _ => ?_
    refine Spec.bind (Spec.switchC (((hc4.keep hk5).keep hk6).keep hk7)) fun _ v5 hk5 _ _ => ?_
    exact Spec.throw

theorem Spec.returned (m : Msg) (w : World) (hi : Ids cfg w) : Safe (Ids cfg) Keep (m.prog cfg) w w (PostQ (Ids cfg) Keep (Returned m)) := by
  by_cases hm : ∃ h cid? c, m = .reserve h cid? c
  · obtain ⟨h, cid?, c, rfl⟩ := hm
    have key : Spec cfg (Agg.reserve cfg h cid? c) w (fun a v => ∃ cid, a = some cid ∧ Owns v cid h.requester) := by
      unfold Agg.reserve
      cases cid? with
      | some i => exact Spec.bind (Spec.cmd' fun _ _ _ => trivial) fun _ _ _ _ _ => Spec.throw
      | none =>
        refine Spec.bind (Q := fun _ _ => True) (Spec.ofExcept fun _ _ => trivial) fun _ v2 _ _ _ => ?_
        exact Spec.reserveNew_owned h c v2
    refine Safe.mono (key hi w (.refl w)) fun a v0 v hq => ⟨hq.1, hq.2.1, ?_⟩
    intro h' _ _ e
    cases e
    exact hq.2.2.2
  · exact Safe.mono (Spec.safe m w hi) fun a v0 v hq => ⟨hq.1, hq.2, fun h cid? c e => absurd ⟨h, cid?, c, e⟩ hm⟩

theorem Returned.keep (m : Msg) (a : Option Str) (w w' : World) (hk : Keep w w') (h : Returned m a w) : Returned m a w' := by
  intro hd cid? c e
  obtain ⟨cid, h1, h2⟩ := h hd cid? c e
  exact ⟨cid, h1, h2.keep hk⟩

/-- The handlers under way and the answers given since the last start. -/
abbrev Answers (cfg : Cfg) : List Msg → Sys → Prop := Tracked (Ids cfg) Keep Returned

theorem Answers.init : Answers cfg [] { w := .init } :=
  ⟨rfl, (Reach.init (cfg := cfg)).ids, by simp, by simp⟩

theorem Answers.step' {L : List Msg} {s : Sys} (h : Answers cfg L s) (o : Oracle) (ch : Conc.Choice Msg) :
    Answers cfg (L ++ Conc.Choice.msgs ch) (sysStep cfg s o ch) :=
  Tracked.step h Keep.refl (fun _ _ _ => Keep.trans) Ids.orc (fun _ _ => .frame rfl rfl rfl rfl) Returned.keep Spec.returned o ch

theorem Answers.restart {s : Sys} (h : Reach cfg s) : Answers cfg [] { w := s.w.restart } := ⟨rfl, h.restart.ids, by simp, by simp⟩

end OpenNSA.Agg
