import Verif.Front.Model
/- Invariants of the provider in front of the aggregator. -/
namespace OpenNSA.Front
open Py Provider

/-! ### One event at the provider -/

theorem conf_step {s : Prov} {e : Ev} {rid : Nat} {kind : Conf} {h : Hdr} {cid : Str} (ho : Out.conf rid kind h cid ∈ (s.step e).out) :
    Out.conf rid kind h cid ∈ s.out ∨ (e = .confirmed kind cid ∧ ((cid, kind.resp), (rid, h)) ∈ s.notifications) := by
  cases e with
  | reserveAcked r hd c => left; simp only [Prov.step, Prov.remember] at ho; split at ho <;> exact ho
  | request op r hd c =>
    left
    simp only [Prov.step, Prov.remember] at ho
    split at ho
    · exact ho
    · split at ho <;> exact ho
  | refused r => left; simpa [Prov.step] using ho
  | confirmed k c =>
    simp only [Prov.step, Prov.confirm] at ho
    cases hg : dget s.notifications (c, k.resp) with
    | none => rw [hg] at ho; exact Or.inl ho
    | some p =>
      rw [hg] at ho
      rcases List.mem_append.1 ho with ho | ho
      · exact Or.inl ho
      · simp only [List.mem_singleton, Out.conf.injEq] at ho
        obtain ⟨rfl, rfl, rfl, rfl⟩ := ho
        exact Or.inr ⟨rfl, dget_some_mem hg⟩
  | syncQuery r hd =>
    left
    simp only [Prov.step] at ho
    split at ho
    · cases hc : truthyText hd.correlation <;> rw [hc] at ho <;> exact ho
    · exact ho
  | summary hd p =>
    left
    simp only [Prov.step] at ho
    cases hr : hd.replyTo with
    | none => rw [hr] at ho; exact ho
    | some _ =>
      rw [hr] at ho
      cases hb : hd.correlation.bind (dget s.syncs) <;> rw [hb] at ho <;> simpa using ho
  | recursive hd p => left; simpa [Prov.step] using ho

/-- Each confirmation that left followed the request it is sent for. -/
def Told (s : Prov) (es : List Ev) : Prop := ∀ rid kind h cid, Out.conf rid kind h cid ∈ s.out →
  ∃ pre, pre ++ [.confirmed kind cid] <+: es ∧ h.replies ∧ ∃ op, Asked pre rid op h cid ∧ op.resp = kind.resp

theorem Told.step {s : Prov} {es : List Ev} (hk : Known s es) (h : Told s es) (e : Ev) : Told (s.step e) (es ++ [e]) := by
  intro rid kind hd cid ho
  rcases conf_step ho with ho | ⟨rfl, hn⟩
  · obtain ⟨pre, h1, h2⟩ := h rid kind hd cid ho
    exact ⟨pre, h1.trans (List.prefix_append _ _), h2⟩
  · obtain ⟨h1, op, h2, h3⟩ := hk.1 _ _ _ hn
    exact ⟨es, List.prefix_refl _, h1, op, h2, h3⟩

/-! ### What the memory of the provider stands for -/

/-- An event at the provider has its ground in a request, in the answer of the aggregator to it, or in a message of the aggregator. -/
def Ground (w : Agg.World) (asked : List (Hdr × Agg.Msg)) : Ev → Prop
  | .reserveAcked rid hdr cid => ∃ h c? c, asked[rid]? = some (hdr, .reserve h c? c) ∧ Agg.Owns w cid h.requester
  | .request op rid hdr cid => ∃ m, asked[rid]? = some (hdr, m) ∧ opOf m = some (op, some cid)
  | .confirmed kind cid => ∃ o ∈ w.outbox, confOf o = some (kind, cid)
  | _ => True

theorem Ground.asked {w : Agg.World} {a a' : List (Hdr × Agg.Msg)} {e : Ev} (h : Ground w a e) : Ground w (a ++ a') e := by
  cases e with
  | reserveAcked rid hdr cid =>
    obtain ⟨x, y, z, h1, h2⟩ := h
    exact ⟨x, y, z, Agg.getElem?_append_some h1, h2⟩
  | request op rid hdr cid =>
    obtain ⟨m, h1, h2⟩ := h
    exact ⟨m, Agg.getElem?_append_some h1, h2⟩
  | confirmed kind cid => exact h
  | _ => trivial

theorem Ground.world {w w' : Agg.World} (hk : ∀ cid r, Agg.Owns w cid r → Agg.Owns w' cid r) (ho : ∀ o ∈ w.outbox, o ∈ w'.outbox) {a : List (Hdr × Agg.Msg)} {e : Ev} (h : Ground w a e) :
    Ground w' a e := by
  cases e with
  | reserveAcked rid hdr cid =>
    obtain ⟨x, y, z, h1, h2⟩ := h
    exact ⟨x, y, z, h1, hk _ _ h2⟩
  | request op rid hdr cid => exact h
  | confirmed kind cid =>
    obtain ⟨o, h1, h2⟩ := h
    exact ⟨o, ho o h1, h2⟩
  | _ => trivial

/-- The invariant. `L` are the messages handled since the last start. -/
structure Ok (w : Agg.World) (L : List Agg.Msg) (d : Desk) : Prop where
  known : Known d.prov d.log
  told : Told d.prov d.log
  ground : ∀ e ∈ d.log, Ground w d.asked e
  tickets : ∀ t ∈ d.tickets, ∃ m c?, L[t.1]? = some m ∧ d.asked[t.2.1]? = some (t.2.2.2, m) ∧ opOf m = some (t.2.2.1, c?)
  distinct : ∀ t ∈ d.tickets, ∀ t' ∈ d.tickets, t.2.1 = t'.2.1 → t = t'
  once : ∃ used, Inv d.prov used ∧ (∀ r ∈ used, r < d.asked.length) ∧ ∀ t ∈ d.tickets, t.2.2.1 = .reserve → t.2.1 ∉ used

theorem Ok.world {w w' : Agg.World} {L L' : List Agg.Msg} {d : Desk} (h : Ok w L d) (hk : Agg.Keep w w') (ho : ∀ o ∈ w.outbox, o ∈ w'.outbox) :
    Ok w' (L ++ L') d :=
  ⟨h.known, h.told, fun e he => (h.ground e he).world (fun _ _ => Agg.Owns.keep hk) ho, fun t ht => by
    obtain ⟨m, c, h1, h2⟩ := h.tickets t ht
    exact ⟨m, c, Agg.getElem?_append_some h1, h2⟩, h.distinct, h.once⟩

theorem Ok.confirmed {w : Agg.World} {L : List Agg.Msg} {d : Desk} (h : Ok w L d) {kind : Conf} {cid : Str} (hg : Ground w d.asked (.confirmed kind cid)) :
    Ok w L (d.tell (.confirmed kind cid)) := by
  obtain ⟨used, h1, h2, h3⟩ := h.once
  refine ⟨h.known.step _, h.told.step h.known _, ?_, h.tickets, h.distinct, used, ?_, h2, h3⟩
  · intro e he
    rcases List.mem_append.1 he with he | he
    · exact h.ground e he
    · rw [List.mem_singleton.1 he]; exact hg
  · exact h1.step (.confirmed kind cid) (by simp [Ev.asks])

theorem Ok.confirms {w : Agg.World} {L : List Agg.Msg} : ∀ (l : List (Conf × Str)) {d : Desk}, Ok w L d → (∀ x ∈ l, ∃ o ∈ w.outbox, confOf o = some x) →
    Ok w L (l.foldl (fun d x => d.tell (.confirmed x.1 x.2)) d)
  | [], _, h, _ => h
  | x :: l, _, h, hl => Ok.confirms l (h.confirmed (kind := x.1) (cid := x.2) (hl x List.mem_cons_self)) fun y hy => hl y (List.mem_cons_of_mem _ hy)

theorem Ok.done {w : Agg.World} {L : List Agg.Msg} {d : Desk} (h : Ok w L d) {x : Nat × Except Agg.Err (Option Str)}
    (hx : ∃ m, L[x.1]? = some m ∧ ∀ a, x.2 = .ok a → Agg.Returned m a w) : Ok w L (d.finished x) := by
  unfold Desk.finished
  cases hg : dget d.tickets x.1 with
  | none => exact h
  | some t =>
    obtain ⟨rid, op, hdr⟩ := t
    have hm := dget_some_mem hg
    obtain ⟨m, c?, h1, h2, h3⟩ := h.tickets _ hm
    obtain ⟨m', g1, g2⟩ := hx
    simp only at h1
    rw [g1] at h1
    cases h1
    obtain ⟨used, u1, u2, u3⟩ := h.once
    have hsub : ∀ t ∈ ddel d.tickets x.1, t ∈ d.tickets ∧ t.2.1 ≠ rid := by
      intro t ht
      have := mem_ddel_iff.1 (show (t.1, t.2) ∈ _ from ht)
      refine ⟨this.2, fun e => this.1 ?_⟩
      rw [h.distinct t this.2 _ hm e]
    have base : Ok w L { d with tickets := ddel d.tickets x.1 } :=
      ⟨h.known, h.told, h.ground, fun t ht => h.tickets t (hsub t ht).1, fun t ht t' ht' => h.distinct t (hsub t ht).1 t' (hsub t' ht').1,
        used, u1, u2, fun t ht => u3 t (hsub t ht).1⟩
    have hlt : rid < d.asked.length := (List.getElem?_eq_some_iff.1 h2).1
    simp only
    cases hr : x.2 with
    | error e =>
      refine ⟨h.known.step _, h.told.step h.known _, ?_, base.tickets, base.distinct, used, u1.step (.refused rid) (by simp [Ev.asks]), u2, base.once.elim fun _ _ => fun t ht => u3 t (hsub t ht).1⟩
      intro e he
      rcases List.mem_append.1 he with he | he
      · exact h.ground e he
      · rw [List.mem_singleton.1 he]; trivial
    | ok a =>
      cases a with
      | none => exact base
      | some cid =>
        simp only
        split
        · rename_i hop
          subst hop
          have hu : rid ∉ used := u3 _ hm rfl
          refine ⟨h.known.step _, h.told.step h.known _, ?_, base.tickets, base.distinct, rid :: used,
            u1.step (.reserveAcked rid hdr cid) (by simpa [Ev.asks] using hu), ?_, ?_⟩
          · intro e he
            rcases List.mem_append.1 he with he | he
            · exact h.ground e he
            · rw [List.mem_singleton.1 he]
              cases m <;> simp [opOf] at h3
              rename_i hd c1 c2
              obtain ⟨cid', e1, e2⟩ := g2 _ hr hd c1 c2 rfl
              cases e1
              exact ⟨hd, c1, c2, h2, e2⟩
          · intro r hr
            rcases List.mem_cons.1 hr with rfl | hr
            · exact hlt
            · exact u2 r hr
          · intro t ht hres hc
            rcases List.mem_cons.1 hc with hc | hc
            · exact (hsub t ht).2 hc
            · exact u3 t (hsub t ht).1 hres hc
        · exact base

theorem Ok.finishes {w : Agg.World} {L : List Agg.Msg} : ∀ (l : List (Nat × Except Agg.Err (Option Str))) {d : Desk}, Ok w L d →
    (∀ x ∈ l, ∃ m, L[x.1]? = some m ∧ ∀ a, x.2 = .ok a → Agg.Returned m a w) → Ok w L (l.foldl Desk.finished d)
  | [], _, h, _ => h
  | x :: l, _, h, hl => Ok.finishes l (h.done (hl x List.mem_cons_self)) fun y hy => hl y (List.mem_cons_of_mem _ hy)

theorem Ok.follow {cfg : Agg.Cfg} {L : List Agg.Msg} {d : Desk} {s s' : Agg.Sys} (h : Ok s'.w L d) (ha : Agg.Answers cfg L s') : Ok s'.w L (d.follow s s') := by
  refine Ok.finishes _ (Ok.confirms _ h ?_) fun x hx => ha.done x (List.mem_of_mem_drop hx)
  intro x hx
  obtain ⟨o, h1, h2⟩ := List.mem_filterMap.1 hx
  exact ⟨o, List.mem_of_mem_drop h1, h2⟩

theorem opOf_cid {m : Agg.Msg} {op : Op} {cid : Option Str} (h : opOf m = some (op, cid)) (hne : op ≠ .reserve) : ∃ c, cid = some c := by
  cases m <;> simp only [opOf, Option.some.injEq, Prod.mk.injEq, reduceCtorEq] at h
  · exact absurd h.1.symm hne
  all_goals exact ⟨_, h.2.symm⟩

theorem Ok.receive {w : Agg.World} {L : List Agg.Msg} {d : Desk} (h : Ok w L d) {m : Agg.Msg} {hdr : Hdr} : Ok w (L ++ [m]) (d.receive L.length hdr m) := by
  have hw : Ok w (L ++ [m]) d := h.world (.refl w) fun _ h => h
  unfold Desk.receive
  cases hop : opOf m with
  | none => exact hw
  | some x =>
    obtain ⟨op, cid⟩ := x
    obtain ⟨used, u1, u2, u3⟩ := h.once
    have hnew : d.asked.length ∉ used := fun hc => Nat.lt_irrefl _ (u2 _ hc)
    have hlt : ∀ t ∈ d.tickets, t.2.1 < d.asked.length := fun t ht => by
      obtain ⟨_, _, _, h2, _⟩ := h.tickets t ht
      exact (List.getElem?_eq_some_iff.1 h2).1
    have htick : ∀ t ∈ (L.length, (d.asked.length, op, hdr)) :: d.tickets, ∃ m' c?, (L ++ [m])[t.1]? = some m' ∧
        (d.asked ++ [(hdr, m)])[t.2.1]? = some (t.2.2.2, m') ∧ opOf m' = some (t.2.2.1, c?) := by
      intro t ht
      rcases List.mem_cons.1 ht with rfl | ht
      · exact ⟨m, cid, by simp, by simp, hop⟩
      · obtain ⟨m', c?, h1, h2, h3⟩ := h.tickets t ht
        exact ⟨m', c?, Agg.getElem?_append_some h1, Agg.getElem?_append_some h2, h3⟩
    have hdis : ∀ t ∈ (L.length, (d.asked.length, op, hdr)) :: d.tickets, ∀ t' ∈ (L.length, (d.asked.length, op, hdr)) :: d.tickets, t.2.1 = t'.2.1 → t = t' := by
      intro t ht t' ht' e
      rcases List.mem_cons.1 ht with rfl | ht <;> rcases List.mem_cons.1 ht' with rfl | ht'
      · rfl
      · have := hlt t' ht'; simp only at e; omega
      · have := hlt t ht; simp only at e; omega
      · exact h.distinct t ht t' ht' e
    have base : Ok w (L ++ [m]) { d with asked := d.asked ++ [(hdr, m)], tickets := (L.length, (d.asked.length, op, hdr)) :: d.tickets } := by
      refine ⟨h.known, h.told, fun e he => (h.ground e he).asked, htick, hdis, used, u1, fun r hr => by have := u2 r hr; simp; omega, ?_⟩
      intro t ht hres
      rcases List.mem_cons.1 ht with rfl | ht
      · exact hnew
      · exact u3 t ht hres
    simp only
    split
    · exact base
    · rename_i hne
      have hcid : ∃ c, cid = some c := opOf_cid hop hne
      obtain ⟨c, rfl⟩ := hcid
      refine ⟨base.known.step _, base.told.step base.known _, ?_, base.tickets, base.distinct, d.asked.length :: used, ?_, ?_, ?_⟩
      · intro e he
        rcases List.mem_append.1 he with he | he
        · exact base.ground e he
        · rw [List.mem_singleton.1 he]
          exact ⟨m, by simp [Desk.tell], hop⟩
      · exact u1.step (.request op d.asked.length hdr c) (by simpa [Ev.asks] using hnew)
      · intro r hr
        simp only [Desk.tell, List.length_append, List.length_singleton]
        rcases List.mem_cons.1 hr with rfl | hr
        · omega
        · have := u2 r hr; omega
      · intro t ht hres
        rcases List.mem_cons.1 ht with rfl | ht
        · exact absurd hres hne
        · intro hc
          rcases List.mem_cons.1 hc with hc | hc
          · have := hlt t ht; omega
          · exact u3 t ht hres hc

theorem Ok.restart {w : Agg.World} {L : List Agg.Msg} {d : Desk} (h : Ok w L d) : Ok w.restart [] d.restart := by
  obtain ⟨used, u1, u2, _⟩ := h.once
  refine ⟨⟨by simp [Desk.restart, Prov.new], h.known.2.1, by simp [Desk.restart, Prov.new], h.known.2.2.2⟩, h.told, ?_, by simp [Desk.restart], by simp [Desk.restart],
    used, ?_, u2, by simp [Desk.restart]⟩
  · intro e he
    exact (h.ground e he).world (w' := w.restart) (fun _ _ h => h) fun _ h => h
  · exact ⟨by simp [Desk.restart, Prov.new, dkeys], by simp [Desk.restart, Prov.new], by simp [Desk.restart, Prov.new], u1.out, by simp [Desk.restart, Prov.new, dkeys],
      by simp [Desk.restart, Prov.new], by simp [Desk.restart, Prov.new], u1.sout⟩

end OpenNSA.Front
