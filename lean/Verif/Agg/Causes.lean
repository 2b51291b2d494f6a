import Verif.Agg.PropsComplete
/-
Causality of what is told to requesters (C90): vocabulary and invariant. `T` is the list of all messages received in the execution,
each with the state in which it was received.
-/
namespace OpenNSA.Agg
open OpenNSA Py Coro

/-- That message was received. -/
def Heard (T : List (Msg × World)) (m : Msg) : Prop := ∃ w, (m, w) ∈ T

/-- A reserve call was answered: a confirmation or a failure with its correlation id was received from the provider it was sent to. -/
def PCall.Answered (T : List (Msg × World)) (c : PCall) : Prop :=
  ∃ h : RHdr, h.corr = c.corr ∧ h.prov = c.prov ∧ ((∃ seg crit, Heard T (.reserveConfirmed h seg crit)) ∨ Heard T (.reserveFailed h))

/-- The connection a reserve call is for. -/
def PCall.reserves (c : PCall) (cid : Str) : Prop := ∃ src dst start end_ bw, c.op = .reserve cid src dst start end_ bw

/-- What the states of a stored segment stem from. -/
structure SegOk (T : List (Msg × World)) (s : SRow) : Prop where
  made : ∃ h c w0, (Msg.reserveConfirmed h s.cid c, w0) ∈ T ∧ h.prov = s.prov ∧ s.src = c.src ∧ s.dst = c.dst ∧
    ∃ row ∈ w0.conns, row.key = s.skey ∧ ∃ x ∈ w0.sent, x.corr = h.corr ∧ x.prov = h.prov ∧ x.reserves row.cid
  prov : s.st.p = .provisioned → ∃ h, Heard T (.provisionConfirmed h s.cid)
  term : s.st.l = .terminated → ∃ h, Heard T (.terminateConfirmed h s.cid)
  done : s.st.r = .start → ∃ h, Heard T (.commitConfirmed h s.cid) ∨ Heard T (.abortConfirmed h s.cid)
  late : s.st.r = .timeout → ∃ h n, Heard T (.timeout h s.cid n)
  active : s.dpActive = true → ∃ h v c, Heard T (.dataPlane h s.cid true v c)

/-- What the states of a connection stem from. -/
structure ConnOk (T : List (Msg × World)) (c : CRow) : Prop where
  prov : c.st.p = .provisioning → ∃ h, Heard T (.provision h c.cid)
  rel : c.st.p = .releasing → ∃ h, Heard T (.release h c.cid)
  commit : c.st.r = .committing → ∃ h, Heard T (.commit h c.cid)
  abort : c.st.r = .aborting → ∃ h, Heard T (.abort h c.cid)

/-- The common form of the causes of a message about a connection: a message `m` about a segment of the connection was received in a
state `w0` (`trig` relates messages to segments), and everything holds for all segments that were stored then. -/
def Because (T : List (Msg × World)) (w : World) (cid : Str) (trig : Msg → Str → Prop) (conf : World → Str → Prop) : Prop :=
  ∃ row ∈ w.conns, row.cid = cid ∧ ∃ m seg w0, (m, w0) ∈ T ∧ trig m seg ∧ seg ∈ segCids w row.key ∧ ∀ c ∈ segCids w0 row.key, conf w0 c

/-- The causes of a message to a requester. -/
def Out.Caused (T : List (Msg × World)) (w : World) : Out → Prop
  | .provisionConfirmed _ cid => (∃ h, Heard T (.provision h cid)) ∧
      Because T w cid (fun m seg => ∃ h, m = .provisionConfirmed h seg) fun _ c => ∃ h, Heard T (.provisionConfirmed h c)
  | .releaseConfirmed _ cid => (∃ h, Heard T (.release h cid)) ∧ Because T w cid (fun m seg => ∃ h, m = .releaseConfirmed h seg) fun _ _ => True
  | .reserveCommitConfirmed _ cid => (∃ h, Heard T (.commit h cid) ∨ Heard T (.abort h cid)) ∧
      Because T w cid (fun m seg => ∃ h, m = .commitConfirmed h seg) fun _ c => ∃ h, Heard T (.commitConfirmed h c) ∨ Heard T (.abortConfirmed h c)
  | .reserveAbortConfirmed _ cid => (∃ h, Heard T (.commit h cid) ∨ Heard T (.abort h cid)) ∧
      Because T w cid (fun m seg => ∃ h, m = .abortConfirmed h seg) fun _ c => ∃ h, Heard T (.commitConfirmed h c) ∨ Heard T (.abortConfirmed h c)
  | .terminateConfirmed _ cid => Because T w cid (fun m seg => ∃ h, m = .terminateConfirmed h seg) fun _ c => ∃ h, Heard T (.terminateConfirmed h c)
  | .reserveTimeout _ cid n => Because T w cid (fun m seg => ∃ h, m = .timeout h seg n) fun _ _ => True
  | .dataPlane _ cid _ dps => Because T w cid (fun m seg => ∃ h a v c, m = .dataPlane h seg a v c) fun _ c =>
      dps.1 = true → ∃ h v co, Heard T (.dataPlane h c true v co)
  | .errorEvent _ cid n => Because T w cid (fun m seg => ∃ h, m = .errorEvent h seg n) fun _ _ => True
  | .reserveFailed _ cid => ∃ h, Heard T (.reserveFailed h) ∧ ∃ c ∈ w.sent, c.corr = h.corr ∧ c.prov = h.prov ∧ c.reserves cid
  | .reserveConfirmed _ cid _ _ _ _ _ => ∃ row ∈ w.conns, row.cid = cid ∧ ∃ h seg crit w0, (Msg.reserveConfirmed h seg crit, w0) ∈ T ∧
      seg ∈ segCids w row.key ∧ (∃ c ∈ w.sent, c.corr = h.corr ∧ c.prov = h.prov ∧ c.reserves cid) ∧ ((w.sent.map (·.corr)).Nodup → ∀ c ∈ w0.sent, c.reserves cid → c.Answered T)
  | .querySummary _ _ _ | .queryRecursive _ _ _ => True

/-- Every reserve call for the connection is answered or still expected. -/
def Live (T : List (Msg × World)) (cid : Str) (key : Nat) (w : World) : Prop :=
  ∀ c ∈ w.sent, c.reserves cid → c.Answered T ∨ ∃ r, dget w.resv c.corr = some r ∧ r.skey = key ∧ r.prov = c.prov

/-- The invariant. -/
structure CInv (T : List (Msg × World)) (w : World) : Prop where
  conns : ∀ r ∈ w.conns, ConnOk T r
  cheap : ∀ o ∈ w.cheap, ConnOk T o.row
  subs : ∀ s ∈ w.subs, SegOk T s
  sheap : ∀ o ∈ w.sheap, SegOk T o.row
  out : ∀ o ∈ w.outbox, o.Caused T w
  calls : ∀ c ∈ w.sent, ∀ cid, c.reserves cid → ∃ r ∈ w.conns, r.cid = cid
  entries : ∀ e ∈ w.resv, ∃ row ∈ w.conns, row.key = e.2.skey ∧ ∃ c ∈ w.sent, c.corr = e.1 ∧ c.prov = e.2.prov ∧ c.reserves row.cid
  live : (w.sent.map (·.corr)).Nodup → ∀ e ∈ w.resv, ∀ row ∈ w.conns, row.key = e.2.skey → Live T row.cid row.key w

/-- Calls stay answered or expected. -/
def Stays (T : List (Msg × World)) (w w' : World) : Prop := ∀ row ∈ w.conns, Live T row.cid row.key w → Live T row.cid row.key w'

/-- Connection objects that are not stored yet stay so, or all calls for them are answered or expected. -/
def Fresh (T : List (Msg × World)) (w w' : World) : Prop := ∀ (ref : Nat) o, w.cheap[ref]? = some o → o.isNew = true →
  ∃ o', w'.cheap[ref]? = some o' ∧ (o'.isNew = false → ∃ row ∈ w'.conns, row.id = o'.row.id ∧ Live T row.cid row.key w')

/-- Both, as long as correlation ids are unique. -/
def Flow (T : List (Msg × World)) (w w' : World) : Prop := (w'.sent.map (·.corr)).Nodup → Stays T w w' ∧ Fresh T w w'

/-- What others may do meanwhile. -/
def Keep3 (T : List (Msg × World)) (w w' : World) : Prop := Keep2 w w' ∧ Flow T w w'

variable {cfg : Cfg} {T : List (Msg × World)} {α β : Type}

theorem sent_nodup {w w' : World} (h : Grow w w') (hn : (w'.sent.map (·.corr)).Nodup) : (w.sent.map (·.corr)).Nodup :=
  hn.sublist (h.1.map _).sublist

theorem Keep3.refl (w : World) : Keep3 T w w := ⟨.refl w, fun _ => ⟨fun _ _ h => h, fun _ o h1 h2 => ⟨o, h1, fun h => by simp [h2] at h⟩⟩⟩
theorem Keep3.trans {a b c : World} (h : Keep3 T a b) (h' : Keep3 T b c) : Keep3 T a c := by
  refine ⟨h.1.trans h'.1, fun hn => ⟨fun row hr hl => ?_, fun ref o ho hnew => ?_⟩⟩
  · obtain ⟨r, h1, h2⟩ := h.1.1.conns row hr
    simp only [CRow.id, Prod.mk.injEq] at h2
    have := (h'.2 hn).1 r h1 (by rw [h2.1, h2.2.1]; exact (h.2 (sent_nodup h'.1.2 hn)).1 row hr hl)
    rwa [h2.1, h2.2.1] at this
  · obtain ⟨o', h1, h2⟩ := (h.2 (sent_nodup h'.1.2 hn)).2 ref o ho hnew
    cases hn' : o'.isNew with
    | true => exact (h'.2 hn).2 ref o' h1 hn'
    | false =>
      obtain ⟨row, g1, g2, g3⟩ := h2 hn'
      obtain ⟨o2, f1, f2, f3⟩ := IsC.keep h'.1.1 ⟨o', h1, hn', rfl⟩
      obtain ⟨r, e1, e2⟩ := h'.1.1.conns row g1
      refine ⟨o2, f1, fun _ => ⟨r, e1, e2.trans (g2.trans f3.symm), ?_⟩⟩
      have := (h'.2 hn).1 row g1 g3
      simp only [CRow.id, Prod.mk.injEq] at e2
      rwa [e2.1, e2.2.1]

theorem Because.keep {w w' : World} (hk : Keep w w') {cid : Str} {trig : Msg → Str → Prop} {conf : World → Str → Prop} (h : Because T w cid trig conf) :
    Because T w' cid trig conf := by
  obtain ⟨row, h1, h2, m, seg, w0, h3, h4, h5, h6⟩ := h
  obtain ⟨r, g1, g2⟩ := hk.conns row h1
  simp only [CRow.id, Prod.mk.injEq] at g2
  exact ⟨r, g1, g2.2.1.trans h2, m, seg, w0, h3, h4, by rw [g2.1]; exact (hk.segCids _).subset h5, by rw [g2.1]; exact h6⟩

theorem Out.Caused.keep {w w' : World} (hk : Keep2 w w') {o : Out} (h : o.Caused T w) : o.Caused T w' := by
  cases o with
  | provisionConfirmed to_ cid => exact ⟨h.1, h.2.keep hk.1⟩
  | releaseConfirmed to_ cid => exact ⟨h.1, h.2.keep hk.1⟩
  | reserveCommitConfirmed to_ cid => exact ⟨h.1, h.2.keep hk.1⟩
  | reserveAbortConfirmed to_ cid => exact ⟨h.1, h.2.keep hk.1⟩
  | terminateConfirmed to_ cid => exact Because.keep hk.1 h
  | reserveTimeout to_ cid n => exact Because.keep hk.1 h
  | dataPlane to_ cid n dps => exact Because.keep hk.1 h
  | errorEvent to_ cid n => exact Because.keep hk.1 h
  | reserveFailed to_ cid =>
    obtain ⟨hh, h1, c, h2, h3⟩ := h
    exact ⟨hh, h1, c, hk.2.1.subset h2, h3⟩
  | reserveConfirmed to_ cid a b c d e =>
    obtain ⟨row, h1, h2, hh, seg, crit, w0, h3, h4, ⟨x, h6, h7⟩, h5⟩ := h
    obtain ⟨r, g1, g2⟩ := hk.1.conns row h1
    simp only [CRow.id, Prod.mk.injEq] at g2
    exact ⟨r, g1, g2.2.1.trans h2, hh, seg, crit, w0, h3, by rw [g2.1]; exact (hk.1.segCids _).subset h4, ⟨x, hk.2.1.subset h6, h7⟩,
      fun hn => h5 (sent_nodup hk.2 hn)⟩
  | querySummary _ _ _ => trivial
  | queryRecursive _ _ _ => trivial

/-! ### Commands -/

/-- Unsaved objects stay so. -/
def Unsaved (w w' : World) : Prop := ∀ (ref : Nat) o, w.cheap[ref]? = some o → o.isNew = true → ∃ o', w'.cheap[ref]? = some o' ∧ o'.isNew = true

theorem Unsaved.same {w w' : World} (h : w'.cheap = w.cheap) : Unsaved w w' := fun _ o h1 h2 => ⟨o, h ▸ h1, h2⟩
theorem Unsaved.trans {a b c : World} (h : Unsaved a b) (h' : Unsaved b c) : Unsaved a c := by
  intro ref o h1 h2
  obtain ⟨o', g1, g2⟩ := h ref o h1 h2
  exact h' ref o' g1 g2
theorem Unsaved.append {w w' : World} {l : List (Obj CRow)} (h : w'.cheap = w.cheap ++ l) : Unsaved w w' := by
  intro ref o h1 h2
  refine ⟨o, ?_, h2⟩
  rw [h, List.getElem?_append_left (List.getElem?_eq_some_iff.mp h1).1]
  exact h1
theorem Unsaved.fresh {w w' : World} (h : Unsaved w w') : Fresh T w w' := by
  intro ref o h1 h2
  obtain ⟨o', g1, g2⟩ := h ref o h1 h2
  exact ⟨o', g1, fun h => by simp [g2] at h⟩

/-- Calls are answered or expected as before: no reserve call was made, and the expected answers are the same. -/
theorem Stays.of {w w' : World} (hs : ∀ c ∈ w'.sent, c ∈ w.sent ∨ ∀ cid, ¬ c.reserves cid) (hr : w'.resv = w.resv) : Stays T w w' := by
  intro row _ hl c hc hres
  rcases hs c hc with h | h
  · rw [hr]; exact hl c h hres
  · exact absurd hres (h _)

theorem Flow.of {w w' : World} (hs : ∀ c ∈ w'.sent, c ∈ w.sent ∨ ∀ cid, ¬ c.reserves cid) (hr : w'.resv = w.resv) (hu : Unsaved w w') : Flow T w w' :=
  fun _ => ⟨.of hs hr, hu.fresh⟩

theorem CInv.make {w w' : World} (h : CInv T w) (hk : Keep2 w w') (hc : ∀ r ∈ w'.conns, ConnOk T r) (hch : ∀ o ∈ w'.cheap, ConnOk T o.row)
    (hs : ∀ s ∈ w'.subs, SegOk T s) (hsh : ∀ o ∈ w'.sheap, SegOk T o.row) (ho : ∀ o ∈ w'.outbox, o ∈ w.outbox ∨ o.Caused T w')
    (hcall : ∀ c ∈ w'.sent, c ∈ w.sent ∨ ∀ cid, ¬ c.reserves cid) (hresv : ∀ e ∈ w'.resv, e ∈ w.resv) (hf : Flow T w w')
    (hrow : ∀ r' ∈ w'.conns, (∃ r ∈ w.conns, r.id = r'.id) ∨ ∀ e ∈ w.resv, r'.key ≠ e.2.skey) : CInv T w' := by
  refine ⟨hc, hch, hs, hsh, fun o hm => ?_, fun c hm cid hres => ?_, fun e he => ?_, fun hn e he row hr hkey => ?_⟩
  · rcases ho o hm with h' | h'
    · exact (h.out o h').keep hk
    · exact h'
  · rcases hcall c hm with h' | h'
    · obtain ⟨r, h1, h2⟩ := h.calls c h' cid hres
      obtain ⟨r', g1, g2⟩ := hk.1.conns r h1
      simp only [CRow.id, Prod.mk.injEq] at g2
      exact ⟨r', g1, g2.2.1.trans h2⟩
    · exact absurd hres (h' cid)
  · obtain ⟨row, h1, h2, c, h3, h4, h5, h6⟩ := h.entries e (hresv e he)
    obtain ⟨r, g1, g2⟩ := hk.1.conns row h1
    simp only [CRow.id, Prod.mk.injEq] at g2
    exact ⟨r, g1, g2.1.trans h2, c, hk.2.1.subset h3, h4, h5, by rw [g2.2.1]; exact h6⟩
  · rcases hrow row hr with ⟨r, h1, h2⟩ | h'
    · simp only [CRow.id, Prod.mk.injEq] at h2
      have := (hf hn).1 r h1 (h.live (sent_nodup hk.2 hn) e (hresv e he) r h1 (h2.1.trans hkey))
      rwa [h2.1, h2.2.1] at this
    · exact absurd hkey (h' e (hresv e he))

/-- What look-ups leave alone. -/
structure Idle (w w' : World) : Prop where
  conns : w'.conns = w.conns
  subs : w'.subs = w.subs
  resv : w'.resv = w.resv
  cheap : ∀ o ∈ w'.cheap, o ∈ w.cheap ∨ o.row ∈ w.conns
  sheap : ∀ o ∈ w'.sheap, o ∈ w.sheap ∨ o.row ∈ w.subs
  out : ∀ o ∈ w'.outbox, o ∈ w.outbox ∨ o.dest = none
  sent : ∀ c ∈ w'.sent, c ∈ w.sent ∨ ∀ cid, ¬ c.reserves cid
  grow : Grow w w'
  unsaved : Unsaved w w'

theorem Idle.refl (w : World) : Idle w w :=
  ⟨rfl, rfl, rfl, fun _ h => .inl h, fun _ h => .inl h, fun _ h => .inl h, fun _ h => .inl h, .refl w, .same rfl⟩

theorem Idle.trans {a b c : World} (h : Idle a b) (h' : Idle b c) : Idle a c := by
  refine ⟨h'.conns.trans h.conns, h'.subs.trans h.subs, h'.resv.trans h.resv, fun o ho => ?_, fun o ho => ?_, fun o ho => ?_, fun o ho => ?_, h.grow.trans h'.grow, h.unsaved.trans h'.unsaved⟩
  · rcases h'.cheap o ho with h1 | h1
    · exact h.cheap o h1
    · exact .inr (h.conns ▸ h1)
  · rcases h'.sheap o ho with h1 | h1
    · exact h.sheap o h1
    · exact .inr (h.subs ▸ h1)
  · rcases h'.out o ho with h1 | h1
    · exact h.out o h1
    · exact .inr h1
  · rcases h'.sent o ho with h1 | h1
    · exact h.sent o h1
    · exact .inr h1

theorem Idle.same {w w' : World} (h1 : w'.conns = w.conns) (h2 : w'.subs = w.subs) (h3 : w'.resv = w.resv) (h4 : w'.cheap = w.cheap)
    (h5 : w'.sheap = w.sheap) (h6 : w'.outbox = w.outbox) (h7 : w'.sent = w.sent) : Idle w w' :=
  ⟨h1, h2, h3, fun _ h => .inl (h4 ▸ h), fun _ h => .inl (h5 ▸ h), fun _ h => .inl (h6 ▸ h), fun _ h => .inl (h7 ▸ h),
    by rw [Grow, h6, h7]; exact Grow.refl w, .same h4⟩

theorem Out.caused_none {o : Out} (h : o.dest = none) (w : World) : o.Caused T w := by
  cases o <;> simp [Out.dest] at h <;> trivial

theorem Idle.flow {w w' : World} (h : Idle w w') : Flow T w w' := .of h.sent h.resv h.unsaved

theorem Idle.inv {w w' : World} (hk : Keep w w') (h : Idle w w') (hi : CInv T w) : CInv T w' := by
  refine hi.make ⟨hk, h.grow⟩ (by rw [h.conns]; exact hi.conns) (fun o ho => ?_) (by rw [h.subs]; exact hi.subs) (fun o ho => ?_) (fun o ho => ?_) h.sent
    (by rw [h.resv]; exact fun _ h => h) h.flow (by rw [h.conns]; exact fun r hr => .inl ⟨r, hr, rfl⟩)
  · rcases h.cheap o ho with h1 | h1
    · exact hi.cheap o h1
    · exact hi.conns _ h1
  · rcases h.sheap o ho with h1 | h1
    · exact hi.sheap o h1
    · exact hi.subs _ h1
  · exact (h.out o ho).imp id fun h => Out.caused_none h _

theorem findSubs_objs : ∀ (l : List (Str × Str)) (w : World) (o : Obj SRow), o ∈ (w.findSubs l).1.sheap → o ∈ w.sheap ∨ o.row ∈ w.subs
  | [], w, o, h => .inl h
  | x :: xs, w, o, h => by
    simp only [World.findSubs] at h
    have h1 := findSubs_objs xs _ o h
    unfold World.findSub at h1
    split at h1
    · exact h1
    · rename_i r hr
      simp only [List.mem_append, List.mem_singleton] at h1
      rcases h1 with (h1 | h1) | h1
      · exact .inl h1
      · rw [h1]; exact .inr (List.mem_of_find?_eq_some hr)
      · exact .inr h1

/-- The commands of look-ups. -/
def Cmd.idle {β : Type} : Cmd β → Prop
  | .existsConn _ | .findConnByKey _ | .findConn _ | .selectSubs _ | .findSubs _ | .findConns _ _ | .newCid | .acks _ | .getC _ | .getS _
  | .cachedC _ | .cacheC _ _ | .cachedS _ | .cacheS _ _ | .getResv _ | .outstanding _ | .newCorr | .notifId | .addQReq _ _ | .getQReq _
  | .getQCall _ | .setQCall _ _ _ | .qResults _ | .popQuery _ => True
  | .send c => ∀ cid, ¬ c.reserves cid
  | .emit o => o.dest = none
  | _ => False

theorem Cmd.idle.exec {c : Cmd β} (h : c.idle) (w : World) : Idle w (exec w c).1 := by
  cases c with
  | findConn cid =>
    simp only [Agg.exec]
    split
    · exact .refl w
    · rename_i r hr
      refine ⟨rfl, rfl, rfl, fun o ho => ?_, fun _ h => .inl h, fun _ h => .inl h, fun _ h => .inl h, .refl w, .append rfl⟩
      simp only [List.mem_append, List.mem_singleton] at ho
      rcases ho with ho | ho
      · exact .inl ho
      · rw [ho]; exact .inr (List.mem_of_find?_eq_some hr)
  | findSubs l =>
    simp only [Agg.exec]
    have := findSubs_objs l w
    rw [findSubs_frame] at this ⊢
    exact ⟨rfl, rfl, rfl, fun _ h => .inl h, this, fun _ h => .inl h, fun _ h => .inl h, .refl w, .same rfl⟩
  | newCid => simp only [Agg.exec]; split <;> exact .same rfl rfl rfl rfl rfl rfl rfl
  | newCorr => simp only [Agg.exec]; split <;> exact .same rfl rfl rfl rfl rfl rfl rfl
  | acks n => simp only [Agg.exec]; rw [acks_frame]; exact .same rfl rfl rfl rfl rfl rfl rfl
  | getC ref => simp only [Agg.exec]; split <;> exact .refl w
  | getS ref => simp only [Agg.exec]; split <;> exact .refl w
  | send x =>
    refine ⟨rfl, rfl, rfl, fun _ h => .inl h, fun _ h => .inl h, fun _ h => .inl h, fun c hc => ?_, exec_grow _ w, .same rfl⟩
    rcases List.mem_append.mp hc with hc | hc
    · exact .inl hc
    · rw [List.mem_singleton.mp hc]; exact .inr h
  | emit x =>
    refine ⟨rfl, rfl, rfl, fun _ h => .inl h, fun _ h => .inl h, fun c hc => ?_, fun _ h => .inl h, exec_grow _ w, .same rfl⟩
    rcases List.mem_append.mp hc with hc | hc
    · exact .inl hc
    · rw [List.mem_singleton.mp hc]; exact .inr h
  | saveC _ | saveS _ | saveSs _ | newC _ | newS _ | setC _ _ | setS _ _ | popResv _ | addResv _ _ => exact absurd h id
  | _ => exact .same rfl rfl rfl rfl rfl rfl rfl

/-- What a command needs. -/
def Cmd.Just (T : List (Msg × World)) (w : World) {β : Type} : Cmd β → Prop
  | .newC row | .setC _ row => ConnOk T row
  | .newS row | .setS _ row => SegOk T row
  | .emit o => o.Caused T w
  | .send c => ∀ cid, ¬ c.reserves cid
  | .popResv corr => ∃ h : RHdr, h.corr = corr ∧ ((∃ seg crit, Heard T (.reserveConfirmed h seg crit)) ∨ Heard T (.reserveFailed h)) ∧
      ∀ r, dget w.resv corr = some r → h.prov = r.prov
  | .addResv _ _ => False
  | _ => True

theorem mem_set {γ : Type} {l : List γ} {n : Nat} {a x : γ} (h : x ∈ l.set n a) : x ∈ l ∨ x = a := List.mem_or_eq_of_mem_set h

theorem ConnOk.key {row : CRow} (h : ConnOk T row) (k : Nat) : ConnOk T { row with key := k } := ⟨h.prov, h.rel, h.commit, h.abort⟩
theorem SegOk.key {row : SRow} (h : SegOk T row) (k : Nat) : SegOk T { row with key := k } := ⟨h.made, h.prov, h.term, h.done, h.late, h.active⟩

theorem CInv.saveS {w : World} (hi : Ids cfg w) (h : CInv T w) (ref : Nat) : CInv T (w.saveS ref).1 ∧ Flow T w (w.saveS ref).1 := by
  have hk : Keep2 w (w.saveS ref).1 := ⟨(hi.saveS ref).2, saveS_grow w ref⟩
  have hb := saveS_base w ref
  have hc := saveS_frameC w ref
  have hch : (w.saveS ref).1.cheap = w.cheap := by
    unfold World.saveS
    split
    · rfl
    · split
      · split <;> rfl
      · rfl
  have hf : Flow T w (w.saveS ref).1 := .of (fun c hm => .inl (hb.sent ▸ hm)) hb.resv (.same hch)
  refine ⟨h.make hk (by rw [hc.1]; exact h.conns) (by rw [hch]; exact h.cheap) ?_ ?_ (fun o ho => .inl (hb.outbox ▸ ho))
    (fun c hm => .inl (hb.sent ▸ hm)) (by rw [hb.resv]; exact fun _ h => h) hf (by rw [hc.1]; exact fun r hr => .inl ⟨r, hr, rfl⟩), hf⟩
  · intro s hs
    unfold World.saveS at hs
    split at hs
    · exact h.subs s hs
    · rename_i o ho
      have hr := h.sheap o (List.mem_of_getElem? ho)
      split at hs
      · split at hs
        · exact h.subs s hs
        · rcases List.mem_append.mp hs with hs | hs
          · exact h.subs s hs
          · rw [List.mem_singleton.mp hs]; exact hr.key _
      · obtain ⟨r0, h0, rfl⟩ := List.mem_map.mp hs
        split
        · exact hr
        · exact h.subs r0 h0
  · intro s hs
    unfold World.saveS at hs
    split at hs
    · exact h.sheap s hs
    · rename_i o ho
      have hr := h.sheap o (List.mem_of_getElem? ho)
      split at hs
      · split at hs
        · exact h.sheap s hs
        · rcases mem_set hs with hs | rfl
          · exact h.sheap s hs
          · exact hr.key _
      · exact h.sheap s hs

theorem CInv.saveSs {w : World} (hi : Ids cfg w) (h : CInv T w) (refs : List Nat) : CInv T (w.saveSs refs) ∧ Keep3 T w (w.saveSs refs) := by
  induction refs generalizing w with
  | nil => exact ⟨h, .refl w⟩
  | cons r rs ih =>
    have h1 := h.saveS hi r
    have h2 := ih (hi.saveS r).1 h1.1
    exact ⟨h2.1, Keep3.trans ⟨⟨(hi.saveS r).2, saveS_grow w r⟩, h1.2⟩ h2.2⟩

theorem CInv.saveC {w : World} (hi : Ids cfg w) (h : CInv T w) (ref : Nat) : CInv T (w.saveC ref).1 ∧ Flow T w (w.saveC ref).1 := by
  have hk : Keep2 w (w.saveC ref).1 := ⟨(hi.saveC ref).2.1, by simpa [exec] using exec_grow (.saveC ref) w⟩
  revert hk
  unfold World.saveC
  split
  · exact fun _ => ⟨h, (Keep3.refl w).2⟩
  · rename_i o ho
    have hr := h.cheap o (List.mem_of_getElem? ho)
    split
    · split
      · exact fun _ => ⟨h, (Keep3.refl w).2⟩
      · intro hk
        rename_i hnew huniq
        have hf : Flow T w { w with conns := w.conns ++ [{ o.row with key := w.ckey }], cheap := w.cheap.set ref ⟨{ o.row with key := w.ckey }, false⟩, ckey := w.ckey + 1 } := by
          refine fun _ => ⟨.of (fun _ h => .inl h) rfl, fun ref' o' h1 h2 => ?_⟩
          by_cases hr' : ref = ref'
          · subst hr'
            refine ⟨_, List.getElem?_set_self (List.getElem?_eq_some_iff.mp ho).1, fun _ => ⟨_, List.mem_append_right _ (List.mem_singleton_self _), rfl, ?_⟩⟩
            intro c hc hres
            obtain ⟨r, g1, g2⟩ := h.calls c hc _ hres
            simp only [Bool.or_eq_true, List.any_eq_true, decide_eq_true_eq, not_or, not_exists, not_and] at huniq
            exact absurd g2 (huniq.1 r g1)
          · exact ⟨o', by simp only [List.getElem?_set_ne hr', h1], fun h => by simp [h2] at h⟩
        refine ⟨h.make hk ?_ ?_ h.subs h.sheap (fun _ h => .inl h) (fun _ h => .inl h) (fun _ h => h) hf ?_, hf⟩
        · intro r hm
          rcases List.mem_append.mp hm with hm | hm
          · exact h.conns r hm
          · rw [List.mem_singleton.mp hm]; exact hr.key _
        · intro s hs
          rcases mem_set hs with hs | rfl
          · exact h.cheap s hs
          · exact hr.key _
        · intro r hm
          rcases List.mem_append.mp hm with hm | hm
          · exact .inl ⟨r, hm, rfl⟩
          · refine .inr fun e he heq => ?_
            obtain ⟨x, hx, hxk⟩ := hi.rfk e he
            have := hi.ckeyb x hx
            rw [List.mem_singleton.mp hm] at heq
            simp only at heq
            omega
    · rename_i hn
      intro hk
      refine ⟨h.make hk ?_ h.cheap h.subs h.sheap (fun _ h => .inl h) (fun _ h => .inl h) (fun _ h => h) (.of (fun _ h => .inl h) rfl (.same rfl)) ?_, .of (fun _ h => .inl h) rfl (.same rfl)⟩
      · intro r hm
        obtain ⟨r0, h0, rfl⟩ := List.mem_map.mp hm
        split
        · exact hr
        · exact h.conns r0 h0
      · intro r hm
        obtain ⟨r0, h0, rfl⟩ := List.mem_map.mp hm
        split
        · exact .inl (hi.cobj ref o ho (by simpa using hn))
        · exact .inl ⟨r0, h0, rfl⟩

theorem CInv.popResv {w : World} (h : CInv T w) (corr : Str) (hj : (Cmd.popResv corr).Just T w) :
    CInv T (exec w (.popResv corr)).1 ∧ Flow T w (exec w (.popResv corr)).1 := by
  have hk : Keep2 w (exec w (.popResv corr)).1 := ⟨.frame rfl rfl rfl rfl, exec_grow _ w⟩
  have hf : Flow T w (exec w (.popResv corr)).1 := by
    refine fun _ => ⟨fun row _ hl c hc hres => ?_, Unsaved.fresh (.same rfl)⟩
    rcases hl c hc hres with h1 | ⟨r, h1, h2, h3⟩
    · exact .inl h1
    · by_cases hcc : c.corr = corr
      · obtain ⟨hh, g1, g2, g3⟩ := hj
        exact .inl ⟨hh, g1.trans hcc.symm, (g3 r (hcc ▸ h1)).trans h3, g2⟩
      · refine .inr ⟨r, ?_, h2, h3⟩
        simp only [exec]
        rw [dget_ddel, if_neg (fun h => hcc h.symm)]
        exact h1
  refine ⟨h.make hk h.conns h.cheap h.subs h.sheap (fun _ h => .inl h) (fun _ h => .inl h) ?_ hf fun r hr => .inl ⟨r, hr, rfl⟩, hf⟩
  intro e he
  exact (mem_ddel_iff.mp he).2

theorem CInv.exec {w : World} (hi : Ids cfg w) (h : CInv T w) (c : Cmd β) (hg : c.Guard cfg w) (hj : c.Just T w) :
    CInv T (exec w c).1 ∧ Keep3 T w (exec w c).1 := by
  have hk : Keep2 w (Agg.exec w c).1 := ⟨(hi.exec c hg).2, exec_grow c w⟩
  suffices hh : CInv T (Agg.exec w c).1 ∧ Flow T w (Agg.exec w c).1 from ⟨hh.1, hk, hh.2⟩
  have hcalm : c.idle → CInv T (Agg.exec w c).1 ∧ Flow T w (Agg.exec w c).1 := fun hc => ⟨(hc.exec w).inv hk.1 h, (hc.exec w).flow⟩
  cases c with
  | saveC ref => exact h.saveC hi ref
  | saveS ref => exact h.saveS hi ref
  | saveSs refs => exact ⟨(h.saveSs hi refs).1, (h.saveSs hi refs).2.2⟩
  | popResv corr => exact h.popResv corr hj
  | addResv _ _ => exact absurd hj id
  | newC row =>
    refine ⟨h.make hk h.conns ?_ h.subs h.sheap (fun _ h => .inl h) (fun _ h => .inl h) (fun _ h => h) (.of (fun _ h => .inl h) rfl (.append rfl))
      fun r hr => .inl ⟨r, hr, rfl⟩, .of (fun _ h => .inl h) rfl (.append rfl)⟩
    intro o ho
    rcases List.mem_append.mp ho with ho | ho
    · exact h.cheap o ho
    · rw [List.mem_singleton.mp ho]; exact hj
  | newS row =>
    refine ⟨h.make hk h.conns h.cheap h.subs ?_ (fun _ h => .inl h) (fun _ h => .inl h) (fun _ h => h) (.of (fun _ h => .inl h) rfl (.same rfl))
      fun r hr => .inl ⟨r, hr, rfl⟩, .of (fun _ h => .inl h) rfl (.same rfl)⟩
    intro o ho
    rcases List.mem_append.mp ho with ho | ho
    · exact h.sheap o ho
    · rw [List.mem_singleton.mp ho]; exact hj
  | setC ref row =>
    revert hk
    simp only [Agg.exec]
    split
    · exact fun _ => ⟨h, (Keep3.refl w).2⟩
    · rename_i o0 ho0
      intro hk
      have hu : Unsaved w { w with cheap := w.cheap.set ref { o0 with row } } := by
        intro ref' o' h1 h2
        by_cases hr' : ref = ref'
        · subst hr'
          obtain rfl := Option.some.inj (ho0.symm.trans h1)
          exact ⟨_, List.getElem?_set_self (List.getElem?_eq_some_iff.mp ho0).1, h2⟩
        · exact ⟨o', by simp only [List.getElem?_set_ne hr', h1], h2⟩
      refine ⟨h.make hk h.conns ?_ h.subs h.sheap (fun _ h => .inl h) (fun _ h => .inl h) (fun _ h => h) (.of (fun _ h => .inl h) rfl hu)
        fun r hr => .inl ⟨r, hr, rfl⟩, .of (fun _ h => .inl h) rfl hu⟩
      intro o ho
      rcases mem_set ho with ho | rfl
      · exact h.cheap o ho
      · exact hj
  | setS ref row =>
    revert hk
    simp only [Agg.exec]
    split
    · exact fun _ => ⟨h, (Keep3.refl w).2⟩
    · intro hk
      refine ⟨h.make hk h.conns h.cheap h.subs ?_ (fun _ h => .inl h) (fun _ h => .inl h) (fun _ h => h) (.of (fun _ h => .inl h) rfl (.same rfl))
        fun r hr => .inl ⟨r, hr, rfl⟩, .of (fun _ h => .inl h) rfl (.same rfl)⟩
      intro o ho
      rcases mem_set ho with ho | rfl
      · exact h.sheap o ho
      · exact hj
  | send x => exact hcalm hj
  | emit o =>
    refine ⟨h.make hk h.conns h.cheap h.subs h.sheap ?_ (fun _ h => .inl h) (fun _ h => h) (.of (fun _ h => .inl h) rfl (.same rfl))
      fun r hr => .inl ⟨r, hr, rfl⟩, .of (fun _ h => .inl h) rfl (.same rfl)⟩
    intro x hx
    rcases List.mem_append.mp hx with hx | hx
    · exact .inl hx
    · rw [List.mem_singleton.mp hx]; exact .inr (Out.Caused.keep hk hj)
  | _ => exact hcalm trivial

/-- A reserve call, with the entry for its answer. -/
theorem CInv.reserveCall {w : World} (hi : Ids cfg w) (h : CInv T w) {row : CRow} (hr : row ∈ w.conns) {corr : Str} {e : Resv} {x : PCall}
    (hx : x.reserves row.cid) (hc : x.corr = corr) (hek : e.skey = row.key) (hep : e.prov = x.prov)
    (hl : (w.sent.map (·.corr)).Nodup → Live T row.cid row.key w) :
    CInv T { w with resv := dset w.resv corr e, sent := w.sent ++ [x] } ∧ Keep3 T w { w with resv := dset w.resv corr e, sent := w.sent ++ [x] } ∧
      ((({ w with resv := dset w.resv corr e, sent := w.sent ++ [x] } : World).sent.map (·.corr)).Nodup →
        Live T row.cid row.key { w with resv := dset w.resv corr e, sent := w.sent ++ [x] }) := by
  have hk : Keep2 w { w with resv := dset w.resv corr e, sent := w.sent ++ [x] } :=
    ⟨.frame rfl rfl rfl rfl, List.prefix_append _ _, List.prefix_refl _⟩
  have hf : Flow T w { w with resv := dset w.resv corr e, sent := w.sent ++ [x] } := by
    refine fun hn => ⟨fun row' hr' hl' c hm hres => ?_, Unsaved.fresh (.same rfl)⟩
    simp only [List.mem_append, List.mem_singleton] at hm
    rcases hm with hm | rfl
    · have hne : c.corr ≠ corr := by
        intro heq
        simp only [List.map_append, List.map_cons, List.map_nil] at hn
        exact (List.nodup_append.mp hn).2.2 c.corr (List.mem_map.mpr ⟨c, hm, rfl⟩) x.corr (by simp) (heq.trans hc.symm)
      rcases hl' c hm hres with h1 | ⟨r, h1, h2, h3⟩
      · exact .inl h1
      · refine .inr ⟨r, ?_, h2, h3⟩
        simp only
        rw [dget_dset, if_neg (fun h => hne h.symm)]
        exact h1
    · have hcid : row'.cid = row.cid := by
        obtain ⟨a1, a2, a3, a4, a5, ha⟩ := hres
        obtain ⟨b1, b2, b3, b4, b5, hb⟩ := hx
        rw [ha] at hb
        simp only [POp.reserve.injEq] at hb
        exact hb.1
      have hrr : row' = row := List.inj_on_of_nodup_map hi.ccids hr' hr hcid
      refine .inr ⟨e, ?_, by rw [hrr]; exact hek, hep⟩
      simp only
      rw [dget_dset, if_pos hc.symm]
  refine ⟨⟨h.conns, h.cheap, h.subs, h.sheap, fun o ho => (h.out o ho).keep hk, fun c hm cid hres => ?_, fun e' he' => ?_, fun hn e' he' row' hr' hkey => ?_⟩, ⟨hk, hf⟩,
    fun hn => (hf hn).1 row hr (hl (sent_nodup hk.2 hn))⟩
  · simp only [List.mem_append, List.mem_singleton] at hm
    rcases hm with hm | rfl
    · exact h.calls c hm cid hres
    · obtain ⟨a1, a2, a3, a4, a5, ha⟩ := hres
      obtain ⟨b1, b2, b3, b4, b5, hb⟩ := hx
      rw [ha] at hb
      simp only [POp.reserve.injEq] at hb
      exact ⟨row, hr, hb.1.symm⟩
  · rcases mem_dset_of he' with rfl | he'
    · exact ⟨row, hr, hek.symm, x, List.mem_append_right _ (List.mem_singleton_self x), hc, hep.symm, hx⟩
    · obtain ⟨row', h1, h2, c, h3, h4⟩ := h.entries e' he'
      exact ⟨row', h1, h2, c, List.mem_append_left _ h3, h4⟩
  · have hn' := sent_nodup hk.2 hn
    rcases mem_dset_of he' with rfl | he'
    · have hrr : row' = row := List.inj_on_of_nodup_map hi.ckeys hr' hr (hkey.trans hek)
      rw [hrr]
      exact (hf hn).1 row hr (hl hn')
    · exact (hf hn).1 row' hr' (h.live hn' e' he' row' hr' hkey)

/-! ### Coroutines -/

/-- The coroutine keeps the invariant under interference, and returns a result with `Q`. -/
def CS (cfg : Cfg) (T : List (Msg × World)) {α : Type} (p : Prog α) (w : World) (Q : α → World → Prop) : Prop :=
  Ids cfg w → CInv T w → Safe (fun w => Ids cfg w ∧ CInv T w) (Keep3 T) p w w
    (fun a v0 v => (Ids cfg v ∧ CInv T v) ∧ Keep3 T v0 v ∧ Keep3 T w v ∧ Q a v)

/-- The uninterrupted part may have begun earlier. -/
theorem Safe.before {I : World → Prop} {K : World → World → Prop} (htr : ∀ a b c, K a b → K b c → K a c) (hrefl : ∀ w, K w w) {p : Prog α} :
    ∀ {u w0 w : World} {Q : α → World → World → Prop}, Safe I K p u w Q → K w0 u →
      Safe I K p w0 w (fun a v0 v => ∃ u', K v0 u' ∧ Q a u' v) := by
  induction p with
  | pure a => intro u w0 w Q h hk; exact ⟨u, hk, h⟩
  | throw e => intro u w0 w Q h hk; exact ⟨h.1, htr _ _ _ hk h.2⟩
  | cmd c k ih =>
    intro u w0 w Q h hk
    simp only [Safe] at h ⊢
    split
    · rename_i hc
      rw [if_pos hc] at h
      refine ⟨h.1, htr _ _ _ hk h.2.1, fun w1 h1 h2 => ?_⟩
      have h' := h.2.2 w1 h1 h2
      refine ⟨h'.1, h'.2.1, fun w2 h3 h4 => ?_⟩
      exact Safe.mono (h'.2.2 w2 h3 h4) fun a v0 v hq => ⟨v0, hrefl _, hq⟩
    · rename_i hc
      rw [if_neg hc] at h
      exact ih _ h hk

theorem CS.bind {p : Prog α} {f : α → Prog β} {w : World} {Q : α → World → Prop} {R : β → World → Prop} (hp : CS cfg T p w Q)
    (hf : ∀ a v, Keep3 T w v → Ids cfg v → CInv T v → Q a v → CS cfg T (f a) v R) : CS cfg T (p >>= f) w R := by
  intro hi hc
  refine Safe.bind' (Safe.mono (hp hi hc) ?_)
  rintro a v0 v ⟨h1, h2, h3, h4⟩
  refine Safe.mono (Safe.before (K := Keep3 T) (fun _ _ _ => Keep3.trans) Keep3.refl (hf a v h3 h1.1 h1.2 h4 h1.1 h1.2) h2) ?_
  rintro b u0 u ⟨u', g0, g1, g2, g3, g4⟩
  exact ⟨g1, g0.trans g2, h3.trans g3, g4⟩

theorem CS.pure {a : α} {w : World} {Q : α → World → Prop} (h : Q a w) : CS cfg T (Coro.pure a) w Q :=
  fun hi hc => ⟨⟨hi, hc⟩, .refl w, .refl w, h⟩

theorem CS.throw {e : Err} {w : World} {Q : α → World → Prop} : CS cfg T (Coro.throw e) w Q := fun hi hc => ⟨⟨hi, hc⟩, .refl w⟩

theorem CS.mono {p : Prog α} {w : World} {Q R : α → World → Prop} (hp : CS cfg T p w Q) (h : ∀ a v, Keep3 T w v → Ids cfg v → Q a v → R a v) :
    CS cfg T p w R := fun hi hc => Safe.mono (hp hi hc) fun a _ v h' => ⟨h'.1, h'.2.1, h'.2.2.1, h a v h'.2.2.1 h'.1.1 h'.2.2.2⟩

theorem CS.ofExcept {r : Except Err α} {w : World} : CS cfg T (Coro.ofExcept r) w (fun _ _ => True) :=
  fun hi hc => Safe.ofExcept ⟨hi, hc⟩ (.refl w) fun _ _ => ⟨⟨hi, hc⟩, .refl w, .refl w, trivial⟩

theorem CS.cmd {c : Cmd β} {w : World} {Q : β → World → Prop} (hg : ∀ v, Keep3 T w v → Ids cfg v → CInv T v → c.Guard cfg v ∧ c.Just T v)
    (h : ∀ v b, Keep3 T w v → Ids cfg v → CInv T v → (exec v c).2 = .ok b → ∀ v', Keep3 T (exec v c).1 v' → Ids cfg v' → CInv T v' → Q b v') :
    CS cfg T (issue c) w Q := by
  intro hi hc
  cases ha : c.isAsync with
  | false =>
    have g := hg w (.refl w) hi hc
    have h1 := (hi.exec c g.1).1
    have h2 := hc.exec hi c g.1 g.2
    exact Safe.sync ha (fun b hb => ⟨⟨h1, h2.1⟩, h2.2, h2.2, h w b (.refl w) hi hc hb _ (.refl _) h1 h2.1⟩) (fun e _ => ⟨⟨h1, h2.1⟩, h2.2⟩)
  | true =>
    refine Safe.async ha ⟨hi, hc⟩ (.refl w) (fun w1 k1 i1 => ?_) ?_ Keep3.refl
    · have g := hg w1 k1 i1.1 i1.2
      exact ⟨⟨(i1.1.exec c g.1).1, (i1.2.exec i1.1 c g.1 g.2).1⟩, (i1.2.exec i1.1 c g.1 g.2).2⟩
    · intro w1 b k1 i1 hb w2 k2 i2
      have g := hg w1 k1 i1.1 i1.2
      exact ⟨i2, .refl _, (k1.trans (i1.2.exec i1.1 c g.1 g.2).2).trans k2, h w1 b k1 i1.1 i1.2 hb w2 k2 i2.1 i2.2⟩

theorem CS.cmd' {c : Cmd β} {w : World} (hg : ∀ v, Keep3 T w v → Ids cfg v → CInv T v → c.Guard cfg v ∧ c.Just T v) :
    CS cfg T (issue c) w (fun _ _ => True) := CS.cmd hg fun _ _ _ _ _ _ _ _ _ _ => trivial

/-- Coroutines that only look things up. -/
theorem Safe.idle {p : Prog α} (hp : Issues Cmd.idle p) : ∀ {u w0 w : World} {Q : α → World → World → Prop}, Safe (Ids cfg) Keep p w0 w Q →
    CInv T w0 → Idle w0 w → Keep3 T u w0 →
    Safe (fun w => Ids cfg w ∧ CInv T w) (Keep3 T) p w0 w (fun a v0 v => Q a v0 v ∧ CInv T v0 ∧ Idle v0 v ∧ Keep3 T u v0) := by
  induction p with
  | pure a => intro u w0 w Q h hc hs hu; exact ⟨h, hc, hs, hu⟩
  | throw e => intro u w0 w Q h hc hs _; exact ⟨⟨h.1, hs.inv h.2 hc⟩, ⟨h.2, hs.grow⟩, hs.flow⟩
  | cmd c k ih =>
    intro u w0 w Q h hc hs hu
    simp only [Issues] at hp
    simp only [Safe] at h ⊢
    split
    · rename_i ha
      rw [if_pos ha] at h
      refine ⟨⟨h.1, hs.inv h.2.1 hc⟩, ⟨⟨h.2.1, hs.grow⟩, hs.flow⟩, fun w1 k1 i1 => ?_⟩
      have h' := h.2.2 w1 k1.1.1 i1.1
      have hcalm := hp.1.exec w1
      have hk1 : Keep3 T w1 (Agg.exec w1 c).1 := ⟨⟨h'.2.1, hcalm.grow⟩, hcalm.flow⟩
      refine ⟨⟨h'.1, hcalm.inv h'.2.1 i1.2⟩, hk1, fun w2 k2 i2 => ?_⟩
      have hw : Keep3 T w0 w := ⟨⟨h.2.1, hs.grow⟩, hs.flow⟩
      exact ih _ (hp.2 _) (h'.2.2 w2 k2.1.1 i2.1) i2.2 (.refl _) ((((hu.trans hw).trans k1).trans hk1).trans k2)
    · rename_i ha
      rw [if_neg ha] at h
      exact ih _ (hp.2 _) h hc (hs.trans (hp.1.exec w)) hu

theorem CS.ofSpec {p : Prog α} {w : World} {Q : α → World → Prop} (hp : Spec cfg p w Q) (hc : Issues Cmd.idle p) : CS cfg T p w Q := by
  intro hi hv
  refine Safe.mono (Safe.idle hc (u := w) (hp hi w (.refl w)) hv (.refl w) (.refl w)) ?_
  rintro a v0 v ⟨⟨h1, h2, h3, h4⟩, h5, h6, h7⟩
  have hk : Keep3 T v0 v := ⟨⟨h2, h6.grow⟩, h6.flow⟩
  exact ⟨⟨h1, h6.inv h2 h5⟩, hk, h7.trans hk, h4⟩

end OpenNSA.Agg
