import Verif.Backend.PropsTrace
import Verif.Device.PropsSwitches
import Verif.Device.PropsAcceptVlan
/-
C84: the configuration of the device of a backend in the course of its history.
-/
namespace OpenNSA.Device
open Py OpenNSA.Backend

/-! ### Specification -/

/-- The operations on the device, given the connections (of type `C`) in its terms. -/
def devOps {C : Type} (conn : Str → C) (tr : List DevOp) : List (Op C) :=
  tr.map fun o => if o.up then .up (conn o.cid) else .down (conn o.cid)

/-- The connections in terms of the device: those the manager makes (`getTarget`, called in genericbackend.py:656-657 and 706-707) of
the ports and labels in the rows. -/
def Targets (getTarget : PortMap → Str → Option LabelVal → Except DevErr VlanTarget) (pm : PortMap) (rows : List Row) (conn : Str → VConn) : Prop :=
  ∀ r ∈ rows, (conn r.cid).id = r.cid ∧ getTarget pm r.srcPort r.srcLabel = .ok (conn r.cid).src ∧
    getTarget pm r.dstPort r.dstLabel = .ok (conn r.cid).dst

/-! ### Lemmas -/

theorem devOps_proper {C : Type} [DecidableEq C] {cfg : Cfg} {rows : List Row} {conn : Str → C} {apart : C → C → Prop}
    (inj : ∀ a ∈ rows, ∀ b ∈ rows, conn a.cid = conn b.cid → a.cid = b.cid)
    (ap : ∀ a ∈ rows, ∀ b ∈ rows, a.cid ≠ b.cid → Separate cfg a b → apart (conn b.cid) (conn a.cid)) :
    ∀ (tr : List DevOp) (l : List Str), Backend.Sound cfg rows l tr → l.Nodup → (∀ x ∈ l, ∃ r ∈ rows, r.cid = x) →
      Proper apart (l.reverse.map conn) (devOps conn tr) ∧
      upAfter (l.reverse.map conn) (devOps conn tr) = (replay l tr).reverse.map conn ∧
      ∀ o ∈ devOps conn tr, ∃ r ∈ rows, o.conn = conn r.cid
  | [], l, _, _, _ => ⟨trivial, rfl, by simp [devOps]⟩
  | o :: tr, l, h, hn, hl => by
    obtain ⟨h1, h2⟩ := h
    cases hu : o.up with
    | true =>
      rw [if_pos hu] at h1
      obtain ⟨hc, a, ha, hac, hx⟩ := h1
      have e : replay1 l o = o.cid :: l := by simp [replay1, hu]
      rw [e] at h2
      obtain ⟨i1, i2, i3⟩ := devOps_proper inj ap tr (o.cid :: l) h2 (List.nodup_cons.2 ⟨hc, hn⟩) (by
        intro x hx
        rcases List.mem_cons.1 hx with rfl | hx
        · exact ⟨a, ha, hac⟩
        · exact hl x hx)
      have ed : devOps conn (o :: tr) = .up (conn o.cid) :: devOps conn tr := by simp [devOps, hu]
      have el : (o.cid :: l).reverse.map conn = l.reverse.map conn ++ [conn o.cid] := by simp
      rw [el] at i1 i2
      rw [ed]
      refine ⟨⟨?_, i1⟩, ?_, ?_⟩
      · intro y hy
        obtain ⟨x, hxl, rfl⟩ := List.mem_map.1 hy
        rw [List.mem_reverse] at hxl
        obtain ⟨b, hb, hbx, hs⟩ := hx x hxl
        rw [← hbx, ← hac]
        refine ap a ha b hb ?_ hs
        rw [hac, hbx]
        rintro rfl
        exact hc hxl
      · simp only [upAfter, i2, replay, List.foldl_cons, e]
      · intro p hp
        rcases List.mem_cons.1 hp with rfl | hp
        · exact ⟨a, ha, by rw [hac]; rfl⟩
        · exact i3 p hp
    | false =>
      rw [if_neg (by rw [hu]; simp)] at h1
      have e : replay1 l o = l.filter (· ≠ o.cid) := by simp [replay1, hu]
      rw [e] at h2
      have hsub : ∀ x ∈ l.filter (· ≠ o.cid), ∃ r ∈ rows, r.cid = x := fun x hx => hl x (List.mem_filter.1 hx).1
      obtain ⟨i1, i2, i3⟩ := devOps_proper inj ap tr _ h2 (hn.filter _) hsub
      have ed : devOps conn (o :: tr) = .down (conn o.cid) :: devOps conn tr := by simp [devOps, hu]
      have inj' : ∀ x ∈ l, ∀ y ∈ l, conn x = conn y → x = y := by
        intro x hx y hy he
        obtain ⟨a, ha, rfl⟩ := hl x hx
        obtain ⟨b, hb, rfl⟩ := hl y hy
        exact inj a ha b hb he
      have hnd : (l.reverse.map conn).Nodup := by
        refine nodup_map_on (fun x hx y hy => inj' x (List.mem_reverse.1 hx) y (List.mem_reverse.1 hy)) ?_
        unfold List.Nodup
        rw [List.pairwise_reverse]
        exact hn.imp Ne.symm
      have el : (l.reverse.map conn).erase (conn o.cid) = (l.filter (· ≠ o.cid)).reverse.map conn := by
        rw [hnd.erase_eq_filter, List.filter_map, ← List.filter_reverse]
        congr 1
        refine List.filter_congr fun x hx => ?_
        simp only [Function.comp, ne_eq, decide_not, bne]
        congr 1
        rw [Bool.eq_iff_iff]
        simp only [beq_iff_eq, decide_eq_true_eq]
        exact ⟨fun h => inj' x (List.mem_reverse.1 hx) o.cid h1 h, fun h => by rw [h]⟩
      rw [← el] at i1 i2
      rw [ed]
      refine ⟨⟨?_, i1⟩, ?_, ?_⟩
      · exact List.mem_map.2 ⟨o.cid, List.mem_reverse.2 h1, rfl⟩
      · simp only [upAfter, i2, replay, List.foldl_cons, e]
      · intro p hp
        rcases List.mem_cons.1 hp with rfl | hp
        · obtain ⟨a, ha, hac⟩ := hl _ h1
          exact ⟨a, ha, by rw [hac]; rfl⟩
        · exact i3 p hp
where
  nodup_map_on {α β : Type} {f : α → β} : ∀ {l : List α}, (∀ x ∈ l, ∀ y ∈ l, f x = f y → x = y) → l.Nodup → (l.map f).Nodup
    | [], _, _ => List.nodup_nil
    | a :: l, h, hn => by
      rw [List.nodup_cons] at hn
      rw [List.map_cons, List.nodup_cons]
      refine ⟨?_, nodup_map_on (fun x hx y hy => h x (List.mem_cons_of_mem _ hx) y (List.mem_cons_of_mem _ hy)) hn.2⟩
      intro hm
      obtain ⟨b, hb, he⟩ := List.mem_map.1 hm
      have := h b (List.mem_cons_of_mem _ hb) a List.mem_cons_self he
      exact hn.1 (this ▸ hb)

/-- The operations of a history, in terms of the device. -/
theorem traced_proper {C : Type} [DecidableEq C] {cfg : Cfg} {w : World} {tr : List DevOp} (h : Traced cfg w tr) (hs : Settled w)
    (hp : Punctual w.rows [] tr) {conn : Str → C} {apart : C → C → Prop}
    (inj : ∀ a ∈ w.rows, ∀ b ∈ w.rows, conn a.cid = conn b.cid → a.cid = b.cid)
    (ap : ∀ a ∈ w.rows, ∀ b ∈ w.rows, a.cid ≠ b.cid → Separate cfg a b → apart (conn b.cid) (conn a.cid)) :
    Proper apart [] (devOps conn tr) ∧ (∀ o ∈ devOps conn tr, ∃ r ∈ w.rows, o.conn = conn r.cid) ∧
      ∀ c, c ∈ upAfter [] (devOps conn tr) ↔ ∃ r ∈ w.rows, r.active = true ∧ conn r.cid = c := by
  obtain ⟨h1, h2, h3⟩ := C84_settled_partial h hs hp
  obtain ⟨i1, i2, i3⟩ := devOps_proper inj ap tr [] h1 List.nodup_nil (by simp)
  refine ⟨i1, i3, fun c => ?_⟩
  have i2 : upAfter [] (devOps conn tr) = (replay [] tr).reverse.map conn := i2
  rw [i2, List.mem_map]
  constructor
  · rintro ⟨x, hx, rfl⟩
    rw [List.mem_reverse] at hx
    obtain ⟨r, hr, rfl⟩ := h2 x hx
    exact ⟨r, hr, (h3 r hr).1 hx, rfl⟩
  · rintro ⟨r, hr, ha, rfl⟩
    exact ⟨r.cid, List.mem_reverse.2 ((h3 r hr).2 ha), rfl⟩

/-- The statements of a device after proper operations: those it had, and those of the connections that are up. -/
theorem mem_run_proper {C : Type} [DecidableEq C] {d : Dev C} {apart : C → C → Prop} {good : C → Prop} (hs : Sound d apart good fun _ => False)
    {base : List Path} {ops : List (Op C)} (hp : Proper apart [] ops)
    (hg : ∀ o ∈ ops, good o.conn) (hb : ∀ o ∈ ops, ∀ b ∈ d.up o.conn ++ d.down o.conn, Spares base b) (q : Path) :
    q ∈ d.run base ops ↔ q ∈ base ∨ ∃ c ∈ upAfter [] ops, q ∈ d.run [] [.up c] := by
  have h1 := inv_run hs ops base [] (inv_base base) hp hg hb
  have hone : ∀ c ∈ upAfter [] ops, (q ∈ d.run [] [.up c] ↔ ∃ a ∈ d.up c, a.adds = some q) := by
    intro c hc
    have hgc : good c := by
      rcases upAfter_conn ops [] c hc with h | ⟨o, ho, rfl⟩
      · simp at h
      · exact hg o ho
    have h2 := inv_run hs [.up c] [] [] (inv_base (d := d) (apart := apart) (good := good) (left := fun _ => False) []) ⟨by simp, trivial⟩
      (by simpa [Op.conn] using hgc) (by intro o _ b _ q hq; simp at hq)
    simp only [upAfter, List.nil_append] at h2
    constructor
    · intro hq
      rcases h2.srcs q hq with h | ⟨x, hx, h⟩ | h
      · simp at h
      · simp only [List.mem_singleton] at hx; subst hx; exact h
      · exact h.elim
    · rintro ⟨a, ha, hq⟩
      exact h2.sets c (by simp) a ha q hq
  constructor
  · intro hq
    rcases h1.srcs q hq with h | ⟨c, hc, h⟩ | h
    · exact Or.inl h
    · exact Or.inr ⟨c, hc, (hone c hc).2 h⟩
    · exact h.elim
  · rintro (h | ⟨c, hc, h⟩)
    · exact h1.keeps q h
    · obtain ⟨a, ha, hq⟩ := (hone c hc).1 h
      exact h1.sets c hc a ha q hq

theorem traced_run {d : Dev VConn} {apart : VConn → VConn → Prop} {good : VConn → Prop} (hd : Sound d apart good fun _ => False)
    {getTarget : PortMap → Str → Option LabelVal → Except DevErr VlanTarget} {pm : PortMap}
    {cfg : Cfg} {w : World} {tr : List DevOp} (h : Traced cfg w tr) (hs : Settled w) (hp : Punctual w.rows [] tr) {conn : Str → VConn}
    (ht : Targets getTarget pm w.rows conn)
    (ap : ∀ a ∈ w.rows, ∀ b ∈ w.rows, a.cid ≠ b.cid → Separate cfg a b → apart (conn b.cid) (conn a.cid)) {base : List Path}
    (hg : ∀ r ∈ w.rows, good (conn r.cid)) (hb : ∀ r ∈ w.rows, ∀ b ∈ d.up (conn r.cid) ++ d.down (conn r.cid), Spares base b) (q : Path) :
    q ∈ d.run base (devOps conn tr) ↔ q ∈ base ∨ ∃ r ∈ w.rows, r.active = true ∧ q ∈ d.run [] [.up (conn r.cid)] := by
  have inj : ∀ a ∈ w.rows, ∀ b ∈ w.rows, conn a.cid = conn b.cid → a.cid = b.cid := by
    intro a ha b hb e
    rw [← (ht a ha).1, ← (ht b hb).1, e]
  obtain ⟨h1, h2, h3⟩ := traced_proper h hs hp inj ap
  rw [mem_run_proper hd h1 (fun o ho => by obtain ⟨r, hr, e⟩ := h2 o ho; rw [e]; exact hg r hr)
    (fun o ho => by obtain ⟨r, hr, e⟩ := h2 o ho; rw [e]; exact hb r hr)]
  refine or_congr Iff.rfl ⟨?_, ?_⟩
  · rintro ⟨c, hc, hq⟩
    obtain ⟨r, hr, ha, rfl⟩ := (h3 c).1 hc
    exact ⟨r, hr, ha, hq⟩
  · rintro ⟨r, hr, ha, hq⟩
    exact ⟨_, (h3 _).2 ⟨r, hr, ha, rfl⟩, hq⟩

/-! ### Properties -/

theorem ex_target {pm : PortMap} {p : Str} {l : Option LabelVal} {t : VlanTarget} (h : Ex.getTarget pm p l = .ok t) :
    (Ex.manager.toConnMgr pm).getResource p l = showInt t.vlan := by
  unfold Ex.getTarget at h
  split at h
  · simp at h
  · rename_i l
    split at h
    · simp at h
    · rename_i hl
      split at h
      · simp at h
      · cases hp : lookup pm p with
        | error e => simp [hp, Bind.bind, Except.bind] at h
        | ok q =>
          simp [hp, Bind.bind, Except.bind] at h
          subst h
          simp [Manager.toConnMgr, Ex.manager, Ex.getResource, Decidable.not_not.1 hl, lvText]

/-- C84 for Juniper EX: in the course of a history as in `C84_settled_partial` the switch holds the statements it had at first and those
of the active connections, and no others. Missing: as there. -/
theorem C84_juniperex_partial {pm : PortMap} {cfg : Cfg} (hm : cfg.mgr = Ex.manager.toConnMgr pm) {w : World} {tr : List DevOp}
    (h : Traced cfg w tr) (hs : Settled w) (hp : Punctual w.rows [] tr) {conn : Str → VConn} (ht : Targets Ex.getTarget pm w.rows conn)
    {base : List Path} (hg : ∀ r ∈ w.rows, (conn r.cid).Plain)
    (hb : ∀ r ∈ w.rows, ∀ b ∈ Ex.dev.up (conn r.cid) ++ Ex.dev.down (conn r.cid), Spares base b) (q : Path) :
    q ∈ Ex.dev.run base (devOps conn tr) ↔ q ∈ base ∨ ∃ r ∈ w.rows, r.active = true ∧ q ∈ Ex.dev.run [] [.up (conn r.cid)] := by
  refine traced_run ex_sound h hs hp ht ?_ hg hb q
  intro a ha b hb hne hsep hv
  refine hsep (cfg.mgr.getResource a.dstPort a.dstLabel) (by simp [Row.resources]) ?_
  have e : cfg.mgr.getResource a.dstPort a.dstLabel = cfg.mgr.getResource b.dstPort b.dstLabel := by
    rw [hm, ex_target (ht a ha).2.2, ex_target (ht b hb).2.2, hv]
  rw [e]; simp [Row.resources]

theorem vpls_target {pm : PortMap} {p : Str} {l : Option LabelVal} {t : VlanTarget} (h : Vpls.getTarget pm p l = .ok t) :
    (Vpls.manager.toConnMgr pm).getResource p l = p ++ '.' :: showInt t.vlan ∧ ∃ q, dget pm p = some q ∧ t.port = q.interface := by
  cases hd : dget pm p with
  | none =>
    unfold Vpls.getTarget lookup at h
    rw [hd] at h
    split at h
    · simp at h
    · split at h
      · simp at h
      · simp [Bind.bind, Except.bind] at h
  | some q =>
    obtain ⟨h1, h2⟩ := (vpls_getTarget hd t).1 h
    refine ⟨?_, q, rfl, h2⟩
    rw [h1.1]
    simp [Manager.toConnMgr, Vpls.manager, Vpls.getResource, lookup, hd, Bind.bind, Except.bind, lvText]

/-- C84 for Juniper VPLS, if no two ports have the same interface. Missing: as for `C84_settled_partial`. -/
theorem C84_vpls_partial {pm : PortMap} {cfg : Cfg} (hm : cfg.mgr = Vpls.manager.toConnMgr pm)
    (hi : ∀ p q a b, dget pm p = some a → dget pm q = some b → a.interface = b.interface → p = q) {w : World} {tr : List DevOp}
    (h : Traced cfg w tr) (hs : Settled w) (hp : Punctual w.rows [] tr) {conn : Str → VConn} (ht : Targets Vpls.getTarget pm w.rows conn)
    {asn : Str} {base : List Path} (hg : ∀ r ∈ w.rows, (conn r.cid).Plain)
    (hb : ∀ r ∈ w.rows, ∀ b ∈ (Vpls.dev asn).up (conn r.cid) ++ (Vpls.dev asn).down (conn r.cid), Spares base b) (q : Path) :
    q ∈ (Vpls.dev asn).run base (devOps conn tr) ↔ q ∈ base ∨ ∃ r ∈ w.rows, r.active = true ∧ q ∈ (Vpls.dev asn).run [] [.up (conn r.cid)] := by
  refine traced_run (vpls_sound asn) h hs hp ht ?_ hg hb q
  intro a ha b hb hne hsep
  obtain ⟨a0, a1, a2⟩ := ht a ha
  obtain ⟨b0, b1, b2⟩ := ht b hb
  refine ⟨by rw [a0, b0]; exact hne.symm, ?_⟩
  have key : ∀ p l q m s t, cfg.mgr.getResource p l ∈ a.resources cfg → cfg.mgr.getResource q m ∈ b.resources cfg →
      Vpls.getTarget pm p l = .ok t → Vpls.getTarget pm q m = .ok s → s.port = t.port → s.vlan ≠ t.vlan := by
    intro p l q m s t hp hq h1 h2 e1 e2
    obtain ⟨r1, x, hx, e3⟩ := vpls_target h1
    obtain ⟨r2, y, hy, e4⟩ := vpls_target h2
    have := hi p q x y hx hy (by rw [← e3, ← e4, e1])
    subst this
    refine hsep _ hp ?_
    have e : cfg.mgr.getResource p l = cfg.mgr.getResource p m := by rw [hm, r1, r2, e2]
    rw [e]; exact hq
  rintro s (rfl | rfl) t (rfl | rfl)
  · exact key _ _ _ _ _ _ (by simp [Row.resources]) (by simp [Row.resources]) a1 b1
  · exact key _ _ _ _ _ _ (by simp [Row.resources]) (by simp [Row.resources]) a2 b1
  · exact key _ _ _ _ _ _ (by simp [Row.resources]) (by simp [Row.resources]) a1 b2
  · exact key _ _ _ _ _ _ (by simp [Row.resources]) (by simp [Row.resources]) a2 b2

theorem last_sep {x y : Str} (hx : '.' ∉ x) (hy : '.' ∉ y) : ∀ {a b : Str}, a ++ '.' :: x = b ++ '.' :: y → x = y
  | [], [], h => by simpa using h
  | [], c :: b, h => by
    simp only [List.nil_append, List.cons_append, List.cons.injEq] at h
    exact absurd (by rw [h.2]; simp) hx
  | c :: a, [], h => by
    simp only [List.nil_append, List.cons_append, List.cons.injEq] at h
    exact absurd (by rw [← h.2]; simp) hy
  | c :: a, d :: b, h => by
    simp only [List.cons_append, List.cons.injEq] at h
    exact last_sep hx hy h.2

theorem brocade_target {pm : PortMap} {p : Str} {l : Option LabelVal} {t : VlanTarget} (h : Brocade.getTarget pm p l = .ok (Brocade.target t)) :
    (Brocade.manager.toConnMgr pm).getResource p l = showInt t.vlan := by
  unfold Brocade.getTarget at h
  split at h
  · simp at h
  · rename_i l
    split at h
    · simp at h
    · rename_i hl
      cases hp : lookup pm p with
      | error e => simp [hp, Bind.bind, Except.bind] at h
      | ok q =>
        simp only [hp, Bind.bind, Except.bind, Except.ok.injEq, Brocade.target] at h
        simp only [Manager.toConnMgr, Brocade.manager, Brocade.getResource, hl, if_false]
        exact last_sep (showInt_no_dot _) (showInt_no_dot _) h

/-- C84 for Brocade: the switch has the vlans of the active connections, with their two ports each, and for all others what it had at first.
Missing: as for `C84_settled_partial`. -/
theorem C84_brocade_partial {pm : PortMap} {cfg : Cfg} (hm : cfg.mgr = Brocade.manager.toConnMgr pm) {w : World} {tr : List DevOp}
    (h : Traced cfg w tr) (hs : Settled w) (hp : Punctual w.rows [] tr) {conn : Str → VConn}
    (ht : ∀ r ∈ w.rows, (conn r.cid).id = r.cid ∧ Brocade.getTarget pm r.srcPort r.srcLabel = .ok (Brocade.target (conn r.cid).src) ∧
      Brocade.getTarget pm r.dstPort r.dstLabel = .ok (Brocade.target (conn r.cid).dst))
    {base : List (Int × BVlan)} (hg : ∀ r ∈ w.rows, Brocade.Good (conn r.cid)) (hb : ∀ r ∈ w.rows, dget base (conn r.cid).src.vlan = none) :
    (∀ r ∈ w.rows, r.active = true → ∃ e, dget (runOps Brocade.up Brocade.down base (devOps conn tr)) (conn r.cid).src.vlan = some e ∧
      ∀ p, p ∈ e.ports ↔ p = (conn r.cid).src.port ∨ p = (conn r.cid).dst.port) ∧
    ∀ v, (∀ r ∈ w.rows, r.active = true → (conn r.cid).src.vlan ≠ v) →
      dget (runOps Brocade.up Brocade.down base (devOps conn tr)) v = dget base v := by
  have hap : ∀ a ∈ w.rows, ∀ b ∈ w.rows, a.cid ≠ b.cid → Separate cfg a b → (conn b.cid).src.vlan ≠ (conn a.cid).src.vlan := by
    intro a ha b hb hne hsep hv
    refine hsep (cfg.mgr.getResource a.srcPort a.srcLabel) (by simp [Row.resources]) ?_
    have e : cfg.mgr.getResource a.srcPort a.srcLabel = cfg.mgr.getResource b.srcPort b.srcLabel := by
      rw [hm, brocade_target (ht a ha).2.1, brocade_target (ht b hb).2.1, hv]
    rw [e]; simp [Row.resources]
  obtain ⟨h1, h2, h3⟩ := traced_proper h hs hp (conn := conn) (apart := fun x y => x.src.vlan ≠ y.src.vlan)
    (fun a ha b hb e => by rw [← (ht a ha).1, ← (ht b hb).1, e]) hap
  obtain ⟨i1, i2⟩ := C66_brocade base (devOps conn tr) h1 (fun o ho => by obtain ⟨r, hr, e⟩ := h2 o ho; rw [e]; exact hg r hr)
    (fun o ho => by obtain ⟨r, hr, e⟩ := h2 o ho; rw [e]; exact hb r hr)
  refine ⟨fun r hr ha => i1 _ ((h3 _).2 ⟨r, hr, ha, rfl⟩), fun v hv => i2 v fun c hc => ?_⟩
  obtain ⟨r, hr, ha, rfl⟩ := (h3 c).1 hc
  exact hv r hr ha

theorem pica_target {pm : PortMap} {p : Str} {l : Option LabelVal} {t : VlanTarget} (h : Pica.getTarget pm p l = .ok t) :
    (Pica.manager.toConnMgr pm).getResource p l = p ++ ':' :: showInt t.vlan ∧ ∃ q, dget pm p = some q ∧ t.port = q.interface := by
  cases hd : dget pm p with
  | none =>
    unfold Pica.getTarget lookup at h
    rw [hd] at h
    split at h
    · simp at h
    · split at h
      · simp at h
      · split at h
        · simp at h
        · simp [Bind.bind, Except.bind] at h
  | some q =>
    obtain ⟨h1, h2⟩ := (pica_getTarget hd t).1 h
    refine ⟨?_, q, rfl, h2⟩
    rw [h1.1]
    simp [Manager.toConnMgr, Pica.manager, Pica.getResource, lvText]

/-- C84 for Pica8, if no two ports have the same interface: frames of the active connections go from one end to the other in both directions,
the ports carry their vlans, and everything else is as it was at first. Missing: as for `C84_settled_partial`, and interfaces with
the same third number (`hn`). -/
theorem C84_pica_partial {pm : PortMap} {cfg : Cfg} (hm : cfg.mgr = Pica.manager.toConnMgr pm)
    (hi : ∀ p q a b, dget pm p = some a → dget pm q = some b → a.interface = b.interface → p = q) {w : World} {tr : List DevOp}
    (h : Traced cfg w tr) (hs : Settled w) (hp : Punctual w.rows [] tr) {conn : Str → VConn} (ht : Targets Pica.getTarget pm w.rows conn)
    {num : Str → Int} {base : PSwitch} (hg : ∀ r ∈ w.rows, Pica.Good num (conn r.cid))
    (hn : ∀ a ∈ w.rows, ∀ s ∈ (conn a.cid).ends, ∀ b ∈ w.rows, ∀ t ∈ (conn b.cid).ends, num s.port = num t.port → s.port = t.port)
    (hb : ∀ r ∈ w.rows, ∀ t ∈ (conn r.cid).ends, (t.port, t.vlan) ∉ base.trunks ∧ dget base.flows (num t.port, t.vlan) = none) :
    (∀ r ∈ w.rows, r.active = true → ∀ s t, (s, t) = ((conn r.cid).src, (conn r.cid).dst) ∨ (s, t) = ((conn r.cid).dst, (conn r.cid).src) →
      (s.port, s.vlan) ∈ (runOps Pica.up Pica.down base (devOps conn tr)).trunks ∧
      dget (runOps Pica.up Pica.down base (devOps conn tr)).flows (num s.port, s.vlan) =
        some ⟨num t.port, if s.vlan = t.vlan then none else some t.vlan⟩) ∧
    (∀ p v, (∀ r ∈ w.rows, r.active = true → ∀ t ∈ (conn r.cid).ends, ¬ (t.port = p ∧ t.vlan = v)) →
      ((p, v) ∈ (runOps Pica.up Pica.down base (devOps conn tr)).trunks ↔ (p, v) ∈ base.trunks)) ∧
    ∀ n v, (∀ r ∈ w.rows, r.active = true → ∀ t ∈ (conn r.cid).ends, ¬ (num t.port = n ∧ t.vlan = v)) →
      dget (runOps Pica.up Pica.down base (devOps conn tr)).flows (n, v) = dget base.flows (n, v) := by
  have hap : ∀ a ∈ w.rows, ∀ b ∈ w.rows, a.cid ≠ b.cid → Separate cfg a b → EndsApart (conn b.cid) (conn a.cid) := by
    intro a ha b hb hne hsep
    obtain ⟨_, a1, a2⟩ := ht a ha
    obtain ⟨_, b1, b2⟩ := ht b hb
    have key : ∀ p l q m s t, cfg.mgr.getResource p l ∈ a.resources cfg → cfg.mgr.getResource q m ∈ b.resources cfg →
        Pica.getTarget pm p l = .ok t → Pica.getTarget pm q m = .ok s → s ≠ t := by
      rintro p l q m s t hp hq h1 h2 rfl
      obtain ⟨r1, x, hx, e3⟩ := pica_target h1
      obtain ⟨r2, y, hy, e4⟩ := pica_target h2
      have := hi p q x y hx hy (by rw [← e3, ← e4])
      subst this
      refine hsep _ hp ?_
      have e : cfg.mgr.getResource p l = cfg.mgr.getResource p m := by rw [hm, r1, r2]
      rw [e]; exact hq
    intro s hs t ht
    simp only [VConn.ends, List.mem_cons, List.not_mem_nil, or_false] at hs ht
    rcases hs with rfl | rfl <;> rcases ht with rfl | rfl
    · exact key _ _ _ _ _ _ (by simp [Row.resources]) (by simp [Row.resources]) a1 b1
    · exact key _ _ _ _ _ _ (by simp [Row.resources]) (by simp [Row.resources]) a2 b1
    · exact key _ _ _ _ _ _ (by simp [Row.resources]) (by simp [Row.resources]) a1 b2
    · exact key _ _ _ _ _ _ (by simp [Row.resources]) (by simp [Row.resources]) a2 b2
  obtain ⟨h1, h2, h3⟩ := traced_proper h hs hp (conn := conn) (apart := EndsApart)
    (fun a ha b hb e => by rw [← (ht a ha).1, ← (ht b hb).1, e]) hap
  obtain ⟨i1, i2, i3⟩ := C66_pica_partial num base (devOps conn tr) h1 (fun o ho => by obtain ⟨r, hr, e⟩ := h2 o ho; rw [e]; exact hg r hr)
    (fun o ho s hs o' ho' t ht => by
      obtain ⟨r, hr, e⟩ := h2 o ho
      obtain ⟨r', hr', e'⟩ := h2 o' ho'
      rw [e] at hs; rw [e'] at ht
      exact hn r hr s hs r' hr' t ht)
    (fun o ho => by obtain ⟨r, hr, e⟩ := h2 o ho; rw [e]; exact hb r hr)
  refine ⟨fun r hr ha => i1 _ ((h3 _).2 ⟨r, hr, ha, rfl⟩), fun p v hv => i2 p v fun c hc => ?_, fun n v hv => i3 n v fun c hc => ?_⟩
  all_goals
    obtain ⟨r, hr, ha, rfl⟩ := (h3 c).1 hc
    exact hv r hr ha

/-! ### Examples -/

namespace Exm
open OpenNSA.Backend.Ex

/-- Ports `a` and `b` on interfaces `ge-1/1/1` and `ge-1/1/2`. -/
def trPorts : PortMap := [(['a'], ⟨"ge-1/1/1".toList, none, none⟩), (['b'], ⟨"ge-1/1/2".toList, none, none⟩)]

/-- The network of the backend examples with another connection manager. -/
def trCfg (m : Manager) : Cfg := { Backend.Ex.cfg false with mgr := m.toConnMgr trPorts }

/-- The connections of the histories `hTurns` and `hLate`, in terms of the device. -/
def trConn (c : Str) : VConn := ⟨c, ⟨"ge-1/1/1".toList, 12⟩, ⟨"ge-1/1/2".toList, 12⟩⟩

/-- All connections are between these ends. -/
def trSame (w : World) : Bool := w.rows.all fun r => r.srcPort = ['a'] ∧ r.dstPort = ['b'] ∧ r.srcLabel = some (tVlan, 12) ∧ r.dstLabel = some (tVlan, 12)

theorem trTargets {g : PortMap → Str → Option LabelVal → Except DevErr VlanTarget} {w : World} (h : trSame w = true)
    (ha : g trPorts ['a'] (some (tVlan, 12)) = .ok ⟨"ge-1/1/1".toList, 12⟩) (hb : g trPorts ['b'] (some (tVlan, 12)) = .ok ⟨"ge-1/1/2".toList, 12⟩) :
    Targets g trPorts w.rows trConn := by
  intro r hr
  have := List.all_eq_true.1 h r hr
  simp only [decide_eq_true_eq] at this
  obtain ⟨e1, e2, e3, e4⟩ := this
  rw [e1, e2, e3, e4]
  exact ⟨rfl, ha, hb⟩

theorem trInterfaces (p q : Str) (a b : DPort) (ha : dget trPorts p = some a) (hb : dget trPorts q = some b)
    (h : a.interface = b.interface) : p = q := by
  simp only [trPorts, dget] at ha hb
  split at ha <;> split at hb
  · simp_all
  · split at hb
    · simp at ha hb; subst ha; subst hb; exact absurd h (by decide +kernel)
    · simp at hb
  · split at ha
    · simp at ha hb; subst ha; subst hb; exact absurd h (by decide +kernel)
    · simp at ha
  · split at ha <;> split at hb <;> simp_all

/-- The histories of the four devices. -/
theorem trHist (m : Manager) (h : cleanAll (trCfg m) w0 hTurns = true) (hs : settledB (runAll (trCfg m) w0 hTurns) = true)
    (hp : punctualB (runAll (trCfg m) w0 hTurns).rows [] (traceAll (trCfg m) w0 hTurns) = true) :
    Traced (trCfg m) (runAll (trCfg m) w0 hTurns) (traceAll (trCfg m) w0 hTurns) ∧ Settled (runAll (trCfg m) w0 hTurns) ∧
    Punctual (runAll (trCfg m) w0 hTurns).rows [] (traceAll (trCfg m) w0 hTurns) :=
  ⟨traced h, settled hs, punctual hp⟩

/-- Hypotheses of `C84_juniperex_partial` hold for two connections one after the other on the same vlan; in the end the three statements of the second
and the one that was there before are left. -/
example : (trCfg Ex.manager).mgr = Ex.manager.toConnMgr trPorts ∧
    (Traced (trCfg Ex.manager) (runAll (trCfg Ex.manager) w0 hTurns) (traceAll (trCfg Ex.manager) w0 hTurns) ∧
      Settled (runAll (trCfg Ex.manager) w0 hTurns) ∧
      Punctual (runAll (trCfg Ex.manager) w0 hTurns).rows [] (traceAll (trCfg Ex.manager) w0 hTurns)) ∧
    Targets Ex.getTarget trPorts (runAll (trCfg Ex.manager) w0 hTurns).rows trConn ∧ (∀ c, (trConn c).Plain) ∧
    (∀ c, ∀ b ∈ Ex.dev.up (trConn c) ++ Ex.dev.down (trConn c), Spares [[kVlans, ['z'], kVlanId, ['9']]] b) ∧
    (devOps trConn (traceAll (trCfg Ex.manager) w0 hTurns)) = [.up (trConn ['x']), .down (trConn ['x']), .up (trConn ['y'])] ∧
    (Ex.dev.run [[kVlans, ['z'], kVlanId, ['9']]] (devOps trConn (traceAll (trCfg Ex.manager) w0 hTurns))).length = 4 := by
  refine ⟨rfl, trHist _ (by decide +kernel) (by decide +kernel) (by decide +kernel), trTargets (by decide +kernel) (by decide +kernel) (by decide +kernel),
    fun c => ?_, fun c => ?_, by decide +kernel, by decide +kernel⟩
  · unfold VConn.Plain Plain; simp only [trConn]; decide +kernel
  · have : Ex.dev.up (trConn c) ++ Ex.dev.down (trConn c) = Ex.dev.up (trConn []) ++ Ex.dev.down (trConn []) := rfl
    rw [this]; unfold Spares; decide +kernel

/-- Hypotheses of `C84_vpls_partial` hold for the same. -/
example : (Traced (trCfg Vpls.manager) (runAll (trCfg Vpls.manager) w0 hTurns) (traceAll (trCfg Vpls.manager) w0 hTurns) ∧
      Settled (runAll (trCfg Vpls.manager) w0 hTurns) ∧
      Punctual (runAll (trCfg Vpls.manager) w0 hTurns).rows [] (traceAll (trCfg Vpls.manager) w0 hTurns)) ∧
    Targets Vpls.getTarget trPorts (runAll (trCfg Vpls.manager) w0 hTurns).rows trConn ∧
    (∀ p q a b, dget trPorts p = some a → dget trPorts q = some b → a.interface = b.interface → p = q) ∧ (∀ c, (trConn c).Plain) ∧
    ((Vpls.dev ['7']).run [] (devOps trConn (traceAll (trCfg Vpls.manager) w0 hTurns))).length = 10 := by
  refine ⟨trHist _ (by decide +kernel) (by decide +kernel) (by decide +kernel), trTargets (by decide +kernel) (by decide +kernel) (by decide +kernel),
    trInterfaces, fun c => ?_, by decide +kernel⟩
  unfold VConn.Plain Plain; simp only [trConn]; decide +kernel

/-- Hypotheses of `C84_brocade_partial` hold for the same. -/
example : (Traced (trCfg Brocade.manager) (runAll (trCfg Brocade.manager) w0 hTurns) (traceAll (trCfg Brocade.manager) w0 hTurns) ∧
      Settled (runAll (trCfg Brocade.manager) w0 hTurns) ∧
      Punctual (runAll (trCfg Brocade.manager) w0 hTurns).rows [] (traceAll (trCfg Brocade.manager) w0 hTurns)) ∧
    (∀ r ∈ (runAll (trCfg Brocade.manager) w0 hTurns).rows, (trConn r.cid).id = r.cid ∧
      Brocade.getTarget trPorts r.srcPort r.srcLabel = .ok (Brocade.target (trConn r.cid).src) ∧
      Brocade.getTarget trPorts r.dstPort r.dstLabel = .ok (Brocade.target (trConn r.cid).dst)) ∧ (∀ c, Brocade.Good (trConn c)) ∧
    (runOps Brocade.up Brocade.down [] (devOps trConn (traceAll (trCfg Brocade.manager) w0 hTurns))).map (·.1) = [12] := by
  refine ⟨trHist _ (by decide +kernel) (by decide +kernel) (by decide +kernel), by decide +kernel, fun c => ?_, by decide +kernel⟩
  unfold Brocade.Good VConn.Plain Plain; simp only [trConn]; decide +kernel

/-- Hypotheses of `C84_pica_partial` hold for the same. -/
example : (Traced (trCfg Pica.manager) (runAll (trCfg Pica.manager) w0 hTurns) (traceAll (trCfg Pica.manager) w0 hTurns) ∧
      Settled (runAll (trCfg Pica.manager) w0 hTurns) ∧
      Punctual (runAll (trCfg Pica.manager) w0 hTurns).rows [] (traceAll (trCfg Pica.manager) w0 hTurns)) ∧
    Targets Pica.getTarget trPorts (runAll (trCfg Pica.manager) w0 hTurns).rows trConn ∧ (∀ c, Pica.Good num (trConn c)) ∧
    (runOps Pica.up Pica.down ⟨[], []⟩ (devOps trConn (traceAll (trCfg Pica.manager) w0 hTurns))).flows.length = 2 := by
  refine ⟨trHist _ (by decide +kernel) (by decide +kernel) (by decide +kernel), trTargets (by decide +kernel) (by decide +kernel) (by decide +kernel),
    fun c => ⟨?_, ?_, ?_⟩, by decide +kernel⟩ <;> (simp only [trConn]; decide +kernel)

end Exm

open Exm OpenNSA.Backend.Ex in
/-- C84 is violated by Juniper EX: a backend that was down when a connection ended and another one on the same vlan began sets up the second
and then tears down the first, after which nothing of the second is left on the switch; it is recorded, and was reported, as active. -/
theorem C84_juniperex_late_fails : ∃ (pm : PortMap) (cfg : Cfg) (w : World) (tr : List DevOp) (conn : Str → VConn) (r : Row),
    cfg.mgr = Ex.manager.toConnMgr pm ∧ Traced cfg w tr ∧ Settled w ∧ Targets Ex.getTarget pm w.rows conn ∧ r ∈ w.rows ∧ r.active = true ∧
    (Ex.dev.run [] [.up (conn r.cid)]).length = 3 ∧ Ex.dev.run [] (devOps conn tr) = [] := by
  refine ⟨trPorts, trCfg Ex.manager, runAll (trCfg Ex.manager) w0 hLate, traceAll (trCfg Ex.manager) w0 hLate, trConn,
    (runAll (trCfg Ex.manager) w0 hLate).rows[0]'(by decide +kernel), rfl, traced (by decide +kernel), settled (by decide +kernel),
    trTargets (by decide +kernel) (by decide +kernel) (by decide +kernel), by decide +kernel, by decide +kernel, by decide +kernel, by decide +kernel⟩

end OpenNSA.Device
