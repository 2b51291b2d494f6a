import Verif.Device.Model
import Verif.Backend.PropsLife
import Verif.Stp.Lemmas
/-
C65: two ends that use the same interface and label have the same resource name, others have different names.
-/
namespace OpenNSA.Device
open Py OpenNSA.Backend

/-! ### Specification -/

/-- An end of a connection: a port and the label value on it. -/
structure End where
  port : Str
  label : Option LabelVal
  deriving DecidableEq, Repr

/-- Two ends of connections are configured on the same interface. -/
def SameInterface (pm : PortMap) (x y : End) : Prop :=
  ∃ p q, dget pm x.port = some p ∧ dget pm y.port = some q ∧ p.interface = q.interface

/-- Two ends of connections have the same label value, or both none. -/
def SameValue (x y : End) : Prop := x.label.map (·.2) = y.label.map (·.2)

/-- No interface is used by two ports. -/
def OnePerInterface (pm : PortMap) : Prop :=
  ∀ a b p q, dget pm a = some p → dget pm b = some q → p.interface = q.interface → a = b

/-- The two ends of a connection. -/
def ends (r : Row) : List End := [⟨r.srcPort, r.srcLabel⟩, ⟨r.dstPort, r.dstLabel⟩]

/-- The connection is reserved for the instant `t`. -/
def During (r : Row) (t : Time) : Prop := r.start.getD r.reserveTime ≤ t ∧ ∀ e, r.end_ = some e → t ≤ e

/-- Two ports on interface `i`, one on `j`, and `w` is the whole of `i`. -/
def Exm.pm : PortMap :=
  [(['a'], ⟨['i'], none, some tVlan⟩), (['b'], ⟨['i'], none, some tVlan⟩), (['c'], ⟨['j'], none, some tVlan⟩), (['w'], ⟨['i'], none, none⟩)]

/-- Two ports, each on its own interface. -/
def Exm.pm1 : PortMap := [(['a'], ⟨['i'], none, some tVlan⟩), (['c'], ⟨['j'], none, some tVlan⟩)]

/-! ### Lemmas -/

theorem showInt_inj {a b : Int} (h : showInt a = showInt b) : a = b := by
  have := pyInt_showInt a
  rw [h, pyInt_showInt] at this
  exact (Option.some.inj this).symm

theorem showInt_no_char {c : Char} (h1 : c ≠ '-') (h2 : digitVal c = none) (i : Int) : c ∉ showInt i := by
  intro h
  rcases showInt_chars h with rfl | ⟨d, hd, rfl⟩
  · exact h1 rfl
  · rw [digitVal_digitChar hd] at h2; exact absurd h2 (by simp)

theorem showInt_ne_nil (i : Int) : showInt i ≠ [] := by
  cases i with
  | ofNat n => exact showNat_ne_nil n
  | negSucc n => simp [showInt]

/-- The text of the label of an end. -/
def endText : Option LabelVal → Str
  | none => []
  | some l => lvText l

theorem endText_no {c : Char} (h1 : c ≠ '-') (h2 : digitVal c = none) (l : Option LabelVal) : c ∉ endText l := by
  cases l with
  | none => simp [endText]
  | some l => exact showInt_no_char h1 h2 l.2

theorem endText_inj {a b : Option LabelVal} : endText a = endText b ↔ a.map (·.2) = b.map (·.2) := by
  cases a with
  | none => cases b with
    | none => simp
    | some b => simp [endText, lvText, (showInt_ne_nil b.2).symm]
  | some a => cases b with
    | none => simp [endText, lvText, showInt_ne_nil a.2]
    | some b =>
      simp only [endText, lvText, Option.map_some, Option.some.injEq]
      exact ⟨showInt_inj, fun h => by rw [h]⟩

/-- Texts glued with a character that does not occur in the second part. -/
theorem glue_inj {c : Char} {a b x y : Str} (hx : c ∉ x) (hy : c ∉ y) : a ++ c :: x = b ++ c :: y ↔ a = b ∧ x = y := by
  constructor
  · intro h
    have h1 := cutLast_append a hx
    rw [h, cutLast_append b hy] at h1
    simp only [Option.some.injEq, Prod.mk.injEq] at h1
    exact ⟨h1.1.symm, h1.2.symm⟩
  · rintro ⟨rfl, rfl⟩; rfl

theorem lookup_ok {pm : PortMap} {p : Str} {d : DPort} : lookup pm p = .ok d ↔ dget pm p = some d := by
  unfold lookup; cases dget pm p <;> simp

theorem dud_ok {pm : PortMap} {x : End} {r : Str} :
    Dud.getResource pm x.port x.label = .ok r ↔ ∃ p, dget pm x.port = some p ∧ r = p.interface ++ ':' :: endText x.label := by
  unfold Dud.getResource lookup
  cases dget pm x.port with
  | none => simp [Bind.bind, Except.bind]
  | some p => cases hl : x.label <;> simp [Bind.bind, Except.bind, endText, eq_comm]

theorem ex_ok {pm : PortMap} {x : End} {r : Str} :
    Ex.getResource pm x.port x.label = .ok r ↔ ∃ v, x.label = some (tVlan, v) ∧ r = showInt v := by
  unfold Ex.getResource
  rcases hl : x.label with _ | ⟨t, v⟩
  · simp
  · by_cases ht : t = tVlan
    · subst ht; simp [lvText, eq_comm]
    · simp [ht]

theorem brocade_ok {pm : PortMap} {x : End} {r : Str} :
    Brocade.getResource pm x.port x.label = .ok r ↔ ∃ v, x.label = some (tVlan, v) ∧ r = showInt v := by
  unfold Brocade.getResource
  rcases hl : x.label with _ | ⟨t, v⟩
  · simp
  · by_cases ht : t = tVlan
    · subst ht; simp [lvText, eq_comm]
    · simp [ht]

theorem mx_ok {pm : PortMap} {x : End} {r : Str} (h : Mx.getResource pm x.port x.label = .ok r) :
    r = x.port ++ ':' :: endText x.label := by
  unfold Mx.getResource at h
  rcases hl : x.label with _ | ⟨t, v⟩
  · rw [hl] at h; simp at h; simp [endText, ← h]
  · rw [hl] at h
    simp only at h
    split at h
    · simp at h
    · simp at h; simp [endText, ← h]

theorem vpls_ok {pm : PortMap} {x : End} {r : Str} (h : Vpls.getResource pm x.port x.label = .ok r) :
    r = x.port ++ '.' :: endText x.label := by
  unfold Vpls.getResource at h
  rcases hl : x.label with _ | ⟨t, v⟩
  · rw [hl] at h; simp at h
  · rw [hl] at h
    simp only at h
    split at h
    · simp at h
    · cases hp : lookup pm x.port with
      | error e => rw [hp] at h; simp [Bind.bind, Except.bind] at h
      | ok d => rw [hp] at h; simp [Bind.bind, Except.bind] at h; simp [endText, ← h]

theorem pica_ok {pm : PortMap} {x : End} {r : Str} (h : Pica.getResource pm x.port x.label = .ok r) :
    r = x.port ++ ':' :: endText x.label := by
  unfold Pica.getResource at h
  rcases hl : x.label with _ | ⟨t, v⟩
  · rw [hl] at h; simp at h
  · rw [hl] at h; simp at h; simp [endText, ← h]

theorem oess_ok {pm : PortMap} {x : End} {r : Str} (h : Oess.getResource pm x.port x.label = .ok r) :
    r = x.port ++ ':' :: endText x.label := by
  unfold Oess.getResource at h
  rcases hl : x.label with _ | ⟨t, v⟩
  · rw [hl] at h; simp at h
  · rw [hl] at h; simp at h; simp [endText, ← h]

/-! ### C65 -/

/-- C65 for the test backend: two ends have the same resource name exactly if they are on the same interface with the same label value. -/
theorem C65_dud (pm : PortMap) (x y : End) (r s : Str) (hx : Dud.getResource pm x.port x.label = .ok r)
    (hy : Dud.getResource pm y.port y.label = .ok s) : r = s ↔ SameInterface pm x y ∧ SameValue x y := by
  obtain ⟨p, hp, rfl⟩ := dud_ok.1 hx
  obtain ⟨q, hq, rfl⟩ := dud_ok.1 hy
  rw [glue_inj (endText_no (by decide) (by decide +kernel) _) (endText_no (by decide) (by decide +kernel) _), endText_inj]
  constructor
  · rintro ⟨h1, h2⟩; exact ⟨⟨p, q, hp, hq, h1⟩, h2⟩
  · rintro ⟨⟨p', q', hp', hq', h1⟩, h2⟩
    rw [hp] at hp'; rw [hq] at hq'
    cases hp'; cases hq'
    exact ⟨h1, h2⟩

/-- Hypotheses of `C65_dud` hold for two ports on one interface, with the same vlan and with different ones. -/
example : Dud.getResource Exm.pm ['a'] (some (tVlan, 12)) = .ok "i:12".toList ∧ Dud.getResource Exm.pm ['b'] (some (tVlan, 12)) = .ok "i:12".toList ∧
    Dud.getResource Exm.pm ['b'] (some (tVlan, 13)) = .ok "i:13".toList := by decide +kernel

/-- C65 for backends on which a vlan exists once for the whole device (Juniper EX, Brocade): two ends have the same resource name
exactly if they have the same vlan. -/
theorem C65_global (pm : PortMap) (x y : End) (r s : Str)
    (h : (Ex.getResource pm x.port x.label = .ok r ∧ Ex.getResource pm y.port y.label = .ok s) ∨
      (Brocade.getResource pm x.port x.label = .ok r ∧ Brocade.getResource pm y.port y.label = .ok s)) :
    r = s ↔ SameValue x y := by
  have key : ∀ v w, x.label = some (tVlan, v) → r = showInt v → y.label = some (tVlan, w) → s = showInt w → (r = s ↔ SameValue x y) := by
    intro v w hx hr hy hs
    simp only [SameValue, hx, hy, hr, hs, Option.map_some, Option.some.injEq]
    exact ⟨showInt_inj, fun h => by rw [h]⟩
  rcases h with ⟨hx, hy⟩ | ⟨hx, hy⟩
  · obtain ⟨v, hx, hr⟩ := ex_ok.1 hx
    obtain ⟨w, hy, hs⟩ := ex_ok.1 hy
    exact key v w hx hr hy hs
  · obtain ⟨v, hx, hr⟩ := brocade_ok.1 hx
    obtain ⟨w, hy, hs⟩ := brocade_ok.1 hy
    exact key v w hx hr hy hs

/-- Hypotheses of `C65_global` hold for two ports on different interfaces. -/
example : Ex.getResource Exm.pm ['a'] (some (tVlan, 12)) = .ok "12".toList ∧ Brocade.getResource Exm.pm ['c'] (some (tVlan, 12)) = .ok "12".toList := by
  decide +kernel

/-- The backends that name a resource after the port and not after its interface. -/
def byPort : List Manager := [Mx.manager, Vpls.manager, Pica.manager, Oess.manager]

/-- C65 for the backends that name a resource after the port: two ends have the same name exactly if they are on the same port with the
same label value. -/
theorem byPort_names (m : Manager) (hm : m ∈ byPort) (pm : PortMap) (x y : End) (r s : Str)
    (hx : m.getResource pm x.port x.label = .ok r) (hy : m.getResource pm y.port y.label = .ok s) :
    r = s ↔ x.port = y.port ∧ SameValue x y := by
  have colon : ∀ (l : Option LabelVal), ':' ∉ endText l := endText_no (by decide) (by decide +kernel)
  have dot : ∀ (l : Option LabelVal), '.' ∉ endText l := endText_no (by decide) (by decide +kernel)
  simp only [byPort, List.mem_cons, List.not_mem_nil, or_false] at hm
  rcases hm with rfl | rfl | rfl | rfl
  · rw [mx_ok (pm := pm) hx, mx_ok (pm := pm) hy, glue_inj (colon _) (colon _), endText_inj]; rfl
  · rw [vpls_ok hx, vpls_ok hy, glue_inj (dot _) (dot _), endText_inj]; rfl
  · rw [pica_ok (pm := pm) hx, pica_ok (pm := pm) hy, glue_inj (colon _) (colon _), endText_inj]; rfl
  · rw [oess_ok (pm := pm) hx, oess_ok (pm := pm) hy, glue_inj (colon _) (colon _), endText_inj]; rfl

/-- C65 for the backends that name a resource after the port (JunOS MX and Space, VPLS, Pica8, OESS), if no interface is used by two
ports: two ends have the same resource name exactly if they are on the same interface with the same label value. Missing: ports that
share an interface, see `C65_shared_fails`. -/
theorem C65_ports_partial (m : Manager) (hm : m ∈ byPort) (pm : PortMap) (ho : OnePerInterface pm) (x y : End)
    (hkx : dmem pm x.port) (hky : dmem pm y.port) (r s : Str)
    (hx : m.getResource pm x.port x.label = .ok r) (hy : m.getResource pm y.port y.label = .ok s) :
    r = s ↔ SameInterface pm x y ∧ SameValue x y := by
  rw [byPort_names m hm pm x y r s hx hy]
  refine and_congr_left fun _ => ?_
  unfold dmem at hkx hky
  obtain ⟨p, hp⟩ := Option.isSome_iff_exists.1 hkx
  obtain ⟨q, hq⟩ := Option.isSome_iff_exists.1 hky
  constructor
  · intro h
    refine ⟨p, q, hp, hq, ?_⟩
    rw [h, hq] at hp; cases hp; rfl
  · rintro ⟨p', q', hp', hq', h⟩
    exact ho _ _ _ _ hp' hq' h

/-- Hypotheses of `C65_ports_partial` hold for ports `a` and `c` of the example. -/
example : OnePerInterface Exm.pm1 ∧ Mx.manager.getResource Exm.pm1 ['a'] (some (tVlan, 12)) = .ok "a:12".toList ∧
    Mx.manager.getResource Exm.pm1 ['c'] (some (tVlan, 12)) = .ok "c:12".toList := by
  refine ⟨?_, by decide +kernel, by decide +kernel⟩
  intro a b p q hp hq h
  have hp := dget_some_mem hp
  have hq := dget_some_mem hq
  simp [Exm.pm1] at hp hq
  rcases hp with ⟨rfl, rfl⟩ | ⟨rfl, rfl⟩ <;> rcases hq with ⟨rfl, rfl⟩ | ⟨rfl, rfl⟩ <;> simp_all

/-- C65 fails for the backends that name a resource after the port: two ports on one interface, the same vlan, and two names. -/
theorem C65_shared_fails (m : Manager) (hm : m ∈ byPort) : ∃ (x y : End) (r s : Str),
    m.getResource Exm.pm x.port x.label = .ok r ∧ m.getResource Exm.pm y.port y.label = .ok s ∧
    SameInterface Exm.pm x y ∧ x.label = some (tVlan, 12) ∧ y.label = some (tVlan, 12) ∧ r ≠ s := by
  simp only [byPort, List.mem_cons, List.not_mem_nil, or_false] at hm
  have hs : SameInterface Exm.pm ⟨['a'], some (tVlan, 12)⟩ ⟨['b'], some (tVlan, 12)⟩ := ⟨_, _, rfl, rfl, rfl⟩
  rcases hm with rfl | rfl | rfl | rfl
  · exact ⟨⟨['a'], some (tVlan, 12)⟩, ⟨['b'], some (tVlan, 12)⟩, "a:12".toList, "b:12".toList, by decide +kernel, by decide +kernel, hs, rfl, rfl, by decide⟩
  · exact ⟨⟨['a'], some (tVlan, 12)⟩, ⟨['b'], some (tVlan, 12)⟩, "a.12".toList, "b.12".toList, by decide +kernel, by decide +kernel, hs, rfl, rfl, by decide⟩
  · exact ⟨⟨['a'], some (tVlan, 12)⟩, ⟨['b'], some (tVlan, 12)⟩, "a:12".toList, "b:12".toList, by decide +kernel, by decide +kernel, hs, rfl, rfl, by decide⟩
  · exact ⟨⟨['a'], some (tVlan, 12)⟩, ⟨['b'], some (tVlan, 12)⟩, "a:12".toList, "b:12".toList, by decide +kernel, by decide +kernel, hs, rfl, rfl, by decide⟩

/-- C65 fails: a port without label takes the whole interface, but its name is not that of a port with a vlan on the same interface
(also for the test backend, which names resources after interfaces). -/
theorem C65_whole_fails (m : Manager) (hm : m = Dud.manager ∨ m = Mx.manager) : ∃ (x y : End) (r s : Str),
    m.getResource Exm.pm x.port x.label = .ok r ∧ m.getResource Exm.pm y.port y.label = .ok s ∧
    SameInterface Exm.pm x y ∧ x.label = none ∧ r ≠ s := by
  have hs : SameInterface Exm.pm ⟨['w'], none⟩ ⟨['b'], some (tVlan, 12)⟩ := ⟨_, _, rfl, rfl, rfl⟩
  rcases hm with rfl | rfl
  · exact ⟨⟨['w'], none⟩, ⟨['b'], some (tVlan, 12)⟩, "i:".toList, "i:12".toList, by decide +kernel, by decide +kernel, hs, rfl, by decide⟩
  · exact ⟨⟨['w'], none⟩, ⟨['b'], some (tVlan, 12)⟩, "w:".toList, "b:12".toList, by decide +kernel, by decide +kernel, hs, rfl, by decide⟩

/-- C65 for JunOS EX (junosex.py): ends with the same vlan have the same name. Missing: the converse, see `C65_junosex_fails`. -/
theorem C65_junosex_partial (pm : PortMap) (x y : End) (r s : Str) (hx : Jex.getResource pm x.port x.label = .ok r)
    (hy : Jex.getResource pm y.port y.label = .ok s) : r = s ↔ SameValue x y := by
  unfold Jex.getResource at hx hy
  rcases hlx : x.label with _ | ⟨t, v⟩
  · rw [hlx] at hx; cases hk : lookup pm x.port <;> rw [hk] at hx <;> simp [Bind.bind, Except.bind] at hx
  · rcases hly : y.label with _ | ⟨u, w⟩
    · rw [hly] at hy; cases hk : lookup pm y.port <;> rw [hk] at hy <;> simp [Bind.bind, Except.bind] at hy
    · rw [hlx] at hx; rw [hly] at hy
      simp only [lvText, Except.ok.injEq] at hx hy
      subst hx; subst hy
      simp only [SameValue, hlx, hly, Option.map_some, Option.some.injEq]
      exact ⟨showInt_inj, fun h => by rw [h]⟩

/-- Hypotheses of `C65_junosex_partial` hold. -/
example : Jex.getResource Exm.pm ['a'] (some (tVlan, 12)) = .ok "12".toList := by decide +kernel

/-- C65 fails for JunOS EX (junosex.py:232): the interface is not part of the name, so the same vlan on two interfaces, each of which
has its own units, is booked as one. -/
theorem C65_junosex_fails : ∃ (x y : End) (r : Str), Jex.getResource Exm.pm x.port x.label = .ok r ∧
    Jex.getResource Exm.pm y.port y.label = .ok r ∧ ¬ SameInterface Exm.pm x y := by
  refine ⟨⟨['a'], some (tVlan, 12)⟩, ⟨['c'], some (tVlan, 12)⟩, "12".toList, by decide +kernel, by decide +kernel, ?_⟩
  rintro ⟨p, q, hp, hq, h⟩
  have h1 : p = ⟨['i'], none, some tVlan⟩ := by
    have : dget Exm.pm ['a'] = some ⟨['i'], none, some tVlan⟩ := rfl
    exact (Option.some.inj (this.symm.trans hp)).symm
  have h2 : q = ⟨['j'], none, some tVlan⟩ := by
    have : dget Exm.pm ['c'] = some ⟨['j'], none, some tVlan⟩ := rfl
    exact (Option.some.inj (this.symm.trans hq)).symm
  subst h1; subst h2
  exact absurd h (by decide)

/-- No two connections that hold resources have ends with the same resource name at the same time. -/
theorem booked_apart (cfg : Cfg) (w : World) (h : Reach cfg w) (a b : Row) (ha : a ∈ w.rows) (hb : b ∈ w.rows)
    (hne : a.cid ≠ b.cid) (hha : a.holds = true) (hhb : b.holds = true) (x y : End) (hx : x ∈ ends a) (hy : y ∈ ends b)
    (hs : cfg.mgr.getResource x.port x.label = cfg.mgr.getResource y.port y.label) (t : Time) : ¬ (During a t ∧ During b t) := by
  rintro ⟨hta, htb⟩
  have hc := C21_connections_partial cfg w h a b ha hb hne hha hhb
    ⟨⟨cfg.mgr.getResource x.port x.label, a.start, a.end_⟩, a.reserveTime⟩
    (by simp only [ends, List.mem_cons, List.not_mem_nil, or_false] at hx
        rcases hx with rfl | rfl <;> simp [Row.books])
    ⟨⟨cfg.mgr.getResource y.port y.label, b.start, b.end_⟩, b.reserveTime⟩
    (by simp only [ends, List.mem_cons, List.not_mem_nil, or_false] at hy
        rcases hy with rfl | rfl <;> simp [Row.books])
  exact hc ⟨hs, t, hta, htb⟩

/-- C65 with C21: in every state of a backend that is reached without the incidents of C21, with the test backend or one that names
resources after ports (each on its own interface) or after vlans, no two connections that hold resources have the same
interface and label at the same time. Missing: the incidents, and ports that share an interface. -/
theorem C65_booked_partial (m : Manager) (pm : PortMap)
    (hm : m = Dud.manager ∨ m = Ex.manager ∨ m = Brocade.manager ∨ (m ∈ byPort ∧ OnePerInterface pm))
    (cfg : Cfg) (hcfg : cfg.mgr = m.toConnMgr pm) (w : World) (h : Reach cfg w) (a b : Row) (ha : a ∈ w.rows) (hb : b ∈ w.rows)
    (hne : a.cid ≠ b.cid) (hha : a.holds = true) (hhb : b.holds = true) (x y : End) (hx : x ∈ ends a) (hy : y ∈ ends b)
    (r s : Str) (hr : m.getResource pm x.port x.label = .ok r) (hs : m.getResource pm y.port y.label = .ok s)
    (hsi : SameInterface pm x y) (hsv : SameValue x y) (t : Time) : ¬ (During a t ∧ During b t) := by
  have hrs : r = s := by
    rcases hm with rfl | rfl | rfl | ⟨hm, ho⟩
    · exact (C65_dud pm x y r s hr hs).2 ⟨hsi, hsv⟩
    · exact (C65_global pm x y r s (Or.inl ⟨hr, hs⟩)).2 hsv
    · exact (C65_global pm x y r s (Or.inr ⟨hr, hs⟩)).2 hsv
    · obtain ⟨p, q, hp, hq, he⟩ := hsi
      exact (C65_ports_partial m hm pm ho x y (by simp [dmem, hp]) (by simp [dmem, hq]) r s hr hs).2 ⟨⟨p, q, hp, hq, he⟩, hsv⟩
  refine booked_apart cfg w h a b ha hb hne hha hhb x y hx hy ?_ t
  rw [hcfg]
  simp only [Manager.toConnMgr, hr, hs, hrs]

/-- A backend with ports `a`, `b`, `c` of the example, all with vlans 10-30. -/
def Exm.cfg (m : Manager) : Cfg where
  network := ['n']
  ports := [(['a'], ⟨some (Ex.vlan 10 30), [], false⟩), (['b'], ⟨some (Ex.vlan 10 30), [], false⟩), (['c'], ⟨some (Ex.vlan 10 30), [], false⟩)]
  mgr := m.toConnMgr Exm.pm
  minDuration := 60

/-- Two requests for the same time: `a` to `c`, and `b` to `c`, vlans 12-20. -/
def Exm.two : List (Oracle × Ev) :=
  [(Ex.ids 'x', Ex.req (.reserve none (Ex.stp 'a' 12 20) (Ex.stp 'c' 12 20) (some (Ex.sec 2000)) (some (Ex.sec 3000)))),
   (Ex.ids 'y', Ex.req (.reserve none (Ex.stp 'b' 12 20) (Ex.stp 'c' 12 20) (some (Ex.sec 2000)) (some (Ex.sec 3000))))]

/-- Hypotheses of `C65_booked_partial` hold: with the test backend both requests are accepted, and get vlans 12 and 13 on interface `i`. -/
example : Reach (Exm.cfg Dud.manager) (runAll (Exm.cfg Dud.manager) Ex.w0 Exm.two) ∧
    (runAll (Exm.cfg Dud.manager) Ex.w0 Exm.two).rows.map (fun r => (r.holds, r.srcPort, r.srcLabel)) =
      [(true, ['a'], some (tVlan, 12)), (true, ['b'], some (tVlan, 13))] :=
  ⟨Ex.reach_runAll (by decide +kernel), by decide +kernel⟩

/-- C65 fails with JunOS MX and two ports on one interface: both connections get vlan 12 on interface `i`, at the same time. -/
theorem C65_double_fails : ∃ (w : World) (a b : Row) (x y : End), Reach (Exm.cfg Mx.manager) w ∧ a ∈ w.rows ∧ b ∈ w.rows ∧ a.cid ≠ b.cid ∧
    a.holds = true ∧ b.holds = true ∧ x ∈ ends a ∧ y ∈ ends b ∧ SameInterface Exm.pm x y ∧ SameValue x y ∧
    ∃ t, During a t ∧ During b t := by
  let a : Row := ⟨['x'], ['r'], Ex.sec 1000, ⟨.held, .released, .created⟩, false, false, ['a'], some (tVlan, 12), ['c'],
    some (tVlan, 12), some (Ex.sec 2000), some (Ex.sec 3000)⟩
  let b : Row := ⟨['y'], ['r'], Ex.sec 1000, ⟨.held, .released, .created⟩, false, false, ['b'], some (tVlan, 12), ['c'],
    some (tVlan, 13), some (Ex.sec 2000), some (Ex.sec 3000)⟩
  refine ⟨runAll (Exm.cfg Mx.manager) Ex.w0 Exm.two, a, b, ⟨['a'], some (tVlan, 12)⟩, ⟨['b'], some (tVlan, 12)⟩,
    Ex.reach_runAll (by decide +kernel), by decide +kernel, by decide +kernel, by decide +kernel, rfl, rfl, ?_, ?_,
    ⟨_, _, rfl, rfl, rfl⟩, rfl, Ex.sec 2500, ?_, ?_⟩
  · simp [ends, a]
  · simp [ends, b]
  · refine ⟨by decide +kernel, ?_⟩
    intro e he
    simp only [a, Option.some.injEq] at he
    subst he
    decide +kernel
  · refine ⟨by decide +kernel, ?_⟩
    intro e he
    simp only [b, Option.some.injEq] at he
    subst he
    decide +kernel

end OpenNSA.Device
