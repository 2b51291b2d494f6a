import Verif.Device.PropsConfigMx
import Verif.Device.PropsSwitches
import Verif.Device.Space
/-
C67: connections that are accepted can be set up and taken down.
-/
namespace OpenNSA.Device
open Py OpenNSA.Backend

/-! ### Specification -/

/-- The kinds of ports there are (topology/nrm.py:29-32): without label, with vlans, with mpls labels. -/
def DPort.Kind (p : DPort) : Prop := p.labelType = none ∨ p.labelType = some tVlan ∨ p.labelType = some tMpls

/-- The commands configure the end on its interface, as unit `u`: unit 0 of an interface that is used as a whole, or a unit for the vlan. -/
def UnitUp (up : List Cmd) (t : Target) (u : Str) : Prop :=
  t.port.labelType = none ∧ u = ['0'] ∧ Cmd.set ["interfaces".toList, t.port.interface, "unit".toList, ['0'], "family".toList, "ccc".toList] ∈ up ∨
  t.port.labelType = some tVlan ∧ u = valText t.value ∧ Cmd.set ["interfaces".toList, t.port.interface, "unit".toList, u, "vlan-id".toList, u] ∈ up

/-- The commands join the two ends: as interfaces of a switch, or as interface and LSP of a remote switch. -/
def Joins (e : Mx.Env) (up : List Cmd) (s d : Target) : Prop :=
  (∃ a b n, UnitUp up s a ∧ UnitUp up d b ∧
    Cmd.set ["protocols".toList, "connections".toList, "interface-switch".toList, n, "interface".toList, s.port.interface ++ '.' :: a] ∈ up ∧
    Cmd.set ["protocols".toList, "connections".toList, "interface-switch".toList, n, "interface".toList, d.port.interface ++ '.' :: b] ∈ up) ∨
  ∃ l r, ((l, r) = (s, d) ∨ (l, r) = (d, s)) ∧ r.port.labelType = some tMpls ∧ ∃ a n lsp ip i, UnitUp up l a ∧
    (i = l.port.interface ++ '.' :: a ∨ l.port.labelType = none ∧ i = l.port.interface) ∧
    Cmd.set ["protocols".toList, "connections".toList, "remote-interface-switch".toList, n, "interface".toList, i] ∈ up ∧
    Cmd.set ["protocols".toList, "connections".toList, "remote-interface-switch".toList, n, "transmit-lsp".toList, lsp] ∈ up ∧
    Cmd.set ["protocols".toList, "mpls".toList, "label-switched-path".toList, lsp, "to".toList, ip] ∈ up ∧ dget e.routers (dropTopology r.net) = some ip

/-- The LSPs to the network of the port can be made: its loopback address is known. -/
def Known (e : Mx.Env) (t : Target) : Prop := (dget e.routers (dropTopology t.net)).isSome

/-- The pairs of ends that JunOS MX can join. -/
def Mx.Works (e : Mx.Env) (s d : Target) : Prop :=
  match s.port.remote.isSome, d.port.remote.isSome with
  | false, false => s.port.labelType ≠ some tMpls ∧ d.port.labelType ≠ some tMpls
  | true, true => s.port.labelType = some tVlan ∧ d.port.labelType = some tVlan ∨
      s.port.labelType = some tVlan ∧ d.port.labelType = some tMpls ∧ Known e d ∨
      s.port.labelType = some tMpls ∧ d.port.labelType = some tVlan ∧ Known e s
  | true, false => s.port.labelType = some tMpls ∧ Known e s ∧ d.port.labelType ≠ some tMpls ∨
      s.port.labelType = some tVlan ∧ d.port.labelType = some tVlan
  | false, true => d.port.labelType = some tMpls ∧ Known e d ∧ s.port.labelType ≠ some tMpls ∨
      d.port.labelType = some tVlan ∧ s.port.labelType = some tVlan

/-! ### JunOS MX -/

/-- `UnitUp` with the names of the model: the commands configure the end on its interface, as unit `u`: unit 0 of an interface that is used as a whole, or a unit for the vlan. -/
def UnitUpK (up : List Cmd) (t : Target) (u : Str) : Prop :=
  t.port.labelType = none ∧ u = ['0'] ∧ Cmd.set [kInterfaces, t.port.interface, kUnit, ['0'], kFamily, "ccc".toList] ∈ up ∨
  t.port.labelType = some tVlan ∧ u = valText t.value ∧ Cmd.set [kInterfaces, t.port.interface, kUnit, u, kVlanId, u] ∈ up

/-- `Joins` with the names of the model: the commands join the two ends: as interfaces of a switch, or as interface and LSP of a remote switch. -/
def JoinsK (e : Mx.Env) (up : List Cmd) (s d : Target) : Prop :=
  (∃ a b n, UnitUpK up s a ∧ UnitUpK up d b ∧
    Cmd.set [kProtocols, kConnections, kIntSwitch, n, kInterface, s.port.interface ++ '.' :: a] ∈ up ∧
    Cmd.set [kProtocols, kConnections, kIntSwitch, n, kInterface, d.port.interface ++ '.' :: b] ∈ up) ∨
  ∃ l r, ((l, r) = (s, d) ∨ (l, r) = (d, s)) ∧ r.port.labelType = some tMpls ∧ ∃ a n lsp ip i, UnitUpK up l a ∧
    (i = l.port.interface ++ '.' :: a ∨ l.port.labelType = none ∧ i = l.port.interface) ∧
    Cmd.set [kProtocols, kConnections, kRemSwitch, n, kInterface, i] ∈ up ∧
    Cmd.set [kProtocols, kConnections, kRemSwitch, n, kTransmit, lsp] ∈ up ∧
    Cmd.set [kProtocols, kMpls, kLsp, lsp, kTo, ip] ∈ up ∧ dget e.routers (dropTopology r.net) = some ip

theorem joins_iff (e : Mx.Env) (up : List Cmd) (s d : Target) : Joins e up s d ↔ JoinsK e up s d := Iff.rfl

/-- All kinds of ports are accepted in all combinations. -/
theorem mx_accepts {p q : DPort} (hp : p.Kind) (hq : q.Kind) : Mx.canConnect p.labelType q.labelType = true := by
  rcases hp with h | h | h <;> rcases hq with h' | h' | h' <;> rw [h, h'] <;> decide

theorem endUp_head {t : Target} {c : Cmd} (h : c ∈ Mx.endUp t) : ∃ r, c = .set (kInterfaces :: r) := by
  unfold Mx.endUp at h
  split at h
  · simp only [Mx.wholeUp, List.mem_cons, List.not_mem_nil, or_false] at h
    rcases h with rfl | rfl | rfl <;> exact ⟨_, rfl⟩
  · split at h
    · simp only [Mx.vlanUp, List.mem_cons, List.not_mem_nil, or_false] at h
      rcases h with rfl | rfl | rfl | rfl | rfl | rfl <;> exact ⟨_, rfl⟩
    · simp at h

theorem vlanUp_head {p v : Str} {c : Cmd} (h : c ∈ Mx.vlanUp p v) : ∃ r, c = .set (kInterfaces :: r) := by
  simp only [Mx.vlanUp, List.mem_cons, List.not_mem_nil, or_false] at h
  rcases h with rfl | rfl | rfl | rfl | rfl | rfl <;> exact ⟨_, rfl⟩

theorem protocols_endUp {t : Target} (r : Path) : Cmd.set (kProtocols :: r) ∉ Mx.endUp t := by
  intro h
  obtain ⟨r', h⟩ := endUp_head h
  simp only [Cmd.set.injEq, List.cons.injEq] at h
  exact kw_ne.1 h.1.symm

theorem protocols_vlanUp {p v : Str} (r : Path) : Cmd.set (kProtocols :: r) ∉ Mx.vlanUp p v := by
  intro h
  obtain ⟨r', h⟩ := vlanUp_head h
  simp only [Cmd.set.injEq, List.cons.injEq] at h
  exact kw_ne.1 h.1.symm

theorem unitUp_kind {up : List Cmd} {t : Target} {u : Str} (h : UnitUpK up t u) : t.port.labelType ≠ some tMpls := by
  rcases h with ⟨h, _⟩ | ⟨h, _⟩ <;> rw [h]
  · simp
  · simp [tVlan_ne_tMpls]

theorem unitUp_endUp {t : Target} (h : t.port.labelType = none ∨ t.port.labelType = some tVlan) {up : List Cmd} (hs : ∀ c ∈ Mx.endUp t, c ∈ up) :
    UnitUpK up t (if t.port.labelType.isSome then valText t.value else ['0']) := by
  rcases h with h | h
  · refine Or.inl ⟨h, by simp [h], hs _ ?_⟩
    simp [Mx.endUp, h, Mx.wholeUp]
  · refine Or.inr ⟨h, by simp [h], hs _ ?_⟩
    simp [Mx.endUp, h, Mx.vlanUp]

theorem kind_not_mpls {p : DPort} (hk : p.Kind) (h : p.labelType ≠ some tMpls) : p.labelType = none ∨ p.labelType = some tVlan := by
  rcases hk with h1 | h1 | h1
  · exact Or.inl h1
  · exact Or.inr h1
  · exact absurd h1 h

theorem lspUp_known {e : Mx.Env} {t : Target} {ip : Str} (h : dget e.routers (dropTopology t.net) = some ip) :
    Mx.lspUp e t = .ok [.set [kProtocols, kMpls, kLsp, Mx.lspName t.net e.network t.value, kTo, ip],
      .set [kProtocols, kMpls, kLsp, Mx.lspName t.net e.network t.value, kNoCspf]] := by
  simp [Mx.lspUp, Mx.loopback, h, bind, Except.bind]

/-- Local connections. -/
theorem mx_works_local {e : Mx.Env} {id : Str} {s d : Target} (hs : s.port.remote = none) (hd : d.port.remote = none) (ks : s.port.Kind) (kd : d.port.Kind) :
    (∃ up down, Mx.activate e id s d = .ok up ∧ Mx.deactivate e id s d = .ok down ∧ JoinsK e up s d) ↔
      s.port.labelType ≠ some tMpls ∧ d.port.labelType ≠ some tMpls := by
  have ha : Mx.activate e id s d = .ok (Mx.localUp id s d) := by simp [Mx.activate, hs, hd]
  have hdd : Mx.deactivate e id s d = .ok (Mx.localDown id s d) := by simp [Mx.deactivate, hs, hd]
  constructor
  · rintro ⟨up, _, h1, _, h⟩
    rw [ha] at h1
    simp only [Except.ok.injEq] at h1
    subst h1
    rcases h with ⟨a, b, n, h1, h2, _⟩ | ⟨l, r, _, _, a, n, lsp, ip, i, _, _, _, ht, _⟩
    · exact ⟨unitUp_kind h1, unitUp_kind h2⟩
    · simp only [Mx.localUp, List.mem_append, protocols_endUp, List.map_cons, List.map_nil, Mx.join, List.mem_cons, Cmd.set.injEq,
        List.cons.injEq, kw_ne.2.2.2.2.2.2.2.1.symm, false_and, and_false, List.not_mem_nil, or_false] at ht
  · rintro ⟨h1, h2⟩
    refine ⟨_, _, ha, hdd, Or.inl ⟨_, _, Mx.switch id, unitUp_endUp (kind_not_mpls ks h1) ?_, unitUp_endUp (kind_not_mpls kd h2) ?_, ?_, ?_⟩⟩
    · intro c hc; simp [Mx.localUp, hc]
    · intro c hc; simp [Mx.localUp, hc]
    · simp [Mx.localUp, Mx.join, unitName]
    · simp [Mx.localUp, Mx.join, unitName]

/-- Connections from a local port `l` to a port `r` with a remote network, in either direction. -/
theorem mx_works_remote {e : Mx.Env} {id : Str} {s d l r : Target} (hl : localOf s d = l) (hr : remoteOf s d = r)
    (hlr : (l, r) = (s, d) ∨ (l, r) = (d, s)) (hn : s.port.remote.isSome ≠ d.port.remote.isSome) (kl : l.port.Kind) (kr : r.port.Kind) :
    (∃ up down, Mx.activate e id s d = .ok up ∧ Mx.deactivate e id s d = .ok down ∧ JoinsK e up s d) ↔
      r.port.labelType = some tMpls ∧ Known e r ∧ l.port.labelType ≠ some tMpls ∨ r.port.labelType = some tVlan ∧ l.port.labelType = some tVlan := by
  have ha : Mx.activate e id s d = Mx.remoteUp e id s d := by
    unfold Mx.activate
    rw [if_neg, if_neg]
    · rintro ⟨h1, h2⟩; exact hn (by rw [h1, h2])
    · rintro ⟨h1, h2⟩
      simp only [Option.isNone_iff_eq_none] at h1 h2
      exact hn (by rw [h1, h2])
  have hdd : Mx.deactivate e id s d = Mx.remoteDown e id s d := by
    unfold Mx.deactivate
    rw [if_neg, if_neg]
    · rintro ⟨h1, h2⟩; exact hn (by rw [h1, h2])
    · rintro ⟨h1, h2⟩
      simp only [Option.isNone_iff_eq_none] at h1 h2
      exact hn (by rw [h1, h2])
  rw [ha, hdd]
  have hsw : ∀ up, (∃ x y, ((x, y) = (s, d) ∨ (x, y) = (d, s)) ∧ y.port.labelType = some tMpls ∧ ∃ a n lsp ip i, UnitUpK up x a ∧
      (i = x.port.interface ++ '.' :: a ∨ x.port.labelType = none ∧ i = x.port.interface) ∧
      Cmd.set [kProtocols, kConnections, kRemSwitch, n, kInterface, i] ∈ up ∧
      Cmd.set [kProtocols, kConnections, kRemSwitch, n, kTransmit, lsp] ∈ up ∧
      Cmd.set [kProtocols, kMpls, kLsp, lsp, kTo, ip] ∈ up ∧ dget e.routers (dropTopology y.net) = some ip) →
      r.port.labelType = some tMpls ∧ Known e r ∧ l.port.labelType ≠ some tMpls ∨
      l.port.labelType = some tMpls ∧ r.port.labelType ≠ some tMpls ∧
        ∃ n lsp, Cmd.set [kProtocols, kConnections, kRemSwitch, n, kTransmit, lsp] ∈ up := by
    rintro up ⟨x, y, hxy, hy, a, n, lsp, ip, i, hu, _, _, ht, _, hk⟩
    have : (x, y) = (l, r) ∨ (x, y) = (r, l) := by
      rcases hxy with h | h <;> rcases hlr with h' | h' <;> (simp only [Prod.mk.injEq] at h h' ⊢; simp [h, h'])
    rcases this with h | h <;> (simp only [Prod.mk.injEq] at h; obtain ⟨rfl, rfl⟩ := h)
    · exact Or.inl ⟨hy, by simp [Known, hk], unitUp_kind hu⟩
    · exact Or.inr ⟨hy, unitUp_kind hu, n, lsp, ht⟩
  have hvm := tVlan_ne_tMpls
  have hkw := kw_ne.2.2.2.2.2.2.2.1
  constructor
  · rintro ⟨up, down, h1, h2, h⟩
    simp only [Mx.remoteUp, hl, hr] at h1
    rcases kr with hk | hk | hk
    · -- no label: taking down fails
      simp [Mx.remoteDown, hr, hk] at h2
    · -- vlan
      refine Or.inr ⟨hk, ?_⟩
      rcases kl with hkl | hkl | hkl
      · simp [Mx.remoteLsp, hk, hvm, Mx.remoteVlan, Mx.joinTyped, hkl, bind, Except.bind] at h1
      · exact hkl
      · exfalso
        rcases h with ⟨a, b, n, hua, hub, _⟩ | h
        · rcases hlr with h | h <;> (simp only [Prod.mk.injEq] at h; obtain ⟨rfl, rfl⟩ := h)
          · exact unitUp_kind hua hkl
          · exact unitUp_kind hub hkl
        · rcases hsw up h with ⟨h, _⟩ | ⟨_, _, n, lsp, ht⟩
          · rw [hk] at h; simp [hvm] at h
          · simp only [Mx.remoteLsp, hk, Option.some.injEq, hvm, if_false, Mx.remoteVlan, Mx.joinTyped, hkl, if_true, bind, Except.bind,
              hvm.symm, List.append_nil, Except.ok.injEq] at h1
            subst h1
            simp only [List.mem_append, protocols_endUp, protocols_vlanUp, Mx.join, List.mem_cons, Cmd.set.injEq, List.cons.injEq, hkw.symm,
              false_and, and_false, List.not_mem_nil, or_false] at ht
    · -- LSP
      refine Or.inl ?_
      rcases h with ⟨a, b, n, hua, hub, _⟩ | h
      · exfalso
        rcases hlr with h | h <;> (simp only [Prod.mk.injEq] at h; obtain ⟨rfl, rfl⟩ := h)
        · exact unitUp_kind hub hk
        · exact unitUp_kind hua hk
      · rcases hsw up h with h | ⟨_, h, _⟩
        · exact h
        · exact absurd hk h
  · rintro (⟨hk, hkn, hkl⟩ | ⟨hk, hkl⟩)
    · obtain ⟨ip, hip⟩ := Option.isSome_iff_exists.1 hkn
      refine ⟨Mx.endUp l ++ ([Cmd.set [kProtocols, kMpls, kLsp, Mx.lspName r.net e.network r.value, kTo, ip],
          Cmd.set [kProtocols, kMpls, kLsp, Mx.lspName r.net e.network r.value, kNoCspf]] ++ Mx.lspEnd id l ++ Mx.useLsp e id r) ++ [], Mx.endDown l ++ [Mx.lspDown e r, Mx.unlsp id], ?_, ?_, Or.inr ⟨l, r, hlr, hk, (if l.port.labelType.isSome then valText l.value else ['0']), id, Mx.lspName r.net e.network r.value, ip,
        (if l.port.labelType.isSome then l.port.interface ++ '.' :: valText l.value else l.port.interface), ?_, ?_, ?_, ?_, ?_, hip⟩⟩
      · simp only [Mx.remoteUp, hl, hr, Mx.remoteLsp, hk, if_true, lspUp_known hip, Mx.remoteVlan, Option.some.injEq, hvm.symm, if_false, bind,
          Except.bind]
      · simp only [Mx.remoteDown, hl, hr, hk, if_true]
      · exact unitUp_endUp (kind_not_mpls kl hkl) fun c hc => by simp [hc]
      · rcases kind_not_mpls kl hkl with h | h <;> simp [h]
      · rcases kind_not_mpls kl hkl with h | h <;> simp [h, Mx.lspEnd, Mx.lspIf, unitName]
      · simp [Mx.useLsp]
      · simp
    · refine ⟨Mx.endUp l ++ [] ++ (Mx.vlanUp r.port.interface (valText r.value) ++ [Mx.join id l.port.interface (valText l.value),
          Mx.join id r.port.interface (valText r.value)]), Mx.endDown l ++ [.delete [kInterfaces, unitName r.port.interface (valText r.value)], Mx.unjoin id],
          ?_, ?_, Or.inl ?_⟩
      · simp only [Mx.remoteUp, hl, hr, Mx.remoteLsp, hk, Option.some.injEq, hvm, if_false, if_true, Mx.remoteVlan, Mx.joinTyped, hkl, bind,
          Except.bind]
      · simp only [Mx.remoteDown, hl, hr, hk, hvm, if_false, if_true]
      · have hul : UnitUpK (Mx.endUp l ++ [] ++ (Mx.vlanUp r.port.interface (valText r.value) ++ [Mx.join id l.port.interface (valText l.value),
            Mx.join id r.port.interface (valText r.value)])) l (valText l.value) :=
          Or.inr ⟨hkl, rfl, by simp [Mx.endUp, hkl, Mx.vlanUp]⟩
        have hur : UnitUpK (Mx.endUp l ++ [] ++ (Mx.vlanUp r.port.interface (valText r.value) ++ [Mx.join id l.port.interface (valText l.value),
            Mx.join id r.port.interface (valText r.value)])) r (valText r.value) :=
          Or.inr ⟨hk, rfl, by simp [Mx.vlanUp]⟩
        rcases hlr with h | h <;> (simp only [Prod.mk.injEq] at h; obtain ⟨rfl, rfl⟩ := h)
        · exact ⟨_, _, Mx.switch id, hul, hur, by simp [Mx.join, unitName], by simp [Mx.join, unitName]⟩
        · exact ⟨_, _, Mx.switch id, hur, hul, by simp [Mx.join, unitName], by simp [Mx.join, unitName]⟩

/-- Transit connections from a vlan `l` to an LSP `r`, in either direction. -/
theorem mx_transit_lsp {e : Mx.Env} {id : Str} {l r : Target} {up : List Cmd} (hl : l.port.labelType = some tVlan) (hr : r.port.labelType = some tMpls)
    {ip : Str} (hip : dget e.routers (dropTopology r.net) = some ip) (hv : ∀ c ∈ Mx.vlanEnd l, c ∈ up) (ht : ∀ x, Mx.transitLsp e id r l = .ok x → ∀ c ∈ x, c ∈ up) :
    ∃ a n lsp ip i, UnitUpK up l a ∧ (i = l.port.interface ++ '.' :: a ∨ l.port.labelType = none ∧ i = l.port.interface) ∧
      Cmd.set [kProtocols, kConnections, kRemSwitch, n, kInterface, i] ∈ up ∧
      Cmd.set [kProtocols, kConnections, kRemSwitch, n, kTransmit, lsp] ∈ up ∧
      Cmd.set [kProtocols, kMpls, kLsp, lsp, kTo, ip] ∈ up ∧ dget e.routers (dropTopology r.net) = some ip := by
  have h := ht ([Cmd.set [kProtocols, kMpls, kLsp, Mx.lspName r.net e.network r.value, kTo, ip],
      Cmd.set [kProtocols, kMpls, kLsp, Mx.lspName r.net e.network r.value, kNoCspf]] ++ [Mx.lspIf id (unitName l.port.interface (valText l.value))] ++
      Mx.useLsp e id r) (by simp only [Mx.transitLsp, hr, if_true, lspUp_known hip, hl, bind, Except.bind])
  refine ⟨valText l.value, id, Mx.lspName r.net e.network r.value, ip, _, Or.inr ⟨hl, rfl, hv _ (by simp [Mx.vlanEnd, hl, Mx.vlanUp])⟩, Or.inl rfl,
    h _ ?_, h _ ?_, h _ ?_, hip⟩
  · simp [Mx.lspIf, unitName]
  · simp [Mx.useLsp]
  · simp

theorem protocols_vlanEnd {t : Target} (r : Path) : Cmd.set (kProtocols :: r) ∉ Mx.vlanEnd t := by
  unfold Mx.vlanEnd
  split
  · exact protocols_vlanUp r
  · simp

/-- Transit connections. -/
theorem mx_works_transit {e : Mx.Env} {id : Str} {s d : Target} (hs : s.port.remote.isSome) (hd : d.port.remote.isSome) (ks : s.port.Kind) (kd : d.port.Kind) :
    (∃ up down, Mx.activate e id s d = .ok up ∧ Mx.deactivate e id s d = .ok down ∧ JoinsK e up s d) ↔
      s.port.labelType = some tVlan ∧ d.port.labelType = some tVlan ∨ s.port.labelType = some tVlan ∧ d.port.labelType = some tMpls ∧ Known e d ∨
      s.port.labelType = some tMpls ∧ d.port.labelType = some tVlan ∧ Known e s := by
  have hsn : s.port.remote.isNone = false := by cases h : s.port.remote <;> simp_all
  have ha : Mx.activate e id s d = Mx.transitUp e id s d := by simp [Mx.activate, hsn, hs, hd]
  have hdd : Mx.deactivate e id s d = .ok (Mx.transitDown e id s d) := by simp [Mx.deactivate, hsn, hs, hd]
  rw [ha, hdd]
  have hvm := tVlan_ne_tMpls
  have hkw := kw_ne.2.2.2.2.2.2.2.1
  constructor
  · rintro ⟨up, _, h1, _, h⟩
    -- the commands of the ends without LSPs
    have nolsp : s.port.labelType ≠ some tMpls → d.port.labelType ≠ some tMpls → ∀ n r, Cmd.set (kProtocols :: kConnections :: kIntSwitch :: n :: r) ∈ up →
        s.port.labelType = some tVlan ∧ d.port.labelType = some tVlan := by
      intro h2 h3 n r hm
      simp only [Mx.transitUp, Mx.transitLsp, h2, h3, if_false, bind, Except.bind, List.append_nil, Except.ok.injEq] at h1
      subst h1
      simp only [List.mem_append, protocols_vlanEnd, false_or] at hm
      split at hm
      · rename_i h4; exact ⟨h4.2, h4.1⟩
      · simp at hm
    -- the interface of a remote switch is the vlan on the other side
    have rif : ∀ n i, Cmd.set [kProtocols, kConnections, kRemSwitch, n, kInterface, i] ∈ up → s.port.labelType = some tVlan ∨ d.port.labelType = some tVlan := by
      intro n i hm
      refine Classical.byContradiction fun hno => ?_
      simp only [not_or] at hno
      simp only [Mx.transitUp] at h1
      obtain ⟨c2, h2, h1⟩ := bind_ok h1
      obtain ⟨c3, h3, h1⟩ := bind_ok h1
      simp only [hno.1, hno.2, false_and, if_false, List.append_nil, Except.ok.injEq] at h1
      have key : ∀ (t o : Target) (x : List Cmd), o.port.labelType ≠ some tVlan → Mx.transitLsp e id t o = .ok x →
          Cmd.set [kProtocols, kConnections, kRemSwitch, n, kInterface, i] ∉ x := by
        intro t o x ho hx
        unfold Mx.transitLsp at hx
        split at hx
        · obtain ⟨y, hy, hx⟩ := bind_ok hx
          simp only [List.append_nil, Except.ok.injEq] at hx
          unfold Mx.lspUp at hy
          obtain ⟨ip, _, hy⟩ := bind_ok hy
          simp only [Except.ok.injEq] at hy
          subst hy hx
          have k1 : kConnections ≠ kMpls := kw_ne.2.2.2.2.2.2.2.2.1
          have k2 : kInterface ≠ kTransmit := by decide
          have k3 : kInterface ≠ kReceive := by decide
          simp [Mx.useLsp, k1, k2, k3]
        · simp only [Except.ok.injEq] at hx
          subst hx
          simp
      subst h1
      simp only [List.mem_append, protocols_vlanEnd, false_or] at hm
      rcases hm with hm | hm
      · exact key s d c2 hno.2 h2 hm
      · exact key d s c3 hno.1 h3 hm
    rcases h with ⟨a, b, n, hua, hub, hsw, _⟩ | ⟨l, r, hlr, hr, a, n, lsp, ip, i, hu, _, hi, _, _, hk⟩
    · exact Or.inl (nolsp (unitUp_kind hua) (unitUp_kind hub) _ _ hsw)
    · have hno := unitUp_kind hu
      rcases hlr with h | h <;> (simp only [Prod.mk.injEq] at h; obtain ⟨rfl, rfl⟩ := h)
      · refine Or.inr (Or.inl ⟨?_, hr, by simp [Known, hk]⟩)
        rcases rif n i hi with h | h
        · exact h
        · rw [hr] at h; simp [hvm.symm] at h
      · refine Or.inr (Or.inr ⟨hr, ?_, by simp [Known, hk]⟩)
        rcases rif n i hi with h | h
        · rw [hr] at h; simp [hvm.symm] at h
        · exact h
  · rintro (⟨h1, h2⟩ | ⟨h1, h2, hk⟩ | ⟨h1, h2, hk⟩)
    · refine ⟨Mx.vlanEnd s ++ Mx.vlanEnd d ++ [] ++ [] ++ [s, d].map fun t => Mx.join id t.port.interface (valText t.value), _, ?_, rfl, Or.inl ?_⟩
      · simp only [Mx.transitUp, Mx.transitLsp, h1, h2, Option.some.injEq, hvm, if_false, bind, Except.bind, and_self, if_true]
      · refine ⟨valText s.value, valText d.value, Mx.switch id, Or.inr ⟨h1, rfl, ?_⟩, Or.inr ⟨h2, rfl, ?_⟩, ?_, ?_⟩
        · simp [Mx.vlanEnd, h1, Mx.vlanUp]
        · simp [Mx.vlanEnd, h2, Mx.vlanUp]
        · simp [Mx.join, unitName]
        · simp [Mx.join, unitName]
    · obtain ⟨ip, hip⟩ := Option.isSome_iff_exists.1 hk
      obtain ⟨x, hx⟩ : ∃ x, Mx.transitLsp e id d s = .ok x := by
        simp only [Mx.transitLsp, h2, if_true, lspUp_known hip, bind, Except.bind]
        exact ⟨_, rfl⟩
      refine ⟨Mx.vlanEnd s ++ Mx.vlanEnd d ++ [] ++ x ++ [], _, ?_, rfl, Or.inr ⟨s, d, Or.inl rfl, h2, mx_transit_lsp (id := id) h1 h2 hip ?_ ?_⟩⟩
      · simp only [Mx.transitUp, hx, bind, Except.bind]
        simp [Mx.transitLsp, h1, h2, hvm, hvm.symm]
      · intro c hc; simp [hc]
      · intro y hy c hc
        rw [hx] at hy
        simp only [Except.ok.injEq] at hy
        subst hy
        simp [hc]
    · obtain ⟨ip, hip⟩ := Option.isSome_iff_exists.1 hk
      obtain ⟨x, hx⟩ : ∃ x, Mx.transitLsp e id s d = .ok x := by
        simp only [Mx.transitLsp, h1, if_true, lspUp_known hip, bind, Except.bind]
        exact ⟨_, rfl⟩
      refine ⟨Mx.vlanEnd s ++ Mx.vlanEnd d ++ x ++ [] ++ [], _, ?_, rfl, Or.inr ⟨d, s, Or.inr rfl, h1, mx_transit_lsp (id := id) h2 h1 hip ?_ ?_⟩⟩
      · simp only [Mx.transitUp, hx, bind, Except.bind]
        simp [Mx.transitLsp, h1, h2, hvm, hvm.symm]
      · intro c hc; simp [hc]
      · intro y hy c hc
        rw [hx] at hy
        simp only [Except.ok.injEq] at hy
        subst hy
        simp [hc]

/-- C67 for JunOS MX, exactly: which pairs of ends can be set up, so that the commands join them, and taken down. Missing: all pairs of ends are
accepted, see `C67_mx_fails`. -/
theorem C67_mx_partial (e : Mx.Env) (id : Str) (s d : Target) (ks : s.port.Kind) (kd : d.port.Kind) :
    (∃ up down, Mx.activate e id s d = .ok up ∧ Mx.deactivate e id s d = .ok down ∧ Joins e up s d) ↔ Mx.Works e s d := by
  simp only [joins_iff]
  unfold Mx.Works
  cases hs : s.port.remote with
  | none =>
    cases hd : d.port.remote with
    | none => simpa using mx_works_local hs hd ks kd
    | some y => simpa using mx_works_remote (s := s) (d := d) (l := s) (r := d) (by simp [localOf, hs]) (by simp [remoteOf, hs]) (Or.inl rfl) (by simp [hs, hd]) ks kd
  | some x =>
    cases hd : d.port.remote with
    | none => simpa using mx_works_remote (s := s) (d := d) (l := d) (r := s) (by simp [localOf, hs]) (by simp [remoteOf, hs]) (Or.inr rfl) (by simp [hs, hd]) kd ks
    | some y => simpa using mx_works_transit (by simp [hs]) (by simp [hd]) ks kd

/-- Example: hypotheses and right side of `C67_mx_partial` for a local vlan and an LSP to a known network. -/
example : let s : Target := ⟨⟨['i'], none, some tVlan⟩, some 12⟩
    let d : Target := ⟨⟨['j'], some ['n'], some tMpls⟩, some 7⟩
    s.port.Kind ∧ d.port.Kind ∧ Mx.Works ⟨['m'], [(['n'], ['1'])]⟩ s d := by
  refine ⟨Or.inr (Or.inl rfl), Or.inr (Or.inr rfl), ?_⟩
  simp only [Mx.Works, Known, Option.isSome_none, Option.isSome_some]
  decide +kernel

/-- C67 fails for JunOS MX: each of these pairs of ends is accepted, but cannot be set up and taken down, whatever the routers that are known: a port
without label and a vlan with a remote network; a vlan and a port with a remote network and no label; two LSPs; an LSP and a port with a remote
network and no label; and mpls labels of ports without remote network. -/
theorem C67_mx_fails (e : Mx.Env) (id : Str) : ∀ k ∈ [((none, none), (some ['n'], some tVlan)), ((none, some tVlan), (some ['n'], none)),
      ((some ['m'], some tMpls), (some ['n'], some tMpls)), ((some ['m'], some tMpls), (some ['n'], none)), ((none, some tMpls), (none, some tMpls))],
    let s : Target := ⟨⟨['i'], k.1.1, k.1.2⟩, some 12⟩
    let d : Target := ⟨⟨['j'], k.2.1, k.2.2⟩, some 7⟩
    Mx.canConnect s.port.labelType d.port.labelType = true ∧
      ¬ ∃ up down, Mx.activate e id s d = .ok up ∧ Mx.deactivate e id s d = .ok down ∧ Joins e up s d := by
  have hvm := tVlan_ne_tMpls
  intro k hk
  simp only [List.mem_cons, List.not_mem_nil, or_false] at hk
  rcases hk with rfl | rfl | rfl | rfl | rfl <;> refine ⟨by decide, ?_⟩ <;>
    rw [C67_mx_partial e id _ _ (by simp [DPort.Kind]) (by simp [DPort.Kind])] <;> simp [Mx.Works, hvm, hvm.symm]

/-- C67 for JunOS MX, the other way: the ends that can be set up and taken down so that they are joined are offered, that is, they can be connected. -/
theorem C67_mx_offered (e : Mx.Env) (id : Str) (s d : Target) (ks : s.port.Kind) (kd : d.port.Kind) (up down : List Cmd) (_ : Mx.activate e id s d = .ok up)
    (_ : Mx.deactivate e id s d = .ok down) (_ : Joins e up s d) : Mx.canConnect s.port.labelType d.port.labelType = true :=
  mx_accepts ks kd

/-- Hypotheses of `C67_mx_offered`: a vlan and a port without label. -/
example : ∃ up down, Mx.activate ⟨['m'], []⟩ ['1'] ⟨⟨['i'], none, some tVlan⟩, some 12⟩ ⟨⟨['j'], none, none⟩, none⟩ = .ok up ∧
    Mx.deactivate ⟨['m'], []⟩ ['1'] ⟨⟨['i'], none, some tVlan⟩, some 12⟩ ⟨⟨['j'], none, none⟩, none⟩ = .ok down ∧
    Joins ⟨['m'], []⟩ up ⟨⟨['i'], none, some tVlan⟩, some 12⟩ ⟨⟨['j'], none, none⟩, none⟩ := by
  refine (C67_mx_partial _ _ _ _ ?_ ?_).2 ?_ <;> simp [DPort.Kind, Mx.Works, tVlan_ne_tMpls]

/-! ### Junos Space -/

/-- The request is about the end: its interface and label, if any. -/
def SpaceEnd.For (a : SpaceEnd) (t : Target) : Prop :=
  a.interface = t.port.interface ∧ (t.port.labelType = none ∧ a.labelType = tPort ∨ t.port.labelType = some a.labelType ∧ a.labelValue = valText t.value)

/-- The request joins the two ends. -/
def SpaceReq.Joins (e : Space.Env) (q : SpaceReq) (s d : Target) : Prop :=
  match q with
  | .joinEnds _ a b _ => a.For s ∧ b.For d
  | .joinLsp _ a ip out inn _ => ∃ l r, ((l, r) = (s, d) ∨ (l, r) = (d, s)) ∧ a.For l ∧ (∃ x, dget e.routers (dropTopology r.net) = some x ∧ x.2 = ip) ∧
      r.port.remote.isSome ∧ out = Mx.lspName r.net e.network r.value ∧ inn = Mx.lspName e.network r.net r.value

/-- The pairs of ends for which Junos Space gets a request. -/
def Space.Works (e : Space.Env) (s d : Target) : Prop :=
  (dget e.routers (dropTopology e.network)).isSome ∧
  match s.port.remote.isSome, d.port.remote.isSome with
  | false, false => True
  | true, true => s.port.labelType = some tVlan ∧ d.port.labelType = some tVlan ∨
      s.port.labelType = some tVlan ∧ d.port.labelType = some tMpls ∧ (dget e.routers (dropTopology d.net)).isSome ∨
      s.port.labelType = some tMpls ∧ d.port.labelType = some tVlan ∧ (dget e.routers (dropTopology s.net)).isSome
  | true, false => s.port.labelType = some tMpls ∧ (dget e.routers (dropTopology s.net)).isSome ∨ s.port.labelType = some tVlan
  | false, true => d.port.labelType = some tMpls ∧ (dget e.routers (dropTopology d.net)).isSome ∨ d.port.labelType = some tVlan

theorem space_endOf (t : Target) : (Space.endOf t).For t := by
  unfold Space.endOf SpaceEnd.For
  cases h : t.port.labelType <;> simp

theorem space_local {e : Space.Env} {id : Str} {s d : Target} {q : SpaceReq} (h : Space.localReq e id s d = .ok q) : q.Joins e s d := by
  unfold Space.localReq at h
  obtain ⟨dev, _, h⟩ := bind_ok h
  simp only [Except.ok.injEq] at h
  subst h
  exact ⟨space_endOf s, space_endOf d⟩

theorem space_lsp {e : Space.Env} {id : Str} {s d l r : Target} {q : SpaceReq} (hlr : (l, r) = (s, d) ∨ (l, r) = (d, s)) (hr : r.port.remote.isSome)
    (h : Space.lspReq e id l r = .ok q) : q.Joins e s d := by
  unfold Space.lspReq at h
  obtain ⟨dev, _, h⟩ := bind_ok h
  obtain ⟨ip, h2, h⟩ := bind_ok h
  simp only [Except.ok.injEq] at h
  subst h
  refine ⟨l, r, hlr, space_endOf l, ?_, hr, rfl, rfl⟩
  unfold Space.loopback at h2
  split at h2
  · rename_i x hx
    simp only [Except.ok.injEq] at h2
    exact ⟨x, hx, h2⟩
  · simp at h2

theorem space_local_ok {e : Space.Env} {id : Str} {s d : Target} :
    (∃ q, Space.localReq e id s d = .ok q) ↔ (dget e.routers (dropTopology e.network)).isSome := by
  unfold Space.localReq Space.deviceId
  cases dget e.routers (dropTopology e.network) <;> simp [bind, Except.bind]

theorem space_lsp_ok {e : Space.Env} {id : Str} {l r : Target} :
    (∃ q, Space.lspReq e id l r = .ok q) ↔ (dget e.routers (dropTopology e.network)).isSome ∧ (dget e.routers (dropTopology r.net)).isSome := by
  unfold Space.lspReq Space.deviceId Space.loopback
  cases dget e.routers (dropTopology e.network) <;> cases dget e.routers (dropTopology r.net) <;> simp [bind, Except.bind]

theorem space_remote_ok {e : Space.Env} {id : Str} {s d : Target} (kr : (remoteOf s d).port.Kind) :
    (∃ q, Space.remoteReq e id s d = .ok q) ↔ (dget e.routers (dropTopology e.network)).isSome ∧
      ((remoteOf s d).port.labelType = some tMpls ∧ (dget e.routers (dropTopology (remoteOf s d).net)).isSome ∨ (remoteOf s d).port.labelType = some tVlan) := by
  have hvm := tVlan_ne_tMpls
  unfold Space.remoteReq
  rcases kr with h | h | h <;> rw [h]
  · simp
  · simp only [if_true, space_local_ok]; simp
  · simp only [hvm.symm, if_false, space_lsp_ok]; simp [hvm.symm]

/-- C67 for Junos Space, exactly: which pairs of ends get a request, and that the request, which is the same for setting up and taking down
except for the id of the configlet, joins the two ends. Missing: other pairs are accepted too, see `C67_space_fails`. -/
theorem C67_space_partial (e : Space.Env) (id : Str) (s d : Target) (ks : s.port.Kind) (kd : d.port.Kind) :
    ((∃ q, Space.request e id s d = .ok q) ↔ Space.Works e s d) ∧ ∀ q, Space.request e id s d = .ok q → q.Joins e s d := by
  have hvm := tVlan_ne_tMpls
  unfold Space.request Space.Works
  cases hs : s.port.remote with
  | none =>
    cases hd : d.port.remote with
    | none =>
      simp only [Option.isNone_none, and_self, if_true, Option.isSome_none, and_true]
      exact ⟨space_local_ok, fun q hq => space_local hq⟩
    | some y =>
      have hr : remoteOf s d = d := by simp [remoteOf, hs]
      have hl : localOf s d = s := by simp [localOf, hs]
      have := space_remote_ok (e := e) (id := id) (s := s) (d := d) (by rw [hr]; exact kd)
      rw [hr] at this
      simp only [Option.isNone_none, Option.isNone_some, Bool.false_eq_true, and_false, if_false, Option.isSome_none, Option.isSome_some, false_and]
      refine ⟨this, fun q hq => ?_⟩
      unfold Space.remoteReq at hq
      rw [hr, hl] at hq
      split at hq
      · simp at hq
      · split at hq
        · exact space_local hq
        · exact space_lsp (Or.inl rfl) (by simp [hd]) hq
  | some x =>
    cases hd : d.port.remote with
    | none =>
      have hr : remoteOf s d = s := by simp [remoteOf, hs]
      have hl : localOf s d = d := by simp [localOf, hs]
      have := space_remote_ok (e := e) (id := id) (s := s) (d := d) (by rw [hr]; exact ks)
      rw [hr] at this
      simp only [Option.isNone_none, Option.isNone_some, Bool.false_eq_true, and_false, if_false, Option.isSome_none, Option.isSome_some, false_and]
      refine ⟨this, fun q hq => ?_⟩
      unfold Space.remoteReq at hq
      rw [hr, hl] at hq
      split at hq
      · simp at hq
      · split at hq
        · exact space_local hq
        · exact space_lsp (Or.inr rfl) (by simp [hs]) hq
    | some y =>
      simp only [Option.isNone_some, Bool.false_eq_true, if_false, Option.isSome_some, and_self, if_true]
      unfold Space.transitReq
      rcases ks with h | h | h <;> rcases kd with h' | h' | h' <;>
        simp only [h, h', hvm, hvm.symm, and_self, and_true, and_false, false_and, if_true, if_false, reduceCtorEq, Option.some.injEq, or_false,
          false_or, true_and, exists_false, false_implies, implies_true, space_local_ok, space_lsp_ok]
      all_goals first
        | exact fun q hq => space_local hq
        | exact fun q hq => space_lsp (Or.inl rfl) (by simp [hd]) hq
        | exact fun q hq => space_lsp (Or.inr rfl) (by simp [hs]) hq

/-- C67 fails for Junos Space: these pairs of ends are accepted, but get no request, whatever the routers that are known: a vlan and a port with a remote
network and no label; two LSPs; and a vlan with a remote network and a port with a remote network and no label. -/
theorem C67_space_fails (e : Space.Env) (id : Str) : ∀ k ∈ [((none, some tVlan), (some ['n'], none)),
      ((some ['m'], some tMpls), (some ['n'], some tMpls)), ((some ['m'], some tVlan), (some ['n'], none))],
    let s : Target := ⟨⟨['i'], k.1.1, k.1.2⟩, some 12⟩
    let d : Target := ⟨⟨['j'], k.2.1, k.2.2⟩, some 7⟩
    Mx.canConnect s.port.labelType d.port.labelType = true ∧ ¬ ∃ q, Space.request e id s d = .ok q := by
  have hvm := tVlan_ne_tMpls
  intro k hk
  simp only [List.mem_cons, List.not_mem_nil, or_false] at hk
  rcases hk with rfl | rfl | rfl <;> refine ⟨by decide, ?_⟩ <;>
    rw [(C67_space_partial e id _ _ (by simp [DPort.Kind]) (by simp [DPort.Kind])).1] <;> simp [Space.Works, hvm, hvm.symm]

/-- Example: hypotheses and right side of `C67_space_partial` for a local vlan and an LSP to a known network. -/
example : let s : Target := ⟨⟨['i'], none, some tVlan⟩, some 12⟩
    let d : Target := ⟨⟨['j'], some ['n'], some tMpls⟩, some 7⟩
    s.port.Kind ∧ d.port.Kind ∧ Space.Works ⟨['m'], [(['n'], (['1'], ['2'])), (['m'], (['3'], ['4']))]⟩ s d := by
  refine ⟨Or.inr (Or.inl rfl), Or.inr (Or.inr rfl), ?_⟩
  simp only [Space.Works, Option.isSome_none, Option.isSome_some]
  decide +kernel

/-- The name of the circuit in a request. -/
def SpaceReq.circuitName : SpaceReq → Str
  | .joinEnds _ _ _ c => c
  | .joinLsp _ _ _ _ _ c => c

/-- C67 for Junos Space: the circuit is named by the id of the connection, so those of different connections have different names. -/
theorem C67_space_circuit (e : Space.Env) (id : Str) (s d : Target) (q : SpaceReq) (h : Space.request e id s d = .ok q) :
    q.circuitName = "GTS-local-".toList ++ id ∧
    ∀ (e' : Space.Env) (id' : Str) (s' d' : Target) (q' : SpaceReq), Space.request e' id' s' d' = .ok q' → q'.circuitName = q.circuitName → id' = id := by
  have loc : ∀ {e : Space.Env} {id : Str} {s d : Target} {q : SpaceReq}, Space.localReq e id s d = .ok q → q.circuitName = "GTS-local-".toList ++ id := by
    intro e id s d q h
    unfold Space.localReq at h
    cases hd : Space.deviceId e e.network with
    | error x => rw [hd] at h; cases h
    | ok v => rw [hd] at h; cases h; rfl
  have lsp : ∀ {e : Space.Env} {id : Str} {l r : Target} {q : SpaceReq}, Space.lspReq e id l r = .ok q → q.circuitName = "GTS-local-".toList ++ id := by
    intro e id l r q h
    unfold Space.lspReq at h
    cases hd : Space.deviceId e e.network with
    | error x => rw [hd] at h; cases h
    | ok v =>
      cases hb : Space.loopback e r.net with
      | error x => rw [hd, hb] at h; cases h
      | ok w => rw [hd, hb] at h; cases h; rfl
  have all : ∀ {e : Space.Env} {id : Str} {s d : Target} {q : SpaceReq}, Space.request e id s d = .ok q → q.circuitName = "GTS-local-".toList ++ id := by
    intro e id s d q h
    unfold Space.request at h
    split at h
    · exact loc h
    · split at h
      · unfold Space.transitReq at h
        split at h
        · rename_i a b _ _
          split at h
          · exact loc h
          · split at h
            · cases h
            · by_cases hc : (if a = tVlan then s else d).port.labelType = some tVlan ∧ (if a = tMpls then s else d).port.labelType = some tMpls
              · exact lsp ((if_pos hc).symm.trans h)
              · cases (if_neg hc).symm.trans h
        · cases h
      · unfold Space.remoteReq at h
        split at h
        · cases h
        · split at h
          · exact loc h
          · exact lsp h
  refine ⟨all h, fun e' id' s' d' q' h' hq => ?_⟩
  rw [all h, all h'] at hq
  exact List.append_cancel_left hq

example : (Space.request ⟨['m'], [(['n'], (['1'], ['2'])), (['m'], (['3'], ['4']))]⟩ ['c'] ⟨⟨['i'], none, some tVlan⟩, some 12⟩ ⟨⟨['j'], some ['n'], some tMpls⟩, some 7⟩).toOption.map
    SpaceReq.circuitName = some "GTS-local-c".toList := by decide +kernel

end OpenNSA.Device
