import Verif.Device.PropsConfig
/-
C66 for JunOS MX (junosmx.py) and JunOS EX (junosex.py).
-/
namespace OpenNSA.Device
open Py OpenNSA.Backend

/-! ### Specification -/

/-- A part of a router: a whole interface, a unit of an interface, or the label switched path with this name. -/
inductive Part
  | whole (i : Str)
  | unit (i v : Str)
  | lsp (n : Str)
  deriving DecidableEq, Repr

/-- The parts have nothing in common. -/
def Part.Apart : Part → Part → Prop
  | .whole i, .whole j => i ≠ j
  | .whole i, .unit j _ => i ≠ j
  | .unit i _, .whole j => i ≠ j
  | .unit i v, .unit j w => i = j → v ≠ w
  | .lsp n, .lsp m => n ≠ m
  | _, _ => True

instance (a b : Part) : Decidable (a.Apart b) := by
  cases a <;> cases b <;> unfold Part.Apart <;> infer_instance

/-- The part of the router that an end of a connection needs. -/
def Mx.part (e : Mx.Env) (t : Target) : Part :=
  if t.port.labelType = none then .whole t.port.interface
  else if t.port.labelType = some tVlan then .unit t.port.interface (valText t.value)
  else .lsp (Mx.lspName t.net e.network t.value)

/-- Connections with different ids that need no part of the router in common. -/
def Mx.Apart (e : Mx.Env) (x y : TConn) : Prop :=
  x.id ≠ y.id ∧ ∀ s ∈ [x.src, x.dst], ∀ t ∈ [y.src, y.dst], (Mx.part e s).Apart (Mx.part e t)

/-- Connections that the backend handles, as far as taking down is concerned. Both ends need different parts of the router. If just one of
the ports has a remote network, then it has a label; if both have, and one of them is an LSP, then the other one is a vlan. -/
structure Mx.Good (e : Mx.Env) (c : TConn) : Prop where
  plain : Plain c.src.port.interface ∧ Plain c.dst.port.interface
  apart : (Mx.part e c.src).Apart (Mx.part e c.dst)
  remote : c.src.port.remote.isSome ≠ c.dst.port.remote.isSome → (remoteOf c.src c.dst).port.labelType ≠ none
  transit : c.src.port.remote.isSome → c.dst.port.remote.isSome →
    (c.src.port.labelType = some tMpls → c.dst.port.labelType = some tVlan) ∧ (c.dst.port.labelType = some tMpls → c.src.port.labelType = some tVlan)

/-- What is left behind on an interface that had vlans: the interface stays configured for vlans. -/
def Mx.Left (q : Path) : Prop :=
  ∃ i, q = [kInterfaces, i, kFlexTag] ∨ q = [kInterfaces, i, kEncap, "flexible-ethernet-services".toList]

/-! ### Lemmas -/

theorem tVlan_ne_tMpls : tVlan ≠ tMpls := by decide

theorem Part.Apart.symm {a b : Part} (h : a.Apart b) : b.Apart a := by
  cases a <;> cases b <;> simp_all [Part.Apart, eq_comm]

theorem Part.Apart.irrefl (a : Part) : ¬ a.Apart a := by
  cases a <;> simp [Part.Apart]

theorem valText_no_dot (v : Option Int) : '.' ∉ valText v := by
  cases v with
  | none => decide
  | some v => exact showInt_no_char (by decide) (by decide +kernel) v

/-- The statements of a router that belong to a part of it, or to a switch or remote switch with this name. -/
inductive Reg
  | part (p : Part)
  | sw (n : Str)
  | ris (n : Str)

/-- The beginning of the statements. -/
def Reg.path : Reg → Path
  | .part (.whole i) => [kInterfaces, i]
  | .part (.unit i v) => [kInterfaces, i, kUnit, v]
  | .part (.lsp n) => [kProtocols, kMpls, kLsp, n]
  | .sw n => [kProtocols, kConnections, kIntSwitch, n]
  | .ris n => [kProtocols, kConnections, kRemSwitch, n]

theorem part_path_apart {a b : Part} (h : a.Apart b) : ¬ (Reg.part a).path <+: (Reg.part b).path := by
  have k := kw_ne.1
  have k' := kw_ne.1.symm
  cases a <;> cases b <;> simp only [Reg.path, List.cons_prefix_cons, k, k', false_and, not_false_iff, true_and, List.nil_prefix, and_true] <;>
    first
    | exact h
    | exact fun h' => h h'.1
    | exact fun h' => h h'.1 h'.2
    | (intro h'; simp at h')

/-- The commands that set a part up. -/
theorem wholeUp_mem {i : Str} {a : Cmd} (h : a ∈ Mx.wholeUp i) :
    ∃ r, a = .set (kInterfaces :: i :: r) ∧ (r = [kEncap, "ethernet-ccc".toList] ∨ r = [kMtu, "9000".toList] ∨
      r = [kUnit, ['0'], kFamily, "ccc".toList]) := by
  simp only [Mx.wholeUp, List.mem_cons, List.not_mem_nil, or_false] at h
  rcases h with rfl | rfl | rfl
  · exact ⟨_, rfl, Or.inl rfl⟩
  · exact ⟨_, rfl, Or.inr (Or.inl rfl)⟩
  · exact ⟨_, rfl, Or.inr (Or.inr rfl)⟩

/-- The values of a unit. -/
def unitVal (v k : Str) : Str :=
  if k = kVlanId then v else if k = kEncap then "vlan-ccc".toList else if k = kInMap then "pop".toList else "push".toList

theorem vlanUp_mem {i v : Str} {a : Cmd} (h : a ∈ Mx.vlanUp i v) :
    (a = .set [kInterfaces, i, kFlexTag] ∨ a = .set [kInterfaces, i, kEncap, "flexible-ethernet-services".toList]) ∨
    ∃ k, a = .set [kInterfaces, i, kUnit, v, k, unitVal v k] := by
  simp only [Mx.vlanUp, List.mem_cons, List.not_mem_nil, or_false] at h
  rcases h with rfl | rfl | rfl | rfl | rfl | rfl
  · exact Or.inl (Or.inl rfl)
  · exact Or.inl (Or.inr rfl)
  · exact Or.inr ⟨kEncap, rfl⟩
  · exact Or.inr ⟨kVlanId, by simp [unitVal]⟩
  · exact Or.inr ⟨kInMap, rfl⟩
  · exact Or.inr ⟨kOutMap, rfl⟩

/-- The end of a connection that is an LSP, if there is one. -/
def lspOf (c : TConn) : Target := if c.src.port.remote.isSome ∧ c.src.port.labelType = some tMpls then c.src else c.dst

/-- What a command of a connection sets. -/
inductive Sets (e : Mx.Env) (c : TConn) : Path → Prop
  | whole (t : Target) (ht : t ∈ [c.src, c.dst]) (hl : t.port.labelType = none) (r : Path)
      (hr : r = [kEncap, "ethernet-ccc".toList] ∨ r = [kMtu, "9000".toList] ∨ r = [kUnit, ['0'], kFamily, "ccc".toList])
      (hd : Cmd.delete [kInterfaces, t.port.interface] ∈ (Mx.dev e).down c) : Sets e c (kInterfaces :: t.port.interface :: r)
  | flex (t : Target) (ht : t ∈ [c.src, c.dst]) (hl : t.port.labelType = some tVlan) : Sets e c [kInterfaces, t.port.interface, kFlexTag]
  | encap (t : Target) (ht : t ∈ [c.src, c.dst]) (hl : t.port.labelType = some tVlan) :
      Sets e c [kInterfaces, t.port.interface, kEncap, "flexible-ethernet-services".toList]
  | unit (t : Target) (ht : t ∈ [c.src, c.dst]) (hl : t.port.labelType = some tVlan) (k : Str)
      (hd : Cmd.delete [kInterfaces, unitName t.port.interface (valText t.value)] ∈ (Mx.dev e).down c) :
      Sets e c [kInterfaces, t.port.interface, kUnit, valText t.value, k, unitVal (valText t.value) k]
  | sw (i : Str) (hd : Mx.unjoin c.id ∈ (Mx.dev e).down c) : Sets e c [kProtocols, kConnections, kIntSwitch, Mx.switch c.id, kInterface, i]
  | ris (i : Str) (hd : Mx.unlsp c.id ∈ (Mx.dev e).down c) : Sets e c [kProtocols, kConnections, kRemSwitch, c.id, kInterface, i]
  | transmit (hd : Mx.unlsp c.id ∈ (Mx.dev e).down c) :
      Sets e c [kProtocols, kConnections, kRemSwitch, c.id, kTransmit, Mx.lspName (lspOf c).net e.network (lspOf c).value]
  | receive (hd : Mx.unlsp c.id ∈ (Mx.dev e).down c) :
      Sets e c [kProtocols, kConnections, kRemSwitch, c.id, kReceive, Mx.lspName e.network (lspOf c).net (lspOf c).value]
  | lspTo (ip : Str) (hip : Mx.loopback e (lspOf c).net = .ok ip) (hd : Mx.lspDown e (lspOf c) ∈ (Mx.dev e).down c) :
      Sets e c [kProtocols, kMpls, kLsp, Mx.lspName (lspOf c).net e.network (lspOf c).value, kTo, ip]
  | lspNo (hd : Mx.lspDown e (lspOf c) ∈ (Mx.dev e).down c) :
      Sets e c [kProtocols, kMpls, kLsp, Mx.lspName (lspOf c).net e.network (lspOf c).value, kNoCspf]

theorem down_local {e : Mx.Env} {c : TConn} (h1 : c.src.port.remote.isNone = true) (h2 : c.dst.port.remote.isNone = true) :
    (Mx.dev e).down c = Mx.localDown c.id c.src c.dst ∧ (Mx.dev e).up c = Mx.localUp c.id c.src c.dst := by
  constructor <;> simp only [Mx.dev, Mx.deactivate, Mx.activate, if_pos (And.intro h1 h2), sent]

theorem down_transit {e : Mx.Env} {c : TConn} (h1 : c.src.port.remote.isSome = true) (h2 : c.dst.port.remote.isSome = true) :
    (Mx.dev e).down c = Mx.transitDown e c.id c.src c.dst ∧ (Mx.dev e).up c = sent (Mx.transitUp e c.id c.src c.dst) := by
  have h1' : ¬ (c.src.port.remote.isNone = true ∧ c.dst.port.remote.isNone = true) := by cases h : c.src.port.remote <;> simp_all
  constructor <;> simp only [Mx.dev, Mx.deactivate, Mx.activate, if_neg h1', if_pos (And.intro h1 h2), sent]

theorem down_remote {e : Mx.Env} {c : TConn} (h : c.src.port.remote.isSome ≠ c.dst.port.remote.isSome) :
    (Mx.dev e).down c = sent (Mx.remoteDown e c.id c.src c.dst) ∧ (Mx.dev e).up c = sent (Mx.remoteUp e c.id c.src c.dst) := by
  have h1 : ¬ (c.src.port.remote.isNone = true ∧ c.dst.port.remote.isNone = true) := by
    cases h1 : c.src.port.remote <;> cases h2 : c.dst.port.remote <;> simp_all
  have h2 : ¬ (c.src.port.remote.isSome = true ∧ c.dst.port.remote.isSome = true) := by
    cases h1 : c.src.port.remote <;> cases h2 : c.dst.port.remote <;> simp_all
  constructor <;> simp only [Mx.dev, Mx.deactivate, Mx.activate, if_neg h1, if_neg h2]

theorem endUp_sets {e : Mx.Env} {c : TConn} {t : Target} (ht : t ∈ [c.src, c.dst]) {p : Path} (h : Cmd.set p ∈ Mx.endUp t)
    (hd : ∀ b ∈ Mx.endDown t, b ∈ (Mx.dev e).down c) : Sets e c p := by
  unfold Mx.endUp at h
  unfold Mx.endDown at hd
  cases hl : t.port.labelType with
  | none =>
    rw [hl] at h hd
    obtain ⟨r, he, hr⟩ := wholeUp_mem h
    cases he
    exact .whole t ht hl r hr (hd _ (by simp))
  | some ty =>
    rw [hl] at h hd
    by_cases hty : ty = tVlan
    · subst hty
      simp only [if_true] at h hd
      rcases vlanUp_mem h with (he | he) | ⟨k, he⟩ <;> cases he
      · exact .flex t ht hl
      · exact .encap t ht hl
      · exact .unit t ht hl k (hd _ (by simp))
    · simp [hty] at h

theorem vlanUp_sets {e : Mx.Env} {c : TConn} {t : Target} (ht : t ∈ [c.src, c.dst]) (hl : t.port.labelType = some tVlan) {p : Path}
    (h : Cmd.set p ∈ Mx.vlanUp t.port.interface (valText t.value))
    (hd : Cmd.delete [kInterfaces, unitName t.port.interface (valText t.value)] ∈ (Mx.dev e).down c) : Sets e c p := by
  rcases vlanUp_mem h with (he | he) | ⟨k, he⟩ <;> cases he
  · exact .flex t ht hl
  · exact .encap t ht hl
  · exact .unit t ht hl k hd

theorem bind_ok {α β : Type} {x : Except DevErr α} {f : α → Except DevErr β} {b : β} (h : (x >>= f) = .ok b) :
    ∃ a, x = .ok a ∧ f a = .ok b := by
  cases x with
  | error e => simp [Bind.bind, Except.bind] at h
  | ok a => exact ⟨a, rfl, h⟩

theorem sent_ok {r : Except DevErr (List Cmd)} {a : Cmd} (h : a ∈ sent r) : ∃ l, r = .ok l ∧ a ∈ l := by
  cases r with
  | error e => simp [sent] at h
  | ok l => exact ⟨l, rfl, h⟩

theorem lspUp_sets {e : Mx.Env} {c : TConn} {l : List Cmd} (h : Mx.lspUp e (lspOf c) = .ok l) {p : Path} (hp : Cmd.set p ∈ l)
    (hd : Mx.lspDown e (lspOf c) ∈ (Mx.dev e).down c) : Sets e c p := by
  unfold Mx.lspUp at h
  obtain ⟨ip, hip, h⟩ := bind_ok h
  simp only [Except.ok.injEq] at h
  subst h
  simp only [List.mem_cons, Cmd.set.injEq, List.not_mem_nil, or_false] at hp
  rcases hp with rfl | rfl
  · exact .lspTo ip hip hd
  · exact .lspNo hd

theorem useLsp_sets {e : Mx.Env} {c : TConn} {p : Path} (hp : Cmd.set p ∈ Mx.useLsp e c.id (lspOf c)) (hd : Mx.unlsp c.id ∈ (Mx.dev e).down c) :
    Sets e c p := by
  simp only [Mx.useLsp, List.mem_cons, Cmd.set.injEq, List.not_mem_nil, or_false] at hp
  rcases hp with rfl | rfl
  · exact .transmit hd
  · exact .receive hd

theorem remoteOf_mem (s d : Target) : remoteOf s d ∈ [s, d] := by
  unfold remoteOf; split <;> simp

theorem localOf_mem (s d : Target) : localOf s d ∈ [s, d] := by
  unfold localOf; split <;> simp

theorem mx_sets {e : Mx.Env} {c : TConn} (hg : Mx.Good e c) {p : Path} (h : Cmd.set p ∈ (Mx.dev e).up c) : Sets e c p := by
  have hvm := tVlan_ne_tMpls
  by_cases hk : c.src.port.remote.isSome = c.dst.port.remote.isSome
  · rcases hrem : c.src.port.remote.isSome with _ | _
    · -- local
      rw [hrem] at hk
      obtain ⟨hd, hu⟩ := down_local (e := e) (c := c) (by simpa using hrem) (by simpa using hk.symm)
      rw [hu] at h
      simp only [Mx.localUp, List.mem_append] at h
      rcases h with (h | h) | h
      · exact endUp_sets (by simp) h (fun b hb => by rw [hd]; simp [Mx.localDown, hb])
      · exact endUp_sets (by simp) h (fun b hb => by rw [hd]; simp [Mx.localDown, hb])
      · simp only [List.map_cons, List.map_nil, Mx.join, List.mem_cons, Cmd.set.injEq, List.not_mem_nil, or_false] at h
        rcases h with rfl | rfl <;> exact .sw _ (by rw [hd]; simp [Mx.localDown])
    · -- transit
      rw [hrem] at hk
      obtain ⟨hd, hu⟩ := down_transit (e := e) (c := c) hrem hk.symm
      obtain ⟨ht1, ht2⟩ := hg.transit hrem hk.symm
      rw [hu] at h
      obtain ⟨l, hl, hp⟩ := sent_ok h
      simp only [Mx.transitUp] at hl
      obtain ⟨c2, h2, hl⟩ := bind_ok hl
      obtain ⟨c3, h3, hl⟩ := bind_ok hl
      simp only [Except.ok.injEq] at hl
      subst hl
      simp only [List.mem_append] at hp
      have hds : ∀ b ∈ Mx.transitEndDown e c.src, b ∈ (Mx.dev e).down c := fun b hb => by rw [hd]; simp [Mx.transitDown, hb]
      have hdd : ∀ b ∈ Mx.transitEndDown e c.dst, b ∈ (Mx.dev e).down c := fun b hb => by rw [hd]; simp [Mx.transitDown, hb]
      rcases hp with (((hp | hp) | hp) | hp) | hp
      · simp only [Mx.vlanEnd] at hp
        split at hp
        · rename_i hl
          exact vlanUp_sets (by simp) hl hp (hds _ (by simp [Mx.transitEndDown, hl, hvm]))
        · simp at hp
      · simp only [Mx.vlanEnd] at hp
        split at hp
        · rename_i hl
          exact vlanUp_sets (by simp) hl hp (hdd _ (by simp [Mx.transitEndDown, hl, hvm]))
        · simp at hp
      · simp only [Mx.transitLsp] at h2
        split at h2
        · rename_i hm
          obtain ⟨a, ha, h2⟩ := bind_ok h2
          simp only [Except.ok.injEq] at h2
          subst h2
          have hv := ht1 hm
          have hlsp : lspOf c = c.src := by simp [lspOf, hrem, hm]
          have hun : Mx.unlsp c.id ∈ (Mx.dev e).down c := by rw [hd]; simp [Mx.transitDown, hm, hv]
          simp only [List.mem_append, hv, if_true, List.mem_singleton] at hp
          rcases hp with (hp | hp) | hp
          · exact lspUp_sets (hlsp ▸ ha) hp (hds _ (by simp [Mx.transitEndDown, hm, hlsp]))
          · cases hp; exact .ris _ hun
          · exact useLsp_sets (by rw [hlsp]; exact hp) hun
        · simp only [Except.ok.injEq] at h2; subst h2; simp at hp
      · simp only [Mx.transitLsp] at h3
        split at h3
        · rename_i hm
          obtain ⟨a, ha, h3⟩ := bind_ok h3
          simp only [Except.ok.injEq] at h3
          subst h3
          have hv := ht2 hm
          have hlsp : lspOf c = c.dst := by simp [lspOf, hv, hvm]
          have hun : Mx.unlsp c.id ∈ (Mx.dev e).down c := by rw [hd]; simp [Mx.transitDown, hm, hv]
          simp only [List.mem_append, hv, if_true, List.mem_singleton] at hp
          rcases hp with (hp | hp) | hp
          · exact lspUp_sets (hlsp ▸ ha) hp (hdd _ (by simp [Mx.transitEndDown, hm, hlsp]))
          · cases hp; exact .ris _ hun
          · exact useLsp_sets (by rw [hlsp]; exact hp) hun
        · simp only [Except.ok.injEq] at h3; subst h3; simp at hp
      · split at hp
        · rename_i hl
          have hun : Mx.unjoin c.id ∈ (Mx.dev e).down c := by rw [hd]; simp [Mx.transitDown, hl.1, hl.2, hvm]
          simp only [List.map_cons, List.map_nil, Mx.join, List.mem_cons, Cmd.set.injEq, List.not_mem_nil, or_false] at hp
          rcases hp with rfl | rfl <;> exact .sw _ hun
        · simp at hp
  · -- remote
    obtain ⟨hd, hu⟩ := down_remote (e := e) (c := c) hk
    have hr := hg.remote hk
    have hlspd : lspOf c = remoteOf c.src c.dst ∨ (remoteOf c.src c.dst).port.labelType ≠ some tMpls := by
      unfold lspOf remoteOf
      cases hs : c.src.port.remote.isSome with
      | true => by_cases hm : c.src.port.labelType = some tMpls <;> simp [hm]
      | false => simp
    rw [hu] at h
    obtain ⟨l, hl, hp⟩ := sent_ok h
    simp only [Mx.remoteUp] at hl
    obtain ⟨c2, h2, hl⟩ := bind_ok hl
    obtain ⟨c3, h3, hl⟩ := bind_ok hl
    simp only [Except.ok.injEq] at hl
    subst hl
    obtain ⟨ty, hty⟩ := Option.ne_none_iff_exists'.1 hr
    have hd' : (Mx.dev e).down c = Mx.endDown (localOf c.src c.dst) ++
        (if ty = tMpls then [Mx.lspDown e (remoteOf c.src c.dst), Mx.unlsp c.id]
         else if ty = tVlan then [.delete [kInterfaces, unitName (remoteOf c.src c.dst).port.interface (valText (remoteOf c.src c.dst).value)], Mx.unjoin c.id]
         else []) := by
      rw [hd]; simp only [Mx.remoteDown, hty, sent]
    simp only [List.mem_append] at hp
    rcases hp with (hp | hp) | hp
    · exact endUp_sets (localOf_mem _ _) hp (fun b hb => by rw [hd']; exact List.mem_append_left _ hb)
    · simp only [Mx.remoteLsp] at h2
      split at h2
      · rename_i hm
        rw [hty, Option.some.injEq] at hm
        subst hm
        have hlsp : lspOf c = remoteOf c.src c.dst := hlspd.resolve_right (by simp [hty])
        obtain ⟨a, ha, h2⟩ := bind_ok h2
        simp only [Except.ok.injEq] at h2
        subst h2
        have hun : Mx.unlsp c.id ∈ (Mx.dev e).down c := by rw [hd']; simp
        simp only [List.mem_append] at hp
        rcases hp with (hp | hp) | hp
        · exact lspUp_sets (hlsp ▸ ha) hp (by rw [hd', hlsp]; simp)
        · simp only [Mx.lspEnd] at hp
          split at hp
          · simp only [List.mem_singleton] at hp; cases hp; exact .ris _ hun
          · split at hp
            · simp only [List.mem_singleton] at hp; cases hp; exact .ris _ hun
            · simp at hp
        · exact useLsp_sets (by rw [hlsp]; exact hp) hun
      · simp only [Except.ok.injEq] at h2; subst h2; simp at hp
    · simp only [Mx.remoteVlan] at h3
      split at h3
      · rename_i hv
        have hv' := hv
        rw [hty, Option.some.injEq] at hv
        subst hv
        obtain ⟨a, ha, h3⟩ := bind_ok h3
        obtain ⟨b, hb, h3⟩ := bind_ok h3
        simp only [Except.ok.injEq] at h3
        subst h3
        have hun : Mx.unjoin c.id ∈ (Mx.dev e).down c := by rw [hd']; simp [hvm]
        have key : ∀ t x, Mx.joinTyped c.id t = .ok x → ∀ p, Cmd.set p = x → Sets e c p := by
          intro t x ht p hp
          simp only [Mx.joinTyped] at ht
          split at ht
          · simp at ht
          · simp only [Except.ok.injEq, Mx.join] at ht
            subst ht; cases hp
            exact .sw _ hun
        simp only [List.mem_append, List.mem_cons, List.not_mem_nil, or_false] at hp
        rcases hp with hp | hp | hp
        · exact vlanUp_sets (remoteOf_mem _ _) hv' hp (by rw [hd']; simp [hvm])
        · exact key _ _ ha p hp
        · exact key _ _ hb p hp
      · simp only [Except.ok.injEq] at h3; subst h3; simp at hp

theorem wholeUp_set {i : Str} {a : Cmd} (h : a ∈ Mx.wholeUp i) : ∃ p, a = .set p := by
  obtain ⟨r, h, _⟩ := wholeUp_mem h; exact ⟨_, h⟩

theorem vlanUp_set {i v : Str} {a : Cmd} (h : a ∈ Mx.vlanUp i v) : ∃ p, a = .set p := by
  rcases vlanUp_mem h with (h | h) | ⟨k, h⟩ <;> exact ⟨_, h⟩

theorem endUp_set {t : Target} {a : Cmd} (h : a ∈ Mx.endUp t) : ∃ p, a = .set p := by
  unfold Mx.endUp at h
  split at h
  · exact wholeUp_set h
  · split at h
    · exact vlanUp_set h
    · simp at h

theorem vlanEnd_set {t : Target} {a : Cmd} (h : a ∈ Mx.vlanEnd t) : ∃ p, a = .set p := by
  unfold Mx.vlanEnd at h
  split at h
  · exact vlanUp_set h
  · simp at h

theorem lspUp_set {e : Mx.Env} {t : Target} {l : List Cmd} (hl : Mx.lspUp e t = .ok l) {a : Cmd} (h : a ∈ l) : ∃ p, a = .set p := by
  unfold Mx.lspUp at hl
  obtain ⟨ip, _, hl⟩ := bind_ok hl
  simp only [Except.ok.injEq] at hl
  subst hl
  simp only [List.mem_cons, List.not_mem_nil, or_false] at h
  rcases h with rfl | rfl <;> exact ⟨_, rfl⟩

theorem useLsp_set {e : Mx.Env} {id : Str} {t : Target} {a : Cmd} (h : a ∈ Mx.useLsp e id t) : ∃ p, a = .set p := by
  simp only [Mx.useLsp, List.mem_cons, List.not_mem_nil, or_false] at h
  rcases h with rfl | rfl <;> exact ⟨_, rfl⟩

theorem transitLsp_set {e : Mx.Env} {id : Str} {t o : Target} {l : List Cmd} (hl : Mx.transitLsp e id t o = .ok l) {a : Cmd} (h : a ∈ l) :
    ∃ p, a = .set p := by
  unfold Mx.transitLsp at hl
  split at hl
  · obtain ⟨x, hx, hl⟩ := bind_ok hl
    simp only [Except.ok.injEq] at hl
    subst hl
    simp only [List.mem_append] at h
    rcases h with (h | h) | h
    · exact lspUp_set hx h
    · split at h
      · simp only [List.mem_singleton] at h; exact ⟨_, h⟩
      · simp at h
    · exact useLsp_set h
  · simp only [Except.ok.injEq] at hl; subst hl; simp at h

theorem joinTyped_set {id : Str} {t : Target} {a : Cmd} (h : Mx.joinTyped id t = .ok a) : ∃ p, a = .set p := by
  unfold Mx.joinTyped at h
  split at h
  · simp at h
  · simp only [Except.ok.injEq] at h; exact ⟨_, h.symm⟩

theorem mx_up_set {e : Mx.Env} {c : TConn} {a : Cmd} (h : a ∈ (Mx.dev e).up c) : ∃ p, a = .set p := by
  obtain ⟨l, hl, ha⟩ := sent_ok h
  unfold Mx.activate at hl
  split at hl
  · simp only [Except.ok.injEq] at hl; subst hl
    simp only [Mx.localUp, List.mem_append] at ha
    rcases ha with (ha | ha) | ha
    · exact endUp_set ha
    · exact endUp_set ha
    · obtain ⟨t, _, rfl⟩ := List.mem_map.1 ha; exact ⟨_, rfl⟩
  · split at hl
    · simp only [Mx.transitUp] at hl
      obtain ⟨c2, h2, hl⟩ := bind_ok hl
      obtain ⟨c3, h3, hl⟩ := bind_ok hl
      simp only [Except.ok.injEq] at hl
      subst hl
      simp only [List.mem_append] at ha
      rcases ha with (((ha | ha) | ha) | ha) | ha
      · exact vlanEnd_set ha
      · exact vlanEnd_set ha
      · exact transitLsp_set h2 ha
      · exact transitLsp_set h3 ha
      · split at ha
        · obtain ⟨t, _, rfl⟩ := List.mem_map.1 ha; exact ⟨_, rfl⟩
        · simp at ha
    · simp only [Mx.remoteUp] at hl
      obtain ⟨c2, h2, hl⟩ := bind_ok hl
      obtain ⟨c3, h3, hl⟩ := bind_ok hl
      simp only [Except.ok.injEq] at hl
      subst hl
      simp only [List.mem_append] at ha
      rcases ha with (ha | ha) | ha
      · exact endUp_set ha
      · unfold Mx.remoteLsp at h2
        split at h2
        · obtain ⟨x, hx, h2⟩ := bind_ok h2
          simp only [Except.ok.injEq] at h2
          subst h2
          simp only [List.mem_append] at ha
          rcases ha with (ha | ha) | ha
          · exact lspUp_set hx ha
          · unfold Mx.lspEnd at ha
            split at ha
            · simp only [List.mem_singleton] at ha; exact ⟨_, ha⟩
            · split at ha
              · simp only [List.mem_singleton] at ha; exact ⟨_, ha⟩
              · simp at ha
          · exact useLsp_set ha
        · simp only [Except.ok.injEq] at h2; subst h2; simp at ha
      · unfold Mx.remoteVlan at h3
        split at h3
        · obtain ⟨x, hx, h3⟩ := bind_ok h3
          obtain ⟨y, hy, h3⟩ := bind_ok h3
          simp only [Except.ok.injEq] at h3
          subst h3
          simp only [List.mem_append, List.mem_cons, List.not_mem_nil, or_false] at ha
          rcases ha with ha | rfl | rfl
          · exact vlanUp_set ha
          · exact joinTyped_set hx
          · exact joinTyped_set hy
        · simp only [Except.ok.injEq] at h3; subst h3; simp at ha

/-- The prefixes that the tear down of a connection removes. -/
def Removes (e : Mx.Env) (c : TConn) (r : Reg) : Prop :=
  (∃ t ∈ [c.src, c.dst], r = .part (Mx.part e t)) ∨ r = .sw (Mx.switch c.id) ∨ r = .ris c.id

theorem plain_of {e : Mx.Env} {c : TConn} (hg : Mx.Good e c) {t : Target} (ht : t ∈ [c.src, c.dst]) : Plain t.port.interface := by
  simp only [List.mem_cons, List.not_mem_nil, or_false] at ht
  rcases ht with rfl | rfl
  · exact hg.plain.1
  · exact hg.plain.2

theorem part_whole {e : Mx.Env} {t : Target} (h : t.port.labelType = none) : Mx.part e t = .whole t.port.interface := by
  simp [Mx.part, h]

theorem part_unit {e : Mx.Env} {t : Target} (h : t.port.labelType = some tVlan) : Mx.part e t = .unit t.port.interface (valText t.value) := by
  simp [Mx.part, h]

theorem part_lsp {e : Mx.Env} {t : Target} (h : t.port.labelType = some tMpls) : Mx.part e t = .lsp (Mx.lspName t.net e.network t.value) := by
  simp [Mx.part, h, tVlan_ne_tMpls.symm]

theorem endDown_mem {e : Mx.Env} {c : TConn} (hg : Mx.Good e c) {t : Target} (ht : t ∈ [c.src, c.dst]) {b : Cmd} (h : b ∈ Mx.endDown t) :
    ∃ p r, b = .delete p ∧ canon p = Reg.path r ∧ Removes e c r := by
  unfold Mx.endDown at h
  split at h
  · rename_i hl
    simp only [List.mem_singleton] at h
    exact ⟨_, _, h, canon_interfaces (plain_of hg ht) _, Or.inl ⟨t, ht, by rw [part_whole hl]⟩⟩
  · rename_i ty hl
    split at h
    · rename_i hty
      subst hty
      simp only [List.mem_singleton] at h
      exact ⟨_, _, h, canon_unit (valText_no_dot _) _, Or.inl ⟨t, ht, by rw [part_unit hl]⟩⟩
    · simp at h

theorem unitDown_mem {e : Mx.Env} {c : TConn} {t : Target} (ht : t ∈ [c.src, c.dst]) (hl : t.port.labelType = some tVlan) {b : Cmd}
    (h : b = .delete [kInterfaces, unitName t.port.interface (valText t.value)]) :
    ∃ p r, b = .delete p ∧ canon p = Reg.path r ∧ Removes e c r :=
  ⟨_, _, h, canon_unit (valText_no_dot _) _, Or.inl ⟨t, ht, by rw [part_unit hl]⟩⟩

theorem lspDown_mem {e : Mx.Env} {c : TConn} {t : Target} (ht : t ∈ [c.src, c.dst]) (hl : t.port.labelType = some tMpls) {b : Cmd}
    (h : b = Mx.lspDown e t) : ∃ p r, b = .delete p ∧ canon p = Reg.path r ∧ Removes e c r :=
  ⟨_, _, h, canon_protocols _, Or.inl ⟨t, ht, by rw [part_lsp hl]⟩⟩

theorem unjoin_mem {e : Mx.Env} {c : TConn} {b : Cmd} (h : b = Mx.unjoin c.id) : ∃ p r, b = .delete p ∧ canon p = Reg.path r ∧ Removes e c r :=
  ⟨_, .sw (Mx.switch c.id), h, canon_protocols _, Or.inr (Or.inl rfl)⟩

theorem unlsp_mem {e : Mx.Env} {c : TConn} {b : Cmd} (h : b = Mx.unlsp c.id) : ∃ p r, b = .delete p ∧ canon p = Reg.path r ∧ Removes e c r :=
  ⟨_, .ris c.id, h, canon_protocols _, Or.inr (Or.inr rfl)⟩

theorem transitEndDown_mem {e : Mx.Env} {c : TConn} {t : Target} (ht : t ∈ [c.src, c.dst]) {b : Cmd} (h : b ∈ Mx.transitEndDown e t) :
    ∃ p r, b = .delete p ∧ canon p = Reg.path r ∧ Removes e c r := by
  unfold Mx.transitEndDown at h
  split at h
  · rename_i hl
    exact lspDown_mem ht hl (by simpa using h)
  · split at h
    · rename_i hl
      exact unitDown_mem ht hl (by simpa using h)
    · simp at h

theorem mx_down {e : Mx.Env} {c : TConn} (hg : Mx.Good e c) {b : Cmd} (h : b ∈ (Mx.dev e).down c) :
    ∃ p r, b = .delete p ∧ canon p = Reg.path r ∧ Removes e c r := by
  obtain ⟨l, hl, hb⟩ := sent_ok h
  unfold Mx.deactivate at hl
  split at hl
  · simp only [Except.ok.injEq] at hl; subst hl
    simp only [Mx.localDown, List.mem_append, List.mem_singleton] at hb
    rcases hb with (hb | hb) | hb
    · exact endDown_mem hg (by simp) hb
    · exact endDown_mem hg (by simp) hb
    · exact unjoin_mem hb
  · split at hl
    · simp only [Except.ok.injEq] at hl; subst hl
      simp only [Mx.transitDown, List.mem_append] at hb
      rcases hb with (hb | hb) | hb
      · exact transitEndDown_mem (by simp) hb
      · exact transitEndDown_mem (by simp) hb
      · split at hb
        · split at hb
          · exact unlsp_mem (by simpa using hb)
          · exact unjoin_mem (by simpa using hb)
        · simp at hb
    · simp only [Mx.remoteDown] at hl
      split at hl
      · simp at hl
      · rename_i ty hty
        simp only [Except.ok.injEq] at hl; subst hl
        simp only [List.mem_append] at hb
        rcases hb with hb | hb
        · exact endDown_mem hg (localOf_mem _ _) hb
        · split at hb
          · rename_i hm
            subst hm
            simp only [List.mem_cons, List.not_mem_nil, or_false] at hb
            rcases hb with hb | hb
            · exact lspDown_mem (remoteOf_mem _ _) hty hb
            · exact unlsp_mem hb
          · split at hb
            · rename_i hv
              subst hv
              simp only [List.mem_cons, List.not_mem_nil, or_false] at hb
              rcases hb with hb | hb
              · exact unitDown_mem (remoteOf_mem _ _) hty hb
              · exact unjoin_mem hb
            · simp at hb

/-- Statements of a connection that others may set as well. -/
def Shared (c : TConn) (q : Path) : Prop :=
  ∃ t ∈ [c.src, c.dst], t.port.labelType = some tVlan ∧
    (q = [kInterfaces, t.port.interface, kFlexTag] ∨ q = [kInterfaces, t.port.interface, kEncap, "flexible-ethernet-services".toList])

theorem sets_canon {e : Mx.Env} {c : TConn} (hg : Mx.Good e c) {p : Path} (h : Sets e c p) : canon p = p := by
  cases h with
  | whole t ht => exact canon_interfaces (plain_of hg ht) _
  | flex t ht => exact canon_interfaces (plain_of hg ht) _
  | encap t ht => exact canon_interfaces (plain_of hg ht) _
  | unit t ht => exact canon_interfaces (plain_of hg ht) _
  | _ => exact canon_protocols _

theorem sets_covered {e : Mx.Env} {c : TConn} (hg : Mx.Good e c) {p : Path} (h : Sets e c p) :
    (∃ b ∈ (Mx.dev e).down c, Covers b p) ∨ Shared c p := by
  have hfam := singles_kw.1
  cases h with
  | whole t ht hl r hr hd =>
    refine Or.inl ⟨_, hd, _, rfl, ?_⟩
    rw [canon_interfaces (plain_of hg ht)]
    rcases hr with rfl | rfl | rfl
    · exact ⟨⟨_, rfl⟩, fun _ => ⟨[kEncap], rfl⟩⟩
    · exact ⟨⟨_, rfl⟩, fun _ => ⟨[kMtu], rfl⟩⟩
    · exact ⟨⟨_, rfl⟩, fun _ => ⟨[kUnit, ['0'], kFamily], rfl⟩⟩
  | flex t ht hl => exact Or.inr ⟨t, ht, hl, Or.inl rfl⟩
  | encap t ht hl => exact Or.inr ⟨t, ht, hl, Or.inr rfl⟩
  | unit t ht hl k hd =>
    refine Or.inl ⟨_, hd, _, rfl, ?_⟩
    rw [canon_unit (valText_no_dot _)]
    exact ⟨⟨[k, _], rfl⟩, fun _ => ⟨[k], rfl⟩⟩
  | sw i hd =>
    refine Or.inl ⟨_, hd, _, rfl, ?_⟩
    rw [canon_protocols]
    exact ⟨⟨[_, _], rfl⟩, fun _ => ⟨[_], rfl⟩⟩
  | ris i hd =>
    refine Or.inl ⟨_, hd, _, rfl, ?_⟩
    rw [canon_protocols]
    exact ⟨⟨[_, _], rfl⟩, fun _ => ⟨[_], rfl⟩⟩
  | transmit hd =>
    refine Or.inl ⟨_, hd, _, rfl, ?_⟩
    rw [canon_protocols]
    exact ⟨⟨[_, _], rfl⟩, fun _ => ⟨[_], rfl⟩⟩
  | receive hd =>
    refine Or.inl ⟨_, hd, _, rfl, ?_⟩
    rw [canon_protocols]
    exact ⟨⟨[_, _], rfl⟩, fun _ => ⟨[_], rfl⟩⟩
  | lspTo ip hip hd =>
    refine Or.inl ⟨_, hd, _, rfl, ?_⟩
    rw [canon_protocols]
    exact ⟨⟨[_, _], rfl⟩, fun _ => ⟨[_], rfl⟩⟩
  | lspNo hd =>
    refine Or.inl ⟨_, hd, _, rfl, ?_⟩
    rw [canon_protocols]
    exact ⟨⟨[_], rfl⟩, fun _ => ⟨[], rfl⟩⟩

/-- The values that a connection sets. -/
inductive Leaf (e : Mx.Env) (c : TConn) : Path → Prop
  | encapW (t : Target) (ht : t ∈ [c.src, c.dst]) (hl : t.port.labelType = none) :
      Leaf e c [kInterfaces, t.port.interface, kEncap, "ethernet-ccc".toList]
  | mtu (i : Str) : Leaf e c [kInterfaces, i, kMtu, "9000".toList]
  | encapV (t : Target) (ht : t ∈ [c.src, c.dst]) (hl : t.port.labelType = some tVlan) :
      Leaf e c [kInterfaces, t.port.interface, kEncap, "flexible-ethernet-services".toList]
  | unit (i v k : Str) : Leaf e c [kInterfaces, i, kUnit, v, k, unitVal v k]
  | transmit : Leaf e c [kProtocols, kConnections, kRemSwitch, c.id, kTransmit, Mx.lspName (lspOf c).net e.network (lspOf c).value]
  | receive : Leaf e c [kProtocols, kConnections, kRemSwitch, c.id, kReceive, Mx.lspName e.network (lspOf c).net (lspOf c).value]
  | lspTo (ip : Str) (hip : Mx.loopback e (lspOf c).net = .ok ip) :
      Leaf e c [kProtocols, kMpls, kLsp, Mx.lspName (lspOf c).net e.network (lspOf c).value, kTo, ip]

theorem sets_leaf {e : Mx.Env} {c : TConn} {p : Path} (h : Sets e c p) (hs : single p = true) : Leaf e c p := by
  have h1 : kFamily ∉ singles := by decide
  have h2 : kInterface ∉ singles := by decide
  cases h with
  | whole t ht hl r hr hd =>
    rcases hr with rfl | rfl | rfl
    · exact .encapW t ht hl
    · exact .mtu _
    · simp [single, h1] at hs
  | flex t ht hl => simp [single] at hs
  | encap t ht hl => exact .encapV t ht hl
  | unit t ht hl k hd => exact .unit _ _ k
  | sw i hd => simp [single, h2] at hs
  | ris i hd => simp [single, h2] at hs
  | transmit hd => exact .transmit
  | receive hd => exact .receive
  | lspTo ip hip hd => exact .lspTo ip hip
  | lspNo hd =>
    have h3 : Mx.lspName (lspOf c).net e.network (lspOf c).value ∉ singles := by
      intro hm
      have key : ∀ k ∈ singles, k.head? ≠ some 'T' := by decide
      exact key _ hm rfl
    simp [single, h3] at hs

theorem leaf_parent {e : Mx.Env} {c : TConn} (hg : Mx.Good e c) {p q : Path} (hp : Leaf e c p) (hq : Leaf e c q)
    (h : p.dropLast = q.dropLast) : p = q := by
  have k1 := kw_ne.1
  have k2 : kEncap ≠ kMtu := by decide
  have k3 : kTransmit ≠ kReceive := by decide
  have k4 : kConnections ≠ kMpls := by decide
  have mixed : ∀ t ∈ [c.src, c.dst], ∀ u ∈ [c.src, c.dst], t.port.labelType = none → u.port.labelType = some tVlan →
      t.port.interface ≠ u.port.interface := by
    intro t ht u hu htn huv he
    have ha := hg.apart
    simp only [List.mem_cons, List.not_mem_nil, or_false] at ht hu
    rcases ht with rfl | rfl <;> rcases hu with rfl | rfl
    · rw [htn] at huv; simp at huv
    · rw [part_whole htn, part_unit huv] at ha; exact ha he
    · rw [part_whole htn, part_unit huv] at ha; exact ha he.symm
    · rw [htn] at huv; simp at huv
  cases hp <;> cases hq <;>
    simp only [List.dropLast_cons_cons, List.dropLast_singleton, List.cons.injEq, true_and, and_true, k1, k1.symm, k2, k2.symm, k3, k3.symm, k4, k4.symm,
      false_and, and_false, reduceCtorEq] at h
  case encapW.encapW => rw [h]
  case encapW.encapV t ht hl u hu hl' => exact absurd h (mixed t ht u hu hl hl')
  case mtu.mtu => rw [h]
  case encapV.encapW u hu hl' t ht hl => exact absurd h.symm (mixed t ht u hu hl hl')
  case encapV.encapV => rw [h]
  case unit.unit => rw [h.1, h.2.1, h.2.2]
  case transmit.transmit => rfl
  case receive.receive => rfl
  case lspTo.lspTo ip hip ip' hip' =>
    rw [hip] at hip'
    cases hip'
    rfl

theorem reg_apart {e : Mx.Env} {x c : TConn} (h : Mx.Apart e x c) {r s : Reg} (hr : Removes e x r) (hs : Removes e c s) :
    ¬ r.path <+: s.path := by
  have k1 := kw_ne.1
  have k2 : kIntSwitch ≠ kRemSwitch := by decide
  have k3 : kConnections ≠ kMpls := by decide
  have hsw : Mx.switch x.id ≠ Mx.switch c.id := fun he => h.1 (List.append_cancel_left he)
  have other : ∀ (p : Part) (n k : Str), ¬ (Reg.part p).path <+: [kProtocols, kConnections, k, n] := by
    intro p n k
    cases p <;> simp [Reg.path, k1, k3.symm]
  have other' : ∀ (p : Part) (n k : Str), ¬ [kProtocols, kConnections, k, n] <+: (Reg.part p).path := by
    intro p n k
    cases p <;> simp [Reg.path, k1.symm, k3]
  rcases hr with ⟨t, ht, rfl⟩ | rfl | rfl <;> rcases hs with ⟨u, hu, rfl⟩ | rfl | rfl
  · exact part_path_apart (h.2 t ht u hu)
  · exact other _ _ _
  · exact other _ _ _
  · exact other' _ _ _
  · simpa [Reg.path] using hsw
  · simp [Reg.path, k2]
  · exact other' _ _ _
  · simp [Reg.path, k2.symm]
  · simpa [Reg.path] using h.1

theorem reg_shared {e : Mx.Env} {x c : TConn} (h : Mx.Apart e x c) {r : Reg} (hr : Removes e x r) {q : Path} (hq : Shared c q) :
    ¬ r.path <+: q := by
  have k1 := kw_ne.1
  have k2 : kUnit ≠ kFlexTag := by decide
  have k3 : kUnit ≠ kEncap := by decide
  obtain ⟨u, hu, hl, hq⟩ := hq
  rcases hr with ⟨t, ht, rfl⟩ | rfl | rfl
  · have ha := h.2 t ht u hu
    rw [part_unit hl] at ha
    cases hp : Mx.part e t with
    | whole i =>
      rw [hp] at ha
      have ha : i ≠ u.port.interface := ha
      rcases hq with rfl | rfl <;> simp [Reg.path, ha]
    | unit i v => rcases hq with rfl | rfl <;> simp [Reg.path, k2, k3]
    | lsp n => rcases hq with rfl | rfl <;> simp [Reg.path, k1.symm]
  · rcases hq with rfl | rfl <;> simp [Reg.path, k1.symm]
  · rcases hq with rfl | rfl <;> simp [Reg.path, k1.symm]

theorem mx_sound (e : Mx.Env) : Sound (Mx.dev e) (Mx.Apart e) (Mx.Good e) Mx.Left := by
  refine sound_of Shared ?_ ?_ ?_ ?_ ?_ ?_ ?_ ?_ ?_ ?_
  · exact fun c _ a ha => mx_up_set ha
  · intro c hg b hb
    obtain ⟨p, r, h, _⟩ := mx_down hg hb
    exact ⟨p, h⟩
  · intro c hg p hp
    have h := mx_sets hg hp
    rw [sets_canon hg h]
    exact sets_covered hg h
  · rintro c q ⟨t, _, _, h⟩
    exact ⟨_, h⟩
  · intro c hg p p' hp hp' hs hd
    have h := mx_sets hg hp
    have h' := mx_sets hg hp'
    rw [sets_canon hg h] at hs hd ⊢; rw [sets_canon hg h'] at hd ⊢
    exact leaf_parent hg (sets_leaf h hs) (sets_leaf h' (by rw [single_parent hd.symm]; exact hs)) hd
  · exact fun c h => h.1 rfl
  · exact fun x c h => ⟨h.1.symm, fun s hs t ht => (h.2 t ht s hs).symm⟩
  · intro x c hx hc ha p p' hp hp'
    obtain ⟨q, r, hq, hr, hR⟩ := mx_down hx hp
    obtain ⟨q', r', hq', hr', hR'⟩ := mx_down hc hp'
    cases hq; cases hq'
    rw [hr, hr']
    exact reg_apart ha hR hR'
  · intro x c hx hc ha p q hp hq
    obtain ⟨q', r, hq', hr, hR⟩ := mx_down hx hp
    cases hq'
    rw [hr]
    exact reg_shared ha hR hq
  · rintro x c _ _ _ q q' ⟨t, ht, hl, h⟩ ⟨u, hu, hl', h'⟩ hs hd
    rcases h with rfl | rfl
    · simp [single] at hs
    · rcases h' with rfl | rfl
      · simp at hd
      · simp at hd
        rw [hd]

/-! ### C66 -/

/-- C66 for JunOS MX: after any sequence of set ups and tear downs of connections with different ids that need no part of the router in
common, the router is configured as if only the connections that are up had ever been set up, except that interfaces stay configured
for vlans. Missing: that exception, see `C66_mx_left_fails`, and the connections that are not
`Mx.Good`, see `C66_mx_remote_fails`, `C66_mx_transit_fails`. -/
theorem C66_junosmx_partial (e : Mx.Env) (base : List Path) (ops : List (Op TConn)) (hp : Proper (Mx.Apart e) [] ops)
    (hg : ∀ o ∈ ops, Mx.Good e o.conn) (hb : ∀ o ∈ ops, ∀ b ∈ (Mx.dev e).up o.conn ++ (Mx.dev e).down o.conn, Spares base b) (q : Path) :
    (q ∈ (Mx.dev e).run base ((upAfter [] ops).map Op.up) → q ∈ (Mx.dev e).run base ops) ∧
    (q ∈ (Mx.dev e).run base ops → q ∈ (Mx.dev e).run base ((upAfter [] ops).map Op.up) ∨ Mx.Left q) := by
  have h := run_as_up (mx_sound e) base ops hp hg hb
  exact ⟨h.1 q, h.2 q⟩

/-- An example router of network `aaa`, with an LSP to network `bbb`. -/
def Exm.env : Mx.Env := ⟨"aaa".toList, [("bbb".toList, "10.0.0.2".toList), ("netherlight1".toList, "10.0.0.3".toList), ("netherlight2".toList, "10.0.0.4".toList)]⟩
/-- Vlan `v` on interface `i`. -/
def Exm.tv (i : Char) (v : Int) : Target := ⟨⟨[i], none, some tVlan⟩, some v⟩
/-- The whole of interface `i`. -/
def Exm.tw (i : Char) : Target := ⟨⟨[i], none, none⟩, none⟩
/-- Label `v` to network `n`. -/
def Exm.tl (n : String) (v : Int) : Target := ⟨⟨['m'], some n.toList, some tMpls⟩, some v⟩

/-- A connection from vlan 12 on `i` to an LSP, one from vlan 13 on `i` to the whole of `j`. -/
def Exm.x1 : TConn := ⟨['1'], Exm.tv 'i' 12, Exm.tl "bbb" 7⟩
/-- See `Exm.x1`. -/
def Exm.x2 : TConn := ⟨['2'], Exm.tw 'j', Exm.tv 'i' 13⟩

/-- Hypotheses of `C66_junosmx_partial` hold for a connection of a vlan with an LSP and one of another vlan with a whole interface. After the first
one is taken down, the configuration has the statements of the second. -/
example : Proper (Mx.Apart Exm.env) [] [.up Exm.x1, .up Exm.x2, .down Exm.x1] ∧ Mx.Good Exm.env Exm.x1 ∧ Mx.Good Exm.env Exm.x2 ∧
    (Mx.dev Exm.env).run [] [.up Exm.x1, .up Exm.x2, .down Exm.x1] =
      [[kInterfaces, ['i'], kFlexTag], [kInterfaces, ['i'], kEncap, "flexible-ethernet-services".toList],
       [kInterfaces, ['j'], kEncap, "ethernet-ccc".toList], [kInterfaces, ['j'], kMtu, "9000".toList],
       [kInterfaces, ['j'], kUnit, ['0'], kFamily, "ccc".toList],
       [kInterfaces, ['i'], kUnit, "13".toList, kEncap, "vlan-ccc".toList], [kInterfaces, ['i'], kUnit, "13".toList, kVlanId, "13".toList],
       [kInterfaces, ['i'], kUnit, "13".toList, kInMap, "pop".toList], [kInterfaces, ['i'], kUnit, "13".toList, kOutMap, "push".toList],
       [kProtocols, kConnections, kIntSwitch, "NSI-2".toList, kInterface, "j.0".toList],
       [kProtocols, kConnections, kIntSwitch, "NSI-2".toList, kInterface, "i.13".toList]] := by
  refine ⟨?_, ⟨?_, by decide +kernel, by decide +kernel, by decide +kernel⟩,
    ⟨?_, by decide +kernel, by decide +kernel, by decide +kernel⟩, by decide +kernel⟩
  · simp only [Proper, Mx.Apart, List.nil_append]
    decide +kernel
  · unfold Plain; decide +kernel
  · unfold Plain; decide +kernel

/-- The ports of an example router: `w` is the whole of interface `i`, `b` has vlans on `i`, `c` and `d` on `j` and `k`; `e` and `f` lead to two networks
over LSPs. -/
def Exm.mxPorts : PortMap :=
  [(['w'], ⟨['i'], none, none⟩), (['b'], ⟨['i'], none, some tVlan⟩), (['c'], ⟨['j'], none, some tVlan⟩), (['d'], ⟨['k'], none, some tVlan⟩),
   (['e'], ⟨['m'], some "netherlight1".toList, some tMpls⟩), (['f'], ⟨['n'], some "netherlight2".toList, some tMpls⟩)]

/-- Two connections between ends of ports, whose resources have different names in the calendar. -/
def BookedApart (pm : PortMap) (x y : TConn) (xs xd ys yd : End) : Prop :=
  x.id ≠ y.id ∧
  Mx.getTarget pm xs.port xs.label = .ok x.src ∧ Mx.getTarget pm xd.port xd.label = .ok x.dst ∧
  Mx.getTarget pm ys.port ys.label = .ok y.src ∧ Mx.getTarget pm yd.port yd.label = .ok y.dst ∧
  ∀ a ∈ [xs, xd], ∀ b ∈ [ys, yd], ∀ r s, Mx.getResource pm a.port a.label = .ok r → Mx.getResource pm b.port b.label = .ok s → r ≠ s

theorem bookedApart_of {pm : PortMap} {x y : TConn} {xs xd ys yd : End} (h0 : x.id ≠ y.id)
    (h1 : Mx.getTarget pm xs.port xs.label = .ok x.src) (h2 : Mx.getTarget pm xd.port xd.label = .ok x.dst)
    (h3 : Mx.getTarget pm ys.port ys.label = .ok y.src) (h4 : Mx.getTarget pm yd.port yd.label = .ok y.dst)
    (h : ∀ a ∈ [xs, xd], ∀ b ∈ [ys, yd], Mx.getResource pm a.port a.label ≠ Mx.getResource pm b.port b.label) : BookedApart pm x y xs xd ys yd :=
  ⟨h0, h1, h2, h3, h4, fun a ha b hb r s hr hs he => h a ha b hb (by rw [hr, hs, he])⟩

/-- C66 fails for JunOS MX: taking down a connection of a whole interface deletes the vlans of another connection on the same interface. Their
resources have different names (C65), so that both are accepted. -/
theorem C66_mx_whole_fails : ∃ (x y : TConn) (xs xd ys yd : End) (q : Path), BookedApart Exm.mxPorts x y xs xd ys yd ∧
    q ∈ (Mx.dev Exm.env).run [] [.up y] ∧ q ∉ (Mx.dev Exm.env).run [] [.up y, .up x, .down x] := by
  refine ⟨⟨['1'], Exm.tw 'i', Exm.tv 'j' 12⟩, ⟨['2'], Exm.tv 'i' 13, Exm.tv 'k' 13⟩, ⟨['w'], none⟩, ⟨['c'], some (tVlan, 12)⟩, ⟨['b'], some (tVlan, 13)⟩,
    ⟨['d'], some (tVlan, 13)⟩, [kInterfaces, ['i'], kUnit, "13".toList, kVlanId, "13".toList], ?_, by decide +kernel, by decide +kernel⟩
  exact bookedApart_of (by decide) (by decide +kernel) (by decide +kernel) (by decide +kernel) (by decide +kernel) (by decide +kernel)

/-- C66 fails for JunOS MX: the name of an LSP has only the first six characters of a network; taking down a connection to one network deletes
the LSP of a connection to another one. -/
theorem C66_mx_lsp_fails : ∃ (x y : TConn) (xs xd ys yd : End) (q : Path), BookedApart Exm.mxPorts x y xs xd ys yd ∧
    q ∈ (Mx.dev Exm.env).run [] [.up y] ∧ q ∉ (Mx.dev Exm.env).run [] [.up x, .up y, .down x] := by
  refine ⟨⟨['1'], Exm.tv 'j' 12, ⟨⟨['m'], some "netherlight1".toList, some tMpls⟩, some 7⟩⟩,
    ⟨['2'], Exm.tv 'k' 13, ⟨⟨['n'], some "netherlight2".toList, some tMpls⟩, some 7⟩⟩,
    ⟨['c'], some (tVlan, 12)⟩, ⟨['e'], some (tMpls, 7)⟩, ⟨['d'], some (tVlan, 13)⟩, ⟨['f'], some (tMpls, 7)⟩,
    [kProtocols, kMpls, kLsp, "T-nether-F-aaa-mpls7".toList, kTo, "10.0.0.4".toList], ?_, by decide +kernel, by decide +kernel⟩
  exact bookedApart_of (by decide) (by decide +kernel) (by decide +kernel) (by decide +kernel) (by decide +kernel) (by decide +kernel)

/-- C66 fails for JunOS MX: a connection from a local vlan to a port with a remote network and no label is set up, as far as the vlan is
concerned, but not taken down: the commands cannot be made (junosmx.py:495). -/
theorem C66_mx_remote_fails : ∃ (x : TConn) (q : Path), Mx.canConnect x.src.port.labelType x.dst.port.labelType = true ∧
    Mx.deactivate Exm.env x.id x.src x.dst = .error .attribute ∧ ¬ Mx.Left q ∧ q ∈ (Mx.dev Exm.env).run [] [.up x, .down x] := by
  refine ⟨⟨['1'], Exm.tv 'i' 12, ⟨⟨['j'], some "bbb".toList, none⟩, none⟩⟩, [kInterfaces, ['i'], kUnit, "12".toList, kVlanId, "12".toList],
    by decide +kernel, by decide +kernel, ?_, by decide +kernel⟩
  rintro ⟨i, h | h⟩
  · exact absurd (congrArg List.length h) (by simp)
  · exact absurd (congrArg List.length h) (by simp)

/-- C66 fails for JunOS MX: a connection between an LSP and a port with a remote network and no label leaves its remote switch behind, which
refers to an LSP that is gone (junosmx.py:630). -/
theorem C66_mx_transit_fails : ∃ (x : TConn) (q : Path), Mx.canConnect x.src.port.labelType x.dst.port.labelType = true ∧
    ¬ Mx.Left q ∧ q ∈ (Mx.dev Exm.env).run [] [.up x, .down x] := by
  refine ⟨⟨['1'], Exm.tl "bbb" 7, ⟨⟨['j'], some "netherlight1".toList, none⟩, none⟩⟩,
    [kProtocols, kConnections, kRemSwitch, ['1'], kTransmit, "T-bbb-F-aaa-mpls7".toList], by decide +kernel, ?_, by decide +kernel⟩
  rintro ⟨i, h | h⟩
  · exact absurd (congrArg List.length h) (by simp)
  · exact absurd (congrArg List.length h) (by simp)

/-- C66 fails for JunOS MX: an interface that had a vlan stays configured for vlans, also when it is used as a whole later. -/
theorem C66_mx_left_fails : ∃ (x y : TConn), Mx.Good Exm.env x ∧ Mx.Good Exm.env y ∧
    [kInterfaces, ['i'], kFlexTag] ∈ (Mx.dev Exm.env).run [] [.up x, .down x, .up y] ∧
    [kInterfaces, ['i'], kFlexTag] ∉ (Mx.dev Exm.env).run [] [.up y] := by
  refine ⟨⟨['1'], Exm.tv 'i' 12, Exm.tv 'j' 12⟩, ⟨['2'], Exm.tw 'i', Exm.tw 'j'⟩,
    ⟨?_, by decide +kernel, by decide +kernel, by decide +kernel⟩, ⟨?_, by decide +kernel, by decide +kernel, by decide +kernel⟩,
    by decide +kernel, by decide +kernel⟩ <;> (unfold Plain; decide +kernel)

/-! ### JunOS EX -/

/-- The part of the switch that an end of a connection needs: a unit, or nothing. -/
def Jex.parts (c : TConn) : List (Str × Str) :=
  ([c.src, c.dst].filter fun t => t.port.labelType = some tVlan).map fun t => (t.port.interface, valText t.value)

/-- Connections with different ids that have no unit of an interface in common. -/
def Jex.Apart (x y : TConn) : Prop := x.id ≠ y.id ∧ ∀ u ∈ Jex.parts x, u ∉ Jex.parts y

/-- What is left behind on an interface that had vlans. -/
def Jex.Left (q : Path) : Prop :=
  ∃ i, q = [kInterfaces, i, kVlanTag] ∨ q = [kInterfaces, i, kMtu, "9000".toList] ∨ q = [kInterfaces, i, kEncap, "vlan-ccc".toList]

/-- The names of the interfaces are plain. -/
def TConn.Plain (c : TConn) : Prop := Device.Plain c.src.port.interface ∧ Device.Plain c.dst.port.interface

theorem tplain_of {c : TConn} (hg : c.Plain) {t : Target} (ht : t ∈ [c.src, c.dst]) : Plain t.port.interface := by
  simp only [List.mem_cons, List.not_mem_nil, or_false] at ht
  rcases ht with rfl | rfl
  · exact hg.1
  · exact hg.2

theorem mem_parts {c : TConn} {t : Target} (ht : t ∈ [c.src, c.dst]) (hl : t.port.labelType = some tVlan) :
    (t.port.interface, valText t.value) ∈ Jex.parts c :=
  List.mem_map.2 ⟨t, List.mem_filter.2 ⟨ht, by simp [hl]⟩, rfl⟩

/-- What a command of a connection sets. -/
inductive JSets (c : TConn) : Path → Prop
  | shared (t : Target) (ht : t ∈ [c.src, c.dst]) (r : Path)
      (hr : r = [kVlanTag] ∨ r = [kMtu, "9000".toList] ∨ r = [kEncap, "vlan-ccc".toList]) : JSets c (kInterfaces :: t.port.interface :: r)
  | unit (t : Target) (ht : t ∈ [c.src, c.dst]) (hl : t.port.labelType = some tVlan) (r : Path)
      (hr : r = [kEncap, "vlan-ccc".toList] ∨ r = [kVlanId, valText t.value] ∨ r = ["swap-by-poppush".toList])
      (hd : Cmd.delete [kInterfaces, unitName t.port.interface (valText t.value)] ∈ Jex.dev.down c) :
      JSets c (kInterfaces :: t.port.interface :: kUnit :: valText t.value :: r)
  | sw (i : Str) (hd : Cmd.delete [kProtocols, kConnections, kIntSwitch, Jex.switch c.id] ∈ Jex.dev.down c) :
      JSets c [kProtocols, kConnections, kIntSwitch, Jex.switch c.id, kInterface, i]

theorem jex_sets {c : TConn} {a : Cmd} (h : a ∈ Jex.dev.up c) : ∃ p, a = .set p ∧ JSets c p := by
  obtain ⟨l, hl, ha⟩ := sent_ok h
  unfold Jex.activate at hl
  split at hl
  · rename_i ts td hts htd
    have hd : Jex.dev.down c = Jex.endDown c.src ++ Jex.endDown c.dst ++ [.delete [kProtocols, kConnections, kIntSwitch, Jex.switch c.id]] := by
      simp [Jex.dev, Jex.deactivate, hts, htd, sent]
    have key : ∀ t ∈ [c.src, c.dst], (∀ b ∈ Jex.endDown t, b ∈ Jex.dev.down c) → ∀ a ∈ Jex.endUp t, ∃ p, a = .set p ∧ JSets c p := by
      intro t ht hdt a ha
      simp only [Jex.endUp] at ha
      split at ha
      · rename_i hl
        have hdt := hdt (.delete [kInterfaces, unitName t.port.interface (valText t.value)]) (by simp [Jex.endDown, hl])
        simp only [List.mem_cons, List.not_mem_nil, or_false] at ha
        rcases ha with rfl | rfl | rfl | rfl | rfl | rfl
        · exact ⟨_, rfl, .shared t ht _ (Or.inl rfl)⟩
        · exact ⟨_, rfl, .shared t ht _ (Or.inr (Or.inl rfl))⟩
        · exact ⟨_, rfl, .shared t ht _ (Or.inr (Or.inr rfl))⟩
        · exact ⟨_, rfl, .unit t ht hl _ (Or.inl rfl) hdt⟩
        · exact ⟨_, rfl, .unit t ht hl _ (Or.inr (Or.inl rfl)) hdt⟩
        · exact ⟨_, rfl, .unit t ht hl _ (Or.inr (Or.inr rfl)) hdt⟩
      · simp at ha
    simp only [Except.ok.injEq] at hl; subst hl
    simp only [List.mem_append] at ha
    rcases ha with (ha | ha) | ha
    · exact key _ (by simp) (fun b hb => by rw [hd]; simp [hb]) a ha
    · exact key _ (by simp) (fun b hb => by rw [hd]; simp [hb]) a ha
    · obtain ⟨t, _, rfl⟩ := List.mem_map.1 ha
      exact ⟨_, rfl, .sw _ (by rw [hd]; simp)⟩
  · simp at hl

theorem jex_down {c : TConn} {b : Cmd} (h : b ∈ Jex.dev.down c) :
    ∃ p, b = .delete p ∧ ((∃ u ∈ Jex.parts c, canon p = [kInterfaces, u.1, kUnit, u.2]) ∨ canon p = [kProtocols, kConnections, kIntSwitch, Jex.switch c.id]) := by
  obtain ⟨l, hl, hb⟩ := sent_ok h
  unfold Jex.deactivate at hl
  split at hl
  · simp only [Except.ok.injEq] at hl; subst hl
    have key : ∀ t ∈ [c.src, c.dst], b ∈ Jex.endDown t →
        ∃ p, b = .delete p ∧ ((∃ u ∈ Jex.parts c, canon p = [kInterfaces, u.1, kUnit, u.2]) ∨ canon p = [kProtocols, kConnections, kIntSwitch, Jex.switch c.id]) := by
      intro t ht hb
      unfold Jex.endDown at hb
      split at hb
      · rename_i hl
        simp only [List.mem_singleton] at hb
        exact ⟨_, hb, Or.inl ⟨_, mem_parts ht hl, canon_unit (valText_no_dot _) _⟩⟩
      · simp at hb
    simp only [List.mem_append, List.mem_singleton] at hb
    rcases hb with (hb | hb) | hb
    · exact key _ (by simp) hb
    · exact key _ (by simp) hb
    · exact ⟨_, hb, Or.inr (canon_protocols _)⟩
  · simp at hl

/-- Statements of a connection that others may set as well. -/
def JShared (c : TConn) (q : Path) : Prop :=
  ∃ t ∈ [c.src, c.dst], q = [kInterfaces, t.port.interface, kVlanTag] ∨ q = [kInterfaces, t.port.interface, kMtu, "9000".toList] ∨
    q = [kInterfaces, t.port.interface, kEncap, "vlan-ccc".toList]

theorem jsets_canon {c : TConn} (hg : c.Plain) {p : Path} (h : JSets c p) : canon p = p := by
  cases h with
  | shared t ht => exact canon_interfaces (tplain_of hg ht) _
  | unit t ht => exact canon_interfaces (tplain_of hg ht) _
  | sw => exact canon_protocols _

/-- The values that a connection sets. -/
inductive JLeaf : Path → Prop
  | mtu (i : Str) : JLeaf [kInterfaces, i, kMtu, "9000".toList]
  | encap (i : Str) : JLeaf [kInterfaces, i, kEncap, "vlan-ccc".toList]
  | uencap (i v : Str) : JLeaf [kInterfaces, i, kUnit, v, kEncap, "vlan-ccc".toList]
  | uvid (i v : Str) : JLeaf [kInterfaces, i, kUnit, v, kVlanId, v]

theorem jleaf_parent {p q : Path} (hp : JLeaf p) (hq : JLeaf q) (h : p.dropLast = q.dropLast) : p = q := by
  have k5 : kMtu ≠ kEncap := by decide
  have k6 : kEncap ≠ kVlanId := by decide
  cases hp <;> cases hq <;>
    simp only [List.dropLast_cons_cons, List.dropLast_singleton, List.cons.injEq, true_and, and_true, k5, k5.symm, k6, k6.symm,
      and_false, reduceCtorEq] at h
  case mtu.mtu => rw [h]
  case encap.encap => rw [h]
  case uencap.uencap => rw [h.1, h.2]
  case uvid.uvid => rw [h.1, h.2]

theorem valText_not_single (v : Option Int) : valText v ∉ singles := by
  intro hm
  have key : ∀ k ∈ singles, ∃ x ∈ k, x ≠ '-' ∧ digitVal x = none ∧ x ∉ valText none := by decide +kernel
  obtain ⟨x, hx, h1, h2, h3⟩ := key _ hm
  cases v with
  | none => exact h3 hx
  | some v => exact showInt_no_char h1 h2 v hx

theorem jsets_leaf {c : TConn} {p : Path} (h : JSets c p) (hs : single p = true) : JLeaf p := by
  have hint : kInterface ∉ singles := by decide
  cases h with
  | shared t ht r hr =>
    rcases hr with rfl | rfl | rfl
    · simp [single] at hs
    · exact .mtu _
    · exact .encap _
  | unit t ht hl r hr hd =>
    rcases hr with rfl | rfl | rfl
    · exact .uencap _ _
    · exact .uvid _ _
    · have hv := valText_not_single t.value
      simp [single, hv] at hs
  | sw i hd => simp [single, hint] at hs

theorem jshared_parent {x c : TConn} {q q' : Path} (h : JShared x q) (h' : JShared c q') (hs : single q = true) (hd : q.dropLast = q'.dropLast) :
    q = q' := by
  have key : ∀ {c : TConn} {q : Path}, JShared c q → single q = true → JLeaf q := by
    rintro c q ⟨t, _, rfl | rfl | rfl⟩ hs
    · simp [single] at hs
    · exact .mtu _
    · exact .encap _
  exact jleaf_parent (key h hs) (key h' (by rw [single_parent hd.symm]; exact hs)) hd

theorem jex_sound : Sound Jex.dev Jex.Apart TConn.Plain Jex.Left := by
  have k1 := kw_ne.1
  have k2 : kUnit ≠ kMtu := by decide
  have k3 : kUnit ≠ kEncap := by decide
  have k4 : kUnit ≠ kVlanTag := by decide
  refine sound_of JShared ?_ ?_ ?_ ?_ ?_ ?_ ?_ ?_ ?_ ?_
  · intro c _ a ha
    obtain ⟨p, h, _⟩ := jex_sets ha
    exact ⟨p, h⟩
  · intro c _ b hb
    obtain ⟨p, h, _⟩ := jex_down hb
    exact ⟨p, h⟩
  · intro c hg p hp
    obtain ⟨_, h, hs⟩ := jex_sets hp
    cases h
    rw [jsets_canon hg hs]
    cases hs with
    | shared t ht r hr =>
      refine Or.inr ⟨t, ht, ?_⟩
      rcases hr with rfl | rfl | rfl <;> simp
    | unit t ht hl r hr hd =>
      refine Or.inl ⟨_, hd, _, rfl, ?_⟩
      rw [canon_unit (valText_no_dot _)]
      rcases hr with rfl | rfl | rfl
      · exact ⟨⟨_, rfl⟩, fun _ => ⟨[_], rfl⟩⟩
      · exact ⟨⟨_, rfl⟩, fun _ => ⟨[_], rfl⟩⟩
      · exact ⟨⟨_, rfl⟩, fun _ => ⟨[], rfl⟩⟩
    | sw i hd =>
      refine Or.inl ⟨_, hd, _, rfl, ?_⟩
      rw [canon_protocols]
      exact ⟨⟨[_, _], rfl⟩, fun _ => ⟨[_], rfl⟩⟩
  · rintro c q ⟨t, _, h⟩
    exact ⟨_, h⟩
  · intro c hg p p' hp hp' hs hd
    obtain ⟨_, h, hsp⟩ := jex_sets hp
    obtain ⟨_, h', hsp'⟩ := jex_sets hp'
    cases h; cases h'
    rw [jsets_canon hg hsp] at hs hd ⊢; rw [jsets_canon hg hsp'] at hd ⊢
    exact jleaf_parent (jsets_leaf hsp hs) (jsets_leaf hsp' (by rw [single_parent hd.symm]; exact hs)) hd
  · exact fun c h => h.1 rfl
  · exact fun x c h => ⟨h.1.symm, fun u hu hu' => h.2 u hu' hu⟩
  · intro x c _ _ ha p p' hp hp'
    obtain ⟨_, h, hc⟩ := jex_down hp
    obtain ⟨_, h', hc'⟩ := jex_down hp'
    cases h; cases h'
    have hsw : Jex.switch x.id ≠ Jex.switch c.id := fun he => ha.1 (List.append_cancel_left he)
    rcases hc with ⟨u, hu, hc⟩ | hc <;> rcases hc' with ⟨w, hw, hc'⟩ | hc' <;> rw [hc, hc']
    · intro hpre
      simp only [List.cons_prefix_cons] at hpre
      exact ha.2 u hu (by
        have : u = w := Prod.ext hpre.2.1 hpre.2.2.2.1
        rw [this]; exact hw)
    · simp [k1]
    · simp [k1.symm]
    · simpa using hsw
  · intro x c _ _ ha p q hp hq
    obtain ⟨_, h, hc⟩ := jex_down hp
    cases h
    obtain ⟨t, ht, hq⟩ := hq
    rcases hc with ⟨u, hu, hc⟩ | hc <;> rw [hc] <;> rcases hq with rfl | rfl | rfl <;> simp [k1.symm, k2, k3, k4]
  · exact fun x c _ _ _ q q' h h' hs hd => jshared_parent h h' hs hd

/-- C66 for JunOS EX: after any sequence of set ups and tear downs of connections with different ids that have no unit of an interface in
common, the switch is configured as if only the connections that are up had ever been set up, except that interfaces stay configured
for vlans. Missing: that exception. -/
theorem C66_junosex_partial (base : List Path) (ops : List (Op TConn)) (hp : Proper Jex.Apart [] ops)
    (hg : ∀ o ∈ ops, o.conn.Plain) (hb : ∀ o ∈ ops, ∀ b ∈ Jex.dev.up o.conn ++ Jex.dev.down o.conn, Spares base b) (q : Path) :
    (q ∈ Jex.dev.run base ((upAfter [] ops).map Op.up) → q ∈ Jex.dev.run base ops) ∧
    (q ∈ Jex.dev.run base ops → q ∈ Jex.dev.run base ((upAfter [] ops).map Op.up) ∨ Jex.Left q) := by
  have h := run_as_up jex_sound base ops hp hg hb
  exact ⟨h.1 q, h.2 q⟩

/-- Two connections on interfaces `i` and `j`. -/
def Exm.y1 : TConn := ⟨['1'], Exm.tv 'i' 12, Exm.tv 'j' 12⟩
/-- See `Exm.y1`. -/
def Exm.y2 : TConn := ⟨['2'], Exm.tv 'i' 13, Exm.tv 'j' 14⟩

/-- Hypotheses of `C66_junosex_partial` hold for two connections between the same interfaces. -/
example : Proper Jex.Apart [] [.up Exm.y1, .up Exm.y2, .down Exm.y1] ∧ Exm.y1.Plain ∧ Exm.y2.Plain ∧
    (Jex.dev.run [] [.up Exm.y1, .up Exm.y2, .down Exm.y1]).length = 14 := by
  refine ⟨?_, ?_, ?_, by decide +kernel⟩
  · simp only [Proper, Jex.Apart, List.nil_append]
    decide +kernel
  · unfold TConn.Plain Plain; decide +kernel
  · unfold TConn.Plain Plain; decide +kernel

end OpenNSA.Device
