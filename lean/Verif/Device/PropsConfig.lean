import Verif.Device.Change
import Verif.Device.PropsResource
import Verif.Plugin.Props
/-
C66 for the devices that are configured with statements: taking a connection down removes it and nothing else.
-/
namespace OpenNSA.Device
open Py OpenNSA.Backend

/-! ### Specification -/

/-- The commands that are sent; none if an exception is raised before. -/
def sent (r : Except DevErr (List Cmd)) : List Cmd :=
  match r with
  | .ok l => l
  | .error _ => []

/-- A connection between two vlan targets. -/
structure VConn where
  id : Str
  src : VlanTarget
  dst : VlanTarget
  deriving DecidableEq, Repr

/-- A connection between two targets of any kind. -/
structure TConn where
  id : Str
  src : Target
  dst : Target
  deriving DecidableEq, Repr

/-- The commands of juniperex.py. -/
def Ex.dev : Dev VConn := ⟨fun c => sent (Ex.setupLink c.src c.dst), fun c => sent (Ex.teardownLink c.src c.dst)⟩

/-- The commands of junipervpls.py. -/
def Vpls.dev (asn : Str) : Dev VConn := ⟨fun c => sent (Vpls.setupLink asn c.id c.src c.dst), fun c => sent (Vpls.teardownLink c.id c.src c.dst)⟩

/-- The commands of junosex.py. -/
def Jex.dev : Dev TConn := ⟨fun c => sent (Jex.activate c.id c.src c.dst), fun c => sent (Jex.deactivate c.id c.src c.dst)⟩

/-- The commands of junosmx.py. -/
def Mx.dev (e : Mx.Env) : Dev TConn := ⟨fun c => sent (Mx.activate e c.id c.src c.dst), fun c => sent (Mx.deactivate e c.id c.src c.dst)⟩

/-- The name of an interface has no full stop, which would be that of a unit. -/
def Plain (i : Str) : Prop := '.' ∉ i

/-! ### Lemmas -/

theorem kw_ne : kInterfaces ≠ kProtocols ∧ kInterfaces ≠ kVlans ∧ kInterfaces ≠ kRI ∧ kInterfaces ≠ kRIshort ∧ kVlans ≠ kRIshort ∧
    kRI ≠ kRIshort ∧ kProtocols ≠ kRIshort ∧ kIntSwitch ≠ kRemSwitch ∧ kConnections ≠ kMpls ∧ kUnit ≠ kEncap ∧ kUnit ≠ kFlexTag ∧ kUnit ≠ kMtu ∧
    kUnit ≠ kVlanTag ∧ kEncap ≠ kMtu ∧ kEncap ≠ kFlexTag ∧ kEncap ≠ kVlanTag ∧ kMtu ≠ kVlanTag := by
  decide

theorem canon_interfaces {i : Str} (h : Plain i) (rest : Path) : canon (kInterfaces :: i :: rest) = kInterfaces :: i :: rest := by
  simp only [canon, if_true]
  rw [cutLast_eq_none.2 h]

theorem canon_unit {i v : Str} (h : '.' ∉ v) (rest : Path) :
    canon (kInterfaces :: unitName i v :: rest) = kInterfaces :: i :: kUnit :: v :: rest := by
  simp only [canon, if_true, unitName]
  rw [cutLast_append i h]

theorem canon_protocols (rest : Path) : canon (kProtocols :: rest) = kProtocols :: rest := by
  cases rest with
  | nil => rfl
  | cons w rest => simp only [canon, kw_ne.1.symm, kw_ne.2.2.2.2.2.2.1, if_false]

theorem canon_vlans (rest : Path) : canon (kVlans :: rest) = kVlans :: rest := by
  cases rest with
  | nil => rfl
  | cons w rest => simp only [canon, kw_ne.2.1.symm, kw_ne.2.2.2.2.1, if_false]

theorem canon_RI (rest : Path) : canon (kRI :: rest) = kRI :: rest := by
  cases rest with
  | nil => rfl
  | cons w rest => simp only [canon, kw_ne.2.2.1.symm, kw_ne.2.2.2.2.2.1, if_false]

theorem canon_RIshort (w : Str) (rest : Path) : canon (kRIshort :: w :: rest) = kRI :: w :: rest := by
  simp only [canon, kw_ne.2.2.2.1.symm, if_false, if_true]

theorem vlanName_inj {a b : Int} (h : Ex.vlanName a = Ex.vlanName b) : a = b :=
  showInt_inj (List.append_cancel_left h)

/-! ### Juniper EX -/

/-- Connections that have no vlan in common; on this device a vlan exists once. -/
def Ex.Apart (x y : VConn) : Prop := x.dst.vlan ≠ y.dst.vlan

/-- The interfaces of a connection have plain names. -/
def VConn.Plain (c : VConn) : Prop := Device.Plain c.src.port ∧ Device.Plain c.dst.port

theorem ex_up {c : VConn} {p : Path} (hp : c.Plain) (h : Cmd.set p ∈ Ex.dev.up c) :
    canon p = p ∧ (p = [kVlans, Ex.vlanName c.dst.vlan, kVlanId, showInt c.dst.vlan] ∨ p = Ex.member c.src.port c.dst.vlan ∨
      p = Ex.member c.dst.port c.dst.vlan) ∧ c.src.vlan = c.dst.vlan := by
  simp only [Ex.dev, Ex.setupLink] at h
  split at h
  · simp [sent] at h
  · rename_i hv
    simp only [ne_eq, Decidable.not_not] at hv
    simp only [sent, Ex.configure, List.mem_cons, Cmd.set.injEq, List.not_mem_nil, or_false] at h
    refine ⟨?_, h, hv⟩
    rcases h with rfl | rfl | rfl
    · exact canon_vlans _
    · exact canon_interfaces hp.1 _
    · exact canon_interfaces hp.2 _

theorem ex_down {c : VConn} {p : Path} (hp : c.Plain) (h : Cmd.delete p ∈ Ex.dev.down c) :
    canon p = p ∧ (p = [kVlans, Ex.vlanName c.dst.vlan] ∨ p = Ex.member c.src.port c.dst.vlan ∨ p = Ex.member c.dst.port c.dst.vlan) := by
  simp only [Ex.dev, Ex.teardownLink] at h
  split at h
  · simp [sent] at h
  · simp only [sent, Ex.delete, List.mem_cons, Cmd.delete.injEq, List.not_mem_nil, or_false] at h
    rcases h with rfl | rfl | rfl
    · exact ⟨canon_interfaces hp.1 _, Or.inr (Or.inl rfl)⟩
    · exact ⟨canon_interfaces hp.2 _, Or.inr (Or.inr rfl)⟩
    · exact ⟨canon_vlans _, Or.inl rfl⟩

theorem single_member (p : Str) (v : Int) : single (Ex.member p v) = false := by
  have h : kMembers ∉ singles := by decide
  simpa [single, Ex.member] using h

theorem ex_sound : Sound Ex.dev Ex.Apart VConn.Plain (fun _ => False) := by
  refine sound_of (fun _ _ => False) ?_ ?_ ?_ (fun _ _ h => h) ?_ ?_ ?_ ?_ ?_ ?_
  · intro c _ a ha
    simp only [Ex.dev, Ex.setupLink] at ha
    split at ha
    · simp [sent] at ha
    · simp only [sent, Ex.configure, List.mem_cons, List.not_mem_nil, or_false] at ha
      rcases ha with rfl | rfl | rfl <;> exact ⟨_, rfl⟩
  · intro c _ a ha
    simp only [Ex.dev, Ex.teardownLink] at ha
    split at ha
    · simp [sent] at ha
    · simp only [sent, Ex.delete, List.mem_cons, List.not_mem_nil, or_false] at ha
      rcases ha with rfl | rfl | rfl <;> exact ⟨_, rfl⟩
  · intro c hg p hp
    obtain ⟨h1, h2, h3⟩ := ex_up hg hp
    have hd : Ex.dev.down c = Ex.delete c.src.port c.dst.port c.dst.vlan := by simp [Ex.dev, Ex.teardownLink, h3, sent]
    refine Or.inl ?_
    rw [h1, hd]
    rcases h2 with rfl | rfl | rfl
    · refine ⟨.delete [kVlans, Ex.vlanName c.dst.vlan], by simp [Ex.delete], _, rfl, ?_⟩
      rw [canon_vlans]
      exact ⟨⟨[kVlanId, showInt c.dst.vlan], rfl⟩, fun _ => ⟨[kVlanId], rfl⟩⟩
    · refine ⟨.delete (Ex.member c.src.port c.dst.vlan), by simp [Ex.delete], _, rfl, ?_⟩
      rw [show canon (Ex.member c.src.port c.dst.vlan) = _ from canon_interfaces hg.1 _]
      exact ⟨List.prefix_rfl, by rw [single_member]; simp⟩
    · refine ⟨.delete (Ex.member c.dst.port c.dst.vlan), by simp [Ex.delete], _, rfl, ?_⟩
      rw [show canon (Ex.member c.dst.port c.dst.vlan) = _ from canon_interfaces hg.2 _]
      exact ⟨List.prefix_rfl, by rw [single_member]; simp⟩
  · intro c hg p p' hp hp' hs hd
    obtain ⟨h1, h2, _⟩ := ex_up hg hp
    obtain ⟨h1', h2', _⟩ := ex_up hg hp'
    rw [h1] at hs hd ⊢; rw [h1'] at hd ⊢
    rcases h2 with rfl | rfl | rfl
    · rcases h2' with rfl | rfl | rfl
      · rfl
      · simp [Ex.member] at hd
      · simp [Ex.member] at hd
    · rw [single_member] at hs; simp at hs
    · rw [single_member] at hs; simp at hs
  · exact fun c h => h rfl
  · exact fun x c h => h.symm
  · intro x c hx hc ha p p' hp hp'
    obtain ⟨h1, h2⟩ := ex_down hx hp
    obtain ⟨h1', h2'⟩ := ex_down hc hp'
    rw [h1, h1']
    have hn : Ex.vlanName x.dst.vlan ≠ Ex.vlanName c.dst.vlan := fun h => ha (vlanName_inj h)
    have hk := kw_ne.2.1
    rcases h2 with rfl | rfl | rfl <;> rcases h2' with rfl | rfl | rfl <;>
      simp [Ex.member, hn, hk, hk.symm]
  · exact fun _ _ _ _ _ _ _ _ h => h.elim
  · exact fun _ _ _ _ _ _ _ h => h.elim

/-- C66 for Juniper EX: after any sequence of set ups and tear downs of connections with different vlans, the switch is configured
exactly as if only the connections that are up had ever been set up. The rest of its configuration, which none of the commands touches,
is as before. -/
theorem C66_juniperex (base : List Path) (ops : List (Op VConn)) (hp : Proper Ex.Apart [] ops) (hi : ∀ o ∈ ops, o.conn.Plain)
    (hb : ∀ o ∈ ops, ∀ b ∈ Ex.dev.up o.conn ++ Ex.dev.down o.conn, Spares base b) (q : Path) :
    q ∈ Ex.dev.run base ops ↔ q ∈ Ex.dev.run base ((upAfter [] ops).map Op.up) := by
  have h := run_as_up ex_sound base ops hp hi hb
  exact ⟨fun hq => (h.2 q hq).elim id False.elim, h.1 q⟩

/-- Example connections: vlan 12 from `i` to `j`, and vlan 120 from `i` to `k`. -/
def Exm.c1 : VConn := ⟨['1'], ⟨['i'], 12⟩, ⟨['j'], 12⟩⟩
/-- See `Exm.c1`. -/
def Exm.c2 : VConn := ⟨['2'], ⟨['i'], 120⟩, ⟨['k'], 120⟩⟩

/-- Hypotheses of `C66_juniperex` hold for two connections, the first of which is taken down; that of vlan 120 stays. -/
example : Proper Ex.Apart [] [.up Exm.c1, .up Exm.c2, .down Exm.c1] ∧ (∀ o ∈ [Op.up Exm.c1, .up Exm.c2, .down Exm.c1], o.conn.Plain) ∧
    (∀ o ∈ [Op.up Exm.c1, .up Exm.c2, .down Exm.c1], ∀ b ∈ Ex.dev.up o.conn ++ Ex.dev.down o.conn,
      Spares [[kVlans, "mgmt".toList, kVlanId, ['9']]] b) ∧
    Ex.dev.run [[kVlans, "mgmt".toList, kVlanId, ['9']]] [.up Exm.c1, .up Exm.c2, .down Exm.c1] =
      [[kVlans, "mgmt".toList, kVlanId, ['9']], [kVlans, "opennsa-120".toList, kVlanId, "120".toList], Ex.member ['i'] 120, Ex.member ['k'] 120] := by
  unfold Spares VConn.Plain Plain
  refine ⟨?_, by decide +kernel, by decide +kernel, by decide +kernel⟩
  simp only [Proper, Ex.Apart, List.nil_append]
  decide +kernel

/-! ### Juniper VPLS -/

/-- Connections with different ids that have no interface and vlan in common. -/
def Vpls.Apart (x y : VConn) : Prop :=
  x.id ≠ y.id ∧ ∀ s, (s = x.src ∨ s = x.dst) → ∀ t, (t = y.src ∨ t = y.dst) → s.port = t.port → s.vlan ≠ t.vlan

theorem singles_kw : singles.contains kFamily = false ∧ singles.contains kInterface = false ∧ singles.contains ['2'] = false ∧
    singles.contains kMembers = false := by
  decide

/-- The statements that are set for a connection. -/
theorem vpls_up {asn : Str} {c : VConn} (hp : c.Plain) {p : Path} (h : Cmd.set p ∈ (Vpls.dev asn).up c) :
    canon p = p ∧ c.src.vlan = c.dst.vlan ∧
    ((∃ r, p = kInterfaces :: c.src.port :: kUnit :: showInt c.dst.vlan :: r ∧ single p = false ∧ r ≠ []) ∨
     (∃ r, p = kInterfaces :: c.dst.port :: kUnit :: showInt c.dst.vlan :: r ∧ single p = false ∧ r ≠ []) ∨
     (∃ r, p = kRI :: c.id :: r ∧ (single p = false ∨ ∃ k, k ∈ [(kInstType, "vpls".toList), (kRouteDist, asn ++ ':' :: Vpls.uniqueId c.id),
      (kVrf, "target:".toList ++ asn ++ ':' :: Vpls.uniqueId c.id)] ∧ r = [k.1, k.2]))) := by
  obtain ⟨k1, k2, k3, _⟩ := singles_kw
  simp only [Vpls.dev, Vpls.setupLink] at h
  split at h
  · simp [sent] at h
  · rename_i hv
    simp only [ne_eq, Decidable.not_not] at hv
    simp only [sent, Vpls.configure, Vpls.unitUp, List.mem_cons, Cmd.set.injEq, List.not_mem_nil, or_false] at h
    rcases h with rfl | rfl | rfl | rfl | rfl | rfl | rfl | rfl | rfl | rfl
    · exact ⟨canon_interfaces hp.1 _, hv, Or.inl ⟨_, rfl, by simpa [single] using k1, by simp⟩⟩
    · exact ⟨canon_interfaces hp.2 _, hv, Or.inr (Or.inl ⟨_, rfl, by simpa [single] using k1, by simp⟩)⟩
    · exact ⟨canon_RI _, hv, Or.inr (Or.inr ⟨_, rfl, Or.inr ⟨_, List.mem_cons_self, rfl⟩⟩)⟩
    · exact ⟨canon_RI _, hv, Or.inr (Or.inr ⟨_, rfl, Or.inl (by simpa [single] using k2)⟩)⟩
    · exact ⟨canon_RI _, hv, Or.inr (Or.inr ⟨_, rfl, Or.inl (by simpa [single] using k2)⟩)⟩
    · exact ⟨canon_RI _, hv, Or.inr (Or.inr ⟨_, rfl, Or.inr ⟨_, List.mem_cons_of_mem _ List.mem_cons_self, rfl⟩⟩)⟩
    · exact ⟨canon_RI _, hv, Or.inr (Or.inr ⟨_, rfl, Or.inr ⟨_, List.mem_cons_of_mem _ (List.mem_cons_of_mem _ List.mem_cons_self), rfl⟩⟩)⟩
    · exact ⟨canon_RI _, hv, Or.inr (Or.inr ⟨_, rfl, Or.inl (by simpa [single] using k3)⟩)⟩
    · exact ⟨canon_RI _, hv, Or.inr (Or.inr ⟨_, rfl, Or.inl (by simpa [single] using k2)⟩)⟩
    · exact ⟨canon_RI _, hv, Or.inr (Or.inr ⟨_, rfl, Or.inl (by simpa [single] using k2)⟩)⟩

theorem vpls_down {asn : Str} {c : VConn} {p : Path} (hp : c.Plain) (h : Cmd.delete p ∈ (Vpls.dev asn).down c) :
    c.src.vlan = c.dst.vlan ∧
    (canon p = [kInterfaces, c.src.port, kUnit, showInt c.dst.vlan] ∨ canon p = [kInterfaces, c.dst.port, kUnit, showInt c.dst.vlan] ∨
      canon p = [kRI, c.id]) := by
  simp only [Vpls.dev, Vpls.teardownLink] at h
  split at h
  · simp [sent] at h
  · rename_i hv
    simp only [ne_eq, Decidable.not_not] at hv
    simp only [sent, Vpls.delete, List.mem_cons, Cmd.delete.injEq, List.not_mem_nil, or_false] at h
    rcases h with rfl | rfl | rfl
    · exact ⟨hv, Or.inl (canon_interfaces hp.1 _)⟩
    · exact ⟨hv, Or.inr (Or.inl (canon_interfaces hp.2 _))⟩
    · exact ⟨hv, Or.inr (Or.inr (canon_RIshort _ _))⟩

theorem vpls_sound (asn : Str) : Sound (Vpls.dev asn) Vpls.Apart VConn.Plain (fun _ => False) := by
  refine sound_of (fun _ _ => False) ?_ ?_ ?_ (fun _ _ h => h) ?_ ?_ ?_ ?_ ?_ ?_
  · intro c _ a ha
    simp only [Vpls.dev, Vpls.setupLink] at ha
    split at ha
    · simp [sent] at ha
    · simp only [sent, Vpls.configure, Vpls.unitUp, List.mem_cons, List.not_mem_nil, or_false] at ha
      rcases ha with rfl | rfl | rfl | rfl | rfl | rfl | rfl | rfl | rfl | rfl <;> exact ⟨_, rfl⟩
  · intro c _ a ha
    simp only [Vpls.dev, Vpls.teardownLink] at ha
    split at ha
    · simp [sent] at ha
    · simp only [sent, Vpls.delete, List.mem_cons, List.not_mem_nil, or_false] at ha
      rcases ha with rfl | rfl | rfl <;> exact ⟨_, rfl⟩
  · intro c hg p hp
    obtain ⟨h1, h3, h2⟩ := vpls_up hg hp
    have hd : (Vpls.dev asn).down c = Vpls.delete c.src.port c.dst.port c.dst.vlan c.id := by simp [Vpls.dev, Vpls.teardownLink, h3, sent]
    refine Or.inl ?_
    rw [h1, hd]
    rcases h2 with ⟨r, rfl, hs, _⟩ | ⟨r, rfl, hs, _⟩ | ⟨r, rfl, hs⟩
    · refine ⟨.delete [kInterfaces, c.src.port, kUnit, showInt c.dst.vlan], by simp [Vpls.delete], _, rfl, ?_⟩
      rw [canon_interfaces hg.1]
      exact ⟨⟨r, rfl⟩, by rw [hs]; simp⟩
    · refine ⟨.delete [kInterfaces, c.dst.port, kUnit, showInt c.dst.vlan], by simp [Vpls.delete], _, rfl, ?_⟩
      rw [canon_interfaces hg.2]
      exact ⟨⟨r, rfl⟩, by rw [hs]; simp⟩
    · refine ⟨.delete [kRIshort, c.id], by simp [Vpls.delete], _, rfl, ?_⟩
      rw [canon_RIshort]
      refine ⟨⟨r, rfl⟩, ?_⟩
      rcases hs with hs | ⟨k, _, rfl⟩
      · rw [hs]; simp
      · exact fun _ => ⟨[k.1], rfl⟩
  · intro c hg p p' hp hp' hs hd
    obtain ⟨h1, _, h2⟩ := vpls_up hg hp
    obtain ⟨h1', _, h2'⟩ := vpls_up hg hp'
    rw [h1] at hs hd ⊢; rw [h1'] at hd ⊢
    have hs' : single p' = true := by rw [single_parent hd.symm]; exact hs
    rcases h2 with ⟨r, rfl, h, _⟩ | ⟨r, rfl, h, _⟩ | ⟨r, rfl, h⟩
    · rw [hs] at h; simp at h
    · rw [hs] at h; simp at h
    · rcases h with h | ⟨k, hk, rfl⟩
      · rw [hs] at h; simp at h
      · rcases h2' with ⟨r', rfl, h, _⟩ | ⟨r', rfl, h, _⟩ | ⟨r', rfl, h⟩
        · rw [hs'] at h; simp at h
        · rw [hs'] at h; simp at h
        · rcases h with h | ⟨k', hk', rfl⟩
          · rw [hs'] at h; simp at h
          · simp at hd
            have e1 : kInstType ≠ kRouteDist := by decide
            have e2 : kInstType ≠ kVrf := by decide
            have e3 : kRouteDist ≠ kVrf := by decide
            simp only [List.mem_cons, List.not_mem_nil, or_false] at hk hk'
            rcases hk with rfl | rfl | rfl <;> rcases hk' with rfl | rfl | rfl <;> first | rfl | (exfalso; revert hd; simp [e1, e2, e3, e1.symm, e2.symm, e3.symm])
  · exact fun c h => h.1 rfl
  · exact fun x c h => ⟨h.1.symm, fun s hs t ht he hv => h.2 t ht s hs he.symm hv.symm⟩
  · intro x c hx hc ha p p' hp hp'
    obtain ⟨hv, h2⟩ := vpls_down hx hp
    obtain ⟨hv', h2'⟩ := vpls_down hc hp'
    obtain ⟨hid, he⟩ := ha
    have hk := kw_ne.2.2.1
    have key : ∀ s, (s = x.src ∨ s = x.dst) → ∀ t, (t = c.src ∨ t = c.dst) → s.port = t.port → showInt x.dst.vlan ≠ showInt c.dst.vlan := by
      intro s hs t ht hp h
      have h := showInt_inj h
      refine he s hs t ht hp ?_
      rcases hs with rfl | rfl <;> rcases ht with rfl | rfl <;> simp_all
    rcases h2 with h2 | h2 | h2 <;> rcases h2' with h2' | h2' | h2' <;> rw [h2, h2'] <;> intro hpre
    · simp only [List.cons_prefix_cons] at hpre
      exact key _ (Or.inl rfl) _ (Or.inl rfl) hpre.2.1 hpre.2.2.2.1
    · simp only [List.cons_prefix_cons] at hpre
      exact key _ (Or.inl rfl) _ (Or.inr rfl) hpre.2.1 hpre.2.2.2.1
    · exact hk (List.cons_prefix_cons.1 hpre).1
    · simp only [List.cons_prefix_cons] at hpre
      exact key _ (Or.inr rfl) _ (Or.inl rfl) hpre.2.1 hpre.2.2.2.1
    · simp only [List.cons_prefix_cons] at hpre
      exact key _ (Or.inr rfl) _ (Or.inr rfl) hpre.2.1 hpre.2.2.2.1
    · exact hk (List.cons_prefix_cons.1 hpre).1
    · exact hk (List.cons_prefix_cons.1 hpre).1.symm
    · exact hk (List.cons_prefix_cons.1 hpre).1.symm
    · simp only [List.cons_prefix_cons] at hpre
      exact hid hpre.2.1
  · exact fun _ _ _ _ _ _ _ _ h => h.elim
  · exact fun _ _ _ _ _ _ _ h => h.elim

/-- C66 for Juniper VPLS: after any sequence of set ups and tear downs of connections with different ids and no interface and vlan in
common, the router is configured exactly as if only the connections that are up had ever been set up. -/
theorem C66_vpls (asn : Str) (base : List Path) (ops : List (Op VConn)) (hp : Proper Vpls.Apart [] ops) (hi : ∀ o ∈ ops, o.conn.Plain)
    (hb : ∀ o ∈ ops, ∀ b ∈ (Vpls.dev asn).up o.conn ++ (Vpls.dev asn).down o.conn, Spares base b) (q : Path) :
    q ∈ (Vpls.dev asn).run base ops ↔ q ∈ (Vpls.dev asn).run base ((upAfter [] ops).map Op.up) := by
  have h := run_as_up (vpls_sound asn) base ops hp hi hb
  exact ⟨fun hq => (h.2 q hq).elim id False.elim, h.1 q⟩

/-- Hypotheses of `C66_vpls` hold for two connections that share interface `i` with different vlans; after taking the first one
down the nine statements of the second are left. -/
example : Proper Vpls.Apart [] [.up Exm.c1, .up Exm.c2, .down Exm.c1] ∧
    ((Vpls.dev ['7']).run [] [.up Exm.c1, .up Exm.c2, .down Exm.c1]).length = 10 := by
  refine ⟨?_, by decide +kernel⟩
  simp only [Proper, Vpls.Apart, List.nil_append]
  refine ⟨by simp, ?_, by decide, trivial⟩
  simp [Exm.c1, Exm.c2]

/-- The characters of the id from which the route distinguisher is made, for the ids of the Canarie plugin. -/
theorem uniqueId_canarie {s : Str} (h : 5 ≤ s.length) :
    Vpls.uniqueId (s.take 5 ++ ['C', 'S'] ++ s.drop 5 ++ ['-', 'A', 'N', 'A']) = s.take 5 ++ (s.drop 5 ++ ['-', 'A', 'N', 'A']).take 2 := by
  match s, h with
  | a :: b :: c :: d :: e :: r, _ => rfl

/-- C66 for Juniper VPLS with the Canarie plugin, for serial numbers of five to seven digits: connections with different serial numbers
have different route distinguishers and targets. Missing: longer numbers, see `C66_vpls_target_fails`. -/
theorem C66_vpls_target_partial (n m : Nat) (hn : 5 ≤ (showNat n).length ∧ (showNat n).length ≤ 7)
    (hm : 5 ≤ (showNat m).length ∧ (showNat m).length ≤ 7) (hne : n ≠ m) (x y : Str)
    (hx : Plugin.canarieConnectionId (some n) = some x) (hy : Plugin.canarieConnectionId (some m) = some y) :
    Vpls.uniqueId x ≠ Vpls.uniqueId y := by
  simp only [Plugin.canarieConnectionId, Option.some.injEq] at hx hy
  subst hx; subst hy
  rw [uniqueId_canarie hn.1, uniqueId_canarie hm.1]
  intro h
  obtain ⟨h1, h2⟩ := List.append_inj h (by simp [List.length_take]; omega)
  refine hne (Plugin.showNat_inj ?_)
  have dash : ∀ k, '-' ∉ (showNat k).drop 5 := by
    intro k hm
    obtain ⟨d, hd, he⟩ := showNat_digits k '-' (List.mem_of_mem_drop hm)
    have : ∀ d, d < 10 → '-' ≠ digitChar d := by decide
    exact this d hd he
  rw [← List.take_append_drop 5 (showNat n), ← List.take_append_drop 5 (showNat m), h1]
  congr 1
  have ln : ((showNat n).drop 5).length ≤ 2 := by rw [List.length_drop]; omega
  have lm : ((showNat m).drop 5).length ≤ 2 := by rw [List.length_drop]; omega
  have dn := dash n
  have dm := dash m
  generalize (showNat n).drop 5 = a at *
  generalize (showNat m).drop 5 = b at *
  match a, b with
  | [], [] => rfl
  | [], [x] => simp at h2
  | [], [x, y] => simp at h2; simp at dm; exact absurd h2.1 dm.1
  | [x], [] => simp at h2
  | [x, y], [] => simp at h2; simp at dn; exact absurd h2.1.symm dn.1
  | [x], [y] => simpa using h2
  | [x], [y, z] => simp at h2; simp at dm; exact absurd h2.2 dm.2
  | [x, y], [z] => simp at h2; simp at dn; exact absurd h2.2.symm dn.2
  | [x, y], [z, u] => simpa using h2
  | _ :: _ :: _ :: _, _ => simp at ln
  | _, _ :: _ :: _ :: _ => simp at lm

/-- Hypotheses of `C66_vpls_target_partial` hold for 1234567 and 1234568. -/
example : (showNat 1234567).length = 7 ∧ Plugin.canarieConnectionId (some 1234567) = some "12345CS67-ANA".toList ∧
    Vpls.uniqueId "12345CS67-ANA".toList = "1234567".toList := by decide +kernel

/-- C66 is violated for Juniper VPLS in another way: the route distinguisher and the target are made from the first five and two more characters
of the connection id (junipervpls.py:304), so that two connections, which are up at the same time, join the same VPLS. Here the
ids are those of the Canarie plugin for the serial numbers 20130011 and 20130012. -/
theorem C66_vpls_target_fails : ∃ (x y : VConn) (asn rd vrf : Str), Plugin.canarieConnectionId (some 20130011) = some x.id ∧
    Plugin.canarieConnectionId (some 20130012) = some y.id ∧ Vpls.Apart x y ∧ x.Plain ∧ y.Plain ∧
    ∀ q ∈ [[kRI, x.id, kRouteDist, rd], [kRI, y.id, kRouteDist, rd], [kRI, x.id, kVrf, vrf], [kRI, y.id, kVrf, vrf]],
      q ∈ (Vpls.dev asn).run [] [.up x, .up y] := by
  refine ⟨⟨"20130CS011-ANA".toList, ⟨['i'], 12⟩, ⟨['j'], 12⟩⟩, ⟨"20130CS012-ANA".toList, ⟨['i'], 120⟩, ⟨['k'], 120⟩⟩, "65000".toList, "65000:2013001".toList,
    "target:65000:2013001".toList, by decide +kernel, by decide +kernel, ?_, ?_, ?_, by decide +kernel⟩
  · refine ⟨by decide, ?_⟩
    simp
  · unfold VConn.Plain Plain; decide +kernel
  · unfold VConn.Plain Plain; decide +kernel

end OpenNSA.Device
