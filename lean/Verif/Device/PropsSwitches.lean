import Verif.Device.Switches
import Verif.Device.PropsConfig
/-
C66 for the devices that are not configured with statements.
-/
namespace OpenNSA.Device
open Py OpenNSA.Backend

/-! ### Specification -/

/-- The device after the operations. -/
def runOps {C S : Type} (up down : C → S → S) (s : S) : List (Op C) → S
  | [] => s
  | .up c :: ops => runOps up down (up c s) ops
  | .down c :: ops => runOps up down (down c s) ops

/-- A target of brocade.py:219. -/
def Brocade.target (t : VlanTarget) : Str := t.port ++ '.' :: showInt t.vlan

/-- `getTarget` makes such targets. -/
theorem brocade_getTarget {pm : PortMap} {port : Str} {v : Int} {p : DPort} (h : dget pm port = some p) :
    Brocade.getTarget pm port (some (tVlan, v)) = .ok (Brocade.target ⟨p.interface, v⟩) := by
  simp [Brocade.getTarget, Brocade.target, lookup, h, lvText, bind, Except.bind]

/-- Setting up a connection, brocade.py:230-239. -/
def Brocade.up (c : VConn) (w : List (Int × BVlan)) : List (Int × BVlan) :=
  Brocade.session w (Brocade.setup (Brocade.target c.src) (Brocade.target c.dst))

/-- Taking a connection down, brocade.py:242-251. -/
def Brocade.down (c : VConn) (w : List (Int × BVlan)) : List (Int × BVlan) :=
  Brocade.session w (Brocade.teardown (Brocade.target c.src) (Brocade.target c.dst))

/-- Setting up a connection, pica8ovs.py:229-236. -/
def Pica.up (c : VConn) (w : PSwitch) : PSwitch := Pica.session w (Pica.configure c.src.port c.dst.port c.src.vlan c.dst.vlan)

/-- Taking a connection down, pica8ovs.py:239-246. -/
def Pica.down (c : VConn) (w : PSwitch) : PSwitch := Pica.session w (Pica.delete c.src.port c.dst.port c.src.vlan c.dst.vlan)

/-- The ends of a connection. -/
def VConn.ends (c : VConn) : List VlanTarget := [c.src, c.dst]

/-! ### Devices with entries by key -/

/-- Connections write the entries of their keys, and clear them. -/
theorem keyed_run {C S K V : Type} [DecidableEq C] {up down : C → S → S} {get : S → K → Option V} {keys : C → K → Prop} {val : C → K → Option V → Prop}
    {apart : C → C → Prop} {good : C → Prop}
    (hup : ∀ c s, good c → (∀ k, keys c k → get s k = none) → ∀ k, (keys c k → val c k (get (up c s) k)) ∧ (¬ keys c k → get (up c s) k = get s k))
    (hdown : ∀ c s, good c → ∀ k, (keys c k → get (down c s) k = none) ∧ (¬ keys c k → get (down c s) k = get s k))
    (hap : ∀ x c, good x → good c → apart x c → ∀ k, keys x k → ¬ keys c k) (hirr : ∀ c, good c → ¬ apart c c) (base : S) :
    ∀ (ops : List (Op C)) (s : S) (l : List C), Proper apart l ops → (∀ o ∈ ops, good o.conn) → (∀ o ∈ ops, ∀ k, keys o.conn k → get base k = none) →
      l.Pairwise apart → (∀ c ∈ l, good c) → (∀ c ∈ l, ∀ k, keys c k → get base k = none) →
      (∀ c ∈ l, ∀ k, keys c k → val c k (get s k)) → (∀ k, (∀ c ∈ l, ¬ keys c k) → get s k = get base k) →
      (∀ c ∈ upAfter l ops, ∀ k, keys c k → val c k (get (runOps up down s ops) k)) ∧
      ∀ k, (∀ c ∈ upAfter l ops, ¬ keys c k) → get (runOps up down s ops) k = get base k := by
  intro ops
  induction ops with
  | nil => exact fun s l _ _ _ _ _ _ h1 h2 => ⟨h1, h2⟩
  | cons o ops ih =>
    intro s l hp hg hb hpw hgl hbl h1 h2
    have hg' : ∀ o ∈ ops, good o.conn := fun x hx => hg x (List.mem_cons_of_mem _ hx)
    have hb' : ∀ o ∈ ops, ∀ k, keys o.conn k → get base k = none := fun x hx => hb x (List.mem_cons_of_mem _ hx)
    have hg0 := hg o List.mem_cons_self
    have hb0 := hb o List.mem_cons_self
    cases o with
    | up c =>
      obtain ⟨hp1, hp2⟩ := hp
      have hfree : ∀ k, keys c k → get s k = none := by
        intro k hk
        rw [h2 k fun x hx hxk => hap x c (hgl x hx) hg0 (hp1 x hx) k hxk hk]
        exact hb0 k hk
      have hu := hup c s hg0 hfree
      refine ih (up c s) (l ++ [c]) hp2 hg' hb' ?_ ?_ ?_ ?_ ?_
      · rw [List.pairwise_append]
        refine ⟨hpw, List.pairwise_singleton _ _, ?_⟩
        intro x hx y hy
        simp only [List.mem_singleton] at hy; subst hy
        exact hp1 x hx
      · intro x hx
        rcases List.mem_append.1 hx with hx | hx
        · exact hgl x hx
        · simp only [List.mem_singleton] at hx; subst hx; exact hg0
      · intro x hx
        rcases List.mem_append.1 hx with hx | hx
        · exact hbl x hx
        · simp only [List.mem_singleton] at hx; subst hx; exact hb0
      · intro x hx k hk
        rcases List.mem_append.1 hx with hx | hx
        · rw [(hu k).2 (hap x c (hgl x hx) hg0 (hp1 x hx) k hk)]
          exact h1 x hx k hk
        · simp only [List.mem_singleton] at hx; subst hx
          exact (hu k).1 hk
      · intro k hk
        rw [(hu k).2 (hk c (by simp))]
        exact h2 k fun x hx => hk x (List.mem_append_left _ hx)
    | down c =>
      obtain ⟨hp1, hp2⟩ := hp
      have hd := hdown c s hg0
      have hnd : l.Nodup := List.Pairwise.imp_of_mem (fun {a b} ha _ hab => by rintro rfl; exact hirr a (hgl a ha) hab) hpw
      have key : ∀ l : List C, l.Pairwise apart → ∀ a ∈ l, ∀ b ∈ l, a ≠ b → apart a b ∨ apart b a := by
        intro l hl
        induction hl with
        | nil => simp
        | cons hr _ ih =>
          intro a ha b hb hne
          rcases List.mem_cons.1 ha with rfl | ha' <;> rcases List.mem_cons.1 hb with rfl | hb'
          · exact absurd rfl hne
          · exact Or.inl (hr b hb')
          · exact Or.inr (hr a ha')
          · exact ih a ha' b hb' hne
      have hne : ∀ x ∈ l.erase c, x ∈ l ∧ ∀ k, keys x k → ¬ keys c k := by
        intro x hx
        rw [hnd.mem_erase_iff] at hx
        refine ⟨hx.2, fun k hk hkc => ?_⟩
        rcases key l hpw x hx.2 c hp1 hx.1 with h | h
        · exact hap x c (hgl x hx.2) hg0 h k hk hkc
        · exact hap c x hg0 (hgl x hx.2) h k hkc hk
      refine ih (down c s) (l.erase c) hp2 hg' hb' (hpw.sublist List.erase_sublist) (fun x hx => hgl x (hne x hx).1)
        (fun x hx => hbl x (hne x hx).1) ?_ ?_
      · intro x hx k hk
        rw [(hd k).2 ((hne x hx).2 k hk)]
        exact h1 x (hne x hx).1 k hk
      · intro k hk
        by_cases hkc : keys c k
        · rw [(hd k).1 hkc]
          exact (hb0 k hkc).symm
        · rw [(hd k).2 hkc]
          refine h2 k fun x hx hxk => ?_
          by_cases hxc : x = c
          · subst hxc; exact hkc hxk
          · exact hk x ((hnd.mem_erase_iff).2 ⟨hxc, hx⟩) hxk

/-! ### Brocade -/

theorem showInt_no_dot (v : Int) : '.' ∉ showInt v := by
  intro h
  rcases showInt_chars h with h | ⟨d, hd, h⟩
  · exact absurd h (by decide)
  · have : ∀ d < 10, '.' ≠ digitChar d := by decide
    exact this d hd h

theorem brocade_portVlan {t : VlanTarget} (h : Plain t.port) : Brocade.portVlan (Brocade.target t) = .ok (t.port, t.vlan) := by
  unfold Brocade.portVlan Brocade.target
  rw [splitOn_two h (showInt_no_dot _)]
  simp only [pyInt_showInt]

/-- Interfaces without full stop, and one vlan (brocade.py:226-227: labels are not swapped). -/
def Brocade.Good (c : VConn) : Prop := c.Plain ∧ c.src.vlan = c.dst.vlan

theorem brocade_up {c : VConn} (h : Brocade.Good c) {w : List (Int × BVlan)} (hf : dget w c.src.vlan = none) (v : Int) :
    (v = c.src.vlan → ∃ e, dget (Brocade.up c w) v = some e ∧ ∀ p, p ∈ e.ports ↔ p = c.src.port ∨ p = c.dst.port) ∧
    (v ≠ c.src.vlan → dget (Brocade.up c w) v = dget w v) := by
  have hc : Brocade.setup (Brocade.target c.src) (Brocade.target c.dst) =
      .ok [.vlan c.src.vlan ("opennsa-".toList ++ showInt c.src.vlan), .tagged c.src.port, .tagged c.dst.port] := by
    simp [Brocade.setup, brocade_portVlan h.1.1, brocade_portVlan h.1.2, bind, Except.bind, h.2]
  unfold Brocade.up Brocade.session
  rw [hc]
  simp only [List.foldl_cons, List.foldl_nil, BCmd.run, hf, dget_dset, if_true, List.contains_nil, Bool.false_eq_true, if_false, List.nil_append]
  refine ⟨?_, ?_⟩
  · rintro rfl
    simp only [if_true]
    refine ⟨_, rfl, fun p => ?_⟩
    by_cases he : c.dst.port = c.src.port
    · simp [he]
    · simp [he]
  · intro hv
    simp [Ne.symm hv]

theorem brocade_down {c : VConn} (h : Brocade.Good c) {w : List (Int × BVlan)} (v : Int) :
    dget (Brocade.down c w) v = if v = c.src.vlan then none else dget w v := by
  have hc : Brocade.teardown (Brocade.target c.src) (Brocade.target c.dst) = .ok [.noVlan c.src.vlan] := by
    simp [Brocade.teardown, brocade_portVlan h.1.1, brocade_portVlan h.1.2, bind, Except.bind, h.2]
  unfold Brocade.down Brocade.session
  rw [hc]
  simp only [List.foldl_cons, List.foldl_nil, BCmd.run, dget_ddel]
  by_cases hv : v = c.src.vlan
  · simp [hv]
  · simp [hv, Ne.symm hv]

/-- C66 for Brocade: after any sequence of set ups and tear downs of connections with different vlans, each connection that is up has a vlan with
exactly its two interfaces, and all other vlans are as before. (`base` has none of the vlans: a vlan that exists is not booked.) -/
theorem C66_brocade (base : List (Int × BVlan)) (ops : List (Op VConn)) (hp : Proper (fun x y => x.src.vlan ≠ y.src.vlan) [] ops)
    (hg : ∀ o ∈ ops, Brocade.Good o.conn) (hb : ∀ o ∈ ops, dget base o.conn.src.vlan = none) :
    (∀ c ∈ upAfter [] ops, ∃ e, dget (runOps Brocade.up Brocade.down base ops) c.src.vlan = some e ∧
      ∀ p, p ∈ e.ports ↔ p = c.src.port ∨ p = c.dst.port) ∧
    ∀ v, (∀ c ∈ upAfter [] ops, c.src.vlan ≠ v) → dget (runOps Brocade.up Brocade.down base ops) v = dget base v := by
  have h := keyed_run (up := Brocade.up) (down := Brocade.down) (get := fun s k => dget s k) (keys := fun c k => k = c.src.vlan)
    (val := fun c _ e => ∃ x, e = some x ∧ ∀ p, p ∈ x.ports ↔ p = c.src.port ∨ p = c.dst.port)
    (apart := fun x y => x.src.vlan ≠ y.src.vlan) (good := Brocade.Good)
    (fun c s hc hf k => brocade_up hc (hf _ rfl) k)
    (fun c s hc k => by
      rw [brocade_down hc]
      exact ⟨fun h => if_pos h, fun h => if_neg h⟩)
    (fun x c _ _ ha k hx hc => ha (hx.symm.trans hc)) (fun c _ h => h rfl) base ops base [] hp hg
    (fun o ho k hk => by subst hk; exact hb o ho) List.Pairwise.nil (by simp) (by simp) (by simp) (fun _ _ => rfl)
  exact ⟨fun c hc => h.1 c hc _ rfl, fun v hv => h.2 v fun c hc he => hv c hc he.symm⟩

/-- Hypotheses of `C66_brocade` hold; vlan 12 is gone, vlan 120 and the vlan 9 of somebody else are there. -/
example : Proper (fun x y : VConn => x.src.vlan ≠ y.src.vlan) [] [.up Exm.c1, .up Exm.c2, .down Exm.c1] ∧
    (∀ o ∈ [Op.up Exm.c1, .up Exm.c2, .down Exm.c1], Brocade.Good o.conn) ∧
    (∀ o ∈ [Op.up Exm.c1, .up Exm.c2, .down Exm.c1], dget [((9 : Int), BVlan.mk ['m'] [['i']])] o.conn.src.vlan = none) ∧
    runOps Brocade.up Brocade.down [(9, ⟨['m'], [['i']]⟩)] [.up Exm.c1, .up Exm.c2, .down Exm.c1] =
      [(9, ⟨['m'], [['i']]⟩), (120, ⟨"opennsa-120".toList, [['i'], ['k']]⟩)] := by
  unfold Brocade.Good VConn.Plain Plain
  refine ⟨?_, by decide +kernel, by decide +kernel, by decide +kernel⟩
  simp only [Proper, List.nil_append]
  decide +kernel

/-! ### Pica8 -/

/-- What is stored in the switch: a vlan on a port, or the flow for a port number and a vlan. -/
inductive PKey
  | trunk (port : Str) (v : Int)
  | flow (inPort v : Int)
  deriving DecidableEq, Repr

/-- What the switch has under a key. -/
def PSwitch.get (w : PSwitch) : PKey → Option (Option Flow)
  | .trunk p v => if (p, v) ∈ w.trunks then some none else none
  | .flow i v => (dget w.flows (i, v)).map some

/-- Interfaces have numbers, and the two ends are different. `num` is the numbering of the interfaces. -/
structure Pica.Good (num : Str → Int) (c : VConn) : Prop where
  src : Pica.flowPort c.src.port = .ok (num c.src.port)
  dst : Pica.flowPort c.dst.port = .ok (num c.dst.port)
  ne : c.src ≠ c.dst

/-- No end in common. -/
def EndsApart (x y : VConn) : Prop := ∀ s ∈ x.ends, ∀ t ∈ y.ends, s ≠ t

/-- The keys of an end. -/
def Pica.keysOf (num : Str → Int) (t : VlanTarget) (k : PKey) : Prop := k = .trunk t.port t.vlan ∨ k = .flow (num t.port) t.vlan

/-- The flow from one end to another. -/
def Pica.flowTo (num : Str → Int) (s t : VlanTarget) : Flow := ⟨num t.port, if s.vlan = t.vlan then none else some t.vlan⟩

theorem get_addTrunk (w : PSwitch) (p : Str) (v : Int) (k : PKey) :
    (PCmd.run w (.addTrunk p v)).get k = if k = .trunk p v then some none else w.get k := by
  cases k with
  | trunk q u =>
    simp only [PCmd.run, PSwitch.get, PKey.trunk.injEq, List.contains_iff_mem]
    split <;> rename_i h
    · by_cases h1 : q = p ∧ u = v
      · obtain ⟨rfl, rfl⟩ := h1; simp [h]
      · simp [h1]
    · by_cases h1 : q = p ∧ u = v
      · obtain ⟨rfl, rfl⟩ := h1; simp
      · simp [h1]
  | flow i u => simp [PCmd.run, PSwitch.get]

theorem get_removeTrunk (w : PSwitch) (p : Str) (v : Int) (k : PKey) :
    (PCmd.run w (.removeTrunk p v)).get k = if k = .trunk p v then none else w.get k := by
  cases k with
  | trunk q u =>
    simp only [PCmd.run, PSwitch.get, PKey.trunk.injEq, List.mem_filter, ne_eq, decide_not, Bool.not_eq_true', decide_eq_false_iff_not, Prod.mk.injEq]
    by_cases h1 : q = p ∧ u = v
    · simp [h1]
    · simp [h1]
  | flow i u => simp [PCmd.run, PSwitch.get]

theorem get_addFlow (w : PSwitch) (i v : Int) (f : Flow) (k : PKey) :
    (PCmd.run w (.addFlow i v f)).get k = if k = .flow i v then some (some f) else w.get k := by
  cases k with
  | trunk q u => by_cases h : (q, u) ∈ w.trunks <;> simp [PCmd.run, PSwitch.get, h]
  | flow j u =>
    simp only [PCmd.run, PSwitch.get, PKey.flow.injEq, dget_dset, Prod.mk.injEq]
    by_cases h1 : j = i ∧ u = v
    · simp [h1]
    · have : ¬ (i = j ∧ v = u) := fun h => h1 ⟨h.1.symm, h.2.symm⟩
      simp [h1, this]

theorem get_delFlow (w : PSwitch) (i v : Int) (k : PKey) :
    (PCmd.run w (.delFlow i v)).get k = if k = .flow i v then none else w.get k := by
  cases k with
  | trunk q u => by_cases h : (q, u) ∈ w.trunks <;> simp [PCmd.run, PSwitch.get, h]
  | flow j u =>
    simp only [PCmd.run, PSwitch.get, PKey.flow.injEq, dget_ddel, Prod.mk.injEq]
    by_cases h1 : j = i ∧ u = v
    · simp [h1]
    · have : ¬ (i = j ∧ v = u) := fun h => h1 ⟨h.1.symm, h.2.symm⟩
      simp [h1, this]

theorem pica_up {num : Str → Int} {c : VConn} (h : Pica.Good num c) (w : PSwitch) (k : PKey) :
    (Pica.up c w).get k =
      if k = .flow (num c.dst.port) c.dst.vlan then some (some (Pica.flowTo num c.dst c.src))
      else if k = .flow (num c.src.port) c.src.vlan then some (some (Pica.flowTo num c.src c.dst))
      else if k = .trunk c.dst.port c.dst.vlan then some none
      else if k = .trunk c.src.port c.src.vlan then some none else w.get k := by
  unfold Pica.up Pica.session Pica.configure
  simp only [h.src, h.dst, bind, Except.bind]
  by_cases hv : c.src.vlan = c.dst.vlan
  · simp [hv, get_addTrunk, get_addFlow, Pica.flowTo]
  · simp [hv, Ne.symm hv, get_addTrunk, get_addFlow, Pica.flowTo]

open Classical in
theorem pica_down {num : Str → Int} {c : VConn} (h : Pica.Good num c) (w : PSwitch) (k : PKey) :
    (Pica.down c w).get k = if ∃ t ∈ c.ends, Pica.keysOf num t k then none else w.get k := by
  unfold Pica.down Pica.session Pica.delete
  simp only [h.src, h.dst, bind, Except.bind, List.foldl_cons, List.foldl_nil, get_removeTrunk, get_delFlow, VConn.ends, List.mem_cons,
    List.not_mem_nil, or_false, exists_eq_or_imp, exists_eq_left, Pica.keysOf]
  by_cases h1 : k = .trunk c.dst.port c.dst.vlan
  · simp [h1]
  · by_cases h2 : k = .trunk c.src.port c.src.vlan
    · simp [h2]
    · by_cases h3 : k = .flow (num c.dst.port) c.dst.vlan
      · simp [h3]
      · by_cases h4 : k = .flow (num c.src.port) c.src.vlan
        · simp [h4]
        · simp [h1, h2, h3, h4]

/-- C66 for Pica8: after any sequence of set ups and tear downs of connections between different ends, frames of each connection that is up
go from one end to the other in both directions, with the vlan changed if the ends have different ones, its ports carry the
vlans, and everything else is as before. Missing: interfaces with the same third number (`hinj`), see `C66_pica_fails`. -/
theorem C66_pica_partial (num : Str → Int) (base : PSwitch) (ops : List (Op VConn)) (hp : Proper EndsApart [] ops)
    (hg : ∀ o ∈ ops, Pica.Good num o.conn)
    (hinj : ∀ o ∈ ops, ∀ s ∈ o.conn.ends, ∀ o' ∈ ops, ∀ t ∈ o'.conn.ends, num s.port = num t.port → s.port = t.port)
    (hb : ∀ o ∈ ops, ∀ t ∈ o.conn.ends, (t.port, t.vlan) ∉ base.trunks ∧ dget base.flows (num t.port, t.vlan) = none) :
    (∀ c ∈ upAfter [] ops, ∀ s t, (s, t) = (c.src, c.dst) ∨ (s, t) = (c.dst, c.src) →
      (s.port, s.vlan) ∈ (runOps Pica.up Pica.down base ops).trunks ∧
      dget (runOps Pica.up Pica.down base ops).flows (num s.port, s.vlan) = some ⟨num t.port, if s.vlan = t.vlan then none else some t.vlan⟩) ∧
    (∀ p v, (∀ c ∈ upAfter [] ops, ∀ t ∈ c.ends, ¬ (t.port = p ∧ t.vlan = v)) →
      ((p, v) ∈ (runOps Pica.up Pica.down base ops).trunks ↔ (p, v) ∈ base.trunks)) ∧
    ∀ n v, (∀ c ∈ upAfter [] ops, ∀ t ∈ c.ends, ¬ (num t.port = n ∧ t.vlan = v)) →
      dget (runOps Pica.up Pica.down base ops).flows (n, v) = dget base.flows (n, v) := by
  have hsep : ∀ x c : VConn, (∃ o ∈ ops, o.conn = x) → (∃ o ∈ ops, o.conn = c) → ∀ s ∈ x.ends, ∀ t ∈ c.ends, ∀ k,
      Pica.keysOf num s k → Pica.keysOf num t k → s = t := by
    rintro _ _ ⟨o, ho, rfl⟩ ⟨o', ho', rfl⟩ s hs t ht k h1 h2
    have key : s.port = t.port → s.vlan = t.vlan → s = t := by
      intro h1 h2
      cases s; cases t
      simp only at h1 h2
      rw [h1, h2]
    rcases h1 with rfl | rfl <;> rcases h2 with h2 | h2
    · simp only [PKey.trunk.injEq] at h2; exact key h2.1 h2.2
    · simp at h2
    · simp at h2
    · simp only [PKey.flow.injEq] at h2
      exact key (hinj o ho s hs o' ho' t ht h2.1) h2.2
  have h := keyed_run (up := Pica.up) (down := Pica.down) (get := PSwitch.get) (keys := fun c k => ∃ t ∈ c.ends, Pica.keysOf num t k)
    (val := fun c k e => ∀ s t, (s, t) = (c.src, c.dst) ∨ (s, t) = (c.dst, c.src) → Pica.keysOf num s k →
      (k = .trunk s.port s.vlan → e = some none) ∧ (k = .flow (num s.port) s.vlan → e = some (some (Pica.flowTo num s t))))
    (apart := EndsApart) (good := fun c => Pica.Good num c ∧ ∃ o ∈ ops, o.conn = c)
    (fun c s hc _ k => by
      rw [pica_up hc.1]
      have hne := hc.1.ne
      refine ⟨?_, ?_⟩
      · rintro _ a b hab _
        rcases hab with hab | hab
        · simp only [Prod.mk.injEq] at hab
          obtain ⟨rfl, rfl⟩ := hab
          refine ⟨fun hk => by subst hk; simp, fun hk => ?_⟩
          have : k ≠ .flow (num c.dst.port) c.dst.vlan := by
            intro h2
            exact hne (hsep c c hc.2 hc.2 c.src (by simp [VConn.ends]) c.dst (by simp [VConn.ends]) k (Or.inr hk) (Or.inr h2))
          rw [if_neg this, if_pos hk]
        · simp only [Prod.mk.injEq] at hab
          obtain ⟨rfl, rfl⟩ := hab
          refine ⟨fun hk => by subst hk; simp, fun hk => ?_⟩
          rw [if_pos hk]
      · intro hk
        simp only [VConn.ends, List.mem_cons, List.not_mem_nil, or_false, exists_eq_or_imp, exists_eq_left, Pica.keysOf, not_or] at hk
        simp [hk])
    (fun c s hc k => by
      rw [pica_down hc.1]
      exact ⟨fun h => if_pos h, fun h => if_neg h⟩)
    (fun x c hx hc ha k => by
      rintro ⟨s, hs, h1⟩ ⟨t, ht, h2⟩
      exact ha s hs t ht (hsep x c hx.2 hc.2 s hs t ht k h1 h2))
    (fun c _ h => h c.src (by simp [VConn.ends]) c.src (by simp [VConn.ends]) rfl)
    base ops base [] hp (fun o ho => ⟨hg o ho, o, ho, rfl⟩)
    (fun o ho k => by
      rintro ⟨t, ht, rfl | rfl⟩
      · simp [PSwitch.get, (hb o ho t ht).1]
      · simp [PSwitch.get, (hb o ho t ht).2])
    List.Pairwise.nil (by simp) (by simp) (by simp) (fun _ _ => rfl)
  refine ⟨?_, ?_, ?_⟩
  · intro c hc s t hst
    have hs : s ∈ c.ends := by
      rcases hst with h | h <;> (simp only [Prod.mk.injEq] at h; simp [VConn.ends, h.1])
    have h1 := (h.1 c hc (.trunk s.port s.vlan) ⟨s, hs, Or.inl rfl⟩ s t hst (Or.inl rfl)).1 rfl
    have h2 := (h.1 c hc (.flow (num s.port) s.vlan) ⟨s, hs, Or.inr rfl⟩ s t hst (Or.inr rfl)).2 rfl
    refine ⟨?_, ?_⟩
    · simpa [PSwitch.get] using h1
    · simpa [PSwitch.get, Pica.flowTo] using h2
  · intro p v hn
    have := h.2 (.trunk p v) (by
      rintro c hc ⟨t, ht, hk | hk⟩
      · simp only [PKey.trunk.injEq] at hk; exact hn c hc t ht ⟨hk.1.symm, hk.2.symm⟩
      · simp at hk)
    simp only [PSwitch.get] at this
    by_cases h1 : (p, v) ∈ base.trunks <;> by_cases h2 : (p, v) ∈ (runOps Pica.up Pica.down base ops).trunks <;> simp_all
  · intro n v hn
    have := h.2 (.flow n v) (by
      rintro c hc ⟨t, ht, hk | hk⟩
      · simp at hk
      · simp only [PKey.flow.injEq] at hk; exact hn c hc t ht ⟨hk.1.symm, hk.2.symm⟩)
    simp only [PSwitch.get] at this
    exact Option.map_injective (fun _ _ h => Option.some.inj h) this

/-- Example connections on a Pica8: vlan 12 on the first port to vlan 13 on the second one, and vlan 14 between the first and the third one. -/
def Exm.p1 : VConn := ⟨['1'], ⟨"ge-1/1/1".toList, 12⟩, ⟨"ge-1/1/2".toList, 13⟩⟩
/-- See `Exm.p1`. -/
def Exm.p2 : VConn := ⟨['2'], ⟨"ge-1/1/1".toList, 14⟩, ⟨"ge-1/1/3".toList, 14⟩⟩
/-- The numbers of the interfaces of the examples. -/
def Exm.num (p : Str) : Int := match Pica.flowPort p with
  | .ok n => n
  | .error _ => 0

/-- Hypotheses of `C66_pica_partial` hold; the flows of the first connection are gone. -/
example : Proper EndsApart [] [.up Exm.p1, .up Exm.p2, .down Exm.p1] ∧
    (∀ o ∈ [Op.up Exm.p1, .up Exm.p2, .down Exm.p1], Pica.Good Exm.num o.conn) ∧
    (∀ o ∈ [Op.up Exm.p1, .up Exm.p2, .down Exm.p1], ∀ s ∈ o.conn.ends, ∀ o' ∈ [Op.up Exm.p1, .up Exm.p2, .down Exm.p1], ∀ t ∈ o'.conn.ends,
      Exm.num s.port = Exm.num t.port → s.port = t.port) ∧
    (∀ o ∈ [Op.up Exm.p1, .up Exm.p2, .down Exm.p1], ∀ t ∈ o.conn.ends, (t.port, t.vlan) ∉ ([] : List (Str × Int)) ∧
      dget ([] : List ((Int × Int) × Flow)) (Exm.num t.port, t.vlan) = none) ∧
    runOps Pica.up Pica.down ⟨[], []⟩ [.up Exm.p1, .up Exm.p2, .down Exm.p1] =
      ⟨[("ge-1/1/1".toList, 14), ("ge-1/1/3".toList, 14)], [((129, 14), ⟨131, none⟩), ((131, 14), ⟨129, none⟩)]⟩ := by
  refine ⟨?_, ?_, by decide +kernel, by simp [dget], by decide +kernel⟩
  · simp only [Proper, EndsApart, List.nil_append]
    decide +kernel
  · have h1 : Pica.Good Exm.num Exm.p1 := ⟨by decide +kernel, by decide +kernel, by decide +kernel⟩
    have h2 : Pica.Good Exm.num Exm.p2 := ⟨by decide +kernel, by decide +kernel, by decide +kernel⟩
    intro o ho
    simp only [List.mem_cons, List.not_mem_nil, or_false] at ho
    rcases ho with rfl | rfl | rfl <;> assumption

/-- C66 fails for Pica8: flows are made for the third number of an interface (pica8ovs.py:34-35). With interfaces that differ before that,
the resources of two connections have different names, but setting up the second one takes the frames of the first one, and taking it
down leaves the first one without flows. -/
theorem C66_pica_fails : ∃ (pm : PortMap) (x y : VConn) (px py pz : Str),
    Pica.getTarget pm px (some (tVlan, 12)) = .ok x.src ∧ Pica.getTarget pm pz (some (tVlan, 12)) = .ok x.dst ∧
    Pica.getTarget pm py (some (tVlan, 12)) = .ok y.src ∧ Pica.getTarget pm pz (some (tVlan, 13)) = .ok y.dst ∧
    x.src.port ≠ y.src.port ∧ Pica.getResource pm px (some (tVlan, 12)) ≠ Pica.getResource pm py (some (tVlan, 12)) ∧ EndsApart x y ∧
    (dget (runOps Pica.up Pica.down ⟨[], []⟩ [.up x]).flows (129, 12) = some ⟨177, none⟩ ∧
     dget (runOps Pica.up Pica.down ⟨[], []⟩ [.up x, .up y]).flows (129, 12) = some ⟨177, some 13⟩ ∧
     dget (runOps Pica.up Pica.down ⟨[], []⟩ [.up x, .up y, .down y]).flows (129, 12) = none) := by
  refine ⟨[(['a'], ⟨"ge-1/1/1".toList, none, some tVlan⟩), (['b'], ⟨"te-1/2/1".toList, none, some tVlan⟩), (['c'], ⟨"te-1/1/49".toList, none, some tVlan⟩)],
    ⟨['1'], ⟨"ge-1/1/1".toList, 12⟩, ⟨"te-1/1/49".toList, 12⟩⟩, ⟨['2'], ⟨"te-1/2/1".toList, 12⟩, ⟨"te-1/1/49".toList, 13⟩⟩, ['a'], ['b'], ['c'],
    ?_⟩
  unfold EndsApart
  decide +kernel

end OpenNSA.Device
