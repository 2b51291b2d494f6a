import Verif.Device.PropsAccept
import Verif.Device.PropsOess
/-
C67 for the backends with vlans only.
-/
namespace OpenNSA.Device
open Py OpenNSA.Backend

/-! ### Specification -/

/-- The generic backend goes on with these two ends and labels: the backend, or the comparison of label types if it has no say
(genericbackend.py:269-274), connects them, and the labels are the same unless they can be changed (line 286). -/
def Manager.Connects (m : Manager) (sl dl : Option LabelVal) : Prop :=
  (match m.canConnect with
    | some f => f (sl.map Prod.fst) (dl.map Prod.fst) = true
    | none => sl.map Prod.fst = dl.map Prod.fst) ∧
  (m.canSwapLabel (sl.map Prod.fst) = true ∧ m.canSwapLabel (dl.map Prod.fst) = true ∨ sl = dl)

/-- What has to work for a connection of two ends: the names of the resources, the targets, the commands for setting up and for taking down; and the
commands are about the two ends (`P`). -/
def Manager.Works {T C : Type} (m : Manager) (getTarget : PortMap → Str → Option LabelVal → Except DevErr T) (setup teardown : T → T → Except DevErr C)
    (pm : PortMap) (sp dp : Str) (sl dl : Option LabelVal) (P : C → C → Prop) : Prop :=
  ∃ a b s d up down, m.getResource pm sp sl = .ok a ∧ m.getResource pm dp dl = .ok b ∧ getTarget pm sp sl = .ok s ∧ getTarget pm dp dl = .ok d ∧
    setup s d = .ok up ∧ teardown s d = .ok down ∧ P up down

/-- The label is a vlan within the range. -/
def VlanIn (hi : Int) (l : Option LabelVal) (v : Int) : Prop := l = some (tVlan, v) ∧ 1 ≤ v ∧ v ≤ hi

/-! ### juniperex.py -/

theorem ex_getTarget {pm : PortMap} {sp : Str} {p : DPort} {l : Option LabelVal} (h : dget pm sp = some p) (t : VlanTarget) :
    Ex.getTarget pm sp l = .ok t ↔ VlanIn 4095 l t.vlan ∧ t.port = p.interface := by
  unfold Ex.getTarget VlanIn
  cases l with
  | none => simp
  | some l =>
    obtain ⟨ty, v⟩ := l
    obtain ⟨i, w⟩ := t
    by_cases h1 : ty = tVlan <;> by_cases h2 : 1 ≤ v ∧ v ≤ 4095 <;> simp [h1, h2, lookup, h, bind, Except.bind] <;>
      first | (constructor <;> (intro h; grind)) | (rintro rfl; omega)

/-- C67 for Juniper EX: the ends that can be set up and taken down are those with the same vlan, from 1 to 4095; the vlan gets both interfaces, and loses
both. Missing: others are accepted too, see `C67_ex_fails`. -/
theorem C67_ex_partial (pm : PortMap) (sp dp : Str) (p q : DPort) (hp : dget pm sp = some p) (hq : dget pm dp = some q) (sl dl : Option LabelVal)
    (hc : Ex.manager.Connects sl dl) :
    (Ex.manager.Works Ex.getTarget Ex.setupLink Ex.teardownLink pm sp dp sl dl fun up down => ∃ v, sl = some (tVlan, v) ∧ ∀ t ∈ [p, q],
        let r := ["interfaces".toList, t.interface, "unit".toList, ['0'], "family".toList, "ethernet-switching".toList, "vlan".toList, "members".toList, "opennsa-".toList ++ showInt v]
        Cmd.set r ∈ up ∧ Cmd.delete r ∈ down) ↔ ∃ v, VlanIn 4095 sl v := by
  have hsd : sl = dl := by
    rcases hc.2 with h | h
    · simp [Ex.manager] at h
    · exact h
  subst hsd
  constructor
  · rintro ⟨a, b, s, d, up, down, _, _, h3, _, _, _, _⟩
    exact ⟨_, ((ex_getTarget hp s).1 h3).1⟩
  · rintro ⟨v, hv⟩
    have hr : ∀ x, Ex.manager.getResource pm x sl = .ok (showInt v) := by
      intro x; rw [hv.1]; simp [Ex.manager, Ex.getResource, lvText]
    refine ⟨_, _, ⟨p.interface, v⟩, ⟨q.interface, v⟩, Ex.configure p.interface q.interface v, Ex.delete p.interface q.interface v, hr _, hr _,
      (ex_getTarget hp _).2 ⟨hv, rfl⟩, (ex_getTarget hq _).2 ⟨hv, rfl⟩, by simp [Ex.setupLink], by simp [Ex.teardownLink], v, hv.1, ?_⟩
    intro t ht
    simp only [List.mem_cons, List.not_mem_nil, or_false] at ht
    rcases ht with rfl | rfl
    · exact ⟨List.mem_cons_of_mem _ List.mem_cons_self, List.mem_cons_self⟩
    · exact ⟨List.mem_cons_of_mem _ (List.mem_cons_of_mem _ List.mem_cons_self), List.mem_cons_of_mem _ List.mem_cons_self⟩

/-- C67 fails for Juniper EX: ports without label, with mpls labels, and vlan 4096 are accepted, but cannot be set up. For vlan 4096 the names of the resources
can be made, so that the exception comes after the calendar has been filled (genericbackend.py:330-331 and 342). -/
theorem C67_ex_fails (pm : PortMap) (sp dp : Str) (p : DPort) (hp : dget pm sp = some p) :
    ∀ l ∈ [none, some (tMpls, 7), some (tVlan, 4096)], Ex.manager.Connects l l ∧
      ¬ Ex.manager.Works Ex.getTarget Ex.setupLink Ex.teardownLink pm sp dp l l (fun _ _ => True) ∧
      (l = some (tVlan, 4096) → ∀ x, ∃ r, Ex.manager.getResource pm x l = .ok r) := by
  have hvm := tVlan_ne_tMpls
  intro l hl
  refine ⟨⟨rfl, Or.inr rfl⟩, ?_, ?_⟩
  · rintro ⟨a, b, s, d, up, down, _, _, h3, _⟩
    have h := ((ex_getTarget hp s).1 h3).1
    simp only [List.mem_cons, List.not_mem_nil, or_false] at hl
    obtain ⟨h1, h2⟩ := h
    rcases hl with rfl | rfl | rfl
    · simp at h1
    · simp [hvm.symm] at h1
    · simp only [Option.some.injEq, Prod.mk.injEq, true_and] at h1
      omega
  · rintro rfl x
    exact ⟨_, by simp [Ex.manager, Ex.getResource]; rfl⟩

/-- Hypotheses of `C67_ex_partial` and of `C67_ex_fails` hold. -/
example : let pm : PortMap := [(['a'], ⟨['i'], none, some tVlan⟩), (['b'], ⟨['j'], none, some tVlan⟩)]
    dget pm ['a'] = some ⟨['i'], none, some tVlan⟩ ∧ dget pm ['b'] = some ⟨['j'], none, some tVlan⟩ ∧
    Ex.manager.Connects (some (tVlan, 12)) (some (tVlan, 12)) ∧ VlanIn 4095 (some (tVlan, 12)) 12 :=
  ⟨rfl, rfl, ⟨rfl, Or.inr rfl⟩, rfl, by decide, by decide⟩

/-! ### junipervpls.py -/

theorem vpls_getTarget {pm : PortMap} {sp : Str} {p : DPort} {l : Option LabelVal} (h : dget pm sp = some p) (t : VlanTarget) :
    Vpls.getTarget pm sp l = .ok t ↔ VlanIn 4095 l t.vlan ∧ t.port = p.interface := by
  unfold Vpls.getTarget VlanIn
  cases l with
  | none => simp
  | some l =>
    obtain ⟨ty, v⟩ := l
    obtain ⟨i, w⟩ := t
    by_cases h1 : ty = tVlan <;> by_cases h2 : 1 ≤ v ∧ v ≤ 4095 <;> simp [h1, h2, lookup, h, bind, Except.bind] <;>
      first | (constructor <;> (intro h; grind)) | (rintro rfl; omega)

/-- C67 for Juniper VPLS: as for Juniper EX; both interfaces get a unit for the vlan, which is part of the instance, and lose it. Missing: others are
accepted too, see `C67_vpls_fails`. -/
theorem C67_vpls_partial (asn id : Str) (pm : PortMap) (sp dp : Str) (p q : DPort) (hp : dget pm sp = some p) (hq : dget pm dp = some q)
    (sl dl : Option LabelVal) (hc : Vpls.manager.Connects sl dl) :
    (Vpls.manager.Works Vpls.getTarget (Vpls.setupLink asn id) (Vpls.teardownLink id) pm sp dp sl dl fun up down => ∃ v, sl = some (tVlan, v) ∧
        ∀ t ∈ [p, q], (∃ desc, Cmd.set ["interfaces".toList, t.interface, "unit".toList, showInt v, "description".toList, desc, "encapsulation".toList, "vlan-vpls".toList,
          "vlan-id".toList, showInt v, "family".toList, "vpls".toList] ∈ up) ∧
        Cmd.set ["routing-instances".toList, id, "interface".toList, t.interface ++ '.' :: showInt v] ∈ up ∧ Cmd.delete ["interfaces".toList, t.interface, "unit".toList, showInt v] ∈ down) ↔
      ∃ v, VlanIn 4095 sl v := by
  have hsd : sl = dl := by
    rcases hc.2 with h | h
    · simp [Vpls.manager] at h
    · exact h
  subst hsd
  constructor
  · rintro ⟨a, b, s, d, up, down, _, _, h3, _, _, _, _⟩
    exact ⟨_, ((vpls_getTarget hp s).1 h3).1⟩
  · rintro ⟨v, hv⟩
    have hr : ∀ x y, dget pm x = some y → Vpls.manager.getResource pm x sl = .ok (x ++ '.' :: showInt v) := by
      intro x y hx; rw [hv.1]; simp [Vpls.manager, Vpls.getResource, lvText, lookup, hx, bind, Except.bind]
    refine ⟨_, _, ⟨p.interface, v⟩, ⟨q.interface, v⟩, _, _, hr _ _ hp, hr _ _ hq,
      (vpls_getTarget hp _).2 ⟨hv, rfl⟩, (vpls_getTarget hq _).2 ⟨hv, rfl⟩, by simp only [Vpls.setupLink, ne_eq, not_true, if_false]; rfl,
      by simp only [Vpls.teardownLink, ne_eq, not_true, if_false]; rfl, v, hv.1, ?_⟩
    intro t ht
    simp only [List.mem_cons, List.not_mem_nil, or_false] at ht
    rcases ht with rfl | rfl
    · refine ⟨⟨_, List.mem_cons_self⟩, ?_, List.mem_cons_self⟩
      show Cmd.set [kRI, id, kInterface, _] ∈ _
      simp [Vpls.configure, unitName]
    · refine ⟨⟨_, List.mem_cons_of_mem _ List.mem_cons_self⟩, ?_, List.mem_cons_of_mem _ List.mem_cons_self⟩
      show Cmd.set [kRI, id, kInterface, _] ∈ _
      simp [Vpls.configure, unitName]

/-- C67 fails for Juniper VPLS in the same way as for Juniper EX. -/
theorem C67_vpls_fails (asn id : Str) (pm : PortMap) (sp dp : Str) (p q : DPort) (hp : dget pm sp = some p) (hq : dget pm dp = some q) :
    ∀ l ∈ [none, some (tMpls, 7), some (tVlan, 4096)], Vpls.manager.Connects l l ∧
      ¬ Vpls.manager.Works Vpls.getTarget (Vpls.setupLink asn id) (Vpls.teardownLink id) pm sp dp l l (fun _ _ => True) ∧
      (l = some (tVlan, 4096) → ∀ x ∈ [sp, dp], ∃ r, Vpls.manager.getResource pm x l = .ok r) := by
  have hvm := tVlan_ne_tMpls
  intro l hl
  refine ⟨⟨rfl, Or.inr rfl⟩, ?_, ?_⟩
  · rintro ⟨a, b, s, d, up, down, _, _, h3, _⟩
    have h := ((vpls_getTarget hp s).1 h3).1
    simp only [List.mem_cons, List.not_mem_nil, or_false] at hl
    obtain ⟨h1, h2⟩ := h
    rcases hl with rfl | rfl | rfl
    · simp at h1
    · simp [hvm.symm] at h1
    · simp only [Option.some.injEq, Prod.mk.injEq, true_and] at h1
      omega
  · rintro rfl x hx
    simp only [List.mem_cons, List.not_mem_nil, or_false] at hx
    rcases hx with rfl | rfl <;> exact ⟨_, by simp [Vpls.manager, Vpls.getResource, lookup, hp, hq, bind, Except.bind]; rfl⟩

/-- Hypotheses of `C67_vpls_partial` and of `C67_vpls_fails` hold. -/
example : let pm : PortMap := [(['a'], ⟨['i'], none, some tVlan⟩), (['b'], ⟨['j'], none, some tVlan⟩)]
    dget pm ['a'] = some ⟨['i'], none, some tVlan⟩ ∧ dget pm ['b'] = some ⟨['j'], none, some tVlan⟩ ∧
    Vpls.manager.Connects (some (tVlan, 12)) (some (tVlan, 12)) ∧ VlanIn 4095 (some (tVlan, 12)) 12 :=
  ⟨rfl, rfl, ⟨rfl, Or.inr rfl⟩, rfl, by decide, by decide⟩

/-! ### brocade.py -/

theorem brocade_portVlan_dotted {i : Str} {v : Int} (h : '.' ∈ i) : Brocade.portVlan (i ++ '.' :: showInt v) = .error .value := by
  unfold Brocade.portVlan
  split
  · rename_i a b hs
    exfalso
    obtain ⟨ha, hb, he⟩ := splitOn_eq_two hs
    have hv : '.' ∉ showInt v := fun hm => by
      rcases showInt_chars hm with h | h
      · simp at h
      · exact absurd h (by decide)
    obtain ⟨i1, i2, rfl⟩ := List.append_of_mem h
    have hc := congrArg (List.count '.') he
    simp only [List.count_append, List.count_cons_self, List.count_eq_zero_of_not_mem ha, List.count_eq_zero_of_not_mem hb] at hc
    omega
  · rfl

/-- C67 for Brocade: the ends that can be set up and taken down are those with the same vlan and interfaces without dot; the vlan is made with both
interfaces, and removed. Missing: others are accepted too, see `C67_brocade_fails`. -/
theorem C67_brocade_partial (pm : PortMap) (sp dp : Str) (p q : DPort) (hp : dget pm sp = some p) (hq : dget pm dp = some q) (sl dl : Option LabelVal)
    (hc : Brocade.manager.Connects sl dl) :
    (Brocade.manager.Works Brocade.getTarget Brocade.setup Brocade.teardown pm sp dp sl dl fun up down => ∃ v n, sl = some (tVlan, v) ∧
        up = [.vlan v n, .tagged p.interface, .tagged q.interface] ∧ down = [.noVlan v]) ↔
      (∃ v, sl = some (tVlan, v)) ∧ Plain p.interface ∧ Plain q.interface := by
  have hsd : sl = dl := by
    rcases hc.2 with h | h
    · simp [Brocade.manager] at h
    · exact h
  subst hsd
  constructor
  · rintro ⟨a, b, s, d, up, down, _, _, h3, h4, h5, _, v, n, hv, _⟩
    subst hv
    rw [brocade_getTarget hp] at h3
    rw [brocade_getTarget hq] at h4
    simp only [Except.ok.injEq] at h3 h4
    subst h3 h4
    unfold Brocade.setup at h5
    obtain ⟨x, h6, h5⟩ := bind_ok h5
    obtain ⟨y, h7, _⟩ := bind_ok h5
    refine ⟨⟨v, rfl⟩, fun h => ?_, fun h => ?_⟩
    · rw [Brocade.target, brocade_portVlan_dotted h] at h6; simp at h6
    · rw [Brocade.target, brocade_portVlan_dotted h] at h7; simp at h7
  · rintro ⟨⟨v, rfl⟩, h1, h2⟩
    refine ⟨showInt v, showInt v, _, _, _, _, by simp [Brocade.manager, Brocade.getResource, lvText], by simp [Brocade.manager, Brocade.getResource, lvText],
      brocade_getTarget hp, brocade_getTarget hq, ?_, ?_, v, "opennsa-".toList ++ showInt v, rfl, rfl, rfl⟩
    · simp only [Brocade.setup]
      rw [brocade_portVlan (t := ⟨p.interface, v⟩) h1, brocade_portVlan (t := ⟨q.interface, v⟩) h2]
      simp [bind, Except.bind]
    · simp only [Brocade.teardown]
      rw [brocade_portVlan (t := ⟨p.interface, v⟩) h1, brocade_portVlan (t := ⟨q.interface, v⟩) h2]
      simp [bind, Except.bind]

/-- C67 fails for Brocade: ports without label or with mpls labels are accepted, but cannot be set up; and nor can interfaces with a dot,
for which the names of the resources and the targets can be made, so that the exception comes when the connection is due. -/
theorem C67_brocade_fails : (∀ (pm : PortMap) (sp dp : Str), ∀ l ∈ [none, some (tMpls, 7)], Brocade.manager.Connects l l ∧
      ¬ Brocade.manager.Works Brocade.getTarget Brocade.setup Brocade.teardown pm sp dp l l (fun _ _ => True)) ∧
    ∃ (pm : PortMap) (s d : Str), Brocade.getTarget pm ['a'] (some (tVlan, 12)) = .ok s ∧ Brocade.getTarget pm ['b'] (some (tVlan, 12)) = .ok d ∧
      (∀ x ∈ [['a'], ['b']], ∃ r, Brocade.manager.getResource pm x (some (tVlan, 12)) = .ok r) ∧ Brocade.setup s d = .error .value := by
  have hvm := tVlan_ne_tMpls
  refine ⟨fun pm sp dp l hl => ⟨⟨rfl, Or.inr rfl⟩, ?_⟩, ?_⟩
  · rintro ⟨a, b, s, d, up, down, h1, _⟩
    simp only [List.mem_cons, List.not_mem_nil, or_false] at hl
    rcases hl with rfl | rfl
    · simp [Brocade.manager, Brocade.getResource] at h1
    · simp [Brocade.manager, Brocade.getResource, hvm.symm] at h1
  · refine ⟨[(['a'], ⟨['i', '.', '1'], none, some tVlan⟩), (['b'], ⟨['j'], none, some tVlan⟩)], ['i', '.', '1', '.', '1', '2'], ['j', '.', '1', '2'],
      by decide +kernel, by decide +kernel, ?_, by decide +kernel⟩
    intro x _
    exact ⟨_, by simp [Brocade.manager, Brocade.getResource]; rfl⟩

/-- Hypotheses of `C67_brocade_partial` hold, and its right side. -/
example : let pm : PortMap := [(['a'], ⟨['i'], none, some tVlan⟩), (['b'], ⟨['j'], none, some tVlan⟩)]
    dget pm ['a'] = some ⟨['i'], none, some tVlan⟩ ∧ dget pm ['b'] = some ⟨['j'], none, some tVlan⟩ ∧
    Brocade.manager.Connects (some (tVlan, 12)) (some (tVlan, 12)) ∧ Plain ['i'] ∧ Plain ['j'] :=
  ⟨rfl, rfl, ⟨rfl, Or.inr rfl⟩, by unfold Plain; decide, by unfold Plain; decide⟩

/-! ### pica8ovs.py -/

theorem pica_getTarget {pm : PortMap} {sp : Str} {p : DPort} {l : Option LabelVal} (h : dget pm sp = some p) (t : VlanTarget) :
    Pica.getTarget pm sp l = .ok t ↔ VlanIn 4095 l t.vlan ∧ t.port = p.interface := by
  unfold Pica.getTarget VlanIn
  cases l with
  | none => simp
  | some l =>
    obtain ⟨ty, v⟩ := l
    obtain ⟨i, w⟩ := t
    by_cases h1 : ty = tVlan <;> by_cases h2 : 1 ≤ v ∧ v ≤ 4095 <;> simp [h1, h2, lookup, h, bind, Except.bind] <;>
      first | (constructor <;> (intro h; grind)) | (rintro rfl; omega)

/-- The third part of the name of the interface is a number. -/
def ThirdNumber (i : Str) : Prop := ∃ a b c r n, '/' ∉ a ∧ '/' ∉ b ∧ '/' ∉ c ∧ (r = [] ∨ ∃ r', r = '/' :: r') ∧ i = a ++ '/' :: (b ++ '/' :: (c ++ r)) ∧ pyInt c = some n

theorem splitOn_cons_cons {c : Char} {s a b : Str} {t : List Str} (h : splitOn c s = a :: b :: t) : c ∉ a ∧ ∃ s', s = a ++ c :: s' ∧ splitOn c s' = b :: t := by
  have ha : c ∉ a := (splitOn_items c s).1 a (by rw [h]; exact List.mem_cons_self)
  have hj := (splitOn_items c s).2
  rw [h] at hj
  have hs : s = a ++ c :: joinWith c (b :: t) := by rw [← hj]; simp [joinWith]
  refine ⟨ha, _, hs, ?_⟩
  rw [hs, splitOn_append _ ha] at h
  simpa using h

theorem pica_flowPort {i : Str} : (∃ n, Pica.flowPort i = .ok n) ↔ ThirdNumber i := by
  constructor
  · rintro ⟨n, h⟩
    unfold Pica.flowPort at h
    split at h
    · rename_i t ht
      split at h
      · rename_i m hm
        match hsp : splitOn '/' i with
        | [] => rw [hsp] at ht; simp at ht
        | [_] => rw [hsp] at ht; simp at ht
        | [_, _] => rw [hsp] at ht; simp at ht
        | a :: b :: c :: rest =>
          rw [hsp] at ht
          simp only [List.getElem?_cons_succ, List.getElem?_cons_zero, Option.some.injEq] at ht
          subst ht
          obtain ⟨ha, s1, h1, h2⟩ := splitOn_cons_cons hsp
          obtain ⟨hb, s2, h3, h4⟩ := splitOn_cons_cons h2
          have hc : '/' ∉ c := (splitOn_items '/' s2).1 c (by rw [h4]; exact List.mem_cons_self)
          cases rest with
          | nil =>
            have hj := (splitOn_items '/' s2).2
            rw [h4] at hj
            simp only [joinWith] at hj
            exact ⟨a, b, c, [], m, ha, hb, hc, Or.inl rfl, by rw [h1, h3, ← hj]; simp, hm⟩
          | cons d rest =>
            obtain ⟨_, s3, h5, _⟩ := splitOn_cons_cons h4
            exact ⟨a, b, c, '/' :: s3, m, ha, hb, hc, Or.inr ⟨s3, rfl⟩, by rw [h1, h3, h5], hm⟩
      · simp at h
    · simp at h
  · rintro ⟨a, b, c, r, n, ha, hb, hc, hr, rfl, hn⟩
    refine ⟨n + 128, ?_⟩
    unfold Pica.flowPort
    rw [splitOn_append _ ha, splitOn_append _ hb]
    rcases hr with rfl | ⟨r', rfl⟩
    · rw [List.append_nil, splitOn_no_sep hc]; simp [hn]
    · rw [splitOn_append _ hc]; simp [hn]

/-- C67 for Pica8: the ends that can be set up and taken down are those with vlans from 1 to 4095, also different ones, and interfaces whose third part is
a number; both interfaces get their vlans, and lose them. Missing: others are accepted too, see `C67_pica_fails`. -/
theorem C67_pica_partial (pm : PortMap) (sp dp : Str) (p q : DPort) (hp : dget pm sp = some p) (hq : dget pm dp = some q) (sl dl : Option LabelVal) :
    (Pica.manager.Works Pica.getTarget (fun s d => Pica.configure s.port d.port s.vlan d.vlan) (fun s d => Pica.delete s.port d.port s.vlan d.vlan)
      pm sp dp sl dl fun up down => ∃ v w m n, sl = some (tVlan, v) ∧ dl = some (tVlan, w) ∧ Pica.flowPort p.interface = .ok m ∧
        Pica.flowPort q.interface = .ok n ∧ PCmd.addTrunk p.interface v ∈ up ∧ PCmd.addTrunk q.interface w ∈ up ∧
        (∃ f, PCmd.addFlow m v f ∈ up ∧ f.out = n ∧ f.setVlan.getD v = w) ∧ (∃ f, PCmd.addFlow n w f ∈ up ∧ f.out = m ∧ f.setVlan.getD w = v) ∧
        PCmd.removeTrunk p.interface v ∈ down ∧ PCmd.removeTrunk q.interface w ∈ down ∧ PCmd.delFlow m v ∈ down ∧ PCmd.delFlow n w ∈ down) ↔
      (∃ v, VlanIn 4095 sl v) ∧ (∃ w, VlanIn 4095 dl w) ∧ ThirdNumber p.interface ∧ ThirdNumber q.interface := by
  constructor
  · rintro ⟨a, b, s, d, up, down, _, _, h3, h4, _, _, v, w, m, n, _, _, h5, h6, _⟩
    exact ⟨⟨_, ((pica_getTarget hp s).1 h3).1⟩, ⟨_, ((pica_getTarget hq d).1 h4).1⟩, pica_flowPort.1 ⟨_, h5⟩, pica_flowPort.1 ⟨_, h6⟩⟩
  · rintro ⟨⟨v, hv⟩, ⟨w, hw⟩, h1, h2⟩
    obtain ⟨m, hm⟩ := pica_flowPort.2 h1
    obtain ⟨n, hn⟩ := pica_flowPort.2 h2
    refine ⟨sp ++ ':' :: showInt v, dp ++ ':' :: showInt w, ⟨p.interface, v⟩, ⟨q.interface, w⟩, _, _, by rw [hv.1]; simp [Pica.manager, Pica.getResource, lvText],
      by rw [hw.1]; simp [Pica.manager, Pica.getResource, lvText], (pica_getTarget hp _).2 ⟨hv, rfl⟩, (pica_getTarget hq _).2 ⟨hw, rfl⟩,
      by simp only [Pica.configure, hm, hn, bind, Except.bind]; rfl, by simp only [Pica.delete, hm, hn, bind, Except.bind]; rfl, v, w, m, n, hv.1, hw.1, hm, hn, ?_⟩
    by_cases hvw : v = w
    · subst hvw; simp
    · simp [hvw]

/-- C67 fails for Pica8: ports without label and with mpls labels, vlan 4096, and interfaces with fewer than three parts are accepted, but cannot be set up.
For labels of the wrong type and vlans out of range the names of the resources can be made, so that the exception comes after the calendar has been filled. -/
theorem C67_pica_fails (pm : PortMap) (sp : Str) (p q : DPort) (hp : dget pm sp = some p) :
    (∀ l ∈ [none, some (tMpls, 7), some (tVlan, 4096)], Pica.manager.Connects l l ∧ (∀ s, Pica.getTarget pm sp l ≠ .ok s) ∧
      (l.isSome → ∀ x, ∃ r, Pica.manager.getResource pm x l = .ok r)) ∧
    Pica.manager.Connects (some (tVlan, 12)) (some (tVlan, 13)) ∧
    ('/' ∉ p.interface → Pica.getTarget pm sp (some (tVlan, 12)) = .ok ⟨p.interface, 12⟩ ∧ Pica.configure p.interface q.interface 12 13 = .error .index) := by
  have hvm := tVlan_ne_tMpls
  refine ⟨fun l hl => ⟨⟨rfl, Or.inl ⟨rfl, rfl⟩⟩, ?_, ?_⟩, ⟨rfl, Or.inl ⟨rfl, rfl⟩⟩, fun h => ⟨?_, ?_⟩⟩
  · intro s hs
    obtain ⟨h1, h2⟩ := ((pica_getTarget hp s).1 hs).1
    simp only [List.mem_cons, List.not_mem_nil, or_false] at hl
    rcases hl with rfl | rfl | rfl
    · simp at h1
    · simp [hvm.symm] at h1
    · simp only [Option.some.injEq, Prod.mk.injEq, true_and] at h1
      omega
  · intro h x
    obtain ⟨l, rfl⟩ := Option.isSome_iff_exists.1 h
    exact ⟨_, rfl⟩
  · exact (pica_getTarget hp _).2 ⟨⟨rfl, (by decide : (1 : Int) ≤ 12), (by decide : (12 : Int) ≤ 4095)⟩, rfl⟩
  · simp [Pica.configure, Pica.flowPort, splitOn_no_sep h, bind, Except.bind]

/-- Hypotheses of `C67_pica_partial` and its right side hold, and those of `C67_pica_fails`. -/
example : let pm : PortMap := [(['a'], ⟨"te-1/1/3".toList, none, some tVlan⟩), (['b'], ⟨['j'], none, some tVlan⟩)]
    dget pm ['a'] = some ⟨"te-1/1/3".toList, none, some tVlan⟩ ∧ dget pm ['b'] = some ⟨['j'], none, some tVlan⟩ ∧
    VlanIn 4095 (some (tVlan, 12)) 12 ∧ ThirdNumber "te-1/1/3".toList ∧ '/' ∉ ['j'] :=
  ⟨rfl, rfl, ⟨rfl, by decide, by decide⟩, ⟨"te-1".toList, ['1'], ['3'], [], 3, by decide, by decide, by decide, Or.inl rfl, rfl, by decide +kernel⟩, by decide⟩

/-! ### junosex.py -/

/-- C67 for JunOS EX: the ends that can be set up and taken down are those of ports with labels, and with a label; vlans get a unit, which is part of the
switch, and lose it. (Ports with mpls labels are joined as a whole: unit 0.) Missing: others are accepted too, see `C67_junosex_fails`. -/
theorem C67_junosex_partial (id : Str) (pm : PortMap) (sp dp : Str) (p q : DPort) (hp : dget pm sp = some p) (hq : dget pm dp = some q) (sl dl : Option LabelVal) :
    (Jex.manager.Works Jex.getTarget (Jex.activate id) (Jex.deactivate id) pm sp dp sl dl fun up down => ∃ n, ∀ t ∈ [(p, sl), (q, dl)], ∃ l, t.2 = some l ∧
        (t.1.labelType = some tVlan → (∃ r, Cmd.set ("interfaces".toList :: t.1.interface :: "unit".toList :: showInt l.2 :: r) ∈ up) ∧
          Cmd.set ["protocols".toList, "connections".toList, "interface-switch".toList, n, "interface".toList, t.1.interface ++ '.' :: showInt l.2] ∈ up ∧
          Cmd.delete ["interfaces".toList, t.1.interface ++ '.' :: showInt l.2] ∈ down ∧ Cmd.delete ["protocols".toList, "connections".toList, "interface-switch".toList, n] ∈ down)) ↔
      sl.isSome ∧ dl.isSome ∧ p.labelType.isSome ∧ q.labelType.isSome := by
  have ht : ∀ x (y : DPort) l (s : Target), dget pm x = some y → (Jex.getTarget pm x l = .ok s ↔ ∃ k, l = some k ∧ s = ⟨y, some k.2⟩) := by
    intro x y l s h
    unfold Jex.getTarget
    cases l with
    | none => simp [lookup, h, bind, Except.bind]
    | some k => simp [lookup, h, bind, Except.bind, eq_comm]
  constructor
  · rintro ⟨a, b, s, d, up, down, _, _, h3, h4, h5, _, _⟩
    obtain ⟨k, rfl, rfl⟩ := (ht _ _ _ _ hp).1 h3
    obtain ⟨k', rfl, rfl⟩ := (ht _ _ _ _ hq).1 h4
    unfold Jex.activate at h5
    split at h5
    · rename_i x y h6 h7
      simp only at h6 h7
      simp [h6, h7]
    · simp at h5
  · rintro ⟨h1, h2, h3, h4⟩
    obtain ⟨k, rfl⟩ := Option.isSome_iff_exists.1 h1
    obtain ⟨k', rfl⟩ := Option.isSome_iff_exists.1 h2
    obtain ⟨x, hx⟩ := Option.isSome_iff_exists.1 h3
    obtain ⟨y, hy⟩ := Option.isSome_iff_exists.1 h4
    refine ⟨_, _, ⟨p, some k.2⟩, ⟨q, some k'.2⟩, _, _, rfl, rfl, (ht _ _ _ _ hp).2 ⟨_, rfl, rfl⟩, (ht _ _ _ _ hq).2 ⟨_, rfl, rfl⟩,
      by simp only [Jex.activate, hx, hy]; rfl, by simp only [Jex.deactivate, hx, hy]; rfl, Jex.switch id, ?_⟩
    have key : ∀ (t : Target) (a1 a2 b1 b2 : List Cmd), t.port.labelType = some tVlan → Jex.endUp t ∈ [a1, a2] → Jex.endDown t ∈ [b1, b2] →
        ∀ m1 m2, Cmd.set [kInterfaces, t.port.interface, kUnit, valText t.value, kVlanId, valText t.value] ∈ a1 ++ a2 ++ m1 ∧
          Cmd.delete [kInterfaces, unitName t.port.interface (valText t.value)] ∈ b1 ++ b2 ++ m2 := by
      intro t a1 a2 b1 b2 hv h1 h2 m1 m2
      have e1 : Cmd.set [kInterfaces, t.port.interface, kUnit, valText t.value, kVlanId, valText t.value] ∈ Jex.endUp t := by
        unfold Jex.endUp
        rw [if_pos hv]
        exact List.mem_cons_of_mem _ (List.mem_cons_of_mem _ (List.mem_cons_of_mem _ (List.mem_cons_of_mem _ List.mem_cons_self)))
      have e2 : Cmd.delete [kInterfaces, unitName t.port.interface (valText t.value)] ∈ Jex.endDown t := by
        unfold Jex.endDown
        rw [if_pos hv]
        exact List.mem_cons_self
      simp only [List.mem_cons, List.not_mem_nil, or_false] at h1 h2
      simp only [List.mem_append]
      exact ⟨Or.inl (by rcases h1 with h | h <;> rw [← h] <;> simp only [e1, true_or, or_true]),
        Or.inl (by rcases h2 with h | h <;> rw [← h] <;> simp only [e2, true_or, or_true])⟩
    intro t ht
    simp only [List.mem_cons, List.not_mem_nil, or_false] at ht
    rcases ht with rfl | rfl
    · refine ⟨k, rfl, fun hv => ?_⟩
      obtain ⟨k1, k2⟩ := key ⟨p, some k.2⟩ _ (Jex.endUp ⟨q, some k'.2⟩) _ (Jex.endDown ⟨q, some k'.2⟩) hv List.mem_cons_self List.mem_cons_self _ _
      refine ⟨⟨_, k1⟩, List.mem_append_right _ ?_, k2, List.mem_append_right _ List.mem_cons_self⟩
      simp only [List.map_cons, List.map_nil, List.mem_cons]
      refine Or.inl ?_
      rw [if_pos hv]
      rfl
    · refine ⟨k', rfl, fun hv => ?_⟩
      obtain ⟨k1, k2⟩ := key ⟨q, some k'.2⟩ (Jex.endUp ⟨p, some k.2⟩) _ (Jex.endDown ⟨p, some k.2⟩) _ hv (List.mem_cons_of_mem _ List.mem_cons_self)
        (List.mem_cons_of_mem _ List.mem_cons_self) _ _
      refine ⟨⟨_, k1⟩, List.mem_append_right _ ?_, k2, List.mem_append_right _ List.mem_cons_self⟩
      simp only [List.map_cons, List.map_nil, List.mem_cons]
      refine Or.inr (Or.inl ?_)
      rw [if_pos hv]
      rfl

/-- C67 fails for JunOS EX: two ends without label are accepted, but the names of their resources cannot be made. -/
theorem C67_junosex_fails (pm : PortMap) (sp : Str) : Jex.manager.Connects none none ∧ ∀ r, Jex.manager.getResource pm sp none ≠ .ok r := by
  refine ⟨⟨rfl, Or.inr rfl⟩, fun r h => ?_⟩
  simp only [Jex.manager, Jex.getResource] at h
  obtain ⟨_, _, h⟩ := bind_ok h
  simp at h

/-- Hypotheses of `C67_junosex_partial` and its right side hold. -/
example : let pm : PortMap := [(['a'], ⟨['i'], none, some tVlan⟩), (['b'], ⟨['j'], none, some tVlan⟩)]
    dget pm ['a'] = some ⟨['i'], none, some tVlan⟩ ∧ dget pm ['b'] = some ⟨['j'], none, some tVlan⟩ ∧ (some (tVlan, (12 : Int))).isSome ∧ (some tVlan).isSome :=
  ⟨rfl, rfl, rfl, rfl⟩

/-! ### oess.py -/

theorem oess_getTarget_iff {pm : PortMap} {sp : Str} {p : DPort} {l : Option LabelVal} (h : dget pm sp = some p) (t : Str) :
    Oess.getTarget pm sp l = .ok t ↔ ∃ v, VlanIn 4094 l v ∧ t = p.interface ++ '#' :: showInt v := by
  unfold Oess.getTarget VlanIn
  cases l with
  | none => simp
  | some l =>
    obtain ⟨ty, v⟩ := l
    by_cases h1 : ty = tVlan <;> by_cases h2 : 1 ≤ v ∧ v ≤ 4094 <;> simp [h1, h2, lookup, h, bind, Except.bind] <;> grind

/-- The interface is a node and an interface of it. -/
def NodeIntf (i n f : Str) : Prop := i = n ++ ':' :: f ∧ ':' ∉ n ∧ ':' ∉ f ∧ '#' ∉ f

theorem oess_portVlan_iff {i : Str} {v : Int} (e : OEnd) :
    Oess.portVlan (i ++ '#' :: showInt v) = .ok e ↔ NodeIntf i e.node e.intf ∧ e.tag = showInt v := by
  have hv : ∀ c ∈ [':', '#'], c ∉ showInt v := fun c hc hm => by
    simp only [List.mem_cons, List.not_mem_nil, or_false] at hc
    rcases showInt_chars hm with h | h <;> rcases hc with rfl | rfl <;> first | (simp at h) | exact absurd h (by decide)
  obtain ⟨n, f, g⟩ := e
  constructor
  · intro h
    unfold Oess.portVlan at h
    split at h
    · rename_i sw iv h1
      split at h
      · rename_i x y h2
        simp only [Except.ok.injEq, OEnd.mk.injEq] at h
        obtain ⟨rfl, rfl, rfl⟩ := h
        obtain ⟨ha, hb, hc⟩ := splitOn_eq_two h1
        obtain ⟨hd, he, hf⟩ := splitOn_eq_two h2
        subst hf
        have hcut : i = sw ++ ':' :: x ∧ showInt v = y := by
          have h3 : cutLast '#' (i ++ '#' :: showInt v) = some (i, showInt v) := cutLast_append _ (hv _ (by simp))
          have h4 : cutLast '#' ((sw ++ ':' :: x) ++ '#' :: y) = some (sw ++ ':' :: x, y) := cutLast_append _ he
          have h5 : sw ++ ':' :: (x ++ '#' :: y) = (sw ++ ':' :: x) ++ '#' :: y := by simp
          rw [hc, h5, h4] at h3
          simp only [Option.some.injEq, Prod.mk.injEq] at h3
          exact ⟨h3.1.symm, h3.2.symm⟩
        refine ⟨⟨hcut.1, ha, ?_, hd⟩, hcut.2.symm⟩
        intro hm
        exact hb (by simp [hm])
      · simp at h
    · simp at h
  · rintro ⟨⟨rfl, h1, h2, h3⟩, h4⟩
    simp only at h1 h2 h3 h4
    subst h4
    have hb : ':' ∉ f ++ '#' :: showInt v := by
      simp only [List.mem_append, List.mem_cons, not_or]
      exact ⟨h2, by decide, hv _ (by simp)⟩
    unfold Oess.portVlan
    rw [List.append_assoc, List.cons_append, splitOn_two h1 hb]
    simp only
    rw [splitOn_two h3 (hv _ (by simp))]

/-- C67 for OESS: the ends for which a set up gets as far as asking the server are those with vlans from 1 to 4094 and interfaces that are named
`node:interface`; the request names both. Missing: others are accepted too, see `C67_oess_fails`; what the server answers is C71. -/
theorem C67_oess_partial (pm : PortMap) (sp dp : Str) (p q : DPort) (hp : dget pm sp = some p) (hq : dget pm dp = some q) (sl dl : Option LabelVal) :
    (∃ a b s d e f, Oess.manager.getResource pm sp sl = .ok a ∧ Oess.manager.getResource pm dp dl = .ok b ∧ Oess.getTarget pm sp sl = .ok s ∧
      Oess.getTarget pm dp dl = .ok d ∧ Oess.portVlan s = .ok e ∧ Oess.portVlan d = .ok f ∧
      ∃ v w, sl = some (tVlan, v) ∧ dl = some (tVlan, w) ∧ e.tag = showInt v ∧ f.tag = showInt w ∧ p.interface = e.node ++ ':' :: e.intf ∧
        q.interface = f.node ++ ':' :: f.intf) ↔
    (∃ v, VlanIn 4094 sl v) ∧ (∃ w, VlanIn 4094 dl w) ∧ (∃ n f, NodeIntf p.interface n f) ∧ ∃ n f, NodeIntf q.interface n f := by
  constructor
  · rintro ⟨a, b, s, d, e, f, _, _, h3, h4, h5, h6, _⟩
    obtain ⟨v, hv, rfl⟩ := (oess_getTarget_iff hp s).1 h3
    obtain ⟨w, hw, rfl⟩ := (oess_getTarget_iff hq d).1 h4
    exact ⟨⟨v, hv⟩, ⟨w, hw⟩, ⟨_, _, ((oess_portVlan_iff e).1 h5).1⟩, ⟨_, _, ((oess_portVlan_iff f).1 h6).1⟩⟩
  · rintro ⟨⟨v, hv⟩, ⟨w, hw⟩, ⟨n, f, h1⟩, ⟨n', f', h2⟩⟩
    exact ⟨sp ++ ':' :: showInt v, dp ++ ':' :: showInt w, _, _, ⟨n, f, showInt v⟩, ⟨n', f', showInt w⟩, by rw [hv.1]; rfl, by rw [hw.1]; rfl,
      (oess_getTarget_iff hp _).2 ⟨v, hv, rfl⟩, (oess_getTarget_iff hq _).2 ⟨w, hw, rfl⟩, (oess_portVlan_iff _).2 ⟨h1, rfl⟩, (oess_portVlan_iff _).2 ⟨h2, rfl⟩,
      v, w, hv.1, hw.1, rfl, rfl, h1.1, h2.1⟩

/-- C67 fails for OESS: ports without label and with mpls labels, vlan 4095, and interfaces without colon are accepted, but cannot be set up. Except for the
first ones, the names of the resources can be made, so that the exception comes after the calendar has been filled. -/
theorem C67_oess_fails (pm : PortMap) (sp : Str) (p : DPort) (hp : dget pm sp = some p) :
    (∀ l ∈ [none, some (tMpls, 7), some (tVlan, 4095)], Oess.manager.Connects l l ∧ (∀ s, Oess.getTarget pm sp l ≠ .ok s) ∧
      (l.isSome → ∀ x, ∃ r, Oess.manager.getResource pm x l = .ok r)) ∧
    Oess.manager.Connects (some (tVlan, 12)) (some (tVlan, 13)) ∧
    (':' ∉ p.interface → ∃ s, Oess.getTarget pm sp (some (tVlan, 12)) = .ok s ∧ ∀ e, Oess.portVlan s ≠ .ok e) := by
  have hvm := tVlan_ne_tMpls
  refine ⟨fun l hl => ⟨⟨rfl, Or.inl ⟨rfl, rfl⟩⟩, ?_, ?_⟩, ⟨rfl, Or.inl ⟨rfl, rfl⟩⟩, fun h => ?_⟩
  · intro s hs
    obtain ⟨v, ⟨h1, h2⟩, _⟩ := (oess_getTarget_iff hp s).1 hs
    simp only [List.mem_cons, List.not_mem_nil, or_false] at hl
    rcases hl with rfl | rfl | rfl
    · simp at h1
    · simp [hvm.symm] at h1
    · simp only [Option.some.injEq, Prod.mk.injEq, true_and] at h1
      omega
  · intro h x
    obtain ⟨l, rfl⟩ := Option.isSome_iff_exists.1 h
    exact ⟨_, rfl⟩
  · refine ⟨_, (oess_getTarget_iff hp _).2 ⟨12, ⟨rfl, by decide, by decide⟩, rfl⟩, fun e he => ?_⟩
    have h1 := ((oess_portVlan_iff e).1 he).1.1
    rw [h1] at h
    simp at h

/-- Hypotheses of `C67_oess_partial` and its right side hold. -/
example : let pm : PortMap := [(['a'], ⟨['s', ':', '1'], none, some tVlan⟩), (['b'], ⟨['t', ':', '1'], none, some tVlan⟩)]
    dget pm ['a'] = some ⟨['s', ':', '1'], none, some tVlan⟩ ∧ dget pm ['b'] = some ⟨['t', ':', '1'], none, some tVlan⟩ ∧
    VlanIn 4094 (some (tVlan, 12)) 12 ∧ NodeIntf ['s', ':', '1'] ['s'] ['1'] ∧ NodeIntf ['t', ':', '1'] ['t'] ['1'] :=
  ⟨rfl, rfl, ⟨rfl, by decide, by decide⟩, ⟨rfl, by decide, by decide, by decide⟩, ⟨rfl, by decide, by decide, by decide⟩⟩

/-! ### force10.py and ncsvpn.py -/

/-- C67 fails for Force10 altogether: connections of two ends with the same label are accepted, but `label.type` does not exist (force10.py:276), so that no
resource has a name. -/
theorem C67_force10_fails : (∀ l l' : Option LabelVal, Force10.manager.Connects l l' ↔ l = l') ∧
    ∀ (pm : PortMap) (port : Str) (l : Option LabelVal) (r : Str), Force10.manager.getResource pm port l ≠ .ok r :=
  ⟨fun l l' => ⟨fun h => by simpa [Force10.manager] using h.2, fun h => ⟨by rw [h]; rfl, Or.inr h⟩⟩, by intro pm port l r; cases l <;> simp [Force10.manager, Force10.getResource]⟩

/-- C67 fails for NCS VPN altogether: `label.value` does not exist (ncsvpn.py:175), so that no resource has a name. -/
theorem C67_ncs_fails : Ncs.manager.Connects (some (tVlan, 12)) (some (tVlan, 12)) ∧
    ∀ (pm : PortMap) (port : Str) (l : Option LabelVal) (r : Str), Ncs.manager.getResource pm port l ≠ .ok r :=
  ⟨⟨rfl, Or.inr rfl⟩, by
    intro pm port l r
    cases l with
    | none => simp [Ncs.manager, Ncs.getResource]
    | some l => by_cases h : l.1 = tVlan <;> simp [Ncs.manager, Ncs.getResource, h]⟩

/-! ### dud.py -/

/-- C67 for the backend without device: it connects two ends if and only if both have no label or labels of the same type; and then the names of the
resources and of the targets can be made for every port of the map, and name the interface and the label. -/
theorem C67_dud (pm : PortMap) (port : Str) (p : DPort) (hp : dget pm port = some p) (sl dl : Option LabelVal) :
    (Dud.canConnect (sl.map Prod.fst) (dl.map Prod.fst) = true ↔ sl.map Prod.fst = dl.map Prod.fst) ∧
      ∀ t v, Dud.getResource pm port none = .ok (p.interface ++ [':']) ∧ Dud.getTarget pm port none = .ok (p.interface ++ ['#']) ∧
        Dud.getResource pm port (some (t, v)) = .ok (p.interface ++ ':' :: showInt v) ∧
        Dud.getTarget pm port (some (t, v)) = .ok (p.interface ++ '#' :: showInt v) := by
  refine ⟨?_, fun t v => ?_⟩
  · cases sl <;> cases dl <;> simp [Dud.canConnect]
  · simp [Dud.getResource, Dud.getTarget, lookup, hp, bind, Except.bind, lvText]

/-- Hypothesis of `C67_dud`, and both ways of its first part. -/
example : dget [(['a'], (⟨['i'], none, some tVlan⟩ : DPort))] ['a'] = some ⟨['i'], none, some tVlan⟩ ∧ Dud.canConnect (some tVlan) (some tVlan) = true ∧
    Dud.canConnect (some tVlan) none = false := by decide

/-! ### Different vlans -/

/-- C67: two ends with the vlans `v` and `w` are accepted, whatever the vlans, by the backends whose devices can change vlans, and by the
others exactly if the vlans are the same. -/
theorem C67_vlans (v w : Int) :
    (∀ m ∈ [Dud.manager, Mx.manager, Jex.manager, Pica.manager, Oess.manager, Ncs.manager], m.Connects (some ("vlan".toList, v)) (some ("vlan".toList, w))) ∧
    ∀ m ∈ [Ex.manager, Brocade.manager, Force10.manager, Vpls.manager], (m.Connects (some ("vlan".toList, v)) (some ("vlan".toList, w)) ↔ v = w) := by
  constructor
  · intro m hm
    simp only [List.mem_cons, List.not_mem_nil, or_false] at hm
    rcases hm with rfl | rfl | rfl | rfl | rfl | rfl
    · exact ⟨by rfl, Or.inl ⟨by rfl, by rfl⟩⟩
    · exact ⟨by rfl, Or.inl ⟨by rfl, by rfl⟩⟩
    · exact ⟨rfl, Or.inl ⟨rfl, rfl⟩⟩
    · exact ⟨rfl, Or.inl ⟨rfl, rfl⟩⟩
    · exact ⟨rfl, Or.inl ⟨rfl, rfl⟩⟩
    · exact ⟨rfl, Or.inl ⟨by rfl, by rfl⟩⟩
  · intro m hm
    simp only [List.mem_cons, List.not_mem_nil, or_false] at hm
    constructor
    · intro h
      rcases hm with rfl | rfl | rfl | rfl <;>
      · rcases h.2 with h | h
        · cases h.1
        · exact (Prod.mk.inj (Option.some.inj h)).2
    · rintro rfl
      rcases hm with rfl | rfl | rfl | rfl <;> exact ⟨rfl, Or.inr rfl⟩

end OpenNSA.Device
