import Verif.Device.PropsSwitches
/-
C66 and C71 for OESS.
-/
namespace OpenNSA.Device
open Py OpenNSA.Backend

/-! ### Specification -/

/-- A connection between two ends. -/
structure OConn where
  s : OEnd
  d : OEnd
  deriving DecidableEq, Repr

/-- A target of oess.py:382, for an interface `node:intf`. -/
def OEnd.target (e : OEnd) : Str := e.node ++ ':' :: (e.intf ++ '#' :: e.tag)

/-- `getTarget` makes such targets. -/
theorem oess_getTarget {pm : PortMap} {port : Str} {v : Int} {p : DPort} {node intf : Str} (h : dget pm port = some p) (hi : p.interface = node ++ ':' :: intf)
    (hv : 1 ≤ v ∧ v ≤ 4094) : Oess.getTarget pm port (some (tVlan, v)) = .ok (OEnd.target ⟨node, intf, showInt v⟩) := by
  simp [Oess.getTarget, OEnd.target, lookup, h, hi, hv, bind, Except.bind]

/-- The names have no separators in them. -/
def OEnd.Plain (e : OEnd) : Prop := ':' ∉ e.node ∧ ':' ∉ e.intf ∧ ':' ∉ e.tag ∧ '#' ∉ e.intf ∧ '#' ∉ e.tag

/-- The same node and interface. -/
def OEnd.SameIntf (x y : OEnd) : Prop := x.node = y.node ∧ x.intf = y.intf

/-- Both pairs of ends are on the same two interfaces, in one order or the other. -/
def SamePair (a b s d : OEnd) : Prop := a.SameIntf s ∧ b.SameIntf d ∨ a.SameIntf d ∧ b.SameIntf s

/-- Setting up a connection, oess.py:390-400. -/
def Oess.up (c : OConn) (w : OServer × OSetup) : OServer × OSetup :=
  let r := Oess.provisioning w.1 w.2 c.s.target c.d.target
  (r.1, r.2.1)

/-- Taking a connection down, oess.py:402-413. -/
def Oess.down (c : OConn) (w : OServer × OSetup) : OServer × OSetup := ((Oess.removal w.1 w.2 c.s.target c.d.target).1, w.2)

/-- The server makes the circuit when asked to: it knows the interfaces, answers 0 or 1 when asked for the tags, and reports success. -/
structure OServer.Makes (w : OServer) (c : OConn) : Prop where
  plain : c.s.Plain ∧ c.d.Plain
  ports : c.s.intf ∈ w.ports c.s.node ∧ c.d.intf ∈ w.ports c.d.node
  tags : (w.available c.s = 1 ∨ w.available c.s = 0) ∧ (w.available c.d = 1 ∨ w.available c.d = 0)
  success : w.success c.s c.d = true

/-! ### Lemmas -/

theorem oess_portVlan {e : OEnd} (h : e.Plain) : Oess.portVlan e.target = .ok e := by
  obtain ⟨h1, h2, h3, h4, h5⟩ := h
  have h6 : ':' ∉ e.intf ++ '#' :: e.tag := by simp [h2, h3]
  unfold Oess.portVlan OEnd.target
  rw [splitOn_two h1 h6]
  simp only [splitOn_two h4 h5]

theorem oess_isCircuit {s d : OEnd} {c : Circuit} (h : ¬ SamePair c.a c.b s d) : Oess.isCircuit s d c = false := by
  unfold Oess.isCircuit
  unfold SamePair OEnd.SameIntf at h
  split
  · rename_i h1
    rw [Bool.eq_false_iff]
    simp only [ne_eq, Bool.and_eq_true, decide_eq_true_eq]
    exact fun hc => h (Or.inl ⟨⟨h1, hc.1.2⟩, hc.1.1, hc.2⟩)
  · split
    · rename_i h1
      rw [Bool.eq_false_iff]
      simp only [ne_eq, Bool.and_eq_true, decide_eq_true_eq]
      exact fun hc => h (Or.inr ⟨⟨h1, hc.1.2⟩, hc.1.1, hc.2⟩)
    · rfl

theorem oess_isCircuit_self (s d : OEnd) (n : Nat) : Oess.isCircuit s d ⟨n, s, d⟩ = true := by
  simp [Oess.isCircuit]

theorem checkEnd_ok {w : OServer} {e : OEnd} (h : e.Plain) (hp : e.intf ∈ w.ports e.node) (ht : w.available e = 1 ∨ w.available e = 0) :
    Oess.checkEnd w e.target = .ok e := by
  unfold Oess.checkEnd
  rw [oess_portVlan h]
  simp only [bind, Except.bind, hp, not_true_eq_false, if_false]
  rcases ht with h | h <;> simp [Oess.confirm, h]

theorem provisioning_ok {w : OServer} {o : OSetup} {g : Str} {c : OConn} (hg : dget w.groups o.workgroup = some g) (hm : w.Makes c) :
    Oess.provisioning w o c.s.target c.d.target =
      ({ w with circuits := fun g' => if g' = g then w.circuits g ++ [⟨w.nextId, c.s, c.d⟩] else w.circuits g', nextId := w.nextId + 1 },
       { o with workgroupId := some g }, .ok ()) := by
  unfold Oess.provisioning
  rw [hg]
  simp only [checkEnd_ok hm.plain.1 hm.ports.1 hm.tags.1, checkEnd_ok hm.plain.2 hm.ports.2 hm.tags.2]
  unfold OServer.provision
  simp [hm.success]

/-- The state of the server: the circuits of the connections `l` follow those of others. -/
structure OInv (w0 : OServer) (o0 : OSetup) (g : Str) (w : OServer) (o : OSetup) (l : List OConn) : Prop where
  same : w.groups = w0.groups ∧ w.ports = w0.ports ∧ w.available = w0.available ∧ w.success = w0.success
  name : o.workgroup = o0.workgroup
  gid : l ≠ [] → o.workgroupId = some g
  mine : ∃ L, w.circuits g = w0.circuits g ++ L ∧ L.map (fun c => (c.a, c.b)) = l.map fun c => (c.s, c.d)
  others : ∀ g', g' ≠ g → w.circuits g' = w0.circuits g'
  ids : ((w.circuits g).map Circuit.id).Nodup ∧ ∀ c ∈ w.circuits g, c.id ≠ 0 ∧ c.id < w.nextId
  next : w.nextId ≠ 0

theorem oinv_up {w0 w : OServer} {o0 o : OSetup} {g : Str} {l : List OConn} {c : OConn} (h : OInv w0 o0 g w o l)
    (hg : dget w0.groups o0.workgroup = some g) (hm : w0.Makes c) :
    OInv w0 o0 g (Oess.up c (w, o)).1 (Oess.up c (w, o)).2 (l ++ [c]) := by
  obtain ⟨h1, h2, h3, h4⟩ := h.same
  have hm' : w.Makes c := ⟨hm.plain, by rw [h2]; exact hm.ports, by rw [h3]; exact hm.tags, by rw [h4]; exact hm.success⟩
  have hg' : dget w.groups o.workgroup = some g := by rw [h1, h.name]; exact hg
  unfold Oess.up
  simp only [provisioning_ok hg' hm']
  obtain ⟨L, hL1, hL2⟩ := h.mine
  exact {
    same := ⟨h1, h2, h3, h4⟩
    name := h.name
    gid := fun _ => rfl
    mine := ⟨L ++ [⟨w.nextId, c.s, c.d⟩], by simp [hL1], by simp [hL2]⟩
    others := fun g' hg' => by simp [hg', h.others g' hg']
    ids := by
      simp only [if_true, List.map_append, List.map_cons, List.map_nil]
      refine ⟨?_, ?_⟩
      · rw [List.nodup_append]
        refine ⟨h.ids.1, by simp, ?_⟩
        intro a ha b hb
        simp only [List.mem_singleton] at hb; subst hb
        obtain ⟨x, hx, rfl⟩ := List.mem_map.1 ha
        exact Nat.ne_of_lt (h.ids.2 x hx).2
      · intro x hx
        rcases List.mem_append.1 hx with hx | hx
        · exact ⟨(h.ids.2 x hx).1, Nat.lt_succ_of_lt (h.ids.2 x hx).2⟩
        · simp only [List.mem_singleton] at hx; subst hx
          exact ⟨h.next, Nat.lt_succ_self _⟩
    next := Nat.succ_ne_zero _ }

/-- The place of a connection in the list. -/
theorem split_map {L : List Circuit} : ∀ {l : List OConn} {c : OConn}, L.map (fun c => (c.a, c.b)) = l.map (fun c => (c.s, c.d)) → c ∈ l →
    ∃ L1 k L2 l1 l2, L = L1 ++ k :: L2 ∧ l = l1 ++ c :: l2 ∧ c ∉ l1 ∧ k.a = c.s ∧ k.b = c.d ∧
      L1.map (fun c => (c.a, c.b)) = l1.map (fun c => (c.s, c.d)) ∧ L2.map (fun c => (c.a, c.b)) = l2.map (fun c => (c.s, c.d)) := by
  intro l
  induction l generalizing L with
  | nil => simp
  | cons x l ih =>
    intro c h hc
    cases L with
    | nil => simp at h
    | cons k L =>
      simp only [List.map_cons, List.cons.injEq, Prod.mk.injEq] at h
      by_cases hx : x = c
      · subst hx
        exact ⟨[], k, L, [], l, rfl, rfl, by simp, h.1.1, h.1.2, rfl, h.2⟩
      · have hc' : c ∈ l := (List.mem_cons.1 hc).resolve_left fun he => hx he.symm
        obtain ⟨L1, k', L2, l1, l2, e1, e2, e3, e4, e5, e6, e7⟩ := ih h.2 hc'
        refine ⟨k :: L1, k', L2, x :: l1, l2, by rw [e1]; rfl, by rw [e2]; rfl, ?_, e4, e5, ?_, e7⟩
        · intro hm
          rcases List.mem_cons.1 hm with hm | hm
          · exact hx hm.symm
          · exact e3 hm
        · simp [h.1.1, h.1.2, e6]

theorem oinv_down {w0 w : OServer} {o0 o : OSetup} {g : Str} {l : List OConn} {c : OConn} (h : OInv w0 o0 g w o l)
    (hc : c ∈ l) (hpl : c.s.Plain ∧ c.d.Plain) (hb : ∀ k ∈ w0.circuits g, ¬ SamePair k.a k.b c.s c.d)
    (hl : ∀ x ∈ l, x ≠ c → ¬ SamePair x.s x.d c.s c.d) :
    OInv w0 o0 g (Oess.down c (w, o)).1 (Oess.down c (w, o)).2 (l.erase c) := by
  obtain ⟨L, hL1, hL2⟩ := h.mine
  obtain ⟨L1, k, L2, l1, l2, rfl, rfl, hn, hka, hkb, hm1, hm2⟩ := split_map hL2 hc
  have hgid : o.groupText = g := by
    have := h.gid (by simp)
    simp [OSetup.groupText, this]
  have hno : ∀ x ∈ w0.circuits g ++ L1, Oess.isCircuit c.s c.d x = false := by
    intro x hx
    rcases List.mem_append.1 hx with hx | hx
    · exact oess_isCircuit (hb x hx)
    · have : (x.a, x.b) ∈ l1.map fun c => (c.s, c.d) := by rw [← hm1]; exact List.mem_map.2 ⟨x, hx, rfl⟩
      obtain ⟨y, hy, he⟩ := List.mem_map.1 this
      simp only [Prod.mk.injEq] at he
      refine oess_isCircuit ?_
      rw [← he.1, ← he.2]
      exact hl y (by simp [hy]) fun h2 => hn (h2 ▸ hy)
  have hyes : Oess.isCircuit c.s c.d k = true := by
    have := oess_isCircuit_self c.s c.d k.id
    rw [← hka, ← hkb] at this ⊢
    exact this
  have hfind : (w.circuits g).find? (Oess.isCircuit c.s c.d) = some k := by
    rw [hL1, ← List.append_assoc, List.find?_append, List.find?_eq_none.2 (by simpa using hno)]
    simp [hyes]
  have hid : Oess.circuitId (w.circuits o.groupText) c.s.target c.d.target = .ok k.id := by
    unfold Oess.circuitId
    rw [oess_portVlan hpl.1, oess_portVlan hpl.2]
    simp only [bind, Except.bind, hgid, hfind]
  have hk : k ∈ w.circuits g := by rw [hL1]; simp
  have hfilter : (w.circuits g).filter (fun x => x.id ≠ k.id) = w0.circuits g ++ (L1 ++ L2) := by
    have hnd := h.ids.1
    rw [hL1] at hnd ⊢
    have e : w0.circuits g ++ (L1 ++ k :: L2) = (w0.circuits g ++ L1) ++ k :: L2 := by simp
    rw [e] at hnd ⊢
    rw [List.map_append, List.map_cons] at hnd
    have hnd2 := List.nodup_append.1 hnd
    rw [List.filter_append, List.filter_cons]
    simp only [ne_eq, not_true_eq_false, decide_false, Bool.false_eq_true, if_false]
    rw [List.filter_eq_self.2, List.filter_eq_self.2, List.append_assoc]
    · intro x hx
      simp only [decide_eq_true_eq]
      intro he
      exact (List.nodup_cons.1 hnd2.2.1).1 (List.mem_map.2 ⟨x, hx, he⟩)
    · intro x hx
      simp only [decide_eq_true_eq]
      intro he
      exact hnd2.2.2 x.id (List.mem_map.2 ⟨x, hx, rfl⟩) k.id List.mem_cons_self he
  have herase : (l1 ++ c :: l2).erase c = l1 ++ l2 := by
    rw [List.erase_append_right _ hn]; simp
  rw [hgid] at hid
  unfold Oess.down Oess.removal
  simp only [hgid, hid, (h.ids.2 k hk).1, if_false, herase]
  exact {
    same := h.same
    name := h.name
    gid := fun _ => h.gid (by simp)
    mine := ⟨L1 ++ L2, by simpa using hfilter, by simp [hm1, hm2]⟩
    others := fun g' hg' => by simp [hg', h.others g' hg']
    ids := by
      simp only [if_true]
      refine ⟨?_, fun x hx => h.ids.2 x (List.mem_filter.1 hx).1⟩
      exact h.ids.1.sublist (List.Sublist.map _ List.filter_sublist)
    next := h.next }

theorem samePair_symm {a b s d : OEnd} (h : SamePair a b s d) : SamePair s d a b := by
  unfold SamePair OEnd.SameIntf at *
  rcases h with ⟨⟨h1, h2⟩, h3, h4⟩ | ⟨⟨h1, h2⟩, h3, h4⟩
  · exact Or.inl ⟨⟨h1.symm, h2.symm⟩, h3.symm, h4.symm⟩
  · exact Or.inr ⟨⟨h3.symm, h4.symm⟩, h1.symm, h2.symm⟩

theorem oinv_run {w0 : OServer} {o0 : OSetup} {g : Str} (hg : dget w0.groups o0.workgroup = some g) :
    ∀ (ops : List (Op OConn)) (w : OServer × OSetup) (l : List OConn), OInv w0 o0 g w.1 w.2 l → l.Pairwise (fun x y => ¬ SamePair x.s x.d y.s y.d) →
      Proper (fun x y => ¬ SamePair x.s x.d y.s y.d) l ops → (∀ o ∈ ops, w0.Makes o.conn) →
      (∀ o ∈ ops, ∀ k ∈ w0.circuits g, ¬ SamePair k.a k.b o.conn.s o.conn.d) →
      OInv w0 o0 g (runOps Oess.up Oess.down w ops).1 (runOps Oess.up Oess.down w ops).2 (upAfter l ops) := by
  intro ops
  induction ops with
  | nil => exact fun _ _ h _ _ _ _ => h
  | cons o ops ih =>
    intro w l h hpw hp hm hb
    have hm' : ∀ o ∈ ops, w0.Makes o.conn := fun x hx => hm x (List.mem_cons_of_mem _ hx)
    have hb' : ∀ o ∈ ops, ∀ k ∈ w0.circuits g, ¬ SamePair k.a k.b o.conn.s o.conn.d := fun x hx => hb x (List.mem_cons_of_mem _ hx)
    cases o with
    | up c =>
      refine ih _ _ (oinv_up h hg (hm _ List.mem_cons_self)) ?_ hp.2 hm' hb'
      rw [List.pairwise_append]
      refine ⟨hpw, List.pairwise_singleton _ _, ?_⟩
      intro x hx y hy
      simp only [List.mem_singleton] at hy; subst hy
      exact hp.1 x hx
    | down c =>
      refine ih _ _ (oinv_down h hp.1 (hm _ List.mem_cons_self).plain (hb _ List.mem_cons_self) ?_) (hpw.sublist List.erase_sublist) hp.2 hm' hb'
      intro x hx hne
      have key : ∀ l : List OConn, l.Pairwise (fun x y => ¬ SamePair x.s x.d y.s y.d) → ∀ a ∈ l, ∀ b ∈ l, a ≠ b → ¬ SamePair a.s a.d b.s b.d := by
        intro l hl
        induction hl with
        | nil => simp
        | cons hr _ ih =>
          intro a ha b hb hne
          rcases List.mem_cons.1 ha with rfl | ha' <;> rcases List.mem_cons.1 hb with rfl | hb'
          · exact absurd rfl hne
          · exact hr b hb'
          · exact fun hs => hr a ha' (samePair_symm hs)
          · exact ih a ha' b hb' hne
      exact key l hpw x hx c hp.1 hne

/-! ### Results -/

/-- C66 for OESS: after any sequence of set ups and tear downs of connections between different pairs of interfaces, the circuits of
the workgroup are those of others, as before, and one for each connection that is up; other workgroups are as before. Missing:
several connections between the same two interfaces, see `C66_oess_vlan_fails`; servers that refuse, see C71. -/
theorem C66_oess_partial (w : OServer) (o : OSetup) (g : Str) (ops : List (Op OConn)) (hg : dget w.groups o.workgroup = some g)
    (hid : ((w.circuits g).map Circuit.id).Nodup ∧ ∀ c ∈ w.circuits g, c.id ≠ 0 ∧ c.id < w.nextId) (hn : w.nextId ≠ 0)
    (hp : Proper (fun x y => ¬ SamePair x.s x.d y.s y.d) [] ops) (hm : ∀ p ∈ ops, w.Makes p.conn)
    (hb : ∀ p ∈ ops, ∀ k ∈ w.circuits g, ¬ SamePair k.a k.b p.conn.s p.conn.d) :
    ((runOps Oess.up Oess.down (w, o) ops).1.circuits g).map (fun c => (c.a, c.b)) =
      (w.circuits g).map (fun c => (c.a, c.b)) ++ (upAfter [] ops).map (fun c => (c.s, c.d)) ∧
    ∀ g', g' ≠ g → (runOps Oess.up Oess.down (w, o) ops).1.circuits g' = w.circuits g' := by
  have h0 : OInv w o g w o [] :=
    ⟨⟨rfl, rfl, rfl, rfl⟩, rfl, fun h => absurd rfl h, ⟨[], by simp, rfl⟩, fun _ _ => rfl, hid, hn⟩
  have h := oinv_run hg ops (w, o) [] h0 List.Pairwise.nil hp hm hb
  obtain ⟨L, h1, h2⟩ := h.mine
  exact ⟨by rw [h1, List.map_append, h2], h.others⟩

/-- An example server with one workgroup, a circuit of somebody else, and four interfaces on each switch. -/
def Exm.srv : OServer where
  groups := [(['w'], ['7'])]
  circuits := fun g => if g = ['7'] then [⟨1, ⟨['s'], ['4'], ['9']⟩, ⟨['t'], ['4'], ['9']⟩⟩] else []
  ports := fun _ => [['1'], ['2'], ['3'], ['4']]
  available := fun _ => 1
  success := fun _ _ => true
  nextId := 2

/-- Example connections: between the first interfaces of two switches, and from the first one to the second one. -/
def Exm.o1 : OConn := ⟨⟨['s'], ['1'], "12".toList⟩, ⟨['t'], ['1'], "12".toList⟩⟩
/-- See `Exm.o1`. -/
def Exm.o2 : OConn := ⟨⟨['s'], ['1'], "13".toList⟩, ⟨['t'], ['2'], "13".toList⟩⟩
/-- A second connection between the same interfaces as `Exm.o1`. -/
def Exm.o3 : OConn := ⟨⟨['s'], ['1'], "14".toList⟩, ⟨['t'], ['1'], "14".toList⟩⟩

/-- Hypotheses of `C66_oess_partial` hold; the circuit of somebody else and that of the second connection are left. -/
example : dget Exm.srv.groups ['w'] = some ['7'] ∧
    (((Exm.srv.circuits ['7']).map Circuit.id).Nodup ∧ ∀ c ∈ Exm.srv.circuits ['7'], c.id ≠ 0 ∧ c.id < Exm.srv.nextId) ∧
    Proper (fun x y => ¬ SamePair x.s x.d y.s y.d) [] [.up Exm.o1, .up Exm.o2, .down Exm.o1] ∧
    (∀ p ∈ [Op.up Exm.o1, .up Exm.o2, .down Exm.o1], Exm.srv.Makes p.conn) ∧
    (∀ p ∈ [Op.up Exm.o1, .up Exm.o2, .down Exm.o1], ∀ k ∈ Exm.srv.circuits ['7'], ¬ SamePair k.a k.b p.conn.s p.conn.d) ∧
    (runOps Oess.up Oess.down (Exm.srv, ⟨['w'], none⟩) [.up Exm.o1, .up Exm.o2, .down Exm.o1]).1.circuits ['7'] =
      [⟨1, ⟨['s'], ['4'], ['9']⟩, ⟨['t'], ['4'], ['9']⟩⟩, ⟨3, Exm.o2.s, Exm.o2.d⟩] := by
  refine ⟨by decide, by decide, ?_, ?_, ?_, by decide +kernel⟩
  · simp only [Proper, SamePair, OEnd.SameIntf, List.nil_append]
    decide +kernel
  · have h1 : Exm.srv.Makes Exm.o1 := ⟨by unfold OEnd.Plain; decide +kernel, by decide +kernel, by decide +kernel, rfl⟩
    have h2 : Exm.srv.Makes Exm.o2 := ⟨by unfold OEnd.Plain; decide +kernel, by decide +kernel, by decide +kernel, rfl⟩
    intro o ho
    simp only [List.mem_cons, List.not_mem_nil, or_false] at ho
    rcases ho with rfl | rfl | rfl <;> assumption
  · unfold SamePair OEnd.SameIntf
    decide +kernel

/-- C66 fails for OESS: circuits are looked up by their interfaces and not by their vlans (oess.py:69-80). Of two connections between the same
interfaces, taking down the second one removes the circuit of the first one, and its own circuit stays. -/
theorem C66_oess_vlan_fails : ∃ (w : OServer) (o : OSetup) (x y : OConn), w.Makes x ∧ w.Makes y ∧ x.s.tag ≠ y.s.tag ∧ x.d.tag ≠ y.d.tag ∧
    (runOps Oess.up Oess.down (w, o) [.up x, .up y]).1.circuits ['7'] = w.circuits ['7'] ++ [⟨2, x.s, x.d⟩, ⟨3, y.s, y.d⟩] ∧
    (runOps Oess.up Oess.down (w, o) [.up x, .up y, .down y]).1.circuits ['7'] = w.circuits ['7'] ++ [⟨3, y.s, y.d⟩] :=
  ⟨Exm.srv, ⟨['w'], none⟩, Exm.o1, Exm.o3, ⟨by unfold OEnd.Plain; decide +kernel, by decide +kernel, by decide +kernel, rfl⟩,
    ⟨by unfold OEnd.Plain; decide +kernel, by decide +kernel, by decide +kernel, rfl⟩, by decide, by decide, by decide +kernel, by decide +kernel⟩

/-- C71: if the server reports success, setting up a link is reported as done, and the circuit between its two ends exists. Missing: servers that
do not, see `C71_refused_fails`. -/
theorem C71_up_partial (w : OServer) (o : OSetup) (g : Str) (c : OConn) (hg : dget w.groups o.workgroup = some g) (hm : w.Makes c) :
    (Oess.provisioning w o c.s.target c.d.target).2.2 = .ok () ∧
    ∃ k ∈ (Oess.provisioning w o c.s.target c.d.target).1.circuits g, k.a = c.s ∧ k.b = c.d := by
  rw [provisioning_ok hg hm]
  exact ⟨rfl, ⟨w.nextId, c.s, c.d⟩, by simp, rfl, rfl⟩

/-- If setting up a link raises an exception, the server is as before. -/
theorem C71_error (w : OServer) (o : OSetup) (src dst : Str) (x : DevErr) (h : (Oess.provisioning w o src dst).2.2 = .error x) :
    (Oess.provisioning w o src dst).1 = w := by
  unfold Oess.provisioning at *
  cases hg : dget w.groups o.workgroup with
  | none => rfl
  | some g =>
    simp only [hg] at h ⊢
    cases hs : Oess.checkEnd w src with
    | error y => rfl
    | ok s =>
      simp only [hs] at h ⊢
      cases hd : Oess.checkEnd w dst with
      | error y => rfl
      | ok d => rw [hd] at h; simp at h

/-- An interface that the server does not know on the switch: the link is not set up, and the server is as before. -/
theorem C71_interface (w : OServer) (o : OSetup) (c : OConn) (hpl : c.s.Plain ∧ c.d.Plain)
    (h : c.s.intf ∉ w.ports c.s.node ∨ c.d.intf ∉ w.ports c.d.node) :
    (∃ x, (Oess.provisioning w o c.s.target c.d.target).2.2 = .error x) ∧ (Oess.provisioning w o c.s.target c.d.target).1 = w := by
  have key : ∃ x, (Oess.provisioning w o c.s.target c.d.target).2.2 = .error x := by
    unfold Oess.provisioning
    cases hg : dget w.groups o.workgroup with
    | none => exact ⟨_, rfl⟩
    | some g =>
      simp only
      cases hs : Oess.checkEnd w c.s.target with
      | error y => exact ⟨_, rfl⟩
      | ok s =>
        simp only
        cases hd : Oess.checkEnd w c.d.target with
        | error y => exact ⟨_, rfl⟩
        | ok d =>
          exfalso
          rcases h with h | h
          · simp [Oess.checkEnd, oess_portVlan hpl.1, h, bind, Except.bind] at hs
          · simp [Oess.checkEnd, oess_portVlan hpl.2, h, bind, Except.bind] at hd
  exact ⟨key, C71_error w o _ _ key.choose key.choose_spec⟩

/-- If there is no circuit between the interfaces, taking the link down changes nothing at the server. -/
theorem C71_none (w : OServer) (o : OSetup) (c : OConn) (hpl : c.s.Plain ∧ c.d.Plain)
    (h : ∀ g, ∀ k ∈ w.circuits g, ¬ SamePair k.a k.b c.s c.d) :
    Oess.removal w o c.s.target c.d.target = (w, .ok ()) := by
  have hf : (w.circuits o.groupText).find? (Oess.isCircuit c.s c.d) = none := by
    rw [List.find?_eq_none]
    intro k hk hi
    simp [oess_isCircuit (h _ k hk)] at hi
  simp [Oess.removal, Oess.circuitId, oess_portVlan hpl.1, oess_portVlan hpl.2, hf, bind, Except.bind]

/-- Hypotheses of `C71_interface` and `C71_none` hold. -/
example : ∃ c : OConn, (c.s.Plain ∧ c.d.Plain) ∧ c.s.intf ∉ Exm.srv.ports c.s.node ∧ ∀ g, ∀ k ∈ Exm.srv.circuits g, ¬ SamePair k.a k.b c.s c.d := by
  refine ⟨⟨⟨['s'], ['5'], ['9']⟩, ⟨['t'], ['1'], ['9']⟩⟩, by unfold OEnd.Plain; decide +kernel, by decide +kernel, ?_⟩
  intro g k hk
  unfold Exm.srv at hk
  simp only at hk
  split at hk
  · simp only [List.mem_singleton] at hk; subst hk
    unfold SamePair OEnd.SameIntf
    decide +kernel
  · simp at hk

/-- Hypotheses of `C71_up_partial` and of `C71_error` hold. -/
example : dget Exm.srv.groups ['w'] = some ['7'] ∧ Exm.srv.Makes Exm.o1 ∧
    (Oess.provisioning Exm.srv ⟨['w'], none⟩ (OEnd.target ⟨['s'], ['5'], ['9']⟩) (OEnd.target ⟨['t'], ['1'], ['9']⟩)).2.2 = .error .other :=
  ⟨by decide, ⟨by unfold OEnd.Plain; decide +kernel, by decide +kernel, by decide +kernel, rfl⟩, rfl⟩

/-- C71 fails: when the server refuses to make the circuit, setting up the link is reported as done all the same (oess.py:90-91 returns `None`). -/
theorem C71_refused_fails : ∃ (w : OServer) (o : OSetup) (c : OConn), w.success c.s c.d = false ∧
    (Oess.provisioning w o c.s.target c.d.target).2.2 = .ok () ∧
    ∀ g, ∀ k ∈ (Oess.provisioning w o c.s.target c.d.target).1.circuits g, ¬ SamePair k.a k.b c.s c.d := by
  refine ⟨{ Exm.srv with success := fun _ _ => false }, ⟨['w'], none⟩, Exm.o1, rfl, rfl, ?_⟩
  intro g k hk
  have : k ∈ Exm.srv.circuits g := hk
  unfold Exm.srv at this
  simp only at this
  split at this
  · simp only [List.mem_singleton] at this; subst this
    unfold SamePair OEnd.SameIntf
    decide +kernel
  · simp at this

/-- C71 fails: a tag that the server says is not available (0) is taken to be available (oess.py:114-115). -/
theorem C71_unavailable_fails : ∃ (w : OServer) (o : OSetup) (c : OConn), w.available c.s = 0 ∧
    (Oess.provisioning w o c.s.target c.d.target).2.2 = .ok () ∧
    (Oess.provisioning w o c.s.target c.d.target).1.circuits ['7'] = w.circuits ['7'] ++ [⟨2, c.s, c.d⟩] :=
  ⟨{ Exm.srv with available := fun _ => 0 }, ⟨['w'], none⟩, Exm.o1, rfl, rfl, rfl⟩

/-- C71 fails: after a restart the id of the workgroup is not known (oess.py:237) until a link is set up. Taking down a link that was set up before
is reported as done, but the circuit stays. -/
theorem C71_restart_fails : ∃ (w : OServer) (o : OSetup) (c : OConn),
    let w1 := (Oess.provisioning w o c.s.target c.d.target).1
    let r := Oess.removal w1 ⟨o.workgroup, none⟩ c.s.target c.d.target
    w.Makes c ∧ r.2 = .ok () ∧ ⟨2, c.s, c.d⟩ ∈ r.1.circuits ['7'] :=
  ⟨Exm.srv, ⟨['w'], none⟩, Exm.o1, ⟨by unfold OEnd.Plain; decide +kernel, by decide +kernel, by decide +kernel, rfl⟩, by decide +kernel,
    by decide +kernel⟩

/-- C71 fails: on one switch, a circuit that the server lists with its endpoints in reverse is not found (oess.py:70 and 76: the second comparison is
made only if the first node differs); taking the link down is reported as done. Between two switches the order does not matter. -/
theorem C71_reverse_fails : ∃ (w : OServer) (o : OSetup) (c : OConn), w.circuits ['7'] = [⟨1, c.d, c.s⟩] ∧ o.workgroupId = some ['7'] ∧
    (Oess.removal w o c.s.target c.d.target).2 = .ok () ∧ (Oess.removal w o c.s.target c.d.target).1.circuits ['7'] = [⟨1, c.d, c.s⟩] :=
  ⟨{ Exm.srv with circuits := fun _ => [⟨1, ⟨['s'], ['2'], ['9']⟩, ⟨['s'], ['1'], ['9']⟩⟩] }, ⟨['w'], some ['7']⟩,
    ⟨⟨['s'], ['1'], ['9']⟩, ⟨['s'], ['2'], ['9']⟩⟩, rfl, rfl, by decide +kernel, by decide +kernel⟩

/-- C71 for tear downs between different switches, whichever way the server lists the endpoints: if the id of the workgroup is known and the
circuit is the only one between its interfaces, it is gone afterwards, and all others stay. Missing: see `C71_restart_fails`, `C71_reverse_fails`
and `C66_oess_vlan_fails`. -/
theorem C71_down_partial (w : OServer) (o : OSetup) (g : Str) (c : OConn) (k : Circuit) (hg : o.workgroupId = some g) (hpl : c.s.Plain ∧ c.d.Plain)
    (hk : k ∈ w.circuits g) (hkc : (k.a, k.b) = (c.s, c.d) ∨ (k.a, k.b) = (c.d, c.s)) (hne : c.s.node ≠ c.d.node) (hid : k.id ≠ 0)
    (hu : ∀ x ∈ w.circuits g, x ≠ k → ¬ SamePair x.a x.b c.s c.d ∧ x.id ≠ k.id) (x : Circuit) :
    (Oess.removal w o c.s.target c.d.target).2 = .ok () ∧
    (x ∈ (Oess.removal w o c.s.target c.d.target).1.circuits g ↔ x ∈ w.circuits g ∧ x ≠ k) := by
  have hgt : o.groupText = g := by simp [OSetup.groupText, hg]
  have hyes : Oess.isCircuit c.s c.d k = true := by
    unfold Oess.isCircuit
    rcases hkc with h | h <;> (simp only [Prod.mk.injEq] at h; rw [h.1, h.2])
    · simp
    · simp [Ne.symm hne]
  have hfind : (w.circuits g).find? (Oess.isCircuit c.s c.d) = some k := by
    cases hf : (w.circuits g).find? (Oess.isCircuit c.s c.d) with
    | none => exact absurd hyes (List.find?_eq_none.1 hf k hk)
    | some y =>
      by_cases hy : y = k
      · rw [hy]
      · have h1 := List.find?_some hf
        rw [oess_isCircuit (hu y (List.mem_of_find?_eq_some hf) hy).1] at h1
        simp at h1
  have hcid : Oess.circuitId (w.circuits o.groupText) c.s.target c.d.target = .ok k.id := by
    unfold Oess.circuitId
    rw [oess_portVlan hpl.1, oess_portVlan hpl.2]
    simp only [bind, Except.bind, hgt, hfind]
  rw [hgt] at hcid
  unfold Oess.removal
  simp only [hgt, hcid, hid, if_false, if_true, List.mem_filter, decide_eq_true_eq, true_and]
  constructor
  · rintro ⟨h1, h2⟩
    exact ⟨h1, fun he => h2 (by rw [he])⟩
  · rintro ⟨h1, h2⟩
    exact ⟨h1, (hu x h1 h2).2⟩

/-- Hypotheses of `C71_down_partial` hold for the circuit of the example server. -/
example : let c : OConn := ⟨⟨['s'], ['4'], ['9']⟩, ⟨['t'], ['4'], ['9']⟩⟩
    (c.s.Plain ∧ c.d.Plain) ∧ ⟨1, c.s, c.d⟩ ∈ Exm.srv.circuits ['7'] ∧ c.s.node ≠ c.d.node ∧
    (∀ x ∈ Exm.srv.circuits ['7'], x ≠ ⟨1, c.s, c.d⟩ → ¬ SamePair x.a x.b c.s c.d ∧ x.id ≠ 1) := by
  unfold OEnd.Plain SamePair OEnd.SameIntf
  decide +kernel

end OpenNSA.Device
