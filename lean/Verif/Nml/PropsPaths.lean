import Verif.Nml.Paths
import Verif.Nml.Props
/-
C100: the database of networks.
-/
namespace OpenNSA.Nml
open Py

/-! ### Networks in the database -/

/-- **C100, adding.** A network is added under its id exactly if there is none with that id; it and its agent are found afterwards, and what is found for other ids
is unchanged. -/
theorem C100_add (t : Topology) (n : Network) (a : Str) :
    (t.add n a = .error .topology ↔ ∃ m, t.network n.id = .ok m) ∧
    ∀ t', t.add n a = .ok t' → t'.network n.id = .ok n ∧ t'.agent n.id = .ok a ∧
      ∀ id, id ≠ n.id → t'.network id = t.network id ∧ t'.agent id = t.agent id := by
  constructor
  · unfold Topology.add Topology.network dmem
    cases h : dget t n.id <;> simp
  · intro t' h
    unfold Topology.add at h
    split at h
    · cases h
    · cases h
      refine ⟨by simp [Topology.network, dget_dset], by simp [Topology.agent, dget_dset], fun id hid => ?_⟩
      have : dget (dset t n.id (n, a)) id = dget t id := by rw [dget_dset, if_neg]; first | exact hid | exact fun h => hid h.symm
      simp only [Topology.network, Topology.agent, this, and_self]

/-- **C100, lookups.** An id has either a network and an agent, and is in the database with both, or neither: then both lookups say that the
topology has none. -/
theorem C100_lookup (t : Topology) (id : Str) :
    ((∃ n a, (id, n, a) ∈ t ∧ t.network id = .ok n ∧ t.agent id = .ok a) ∨
      (t.network id = .error .topology ∧ t.agent id = .error .topology ∧ ∀ e ∈ t, e.1 ≠ id)) := by
  unfold Topology.network Topology.agent
  cases h : dget t id with
  | none => exact .inr ⟨rfl, rfl, dget_none.1 h⟩
  | some x => exact .inl ⟨x.1, x.2, dget_some_mem h, rfl, rfl⟩

theorem update_eq (t : Topology) (n : Network) (a : Str) : t.update n a = (dset (ddel t n.id) n.id (n, a), none) := by
  have h : dmem (ddel t n.id) n.id = false := by simp [dmem, dget_ddel]
  simp [Topology.update, Topology.add, h]

/-- **C100, updating.** Updating a network never fails, whether or not there is one with that id: the new network and its agent are found under the id afterwards, and
what is found for other ids is unchanged. -/
theorem C100_update (t : Topology) (n : Network) (a : Str) :
    (t.update n a).2 = none ∧ (t.update n a).1.network n.id = .ok n ∧ (t.update n a).1.agent n.id = .ok a ∧
      ∀ id, id ≠ n.id → (t.update n a).1.network id = t.network id ∧ (t.update n a).1.agent id = t.agent id := by
  rw [update_eq]
  refine ⟨rfl, by simp [Topology.network, dget_dset], by simp [Topology.agent, dget_dset], fun id hid => ?_⟩
  have : dget (dset (ddel t n.id) n.id (n, a)) id = dget t id := by
    rw [dget_dset, if_neg (by first | exact hid | exact fun h => hid h.symm), dget_ddel, if_neg (by first | exact hid | exact fun h => hid h.symm)]
  simp only [Topology.network, Topology.agent, this, and_self]

/-! ### Ports -/

/-- **C100, ports.** A port is found in a network exactly if one of its ports has the id, and the port that is found is a port of the network with that id; otherwise
the port is reported as unavailable. -/
theorem C100_port (n : Network) (id : Str) :
    (∀ p, n.port id = .ok p → p.id = id ∧ p ∈ n.ports) ∧
    ((∃ p ∈ n.ports, p.id = id) → ∃ p, n.port id = .ok p) ∧
    ((∀ p ∈ n.ports, p.id ≠ id) → n.port id = .error .unavailable) := by
  unfold Network.port
  refine ⟨fun p h => ?_, fun ⟨p, hp, he⟩ => ?_, fun h => ?_⟩
  · split at h
    · next q hq =>
      cases h
      exact ⟨by simpa using List.find?_some hq, List.mem_of_find?_eq_some hq⟩
    · cases h
  · cases hf : n.ports.find? (fun p => p.id = id) with
    | some q => exact ⟨q, rfl⟩
    | none =>
      have := List.find?_eq_none.1 hf p hp
      simp [he] at this
  · rw [List.find?_eq_none.2 fun p hp => by simpa using h p hp]

theorem networkPort_ok : ∀ {t : Topology} {id : Str} {k : Str} {p : AnyPort}, t.networkPort id = .ok (k, p) →
    p.id = id ∧ ∃ n a, (k, n, a) ∈ t ∧ p ∈ n.ports := by
  intro t
  induction t with
  | nil => intro id k p h; cases h
  | cons e t ih =>
    obtain ⟨i, n, a⟩ := e
    intro id k p h
    unfold Topology.networkPort at h
    cases hp : n.port id with
    | ok q =>
      rw [hp] at h
      cases h
      obtain ⟨h1, h2⟩ := (C100_port n id).1 _ hp
      exact ⟨h1, n, a, by simp, h2⟩
    | error e =>
      rw [hp] at h
      cases e with
      | attr => cases h
      | topology | unavailable =>
        obtain ⟨h1, m, b, h2, h3⟩ := ih h
        exact ⟨h1, m, b, List.mem_cons_of_mem _ h2, h3⟩

theorem port_error {n : Network} {id : Str} {e : TopErr} (h : n.port id = .error e) : e = .unavailable := by
  unfold Network.port at h
  split at h <;> cases h
  rfl

theorem networkPort_found : ∀ {t : Topology} {id : Str}, (∃ e ∈ t, ∃ p ∈ e.2.1.ports, p.id = id) → ∃ r, t.networkPort id = .ok r := by
  intro t
  induction t with
  | nil => rintro id ⟨e, he, _⟩; cases he
  | cons e t ih =>
    obtain ⟨i, n, a⟩ := e
    rintro id ⟨e, he, p, hp, hid⟩
    unfold Topology.networkPort
    cases hq : n.port id with
    | ok q => exact ⟨_, rfl⟩
    | error er =>
      rw [port_error hq]
      rcases List.mem_cons.1 he with rfl | he
      · obtain ⟨q, hq'⟩ := (C100_port n id).2.1 ⟨p, hp, hid⟩
        rw [hq] at hq'; cases hq'
      · exact ih ⟨e, he, p, hp, hid⟩

theorem networkPort_error : ∀ {t : Topology} {id : Str} {e : TopErr}, t.networkPort id = .error e → e = .topology := by
  intro t
  induction t with
  | nil => intro id e h; cases h; rfl
  | cons e t ih =>
    obtain ⟨i, n, a⟩ := e
    intro id e h
    unfold Topology.networkPort at h
    cases hq : n.port id with
    | ok q => rw [hq] at h; cases h
    | error er => rw [hq, port_error hq] at h; exact ih h

/-- **C100, ports of all networks.** A port is found among all networks exactly if one of them has a port with that id, and what is found is such a port and the id of its
network; otherwise the error says that the topology has none. -/
theorem C100_networkPort (t : Topology) (id : Str) :
    (∀ k p, t.networkPort id = .ok (k, p) → p.id = id ∧ ∃ n a, (k, n, a) ∈ t ∧ p ∈ n.ports) ∧
    ((∃ e ∈ t, ∃ p ∈ e.2.1.ports, p.id = id) → ∃ r, t.networkPort id = .ok r) ∧
    ((∀ e ∈ t, ∀ p ∈ e.2.1.ports, p.id ≠ id) → t.networkPort id = .error .topology) := by
  refine ⟨fun _ _ h => networkPort_ok h, networkPort_found, fun h => ?_⟩
  cases hr : t.networkPort id with
  | error e => rw [networkPort_error hr]
  | ok r =>
    obtain ⟨h1, n, a, h2, h3⟩ := networkPort_ok (k := r.1) (p := r.2) hr
    exact absurd h1 (h _ h2 _ h3)

/-! ### The other side of a port -/

/-- **C100, the other side is one.** Whatever the database holds, the port that is given as the other side of a port is a port of a network in it, of both directions:
its inbound direction is what the outbound direction of the port leads to, and the other way round. The search never raises an exception. -/
theorem C100_demarcation_sound (t : Topology) (b : Bidi) (hk : ∀ e ∈ t, e.1 = e.2.1.id) :
    ∃ r, t.demarcation b = .ok r ∧ ∀ net id, r = some (net, id) →
      ∃ n q, t.network net = .ok n ∧ n.id = net ∧ q ∈ n.bidirectional ∧ q.id = id ∧
        b.outbound.remote = some q.inbound.id ∧ b.inbound.remote = some q.outbound.id := by
  unfold Topology.demarcation
  cases ho : b.outbound.remote with
  | none => exact ⟨none, rfl, by simp⟩
  | some o =>
    cases hi : b.inbound.remote with
    | none => exact ⟨none, rfl, by simp⟩
    | some i =>
      simp only
      cases h1 : t.networkPort o with
      | error e =>
        rw [networkPort_error h1]
        exact ⟨none, rfl, by simp⟩
      | ok r1 =>
        obtain ⟨ni, pi⟩ := r1
        cases h2 : t.networkPort i with
        | error e =>
          rw [networkPort_error h2]
          exact ⟨none, rfl, by simp⟩
        | ok r2 =>
          obtain ⟨no, po⟩ := r2
          simp only
          by_cases hn : ni = no
          · rw [if_neg (by simp [hn])]
            obtain ⟨e1, n1, a1, hm1, _⟩ := networkPort_ok h1
            obtain ⟨e2, _⟩ := networkPort_ok h2
            cases hg : dget t ni with
            | none => exact absurd rfl (dget_none.1 hg _ hm1)
            | some v =>
              have hnet : t.network ni = .ok v.1 := by simp [Topology.network, hg]
              have hv := hk _ (dget_some_mem hg)
              simp only at hv
              rw [hnet]
              simp only
              cases hf : v.1.bidirectional.find? (fun r => r.inbound.id = pi.id && r.outbound.id = po.id) with
              | none => exact ⟨none, rfl, by simp⟩
              | some q =>
                refine ⟨_, rfl, ?_⟩
                intro net id he
                cases he
                have hq := List.find?_some hf
                simp only [Bool.and_eq_true, decide_eq_true_eq] at hq
                exact ⟨v.1, q, by rw [← hv, hnet], rfl, List.mem_of_find?_eq_some hf, rfl, by rw [hq.1, e1], by rw [hq.2, e2]⟩
          · rw [if_pos hn]
            exact ⟨none, rfl, by simp⟩

/-- The network in the database is one that was made from ports, under its id. -/
def Published (e : Str × Network × Str) (ports : List Nrm.Port) : Prop := ∃ readable, createNMLNetwork ports e.1 readable = .ok e.2.1

theorem createPorts_shape {net : Str} {p : Nrm.Port} {x : Port × Port × Bidi} (h : createPorts net p = .ok x) :
    ':' ∉ p.name ∧ x = (inOf net p, outOf net p, bidiOf net p) := by
  unfold createPorts Port.init at h
  split at h
  · cases h
  next i hi =>
  split at hi
  · cases hi
  next hu =>
  split at hi
  · cases hi
  next hc =>
  cases hi
  have hn : ':' ∉ p.name := fun h => hc (by simp [h])
  have hok : NetOk net := by
    unfold NetOk
    rw [prefix_colon] at hu
    exact Bool.eq_false_iff.2 hu
  refine ⟨hn, ?_⟩
  have h2 : ':' ∉ p.name ++ sufOut := by simp [sufOut, hn]
  have := bidi_init hok p
  unfold inOf outOf at this
  simp only [hok.id, h2, if_false, Bool.false_eq_true, this] at h
  cases h
  rfl

theorem createAll_shape {net : Str} : ∀ {ports : List Nrm.Port} {x}, createAll net ports = .ok x →
    (∀ p ∈ ports, ':' ∉ p.name) ∧ x = (ports.map (inOf net), ports.map (outOf net), ports.map (bidiOf net)) := by
  intro ports
  induction ports with
  | nil => intro x h; cases h; exact ⟨by simp, rfl⟩
  | cons p ps ih =>
    intro x h
    unfold createAll at h
    split at h
    · cases h
    next i o b hp =>
    split at h
    · cases h
    next is os bs hps =>
    cases h
    obtain ⟨h1, h2⟩ := createPorts_shape hp
    obtain ⟨h3, h4⟩ := ih hps
    cases h2
    cases h4
    exact ⟨fun q hq => (List.mem_cons.1 hq).elim (fun h => h ▸ h1) (h3 q), rfl⟩

theorem create_shape {net readable : Str} {ports : List Nrm.Port} {n : Network} (h : createNMLNetwork ports net readable = .ok n) :
    (∀ p ∈ ports, ':' ∉ p.name) ∧ n = ⟨net, readable, ports.map (inOf net), ports.map (outOf net), ports.map (bidiOf net)⟩ := by
  unfold createNMLNetwork at h
  split at h
  · cases h
  next i o b hc =>
  obtain ⟨h1, h2⟩ := createAll_shape hc
  cases h2
  unfold Network.init at h
  simp only at h
  split at h
  · cases h
  · cases h
    exact ⟨h1, rfl⟩

theorem colon_cut {a b s u : Str} (hs : ':' ∉ s) (hu : ':' ∉ u) (h : a ++ ':' :: s = b ++ ':' :: u) : a = b ∧ s = u := by
  have h1 := cutLast_append a hs
  have h2 := cutLast_append b hu
  rw [h, h2] at h1
  simp only [Option.some.injEq, Prod.mk.injEq] at h1
  exact ⟨h1.1.symm, h1.2.symm⟩

theorem published_ids {e : Str × Network × Str} {ports : List Nrm.Port} (h : Published e ports) {q : AnyPort} (hq : q ∈ e.2.1.ports) :
    ∃ s, ':' ∉ s ∧ q.id = e.1 ++ ':' :: s := by
  obtain ⟨r, h⟩ := h
  obtain ⟨h1, h2⟩ := create_shape h
  rw [h2] at hq
  simp only [Network.ports, List.map_map, List.mem_append, List.mem_map, Function.comp] at hq
  rcases hq with (⟨p, hp, rfl⟩ | ⟨p, hp, rfl⟩) | ⟨p, hp, rfl⟩
  · exact ⟨_, by simp [sufIn, h1 p hp], rfl⟩
  · exact ⟨_, by simp [sufOut, h1 p hp], rfl⟩
  · exact ⟨_, h1 p hp, rfl⟩

/-- **C100, the other side is found.** In a database of published networks, where a port of a network `x` and a port of the network `y` face each other, the port of `y` is
found as the other side of the port of `x`, whatever other networks there are. -/
theorem C100_demarcation (t : Topology) (ht : ∀ e ∈ t, ∃ ports, Published e ports) (x y : Str) (ny : Network) (a : Str) (ps : List Nrm.Port)
    (hy : dget t y = some (ny, a)) (hps : Published (y, ny, a) ps) (p q : Nrm.Port) (hq : q ∈ ps) (hf : Facing x y p q) :
    t.demarcation (bidiOf x p) = .ok (some (y, y ++ ':' :: q.name)) := by
  obtain ⟨d1, d2, _, _⟩ := C64_directions x y p q hf
  have hmem := dget_some_mem hy
  obtain ⟨r, hc⟩ := hps
  obtain ⟨hcol, hny⟩ := create_shape hc
  simp only at hny
  have hqc := hcol q hq
  have find : ∀ s, ':' ∉ s → (∃ w ∈ ny.ports, w.id = y ++ ':' :: s) → ∃ w, t.networkPort (y ++ ':' :: s) = .ok (y, w) ∧ w.id = y ++ ':' :: s := by
    intro s hs hw
    obtain ⟨⟨k, w⟩, hr⟩ := networkPort_found (t := t) ⟨_, hmem, hw⟩
    obtain ⟨hid, n, b, hm, hwn⟩ := networkPort_ok hr
    obtain ⟨ports, hpub⟩ := ht _ hm
    obtain ⟨u, hu, he⟩ := published_ids hpub hwn
    have := colon_cut hs hu (hid.symm.trans he)
    exact ⟨w, by rw [hr, this.1], hid⟩
  obtain ⟨w1, f1, g1⟩ := find (q.name ++ sufIn) (by simp [sufIn, hqc]) ⟨.uni (inOf y q), by
    rw [hny]; simp only [Network.ports, List.mem_append, List.mem_map]
    exact .inl (.inl ⟨_, ⟨q, hq, rfl⟩, rfl⟩), rfl⟩
  obtain ⟨w2, f2, g2⟩ := find (q.name ++ sufOut) (by simp [sufOut, hqc]) ⟨.uni (outOf y q), by
    rw [hny]; simp only [Network.ports, List.mem_append, List.mem_map]
    exact .inl (.inr ⟨_, ⟨q, hq, rfl⟩, rfl⟩), rfl⟩
  have e1 : (bidiOf x p).outbound.remote = some (y ++ ':' :: (q.name ++ sufIn)) := d2
  have e2 : (bidiOf x p).inbound.remote = some (y ++ ':' :: (q.name ++ sufOut)) := d1
  have hnet : t.network y = .ok ny := by simp [Topology.network, hy]
  unfold Topology.demarcation
  simp only [e1, e2, f1, f2, hnet, ne_eq, not_true, if_false, g1, g2]
  cases hfd : ny.bidirectional.find? (fun r => decide (r.inbound.id = y ++ ':' :: (q.name ++ sufIn)) && decide (r.outbound.id = y ++ ':' :: (q.name ++ sufOut))) with
  | none =>
    have := List.find?_eq_none.1 hfd (bidiOf y q) (by rw [hny]; exact List.mem_map.2 ⟨q, hq, rfl⟩)
    simp [bidiOf, inOf, outOf] at this
  | some v =>
    have hv := List.find?_some hfd
    have hm := List.mem_of_find?_eq_some hfd
    rw [hny] at hm
    obtain ⟨w, hw, rfl⟩ := List.mem_map.1 hm
    simp only [Bool.and_eq_true, decide_eq_true_eq] at hv
    have hv1 : y ++ ':' :: (w.name ++ sufIn) = y ++ ':' :: (q.name ++ sufIn) := hv.1
    have hwc := hcol w hw
    have c1 : ':' ∉ w.name ++ sufIn := by simp [sufIn, hwc]
    have c2 : ':' ∉ q.name ++ sufIn := by simp [sufIn, hqc]
    have := (colon_cut c1 c2 hv1).2
    have : w.name = q.name := by simpa using this
    rw [hny]
    simp [bidiOf, this]

/-- **C100, no other side.** A port without a remote port has no other side. -/
theorem C100_demarcation_none (t : Topology) (x : Str) (p : Nrm.Port) (h : p.remote = none) : t.demarcation (bidiOf x p) = .ok none := by
  simp [Topology.demarcation, bidiOf, inOf, outOf, h]

namespace Ex
/-- Two networks with one port each that face each other, and a third. -/
def pa : Nrm.Port := ⟨"p".toList, some ⟨"b".toList, "q".toList, "b:q-in".toList, "b:q-out".toList⟩, none, 1, "i".toList, [], [], false⟩
def pb : Nrm.Port := ⟨"q".toList, some ⟨"a".toList, "p".toList, "a:p-in".toList, "a:p-out".toList⟩, none, 1, "j".toList, [], [], false⟩
def pc : Nrm.Port := ⟨"q-in".toList, none, none, 1, "k".toList, [], [], false⟩
def nw (id : Str) (ps : List Nrm.Port) : Network := ⟨id, id, ps.map (inOf id), ps.map (outOf id), ps.map (bidiOf id)⟩
def top : Topology := [("a".toList, nw "a".toList [pa], "na".toList), ("c".toList, nw "c".toList [pc], "nc".toList), ("b".toList, nw "b".toList [pc, pb], "nb".toList)]
end Ex

/-- The hypotheses of `C100_demarcation` and `C100_demarcation_sound`; a port of the network is named like the inbound direction of the one that is searched. -/
example : (∀ e ∈ Ex.top, ∃ ports, Published e ports) ∧ Published ("b".toList, Ex.nw "b".toList [Ex.pc, Ex.pb], "nb".toList) [Ex.pc, Ex.pb] ∧
    dget Ex.top "b".toList = some (Ex.nw "b".toList [Ex.pc, Ex.pb], "nb".toList) ∧ Facing "a".toList "b".toList Ex.pa Ex.pb ∧ (∀ e ∈ Ex.top, e.1 = e.2.1.id) ∧
    Ex.top.demarcation (bidiOf "a".toList Ex.pa) = .ok (some ("b".toList, "b:q".toList)) ∧ Ex.top.demarcation (bidiOf "c".toList Ex.pc) = .ok none := by
  refine ⟨?_, ⟨"b".toList, by decide +kernel⟩, by decide +kernel, ⟨by decide +kernel, by decide +kernel⟩, by decide +kernel, by decide +kernel, by decide +kernel⟩
  intro e he
  simp only [Ex.top, List.mem_cons, List.not_mem_nil, or_false] at he
  rcases he with h | h | h
  · exact ⟨[Ex.pa], "a".toList, by rw [h]; decide +kernel⟩
  · exact ⟨[Ex.pc], "c".toList, by rw [h]; decide +kernel⟩
  · exact ⟨[Ex.pc, Ex.pb], "b".toList, by rw [h]; decide +kernel⟩

/-- Networks that are added, refused and replaced. -/
example : (∃ t, Topology.add [] (Ex.nw "a".toList [Ex.pa]) "na".toList = .ok t) ∧ Ex.top.add (Ex.nw "a".toList []) "x".toList = .error .topology ∧
    (Ex.top.update (Ex.nw "a".toList []) "x".toList).1.agent "a".toList = .ok "x".toList ∧ Ex.top.networkPort "b:q-in".toList = .ok ("b".toList, .uni (inOf "b".toList Ex.pb)) :=
  ⟨⟨_, rfl⟩, by decide +kernel, by decide +kernel, by decide +kernel⟩

/-! ### Paths -/

/-- **C100, paths.** No path is ever found by the database: whatever networks it holds, whatever the source and the destination are and however the search would go on,
`findPaths` (nml.py:249-275) raises an exception. Where the ports exist, are of both directions and the STP has a label, it is an AttributeError, as the port and not its label is
given to `Label.canMatch` (line 40). -/
theorem C100_paths_fails {α : Type} (t : Topology) (search : STP → STP → Except TopErr α) (s d : STP) :
    (∃ e, t.findPaths search s d = .error e) ∧
    ∀ sn dn bs bd l, t.network s.network = .ok sn → t.network d.network = .ok dn → sn.port s.port = .ok (.bidi bs) → dn.port d.port = .ok (.bidi bd) →
      s.label = some l → t.findPaths search s d = .error .attr := by
  constructor
  · unfold Topology.findPaths
    cases t.network s.network with
    | error e => exact ⟨e, rfl⟩
    | ok sn =>
      simp only
      cases sn.port s.port with
      | error e => exact ⟨e, rfl⟩
      | ok sp =>
        simp only
        cases t.network d.network with
        | error e => exact ⟨e, rfl⟩
        | ok dn =>
          simp only
          cases dn.port d.port with
          | error e => exact ⟨e, rfl⟩
          | ok dp =>
            cases sp <;> cases dp <;> cases s.label <;> simp [AnyPort.both, AnyPort.canMatchLabel, Port.canMatchLabel]
  · intro sn dn bs bd l h1 h2 h3 h4 h5
    simp [Topology.findPaths, h1, h2, h3, h4, h5, AnyPort.both, AnyPort.canMatchLabel, Port.canMatchLabel]

/-- STPs at both ends, with labels: the hypotheses of the second part. -/
example : Ex.top.network "a".toList = .ok (Ex.nw "a".toList [Ex.pa]) ∧ (Ex.nw "a".toList [Ex.pa]).port "a:p".toList = .ok (.bidi (bidiOf "a".toList Ex.pa)) ∧
    Ex.top.findPaths (fun _ _ => .ok ()) ⟨"a".toList, "a:p".toList, none⟩ ⟨"b".toList, "b:q".toList, none⟩ = .error .topology := by
  refine ⟨by decide +kernel, by decide +kernel, by decide +kernel⟩

end OpenNSA.Nml
