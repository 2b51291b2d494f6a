import Verif.Device.OessText
import Verif.Device.PropsOess
import Verif.Device.PropsLines
import Verif.Setup.Props
/-
C98: what an OESS server reads in the requests that it gets, and the commands for switches of force10.
-/
namespace OpenNSA.Device
open Py OpenNSA.Backend

/-! ### Specification -/

/-- None of the characters that mean something in a request. -/
def Value (s : Str) : Prop := ∀ c ∈ ['#', '&', ';', '%', '+'], c ∉ s

/-- The names of an end are such texts. -/
def OEnd.Values (e : OEnd) : Prop := Value e.node ∧ Value e.intf ∧ Value e.tag

/-- The request for the script `f` with the parameters `ps`. -/
def Reads (s : Str) (f : String) (ps : List (String × Str)) : Prop := readQuery s = some (f.toList, ps.map fun p => some (p.1.toList, p.2))

/-- Both ends, as parameters. -/
def OEnd.params (e : OEnd) : List (String × Str) := [("node", e.node), ("interface", e.intf), ("tag", e.tag)]

/-! ### Lemmas -/

instance (s : Str) : Decidable (Value s) := by unfold Value; infer_instance
instance (e : OEnd) : Decidable e.Values := by unfold OEnd.Values; infer_instance
instance (s f ps) : Decidable (Reads s f ps) := by unfold Reads; infer_instance

/-- A parameter that follows others. -/
def ampText (ps : List (Str × Str)) : Str := ps.flatMap fun p => '&' :: (p.1 ++ '=' :: p.2)

theorem Value.app {a b : Str} (ha : Value a) (hb : Value b) : Value (a ++ b) := fun c hc => by
  rw [List.mem_append, not_or]
  exact ⟨ha c hc, hb c hc⟩

theorem value_int (v : Int) : Value (showInt v) := fun c hc => by
  simp only [List.mem_cons, List.not_mem_nil, or_false] at hc
  rcases hc with rfl | rfl | rfl | rfl | rfl <;> exact showInt_no_char (by decide) (by decide) v

theorem map_if {a b : Char} {s : Str} (h : a ∉ s) : s.map (fun c => if c = a then b else c) = s := by
  induction s with
  | nil => rfl
  | cons x r ih =>
    rw [List.mem_cons, not_or] at h
    rw [List.map_cons, if_neg (fun e => h.1 e.symm), ih h.2]

theorem formDecode_value {s : Str} (h : Value s) : formDecode s = s := by
  rw [formDecode, map_if (h '+' (by simp)), Setup.unquote_plain (h '%' (by simp))]

/-- A parameter as a text. -/
def Good (p : Str × Str) : Prop := Value p.1 ∧ '=' ∉ p.1 ∧ Value p.2

theorem Good.read {p : Str × Str} (h : Good p) : (cutFirst '=' (p.1 ++ '=' :: p.2)).map (fun y => (formDecode y.1, formDecode y.2)) = some p := by
  rw [cutFirst_append _ h.2.1]
  simp only [Option.map_some, formDecode_value h.1, formDecode_value h.2.2]

theorem Good.not_mem {p : Str × Str} (h : Good p) {c : Char} (hc : c ∈ ['#', '&', ';', '%', '+']) : c ∉ p.1 ++ '=' :: p.2 := by
  rw [List.mem_append, List.mem_cons]
  rintro (h1 | rfl | h1)
  · exact h.1 c hc h1
  · revert hc; decide
  · exact h.2.2 c hc h1

theorem split_params : ∀ (ps : List (Str × Str)) (p : Str × Str), Good p → (∀ q ∈ ps, Good q) →
    splitOn '&' ((p.1 ++ '=' :: p.2) ++ ampText ps) = (p :: ps).map fun q => q.1 ++ '=' :: q.2
  | [], p, hp, _ => by
    rw [ampText, List.flatMap_nil, List.append_nil, splitOn_no_sep (hp.not_mem (by simp))]
    rfl
  | q :: ps, p, hp, h => by
    have := split_params ps q (h q (by simp)) fun x hx => h x (by simp [hx])
    show splitOn '&' ((p.1 ++ '=' :: p.2) ++ '&' :: ((q.1 ++ '=' :: q.2) ++ ampText ps)) = _
    rw [Ssh.splitOn_cut, splitOn_no_sep (hp.not_mem (by simp)), this]
    rfl

theorem not_mem_amp {c : Char} (hc : c = '#' ∨ c = ';') : ∀ ps : List (Str × Str), (∀ q ∈ ps, Good q) → c ∉ ampText ps
  | [], _ => by simp [ampText]
  | q :: ps, h => by
    show c ∉ '&' :: ((q.1 ++ '=' :: q.2) ++ ampText ps)
    rw [List.mem_cons, List.mem_append]
    rintro (rfl | h1 | h1)
    · rcases hc with h | h <;> cases h
    · exact (h q (by simp)).not_mem (by rcases hc with rfl | rfl <;> simp) h1
    · exact not_mem_amp hc ps (fun x hx => h x (by simp [hx])) h1

theorem takeWhile_id {p : Char → Bool} {s : Str} (h : ∀ c ∈ s, p c = true) : s.takeWhile p = s := by
  induction s with
  | nil => rfl
  | cons a r ih => rw [List.takeWhile_cons_of_pos (h a (by simp)), ih fun c hc => h c (by simp [hc])]

theorem read_query (f : Str) (p : Str × Str) (ps : List (Str × Str)) (hf : '?' ∉ f ∧ '#' ∉ f) (hp : Good p) (hps : ∀ q ∈ ps, Good q) :
    readQuery (f ++ '?' :: ((p.1 ++ '=' :: p.2) ++ ampText ps)) = some (f, (p :: ps).map some) := by
  have h1 : '#' ∉ f ++ '?' :: ((p.1 ++ '=' :: p.2) ++ ampText ps) := by
    rw [List.mem_append, List.mem_cons, List.mem_append]
    rintro (h | h | h | h)
    · exact hf.2 h
    · cases h
    · exact hp.not_mem (by simp) h
    · exact not_mem_amp (.inl rfl) ps hps h
  have h2 : ';' ∉ (p.1 ++ '=' :: p.2) ++ ampText ps := by
    rw [List.mem_append]
    rintro (h | h)
    · exact hp.not_mem (by simp) h
    · exact not_mem_amp (.inr rfl) ps hps h
  rw [readQuery, takeWhile_id (fun c hc => by simp only [bne_iff_ne, ne_eq]; exact fun e => h1 (e ▸ hc)), cutFirst_append _ hf.1]
  simp only [Option.map_some]
  rw [map_if h2, split_params ps p hp hps, List.map_map]
  refine congrArg (fun x => some (f, x)) (List.map_congr_left fun q hq => ?_)
  rcases List.mem_cons.mp hq with rfl | hq
  · exact hp.read
  · exact (hps q hq).read

/-- Parameters as texts. -/
def restText (qs : List (String × Str × Str)) : Str := qs.flatMap fun q => q.2.1 ++ q.2.2

/-- What the text before the value of a parameter is. -/
def Key (k : String) (t : Str) : Prop := t = '&' :: (k.toList ++ ['=']) ∧ Value k.toList ∧ '=' ∉ k.toList

instance (k t) : Decidable (Key k t) := by unfold Key; infer_instance

/-- How the texts are shown to be read: `head` is the script with the first parameter; then come the others, each a name, the text before its value, and
the value. -/
theorem reads_of {s head : Str} (f k : String) (v : Str) (qs : List (String × Str × Str)) (hs : s = head ++ restText qs)
    (hh : head = f.toList ++ '?' :: (k.toList ++ '=' :: v) ∧ '?' ∉ f.toList ∧ '#' ∉ f.toList ∧ Value k.toList ∧ '=' ∉ k.toList ∧ Value v)
    (hq : ∀ q ∈ qs, Key q.1 q.2.1 ∧ Value q.2.2) : Reads s f ((k, v) :: qs.map fun q => (q.1, q.2.2)) := by
  have h1 : restText qs = ampText (qs.map fun q => (q.1.toList, q.2.2)) := by
    rw [restText, ampText, List.flatMap_map]
    refine congrArg List.flatten (List.map_congr_left fun q hq' => ?_)
    rw [(hq q hq').1.1, List.cons_append, List.append_assoc]
    rfl
  obtain ⟨e, h2, h3, h4, h5, h6⟩ := hh
  rw [Reads, hs, e, h1, List.append_assoc, List.cons_append, read_query f.toList (k.toList, v) _ ⟨h2, h3⟩ ⟨h4, h5, h6⟩]
  · simp only [List.map_cons, List.map_map]
    rfl
  · intro q hq'
    obtain ⟨x, hx, rfl⟩ := List.mem_map.mp hq'
    exact ⟨(hq x hx).1.2.1, (hq x hx).1.2.2, (hq x hx).2⟩

theorem restText_append (a b : List (String × Str × Str)) : restText (a ++ b) = restText a ++ restText b := List.flatMap_append

theorem restText_cons (k : String) (t v : Str) (qs : List (String × Str × Str)) : restText ((k, t, v) :: qs) = t ++ (v ++ restText qs) := by
  rw [restText, List.flatMap_cons, List.append_assoc]; rfl

theorem restText_nil : restText [] = [] := rfl

theorem restText_map (k : String) (t : Str) (ls : List Str) : restText (ls.map fun l => (k, t, l)) = ls.flatMap fun l => t ++ l := by
  rw [restText, List.flatMap_map]

theorem ok_nil : ∀ q ∈ ([] : List (String × Str × Str)), Key q.1 q.2.1 ∧ Value q.2.2 := fun _ hq => nomatch hq

theorem ok_cons {k : String} {t v : Str} {qs : List (String × Str × Str)} (hk : Key k t) (hv : Value v) (h : ∀ q ∈ qs, Key q.1 q.2.1 ∧ Value q.2.2) :
    ∀ q ∈ (k, t, v) :: qs, Key q.1 q.2.1 ∧ Value q.2.2 := fun q hq => by
  rcases List.mem_cons.mp hq with rfl | hq
  · exact ⟨hk, hv⟩
  · exact h q hq

theorem key_node : Key "node" qNode := by decide +kernel
theorem key_interface : Key "interface" qInterface := by decide +kernel
theorem key_vlan : Key "vlan" qVlan := by decide +kernel
theorem key_tag : Key "tag" qTagIs := by decide +kernel
theorem key_link : Key "link" qLink := by decide +kernel
theorem key_backup : Key "backup_link" qBackup := by decide +kernel
theorem key_group : Key "workgroup_id" qGroup := by decide +kernel
theorem key_circuit : Key "circuit_id" qCircuit := by decide +kernel

/-! ### Statements -/

/-- Links, as parameters. -/
def onLinks (k : String) (ls : List Str) : List (String × Str) := ls.map fun l => (k, l)

theorem reads_groups : Reads Oess.groupsQuery "services/data.cgi" [("action", "get_workgroups".toList)] := by decide +kernel

theorem qPorts_eq : qPorts = "services/data.cgi?action=get_node_interfaces".toList ++ qNode := by decide +kernel
theorem qShow_eq : qShow = "&show_down=".toList ++ ("1".toList ++ ("&show_trunk=".toList ++ "1".toList)) := by decide +kernel
theorem qPath_eq : qPath = "services/data.cgi?action=get_shortest_path".toList ++ qNode := by decide +kernel
theorem qProvision_eq : qProvision = "services/provisioning.cgi?action=provision_circuit".toList ++ qGroup := by decide +kernel
theorem qTimes_eq : qTimes = "&provision_time=".toList ++ ("-1".toList ++ ("&remove_time=".toList ++ "-1".toList)) := by decide +kernel
theorem qDescription_eq : qDescription = "&description=".toList ++ "NSI-VLAN-".toList := by decide +kernel
theorem qCircuits_eq : qCircuits = "services/data.cgi?action=get_existing_circuits".toList ++ qGroup := by decide +kernel
theorem qCancel_eq : qCancel = "services/provisioning.cgi?action=remove_circuit".toList ++ ("&remove_time=".toList ++ "-1".toList) := by decide +kernel

theorem reads_ports {node : Str} (h : Value node) : Reads (Oess.portsQuery node) "services/data.cgi"
    [("action", "get_node_interfaces".toList), ("node", node), ("show_down", "1".toList), ("show_trunk", "1".toList)] :=
  reads_of (head := "services/data.cgi?action=get_node_interfaces".toList) _ "action" "get_node_interfaces".toList
    [("node", qNode, node), ("show_down", "&show_down=".toList, "1".toList), ("show_trunk", "&show_trunk=".toList, "1".toList)]
    (by rw [Oess.portsQuery, qPorts_eq, qShow_eq, restText_cons, restText_cons, restText_cons, restText_nil, List.append_nil, List.append_assoc])
    (by decide +kernel)
    (List.forall_mem_cons.mpr ⟨⟨key_node, h⟩, by decide +kernel⟩)

theorem reads_tag {e : OEnd} (h : e.Values) : Reads (Oess.tagQuery e) "services/data.cgi"
    [("action", "is_vlan_tag_available".toList), ("node", e.node), ("interface", e.intf), ("vlan", e.tag)] :=
  reads_of (head := qTag) _ "action" "is_vlan_tag_available".toList [("node", qNode, e.node), ("interface", qInterface, e.intf), ("vlan", qVlan, e.tag)]
    (by rw [Oess.tagQuery, restText_cons, restText_cons, restText_cons, restText_nil, List.append_nil])
    (by decide +kernel)
    (List.forall_mem_cons.mpr ⟨⟨key_node, h.1⟩, List.forall_mem_cons.mpr ⟨⟨key_interface, h.2.1⟩, List.forall_mem_cons.mpr ⟨⟨key_vlan, h.2.2⟩, by simp⟩⟩⟩)

theorem reads_path {s d : Str} (hs : Value s) (hd : Value d) (p : Option (List Str)) (hp : ∀ l ∈ p.getD [], Value l) : Reads (Oess.pathQuery s d p) "services/data.cgi"
    ([("action", "get_shortest_path".toList), ("node", s), ("node", d)] ++ onLinks "link" (p.getD [])) := by
  have := reads_of (s := Oess.pathQuery s d p) (head := "services/data.cgi?action=get_shortest_path".toList) "services/data.cgi" "action" "get_shortest_path".toList
    ([("node", qNode, s), ("node", qNode, d)] ++ (p.getD []).map fun l => ("link", qLink, l))
    (by
      rw [Oess.pathQuery.eq_def, qPath_eq, restText_append, restText_cons, restText_cons, restText_nil, restText_map, List.append_assoc, List.append_nil, List.append_assoc, List.append_assoc,
        List.append_assoc]
      cases p <;> rfl)
    (by decide +kernel)
    (by
      intro q hq
      rcases List.mem_append.mp hq with hq | hq
      · exact ok_cons key_node hs (ok_cons key_node hd ok_nil) q hq
      · obtain ⟨l, hl, rfl⟩ := List.mem_map.mp hq
        exact ⟨key_link, hp l hl⟩)
  rw [List.map_append, List.map_map] at this
  exact this

theorem reads_provision {g : Str} {s d : OEnd} {p b : List Str} (hg : Value g) (hs : s.Values) (hd : d.Values) (hp : ∀ l ∈ p, Value l) (hb : ∀ l ∈ b, Value l) :
    Reads (Oess.provisionQuery g s d p b) "services/provisioning.cgi"
      ([("action", "provision_circuit".toList), ("workgroup_id", g)] ++ s.params ++ d.params ++ onLinks "link" p ++ onLinks "backup_link" b ++
        [("provision_time", "-1".toList), ("remove_time", "-1".toList), ("description", "NSI-VLAN-".toList ++ s.tag ++ '-' :: d.tag)]) := by
  have := reads_of (s := Oess.provisionQuery g s d p b) (head := "services/provisioning.cgi?action=provision_circuit".toList) "services/provisioning.cgi" "action"
    "provision_circuit".toList
    ((("workgroup_id", qGroup, g) :: [("node", qNode, s.node), ("interface", qInterface, s.intf), ("tag", qTagIs, s.tag)]) ++
      [("node", qNode, d.node), ("interface", qInterface, d.intf), ("tag", qTagIs, d.tag)] ++ (p.map fun l => ("link", qLink, l)) ++
      (b.map fun l => ("backup_link", qBackup, l)) ++
      [("provision_time", "&provision_time=".toList, "-1".toList), ("remove_time", "&remove_time=".toList, "-1".toList),
        ("description", "&description=".toList, "NSI-VLAN-".toList ++ s.tag ++ '-' :: d.tag)])
    (by
      simp only [Oess.provisionQuery, qProvision_eq, qTimes_eq, qDescription_eq, restText_append, restText_cons, restText_nil, restText_map, List.append_assoc, List.append_nil])
    (by decide +kernel)
    (by
      have h3 : ∀ e : OEnd, e.Values → ∀ q ∈ [("node", qNode, e.node), ("interface", qInterface, e.intf), ("tag", qTagIs, e.tag)], Key q.1 q.2.1 ∧ Value q.2.2 := fun e he =>
        List.forall_mem_cons.mpr ⟨⟨key_node, he.1⟩, List.forall_mem_cons.mpr ⟨⟨key_interface, he.2.1⟩, List.forall_mem_cons.mpr ⟨⟨key_tag, he.2.2⟩, by simp⟩⟩⟩
      intro q hq
      rcases List.mem_append.mp hq with hq | hq
      · rcases List.mem_append.mp hq with hq | hq
        · rcases List.mem_append.mp hq with hq | hq
          · rcases List.mem_append.mp hq with hq | hq
            · rcases List.mem_cons.mp hq with rfl | hq
              · exact ⟨key_group, hg⟩
              · exact h3 s hs q hq
            · exact h3 d hd q hq
          · obtain ⟨l, hl, rfl⟩ := List.mem_map.mp hq
            exact ⟨key_link, hp l hl⟩
        · obtain ⟨l, hl, rfl⟩ := List.mem_map.mp hq
          exact ⟨key_backup, hb l hl⟩
      · have hv : Value ("NSI-VLAN-".toList ++ s.tag ++ '-' :: d.tag) := by
          refine Value.app (Value.app (by decide +kernel) hs.2.2) (Value.app (a := ['-']) (by decide +kernel) hd.2.2)
        exact ok_cons (by decide +kernel) (by decide +kernel) (ok_cons (by decide +kernel) (by decide +kernel) (ok_cons (by decide +kernel) hv ok_nil)) q hq)
  simp only [List.map_append, List.map_map] at this
  exact this

theorem reads_circuits {g : Str} (h : Value g) : Reads (Oess.circuitsQuery g) "services/data.cgi" [("action", "get_existing_circuits".toList), ("workgroup_id", g)] :=
  reads_of (head := "services/data.cgi?action=get_existing_circuits".toList) _ "action" "get_existing_circuits".toList [("workgroup_id", qGroup, g)]
    (by rw [Oess.circuitsQuery, qCircuits_eq, restText_cons, restText_nil, List.append_nil, List.append_assoc])
    (by decide +kernel)
    (List.forall_mem_cons.mpr ⟨⟨key_group, h⟩, by simp⟩)

theorem reads_cancel {g : Str} (h : Value g) (n : Nat) : Reads (Oess.cancelQuery n g) "services/provisioning.cgi"
    [("action", "remove_circuit".toList), ("remove_time", "-1".toList), ("workgroup_id", g), ("circuit_id", showInt n)] :=
  reads_of (head := "services/provisioning.cgi?action=remove_circuit".toList) _ "action" "remove_circuit".toList
    [("remove_time", "&remove_time=".toList, "-1".toList), ("workgroup_id", qGroup, g), ("circuit_id", qCircuit, showInt n)]
    (by rw [Oess.cancelQuery, qCancel_eq, restText_cons, restText_cons, restText_cons, restText_nil, List.append_nil, List.append_assoc, List.append_assoc])
    (by decide +kernel)
    (List.forall_mem_cons.mpr ⟨by decide +kernel, List.forall_mem_cons.mpr ⟨⟨key_group, h⟩, List.forall_mem_cons.mpr ⟨⟨key_circuit, value_int n⟩, by simp⟩⟩⟩)

/-- A connection all of whose names are plain. -/
def OConn.Values (c : OConn) : Prop := c.s.Values ∧ c.d.Values

/-- C98: what an OESS server reads when a connection is set up that it makes, if no name has a character that means something in a request: eight requests,
about the workgroups, the interfaces of the node of the source, the tag of the source, the same for the destination, a path, another path that avoids
the links of the first, and the circuit itself, with the workgroup, both ends, and the links of both paths. -/
theorem C98_oess (w : OServer) (path : Str → Str → List Str → List Str) (o : OSetup) (c : OConn) (g : Str) (hg : dget w.groups o.workgroup = some g)
    (hm : w.Makes c) (hc : c.Values) (hgv : Value g) (hl : ∀ l, ∀ x ∈ path c.s.node c.d.node l, Value x) :
    ∃ q1 q2 q3 q4 q5 q6 q7 q8, Oess.asked w path o c.s.target c.d.target = [q1, q2, q3, q4, q5, q6, q7, q8] ∧
      Reads q1 "services/data.cgi" [("action", "get_workgroups".toList)] ∧
      Reads q2 "services/data.cgi" [("action", "get_node_interfaces".toList), ("node", c.s.node), ("show_down", "1".toList), ("show_trunk", "1".toList)] ∧
      Reads q3 "services/data.cgi" [("action", "is_vlan_tag_available".toList), ("node", c.s.node), ("interface", c.s.intf), ("vlan", c.s.tag)] ∧
      Reads q4 "services/data.cgi" [("action", "get_node_interfaces".toList), ("node", c.d.node), ("show_down", "1".toList), ("show_trunk", "1".toList)] ∧
      Reads q5 "services/data.cgi" [("action", "is_vlan_tag_available".toList), ("node", c.d.node), ("interface", c.d.intf), ("vlan", c.d.tag)] ∧
      Reads q6 "services/data.cgi" [("action", "get_shortest_path".toList), ("node", c.s.node), ("node", c.d.node)] ∧
      Reads q7 "services/data.cgi" ([("action", "get_shortest_path".toList), ("node", c.s.node), ("node", c.d.node)] ++ onLinks "link" (path c.s.node c.d.node [])) ∧
      Reads q8 "services/provisioning.cgi" ([("action", "provision_circuit".toList), ("workgroup_id", g)] ++ c.s.params ++ c.d.params ++
        onLinks "link" (path c.s.node c.d.node []) ++ onLinks "backup_link" (path c.s.node c.d.node (path c.s.node c.d.node [])) ++
        [("provision_time", "-1".toList), ("remove_time", "-1".toList), ("description", "NSI-VLAN-".toList ++ c.s.tag ++ '-' :: c.d.tag)]) := by
  have hc1 : ∀ e : OEnd, e = c.s ∨ e = c.d → ∀ next, Oess.askEnd w e.target next = Oess.portsQuery e.node :: Oess.tagQuery e :: next e := by
    intro e he next
    have h1 : e.Plain ∧ e.intf ∈ w.ports e.node ∧ (w.available e = 1 ∨ w.available e = 0) := by
      rcases he with rfl | rfl
      · exact ⟨hm.plain.1, hm.ports.1, hm.tags.1⟩
      · exact ⟨hm.plain.2, hm.ports.2, hm.tags.2⟩
    rw [Oess.askEnd, oess_portVlan h1.1]
    dsimp only
    rw [if_neg (not_not_intro h1.2.1)]
    rcases h1.2.2 with h | h <;> rw [h] <;> rfl
  refine ⟨_, _, _, _, _, _, _, _, ?_, reads_groups, reads_ports hc.1.1, reads_tag hc.1, reads_ports hc.2.1, reads_tag hc.2,
    reads_path hc.1.1 hc.2.1 none (by simp), reads_path hc.1.1 hc.2.1 (some _) (hl []),
    reads_provision hgv hc.1 hc.2 (hl []) (hl _)⟩
  rw [Oess.asked, hg]
  dsimp only
  rw [hc1 _ (.inl rfl), hc1 _ (.inr rfl)]

/-- Hypotheses of `C98_oess` hold. -/
example : dget Exm.srv.groups ['w'] = some ['7'] ∧ Exm.srv.Makes Exm.o1 ∧ Exm.o1.Values ∧ Value ['7'] ∧
    (∀ l, ∀ x ∈ (fun _ _ l => if l.isEmpty then ["l1".toList, "l2".toList] else ["l3".toList] : Str → Str → List Str → List Str) Exm.o1.s.node Exm.o1.d.node l, Value x) ∧
    (Oess.asked Exm.srv (fun _ _ l => if l.isEmpty then ["l1".toList, "l2".toList] else ["l3".toList]) ⟨['w'], none⟩ Exm.o1.s.target Exm.o1.d.target)[7]? =
      some ("services/provisioning.cgi?action=provision_circuit&workgroup_id=7&node=s&interface=1&tag=12&node=t&interface=1&tag=12&link=l1&link=l2&backup_link=l3".toList ++
        "&provision_time=-1&remove_time=-1&description=NSI-VLAN-12-12".toList) := by
  refine ⟨by decide, ⟨by unfold OEnd.Plain; decide +kernel, by decide +kernel, by decide +kernel, rfl⟩, ⟨by decide +kernel, by decide +kernel⟩, by decide +kernel, fun l => ?_, by decide +kernel⟩
  cases l with
  | nil => decide +kernel
  | cons a t =>
    show ∀ x ∈ ["l3".toList], Value x
    decide +kernel

/-- C98: a circuit is asked for when, and only when, the set up does not fail; it is then the last of eight requests. -/
theorem C98_oess_asked (w : OServer) (path : Str → Str → List Str → List Str) (o : OSetup) (src dst : Str) :
    (Oess.provisioning w o src dst).2.2 = .ok () ↔ (Oess.asked w path o src dst).length = 8 := by
  have h : ∀ t (next : OEnd → List Str), (∃ e, Oess.checkEnd w t = .ok e ∧ (Oess.askEnd w t next) = Oess.portsQuery e.node :: Oess.tagQuery e :: next e) ∨
      (∃ x, Oess.checkEnd w t = .error x) ∧ (Oess.askEnd w t next).length ≤ 2 := by
    intro t next
    unfold Oess.checkEnd Oess.askEnd
    cases hp : Oess.portVlan t with
    | error x => exact .inr ⟨⟨x, rfl⟩, by simp⟩
    | ok e =>
      simp only [bind, Except.bind]
      by_cases hi : e.intf ∉ w.ports e.node
      · simp only [if_pos hi]
        exact .inr ⟨⟨_, rfl⟩, by simp⟩
      · simp only [if_neg hi]
        cases hk : Oess.confirm (w.available e) with
        | error x => exact .inr ⟨⟨x, rfl⟩, by simp⟩
        | ok u => exact .inl ⟨e, rfl, rfl⟩
  unfold Oess.provisioning Oess.asked
  cases hg : dget w.groups o.workgroup with
  | none => simp
  | some g =>
    dsimp only
    rcases h src (fun s => Oess.askEnd w dst fun d =>
      [Oess.pathQuery s.node d.node none, Oess.pathQuery s.node d.node (some (path s.node d.node [])),
        Oess.provisionQuery g s d (path s.node d.node []) (path s.node d.node (path s.node d.node []))]) with ⟨s, h1, h2⟩ | ⟨⟨x, h1⟩, h2⟩
    · rw [h1, h2]
      dsimp only
      rcases h dst (fun d => [Oess.pathQuery s.node d.node none, Oess.pathQuery s.node d.node (some (path s.node d.node [])),
        Oess.provisionQuery g s d (path s.node d.node []) (path s.node d.node (path s.node d.node []))]) with ⟨d, h3, h4⟩ | ⟨⟨x, h3⟩, h4⟩
      · rw [h3, h4]; simp
      · rw [h3]
        simp only [List.length_cons, reduceCtorEq, false_iff]
        omega
    · rw [h1]
      simp only [List.length_cons, reduceCtorEq, false_iff]
      omega

/-- C98: what the server reads when a connection is taken down: a request for the circuits of the workgroup, and, if there is one between the two interfaces, one to
remove the circuit with that id. -/
theorem C98_oess_down (w : OServer) (o : OSetup) (c : OConn) (hc : c.s.Plain ∧ c.d.Plain) (hg : Value o.groupText) :
    ∃ q1 qs, Oess.askedDown w o c.s.target c.d.target = q1 :: qs ∧
      Reads q1 "services/data.cgi" [("action", "get_existing_circuits".toList), ("workgroup_id", o.groupText)] ∧
      ((∀ k ∈ w.circuits o.groupText, ¬ SamePair k.a k.b c.s c.d) → qs = []) ∧
      ∀ q ∈ qs, ∃ k ∈ w.circuits o.groupText, SamePair k.a k.b c.s c.d ∧ Reads q "services/provisioning.cgi"
        [("action", "remove_circuit".toList), ("remove_time", "-1".toList), ("workgroup_id", o.groupText), ("circuit_id", showInt k.id)] := by
  refine ⟨_, _, rfl, reads_circuits hg, ?_⟩
  rw [Oess.circuitId, oess_portVlan hc.1, oess_portVlan hc.2]
  simp only [bind, Except.bind]
  cases hf : (w.circuits o.groupText).find? (Oess.isCircuit c.s c.d) with
  | none => exact ⟨fun _ => rfl, fun q hq => nomatch hq⟩
  | some k =>
    have hk := List.mem_of_find?_eq_some hf
    have hs : SamePair k.a k.b c.s c.d := Classical.byContradiction fun hn => by
      have := List.find?_some hf
      rw [oess_isCircuit hn] at this
      cases this
    refine ⟨fun h => absurd hs (h k hk), fun q hq => ⟨k, hk, hs, ?_⟩⟩
    dsimp only at hq
    split at hq
    · cases hq
    · rw [List.mem_singleton.mp hq]
      exact reads_cancel hg _

/-- Both cases occur, and the hypotheses of `C98_oess_down` hold: before and after the set up of a connection. -/
example : (Exm.o1.s.Plain ∧ Exm.o1.d.Plain) ∧ Value (OSetup.groupText ⟨['w'], some ['7']⟩) ∧
    (Oess.askedDown Exm.srv ⟨['w'], some ['7']⟩ Exm.o1.s.target Exm.o1.d.target).length = 1 ∧
    (Oess.askedDown (Oess.up Exm.o1 (Exm.srv, ⟨['w'], none⟩)).1 (Oess.up Exm.o1 (Exm.srv, ⟨['w'], none⟩)).2 Exm.o1.s.target Exm.o1.d.target)[1]? =
      some "services/provisioning.cgi?action=remove_circuit&remove_time=-1&workgroup_id=7&circuit_id=2".toList := by
  refine ⟨by unfold OEnd.Plain; decide +kernel, by decide +kernel, by decide +kernel, by decide +kernel⟩

/-- C98 fails for OESS when names have characters that mean something in a request: they are filled in as they are (oess.py:150-162, 169-173, 180-181, 188). A `+` in the
name of a link is read as a blank, and an `&` in the name of an interface starts another parameter, which the server takes for one that the service has sent. -/
theorem C98_oess_fails :
    (∃ ps, readQuery (Oess.pathQuery "sao".toList "mia".toList (some ["a+b".toList])) = some ("services/data.cgi".toList, ps) ∧
      some ("link".toList, "a b".toList) ∈ ps ∧ some ("link".toList, "a+b".toList) ∉ ps) ∧
    ∃ ps, readQuery (Oess.provisionQuery "7".toList ⟨"sao".toList, "e1&tag=99".toList, "12".toList⟩ ⟨"mia".toList, "e2".toList, "12".toList⟩ [] []) =
      some ("services/provisioning.cgi".toList, ps) ∧ some ("tag".toList, "99".toList) ∈ ps :=
  ⟨⟨_, rfl, by decide +kernel⟩, ⟨_, rfl, by decide +kernel⟩⟩

/-! ### force10.py -/

theorem portVlan_unitOf {k : Str} (v : Int) (hk : '.' ∉ k) : Brocade.portVlan (unitOf k v) = .ok (k, v) := by
  have : splitOn '.' (unitOf k v) = [k, showInt v] := by
    show splitOn '.' (k ++ '.' :: showInt v) = _
    rw [Ssh.splitOn_cut, splitOn_no_sep hk, splitOn_no_sep (showInt_no_char (by decide) (by decide) v)]
    rfl
  rw [Brocade.portVlan, this]
  simp only [pyInt_showInt]

/-- C98: what is sent to a switch of force10, for interfaces whose names have no dot. -/
theorem C98_force10 (i j : Str) (v : Int) (hi : '.' ∉ i) (hj : '.' ∉ j) :
    Force10.setup (unitOf i v) (unitOf j v) = .ok (lines
      [("interface vlan %", [showInt v]), ("name opennsa-%", [showInt v]), ("tagged %", [i]), ("tagged %", [j]), ("no shutdown", []), ("end", [])]) ∧
    Force10.teardown (unitOf i v) (unitOf j v) = .ok (lines [("no interface vlan %", [showInt v]), ("end", [])]) := by
  constructor
  · rw [Force10.setup, portVlan_unitOf v hi, portVlan_unitOf v hj]
    simp only [bind, Except.bind]
    rw [if_neg (by simp)]
    refine congrArg Except.ok ?_
    by_lines
  · rw [Force10.teardown, portVlan_unitOf v hi, portVlan_unitOf v hj]
    simp only [bind, Except.bind]
    rw [if_neg (by simp)]
    refine congrArg Except.ok ?_
    by_lines

example : '.' ∉ "gi 0/1".toList ∧ '.' ∉ "gi 0/2".toList ∧ Force10.setup "gi 0/1.12".toList "gi 0/2.12".toList =
    .ok (["interface vlan 12", "name opennsa-12", "tagged gi 0/1", "tagged gi 0/2", "no shutdown", "end"].map String.toList) := by
  decide +kernel

end OpenNSA.Device
