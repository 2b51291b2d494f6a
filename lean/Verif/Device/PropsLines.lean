import Verif.Device.Lines
import Verif.Device.PropsResource
import Verif.Ssh.PropsLines
/-
C98: the lines that a device reads.
-/
namespace OpenNSA.Device
open Py

/-! ### Specification -/

/-- A template with each `%` replaced by the next of the texts. -/
def fillIn : List Char → List Str → Str
  | [], _ => []
  | '%' :: t, a :: as => if t.isEmpty then a else a ++ fillIn t as
  | c :: t, as => c :: fillIn t as

/-- Lines made of a template and texts. -/
def lines (l : List (String × List Str)) : List Str := l.map fun x => fillIn x.1.toList x.2

/-- The name of a unit of an interface. -/
def unitOf (i : Str) (v : Int) : Str := fillIn "%.%".toList [i, showInt v]

/-- The name of the LSP to the network `n` from the network `m` with the label `l`. -/
def lspNamed (n m : Str) (l : Int) : Str := fillIn "T-%-F-%-mpls%".toList [n.take 6, m.take 6, showInt l]

/-- An end of a connection: a vlan of an interface, or all of it. -/
inductive Side where
  | vlan (i : Str) (v : Int)
  | port (i : Str)

/-- The end as a port of the network itself. -/
def Side.near : Side → Target
  | .vlan i v => ⟨⟨i, none, some tVlan⟩, some v⟩
  | .port i => ⟨⟨i, none, none⟩, none⟩

/-- The unit of the interface that is used. -/
def Side.unit : Side → Str
  | .vlan i v => unitOf i v
  | .port i => fillIn "%.0".toList [i]

/-- How the interface is called when it is joined to an LSP. -/
def Side.name : Side → Str
  | .vlan i v => unitOf i v
  | .port i => i

/-- The lines for an end on a device of junosmx. -/
def Side.up : Side → List (String × List Str)
  | .vlan i v =>
    [("set interfaces % flexible-vlan-tagging", [i]), ("set interfaces % encapsulation flexible-ethernet-services", [i]),
     ("set interfaces % unit % encapsulation vlan-ccc", [i, showInt v]), ("set interfaces % unit % vlan-id %", [i, showInt v, showInt v]),
     ("set interfaces % unit % input-vlan-map pop", [i, showInt v]), ("set interfaces % unit % output-vlan-map push", [i, showInt v])]
  | .port i =>
    [("set interfaces % encapsulation ethernet-ccc", [i]), ("set interfaces % mtu 9000", [i]), ("set interfaces % unit 0 family ccc", [i])]

/-- The line that takes them back. -/
def Side.down (s : Side) : List (String × List Str) := [("delete interfaces %", [s.name])]

/-- A port towards the network `n` with a vlan. -/
def farVlan (i n : Str) (v : Int) : Target := ⟨⟨i, some n, some tVlan⟩, some v⟩
/-- A port towards the network `n` with an LSP. -/
def farLsp (i n : Str) (l : Int) : Target := ⟨⟨i, some n, some tMpls⟩, some l⟩

/-- The lines for an LSP from the network `m` to the router `ip` of the network `n`. -/
def lspUpLines (n m : Str) (l : Int) (ip : Str) : List (String × List Str) :=
  [("set protocols mpls label-switched-path % to %", [lspNamed n m l, ip]), ("set protocols mpls label-switched-path % no-cspf", [lspNamed n m l])]

/-- The lines that join an interface and the LSPs of both directions. -/
def lspJoinLines (id unit n m : Str) (l : Int) : List (String × List Str) :=
  [("set protocols connections remote-interface-switch % interface %", [id, unit]),
   ("set protocols connections remote-interface-switch % transmit-lsp %", [id, lspNamed n m l]),
   ("set protocols connections remote-interface-switch % receive-lsp %", [id, lspNamed m n l])]

/-- The lines that join two units. -/
def joinLines (id a b : Str) : List (String × List Str) :=
  [("set protocols connections interface-switch NSI-% interface %", [id, a]),
   ("set protocols connections interface-switch NSI-% interface %", [id, b])]

/-- The texts of the commands, if there are commands. -/
def texts (r : Except DevErr (List Cmd)) : Except DevErr (List Str) := r.map (List.map Cmd.text)

/-! ### The texts of the commands -/

theorem cons_congr {α} {a b : α} {l m : List α} (h : a = b) (h' : l = m) : a :: l = b :: m := by rw [h, h']

theorem lines_append (a b : List (String × List Str)) : lines (a ++ b) = lines a ++ lines b := List.map_append

macro "by_lines" : tactic => `(tactic| ((repeat (refine cons_congr (by dsimp only; rfl) ?_)); rfl))

theorem vlanUp_text (i : Str) (v : Int) : (Mx.vlanUp i (showInt v)).map Cmd.text = lines (Side.up (.vlan i v)) := by by_lines

theorem wholeUp_text (i : Str) : (Mx.wholeUp i).map Cmd.text = lines (Side.up (.port i)) := by by_lines

theorem endUp_text (a : Side) : (Mx.endUp a.near).map Cmd.text = lines a.up := by
  cases a with
  | vlan i v => exact vlanUp_text i v
  | port i => exact wholeUp_text i

theorem endDown_text (a : Side) : (Mx.endDown a.near).map Cmd.text = lines a.down := by
  cases a <;> by_lines

theorem join_text (id : Str) (a b : Side) :
    ([a.near, b.near].map fun t => Mx.join id t.port.interface (if t.port.labelType.isSome then valText t.value else ['0'])).map Cmd.text
      = lines (joinLines id a.unit b.unit) := by
  cases a <;> cases b <;> by_lines

theorem lspName_eq (n m : Str) (l : Int) : Mx.lspName n m (some l) = lspNamed n m l := by
  have : lspNamed n m l = "T-".toList ++ (n.take 6 ++ ("-F-".toList ++ (m.take 6 ++ ("-mpls".toList ++ showInt l)))) := rfl
  rw [this]
  simp only [Mx.lspName, valText, List.append_assoc]

theorem lspUp_text (e : Mx.Env) (i n : Str) (l : Int) (ip : Str) (h : dget e.routers (dropTopology n) = some ip) :
    texts (Mx.lspUp e (farLsp i n l)) = .ok (lines (lspUpLines n e.network l ip)) := by
  have hl : Mx.loopback e (Target.net (farLsp i n l)) = .ok ip := by
    show Mx.loopback e n = _
    simp only [Mx.loopback, h]
  simp only [Mx.lspUp, hl, texts, bind, Except.bind, Except.map]
  have hn : Mx.lspName (Target.net (farLsp i n l)) e.network (farLsp i n l).value = lspNamed n e.network l := lspName_eq n e.network l
  rw [hn]
  refine congrArg Except.ok ?_
  by_lines

theorem useLsp_text (e : Mx.Env) (id u i n : Str) (l : Int) :
    (Mx.lspIf id u :: Mx.useLsp e id (farLsp i n l)).map Cmd.text = lines (lspJoinLines id u n e.network l) := by
  have h1 : Mx.lspName (Target.net (farLsp i n l)) e.network (farLsp i n l).value = lspNamed n e.network l := lspName_eq n e.network l
  have h2 : Mx.lspName e.network (Target.net (farLsp i n l)) (farLsp i n l).value = lspNamed e.network n l := lspName_eq e.network n l
  simp only [Mx.useLsp, h1, h2]
  by_lines

theorem texts_ok (l : List Cmd) (t : List Str) (h : l.map Cmd.text = t) : texts (.ok l) = .ok t := by rw [← h]; rfl

theorem texts_of {r : Except DevErr (List Cmd)} {t : List Str} (h : texts r = .ok t) : ∃ l, r = .ok l ∧ l.map Cmd.text = t := by
  cases r with
  | error x => simp [texts, Except.map] at h
  | ok l => exact ⟨l, rfl, by simpa [texts, Except.map] using h⟩

/-! ### Properties -/

/-- C98: what is sent to a device of junosmx for a connection between two ports of the network itself, each a vlan or a whole port. -/
theorem C98_mx_local (e : Mx.Env) (id : Str) (a b : Side) :
    texts (Mx.activate e id a.near b.near) = .ok (lines (a.up ++ b.up ++
      [("set protocols connections interface-switch NSI-% interface %", [id, a.unit]),
       ("set protocols connections interface-switch NSI-% interface %", [id, b.unit])])) ∧
    texts (Mx.deactivate e id a.near b.near) = .ok (lines (a.down ++ b.down ++
      [("delete protocols connections interface-switch NSI-%", [id])])) := by
  have hn : ∀ c : Side, c.near.port.remote.isNone = true := fun c => by cases c <;> rfl
  constructor
  · rw [Mx.activate, if_pos ⟨hn a, hn b⟩]
    refine texts_ok _ _ ?_
    rw [Mx.localUp, List.map_append, List.map_append, endUp_text, endUp_text, lines_append, lines_append]
    exact congrArg (lines a.up ++ lines b.up ++ ·) (join_text id a b)
  · rw [Mx.deactivate, if_pos ⟨hn a, hn b⟩]
    refine texts_ok _ _ ?_
    rw [Mx.localDown, List.map_append, List.map_append, endDown_text, endDown_text, lines_append, lines_append]
    refine congrArg (lines a.down ++ lines b.down ++ ·) ?_
    by_lines

example : texts (Mx.activate ⟨"nordu.net".toList, []⟩ "NO-1".toList (Side.vlan "ge-1/0/1".toList 1781).near (Side.port "ge-1/0/2".toList).near) = .ok (
    ["set interfaces ge-1/0/1 flexible-vlan-tagging", "set interfaces ge-1/0/1 encapsulation flexible-ethernet-services",
     "set interfaces ge-1/0/1 unit 1781 encapsulation vlan-ccc", "set interfaces ge-1/0/1 unit 1781 vlan-id 1781",
     "set interfaces ge-1/0/1 unit 1781 input-vlan-map pop", "set interfaces ge-1/0/1 unit 1781 output-vlan-map push",
     "set interfaces ge-1/0/2 encapsulation ethernet-ccc", "set interfaces ge-1/0/2 mtu 9000", "set interfaces ge-1/0/2 unit 0 family ccc",
     "set protocols connections interface-switch NSI-NO-1 interface ge-1/0/1.1781",
     "set protocols connections interface-switch NSI-NO-1 interface ge-1/0/2.0"].map String.toList) := by
  decide +kernel

/-- C98: what is sent to a device of junosmx for a connection between a port of the network itself and an LSP towards another network whose
router is known, in either direction. -/
theorem C98_mx_lsp (e : Mx.Env) (id : Str) (a : Side) (i n : Str) (l : Int) (ip : Str) (h : dget e.routers (dropTopology n) = some ip)
    (s d : Target) (hsd : (s, d) = (a.near, farLsp i n l) ∨ (s, d) = (farLsp i n l, a.near)) :
    texts (Mx.activate e id s d) = .ok (lines (a.up ++
      [("set protocols mpls label-switched-path % to %", [lspNamed n e.network l, ip]),
       ("set protocols mpls label-switched-path % no-cspf", [lspNamed n e.network l]),
       ("set protocols connections remote-interface-switch % interface %", [id, a.name]),
       ("set protocols connections remote-interface-switch % transmit-lsp %", [id, lspNamed n e.network l]),
       ("set protocols connections remote-interface-switch % receive-lsp %", [id, lspNamed e.network n l])])) ∧
    texts (Mx.deactivate e id s d) = .ok (lines (a.down ++
      [("delete protocols mpls label-switched-path %", [lspNamed n e.network l]),
       ("delete protocols connections remote-interface-switch %", [id])])) := by
  have hn : a.near.port.remote = none := by cases a <;> rfl
  have hf : (farLsp i n l).port.remote = some n := rfl
  have hlr : localOf s d = a.near ∧ remoteOf s d = farLsp i n l ∧ ¬ (s.port.remote.isNone ∧ d.port.remote.isNone) ∧
      ¬ (s.port.remote.isSome ∧ d.port.remote.isSome) := by
    rcases hsd with h | h <;> obtain ⟨rfl, rfl⟩ := Prod.mk.inj h <;> simp [localOf, remoteOf, hn, hf]
  obtain ⟨hl, hr, h1, h2⟩ := hlr
  obtain ⟨c, hc, hct⟩ := texts_of (lspUp_text e i n l ip h)
  have he : Mx.lspEnd id a.near = [Mx.lspIf id a.name] := by cases a <;> rfl
  have hty : (farLsp i n l).port.labelType = some tMpls := rfl
  have hmv : ¬ (some tMpls : Option Str) = some tVlan := by decide
  constructor
  · rw [Mx.activate, if_neg h1, if_neg h2, Mx.remoteUp, hl, hr, Mx.remoteLsp, if_pos hty, Mx.remoteVlan, hty, if_neg hmv, hc, he]
    refine texts_ok _ _ ?_
    rw [List.append_nil, List.map_append, endUp_text, lines_append, List.append_assoc, List.map_append, hct]
    refine congrArg (lines a.up ++ ·) ?_
    exact (congrArg (_ ++ ·) (useLsp_text e id a.name i n l)).trans (lines_append _ _).symm
  · rw [Mx.deactivate, if_neg h1, if_neg h2, Mx.remoteDown]
    simp only [hl, hr, hty, if_true]
    refine texts_ok _ _ ?_
    rw [List.map_append, endDown_text, lines_append]
    refine congrArg (lines a.down ++ ·) ?_
    have hname : Mx.lspName (Target.net (farLsp i n l)) e.network (farLsp i n l).value = lspNamed n e.network l := lspName_eq n e.network l
    rw [Mx.lspDown, hname]
    by_lines

/-- A device, with the router of another network. -/
def Exl.env : Mx.Env := ⟨"nordu.net".toList, [("surfnet.nl".toList, "10.0.0.7".toList)]⟩

example : dget Exl.env.routers (dropTopology "surfnet.nl:topology".toList) = some "10.0.0.7".toList ∧
    texts (Mx.deactivate Exl.env "NO-2".toList (farLsp "ge-1/0/3".toList "surfnet.nl:topology".toList 7) (Side.vlan "ge-1/0/1".toList 1781).near) =
      .ok (["delete interfaces ge-1/0/1.1781", "delete protocols mpls label-switched-path T-surfne-F-nordu.-mpls7",
        "delete protocols connections remote-interface-switch NO-2"].map String.toList) := by
  decide +kernel

/-- `":topology"` does not overlap with itself. -/
theorem topology_border : ∀ k : Nat, 0 < k → k < 9 → (":topology".toList).drop k ≠ (":topology".toList).take (9 - k) := by
  intro k h1 h2
  match k, h1, h2 with
  | 1, _, _ | 2, _, _ | 3, _, _ | 4, _, _ | 5, _, _ | 6, _, _ | 7, _, _ | 8, _, _ => decide

theorem dropTopology_none : ∀ {r : Str}, ¬ ":topology".toList <:+: r → dropTopology r = r
  | [], _ => by simp [dropTopology]
  | c :: s, h => by
    have h1 : (":topology".toList).isPrefixOf (c :: s) = false := by
      rw [Bool.eq_false_iff]
      exact fun hp => h (List.isPrefixOf_iff_prefix.mp hp).isInfix
    rw [dropTopology, if_neg (by rw [h1]; decide), dropTopology_none fun hi => h (hi.trans (List.suffix_cons c s).isInfix)]

theorem dropTopology_suffix : ∀ {r : Str}, ¬ ":topology".toList <:+: r → dropTopology (r ++ ":topology".toList) = r
  | [], _ => by
    show dropTopology (":topology".toList) = []
    rw [show ":topology".toList = ':' :: "topology".toList from rfl, dropTopology, if_pos (by decide)]
    rw [show (':' :: "topology".toList).drop 9 = [] from rfl, dropTopology]
  | c :: s, h => by
    have h1 : ¬ (":topology".toList).isPrefixOf (c :: s ++ ":topology".toList) = true := by
      intro hp
      rw [List.isPrefixOf_iff_prefix] at hp
      by_cases hl : 9 ≤ (c :: s).length
      · exact h (List.prefix_of_prefix_length_le hp (List.prefix_append ..) hl).isInfix
      · have h2 : (":topology".toList) = (c :: s ++ ":topology".toList).take 9 := List.prefix_iff_eq_take.mp hp
        refine topology_border (c :: s).length (by simp) (by omega) ?_
        have h3 := congrArg (List.drop (c :: s).length) h2
        rw [List.take_append, List.take_of_length_le (by omega), List.drop_left] at h3
        exact h3
    show dropTopology (c :: (s ++ ":topology".toList)) = _
    rw [dropTopology, if_neg (List.cons_append ▸ h1), dropTopology_suffix fun hi => h (hi.trans (List.suffix_cons c s).isInfix)]

/-- C98: the router of a network is found in the configuration by the name of the network, whether it ends in `:topology` or not. -/
theorem C98_mx_router (e : Mx.Env) (r ip : Str) (h : ¬ ":topology".toList <:+: r) (hr : dget e.routers r = some ip) :
    Mx.loopback e r = .ok ip ∧ Mx.loopback e (r ++ ":topology".toList) = .ok ip := by
  unfold Mx.loopback
  rw [dropTopology_none h, dropTopology_suffix h, hr]
  exact ⟨rfl, rfl⟩

example : ¬ ":topology".toList <:+: "surfnet.nl".toList ∧ dget Exl.env.routers "surfnet.nl".toList = some "10.0.0.7".toList := by decide +kernel

/-- C98: what is sent to a device of junosmx for a connection between a vlan of the network itself and a vlan towards another network. -/
theorem C98_mx_remote (e : Mx.Env) (id i : Str) (v : Int) (j n : Str) (w : Int) :
    texts (Mx.activate e id (Side.vlan i v).near (farVlan j n w)) = .ok (lines ((Side.vlan i v).up ++ (Side.vlan j w).up ++
      [("set protocols connections interface-switch NSI-% interface %", [id, unitOf i v]),
       ("set protocols connections interface-switch NSI-% interface %", [id, unitOf j w])])) ∧
    texts (Mx.deactivate e id (Side.vlan i v).near (farVlan j n w)) = .ok (lines
      [("delete interfaces %", [unitOf i v]), ("delete interfaces %", [unitOf j w]),
       ("delete protocols connections interface-switch NSI-%", [id])]) := by
  constructor
  · refine texts_ok (Mx.vlanUp i (showInt v) ++ (Mx.vlanUp j (showInt w) ++ [Mx.join id i (showInt v), Mx.join id j (showInt w)])) _ ?_
    rw [List.map_append, List.map_append, vlanUp_text, vlanUp_text, ← List.append_assoc, lines_append, lines_append]
    exact congrArg (_ ++ _ ++ ·) (join_text id (.vlan i v) (.vlan j w))
  · refine texts_ok [.delete [kInterfaces, unitName i (showInt v)], .delete [kInterfaces, unitName j (showInt w)], Mx.unjoin id] _ ?_
    by_lines

example : texts (Mx.deactivate Exl.env "NO-3".toList (Side.vlan "ge-1/0/1".toList 1781).near (farVlan "ge-1/0/3".toList "surfnet.nl".toList 1782)) =
    .ok (["delete interfaces ge-1/0/1.1781", "delete interfaces ge-1/0/3.1782",
      "delete protocols connections interface-switch NSI-NO-3"].map String.toList) := by
  decide +kernel

/-- C98: what is sent to a device of junosmx for a connection between vlans towards two other networks. -/
theorem C98_mx_transit (e : Mx.Env) (id i n : Str) (v : Int) (j m : Str) (w : Int) :
    texts (Mx.activate e id (farVlan i n v) (farVlan j m w)) = .ok (lines ((Side.vlan i v).up ++ (Side.vlan j w).up ++
      [("set protocols connections interface-switch NSI-% interface %", [id, unitOf i v]),
       ("set protocols connections interface-switch NSI-% interface %", [id, unitOf j w])])) ∧
    texts (Mx.deactivate e id (farVlan i n v) (farVlan j m w)) = .ok (lines
      [("delete interfaces %", [unitOf i v]), ("delete interfaces %", [unitOf j w]),
       ("delete protocols connections interface-switch NSI-%", [id])]) := by
  constructor
  · refine texts_ok (Mx.vlanUp i (showInt v) ++ Mx.vlanUp j (showInt w) ++ [] ++ [] ++ [Mx.join id i (showInt v), Mx.join id j (showInt w)]) _ ?_
    rw [List.append_nil, List.append_nil, List.map_append, List.map_append, vlanUp_text, vlanUp_text, lines_append, lines_append]
    exact congrArg (_ ++ _ ++ ·) (join_text id (.vlan i v) (.vlan j w))
  · refine texts_ok [.delete [kInterfaces, unitName i (showInt v)], .delete [kInterfaces, unitName j (showInt w)], Mx.unjoin id] _ ?_
    by_lines

example : texts (Mx.deactivate Exl.env "NO-4".toList (farVlan "ge-1/0/1".toList "geant.net".toList 1781) (farVlan "ge-1/0/3".toList "surfnet.nl".toList 1782)) =
    .ok (["delete interfaces ge-1/0/1.1781", "delete interfaces ge-1/0/3.1782",
      "delete protocols connections interface-switch NSI-NO-4"].map String.toList) := by
  decide +kernel

/-- C98: what is sent to a device of junosex for a connection between two vlans. -/
theorem C98_junosex (id : Str) (a b : Option Str) (i j : Str) (v w : Int) :
    texts (Jex.activate id ⟨⟨i, a, some tVlan⟩, some v⟩ ⟨⟨j, b, some tVlan⟩, some w⟩) = .ok (lines
      [("set interfaces % vlan-tagging", [i]), ("set interfaces % mtu 9000", [i]), ("set interfaces % encapsulation vlan-ccc", [i]),
       ("set interfaces % unit % encapsulation vlan-ccc", [i, showInt v]), ("set interfaces % unit % vlan-id %", [i, showInt v, showInt v]),
       ("set interfaces % unit % swap-by-poppush", [i, showInt v]),
       ("set interfaces % vlan-tagging", [j]), ("set interfaces % mtu 9000", [j]), ("set interfaces % encapsulation vlan-ccc", [j]),
       ("set interfaces % unit % encapsulation vlan-ccc", [j, showInt w]), ("set interfaces % unit % vlan-id %", [j, showInt w, showInt w]),
       ("set interfaces % unit % swap-by-poppush", [j, showInt w]),
       ("set protocols connections interface-switch OpenNSA-local-% interface %", [id, unitOf i v]),
       ("set protocols connections interface-switch OpenNSA-local-% interface %", [id, unitOf j w])]) ∧
    texts (Jex.deactivate id ⟨⟨i, a, some tVlan⟩, some v⟩ ⟨⟨j, b, some tVlan⟩, some w⟩) = .ok (lines
      [("delete interfaces %", [unitOf i v]), ("delete interfaces %", [unitOf j w]),
       ("delete protocols connections interface-switch OpenNSA-local-%", [id])]) := by
  constructor
  · refine congrArg Except.ok ?_
    by_lines
  · refine congrArg Except.ok ?_
    by_lines

example : texts (Jex.deactivate "NO-5".toList ⟨⟨"ge-0/0/1".toList, none, some tVlan⟩, some 12⟩ ⟨⟨"ge-0/0/2".toList, none, some tVlan⟩, some 13⟩) =
    .ok (["delete interfaces ge-0/0/1.12", "delete interfaces ge-0/0/2.13",
      "delete protocols connections interface-switch OpenNSA-local-NO-5"].map String.toList) := by
  decide +kernel

/-- C98: what is sent to a device of juniperex. -/
theorem C98_juniperex (i j : Str) (v : Int) :
    texts (Ex.setupLink ⟨i, v⟩ ⟨j, v⟩) = .ok (lines
      [("set vlans opennsa-% vlan-id %", [showInt v, showInt v]),
       ("set interfaces % unit 0 family ethernet-switching vlan members opennsa-%", [i, showInt v]),
       ("set interfaces % unit 0 family ethernet-switching vlan members opennsa-%", [j, showInt v])]) ∧
    texts (Ex.teardownLink ⟨i, v⟩ ⟨j, v⟩) = .ok (lines
      [("delete interfaces % unit 0 family ethernet-switching vlan members opennsa-%", [i, showInt v]),
       ("delete interfaces % unit 0 family ethernet-switching vlan members opennsa-%", [j, showInt v]),
       ("delete vlans opennsa-%", [showInt v])]) := by
  constructor
  · rw [Ex.setupLink, if_neg (by simp)]
    refine congrArg Except.ok ?_
    by_lines
  · rw [Ex.teardownLink, if_neg (by simp)]
    refine congrArg Except.ok ?_
    by_lines

example : texts (Ex.setupLink ⟨"ge-0/0/1".toList, 12⟩ ⟨"ge-0/0/2".toList, 12⟩) =
    .ok (["set vlans opennsa-12 vlan-id 12", "set interfaces ge-0/0/1 unit 0 family ethernet-switching vlan members opennsa-12",
      "set interfaces ge-0/0/2 unit 0 family ethernet-switching vlan members opennsa-12"].map String.toList) := by
  decide +kernel

theorem unitUp_text (p : Str) (v : Int) (d : Str) : (Vpls.unitUp p v d).text =
    fillIn "set interfaces % unit % description \"%\" encapsulation vlan-vpls vlan-id % family vpls".toList [p, showInt v, d, showInt v] := by
  have h : ∀ r : Str, ('"' :: d ++ ['"']) ++ ' ' :: r = '"' :: (d ++ ('"' :: ' ' :: r)) := fun r => by simp
  refine Eq.trans (b := "set interfaces ".toList ++ (p ++ (" unit ".toList ++ (showInt v ++ (" description ".toList ++ (('"' :: d ++ ['"']) ++ ' ' ::
    ("encapsulation vlan-vpls vlan-id ".toList ++ (showInt v ++ " family vpls".toList)))))))) rfl ?_
  rw [h]
  rfl

/-- C98: what is sent to a device of junipervpls. -/
theorem C98_vpls (asn id i j : Str) (v : Int) :
    texts (Vpls.setupLink asn id ⟨i, v⟩ ⟨j, v⟩) = .ok (lines
      [("set interfaces % unit % description \"%\" encapsulation vlan-vpls vlan-id % family vpls",
          [i, showInt v, fillIn "% [ X-connect created by OpenNSA ]".toList [id], showInt v]),
       ("set interfaces % unit % description \"%\" encapsulation vlan-vpls vlan-id % family vpls",
          [j, showInt v, fillIn "% [ X-connect created by OpenNSA ]".toList [id], showInt v]),
       ("set routing-instances % instance-type vpls", [id]),
       ("set routing-instances % interface %", [id, unitOf i v]), ("set routing-instances % interface %", [id, unitOf j v]),
       ("set routing-instances % route-distinguisher %", [id, fillIn "%:%%".toList [asn, id.take 5, (id.take 9).drop 7]]),
       ("set routing-instances % vrf-target %", [id, fillIn "target:%:%%".toList [asn, id.take 5, (id.take 9).drop 7]]),
       ("set routing-instances % protocols vpls site-range 2 no-tunnel-services", [id]),
       ("set routing-instances % protocols vpls site MTRL1 site-identifier 1 interface %", [id, unitOf i v]),
       ("set routing-instances % protocols vpls site MTRL2 site-identifier 2 interface %", [id, unitOf j v])]) ∧
    texts (Vpls.teardownLink id ⟨i, v⟩ ⟨j, v⟩) = .ok (lines
      [("delete interfaces % unit %", [i, showInt v]), ("delete interfaces % unit %", [j, showInt v]), ("delete routing-instance %", [id])]) := by
  constructor
  · rw [Vpls.setupLink, if_neg (by simp)]
    refine congrArg Except.ok ?_
    refine cons_congr (unitUp_text _ _ _) (cons_congr (unitUp_text _ _ _) ?_)
    by_lines
  · rw [Vpls.teardownLink, if_neg (by simp)]
    refine congrArg Except.ok ?_
    by_lines

example : texts (Vpls.teardownLink "20130011".toList ⟨"ge-0/0/1".toList, 12⟩ ⟨"ge-0/0/2".toList, 12⟩) =
    .ok (["delete interfaces ge-0/0/1 unit 12", "delete interfaces ge-0/0/2 unit 12", "delete routing-instance 20130011"].map String.toList) := by
  decide +kernel

/-- C98: what is sent to a switch of brocade, for interfaces whose names have no dot. -/
theorem C98_brocade (i j : Str) (v : Int) (hi : '.' ∉ i) (hj : '.' ∉ j) :
    (Brocade.setup (unitOf i v) (unitOf j v)).map (List.map BCmd.text) = .ok (lines
      [("vlan % name opennsa-%", [showInt v, showInt v]), ("tagged ethernet %", [i]), ("tagged ethernet %", [j])]) ∧
    (Brocade.teardown (unitOf i v) (unitOf j v)).map (List.map BCmd.text) = .ok (lines [("no vlan %", [showInt v])]) := by
  have hp : ∀ k : Str, '.' ∉ k → Brocade.portVlan (unitOf k v) = .ok (k, v) := fun k hk => by
    have : splitOn '.' (unitOf k v) = [k, showInt v] := by
      show splitOn '.' (k ++ '.' :: showInt v) = _
      rw [Ssh.splitOn_cut, splitOn_no_sep hk, splitOn_no_sep (showInt_no_char (by decide) (by decide) v)]
      rfl
    rw [Brocade.portVlan, this]
    simp only [pyInt_showInt]
  constructor
  · rw [Brocade.setup, hp i hi, hp j hj]
    refine Eq.trans (b := Except.ok ([BCmd.vlan v ("opennsa-".toList ++ showInt v), .tagged i, .tagged j].map BCmd.text)) ?_ ?_
    · simp [bind, Except.bind, Except.map]
    · refine congrArg Except.ok ?_
      refine cons_congr ?_ ?_
      · show ("vlan ".toList ++ showInt v ++ " name ".toList) ++ ("opennsa-".toList ++ showInt v) = _
        rw [List.append_assoc, List.append_assoc]
        dsimp only
        rfl
      · by_lines
  · rw [Brocade.teardown, hp i hi, hp j hj]
    refine Eq.trans (b := Except.ok ([BCmd.noVlan v].map BCmd.text)) ?_ ?_
    · simp [bind, Except.bind, Except.map]
    · refine congrArg Except.ok ?_
      by_lines

example : '.' ∉ "1/1".toList ∧ '.' ∉ "1/2".toList ∧ (Brocade.setup "1/1.12".toList "1/2.12".toList).map (List.map BCmd.text) =
    .ok (["vlan 12 name opennsa-12", "tagged ethernet 1/1", "tagged ethernet 1/2"].map String.toList) := by
  decide +kernel

/-- C98: what is sent to a switch of pica8ovs, whose database has the address `db`, for ports that are named by three parts the last of which
is a number. -/
theorem C98_pica (db a b c d : Str) (k l v w : Int) (ha : '/' ∉ a) (hb : '/' ∉ b) (hc : '/' ∉ c) (hd : '/' ∉ d) (i j : Str)
    (hi : i = fillIn "%/%/%".toList [a, b, showInt k]) (hj : j = fillIn "%/%/%".toList [c, d, showInt l]) :
    (Pica.configure i j v w).map (List.map (PCmd.text db)) = .ok (lines
      ([("/ovs/bin/ovs-vsctl --db=tcp:%:6640 add port % trunk %", [db, i, showInt v]),
        ("/ovs/bin/ovs-vsctl --db=tcp:%:6640 add port % trunk %", [db, j, showInt w])] ++
       if v = w then
         [("/ovs/bin/ovs-ofctl add-flow br0 in_port=%,dl_vlan=%,actions=output:%", [showInt (k + 128), showInt v, showInt (l + 128)]),
          ("/ovs/bin/ovs-ofctl add-flow br0 in_port=%,dl_vlan=%,actions=output:%", [showInt (l + 128), showInt v, showInt (k + 128)])]
       else
         [("/ovs/bin/ovs-ofctl add-flow br0 in_port=%,dl_vlan=%,action=set_field=%-\\>vlan_vid,output:%",
            [showInt (k + 128), showInt v, showInt w, showInt (l + 128)]),
          ("/ovs/bin/ovs-ofctl add-flow br0 in_port=%,dl_vlan=%,action=set_field=%-\\>vlan_vid,output:%",
            [showInt (l + 128), showInt w, showInt v, showInt (k + 128)])])) ∧
    (Pica.delete i j v w).map (List.map (PCmd.text db)) = .ok (lines
      [("/ovs/bin/ovs-ofctl del-flows br0 in_port=%,dl_vlan=%", [showInt (k + 128), showInt v]),
       ("/ovs/bin/ovs-ofctl del-flows br0 in_port=%,dl_vlan=%", [showInt (l + 128), showInt w]),
       ("/ovs/bin/ovs-vsctl --db=tcp:%:6640 remove port % trunk %", [db, i, showInt v]),
       ("/ovs/bin/ovs-vsctl --db=tcp:%:6640 remove port % trunk %", [db, j, showInt w])]) := by
  have hp : ∀ (x y : Str) (n : Int), '/' ∉ x → '/' ∉ y → Pica.flowPort (fillIn "%/%/%".toList [x, y, showInt n]) = .ok (n + 128) := by
    intro x y n hx hy
    have : splitOn '/' (fillIn "%/%/%".toList [x, y, showInt n]) = [x, y, showInt n] := by
      show splitOn '/' (x ++ '/' :: (y ++ '/' :: showInt n)) = _
      rw [Ssh.splitOn_cut, Ssh.splitOn_cut, splitOn_no_sep hx, splitOn_no_sep hy, splitOn_no_sep (showInt_no_char (by decide) (by decide) n)]
      rfl
    rw [Pica.flowPort, this]
    simp only [List.getElem?_cons_succ, List.getElem?_cons_zero, pyInt_showInt]
  have hi' : Pica.flowPort i = .ok (k + 128) := by rw [hi]; exact hp a b k ha hb
  have hj' : Pica.flowPort j = .ok (l + 128) := by rw [hj]; exact hp c d l hc hd
  have t1 : ∀ (p : Str) (x : Int), PCmd.text db (.addTrunk p x) = fillIn "/ovs/bin/ovs-vsctl --db=tcp:%:6640 add port % trunk %".toList [db, p, showInt x] := by
    intro p x
    rfl
  have t2 : ∀ (p : Str) (x : Int), PCmd.text db (.removeTrunk p x) = fillIn "/ovs/bin/ovs-vsctl --db=tcp:%:6640 remove port % trunk %".toList [db, p, showInt x] := by
    intro p x
    rfl
  have t3 : ∀ x y z : Int, PCmd.text db (.addFlow x y ⟨z, none⟩) =
      fillIn "/ovs/bin/ovs-ofctl add-flow br0 in_port=%,dl_vlan=%,actions=output:%".toList [showInt x, showInt y, showInt z] := by
    intro x y z
    rfl
  have t4 : ∀ x y z u : Int, PCmd.text db (.addFlow x y ⟨z, some u⟩) =
      fillIn "/ovs/bin/ovs-ofctl add-flow br0 in_port=%,dl_vlan=%,action=set_field=%-\\>vlan_vid,output:%".toList
        [showInt x, showInt y, showInt u, showInt z] := by
    intro x y z u
    rfl
  have t5 : ∀ x y : Int, PCmd.text db (.delFlow x y) =
      fillIn "/ovs/bin/ovs-ofctl del-flows br0 in_port=%,dl_vlan=%".toList [showInt x, showInt y] := by
    intro x y
    rfl
  constructor
  · rw [Pica.configure, hi', hj']
    by_cases h : v = w
    · simp only [if_pos h]
      exact congrArg Except.ok (cons_congr (t1 _ _) (cons_congr (t1 _ _) (cons_congr (t3 _ _ _) (cons_congr (t3 _ _ _) rfl))))
    · simp only [if_neg h]
      exact congrArg Except.ok (cons_congr (t1 _ _) (cons_congr (t1 _ _) (cons_congr (t4 _ _ _ _) (cons_congr (t4 _ _ _ _) rfl))))
  · rw [Pica.delete, hi', hj']
    exact congrArg Except.ok (cons_congr (t5 _ _) (cons_congr (t5 _ _) (cons_congr (t2 _ _) (cons_congr (t2 _ _) rfl))))

example : "ge-1/1/5".toList = fillIn "%/%/%".toList ["ge-1".toList, ['1'], showInt 5] ∧ '/' ∉ "ge-1".toList ∧ '/' ∉ ['1'] ∧
    (Pica.delete "ge-1/1/5".toList "ge-1/1/6".toList 12 13).map (List.map (PCmd.text "10.0.0.1".toList)) =
      .ok (["/ovs/bin/ovs-ofctl del-flows br0 in_port=133,dl_vlan=12", "/ovs/bin/ovs-ofctl del-flows br0 in_port=134,dl_vlan=13",
        "/ovs/bin/ovs-vsctl --db=tcp:10.0.0.1:6640 remove port ge-1/1/5 trunk 12",
        "/ovs/bin/ovs-vsctl --db=tcp:10.0.0.1:6640 remove port ge-1/1/6 trunk 13"].map String.toList) := by
  decide +kernel

/-! ### Nothing else is read -/

/-- The text is free of the end of a line of a JunOS device or a brocade switch. -/
def OneLine (w : Str) : Prop := '\r' ∉ w

/-- The lines in a text whose lines end with `\r`, and what follows the last one. -/
def linesRead (s : Str) : List Str := splitOn '\r' s

theorem read_all : ∀ (ls : List Str), (∀ l ∈ ls, OneLine l) → linesRead ((ls.map (· ++ ['\r'])).flatten) = ls ++ [[]]
  | [], _ => rfl
  | l :: ls, h => by
    have := read_all ls fun x hx => h x (List.mem_cons_of_mem _ hx)
    simp only [List.map_cons, List.flatten_cons, List.append_assoc, List.cons_append, List.nil_append]
    rw [linesRead, Ssh.splitOn_cut, splitOn_no_sep (h l List.mem_cons_self)]
    exact congrArg (l :: ·) this

/-- The words of the command are free of ends of lines. -/
def Cmd.Whole : Cmd → Prop
  | .set p => ∀ w ∈ p, OneLine w
  | .delete p => ∀ w ∈ p, OneLine w

theorem oneLine_join : ∀ ws : List Str, (∀ w ∈ ws, OneLine w) → OneLine (joinWith ' ' ws)
  | [], _ => by simp [joinWith, OneLine]
  | [w], h => h w (by simp)
  | w :: w' :: ws, h => by
    have := oneLine_join (w' :: ws) fun x hx => h x (List.mem_cons_of_mem _ hx)
    have h1 := h w (by simp)
    simp only [joinWith, OneLine, List.mem_append, List.mem_cons, not_or] at *
    exact ⟨h1, by decide, this⟩

theorem Cmd.Whole.text {c : Cmd} (h : c.Whole) : OneLine c.text := by
  cases c with
  | set p =>
    refine oneLine_join _ fun w hw => ?_
    rcases List.mem_cons.mp hw with rfl | hw
    · show '\r' ∉ "set".toList; decide
    · exact h w hw
  | delete p =>
    refine oneLine_join _ fun w hw => ?_
    rcases List.mem_cons.mp hw with rfl | hw
    · show '\r' ∉ "delete".toList; decide
    · exact h w hw

theorem oneLine_int (v : Int) : OneLine (showInt v) := showInt_no_char (by decide) (by decide) v
theorem oneLine_val (v : Option Int) : OneLine (valText v) := by
  cases v with
  | none => show '\r' ∉ "None".toList; decide
  | some v => exact oneLine_int v
theorem oneLine_app {a b : Str} (ha : OneLine a) (hb : OneLine b) : OneLine (a ++ b) := by
  simp only [OneLine, List.mem_append, not_or] at *; exact ⟨ha, hb⟩
theorem oneLine_unit {a b : Str} (ha : OneLine a) (hb : OneLine b) : OneLine (unitName a b) := by
  simp only [OneLine, unitName, List.mem_append, List.mem_cons, not_or] at *; exact ⟨ha, by decide, hb⟩
theorem oneLine_take {a : Str} (n : Nat) (ha : OneLine a) : OneLine (a.take n) := fun h => ha (List.mem_of_mem_take h)

theorem all_cons {a : Str} {l : List Str} (ha : OneLine a) (hl : ∀ w ∈ l, OneLine w) : ∀ w ∈ a :: l, OneLine w :=
  List.forall_mem_cons.mpr ⟨ha, hl⟩
theorem all_nil : ∀ w ∈ ([] : List Str), OneLine w := by simp

/-- All commands are free of ends of lines within their words. -/
def Wholes (l : List Cmd) : Prop := ∀ c ∈ l, c.Whole

theorem wholes_nil : Wholes [] := by simp [Wholes]
theorem wholes_cons {c : Cmd} {l : List Cmd} (hc : c.Whole) (hl : Wholes l) : Wholes (c :: l) := List.forall_mem_cons.mpr ⟨hc, hl⟩
theorem wholes_app {l m : List Cmd} (hl : Wholes l) (hm : Wholes m) : Wholes (l ++ m) := fun c hc =>
  (List.mem_append.mp hc).elim (hl c) (hm c)
theorem wholes_ite {p : Prop} [Decidable p] {l m : List Cmd} (hl : Wholes l) (hm : Wholes m) : Wholes (if p then l else m) := by
  split <;> assumption

/-- Proves that the commands of a list are free of ends of lines within their words. -/
macro "by_words" : tactic => `(tactic| (
  repeat' first
    | exact wholes_nil
    | refine wholes_cons (show ∀ w ∈ _, OneLine w from ?_) ?_
    | refine all_cons ?_ ?_
    | exact all_nil
    | assumption
    | exact oneLine_int _
    | exact oneLine_val _
    | refine oneLine_unit ?_ ?_
    | refine oneLine_take _ ?_
    | (unfold OneLine; decide +kernel)))

theorem whole_vlanUp {p v : Str} (hp : OneLine p) (hv : OneLine v) : Wholes (Mx.vlanUp p v) := by
  unfold Mx.vlanUp
  by_words

theorem whole_wholeUp {p : Str} (hp : OneLine p) : Wholes (Mx.wholeUp p) := by
  unfold Mx.wholeUp
  by_words

/-- The names of the port are free of ends of lines. -/
def Target.Plain' (t : Target) : Prop := OneLine t.port.interface ∧ ∀ n, t.port.remote = some n → OneLine n

/-- The names that are configured for a device of junosmx are free of ends of lines. -/
def Mx.Env.Plain' (e : Mx.Env) : Prop := OneLine e.network ∧ ∀ x ∈ e.routers, OneLine x.2

theorem Target.Plain'.net {t : Target} (h : t.Plain') : OneLine t.net := by
  unfold Target.net
  cases hr : t.port.remote with
  | none => simp [OneLine]
  | some n => exact h.2 n hr

theorem whole_endUp {t : Target} (h : t.Plain') : Wholes (Mx.endUp t) := by
  unfold Mx.endUp
  cases t.port.labelType with
  | none => exact whole_wholeUp h.1
  | some ty => exact wholes_ite (whole_vlanUp h.1 (oneLine_val _)) wholes_nil

theorem whole_endDown {t : Target} (h : t.Plain') : Wholes (Mx.endDown t) := by
  have := h.1
  unfold Mx.endDown
  cases t.port.labelType with
  | none => by_words
  | some ty => exact wholes_ite (by by_words) wholes_nil

theorem oneLine_switch {id : Str} (h : OneLine id) : OneLine (Mx.switch id) := oneLine_app (by unfold OneLine; decide +kernel) h

theorem whole_join {id p u : Str} (hi : OneLine id) (hp : OneLine p) (hu : OneLine u) : (Mx.join id p u).Whole := by
  have := oneLine_switch hi
  show ∀ w ∈ _, OneLine w
  by_words

theorem whole_unjoin {id : Str} (hi : OneLine id) : (Mx.unjoin id).Whole := by
  have := oneLine_switch hi
  show ∀ w ∈ _, OneLine w
  by_words

theorem whole_unlsp {id : Str} (hi : OneLine id) : (Mx.unlsp id).Whole := by
  show ∀ w ∈ _, OneLine w
  by_words

theorem whole_lspIf {id p : Str} (hi : OneLine id) (hp : OneLine p) : (Mx.lspIf id p).Whole := by
  show ∀ w ∈ _, OneLine w
  by_words

theorem oneLine_lsp {n m : Str} (hn : OneLine n) (hm : OneLine m) (v : Option Int) : OneLine (Mx.lspName n m v) :=
  oneLine_app (oneLine_app (oneLine_app (oneLine_app (oneLine_app (by unfold OneLine; decide +kernel) (oneLine_take 6 hn))
    (by unfold OneLine; decide +kernel)) (oneLine_take 6 hm)) (by unfold OneLine; decide +kernel)) (oneLine_val v)

theorem whole_lspUp {e : Mx.Env} (he : e.Plain') {t : Target} (h : t.Plain') {l : List Cmd} (hl : Mx.lspUp e t = .ok l) : Wholes l := by
  have hn := oneLine_lsp h.net he.1 t.value
  unfold Mx.lspUp at hl
  cases hb : Mx.loopback e t.net with
  | error x => rw [hb] at hl; simp [bind, Except.bind] at hl
  | ok ip =>
    have hip : OneLine ip := by
      unfold Mx.loopback at hb
      split at hb
      · rename_i ip' hd
        cases hb
        exact he.2 _ (dget_some_mem hd)
      · simp at hb
    rw [hb] at hl
    simp only [bind, Except.bind, Except.ok.injEq] at hl
    subst hl
    by_words

theorem whole_lspDown {e : Mx.Env} (he : e.Plain') {t : Target} (h : t.Plain') : (Mx.lspDown e t).Whole := by
  have := oneLine_lsp h.net he.1 t.value
  show ∀ w ∈ _, OneLine w
  by_words

theorem whole_useLsp {e : Mx.Env} (he : e.Plain') {t : Target} (h : t.Plain') {id : Str} (hi : OneLine id) : Wholes (Mx.useLsp e id t) := by
  have := oneLine_lsp h.net he.1 t.value
  have := oneLine_lsp he.1 h.net t.value
  unfold Mx.useLsp
  by_words

theorem plain_localOf {s d : Target} (hs : s.Plain') (hd : d.Plain') : (localOf s d).Plain' := by unfold localOf; split <;> assumption
theorem plain_remoteOf {s d : Target} (hs : s.Plain') (hd : d.Plain') : (remoteOf s d).Plain' := by unfold remoteOf; split <;> assumption

theorem whole_lspEnd {id : Str} (hi : OneLine id) {t : Target} (h : t.Plain') : Wholes (Mx.lspEnd id t) := by
  unfold Mx.lspEnd
  cases t.port.labelType with
  | none => exact wholes_cons (whole_lspIf hi h.1) wholes_nil
  | some ty => exact wholes_ite (wholes_cons (whole_lspIf hi (oneLine_unit h.1 (oneLine_val _))) wholes_nil) wholes_nil

theorem bind_ok_lines {α β ε : Type} {r : Except ε α} {f : α → Except ε β} {b : β} (h : (r >>= f) = .ok b) : ∃ a, r = .ok a ∧ f a = .ok b := by
  cases r with
  | error x => simp [bind, Except.bind] at h
  | ok a => exact ⟨a, rfl, h⟩

theorem whole_remoteLsp {e : Mx.Env} (he : e.Plain') {id : Str} (hi : OneLine id) {s d : Target} (hs : s.Plain') (hd : d.Plain') {l : List Cmd}
    (h : Mx.remoteLsp e id s d = .ok l) : Wholes l := by
  unfold Mx.remoteLsp at h
  split at h
  · obtain ⟨a, ha, h⟩ := bind_ok_lines h
    cases h
    exact wholes_app (wholes_app (whole_lspUp he hd ha) (whole_lspEnd hi hs)) (whole_useLsp he hd hi)
  · cases h
    exact wholes_nil

theorem whole_joinTyped {id : Str} (hi : OneLine id) {t : Target} (ht : t.Plain') {c : Cmd} (h : Mx.joinTyped id t = .ok c) : c.Whole := by
  unfold Mx.joinTyped at h
  split at h
  · simp at h
  · cases h
    exact whole_join hi ht.1 (by split; exact oneLine_val _; unfold OneLine; decide)

theorem whole_remoteVlan {id : Str} (hi : OneLine id) {s d : Target} (hs : s.Plain') (hd : d.Plain') {l : List Cmd}
    (h : Mx.remoteVlan id s d = .ok l) : Wholes l := by
  unfold Mx.remoteVlan at h
  split at h
  · obtain ⟨a, ha, h⟩ := bind_ok_lines h
    obtain ⟨b, hb, h⟩ := bind_ok_lines h
    cases h
    exact wholes_app (whole_vlanUp hd.1 (oneLine_val _))
      (wholes_cons (whole_joinTyped hi hs ha) (wholes_cons (whole_joinTyped hi hd hb) wholes_nil))
  · cases h
    exact wholes_nil

theorem whole_remoteUp {e : Mx.Env} (he : e.Plain') {id : Str} (hi : OneLine id) {s d : Target} (hs : s.Plain') (hd : d.Plain') {l : List Cmd}
    (h : Mx.remoteUp e id s d = .ok l) : Wholes l := by
  unfold Mx.remoteUp at h
  obtain ⟨a, ha, h⟩ := bind_ok_lines h
  obtain ⟨b, hb, h⟩ := bind_ok_lines h
  cases h
  exact wholes_app (wholes_app (whole_endUp (plain_localOf hs hd)) (whole_remoteLsp he hi (plain_localOf hs hd) (plain_remoteOf hs hd) ha))
    (whole_remoteVlan hi (plain_localOf hs hd) (plain_remoteOf hs hd) hb)

theorem whole_vlanDown {t : Target} (h : t.Plain') : Wholes [.delete [kInterfaces, unitName t.port.interface (valText t.value)]] := by
  have := h.1
  by_words

theorem whole_remoteDown {e : Mx.Env} (he : e.Plain') {id : Str} (hi : OneLine id) {s d : Target} (hs : s.Plain') (hd : d.Plain') {l : List Cmd}
    (h : Mx.remoteDown e id s d = .ok l) : Wholes l := by
  unfold Mx.remoteDown at h
  simp only at h
  split at h
  · simp at h
  · cases h
    have hr := plain_remoteOf hs hd
    exact wholes_app (whole_endDown (plain_localOf hs hd)) (wholes_ite (wholes_cons (whole_lspDown he hr) (wholes_cons (whole_unlsp hi) wholes_nil))
      (wholes_ite (wholes_app (whole_vlanDown hr) (wholes_cons (whole_unjoin hi) wholes_nil)) wholes_nil))

theorem whole_transitLsp {e : Mx.Env} (he : e.Plain') {id : Str} (hi : OneLine id) {s d : Target} (hs : s.Plain') (hd : d.Plain') {l : List Cmd}
    (h : Mx.transitLsp e id s d = .ok l) : Wholes l := by
  unfold Mx.transitLsp at h
  split at h
  · obtain ⟨a, ha, h⟩ := bind_ok_lines h
    cases h
    exact wholes_app (wholes_app (whole_lspUp he hs ha)
      (wholes_ite (wholes_cons (whole_lspIf hi (oneLine_unit hd.1 (oneLine_val _))) wholes_nil) wholes_nil)) (whole_useLsp he hs hi)
  · cases h
    exact wholes_nil

theorem whole_vlanEnd {t : Target} (h : t.Plain') : Wholes (Mx.vlanEnd t) :=
  wholes_ite (whole_vlanUp h.1 (oneLine_val _)) wholes_nil

theorem whole_transitUp {e : Mx.Env} (he : e.Plain') {id : Str} (hi : OneLine id) {s d : Target} (hs : s.Plain') (hd : d.Plain') {l : List Cmd}
    (h : Mx.transitUp e id s d = .ok l) : Wholes l := by
  unfold Mx.transitUp at h
  simp only at h
  obtain ⟨a, ha, h⟩ := bind_ok_lines h
  obtain ⟨b, hb, h⟩ := bind_ok_lines h
  cases h
  exact wholes_app (wholes_app (wholes_app (wholes_app (whole_vlanEnd hs) (whole_vlanEnd hd)) (whole_transitLsp he hi hs hd ha))
    (whole_transitLsp he hi hd hs hb)) (wholes_ite (wholes_cons (whole_join hi hs.1 (oneLine_val _))
      (wholes_cons (whole_join hi hd.1 (oneLine_val _)) wholes_nil)) wholes_nil)

theorem whole_transitEndDown {e : Mx.Env} (he : e.Plain') {t : Target} (h : t.Plain') : Wholes (Mx.transitEndDown e t) :=
  wholes_ite (wholes_cons (whole_lspDown he h) wholes_nil) (wholes_ite (whole_vlanDown h) wholes_nil)

theorem whole_activate {e : Mx.Env} (he : e.Plain') {id : Str} (hi : OneLine id) {s d : Target} (hs : s.Plain') (hd : d.Plain') {l : List Cmd}
    (h : Mx.activate e id s d = .ok l) : Wholes l := by
  unfold Mx.activate at h
  split at h
  · cases h
    have hu : ∀ t : Target, OneLine (if t.port.labelType.isSome then valText t.value else ['0']) := fun t => by
      split
      · exact oneLine_val _
      · unfold OneLine; decide
    exact wholes_app (wholes_app (whole_endUp hs) (whole_endUp hd))
      (wholes_cons (whole_join hi hs.1 (hu s)) (wholes_cons (whole_join hi hd.1 (hu d)) wholes_nil))
  · split at h
    · exact whole_transitUp he hi hs hd h
    · exact whole_remoteUp he hi hs hd h

theorem whole_deactivate {e : Mx.Env} (he : e.Plain') {id : Str} (hi : OneLine id) {s d : Target} (hs : s.Plain') (hd : d.Plain') {l : List Cmd}
    (h : Mx.deactivate e id s d = .ok l) : Wholes l := by
  unfold Mx.deactivate at h
  split at h
  · cases h
    exact wholes_app (wholes_app (whole_endDown hs) (whole_endDown hd)) (wholes_cons (whole_unjoin hi) wholes_nil)
  · split at h
    · cases h
      exact wholes_app (wholes_app (whole_transitEndDown he hs) (whole_transitEndDown he hd))
        (wholes_ite (wholes_ite (wholes_cons (whole_unlsp hi) wholes_nil) (wholes_cons (whole_unjoin hi) wholes_nil)) wholes_nil)
    · exact whole_remoteDown he hi hs hd h

theorem read_junos (configure entered edit : Str) (hc : OneLine configure) (ls : List Str) (h : ∀ l ∈ ls, OneLine l) :
    linesRead (wholeText (Ssh.junosScript configure entered edit ls)) = configure :: ls ++ ["commit".toList, []] := by
  have : wholeText (Ssh.junosScript configure entered edit ls) = (((configure :: ls ++ ["commit".toList])).map (· ++ ['\r'])).flatten := by
    simp only [wholeText, Ssh.junosScript, List.flatMap_append, List.flatMap_cons, List.flatMap_nil, List.append_nil, List.map_append,
      List.map_cons, List.map_nil, List.flatMap_map, List.cons_append]
    refine congrArg List.flatten ?_
    refine congrArg (_ :: ·) ?_
    have h1 : ls.flatMap (fun c => [c ++ ['\r']]) = ls.map (· ++ ['\r']) := by induction ls <;> simp_all
    rw [h1]
    rfl
  rw [this, read_all]
  · simp
  · intro l hl
    rcases List.mem_append.mp hl with hl | hl
    · rcases List.mem_cons.mp hl with rfl | hl
      · exact hc
      · exact h l hl
    · rw [List.mem_singleton.mp hl]
      unfold OneLine
      decide +kernel

theorem Wholes.texts {l : List Cmd} (h : Wholes l) : ∀ t ∈ l.map Cmd.text, OneLine t := by
  intro t ht
  obtain ⟨c, hc, rfl⟩ := List.mem_map.mp ht
  exact (h c hc).text

/-- C98: whatever the request, the device reads the lines of the commands of junosmx one by one, and nothing else but the lines that begin and
end the change. No text of the request gets to the device: the names are those of the configuration. -/
theorem C98_mx_read (e : Mx.Env) (he : e.Plain') (id : Str) (hi : OneLine id) (s d : Target) (hs : s.Plain') (hd : d.Plain') (cs : List Cmd)
    (h : Mx.activate e id s d = .ok cs ∨ Mx.deactivate e id s d = .ok cs) :
    linesRead (wholeText (Ssh.junosmxScript (cs.map Cmd.text))) =
      "edit private".toList :: cs.map Cmd.text ++ ["commit".toList, []] :=
  read_junos _ _ _ (by unfold OneLine; decide +kernel) _ (h.elim (whole_activate he hi hs hd) (whole_deactivate he hi hs hd)).texts

example : Exl.env.Plain' ∧ OneLine "NO-2".toList ∧ (Side.vlan "ge-1/0/1".toList 1781).near.Plain' ∧
    (farLsp "ge-1/0/3".toList "surfnet.nl:topology".toList 7).Plain' ∧ ∃ cs, Mx.deactivate Exl.env "NO-2".toList
      (Side.vlan "ge-1/0/1".toList 1781).near (farLsp "ge-1/0/3".toList "surfnet.nl:topology".toList 7) = .ok cs ∧ cs.length = 3 := by
  refine ⟨⟨by unfold OneLine; decide +kernel, ?_⟩, by unfold OneLine; decide +kernel, ⟨by unfold OneLine; decide +kernel, fun n h => ?_⟩,
    ⟨by unfold OneLine; decide +kernel, fun n h => ?_⟩, _, rfl, rfl⟩
  · unfold OneLine; decide +kernel
  · cases h
  · cases h; unfold OneLine; decide +kernel

/-- C98: the same for junosex. -/
theorem C98_junosex_read (id : Str) (hi : OneLine id) (s d : Target) (hs : s.Plain') (hd : d.Plain') (cs : List Cmd)
    (h : Jex.activate id s d = .ok cs ∨ Jex.deactivate id s d = .ok cs) :
    linesRead (wholeText (Ssh.junosexScript (cs.map Cmd.text))) =
      "edit private".toList :: cs.map Cmd.text ++ ["commit".toList, []] := by
  have hsw : OneLine (Jex.switch id) := oneLine_app (by unfold OneLine; decide +kernel) hi
  have hup : ∀ t : Target, t.Plain' → Wholes (Jex.endUp t) := fun t ht => by
    have := ht.1
    refine wholes_ite ?_ wholes_nil
    by_words
  have hj : ∀ t : Target, t.Plain' → (Cmd.set [kProtocols, kConnections, kIntSwitch, Jex.switch id, kInterface,
      unitName t.port.interface (if t.port.labelType = some tVlan then valText t.value else ['0'])]).Whole := fun t ht => by
    have := ht.1
    have hu : OneLine (if t.port.labelType = some tVlan then valText t.value else ['0']) := by
      split
      · exact oneLine_val _
      · unfold OneLine; decide
    show ∀ w ∈ _, OneLine w
    by_words
  refine read_junos _ _ _ (by unfold OneLine; decide +kernel) _ (Wholes.texts ?_)
  rcases h with h | h
  · unfold Jex.activate at h
    split at h
    · cases h
      exact wholes_app (wholes_app (hup s hs) (hup d hd)) (wholes_cons (hj s hs) (wholes_cons (hj d hd) wholes_nil))
    · simp at h
  · unfold Jex.deactivate at h
    split at h
    · cases h
      exact wholes_app (wholes_app (wholes_ite (whole_vlanDown hs) wholes_nil) (wholes_ite (whole_vlanDown hd) wholes_nil)) (by by_words)
    · simp at h

example : ∃ cs, Jex.activate "NO-5".toList (Side.vlan "ge-0/0/1".toList 12).near (Side.vlan "ge-0/0/2".toList 13).near = .ok cs ∧ cs.length = 14 ∧
    OneLine "NO-5".toList ∧ (Side.vlan "ge-0/0/1".toList 12).near.Plain' ∧ (Side.vlan "ge-0/0/2".toList 13).near.Plain' := by
  refine ⟨_, rfl, rfl, by unfold OneLine; decide +kernel, ⟨by unfold OneLine; decide +kernel, fun n h => ?_⟩,
    ⟨by unfold OneLine; decide +kernel, fun n h => ?_⟩⟩ <;> cases h

/-- C98: the same for juniperex. -/
theorem C98_juniperex_read (s d : VlanTarget) (hs : OneLine s.port) (hd : OneLine d.port) (cs : List Cmd)
    (h : Ex.setupLink s d = .ok cs ∨ Ex.teardownLink s d = .ok cs) :
    linesRead (wholeText (Ssh.juniperexScript (cs.map Cmd.text))) =
      "configure".toList :: cs.map Cmd.text ++ ["commit".toList, []] := by
  have hv : OneLine (Ex.vlanName d.vlan) := oneLine_app (by unfold OneLine; decide +kernel) (oneLine_int _)
  refine read_junos _ _ _ (by unfold OneLine; decide +kernel) _ (Wholes.texts ?_)
  rcases h with h | h
  · unfold Ex.setupLink at h
    split at h
    · simp at h
    · cases h
      unfold Ex.configure Ex.member
      by_words
  · unfold Ex.teardownLink at h
    split at h
    · simp at h
    · cases h
      unfold Ex.delete Ex.member
      by_words

example : OneLine "ge-0/0/1".toList ∧ ∃ cs, Ex.setupLink ⟨"ge-0/0/1".toList, 12⟩ ⟨"ge-0/0/2".toList, 12⟩ = .ok cs ∧
    linesRead (wholeText (Ssh.juniperexScript (cs.map Cmd.text))) =
      (["configure", "set vlans opennsa-12 vlan-id 12", "set interfaces ge-0/0/1 unit 0 family ethernet-switching vlan members opennsa-12",
        "set interfaces ge-0/0/2 unit 0 family ethernet-switching vlan members opennsa-12", "commit", ""].map String.toList) :=
  ⟨by unfold OneLine; decide +kernel, _, rfl, by decide +kernel⟩

theorem oneLine_cons {c : Char} {a : Str} (hc : c ≠ '\r') (ha : OneLine a) : OneLine (c :: a) := by
  simp only [OneLine, List.mem_cons, not_or] at *; exact ⟨fun h => hc h.symm, ha⟩

/-- C98: the same for junipervpls. -/
theorem C98_vpls_read (asn id : Str) (ha : OneLine asn) (hi : OneLine id) (s d : VlanTarget) (hs : OneLine s.port) (hd : OneLine d.port)
    (cs : List Cmd) (h : Vpls.setupLink asn id s d = .ok cs ∨ Vpls.teardownLink id s d = .ok cs) :
    linesRead (wholeText (Ssh.vplsScript (cs.map Cmd.text))) =
      "configure private".toList :: cs.map Cmd.text ++ ["commit".toList, []] := by
  refine read_junos _ _ _ (by unfold OneLine; decide +kernel) _ (Wholes.texts ?_)
  have hu : OneLine (Vpls.uniqueId id) := oneLine_app (oneLine_take 5 hi) fun h => oneLine_take 9 hi (List.mem_of_mem_drop h)
  have hrd : OneLine (asn ++ ':' :: Vpls.uniqueId id) := oneLine_app ha (oneLine_cons (by decide) hu)
  have hvt : OneLine ("target:".toList ++ asn ++ ':' :: Vpls.uniqueId id) :=
    oneLine_app (oneLine_app (by unfold OneLine; decide +kernel) ha) (oneLine_cons (by decide) hu)
  have hdesc : OneLine ('"' :: (id ++ " [ X-connect created by OpenNSA ]".toList) ++ ['"']) :=
    oneLine_app (oneLine_cons (by decide) (oneLine_app hi (by unfold OneLine; decide +kernel))) (by unfold OneLine; decide)
  rcases h with h | h
  · unfold Vpls.setupLink at h
    split at h
    · simp at h
    · cases h
      unfold Vpls.configure Vpls.unitUp
      by_words
  · unfold Vpls.teardownLink at h
    split at h
    · simp at h
    · cases h
      unfold Vpls.delete
      by_words

example : OneLine "64512".toList ∧ OneLine "20130011".toList ∧
    ∃ cs, Vpls.setupLink "64512".toList "20130011".toList ⟨"ge-0/0/1".toList, 12⟩ ⟨"ge-0/0/2".toList, 12⟩ = .ok cs ∧ cs.length = 10 :=
  ⟨by unfold OneLine; decide +kernel, by unfold OneLine; decide +kernel, _, rfl, rfl⟩

/-- C98: what a brocade switch reads in a session with the commands `cs`, each of which is one line. -/
theorem C98_brocade_session (pw : Str) (cs : List Str) (hpw : OneLine pw) (hc : ∀ c ∈ cs, OneLine c) :
    linesRead (wholeText (Ssh.brocadeScript pw cs)) =
      fillIn "enable %".toList [pw] :: "configure terminal".toList :: cs ++ ["end".toList, []] := by
  have h1 : cs.flatMap (fun c => [c ++ ['\r']]) = cs.map (· ++ ['\r']) := by
    clear hc
    induction cs <;> simp_all
  have : wholeText (Ssh.brocadeScript pw cs) =
      ((("enable ".toList ++ pw) :: "configure terminal".toList :: cs ++ ["end".toList]).map (· ++ ['\r'])).flatten := by
    simp only [wholeText, Ssh.brocadeScript, List.flatMap_append, List.flatMap_cons, List.flatMap_nil, List.append_nil, List.map_append,
      List.map_cons, List.map_nil, List.flatMap_map, List.cons_append, List.nil_append, h1]
    rfl
  rw [this, read_all]
  · simp only [List.cons_append, List.append_assoc]
    rfl
  · intro l hl
    rcases List.mem_append.mp hl with hl | hl
    · rcases List.mem_cons.mp hl with rfl | hl
      · exact oneLine_app (by unfold OneLine; decide +kernel) hpw
      · rcases List.mem_cons.mp hl with rfl | hl
        · unfold OneLine; decide +kernel
        · exact hc l hl
    · rw [List.mem_singleton.mp hl]
      unfold OneLine
      decide +kernel

example : OneLine "secret".toList ∧ linesRead (wholeText (Ssh.brocadeScript "secret".toList ["no vlan 12".toList])) =
    ["enable secret", "configure terminal", "no vlan 12", "end", ""].map String.toList :=
  ⟨by unfold OneLine; decide +kernel, by decide +kernel⟩

/-- C98: what a force10 switch reads in a session with the commands `cs`, each of which is one line. -/
theorem C98_force10_session (pw : Str) (cs : List Str) (hpw : OneLine pw) (hc : ∀ c ∈ cs, OneLine c) :
    linesRead (wholeText (Ssh.force10Script pw cs)) =
      "enable".toList :: pw :: "configure".toList :: cs ++ ["write".toList, "exit".toList, []] := by
  have h1 : cs.flatMap (fun c => [c ++ ['\r']]) = cs.map (· ++ ['\r']) := by
    clear hc
    induction cs <;> simp_all
  have : wholeText (Ssh.force10Script pw cs) =
      (("enable".toList :: pw :: "configure".toList :: cs ++ ["write".toList, "exit".toList]).map (· ++ ['\r'])).flatten := by
    simp only [wholeText, Ssh.force10Script, List.flatMap_append, List.flatMap_cons, List.flatMap_nil, List.append_nil, List.map_append,
      List.map_cons, List.map_nil, List.flatMap_map, List.cons_append, List.nil_append, h1, List.append_assoc]
    rfl
  rw [this, read_all]
  · simp only [List.cons_append, List.append_assoc, List.nil_append]
  · intro l hl
    rcases List.mem_append.mp hl with hl | hl
    · rcases List.mem_cons.mp hl with rfl | hl
      · unfold OneLine; decide +kernel
      · rcases List.mem_cons.mp hl with rfl | hl
        · exact hpw
        · rcases List.mem_cons.mp hl with rfl | hl
          · unfold OneLine; decide +kernel
          · exact hc l hl
    · rcases List.mem_cons.mp hl with rfl | hl
      · unfold OneLine; decide +kernel
      · rw [List.mem_singleton.mp hl]
        unfold OneLine
        decide +kernel

example : OneLine "secret".toList ∧ linesRead (wholeText (Ssh.force10Script "secret".toList ["no interface vlan 12".toList])) =
    ["enable", "secret", "configure", "no interface vlan 12", "write", "exit", ""].map String.toList :=
  ⟨by unfold OneLine; decide +kernel, by decide +kernel⟩

theorem portVlan_oneLine {s p : Str} {v : Int} (hs : OneLine s) (h : Brocade.portVlan s = .ok (p, v)) : OneLine p := by
  unfold Brocade.portVlan at h
  split at h
  · rename_i a b hsp
    split at h
    · cases h
      intro hr
      exact hs ((Ssh.mem_splitOn_infix (c := '.') (b := p) (t := s) (by rw [hsp]; simp)).subset hr)
    · simp at h
  · simp at h

/-- C98: a brocade switch reads the lines of the commands one by one, and nothing else but the lines that begin and end the session. -/
theorem C98_brocade_read (pw : Str) (hpw : OneLine pw) (s d : Str) (hs : OneLine s) (hd : OneLine d) (cs : List BCmd)
    (h : Brocade.setup s d = .ok cs ∨ Brocade.teardown s d = .ok cs) :
    linesRead (wholeText (Ssh.brocadeScript pw (cs.map BCmd.text))) =
      fillIn "enable %".toList [pw] :: "configure terminal".toList :: cs.map BCmd.text ++ ["end".toList, []] := by
  refine C98_brocade_session pw _ hpw fun t ht => ?_
  obtain ⟨c, hc, rfl⟩ := List.mem_map.mp ht
  rcases h with h | h
  · unfold Brocade.setup at h
    obtain ⟨⟨sp, sv⟩, h1, h⟩ := bind_ok_lines h
    obtain ⟨⟨dp, dv⟩, h2, h⟩ := bind_ok_lines h
    simp only at h
    split at h
    · simp at h
    · cases h
      have hp : ∀ p : Str, OneLine p → OneLine (BCmd.text (.tagged p)) := fun p hp => oneLine_app (by unfold OneLine; decide +kernel) hp
      rcases List.mem_cons.mp hc with rfl | hc
      · exact oneLine_app (oneLine_app (oneLine_app (by unfold OneLine; decide +kernel) (oneLine_int _)) (by unfold OneLine; decide +kernel))
          (oneLine_app (by unfold OneLine; decide +kernel) (oneLine_int _))
      · rcases List.mem_cons.mp hc with rfl | hc
        · exact hp _ (portVlan_oneLine hs h1)
        · rw [List.mem_singleton.mp hc]
          exact hp _ (portVlan_oneLine hd h2)
  · unfold Brocade.teardown at h
    obtain ⟨⟨sp, sv⟩, h1, h⟩ := bind_ok_lines h
    obtain ⟨⟨dp, dv⟩, h2, h⟩ := bind_ok_lines h
    simp only at h
    split at h
    · simp at h
    · cases h
      rw [List.mem_singleton.mp hc]
      exact oneLine_app (by unfold OneLine; decide +kernel) (oneLine_int _)

example : OneLine "1/1.12".toList ∧ Brocade.teardown "1/1.12".toList "1/2.12".toList = .ok [.noVlan 12] :=
  ⟨by unfold OneLine; decide +kernel, by decide +kernel⟩

/-- C98: the switch of pica8ovs has a shell, whose lines end with `\n`: it reads the commands `cs`, each of which is one line, with an `echo`
before the first and after each of them, and one more at the end. -/
theorem C98_pica_session (cs : List Str) (hc : ∀ c ∈ cs, '\n' ∉ c) :
    splitOn '\n' (wholeText (Ssh.pica8Script cs)) =
      "echo".toList :: cs.flatMap (fun c => [c, "echo".toList]) ++ ["echo".toList, []] := by
  have key : ∀ ls : List Str, (∀ l ∈ ls, '\n' ∉ l) → ∀ r : Str,
      splitOn '\n' ((ls.flatMap fun c => [c ++ ['\n'], "echo\n".toList]).flatten ++ r) = ls.flatMap (fun c => [c, "echo".toList]) ++ splitOn '\n' r := by
    intro ls
    induction ls with
    | nil => intro _ r; rfl
    | cons l ls ih =>
      intro h r
      have e1 : (((l :: ls).flatMap fun c => [c ++ ['\n'], "echo\n".toList]).flatten ++ r) =
          l ++ '\n' :: ("echo".toList ++ '\n' :: ((ls.flatMap fun c => [c ++ ['\n'], "echo\n".toList]).flatten ++ r)) := by
        rw [List.flatMap_cons, List.flatten_append, List.append_assoc]
        refine Eq.trans (b := (l ++ ['\n']) ++ _) (List.append_assoc (l ++ ['\n']) _ _) ?_
        rw [List.append_assoc]
        rfl
      rw [e1, Ssh.splitOn_cut, Ssh.splitOn_cut, splitOn_no_sep (h l List.mem_cons_self), splitOn_no_sep (by decide +kernel),
        ih (fun x hx => h x (List.mem_cons_of_mem _ hx)) r]
      rfl
  have : wholeText (Ssh.pica8Script cs) = "echo".toList ++ '\n' :: ((cs.flatMap fun c => [c ++ ['\n'], "echo\n".toList]).flatten ++ "echo\n".toList) := by
    simp only [wholeText, Ssh.pica8Script, List.flatMap_append, List.flatMap_cons, List.flatMap_nil, List.append_nil,
      List.flatMap_map, List.cons_append, List.nil_append, List.flatten_cons, List.flatten_append]
    rfl
  rw [this, Ssh.splitOn_cut, key cs hc, splitOn_no_sep (by decide +kernel)]
  rfl

example : splitOn '\n' (wholeText (Ssh.pica8Script ["a".toList, "b".toList])) =
    ["echo", "a", "echo", "b", "echo", "echo", ""].map String.toList := by
  decide +kernel

end OpenNSA.Device
