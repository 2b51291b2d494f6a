import Verif.Nml.Props
import Verif.Nml.Format
import Verif.Wire.SchemaLemmas
/-
C96: the form of the published topology.
-/
namespace OpenNSA.Nml
open Py OpenNSA.Wire OpenNSA.Wire.Schema

/-! ### Labels -/

theorem ranges_value {r : Rng} (h0 : 0 ≤ r.1) (h : r.1 ≤ r.2) : Format.Ranges (valueText r) := by
  obtain ⟨a, b⟩ := r
  simp only at h0 h
  obtain ⟨n, rfl⟩ := Int.eq_ofNat_of_zero_le h0
  obtain ⟨m, rfl⟩ := Int.eq_ofNat_of_zero_le (Int.le_trans h0 h)
  unfold valueText
  split
  · exact .one (digits_showNat n)
  · exact .range (digits_showNat n) (digits_showNat m)

theorem ranges_join {l : List Str} (hne : l ≠ []) (h : ∀ s ∈ l, Format.Ranges s) : Format.Ranges (joinWith ',' l) := by
  induction l with
  | nil => exact absurd rfl hne
  | cons s t ih =>
    cases t with
    | nil => exact h s (by simp)
    | cons x t => exact .more (h s (by simp)) (ih (by simp) fun s hs => h s (List.mem_cons_of_mem _ hs))

theorem ranges_label {l : Label} (h : l.FromText) : Format.Ranges l.labelValue := by
  obtain ⟨hc, hne, h0, _⟩ := h.spec
  refine ranges_join (by simpa using hne) ?_
  intro s hs
  obtain ⟨r, hr, rfl⟩ := List.mem_map.1 hs
  have := hc.1 r hr
  exact ranges_value (h0 r.1 ⟨r, hr, Int.le_refl _, this⟩) this

/-! ### Elements -/

theorem urn_base (net s : Str) : Format.Urn (urnPrefix ++ net ++ s) := ⟨net ++ s, by rw [List.append_assoc]; rfl⟩

theorem atts_id {v : Str} (h : Format.Urn v) : Atts [Format.urnId] [("id", v)] := atts_one h

theorem portRef_ok {tag : String} {v : Str} (h : Format.Urn v) : Format.PortRef (.mk tag [("id", v)] none []) := node (atts_id h) .nil

theorem atts_relation {t : String} {v : Str} (h : v = t.toList) : Atts (Format.relation t) [("type", v)] := atts_one h

theorem portElem_ok {net : Str} {p : Port} (hl : ∀ l, p.label = some l → Writable l) :
    ∃ e, portElem (urnPrefix ++ net) p = some e ∧ e.tag = tPortGroup ∧ e.get "id" = some (urnPrefix ++ net ++ ':' :: p.name) ∧ Format.PortDecl e := by
  have hls : ∃ ls, labelElems p.label = some ls ∧ ls.length ≤ 1 ∧ ∀ e ∈ ls, e.tag = tLabelGroup ∧
      TextWith [⟨"labeltype", true, OneOf ["http://schemas.ogf.org/nml/2012/10/ethernet#vlan", "http://nsi.nordu.net/nml#mpls"]⟩] Format.Ranges e := by
    cases hp : p.label with
    | none => exact ⟨[], rfl, by simp, by simp⟩
    | some l =>
      have hw := hl l hp
      obtain ⟨t, ht⟩ := hw.mapping
      refine ⟨[.mk tLabelGroup [("labeltype", t)] (some l.labelValue) []], by simp [labelElems, ht], by simp, ?_⟩
      intro e he
      obtain rfl := List.mem_singleton.1 he
      refine ⟨rfl, atts_one ?_, rfl, ranges_label hw.1⟩
      unfold labelMapping at ht
      split at ht
      · cases ht; exact ⟨_, by simp, rfl⟩
      · split at ht
        · cases ht; exact ⟨_, List.mem_cons_of_mem _ (by simp), rfl⟩
        · cases ht
  obtain ⟨ls, h1, h2, h3⟩ := hls
  refine ⟨_, by simp only [portElem, h1, Option.map_some]; rfl, rfl, rfl, ?_⟩
  refine node (atts_id (urn_base _ _)) (Seq.opt h2 h3 ?_)
  refine Seq.opt_end ?_ ?_
  · cases p.remote <;> simp [aliasElems]
  · cases p.remote with
    | none => simp [aliasElems]
    | some r =>
      intro e he
      obtain rfl := List.mem_singleton.1 he
      exact ⟨rfl, node (atts_relation rfl) (Seq.one rfl (portRef_ok ⟨r, rfl⟩) .nil)⟩

theorem portElems_ok {net : Str} {l : List Port} (hl : ∀ p ∈ l, ∀ x, p.label = some x → Writable x) :
    ∃ es, portElems (urnPrefix ++ net) l = some es ∧ es.map (fun e => e.get "id") = l.map (fun p => some (urnPrefix ++ net ++ ':' :: p.name)) ∧
      ∀ e ∈ es, e.tag = tPortGroup ∧ Format.PortDecl e := by
  induction l with
  | nil => exact ⟨[], rfl, rfl, by simp⟩
  | cons p l ih =>
    obtain ⟨es, h1, h2, h3⟩ := ih fun p hp => hl p (List.mem_cons_of_mem _ hp)
    obtain ⟨e, e1, e2, e3, e4⟩ := portElem_ok (net := net) (hl p (by simp))
    refine ⟨e :: es, by simp [portElems, e1, h1], by simp [h2, e3], ?_⟩
    intro x hx
    rcases List.mem_cons.1 hx with rfl | hx
    · exact ⟨e2, e4⟩
    · exact h3 x hx

theorem bidiElem_ok (net : Str) (b : Bidi) : (bidiElem (urnPrefix ++ net) b).tag = tBidirectional ∧ Format.BidirectionalPort (bidiElem (urnPrefix ++ net) b) :=
  ⟨rfl, node (atts_id (urn_base _ _)) (Seq.one rfl text_any (Seq.one rfl (portRef_ok (urn_base _ _)) (Seq.one rfl (portRef_ok (urn_base _ _)) .nil)))⟩

theorem relationElems_ok {t : String} {es : List Elem} (h : ∀ e ∈ es, e.tag = tPortGroup ∧ Format.PortDecl e) :
    (relationElems t.toList es).length ≤ 1 ∧ ∀ e ∈ relationElems t.toList es, e.tag = tRelation ∧
      Node (Format.relation t) [some1 "{http://schemas.ogf.org/nml/2013/05/base#}PortGroup" Format.PortDecl] e := by
  unfold relationElems
  split
  · simp
  · rename_i hne
    refine ⟨by simp, ?_⟩
    intro e he
    obtain rfl := List.mem_singleton.1 he
    exact ⟨rfl, node (atts_relation rfl) (Seq.some1_end hne h)⟩

theorem urn_self (net : Str) : Format.Urn (urnPrefix ++ net) := ⟨net, rfl⟩

/-- **C96, the topology.** The topology that is made of the ports of any accepted file (no name with a colon), for any network name that is not a URN, is a document of the form of NML topologies: the elements
with their names and order, every id a URN of the OGF, the labels as ranges of numbers with the type of NML, the time of the version; and it says
that labels can be changed exactly if the backend says so. -/
theorem C96_topology (lines : List Str) (ports : List Nrm.Port) (hf : Nrm.parsePortSpec lines = .ok ports) (hc : ∀ p ∈ ports, ':' ∉ p.name)
    (net readable : Str) (h : NetOk net) (version : Int) (swap : Bool) :
    ∃ nw e, createNMLNetwork ports net readable = .ok nw ∧ topologyXML nw (createXMLTime version) swap = some e ∧
      e.tag = "{http://schemas.ogf.org/nml/2013/05/base#}Topology" ∧ Format.Topology swap e := by
  have hl : ∀ p ∈ ports, ∀ l, p.label = some l → Writable l := fun p hp => (parsePortSpec_port hf p hp).2
  obtain ⟨is, i1, i2, i3⟩ := portElems_ok (net := net) (l := ports.map (inOf net)) (by
    intro p hm
    obtain ⟨q, hq, rfl⟩ := List.mem_map.1 hm
    exact hl q hq)
  obtain ⟨os, o1, o2, o3⟩ := portElems_ok (net := net) (l := ports.map (outOf net)) (by
    intro p hm
    obtain ⟨q, hq, rfl⟩ := List.mem_map.1 hm
    exact hl q hq)
  refine ⟨_, _, C64_network net readable ports h hc, by simp only [topologyXML, i1, o1]; rfl, rfl, ?_⟩
  have ri := relationElems_ok (t := "http://schemas.ogf.org/nml/2013/05/base#hasInboundPort") i3
  have ro := relationElems_ok (t := "http://schemas.ogf.org/nml/2013/05/base#hasOutboundPort") o3
  refine node ⟨by simp, ?_, ?_⟩ (Seq.one rfl text_any ?_)
  · intro x hx
    simp only [List.mem_cons, List.not_mem_nil, or_false] at hx
    rcases hx with rfl | rfl
    · exact ⟨Format.urnId, by simp, rfl, urn_self net⟩
    · exact ⟨⟨"version", true, TimeText⟩, by simp, rfl, timeText_xml version⟩
  · simp [Format.urnId]
  rw [List.append_assoc, List.append_assoc]
  refine Seq.many ?_ (Seq.opt ri.1 ri.2 (Seq.opt ro.1 ro.2 ?_))
  · intro e he
    obtain ⟨b, _, rfl⟩ := List.mem_map.1 he
    exact bidiElem_ok net b
  · unfold serviceElems
    refine Seq.one rfl (node (atts_id (urn_base _ _)) (Seq.one rfl text_any (Seq.one rfl (text_leaf rfl) .nil))) (Seq.one rfl (node (atts_relation rfl) (Seq.one rfl (node ⟨by simp, ?_, ?_⟩ (Seq.one rfl (node (atts_id (urn_base _ _)) .nil) .nil)) .nil)) .nil)
    · intro x hx
      simp only [List.mem_cons, List.not_mem_nil, or_false] at hx
      rcases hx with rfl | rfl | rfl
      · exact ⟨Format.urnId, by simp, rfl, urn_base _ _⟩
      · refine ⟨⟨"labelSwapping", true, if swap then TrueText else FalseText⟩, by simp, rfl, ?_⟩
        cases swap
        · exact .inl rfl
        · exact .inl rfl
      · exact ⟨⟨"labelType", true, Format.Is "http://schemas.ogf.org/nml/2012/10/ethernet#vlan"⟩, by simp, rfl, rfl⟩
    · simp [Format.urnId]

/-- The hypotheses of `C96_topology` are met by the file of the example of C48. -/
example : (match Nrm.parsePortSpec Nrm.Ex.file with | .ok ps => decide (∀ p ∈ ps, ':' ∉ p.name) | _ => false) = true ∧ NetOk Ex.net := by decide +kernel

/-! ### References -/

theorem kidsOf_none {tag : String} {l : List Elem} (h : ∀ e ∈ l, e.tag ≠ tag) : l.filter (fun k => decide (k.tag = tag)) = [] := by
  simp only [List.filter_eq_nil_iff, decide_eq_true_eq]
  exact h

theorem kidsOf_all {tag : String} {l : List Elem} (h : ∀ e ∈ l, e.tag = tag) : l.filter (fun k => decide (k.tag = tag)) = l := by
  simp only [List.filter_eq_self, decide_eq_true_eq]
  exact h

theorem relationElems_tag {t : Str} {es : List Elem} : ∀ e ∈ relationElems t es, e.tag = tRelation ∧ e.get "type" = some t := by
  unfold relationElems
  split
  · simp
  · intro e he
    obtain rfl := List.mem_singleton.1 he
    exact ⟨rfl, rfl⟩

theorem relationElems_kids (t : Str) (es : List Elem) : (relationElems t es).flatMap Elem.kids = es := by
  unfold relationElems
  split
  · rename_i h; simp [h]
  · simp [Elem.kids]

/-- The relation with the service. -/
def serviceRel (id : Str) (swap : Bool) : Elem :=
  .mk tRelation [("type", rService)] none
     [.mk tSwitching [("id", id ++ ":switch:EVTS.A-GOLE".toList), ("labelSwapping", (if swap then "true" else "false").toList), ("labelType", nmlVlan)] none
       [.mk tServiceDef [("id", id ++ ":sd:EVTS.A-GOLE".toList)] none []]]

/-- **C96, references.** In the topology of such ports everything that is named is there: each bidirectional port has two directions, the first of which is declared as inbound and the second as outbound, all
declared ports belong to one, and the service of the network is one that is defined in the document. -/
theorem C96_references (lines : List Str) (ports : List Nrm.Port) (hf : Nrm.parsePortSpec lines = .ok ports) (hc : ∀ p ∈ ports, ':' ∉ p.name)
    (net readable version : Str) (h : NetOk net) (swap : Bool) :
    ∃ nw e, createNMLNetwork ports net readable = .ok nw ∧ topologyXML nw version swap = some e ∧ Format.Closed e := by
  have hl : ∀ p ∈ ports, ∀ l, p.label = some l → Writable l := fun p hp => (parsePortSpec_port hf p hp).2
  obtain ⟨is, i1, i2, i3⟩ := portElems_ok (net := net) (l := ports.map (inOf net)) (by
    intro p hm
    obtain ⟨q, hq, rfl⟩ := List.mem_map.1 hm
    exact hl q hq)
  obtain ⟨os, o1, o2, o3⟩ := portElems_ok (net := net) (l := ports.map (outOf net)) (by
    intro p hm
    obtain ⟨q, hq, rfl⟩ := List.mem_map.1 hm
    exact hl q hq)
  refine ⟨_, _, C64_network net readable ports h hc, by simp only [topologyXML, i1, o1]; rfl, ?_⟩
  generalize he : Elem.mk tTopology _ _ _ = e
  have hk : e.kids = leaf tName (some readable) :: ((ports.map (bidiOf net)).map (bidiElem (urnPrefix ++ net)) ++ relationElems rInbound is ++
      relationElems rOutbound os ++ serviceElems (urnPrefix ++ net) swap) := by rw [← he]; rfl
  have hb : Format.kidsOf e tBidirectional = (ports.map (bidiOf net)).map (bidiElem (urnPrefix ++ net)) := by
    unfold Format.kidsOf
    rw [hk, List.filter_cons_of_neg (by simp [leaf_tag, tName, tBidirectional]), List.filter_append, List.filter_append, List.filter_append,
      kidsOf_all (l := List.map _ _) (by intro e he; obtain ⟨b, _, rfl⟩ := List.mem_map.1 he; rfl),
      kidsOf_none (l := relationElems rInbound is) (by intro e he; rw [(relationElems_tag e he).1]; decide),
      kidsOf_none (l := relationElems rOutbound os) (by intro e he; rw [(relationElems_tag e he).1]; decide)]
    simp [serviceElems, Elem.tag, tServiceDef, tRelation, tBidirectional]
  have hr : Format.kidsOf e tRelation = relationElems rInbound is ++ relationElems rOutbound os ++ [serviceRel (urnPrefix ++ net) swap] := by
    unfold Format.kidsOf
    rw [hk, List.filter_cons_of_neg (by simp [leaf_tag, tName, tRelation]), List.filter_append, List.filter_append, List.filter_append,
      kidsOf_none (l := List.map _ _) (by intro e he; obtain ⟨b, _, rfl⟩ := List.mem_map.1 he; show tBidirectional ≠ tRelation; decide),
      kidsOf_all (l := relationElems rInbound is) (fun e he => (relationElems_tag e he).1),
      kidsOf_all (l := relationElems rOutbound os) (fun e he => (relationElems_tag e he).1)]
    simp [serviceElems, serviceRel, Elem.tag, tServiceDef, tRelation]
  have hs : Format.kidsOf e tServiceDef = [.mk tServiceDef [("id", urnPrefix ++ net ++ ":sd:EVTS.A-GOLE".toList)] none
      [leaf "name" (some "GLIF Automated GOLE Ethernet VLAN Transfer Service".toList), leaf "serviceType" (some evtsAgole)]] := by
    unfold Format.kidsOf
    rw [hk, List.filter_cons_of_neg (by simp [leaf_tag, tName, tServiceDef]), List.filter_append, List.filter_append, List.filter_append,
      kidsOf_none (l := List.map _ _) (by intro e he; obtain ⟨b, _, rfl⟩ := List.mem_map.1 he; show tBidirectional ≠ tServiceDef; decide),
      kidsOf_none (l := relationElems rInbound is) (by intro e he; rw [(relationElems_tag e he).1]; decide),
      kidsOf_none (l := relationElems rOutbound os) (by intro e he; rw [(relationElems_tag e he).1]; decide)]
    simp [serviceElems, Elem.tag, tServiceDef, tRelation]
  have pick : ∀ (t : Str) (l : List Elem), (∀ e ∈ l, e.get "type" = some t) → l.filter (fun r => decide (r.get "type" = some t)) = l := by
    intro t l h
    simpa only [List.filter_eq_self, decide_eq_true_eq] using h
  have drop : ∀ (t t' : Str) (l : List Elem), t' ≠ t → (∀ e ∈ l, e.get "type" = some t') → l.filter (fun r => decide (r.get "type" = some t)) = [] := by
    intro t t' l hne h
    simp only [List.filter_eq_nil_iff, decide_eq_true_eq]
    intro e he h'
    rw [h e he] at h'
    exact hne (Option.some.inj h')
  have hsr : ∀ x ∈ [serviceRel (urnPrefix ++ net) swap], x.get "type" = some rService := by
    intro x hx
    obtain rfl := List.mem_singleton.1 hx
    rfl
  have kids : ∀ l : List Elem, l.flatMap (fun r => r.kids.map fun p => p.get "id") = (l.flatMap Elem.kids).map fun p => p.get "id" := by
    intro l; rw [List.map_flatMap]
  have hi : Format.declared e "http://schemas.ogf.org/nml/2013/05/base#hasInboundPort" = ports.map fun p => some (urnPrefix ++ net ++ ':' :: (p.name ++ sufIn)) := by
    show ((Format.kidsOf e tRelation).filter fun r => decide (r.get "type" = some rInbound)).flatMap _ = _
    rw [hr, List.filter_append, List.filter_append, pick _ _ fun e he => (relationElems_tag e he).2, drop rInbound rOutbound _ (by decide) fun e he => (relationElems_tag e he).2,
      drop rInbound rService _ (by decide) hsr, List.append_nil, List.append_nil, kids, relationElems_kids, i2]
    simp [inOf]
  have ho : Format.declared e "http://schemas.ogf.org/nml/2013/05/base#hasOutboundPort" = ports.map fun p => some (urnPrefix ++ net ++ ':' :: (p.name ++ sufOut)) := by
    show ((Format.kidsOf e tRelation).filter fun r => decide (r.get "type" = some rOutbound)).flatMap _ = _
    rw [hr, List.filter_append, List.filter_append, pick _ _ fun e he => (relationElems_tag e he).2, drop rOutbound rInbound _ (by decide) fun e he => (relationElems_tag e he).2,
      drop rOutbound rService _ (by decide) hsr, List.append_nil, List.nil_append, kids, relationElems_kids, o2]
    simp [outOf]
  have hbp : ∀ p : Nrm.Port, (Format.kidsOf (bidiElem (urnPrefix ++ net) (bidiOf net p)) "{http://schemas.ogf.org/nml/2013/05/base#}PortGroup").map (fun p => p.get "id") =
      [some (urnPrefix ++ net ++ ':' :: (p.name ++ sufIn)), some (urnPrefix ++ net ++ ':' :: (p.name ++ sufOut))] := by
    intro p
    rfl
  refine ⟨?_, ?_, ?_⟩
  · intro b hm
    change b ∈ Format.kidsOf e tBidirectional at hm
    rw [hb, List.map_map] at hm
    obtain ⟨p, hp, rfl⟩ := List.mem_map.1 hm
    exact ⟨_, _, hbp p, by rw [hi]; exact List.mem_map.2 ⟨p, hp, rfl⟩, by rw [ho]; exact List.mem_map.2 ⟨p, hp, rfl⟩⟩
  · intro x hx
    rw [hi, ho] at hx
    show ∃ b ∈ Format.kidsOf e tBidirectional, _
    rw [hb, List.map_map]
    rcases List.mem_append.1 hx with hx | hx
    all_goals
      obtain ⟨p, hp, rfl⟩ := List.mem_map.1 hx
      refine ⟨_, List.mem_map.2 ⟨p, hp, rfl⟩, ?_⟩
      rw [Function.comp_apply, hbp]
      simp
  · intro r hm ht s hs' d hd
    change r ∈ Format.kidsOf e tRelation at hm
    show ∃ d' ∈ Format.kidsOf e tServiceDef, _
    rw [hr] at hm
    have hne1 : rInbound ≠ rService := by decide
    have hne2 : rOutbound ≠ rService := by decide
    change r.get "type" = some rService at ht
    rcases List.mem_append.1 hm with hm | hm
    · rcases List.mem_append.1 hm with hm | hm
      · rw [(relationElems_tag r hm).2] at ht
        exact absurd (Option.some.inj ht) hne1
      · rw [(relationElems_tag r hm).2] at ht
        exact absurd (Option.some.inj ht) hne2
    · obtain rfl := List.mem_singleton.1 hm
      obtain rfl := List.mem_singleton.1 hs'
      rw [hs]
      refine ⟨_, List.mem_singleton.2 rfl, ?_⟩
      have : d = .mk tServiceDef [("id", urnPrefix ++ net ++ ":sd:EVTS.A-GOLE".toList)] none [] := by
        have hd := (List.mem_filter.1 hd).1
        exact List.mem_singleton.1 hd
      rw [this]
      rfl

/-! ### Violations -/

namespace Ex
/-- A map of ports with a VLAN that does not exist. -/
def highVlan : List Str := ["ethernet ps - vlan:1-5000 1000 em0 -".toList]
/-- A map of ports with MPLS labels only. -/
def mplsOnly : List Str := ["ethernet ps - mpls:1-5 1000 em0 -".toList, "ethernet nl - mpls:7 1000 em1 -".toList]
end Ex

/-- The texts of the label groups of a document. -/
def labelTexts (e : Elem) : List (Option Str × Option Str) :=
  (e.kids.flatMap Elem.kids).flatMap fun p => (Format.kidsOf p "{http://schemas.ogf.org/nml/2013/05/base#}LabelGroup").map fun l => (l.get "labeltype", l.text)

/-- The label types of the switching services of a document. -/
def serviceTypes (e : Elem) : List (Option Str) :=
  ((Format.kidsOf e "{http://schemas.ogf.org/nml/2013/05/base#}Relation").flatMap fun r =>
    Format.kidsOf r "{http://schemas.ogf.org/nml/2013/05/base#}SwitchingService").map fun s => s.get "labelType"

/-- The document that is made of a map of ports, if there is one. -/
def docOf (lines : List Str) : Option Elem :=
  match Nrm.parsePortSpec lines with
  | .ok ports => match createNMLNetwork ports Ex.net Ex.net with
    | .ok nw => topologyXML nw (createXMLTime 0) false
    | .error _ => none
  | .error _ => none

theorem docOf_some {lines : List Str} {p : Elem → Bool} (h : (docOf lines).any p = true) :
    ∃ ports nw e, Nrm.parsePortSpec lines = .ok ports ∧ createNMLNetwork ports Ex.net Ex.net = .ok nw ∧ topologyXML nw (createXMLTime 0) false = some e ∧ p e = true := by
  unfold docOf at h
  split at h
  · rename_i ports hp
    split at h
    · rename_i nw hn
      obtain ⟨e, he, hpe⟩ := Option.any_eq_true_iff_get .. |>.1 h |> fun ⟨a, b⟩ => (⟨_, (Option.some_get a).symm, b⟩ : ∃ e, topologyXML nw (createXMLTime 0) false = some e ∧ p e = true)
      exact ⟨ports, nw, e, hp, hn, he, hpe⟩
    · cases h
  · cases h

/-- **C96 is violated for VLANs that do not exist**: a port for the VLANs 1 to 5000 is accepted and published as such, where VLANs end at 4094 (nothing compares
values of labels with the range of their type, nsa.py:87-120). -/
theorem C96_vlan_range_fails : ∃ ports nw e, Nrm.parsePortSpec Ex.highVlan = .ok ports ∧ createNMLNetwork ports Ex.net Ex.net = .ok nw ∧
    topologyXML nw (createXMLTime 0) false = some e ∧
    (some "http://schemas.ogf.org/nml/2012/10/ethernet#vlan".toList, some "1-5000".toList) ∈ labelTexts e := by
  obtain ⟨ports, nw, e, h1, h2, h3, h4⟩ := docOf_some (lines := Ex.highVlan)
    (p := fun e => decide ((some "http://schemas.ogf.org/nml/2012/10/ethernet#vlan".toList, some "1-5000".toList) ∈ labelTexts e)) (by decide +kernel)
  exact ⟨ports, nw, e, h1, h2, h3, of_decide_eq_true h4⟩

/-- **C96 is violated for networks without VLANs**: a network all of whose ports have MPLS labels publishes a switching service for VLANs, and none for what its
ports have (nmlxml.py:109: the label type is a constant). -/
theorem C96_service_type_fails : ∃ ports nw e, Nrm.parsePortSpec Ex.mplsOnly = .ok ports ∧ createNMLNetwork ports Ex.net Ex.net = .ok nw ∧
    topologyXML nw (createXMLTime 0) false = some e ∧
    (labelTexts e).length = 4 ∧ (∀ l ∈ labelTexts e, l.1 = some "http://nsi.nordu.net/nml#mpls".toList) ∧
    serviceTypes e = [some "http://schemas.ogf.org/nml/2012/10/ethernet#vlan".toList] := by
  obtain ⟨ports, nw, e, h1, h2, h3, h4⟩ := docOf_some (lines := Ex.mplsOnly)
    (p := fun e => decide ((labelTexts e).length = 4 ∧ (∀ l ∈ labelTexts e, l.1 = some "http://nsi.nordu.net/nml#mpls".toList) ∧
      serviceTypes e = [some "http://schemas.ogf.org/nml/2012/10/ethernet#vlan".toList])) (by decide +kernel)
  exact ⟨ports, nw, e, h1, h2, h3, of_decide_eq_true h4⟩

end OpenNSA.Nml
