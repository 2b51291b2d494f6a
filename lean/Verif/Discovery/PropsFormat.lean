import Verif.Discovery.PropsDocument
import Verif.Discovery.Format
import Verif.Wire.SchemaLemmas
/-
C96: the form of the discovery document.
-/
namespace OpenNSA.Discovery
open Py OpenNSA.Registry OpenNSA.Wire OpenNSA.Wire.Schema

/-- The types of the interfaces in a document, and where they are. -/
def interfacesOf (e : Elem) : List (Option Str × Option Str) := (e.findall "interface").map fun i => (i.findtext "type", i.findtext "href")

theorem mem_distinct {l : List Str} {x : Str} (h : x ∈ distinct l) : x ∈ l := by
  induction l with
  | nil => exact h
  | cons a l ih =>
    simp only [distinct, List.mem_cons, List.mem_filter] at h ⊢
    exact h.imp id fun h => ih h.1

/-- **C96, discovery.** The document of a service that is set up, with other agents under URNs of the OGF or without, is of the form of the discovery schema: the elements
with their names and order, at least one interface, and proper times and URNs. -/
theorem C96_discovery (c : Setup) (start : Int) (hn : c.now = createXMLTime start) (urns : List (Str × Str)) (lv : LinkVector)
    (hu : ∀ x ∈ urns, Format.Urn x.2) (e : Elem) (h : (c.service urns lv).xml = some e) :
    e.tag = "{http://schemas.ogf.org/nsi/2014/02/discovery/nsa}nsa" ∧ Format.Nsa e := by
  unfold Service.xml at h
  split at h
  · cases h
  rename_i peers hp
  simp only [Option.some.injEq] at h
  subst h
  refine ⟨rfl, node ⟨by simp, ?_, by simp⟩ ?_⟩
  · intro x hx
    simp only [List.mem_cons, List.not_mem_nil, or_false] at hx
    rcases hx with rfl | rfl
    · exact ⟨⟨"id", true, Format.Urn⟩, by simp, rfl, ⟨c.nsaIdent, rfl⟩⟩
    · refine ⟨⟨"version", true, TimeText⟩, by simp, rfl, ?_⟩
      show TimeText c.now
      rw [hn]
      exact timeText_xml start
  have leafText : ∀ (p : Str → Prop) (tag : String) (s : Str), p s → (leaf tag (some s)).tag = tag ∧ Text p (leaf tag (some s)) :=
    fun p tag s h => ⟨rfl, text_leaf h⟩
  have one' : ∀ (p : Str → Prop) (tag : String) (s : Str) (ps : List Part) (b : List Elem), p s → Seq ps b →
      Seq (opt tag (Text p) :: ps) (leaf tag (some s) :: b) := by
    intro p tag s ps b h hb
    exact Seq.opt (a := [leaf tag (some s)]) (by simp) (by intro e he; obtain rfl := List.mem_singleton.1 he; exact leafText p tag s h) hb
  refine one' _ _ _ _ _ trivial (one' _ _ _ _ _ trivial (one' _ _ _ _ _ ?_ ?_))
  · show TimeText c.now
    rw [hn]
    exact timeText_xml start
  rw [List.append_assoc, List.append_assoc]
  refine Seq.many ?_ (Seq.some1 ?_ ?_ (Seq.many ?_ ?_))
  · intro e he
    obtain ⟨n, hn, rfl⟩ := List.mem_map.1 he
    obtain ⟨m, _, rfl⟩ := List.mem_map.1 hn
    exact leafText _ _ _ ⟨m, rfl⟩
  · intro h
    have hne : c.interfaces ≠ [] := List.cons_ne_nil _ _
    exact hne (List.map_eq_nil_iff.1 h)
  · intro e he
    obtain ⟨i, _, rfl⟩ := List.mem_map.1 he
    refine ⟨rfl, node atts_nil (Seq.one rfl text_any (Seq.one rfl text_any (Seq.many_end ?_)))⟩
    intro e he
    cases hi : i.2.2 with
    | none => rw [hi] at he; simp [optLeaf] at he
    | some d =>
      rw [hi] at he
      obtain rfl := List.mem_singleton.1 he
      exact ⟨rfl, text_any⟩
  · intro e he
    obtain ⟨f, _, rfl⟩ := List.mem_map.1 he
    exact ⟨rfl, atts_one trivial, rfl, trivial⟩
  · have : Seq [many "peersWith" (Text Format.Urn), opt "other" fun _ => True] (peers.map (fun p => leaf "peersWith" (some p)) ++ []) := by
      refine Seq.many ?_ (Seq.skip rfl .nil)
      intro e he
      obtain ⟨p, hp', rfl⟩ := List.mem_map.1 he
      refine leafText _ _ _ ?_
      unfold Service.peers at hp
      split at hp
      · simp only [Option.some.injEq] at hp
        rw [← hp] at hp'
        have := mem_distinct (List.mem_filter.1 hp').1
        obtain ⟨x, hx, rfl⟩ := List.mem_map.1 this
        exact hu x hx
      · cases hp
    simpa using this

/-- **C96, interfaces.** The document says, with the names of the standard, where the connection service is (under both names it has), where the REST interface is if there is one, and for each
network where its topology is. -/
theorem C96_interfaces (c : Setup) (urns : List (Str × Str)) (lv : LinkVector) (e : Elem) (h : (c.service urns lv).xml = some e) :
    interfacesOf e =
      [(some "application/vnd.ogf.nsi.cs.v2.provider+soap".toList, some (c.baseUrl ++ "/NSI/services/CS2".toList)),
       (some "application/vnd.org.ogf.nsi.cs.v2+soap".toList, some (c.baseUrl ++ "/NSI/services/CS2".toList))] ++
      (if c.rest then [(some "application/vnd.net.nordu.opennsa+rest".toList, some (c.baseUrl ++ "/connections".toList))] else []) ++
      c.backends.map fun b => (some "application/vnd.ogf.nsi.topology.v2+xml".toList,
        some (c.baseUrl ++ "/NSI/".toList ++ (c.domain ++ ':' :: b ++ ".nml.xml".toList))) := by
  unfold Service.xml at h
  split at h
  · cases h
  rename_i peers hp
  simp only [Option.some.injEq] at h
  subst h
  have hi : ∀ l : List (Str × Str × Option Str), (l.map fun i => (Iface.mk (some i.1) (some i.2.1) i.2.2).xml "interface").filter (fun k => decide (k.tag = "interface")) =
      l.map fun i => (Iface.mk (some i.1) (some i.2.1) i.2.2).xml "interface" := by
    intro l
    rw [List.filter_eq_self]
    intro e he
    obtain ⟨i, _, rfl⟩ := List.mem_map.1 he
    rfl
  have none' : ∀ {α : Type} (l : List α) (f : α → Elem), (∀ a, (f a).tag ≠ "interface") → (l.map f).filter (fun k => decide (k.tag = "interface")) = [] := by
    intro α l f h
    rw [List.filter_eq_nil_iff]
    intro e he
    obtain ⟨i, _, rfl⟩ := List.mem_map.1 he
    simpa using h i
  have hk : ∀ (t : String) (a : List (String × Str)) (x : Option Str) (k : List Elem), (Elem.mk t a x k).findall "interface" = k.filter (fun k => decide (k.tag = "interface")) := by
    intros; rfl
  unfold interfacesOf
  rw [hk, List.filter_cons_of_neg (by simp [leaf_tag]), List.filter_cons_of_neg (by simp [leaf_tag]), List.filter_cons_of_neg (by simp [leaf_tag]), List.filter_append,
    List.filter_append, List.filter_append, hi, none' _ _ (fun _ => by simp [leaf, Elem.tag]), none' _ _ (fun _ => by simp [Feature.xml, Elem.tag]), none' _ _ (fun _ => by simp [leaf, Elem.tag])]
  have hx : ∀ i : Str × Str × Option Str, (((Iface.mk (some i.1) (some i.2.1) i.2.2).xml "interface").findtext "type",
      ((Iface.mk (some i.1) (some i.2.1) i.2.2).xml "interface").findtext "href") = (some i.1, some i.2.1) := by
    intro i
    rfl
  simp only [List.nil_append, List.append_nil, List.map_map, Function.comp_def, hx, Setup.service, Setup.interfaces, List.map_append, Setup.networks]
  have e1 : cs2Provider = "application/vnd.ogf.nsi.cs.v2.provider+soap".toList := rfl
  have e2 : cs2ServiceType = "application/vnd.org.ogf.nsi.cs.v2+soap".toList := rfl
  have e3 : opennsaRest = "application/vnd.net.nordu.opennsa+rest".toList := rfl
  have e4 : nmlServiceType = "application/vnd.ogf.nsi.topology.v2+xml".toList := rfl
  have e5 : c.endpoint = c.baseUrl ++ "/NSI/services/CS2".toList := rfl
  rw [e1, e2, e3, e4, e5]
  generalize "application/vnd.ogf.nsi.cs.v2.provider+soap".toList = a1
  generalize "application/vnd.org.ogf.nsi.cs.v2+soap".toList = a2
  generalize "application/vnd.net.nordu.opennsa+rest".toList = a3
  cases c.rest <;> rfl

/-- The hypotheses are met: the service of the example of C63 with another agent makes a document. -/
example : ({ Ex2.c with now := createXMLTime 0 }.service [("nordu.net:topology".toList, "urn:ogf:network:nordu.net:nsa".toList), ("surf:t".toList, "urn:ogf:network:surf:nsa".toList)] Ex.lv).xml.isSome = true ∧
    ∀ x ∈ [("nordu.net:topology".toList, "urn:ogf:network:nordu.net:nsa".toList), ("surf:t".toList, "urn:ogf:network:surf:nsa".toList)], "urn:ogf:network:".toList.isPrefixOf x.2 = true := by
  decide +kernel

end OpenNSA.Discovery
