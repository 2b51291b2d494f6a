import Verif.Wire.Schema
/-
Specification: the form of a topology document.

The elements are those of the Network Markup Language (GFD-R.206, namespace `http://schemas.ogf.org/nml/2013/05/base#`) and of the service
definitions of NSI, in the order in which such documents are usually written. /repo has no schema file. Nothing here refers to the functions that
write documents.
-/
namespace OpenNSA.Nml.Format
open OpenNSA.Wire OpenNSA.Wire.Schema

/-- Exactly this text. -/
def Is (x : String) (s : Str) : Prop := s = x.toList

/-- A URN of the OGF. -/
def Urn (s : Str) : Prop := ∃ r, s = "urn:ogf:network:".toList ++ r

/-- Numbers and ranges of numbers, separated by commas. -/
inductive Ranges : Str → Prop
  | one {a : Str} : Digits a → Ranges a
  | range {a b : Str} : Digits a → Digits b → Ranges (a ++ '-' :: b)
  | more {s t : Str} : Ranges s → Ranges t → Ranges (s ++ ',' :: t)

/-- The attribute `id`. -/
def urnId : Att := ⟨"id", true, Urn⟩
/-- The attribute `type` of a relation. -/
def relation (t : String) : List Att := [⟨"type", true, Is t⟩]

/-- A port that is named. -/
def PortRef : Elem → Prop := Node [urnId] []

/-- A port that is declared: its labels and what it is an alias of. -/
def PortDecl : Elem → Prop := Node [urnId]
  [opt "{http://schemas.ogf.org/nml/2013/05/base#}LabelGroup"
     (TextWith [⟨"labeltype", true, OneOf ["http://schemas.ogf.org/nml/2012/10/ethernet#vlan", "http://nsi.nordu.net/nml#mpls"]⟩] Ranges),
   opt "{http://schemas.ogf.org/nml/2013/05/base#}Relation"
     (Node (relation "http://schemas.ogf.org/nml/2013/05/base#isAlias") [one "{http://schemas.ogf.org/nml/2013/05/base#}PortGroup" PortRef])]

/-- A bidirectional port: its name and its two directions. -/
def BidirectionalPort : Elem → Prop := Node [urnId]
  [one "{http://schemas.ogf.org/nml/2013/05/base#}name" (Text AnyText), one "{http://schemas.ogf.org/nml/2013/05/base#}PortGroup" PortRef,
   one "{http://schemas.ogf.org/nml/2013/05/base#}PortGroup" PortRef]

/-- A document, for a network that can change labels or not. -/
def Topology (swap : Bool) : Elem → Prop := Node [urnId, ⟨"version", true, TimeText⟩]
  [one "{http://schemas.ogf.org/nml/2013/05/base#}name" (Text AnyText),
   many "{http://schemas.ogf.org/nml/2013/05/base#}BidirectionalPort" BidirectionalPort,
   opt "{http://schemas.ogf.org/nml/2013/05/base#}Relation"
     (Node (relation "http://schemas.ogf.org/nml/2013/05/base#hasInboundPort") [some1 "{http://schemas.ogf.org/nml/2013/05/base#}PortGroup" PortDecl]),
   opt "{http://schemas.ogf.org/nml/2013/05/base#}Relation"
     (Node (relation "http://schemas.ogf.org/nml/2013/05/base#hasOutboundPort") [some1 "{http://schemas.ogf.org/nml/2013/05/base#}PortGroup" PortDecl]),
   one "{http://schemas.ogf.org/nsi/2013/12/services/definition}serviceDefinition"
     (Node [urnId] [one "name" (Text AnyText), one "serviceType" (Text (Is "http://services.ogf.org/nsi/2013/07/descriptions/EVTS.A-GOLE"))]),
   one "{http://schemas.ogf.org/nml/2013/05/base#}Relation"
     (Node (relation "http://schemas.ogf.org/nml/2013/05/base#hasService")
       [one "{http://schemas.ogf.org/nml/2013/05/base#}SwitchingService"
         (Node [urnId, ⟨"labelSwapping", true, if swap then TrueText else FalseText⟩,
             ⟨"labelType", true, Is "http://schemas.ogf.org/nml/2012/10/ethernet#vlan"⟩]
           [one "{http://schemas.ogf.org/nsi/2013/12/services/definition}serviceDefinition" (Node [urnId] [])])])]

/-- The children with a tag. -/
def kidsOf (e : Elem) (tag : String) : List Elem := e.kids.filter fun k => decide (k.tag = tag)

/-- The ids that are declared in a relation of a type. -/
def declared (e : Elem) (type : String) : List (Option Str) :=
  ((kidsOf e "{http://schemas.ogf.org/nml/2013/05/base#}Relation").filter fun r => decide (r.get "type" = some type.toList)).flatMap
    fun r => r.kids.map fun p => p.get "id"

/-- Everything that is named in the document is there: every bidirectional port has an inbound and an outbound direction, which are declared as such,
every declared port is a direction of one, and the service is one that is defined. -/
def Closed (e : Elem) : Prop :=
  (∀ b ∈ kidsOf e "{http://schemas.ogf.org/nml/2013/05/base#}BidirectionalPort", ∃ i o,
    (kidsOf b "{http://schemas.ogf.org/nml/2013/05/base#}PortGroup").map (fun p => p.get "id") = [some i, some o] ∧
    some i ∈ declared e "http://schemas.ogf.org/nml/2013/05/base#hasInboundPort" ∧
    some o ∈ declared e "http://schemas.ogf.org/nml/2013/05/base#hasOutboundPort") ∧
  (∀ x ∈ declared e "http://schemas.ogf.org/nml/2013/05/base#hasInboundPort" ++ declared e "http://schemas.ogf.org/nml/2013/05/base#hasOutboundPort",
    ∃ b ∈ kidsOf e "{http://schemas.ogf.org/nml/2013/05/base#}BidirectionalPort",
      x ∈ (kidsOf b "{http://schemas.ogf.org/nml/2013/05/base#}PortGroup").map fun p => p.get "id") ∧
  ∀ r ∈ kidsOf e "{http://schemas.ogf.org/nml/2013/05/base#}Relation", r.get "type" = some "http://schemas.ogf.org/nml/2013/05/base#hasService".toList →
    ∀ s ∈ r.kids, ∀ d ∈ kidsOf s "{http://schemas.ogf.org/nsi/2013/12/services/definition}serviceDefinition",
      ∃ d' ∈ kidsOf e "{http://schemas.ogf.org/nsi/2013/12/services/definition}serviceDefinition", d'.get "id" = d.get "id"

end OpenNSA.Nml.Format
