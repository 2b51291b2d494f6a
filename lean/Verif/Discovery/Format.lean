import Verif.Wire.Schema
/-
Specification: the form of a discovery document, the type `NsaType` of the discovery schema of NSI (GFD-R.233, namespace
`http://schemas.ogf.org/nsi/2014/02/discovery/nsa`), as far as the bindings know it (bindings/discovery.py:30-42: contacts and locations are left out there).
-/
namespace OpenNSA.Discovery.Format
open OpenNSA.Wire OpenNSA.Wire.Schema

/-- A URN of the OGF. -/
def Urn (s : Str) : Prop := ∃ r, s = "urn:ogf:network:".toList ++ r

/-- `InterfaceType` -/
def Interface : Elem → Prop := Node [] [one "type" (Text AnyText), one "href" (Text AnyText), many "describedBy" (Text AnyText)]

/-- `FeatureType` -/
def Feature : Elem → Prop := TextWith [⟨"type", true, AnyText⟩] AnyText

/-- `NsaType` -/
def Nsa : Elem → Prop := Node [⟨"id", true, Urn⟩, ⟨"version", true, TimeText⟩, ⟨"expires", false, TimeText⟩]
  [opt "name" (Text AnyText), opt "softwareVersion" (Text AnyText), opt "startTime" (Text TimeText), many "networkId" (Text Urn),
   some1 "interface" Interface, many "feature" Feature, many "peersWith" (Text Urn), opt "other" fun _ => True]

end OpenNSA.Discovery.Format
