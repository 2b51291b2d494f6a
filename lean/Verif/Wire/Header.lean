import Verif.Wire.Errors
/-
Model of the message headers: protocols/nsi2/helper.py:42-71 and 129-161, their XML bindings (bindings/nsiframework.py:8-49,
97-143, 187-202) and the SOAP envelope (protocols/shared/minisoap.py:57-72, 105-124).
-/
namespace OpenNSA.Wire
open Py

/-- `nsa.NSIHeader`, nsa.py:29-38, as given to `createProviderHeader` or `createRequesterHeader`. The correlation id is always
set (line 35). -/
structure NHeader where
  requesterNSA : Str
  providerNSA : Str
  correlationId : Str
  replyTo : Option Str
  securityAttributes : List (Str × Str)                 -- nsa.py:52-59: type and value
  connectionTrace : Option (List Str)
  deriving DecidableEq, Repr

/-- helper.py:50-52: `grouped_sats.setdefault(sa.type_, []).append(sa.value)` for all attributes. -/
def groupSats (sats : List (Str × Str)) : List (Str × List Str) :=
  sats.foldl (fun d sa => dset d sa.1 ((dget d sa.1).getD [] ++ [sa.2])) []

/-- nsiframework.py:211-218. -/
def samlAttribute : String := "{urn:oasis:names:tc:SAML:2.0:assertion}Attribute"
def samlAttributeValue : String := "{urn:oasis:names:tc:SAML:2.0:assertion}AttributeValue"
def nsiHeaderTag : String := "{http://schemas.ogf.org/nsi/2013/12/framework/headers}nsiHeader"
def connectionTraceTag : String := "{http://nordu.net/namespaces/2013/12/gnsbod}ConnectionTrace"

/-- `AttributeType.xml`, nsiframework.py:113-123, without name format and friendly name (helper.py:55 passes `None`). -/
def attributeXml (name : Str) (values : List Str) : Elem :=
  .mk samlAttribute [("Name", name)] none (values.map fun v => leaf samlAttributeValue (some v))

/-- `ConnectionType.xml`, nsiframework.py:199-202. -/
def connectionXml (c : Str) (idx : Nat) : Elem := .mk "Connection" [("index", showNat idx)] (some c) []

/-- `for idx, c in enumerate(trace): s.append(ConnectionType(c, idx).xml('Connection'))`, nsiframework.py:47-48. -/
def traceXml : List Str → Nat → List Elem
  | [], _ => []
  | c :: cs, i => connectionXml c i :: traceXml cs (i + 1)

/-- The trace element, if there is a trace: nsiframework.py:45-48. -/
def traceElem : Option (List Str) → List Elem
  | none => []
  | some cs => [.mk connectionTraceTag [] none (traceXml cs 0)]

/-- `_createHeader`, helper.py:42-60, with `CommonHeaderType.xml`, nsiframework.py:34-49. -/
def createHeader (h : NHeader) (protocol : Str) : Elem :=
  .mk nsiHeaderTag [] none
    (leaf "protocolVersion" (some protocol) :: leaf "correlationId" (some h.correlationId) ::
      leaf "requesterNSA" (some h.requesterNSA) :: leaf "providerNSA" (some h.providerNSA) ::
      (optLeaf "replyTo" h.replyTo ++
        ((groupSats h.securityAttributes).map (fun g => .mk "sessionSecurityAttr" [] none [attributeXml g.1 g.2]) ++
          traceElem (truthy h.connectionTrace))))

/-- What `parseRequest` makes of a header: texts may be missing. -/
structure HeaderIn where
  requesterNSA : Option Str
  providerNSA : Option Str
  correlationId : Option Str
  replyTo : Option Str
  securityAttributes : List (Str × Str)
  connectionTrace : Option (List (Option Str))
  deriving DecidableEq, Repr

/-- `ConnectionType.build`, nsiframework.py:192-197. -/
def buildConnection (e : Elem) : Except WireErr (Option Str × Int) :=
  match e.get "index" with
  | none => .error .typeError                                                -- int(None)
  | some i => match pyInt i with
    | none => .error .valueError
    | some n => .ok (e.text, n)

/-- `CommonHeaderType.build`, nsiframework.py:20-23: the trace, by index. -/
def buildTrace (e : Elem) : Except WireErr (Option (List (Option Str))) :=
  match e.find connectionTraceTag with
  | none => .ok none
  | some t => match (t.findall "Connection").mapM buildConnection with
    | .error x => .error x
    | .ok cs => .ok (some ((sortBy (fun a b => decide (a.2 ≤ b.2)) cs).map Prod.fst))

/-- The values of one attribute, helper.py:143-146: `None` values are left out, an attribute without name fails in
`SecurityAttribute` (nsa.py:56). -/
def attrValues (name : Option Str) : List (Option Str) → Except WireErr (List (Str × Str))
  | [] => .ok []
  | none :: vs => attrValues name vs
  | some v :: vs => match name with
    | none => .error .assertionError
    | some n => match attrValues name vs with
      | .error x => .error x
      | .ok r => .ok ((n, v) :: r)

/-- `AttributeType.build`, nsiframework.py:104-111, and the loop of helper.py:143-146: an attribute without any value has
`AttributeValue` `None`, which cannot be iterated. -/
def buildAttribute (a : Elem) : Except WireErr (List (Str × Str)) :=
  match a.kids with
  | [] => .error .typeError
  | k => attrValues (a.get "Name") (k.map Elem.text)

/-- helper.py:139-146 with nsiframework.py:30, 131-136: all security attributes of a header. -/
def buildSats (e : Elem) : Except WireErr (List (Str × Str)) :=
  match (((e.findall "sessionSecurityAttr").flatMap fun s => s.findall samlAttribute).mapM buildAttribute) with
  | .error x => .error x
  | .ok ls => .ok ls.flatten

/-- `nsiframework.parseElement` for a header (lines 228-241), `CommonHeaderType.build` (18-32) and helper.py:138-146, 158-159.
`fresh` is the correlation id `NSIHeader` makes up if there is none (nsa.py:35). -/
def parseHeader (fresh : Str) (e : Elem) : Except WireErr HeaderIn :=
  if e.tag ≠ nsiHeaderTag then .error .valueError
  else match buildTrace e with
    | .error x => .error x
    | .ok trace => match buildSats e with
      | .error x => .error x
      | .ok sats => .ok
        { requesterNSA := e.findtext "requesterNSA", providerNSA := e.findtext "providerNSA",
          correlationId := pyOr (e.findtext "correlationId") (some fresh), replyTo := e.findtext "replyTo",
          securityAttributes := sats, connectionTrace := trace }

/-- `parseSoapPayload`, minisoap.py:113-124. -/
def soapParts : List Elem → Option (List Elem) → Except WireErr (Option (List Elem) × List Elem)
  | [], _ => .error .valueError                                              -- line 124
  | ec :: rest, hdr =>
    if ec.tag = soapHeader then
      match hdr with
      | some _ => .error .valueError                                         -- lines 115-116
      | none => soapParts rest (some ec.kids)
    else if ec.tag = soapBody then .ok (hdr, ec.kids)                        -- line 120
    else .error .valueError                                                  -- line 122

/-- `parseSoapPayload`, minisoap.py:105-124. -/
def parseSoapPayload (env : Elem) : Except WireErr (Option (List Elem) × List Elem) :=
  if env.tag ≠ soapEnv then .error .assertionError                           -- line 109
  else soapParts env.kids none

/-- `parseRequest`, helper.py:129-161: header and elements of the body. Building the objects of the body is in the other
modules of this directory. -/
def parseRequest (fresh : Str) (env : Elem) : Except WireErr (HeaderIn × List Elem) :=
  match parseSoapPayload env with
  | .error x => .error x
  | .ok (none, _) => .error .valueError                                      -- lines 133-134
  | .ok (some [], _) => .error .indexError                                   -- line 138
  | .ok (some [h], bodies) => match parseHeader fresh h with
    | .error x => .error x
    | .ok hd => .ok (hd, bodies)
  | .ok (some (_ :: _ :: _), _) => .error .valueError                        -- lines 135-136

end OpenNSA.Wire
