import Verif.Wire.Xml
/-
Model of /repo/opennsa/error.py, of the service exceptions of protocols/nsi2/helper.py:95-126, of their XML bindings
(bindings/nsiframework.py:52-75, 146-182; bindings/nsiconnection.py:592-611, 656-692) and of SOAP faults
(protocols/shared/minisoap.py:75-105, 133-170).
-/
namespace OpenNSA.Wire
open Py

/-- The NSI error classes, error.py:83-205. -/
inductive ErrClass
  | unknownNSIError | payloadError | missingParameterError | unsupportedParameter
  | connectionError | invalidTransitionError | connectionExistsError | connectionNonExistentError | connectionGoneError
  | connectionCreateError | securityError | authenticationFailure | unauthorizedError | topologyError | noPathFoundError
  | internalServerError | internalNRMError | downstreamNSAError | resourceUnavailableError | serviceError | unknownSTPError
  | stpResolutionError | vlanInterchangeNotSupportedError | stpUnavailableError | bandwidthUnavailableError
  deriving DecidableEq, Repr

/-- The class attribute `errorId`, error.py:71, 83-205. -/
def ErrClass.errorId : ErrClass → Option Str
  | .unknownNSIError => none                                     -- inherited from NSIError, line 71
  | .payloadError => some "00100".toList
  | .missingParameterError => some "00101".toList
  | .unsupportedParameter => some "00102".toList
  | .connectionError => some "00200".toList
  | .invalidTransitionError => some "00201".toList
  | .connectionExistsError => some "00202".toList
  | .connectionNonExistentError => some "00203".toList
  | .connectionGoneError => some "00204".toList
  | .connectionCreateError => some "00205".toList
  | .securityError => some "00300".toList
  | .authenticationFailure => some "00301".toList
  | .unauthorizedError => some "00302".toList
  | .topologyError => some "00400".toList
  | .noPathFoundError => some "00403".toList
  | .internalServerError => some "00500".toList
  | .internalNRMError => some "00501".toList
  | .downstreamNSAError => some "00505".toList
  | .resourceUnavailableError => some "00600".toList
  | .serviceError => some "00700".toList
  | .unknownSTPError => some "00701".toList
  | .stpResolutionError => some "00702".toList
  | .vlanInterchangeNotSupportedError => some "00703".toList
  | .stpUnavailableError => some "00704".toList
  | .bandwidthUnavailableError => some "00705".toList

/-- `NSI_ERROR_CODE_TABLE`, error.py:209-237. -/
def codeTable : List (Str × ErrClass) :=
  [("00100".toList, .payloadError), ("00101".toList, .missingParameterError),
   ("00200".toList, .connectionError), ("00201".toList, .invalidTransitionError), ("00202".toList, .connectionExistsError),
   ("00203".toList, .connectionNonExistentError), ("00204".toList, .connectionGoneError), ("00205".toList, .connectionCreateError),
   ("00300".toList, .securityError), ("00301".toList, .authenticationFailure), ("00302".toList, .unauthorizedError),
   ("00400".toList, .topologyError), ("00401".toList, .unknownSTPError), ("00402".toList, .stpResolutionError),
   ("00403".toList, .noPathFoundError), ("00404".toList, .vlanInterchangeNotSupportedError),
   ("00500".toList, .internalServerError), ("00501".toList, .internalNRMError),
   ("00600".toList, .resourceUnavailableError), ("00601".toList, .stpUnavailableError), ("00602".toList, .bandwidthUnavailableError),
   ("00700".toList, .serviceError), ("00701".toList, .unknownSTPError), ("00702".toList, .stpResolutionError),
   ("00703".toList, .vlanInterchangeNotSupportedError), ("00704".toList, .stpUnavailableError), ("00705".toList, .bandwidthUnavailableError)]

/-- What goes wrong while reading a message. -/
inductive WireErr
  | valueError | attributeError | typeError | payloadError | assertionError | indexError | overflowError | notImplementedError
  deriving DecidableEq, Repr

/-- `lookup`, error.py:240-254. `None` is the argument if the element has no error id. -/
def lookup (code : Option Str) : Except WireErr ErrClass :=
  match code with
  | none => .ok .unknownNSIError                                             -- lines 243-244
  | some c =>
    if c.length ≠ 5 then .ok .unknownNSIError                                -- lines 243-244
    else match dget codeTable c with                                         -- line 246
      | some k => .ok k
      | none => match dget codeTable (c.take 3 ++ ['0', '0']) with           -- lines 247-249
        | some k => .ok k
        | none => .error .valueError                                         -- lines 251-252

/-- An `NSIError` instance, error.py:63-80. Values of variables are texts (`str(value)`, helper.py:102). -/
structure NSIError where
  cls : ErrClass
  text : Str
  nsaId : Option Str := none
  connectionId : Option Str := none
  variables : Option (List (Str × Option Str)) := none
  deriving DecidableEq, Repr

/-- The errors `createServiceException` is given: NSI errors and all others. -/
inductive AnyError
  | nsi (e : NSIError)
  | other (text : Str)
  deriving DecidableEq, Repr

/-- Python's `a or b` for optional texts: `None` and `''` are false. -/
def pyOr (a b : Option Str) : Option Str :=
  match a with
  | some (c :: cs) => some (c :: cs)
  | _ => b

/-- `str(x)` of an optional text. -/
def strOf : Option Str → Str
  | none => "None".toList
  | some s => s

/-- `nsiframework.TypeValuePairType`, nsiframework.py:52-56. Built from a message it has a text as value
(lines 59-64), built by us it has a list of texts (helper.py:102). -/
structure TVP where
  type_ : Option Str
  namespace_ : Option Str
  value : List Str
  deriving DecidableEq, Repr

/-- `nsiframework.ServiceExceptionType`, nsiframework.py:146-154, as built by `createServiceException`: without child
exceptions. -/
structure SvcEx where
  nsaId : Option Str
  connectionId : Option Str
  serviceType : Option Str
  errorId : Option Str
  text : Str
  variables : Option (List TVP)
  deriving DecidableEq, Repr

/-- `err.variables` is true: not `None` and not empty (helper.py:102). -/
def truthy {α : Type} : Option (List α) → Option (List α)
  | some (a :: as) => some (a :: as)
  | _ => none

/-- `createServiceException`, helper.py:95-111. -/
def createServiceException (err : AnyError) (provider : Option Str) (conn svcType : Option Str) : SvcEx :=
  match err with
  | .nsi e =>
    { nsaId := pyOr e.nsaId provider, connectionId := pyOr e.connectionId conn, serviceType := svcType,       -- lines 103-104
      errorId := e.cls.errorId, text := e.text,
      variables := (truthy e.variables).map fun vs => vs.map fun v =>
        { type_ := some v.1, namespace_ := none, value := [strOf v.2] } }                                      -- line 102
  | .other t =>
    { nsaId := provider, connectionId := conn, serviceType := svcType,                                        -- lines 109-110
      errorId := ErrClass.errorId .internalServerError, text := t, variables := none }

/-- `TypeValuePairType.xml`, nsiframework.py:66-75. -/
def TVP.xml (t : TVP) (tag : String) : Elem :=
  .mk tag (("type", strOf t.type_) :: (match t.namespace_ with | none => [] | some n => [("namespace", n)])) none
    (t.value.map fun v => leaf "value" (some v))

/-- `ServiceExceptionType.xml`, nsiframework.py:168-182. -/
def SvcEx.xml (s : SvcEx) (tag : String) : Elem :=
  .mk tag [] none
    (leaf "nsaId" (some (strOf s.nsaId)) :: (optLeaf "connectionId" s.connectionId ++ (optLeaf "serviceType" s.serviceType ++
      (leaf "errorId" s.errorId :: leaf "text" (some s.text) ::
        (match s.variables with
          | none => []
          | some vs => [.mk "variables" [] none (vs.map fun v => v.xml "variable")])))))

/-- A service exception as read from a message, nsiconnection.py:656-674: the values of variables are single texts. -/
structure SvcExIn where
  nsaId : Option Str
  connectionId : Option Str
  serviceType : Option Str
  errorId : Option Str
  text : Option Str
  variables : Option (List (Option Str × Option Str))
  deriving DecidableEq, Repr

/-- `TypeValuePairType.build`, nsiconnection.py:598-604: type and value. -/
def buildTVP (e : Elem) : Option Str × Option Str := (e.get "type", e.findtext "value")

/-- `ServiceExceptionType.build`, nsiconnection.py:666-676. Child exceptions are not used by the callers. -/
def buildSvcEx (e : Elem) : SvcExIn :=
  { nsaId := e.findtext "nsaId"
    connectionId := e.findtext "connectionId"
    serviceType := e.findtext "serviceType"
    errorId := e.findtext "errorId"
    text := e.findtext "text"
    variables := (e.find "variables").map fun v => v.kids.map buildTVP }

/-- An error made by `createException`: as `NSIError`, but all texts may be missing. -/
structure NSIErrorIn where
  cls : ErrClass
  text : Option Str
  nsaId : Option Str
  connectionId : Option Str
  variables : Option (List (Option Str × Option Str))
  deriving DecidableEq, Repr

/-- `createException`, helper.py:114-126. Only `AssertionError` is caught, and `lookup` raises `ValueError`. -/
def createException (s : SvcExIn) (provider : Option Str) : Except WireErr NSIErrorIn :=
  match lookup s.errorId with                                                -- line 118
  | .error e => .error e
  | .ok cls => .ok { cls, text := s.text, nsaId := pyOr s.nsaId provider, connectionId := s.connectionId,      -- lines 119-120
                     variables := truthy s.variables }

/-! ### SOAP faults -/

/-- minisoap.py:15-18. -/
def soapEnv : String := "{http://schemas.xmlsoap.org/soap/envelope/}Envelope"
def soapHeader : String := "{http://schemas.xmlsoap.org/soap/envelope/}Header"
def soapBody : String := "{http://schemas.xmlsoap.org/soap/envelope/}Body"
def soapFaultTag : String := "{http://schemas.xmlsoap.org/soap/envelope/}Fault"
/-- nsiconnection.py:881. -/
def serviceExceptionTag : String := "{http://schemas.ogf.org/nsi/2013/12/framework/types}serviceException"

/-- `createSoapPayload`, minisoap.py:57-72, before serialisation. -/
def soapPayload (body : List Elem) (header : List Elem) : Elem :=
  .mk soapEnv [] none [.mk soapHeader [] none header, .mk soapBody [] none body]

/-- `createSoapFault`, minisoap.py:75-101. -/
def soapFault (msg : Str) (detail : Option Elem) : Elem :=
  soapPayload [.mk soapFaultTag [] none
    ([leaf "faultcode" (some "soap:Server".toList), leaf "faultstring" (some msg)] ++
      (match detail with | none => [] | some d => [.mk "detail" [] none [d]]))] []

/-- `parseFault`, minisoap.py:127-161: fault code, fault string and detail. -/
def parseFault (env : Elem) : Except WireErr (Option Str × Option Str × Option Elem) :=
  if env.tag ≠ soapEnv then .error .valueError                               -- lines 131-132
  else match env.find soapBody with
    | none => .error .valueError                                             -- lines 137-138
    | some body => match body.find soapFaultTag with
      | none => .error .valueError                                           -- lines 141-142
      | some fault => match fault.find "faultcode" with
        | none => .error .valueError                                         -- lines 146-147
        | some code => match fault.find "faultstring" with
          | none => .error .valueError                                       -- lines 150-151
          | some str =>
            .ok (code.text, str.text, match fault.find "detail" with         -- lines 153-161
              | none => none
              | some dt => dt.kids.head?)

/-- The part of `_handleErrorReply` that reads the fault (requesterclient.py:71-81): a fault without detail is an internal
server error. `parse` (nsiconnection.py:914-965) accepts the tag of service exceptions; other tags of its table would give an
object `createException` cannot use. -/
def readFault (env : Elem) (provider : Option Str) : Except WireErr NSIErrorIn :=
  match parseFault env with
  | .error e => .error e
  | .ok (_, str, none) => .ok { cls := .internalServerError, text := str, nsaId := none, connectionId := none, variables := none }
  | .ok (_, _, some d) =>
    if d.tag ≠ serviceExceptionTag then .error .valueError
    else createException (buildSvcEx (wire d)) provider

/-- `_createSOAPFault`, providerservice.py:47-55, with the text of the error as message. The service type is not
passed on (line 51). -/
def createSOAPFault (err : AnyError) (provider : Option Str) (conn : Option Str) : Elem :=
  soapFault (match err with | .nsi e => e.text | .other t => t)
    (some ((createServiceException err provider conn none).xml serviceExceptionTag))

end OpenNSA.Wire
