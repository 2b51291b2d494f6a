import Verif.Wire.Errors
/-
C44: error classes survive the wire.
-/
namespace OpenNSA.Wire
open Py

/-- The classes whose error id is not in the table of error.py:209-237. -/
def ErrClass.unlisted (c : ErrClass) : Prop := c = .unsupportedParameter ∨ c = .downstreamNSAError

instance (c : ErrClass) : Decidable c.unlisted := by unfold ErrClass.unlisted; infer_instance

/-- **C44, same class.** Looking up the error id of a class gives the class — for all classes but two. -/
theorem C44_class_partial (c : ErrClass) (h : ¬ c.unlisted) : lookup c.errorId = .ok c := by
  cases c <;> first | decide +kernel | exact absurd h (by decide)

example : ¬ ErrClass.unlisted .stpUnavailableError ∧ ErrClass.errorId .stpUnavailableError = some "00704".toList := by decide

theorem findtext_mk (tag t : String) (a x) (k : List Elem) :
    (Elem.mk tag a x k).findtext t = (findIn t k).map fun e => e.text.getD [] := rfl

theorem buildTVP_xml (v : Str × Option Str) (tag : String) :
    buildTVP (wire ((TVP.mk (some v.1) none [strOf v.2]).xml tag)) = (some v.1, some (strOf v.2)) := by
  simp [buildTVP, TVP.xml, wire_mk, Elem.get, dget, strOf, findtext_mk, findIn_cons, leaf, normText]
  cases h : (strOf v.2) <;> simp_all [strOf]

/-- What the receiver of a service exception reads. -/
theorem buildSvcEx_xml (s : SvcEx) (tag : String) (hv : ∀ vs, s.variables = some vs → ∃ us : List (Str × Option Str), vs = us.map fun v => ⟨some v.1, none, [strOf v.2]⟩) :
    buildSvcEx (wire (s.xml tag)) =
      { nsaId := some (strOf s.nsaId), connectionId := s.connectionId, serviceType := s.serviceType, errorId := some (s.errorId.getD []),
        text := some s.text, variables := s.variables.map fun vs => vs.map fun v => (v.type_, some (v.value.headD [])) } := by
  obtain ⟨nsa, conn, st, eid, text, vars⟩ := s
  simp only [buildSvcEx, wire_findtext, wire_find]
  simp only [SvcEx.xml, findtext_mk, Elem.find, mk_kids]
  have e1 : ∀ t : String, findIn t (optLeaf "connectionId" conn) = if "connectionId" = t then conn.map fun v => leaf "connectionId" (some v) else none :=
    fun t => findIn_optLeaf t _ _
  have e2 : ∀ t : String, findIn t (optLeaf "serviceType" st) = if "serviceType" = t then st.map fun v => leaf "serviceType" (some v) else none :=
    fun t => findIn_optLeaf t _ _
  simp only [findIn_cons, findIn_append, e1, e2, leaf_tag]
  cases vars with
  | none => cases conn <;> cases st <;> simp
  | some vs =>
    obtain ⟨us, rfl⟩ := hv vs rfl
    have : ∀ u : Str × Option Str, buildTVP (wire (TVP.xml ⟨some u.1, none, [strOf u.2]⟩ "variable")) = (some u.1, some (strOf u.2)) :=
      fun u => buildTVP_xml u _
    cases conn <;> cases st <;> simp [findIn_cons, wire_mk, Function.comp_def, this]

/-- **C44, over the wire.** An NSI error sent as a SOAP fault is read by the receiver as an error of the same class — for all
classes but two —, with the same text, connection id and variables, and with the id of the NSA it came from. -/
theorem C44_wire_partial (e : NSIError) (provider from' : Str) (conn : Option Str) (h : ¬ e.cls.unlisted) (hp : provider ≠ []) :
    readFault (wire (createSOAPFault (.nsi e) (some provider) conn)) (some from') =
      .ok { cls := e.cls, text := some e.text, nsaId := pyOr e.nsaId (some provider),
            connectionId := pyOr e.connectionId conn,
            variables := (truthy e.variables).map fun vs => vs.map fun v => (some v.1, some (strOf v.2)) } := by
  have hcls : lookup (some ((e.cls.errorId).getD [])) = .ok e.cls := by
    have := C44_class_partial e.cls h
    cases hc : e.cls.errorId with
    | some c => rw [hc] at this; exact this
    | none =>
      rw [hc] at this
      simp only [lookup, Except.ok.injEq] at this
      rw [← this]
      rfl
  have hpf : parseFault (wire (createSOAPFault (.nsi e) (some provider) conn)) =
      .ok (some "soap:Server".toList, normText (some e.text),
        some (wire ((createServiceException (.nsi e) (some provider) conn none).xml serviceExceptionTag))) := by
    simp [parseFault, createSOAPFault, soapFault, soapPayload, wire_mk, Elem.find, findIn_cons, soapEnv, soapBody, soapHeader, soapFaultTag, leaf,
      normText]
  unfold readFault
  rw [hpf]
  simp only [wire_tag]
  have htag : ((createServiceException (.nsi e) (some provider) conn none).xml serviceExceptionTag).tag = serviceExceptionTag := rfl
  rw [htag]
  simp only [ne_eq, not_true_eq_false, if_false]
  have hww : ∀ x : Elem, buildSvcEx (wire (wire x)) = buildSvcEx (wire x) := by
    intro x
    simp only [buildSvcEx, wire_findtext, wire_find]
    cases x.find "variables" with
    | none => rfl
    | some v =>
      simp only [Option.map_some, wire_kids, List.map_map, SvcExIn.mk.injEq, true_and, Option.some.injEq]
      apply List.map_congr_left
      intro k _
      simp [buildTVP]
  rw [hww, buildSvcEx_xml]
  · unfold createException
    simp only [createServiceException, hcls]
    have hn : pyOr (some (strOf (pyOr e.nsaId (some provider)))) (some from') = pyOr e.nsaId (some provider) := by
      cases hne : e.nsaId with
      | none => cases provider with
        | nil => exact absurd rfl hp
        | cons c cs => rfl
      | some n => cases n with
        | nil => cases provider with
          | nil => exact absurd rfl hp
          | cons c cs => rfl
        | cons c cs => rfl
    rw [hn]
    congr 2
    cases hv : e.variables with
    | none => rfl
    | some vs => cases vs with
      | nil => rfl
      | cons v vs => simp [truthy]
  · intro vs hvs
    simp only [createServiceException] at hvs
    cases ht : truthy e.variables with
    | none => rw [ht] at hvs; simp at hvs
    | some us =>
      rw [ht] at hvs
      simp only [Option.map_some, Option.some.injEq] at hvs
      exact ⟨us, hvs.symm⟩

/-- `C44_wire_partial`: the error for a start time in the past, calendar.py:72-73. -/
def Ex.pastStart : NSIError :=
  { cls := .payloadError, text := "Start time in the past".toList, variables := some [("startTime".toList, some "2020-01-01".toList)] }
example : ¬ Ex.pastStart.cls.unlisted ∧
    readFault (wire (createSOAPFault (.nsi Ex.pastStart) (some "p:nsa".toList) (some "c1".toList))) (some "x".toList) =
      .ok ⟨.payloadError, some "Start time in the past".toList, some "p:nsa".toList, some "c1".toList,
        some [(some "startTime".toList, some "2020-01-01".toList)]⟩ := by decide +kernel

/-- **C44, errors that are not NSI errors** arrive as internal server errors. -/
theorem C44_other (t provider from' : Str) (conn : Option Str) (hp : provider ≠ []) :
    readFault (wire (createSOAPFault (.other t) (some provider) conn)) (some from') =
      .ok { cls := .internalServerError, text := some t, nsaId := some provider, connectionId := conn, variables := none } := by
  have hpf : parseFault (wire (createSOAPFault (.other t) (some provider) conn)) =
      .ok (some "soap:Server".toList, normText (some t),
        some (wire ((createServiceException (.other t) (some provider) conn none).xml serviceExceptionTag))) := by
    simp [parseFault, createSOAPFault, soapFault, soapPayload, wire_mk, Elem.find, findIn_cons, soapEnv, soapBody, soapHeader, soapFaultTag, leaf,
      normText]
  unfold readFault
  rw [hpf]
  have htag : ((createServiceException (.other t) (some provider) conn none).xml serviceExceptionTag).tag = serviceExceptionTag := rfl
  simp only [wire_tag, htag, ne_eq, not_true_eq_false, if_false]
  have hww : ∀ x : Elem, x.find "variables" = none → buildSvcEx (wire (wire x)) = buildSvcEx (wire x) := by
    intro x hx
    simp [buildSvcEx, hx]
  rw [hww, buildSvcEx_xml]
  · cases provider with
    | nil => exact absurd rfl hp
    | cons c cs =>
      have hl : lookup (ErrClass.internalServerError.errorId) = .ok .internalServerError := by decide +kernel
      simp [createException, createServiceException, strOf, pyOr, truthy, ErrClass.errorId] at hl ⊢
      rw [hl]
  · intro vs hvs
    simp [createServiceException] at hvs
  · cases conn <;>
      simp [createServiceException, SvcEx.xml, Elem.find, optLeaf, findIn_cons, leaf]

example : readFault (wire (createSOAPFault (.other "boom".toList) (some "p:nsa".toList) none)) none =
    .ok ⟨.internalServerError, some "boom".toList, some "p:nsa".toList, none, none⟩ := by decide +kernel

/-- **C44, unknown code of a known family.** A five character code that is not in the table, but the general code of whose
family (first three characters, then `00`) is, is read as the class of the family. -/
theorem C44_family (code : Str) (k : ErrClass) (h5 : code.length = 5) (hn : dget codeTable code = none)
    (hf : (code.take 3 ++ "00".toList, k) ∈ codeTable) :
    lookup (some code) = .ok k ∧ k.errorId = some (code.take 3 ++ "00".toList) := by
  have hnd : (dkeys codeTable).Nodup := by decide +kernel
  have hg := dget_of_mem_nodup hnd hf
  have hgen : ∀ e ∈ codeTable, ['0', '0'] <:+ e.1 → e.2.errorId = some e.1 := by decide +kernel
  constructor
  · have : (code.take 3 ++ "00".toList) = code.take 3 ++ ['0', '0'] := rfl
    rw [this] at hg
    simp [lookup, h5, hn, hg]
  · exact hgen _ hf ⟨code.take 3, rfl⟩

example : "00299".toList.length = 5 ∧ dget codeTable "00299".toList = none ∧
    ("00299".toList.take 3 ++ "00".toList, ErrClass.connectionError) ∈ codeTable := by decide +kernel

/-- **C44, malformed.** A missing code and a code not five characters long are read as unknown error. -/
theorem C44_malformed_length (code : Option Str) (h : ∀ c, code = some c → c.length ≠ 5) : lookup code = .ok .unknownNSIError := by
  cases code with
  | none => rfl
  | some c => simp [lookup, h c rfl]

example : ∀ c, some "123".toList = some c → c.length ≠ 5 := by simp

/-- **C44 violated: not the same class.** An unsupported-parameter error arrives as payload error, and the error reporting
that an NSA could not be reached arrives as internal error: their ids are missing from the table. -/
theorem C44_class_fails (c : ErrClass) (h : c.unlisted) : lookup c.errorId ≠ .ok c ∧
    lookup c.errorId = .ok (if c = .unsupportedParameter then .payloadError else .internalServerError) := by
  rcases h with rfl | rfl <;> decide +kernel

example : ErrClass.unlisted .downstreamNSAError := by decide

/-- **C44 violated: malformed codes raise.** Every five character code whose family is not in the table — digits or not — makes
`lookup` raise `ValueError`, which `createException` does not catch: the error reply itself is lost. -/
theorem C44_malformed_fails (code : Str) (s : SvcExIn) (provider : Option Str) (h5 : code.length = 5)
    (hn : dget codeTable code = none) (hf : dget codeTable (code.take 3 ++ "00".toList) = none) (hs : s.errorId = some code) :
    createException s provider = .error .valueError := by
  have : (code.take 3 ++ "00".toList) = code.take 3 ++ ['0', '0'] := rfl
  rw [this] at hf
  simp [createException, hs, lookup, h5, hn, hf]

example : "hello".toList.length = 5 ∧ dget codeTable "hello".toList = none ∧ dget codeTable ("hello".toList.take 3 ++ "00".toList) = none ∧
    dget codeTable "00800".toList = none := by decide +kernel

end OpenNSA.Wire
