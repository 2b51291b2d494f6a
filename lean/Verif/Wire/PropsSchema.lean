import Verif.Wire.SchemaLemmas
import Verif.Wire.PropsMessages
/-
C95: messages are valid against the schema of the connection service.
-/
namespace OpenNSA.Wire
open Py Schema

/-! ### What the arguments of a call must be -/

/-- The directionality is one of the standard. -/
def P2P.Std (p : P2P) : Prop := p.directionality = some "Bidirectional".toList ∨ p.directionality = some "Unidirectional".toList

/-- A reservation has a version that is a number. -/
def Resv.Std (r : Resv) : Prop := (∃ v, r.revision = some v ∧ IntText v) ∧ r.sd.Std

/-- The states are those of the standard, and the data plane has a version. -/
def ConnStates.Std (c : ConnStates) : Prop :=
  (∃ s ∈ ["ReserveStart", "ReserveChecking", "ReserveFailed", "ReserveAborting", "ReserveHeld", "ReserveCommitting", "ReserveTimeout"],
    c.rsm = some s.toList) ∧
  (∃ s ∈ ["Released", "Provisioning", "Provisioned", "Releasing"], c.psm = some s.toList) ∧
  (∃ s ∈ ["Created", "Failed", "PassedEndTime", "Terminating", "Terminated"], c.lsm = some s.toList) ∧ c.dps.version ≠ none

mutual
/-- All services and states in a criteria are those of the standard. -/
def Crit.Std : Crit → Prop
  | .mk _ _ sd ch => sd.Std ∧ stdChildren ch
def Child.Std : Child → Prop
  | .mk _ _ st cs => st.Std ∧ stdCrits cs
def stdChildren : List Child → Prop
  | [] => True
  | c :: cs => c.Std ∧ stdChildren cs
def stdCrits : List Crit → Prop
  | [] => True
  | c :: cs => c.Std ∧ stdCrits cs
end

/-- The same of a query result. -/
def Info.Std (i : Info) : Prop := i.states.Std ∧ stdCrits i.criterias

/-- The same of a request. -/
def PCall.Std : PCall → Prop
  | .reserve r => r.Std
  | _ => True

/-- The same of a reply or notification. -/
def RCall.Std : RCall → Prop
  | .reserveConfirmed r => r.Std
  | .failed _ _ st _ => st.Std
  | .dataPlane _ _ _ d => d.version ≠ none
  | .errorEvent m => ∃ s ∈ ["activateFailed", "deactivateFailed", "dataplaneError", "forcedEnd"], m.event = some s.toList
  | .summary is => ∀ i ∈ is, i.Std
  | .recursive is => ∀ i ∈ is, i.Std
  | _ => True

/-! ### Parts -/

theorem schedule_valid (s : Sched) (tag : String) : Schedule (s.xml tag) := by
  refine node atts_nil ?_
  rw [← List.append_nil (optLeaf "endTime" _)]
  refine .optLeaf ?_ (.optLeaf ?_ .nil)
  · intro x hx; obtain ⟨t, _, rfl⟩ := Option.map_eq_some_iff.1 hx; exact timeText_xml t
  · intro x hx; obtain ⟨t, _, rfl⟩ := Option.map_eq_some_iff.1 hx; exact timeText_xml t

theorem mem_eroXml {l : List STP} {i : Nat} {e : Elem} (h : e ∈ eroXml l i) :
    e.tag = "orderedSTP" ∧ Node [⟨"order", true, IntText⟩] [one "stp" (Text AnyText)] e := by
  induction l generalizing i with
  | nil => simp [eroXml] at h
  | cons s ss ih =>
    simp only [eroXml, List.mem_cons] at h
    rcases h with rfl | h
    · exact ⟨rfl, node (atts_one (intText_showNat _)) (.one rfl text_any .nil)⟩
    · exact ih h

theorem p2ps_valid {p : P2P} (h : p.Std) (ero : Option (List STP)) (ps : Option (List (Option Str × Option Str))) (tag : String) :
    P2PS (p.xml ero ps tag) := by
  refine node atts_nil ?_
  have hd : OneOf ["Bidirectional", "Unidirectional"] (p.directionality.getD []) := by
    rcases h with h | h <;> rw [h] <;> simp [OneOf]
  rw [← List.append_nil (paramElems ps)]
  simp only [List.append_assoc, List.cons_append, List.nil_append]
  refine .one rfl (text_leaf (intText_showInt _)) (.one rfl (text_leaf hd) (.opt ?_ ?_ (.one rfl text_any (.one rfl text_any
    (.opt ?_ ?_ (.many ?_ .nil))))))
  · cases p.symmetric <;> simp [symElem]
  · cases p.symmetric with
    | none => simp [symElem]
    | some b =>
      intro e he
      simp only [symElem, List.mem_singleton] at he
      subst he; exact ⟨rfl, text_leaf (boolText_ok b)⟩
  · cases ero <;> simp [eroElem]
  · cases ero with
    | none => simp [eroElem]
    | some l =>
      intro e he
      simp only [eroElem, List.mem_singleton] at he
      subst he; exact ⟨rfl, node atts_nil (.many_end fun x hx => mem_eroXml hx)⟩
  · cases ps with
    | none => simp [paramElems]
    | some l =>
      intro e he
      simp only [paramElems, List.mem_map] at he
      obtain ⟨x, _, rfl⟩ := he
      exact ⟨rfl, ⟨by simp [Elem.attrib], by simp [Elem.attrib, AnyText], by simp [Elem.attrib]⟩, rfl, trivial⟩

theorem dps_valid {d : DPS} (h : d.version ≠ none) (tag : String) : DataPlaneStatus (d.xml tag) := by
  refine node atts_nil (.one rfl (text_leaf (boolText_ok _)) (.one rfl (text_leaf ?_) (.one rfl (text_leaf (boolText_ok _)) .nil)))
  cases hv : d.version with
  | none => exact absurd hv h
  | some n => exact intText_showInt n

theorem oneOf_text {l : List String} {tag : String} {x : Option Str} (h : ∃ s ∈ l, x = some s.toList) : Text (OneOf l) (leaf tag x) := by
  obtain ⟨s, hs, rfl⟩ := h
  exact text_leaf ⟨s, hs, rfl⟩

theorem states_valid {c : ConnStates} (h : c.Std) (tag : String) : States (c.xml tag) :=
  node atts_nil (.one rfl (oneOf_text h.1) (.one rfl (oneOf_text h.2.1) (.one rfl (oneOf_text h.2.2.1) (.one rfl (dps_valid h.2.2.2 _) .nil))))

theorem serviceException_valid (err : AnyError) (p c t : Option Str) (tag : String) : ServiceException ((createServiceException err p c t).xml tag) := by
  refine node atts_nil (.one rfl text_any (.optLeaf (fun _ _ => trivial) (.optLeaf (fun _ _ => trivial) (.one rfl text_any (.one rfl text_any
    (.opt_end ?_ ?_))))))
  · split <;> simp
  · split
    · simp
    · rename_i vs hvs
      intro e he
      rw [List.mem_singleton] at he
      subst he
      refine ⟨rfl, node atts_nil (.some1_end ?_ ?_)⟩
      · cases err with
        | other t => simp [createServiceException] at hvs
        | nsi e =>
          simp only [createServiceException, Option.map_eq_some_iff] at hvs
          obtain ⟨l, hl, rfl⟩ := hvs
          cases hv : e.variables with
          | none => rw [hv] at hl; simp [truthy] at hl
          | some l' =>
            rw [hv] at hl
            cases l' with
            | nil => simp [truthy] at hl
            | cons a as => simp [truthy] at hl; subst hl; simp
      · intro x hx
        obtain ⟨v, hv, rfl⟩ := List.mem_map.1 hx
        refine ⟨rfl, node ⟨?_, ?_, ?_⟩ (.many_end ?_)⟩
        · cases v.namespace_ <;> simp
        · cases v.namespace_ <;> simp [AnyText]
        · cases v.namespace_ <;> simp
        · intro y hy
          obtain ⟨s, _, rfl⟩ := List.mem_map.1 hy
          exact ⟨rfl, text_any⟩

theorem service_valid {p : P2P} (h : p.Std) (ero : Option (List STP)) (ps : Option (List (Option Str × Option Str))) :
    Seq [service] [p.xml ero ps p2psTag] :=
  .many_end fun e he => by rw [List.mem_singleton] at he; subst he; exact ⟨rfl, p2ps_valid h ..⟩

/-! ### Bodies -/

theorem version_valid {r : Resv} (h : r.Std) : IntText (strOf r.revision) := by
  obtain ⟨⟨n, hn, hv⟩, _⟩ := h
  rw [hn]; exact hv

theorem reserve_valid {r : Resv} (h : r.Std) : Reserve r.requestXml := by
  refine node atts_nil ?_
  simp only [List.append_assoc]
  refine .optLeaf (fun _ _ => trivial) (.optLeaf (fun _ _ => trivial) (.optLeaf (fun _ _ => trivial) (.one rfl (node (atts_one (version_valid h)) ?_) .nil)))
  have hs : Schedule (.mk "schedule" [] none (optLeaf "startTime" (r.schedule.start.map utcText) ++ optLeaf "endTime" (r.schedule.end_.map utcText))) := by
    refine node atts_nil ?_
    rw [← List.append_nil (optLeaf "endTime" _)]
    refine .optLeaf ?_ (.optLeaf ?_ .nil)
    · intro x hx; obtain ⟨t, _, rfl⟩ := Option.map_eq_some_iff.1 hx; exact timeText_utc t
    · intro x hx; obtain ⟨t, _, rfl⟩ := Option.map_eq_some_iff.1 hx; exact timeText_utc t
  refine .opt (a := [_]) (by simp) (fun e he => ?_) (.opt (a := [leaf "serviceType" (some requestType)]) (by simp) (fun e he => ?_) (service_valid h.2 ..))
  · rw [List.mem_singleton] at he; subst he; exact ⟨rfl, hs⟩
  · rw [List.mem_singleton] at he; subst he; exact ⟨rfl, text_any⟩

theorem reserveConfirmed_valid {r : Resv} (h : r.Std) : ReserveConfirmed r.confirmXml := by
  refine node atts_nil (.one rfl text_any ?_)
  simp only [List.append_assoc]
  exact .optLeaf (fun _ _ => trivial) (.optLeaf (fun _ _ => trivial) (.one rfl (node (atts_one (version_valid h))
    (.one rfl (schedule_valid ..) (.one rfl text_any (service_valid h.2 ..)))) .nil))

theorem generic_valid (tag : String) (c : Option Str) : Generic (genericXml tag c) := node atts_nil (.one rfl text_any .nil)

theorem failure_valid {st : ConnStates} (h : st.Std) (tag : String) (p c : Option Str) (err : AnyError) : GenericFailed (failureXml tag p c st err) :=
  node atts_nil (.one rfl text_any (.one rfl (states_valid h _) (.one rfl (serviceException_valid ..) .nil)))

theorem timeout_valid (m : TimeoutMsg) : Schema.ReserveTimeout m.xml :=
  node atts_nil (.one rfl text_any (.one rfl (text_leaf (intText_showInt _)) (.one rfl (text_leaf (timeText_xml _))
    (.one rfl (text_leaf (intText_showInt _)) (.one rfl text_any (.one rfl text_any .nil))))))

theorem dataPlane_valid {d : DPS} (h : d.version ≠ none) (c : Option Str) (n t : Int) : DataPlaneStateChange (dataPlaneXml c n t d) :=
  node atts_nil (.one rfl text_any (.one rfl (text_leaf (intText_showInt _)) (.one rfl (text_leaf (timeText_xml _)) (.one rfl (dps_valid h _) .nil))))

theorem event_valid {m : EventMsg} (h : ∃ s ∈ ["activateFailed", "deactivateFailed", "dataplaneError", "forcedEnd"], m.event = some s.toList) :
    ErrorEvent (eventXml m) :=
  node atts_nil (.one rfl text_any (.one rfl (text_leaf (intText_showInt _)) (.one rfl (text_leaf (timeText_xml _)) (.one rfl (oneOf_text h)
    (.one rfl text_any (.one rfl text_any (.skip rfl (.skip rfl .nil))))))))

theorem query_valid (tag : String) (cs gs : Option (List Str)) : Query (queryXml tag cs gs) := by
  refine node atts_nil (.many ?_ ?_)
  · intro e he; obtain ⟨c, _, rfl⟩ := List.mem_map.1 he; exact ⟨rfl, text_any⟩
  · rw [← List.append_nil (List.map _ (gs.getD []))]
    refine .many ?_ (.skip rfl .nil)
    intro e he; obtain ⟨c, _, rfl⟩ := List.mem_map.1 he; exact ⟨rfl, text_any⟩

theorem info_valid {i : Info} (h : i.states.Std) {c : Elem → Prop} {crits : List Elem} (hc : ∀ e ∈ crits, e.tag = "criteria" ∧ c e) :
    Reservation c (i.xml crits) := by
  refine node atts_nil (.one rfl text_any ?_)
  rw [← List.append_nil (optLeaf "resultId" _)]
  simp only [List.append_assoc, List.cons_append, List.nil_append]
  refine .optLeaf (fun _ _ => trivial) (.optLeaf (fun _ _ => trivial) (.many hc (.one rfl text_any (.one rfl (states_valid h _)
    (.optLeaf ?_ (.optLeaf ?_ .nil))))))
  · intro x hx; obtain ⟨t, _, rfl⟩ := Option.map_eq_some_iff.1 hx; exact intText_showInt t
  · intro x hx; obtain ⟨t, _, rfl⟩ := Option.map_eq_some_iff.1 hx; exact intText_showInt t

theorem mem_stdCrits {l : List Crit} (h : stdCrits l) : ∀ c ∈ l, c.Std := by
  induction l with
  | nil => simp
  | cons c cs ih => simp only [stdCrits] at h; simpa using ⟨h.1, ih h.2⟩

theorem summary_valid {is : List Info} (h : ∀ i ∈ is, i.Std) : SummaryConfirmed (summaryXml is) := by
  refine node atts_nil (.many_end fun e he => ?_)
  obtain ⟨i, hi, rfl⟩ := List.mem_map.1 he
  refine ⟨rfl, info_valid (h i hi).1 fun e he => ?_⟩
  obtain ⟨c, hc, rfl⟩ := List.mem_map.1 he
  have hs := mem_stdCrits (h i hi).2 c hc
  cases c with
  | mk rev s sd ch =>
    simp only [Crit.Std] at hs
    exact ⟨rfl, node (atts_one (intText_showInt _)) (.one rfl (schedule_valid ..) (.one rfl text_any
      (.opt (a := [.mk "children" [] none []]) (by simp) (fun e he => by
        rw [List.mem_singleton] at he; subst he; exact ⟨rfl, node atts_nil (.skip rfl .nil)⟩) (service_valid hs.1 ..))))⟩

theorem recCriteria_succ {n : Nat} {e : Elem} (h : RecCriteria n e) : RecCriteria (n + 1) e := by
  induction n generalizing e with
  | zero => exact h.elim
  | succ n ih =>
    rw [RecCriteria] at h ⊢
    obtain ⟨h1, h2, h3⟩ := h
    refine ⟨h1, h2, h3.mono ⟨⟨rfl, rfl, rfl, fun _ h => h⟩, ⟨rfl, rfl, rfl, fun _ h => h⟩, ⟨rfl, rfl, rfl, ?_⟩, ⟨rfl, rfl, rfl, fun _ h => h⟩, trivial⟩⟩
    intro e ⟨h1, h2, h3⟩
    refine ⟨h1, h2, h3.mono ⟨⟨rfl, rfl, rfl, ?_⟩, trivial⟩⟩
    intro e ⟨h1, h2, h3⟩
    exact ⟨h1, h2, h3.mono ⟨⟨rfl, rfl, rfl, fun _ h => h⟩, ⟨rfl, rfl, rfl, fun _ h => h⟩, ⟨rfl, rfl, rfl, fun _ h => h⟩,
      ⟨rfl, rfl, rfl, fun _ h => ih h⟩, trivial⟩⟩

theorem recCriteria_le {n m : Nat} {e : Elem} (h : RecCriteria n e) (hm : n ≤ m) : RecCriteria m e := by
  induction hm with
  | refl => exact h
  | step _ ih => exact recCriteria_succ ih

/-- A child whose criteria are nested so many times. -/
def RecChild (n : Nat) : Elem → Prop := Node [⟨"order", true, IntText⟩]
  [one "connectionId" (Text AnyText), one "providerNSA" (Text AnyText), one "connectionStates" States, many "criteria" (RecCriteria n)]

mutual
theorem crit_valid : ∀ c : Crit, c.Std → ∃ n, RecCriteria n c.xml
  | .mk rev s sd ch, h => by
    simp only [Crit.Std] at h
    obtain ⟨n, hn⟩ := children_valid ch h.2
    refine ⟨n + 1, ?_⟩
    rw [RecCriteria, Crit.xml]
    refine node (atts_one (intText_showInt _)) (.one rfl (schedule_valid ..) (.one rfl text_any
      (.opt (a := [.mk "children" [] none (childrenXml ch 0)]) (by simp) (fun e he => ?_) (service_valid h.1 ..))))
    rw [List.mem_singleton] at he; subst he
    exact ⟨rfl, node atts_nil (.many_end (hn 0))⟩
theorem child_valid : ∀ c : Child, c.Std → ∃ n, ∀ i, RecChild n (c.xml i)
  | .mk cid prov st cs, h => by
    simp only [Child.Std] at h
    obtain ⟨n, hn⟩ := crits_valid cs h.2
    refine ⟨n, fun i => ?_⟩
    rw [Child.xml]
    exact node (atts_one (intText_showNat _)) (.one rfl text_any (.one rfl text_any (.one rfl (states_valid h.1 _) (.many_end hn))))
theorem children_valid : ∀ cs : List Child, stdChildren cs → ∃ n, ∀ i, ∀ e ∈ childrenXml cs i, e.tag = "child" ∧ RecChild n e
  | [], _ => ⟨0, by simp [childrenXml]⟩
  | c :: cs, h => by
    simp only [stdChildren] at h
    obtain ⟨n, hn⟩ := child_valid c h.1
    obtain ⟨m, hm⟩ := children_valid cs h.2
    have up : ∀ {k : Nat} {e : Elem}, k ≤ max n m → RecChild k e → RecChild (max n m) e := fun hk ⟨h1, h2, h3⟩ =>
      ⟨h1, h2, h3.mono ⟨⟨rfl, rfl, rfl, fun _ h => h⟩, ⟨rfl, rfl, rfl, fun _ h => h⟩, ⟨rfl, rfl, rfl, fun _ h => h⟩,
        ⟨rfl, rfl, rfl, fun _ h => recCriteria_le h hk⟩, trivial⟩⟩
    refine ⟨max n m, fun i e he => ?_⟩
    simp only [childrenXml, List.mem_cons] at he
    rcases he with rfl | he
    · exact ⟨by cases c; simp [Child.xml, Elem.tag], up (Nat.le_max_left ..) (hn i)⟩
    · exact ⟨(hm _ e he).1, up (Nat.le_max_right ..) (hm _ e he).2⟩
theorem crits_valid : ∀ cs : List Crit, stdCrits cs → ∃ n, ∀ e ∈ critsXml cs, e.tag = "criteria" ∧ RecCriteria n e
  | [], _ => ⟨0, by simp [critsXml]⟩
  | c :: cs, h => by
    simp only [stdCrits] at h
    obtain ⟨n, hn⟩ := crit_valid c h.1
    obtain ⟨m, hm⟩ := crits_valid cs h.2
    refine ⟨max n m, fun e he => ?_⟩
    simp only [critsXml, List.mem_cons] at he
    rcases he with rfl | he
    · exact ⟨by cases c; simp [Crit.xml, Elem.tag], recCriteria_le hn (Nat.le_max_left ..)⟩
    · exact ⟨(hm e he).1, recCriteria_le (hm e he).2 (Nat.le_max_right ..)⟩
end

theorem recursive_valid {is : List Info} (h : ∀ i ∈ is, i.Std) : RecursiveConfirmed (recursiveXml is) := by
  refine node atts_nil (.many_end fun e he => ?_)
  obtain ⟨i, hi, rfl⟩ := List.mem_map.1 he
  obtain ⟨n, hn⟩ := crits_valid i.criterias (h i hi).2
  exact ⟨rfl, info_valid (h i hi).1 fun e he => ⟨(hn e he).1, n, (hn e he).2⟩⟩

theorem mem_traceXml {l : List Str} {i : Nat} {e : Elem} (h : e ∈ traceXml l i) :
    e.tag = "Connection" ∧ TextWith [⟨"index", true, IntText⟩] AnyText e := by
  induction l generalizing i with
  | nil => simp [traceXml] at h
  | cons s ss ih =>
    simp only [traceXml, List.mem_cons] at h
    rcases h with rfl | h
    · exact ⟨rfl, atts_one (intText_showNat _), rfl, trivial⟩
    · exact ih h

theorem header_valid (h : NHeader) (p : String) : Header p (createHeader h p.toList) := by
  refine node atts_nil (.one rfl (text_leaf ⟨p, by simp, rfl⟩) (.one rfl text_any (.one rfl text_any (.one rfl text_any
    (.optLeaf (fun _ _ => trivial) (.many ?_ (.many_end ?_)))))))
  · intro e he
    obtain ⟨g, _, rfl⟩ := List.mem_map.1 he
    refine ⟨rfl, node atts_nil (.many_end fun x hx => ?_)⟩
    rw [List.mem_singleton] at hx; subst hx
    refine ⟨rfl, node ⟨by simp, by simp [AnyText], by simp⟩ (.many_end fun y hy => ?_)⟩
    obtain ⟨v, _, rfl⟩ := List.mem_map.1 hy
    exact ⟨rfl, text_any⟩
  · intro e he
    cases ht : h.connectionTrace with
    | none => rw [ht] at he; simp [truthy, traceElem] at he
    | some l =>
      rw [ht] at he
      cases l with
      | nil => simp [truthy, traceElem] at he
      | cons a as =>
        simp only [truthy, traceElem, List.mem_singleton] at he
        subst he
        exact ⟨rfl, node atts_nil (.some1_end (by simp [traceXml]) fun x hx => mem_traceXml hx)⟩

theorem envelope_valid {p : String} {h : NHeader} {tag : String} {ok : Elem → Prop} {b : Elem} (hk : Kept ok) (ht : b.tag = tag) (hb : ok b) :
    Envelope p (one tag ok) (wire (soapPayload [b] [createHeader h p.toList])) := by
  refine ⟨rfl, ?_⟩
  have hh := Kept.header (p := p)
  have key : Node [] [one "{http://schemas.xmlsoap.org/soap/envelope/}Header"
      (Node [] [one "{http://schemas.ogf.org/nsi/2013/12/framework/headers}nsiHeader" (Header p)]),
      one "{http://schemas.xmlsoap.org/soap/envelope/}Body" (Node [] [one tag ok])] (soapPayload [b] [createHeader h p.toList]) :=
    node atts_nil (.one rfl (node atts_nil (.one rfl (header_valid h p) .nil)) (.one rfl (node atts_nil (.one ht hb .nil)) .nil))
  have : Kept (Node [] [one "{http://schemas.xmlsoap.org/soap/envelope/}Header"
      (Node [] [one "{http://schemas.ogf.org/nsi/2013/12/framework/headers}nsiHeader" (Header p)]),
      one "{http://schemas.xmlsoap.org/soap/envelope/}Body" (Node [] [one tag ok])]) := by kept
  exact this _ key

/-! ### C95 -/

/-- Every request whose arguments are those of the standard is sent with the SOAP action of its operation, and is valid against the schema. -/
theorem C95_requests (c : PCall) (hc : c.Std) (replyTo : Str) (h : NHeader) :
    Operation "application/vnd.ogf.nsi.cs.v2.provider+soap" providerOps c.action (c.message replyTo h) := by
  cases c with
  | reserve r => exact ⟨("reserve", Reserve), by simp [providerOps], rfl, envelope_valid Kept.reserve rfl (reserve_valid hc)⟩
  | generic o c =>
    cases o
    · exact ⟨("reserveCommit", Generic), by simp [providerOps], rfl, envelope_valid Kept.generic rfl (generic_valid ..)⟩
    · exact ⟨("reserveAbort", Generic), by simp [providerOps], rfl, envelope_valid Kept.generic rfl (generic_valid ..)⟩
    · exact ⟨("provision", Generic), by simp [providerOps], rfl, envelope_valid Kept.generic rfl (generic_valid ..)⟩
    · exact ⟨("release", Generic), by simp [providerOps], rfl, envelope_valid Kept.generic rfl (generic_valid ..)⟩
    · exact ⟨("terminate", Generic), by simp [providerOps], rfl, envelope_valid Kept.generic rfl (generic_valid ..)⟩
  | query o cs gs =>
    cases o
    · exact ⟨("querySummary", Query), by simp [providerOps], rfl, envelope_valid Kept.query rfl (query_valid ..)⟩
    · exact ⟨("querySummarySync", Query), by simp [providerOps], rfl, envelope_valid Kept.query rfl (query_valid ..)⟩
    · exact ⟨("queryRecursive", Query), by simp [providerOps], rfl, envelope_valid Kept.query rfl (query_valid ..)⟩

/-- The same of every reply and notification that is sent. -/
theorem C95_replies (c : RCall) (hc : c.Std) (requester provider correlation : Str) (m : Elem)
    (hm : c.message requester provider correlation = .ok m) :
    Operation "application/vnd.ogf.nsi.cs.v2.requester+soap" requesterOps c.action m := by
  have key : ∀ {b : Elem} {ok : Elem → Prop} (n : String), c.body provider = .ok b → (n, ok) ∈ requesterOps →
      c.action = "\"http://schemas.ogf.org/nsi/2013/12/connection/service/".toList ++ n.toList ++ ['"'] → Kept ok →
      b.tag = "{http://schemas.ogf.org/nsi/2013/12/connection/types}" ++ n → ok b →
      Operation "application/vnd.ogf.nsi.cs.v2.requester+soap" requesterOps c.action m := by
    intro b ok n hb ho ha hk ht hok
    rw [RCall.message, hb] at hm
    injection hm with hm
    subst hm
    exact ⟨(n, ok), ho, ha, envelope_valid hk ht hok⟩
  cases c with
  | reserveConfirmed r => exact key "reserveConfirmed" rfl (by simp [requesterOps]) rfl Kept.reserveConfirmed rfl (reserveConfirmed_valid hc)
  | confirmed o c =>
    cases o
    · exact key "reserveCommitConfirmed" rfl (by simp [requesterOps]) rfl Kept.generic rfl (generic_valid ..)
    · exact key "reserveAbortConfirmed" rfl (by simp [requesterOps]) rfl Kept.generic rfl (generic_valid ..)
    · exact key "provisionConfirmed" rfl (by simp [requesterOps]) rfl Kept.generic rfl (generic_valid ..)
    · exact key "releaseConfirmed" rfl (by simp [requesterOps]) rfl Kept.generic rfl (generic_valid ..)
    · exact key "terminateConfirmed" rfl (by simp [requesterOps]) rfl Kept.generic rfl (generic_valid ..)
  | failed o c st err =>
    cases o
    · exact key "reserveFailed" rfl (by simp [requesterOps]) rfl Kept.genericFailed rfl (failure_valid hc ..)
    · exact key "reserveCommitFailed" rfl (by simp [requesterOps]) rfl Kept.genericFailed rfl (failure_valid hc ..)
  | reserveTimeout t => exact key "reserveTimeout" rfl (by simp [requesterOps]) rfl Kept.reserveTimeout rfl (timeout_valid t)
  | dataPlane c n t d => exact key "dataPlaneStateChange" rfl (by simp [requesterOps]) rfl Kept.dataPlaneStateChange rfl (dataPlane_valid hc ..)
  | errorEvent e =>
    cases he : e.serviceEx with
    | none => exact key (b := eventXml e) "errorEvent" (by simp [RCall.body, he]) (by simp [requesterOps]) rfl Kept.errorEvent rfl (event_valid hc)
    | some x => simp [RCall.message, RCall.body, he] at hm
  | summary is => exact key "querySummaryConfirmed" rfl (by simp [requesterOps]) rfl Kept.summaryConfirmed rfl (summary_valid hc)
  | recursive is => exact key "queryRecursiveConfirmed" rfl (by simp [requesterOps]) rfl Kept.recursiveConfirmed rfl (recursive_valid hc)

/-- The acknowledgement of a reservation is valid. -/
theorem C95_answer (h : HeaderIn) (cid : Str) :
    Envelope "application/vnd.ogf.nsi.cs.v2.provider+soap"
      (one "{http://schemas.ogf.org/nsi/2013/12/connection/types}reserveResponse" Generic) (wire (reserveAnswer h cid)) :=
  envelope_valid Kept.generic rfl (generic_valid ..)

/-- Every error is sent as a valid SOAP fault with a service exception. -/
theorem C95_faults (err : AnyError) (provider conn : Option Str) : Fault (wire (createSOAPFault err provider conn)) := by
  refine ⟨rfl, ?_⟩
  have hs := Kept.serviceException
  have hf : Node [] [one "faultcode" (Text AnyText), one "faultstring" (Text AnyText), opt "faultactor" (Text AnyText),
      opt "detail" (Node [] [one "{http://schemas.ogf.org/nsi/2013/12/framework/types}serviceException" ServiceException])]
      (.mk soapFaultTag [] none ([leaf "faultcode" (some "soap:Server".toList),
        leaf "faultstring" (some (match err with | .nsi e => e.text | .other t => t))] ++
        [.mk "detail" [] none [(createServiceException err provider conn none).xml serviceExceptionTag]])) := by
    refine node atts_nil (.one rfl text_any (.one rfl text_any (.skip rfl (.opt_end (by simp) fun e he => ?_))))
    obtain rfl := List.mem_singleton.1 he
    exact ⟨rfl, node atts_nil (.one rfl (serviceException_valid ..) .nil)⟩
  have key := node (tag := soapEnv) atts_nil (.one (e := .mk soapHeader [] none []) (tag := "{http://schemas.xmlsoap.org/soap/envelope/}Header") rfl
    (node atts_nil .nil) (.one (tag := "{http://schemas.xmlsoap.org/soap/envelope/}Body") rfl (node (tag := soapBody) atts_nil
      (.one (tag := "{http://schemas.xmlsoap.org/soap/envelope/}Fault") rfl hf .nil)) .nil))
  have : Kept (Node [] [one "{http://schemas.xmlsoap.org/soap/envelope/}Header" (Node [] []),
           one "{http://schemas.xmlsoap.org/soap/envelope/}Body" (Node [] [one "{http://schemas.xmlsoap.org/soap/envelope/}Fault" (Node []
             [one "faultcode" (Text AnyText), one "faultstring" (Text AnyText), opt "faultactor" (Text AnyText),
              opt "detail" (Node [] [one "{http://schemas.ogf.org/nsi/2013/12/framework/types}serviceException" ServiceException])])])]) := by kept
  exact this _ key

/-! ### Requests that are passed on -/

theorem svcDef_mem {skip : List String} {e : Elem} {d : SvcDef} (h : readSvcDef skip e = .ok d) : ∃ k ∈ e.kids, parseSvcDef k = .ok d := by
  unfold readSvcDef at h
  cases hf : e.kids.filter (fun k => k.tag ∉ skip) with
  | nil => rw [hf] at h; simp [pure, Except.pure] at h
  | cons k ks =>
    rw [hf, List.mapM_cons] at h
    have hk : k ∈ e.kids := (List.mem_filter.1 (by rw [hf]; exact List.mem_cons_self ..)).1
    cases hp : parseSvcDef k with
    | error x => rw [hp] at h; simp [bind, Except.bind] at h
    | ok d' =>
      rw [hp] at h
      cases hr : ks.mapM parseSvcDef with
      | error x => simp [bind, Except.bind, hr] at h
      | ok ds =>
        simp only [bind, Except.bind, hr, pure, Except.pure, Except.ok.injEq] at h
        subst h
        exact ⟨k, hk, hp⟩

/-- A valid request with a version, if it is passed on, is passed on with a version and a directionality of the standard. So what an aggregator
sends for it, which has the same version and directionality (aggregator.py:399-405), is valid. -/
theorem C95_forwarded (u : Uncommon) (e : Elem) (he : Reserve e) (r r' : Resv) (h : readReserve u e = .ok (.passed r)) (hv : r.revision ≠ none)
    (h1 : r'.revision = r.revision) (h2 : r'.sd.directionality = r.sd.directionality) : Reserve r'.requestXml := by
  refine reserve_valid ?_
  unfold readReserve at h
  cases hc : e.find "criteria" with
  | none => simp [hc] at h
  | some c =>
    simp only [hc] at h
    obtain ⟨p, hp, ht, hok⟩ := Node.find he hc
    simp only [List.mem_cons, List.not_mem_nil, or_false] at hp
    have hn : Node [⟨"version", false, IntText⟩] [opt "schedule" Schedule, opt "serviceType" (Text AnyText), service] c := by
      rcases hp with rfl | rfl | rfl | rfl
      · simp [opt] at ht
      · simp [opt] at ht
      · simp [opt] at ht
      · exact hok
    cases hd : readSvcDef ["schedule", "serviceType"] c with
    | error x => simp [hd] at h
    | ok d =>
      cases d with
      | parameter => simp [hd] at h
      | p2p q =>
        simp only [hd] at h
        split at h
        · simp at h
        rename_i hdir
        obtain ⟨k, hk, hkq⟩ := svcDef_mem hd
        have hq : q.directionality = k.findtext "directionality" := by
          unfold parseSvcDef at hkq
          split at hkq
          · unfold buildP2P at hkq
            cases hi : intOf (k.findtext "capacity") with
            | error x => simp [hi] at hkq
            | ok n => simp [hi] at hkq; subst hkq; rfl
          · split at hkq <;> simp at hkq
        have htag : k.tag = p2psTag := by
          unfold parseSvcDef at hkq
          split at hkq
          · assumption
          · split at hkq <;> simp at hkq
        have hps : P2PS k := by
          obtain ⟨p, hp, h1, h2⟩ := hn.2.2.mem k hk
          simp only [List.mem_cons, List.not_mem_nil, or_false] at hp
          rcases hp with rfl | rfl | rfl
          · rw [htag] at h1; simp [opt, p2psTag] at h1
          · rw [htag] at h1; simp [opt, p2psTag] at h1
          · exact h2
        have hstd : q.directionality = some "Bidirectional".toList ∨ q.directionality = some "Unidirectional".toList := by
          cases hf : k.find "directionality" with
          | none => exact absurd (.inl (by rw [hq, Elem.findtext, hf]; rfl)) hdir
          | some x =>
            obtain ⟨p, hp, h1, h2⟩ := Node.find hps hf
            simp only [List.mem_cons, List.not_mem_nil, or_false] at hp
            have hx : Text (OneOf ["Bidirectional", "Unidirectional"]) x := by
              rcases hp with rfl | rfl | rfl | rfl | rfl | rfl | rfl
              · simp [one] at h1
              · exact h2
              all_goals simp [one, opt, many] at h1
            obtain ⟨s, hs, hxs⟩ := hx.2.2
            rw [hq, Elem.findtext, hf]
            simp only [List.mem_cons, List.not_mem_nil, or_false] at hs
            rcases hs with rfl | rfl
            · exact .inl (by simp [hxs])
            · exact .inr (by simp [hxs])
        cases hs : readSched u (c.find "schedule") with
        | error x => simp [hs] at h
        | ok s =>
          simp only [hs] at h
          cases hr : readP2P q (some (q.symmetric.getD false)) (truthy q.parameter) with
          | error x => simp [hr] at h
          | ok sd =>
            simp only [hr] at h
            have hsd : sd.directionality = q.directionality := by
              unfold readP2P at hr
              split at hr
              · simp at hr
              split at hr
              · simp at hr
              split at hr
              · simp at hr
              · rename_i hdq; simp at hr; subst hr; exact hdq.symm
            have hr2 : r.revision = c.get "version" ∧ r.sd = sd := by
              split at h
              · simp at h
              · simp at h; subst h; exact ⟨rfl, rfl⟩
            refine ⟨?_, by unfold P2P.Std; rw [h2, hr2.2, hsd]; exact hstd⟩
            cases hg : c.get "version" with
            | none => exact absurd (by rw [hr2.1, hg]) hv
            | some v =>
              refine ⟨v, by rw [h1, hr2.1, hg], ?_⟩
              obtain ⟨a, ha, hn1, hn2⟩ := hn.1.2.1 _ (dget_some_mem hg)
              simp only [List.mem_singleton] at ha
              subst ha
              exact hn2

/-- A reservation without version cannot be sent in a valid request. -/
theorem unversioned_invalid (r : Resv) (h : r.revision = none) : ¬ Reserve r.requestXml := by
  intro hr
  have hf : r.requestXml.find "criteria" = some (.mk "criteria" [("version", strOf r.revision)] none
       [.mk "schedule" [] none (optLeaf "startTime" (r.schedule.start.map utcText) ++ optLeaf "endTime" (r.schedule.end_.map utcText)),
        leaf "serviceType" (some requestType), r.sd.xml r.sd.ero (sentParams r.sd) p2psTag]) := by
    cases hc : r.cid <;> cases hg : r.gid <;> cases hd : r.description <;>
      simp [Resv.requestXml, find_kids, hc, hg, hd, optLeaf, findIn, leaf, Elem.tag]
  obtain ⟨p, hp, ht, hok⟩ := Node.find hr hf
  simp only [List.mem_cons, List.not_mem_nil, or_false] at hp
  rcases hp with rfl | rfl | rfl | rfl
  · simp [opt] at ht
  · simp [opt] at ht
  · simp [opt] at ht
  · obtain ⟨a, ha, _, hv⟩ := hok.1.2.1 ("version", strOf r.revision) (by simp [Elem.attrib])
    simp only [List.mem_singleton] at ha
    subst ha
    rw [h] at hv
    rcases hv with hv | ⟨t, ht, _⟩
    · exact absurd (hv.2 'N' (by simp [strOf])) (by decide)
    · simp [strOf] at ht

/-- A valid request without version, as another program may send it. -/
def Ex.unversioned : Elem :=
  .mk "{http://schemas.ogf.org/nsi/2013/12/connection/types}reserve" [] none
    [.mk "criteria" [] none
      [.mk "schedule" [] none [], leaf "serviceType" (some "urn:type".toList), Ex.svc.xml none none p2psTag]]

theorem Ex.svc_std : Ex.svc.Std := .inl rfl

theorem Ex.unversioned_valid : Reserve Ex.unversioned :=
  node atts_nil (.skip rfl (.skip rfl (.skip rfl (.one rfl (node ⟨by simp, by simp, by simp⟩
    (.opt (a := [.mk "schedule" [] none []]) (by simp) (fun e he => by
        rw [List.mem_singleton] at he; subst he; exact ⟨rfl, node atts_nil (.skip rfl (.skip rfl .nil))⟩)
      (.opt (a := [leaf "serviceType" (some "urn:type".toList)]) (by simp) (fun e he => by
        rw [List.mem_singleton] at he; subst he; exact ⟨rfl, text_any⟩) (service_valid Ex.svc_std ..)))) .nil))))

/-- **C95 is violated for requests without version**, which the schema allows. The missing version is kept as `None`, and an aggregator writes
it into the requests to its children (nsiconnection.py:154, 162; aggregator.py:405): `version="None"`, which is no number. -/
theorem C95_version_fails : Reserve Ex.unversioned ∧ ∃ r, readReserve Ex.noUncommon Ex.unversioned = .ok (.passed r) ∧ r.revision = none ∧
    ∀ r' : Resv, r'.revision = r.revision → ¬ Reserve r'.requestXml := by
  refine ⟨Ex.unversioned_valid, ⟨none, none, none, none, ⟨none, none⟩, { Ex.svc with symmetric := some false }⟩, ?_, rfl, fun r' h => unversioned_invalid r' h⟩
  decide +kernel

/-- A valid request without schedule. -/
def Ex.unscheduled : Elem :=
  .mk "{http://schemas.ogf.org/nsi/2013/12/connection/types}reserve" [] none
    [.mk "criteria" [("version", "0".toList)] none [Ex.svc.xml none none p2psTag]]

/-- **C95 is violated for requests without schedule**, which the schema allows (a reservation that starts at once and has no end): reading them
fails (providerservice.py:96). -/
theorem C95_schedule_fails : Reserve Ex.unscheduled ∧ ∀ u, readReserve u Ex.unscheduled = .error .attributeError := by
  refine ⟨?_, fun u => ?_⟩
  · exact node atts_nil (.skip rfl (.skip rfl (.skip rfl (.one rfl (node (atts_one (.inl ⟨by simp, by decide +kernel⟩))
      (.skip rfl (.skip rfl (service_valid Ex.svc_std ..)))) .nil))))
  · have h : readReserve Ex.noUncommon Ex.unscheduled = .error .attributeError := by decide +kernel
    exact h

/-- **C95 is violated for numeric booleans**, which the schema allows: a data plane that is reported active with `1` is read as inactive
(nsiconnection.py:16). -/
theorem C95_boolean_fails : ∃ e, DataPlaneStatus e ∧ (∃ k, e.find "active" = some k ∧ Text TrueText k) ∧
    readDPS (some e) = .ok ⟨false, some 3, true⟩ :=
  ⟨.mk "dataPlaneStatus" [] none [leaf "active" (some ['1']), leaf "version" (some ['3']), leaf "versionConsistent" (some "true".toList)],
    node atts_nil (.one rfl (text_leaf (.inl (.inr rfl))) (.one rfl (text_leaf (.inl ⟨by simp, by decide +kernel⟩))
      (.one rfl (text_leaf (.inl (.inl rfl))) .nil))), ⟨leaf "active" (some ['1']), rfl, text_leaf (.inr rfl)⟩, by decide +kernel⟩

/-! ### Examples -/

theorem Ex.states_std : (Ex.states (some 3)).Std := ⟨⟨"ReserveHeld", by simp, rfl⟩, ⟨"Released", by simp, rfl⟩, ⟨"Created", by simp, rfl⟩, by simp [Ex.states]⟩

/-- `C95_requests`: a reservation with a label, times and a parameter. -/
example : (PCall.reserve Ex.resv).Std := ⟨⟨_, rfl, .inl ⟨by simp, by decide +kernel⟩⟩, .inl rfl⟩

/-- `C95_replies`: the result of a query with children, a failure and an event. -/
example : (RCall.recursive [{ Ex.info [.mk (some "C".toList) (some "urn:b".toList) (Ex.states (some 3)) [.mk 0 Ex.sched Ex.svc []]] with
      states := Ex.states (some 3) }]).Std ∧
    (RCall.failed .reserveFailed "N-1".toList (Ex.states (some 3)) (.other "x".toList)).Std ∧
    (RCall.errorEvent ⟨none, 1, 0, some "forcedEnd".toList, none, none⟩).Std := by
  refine ⟨?_, Ex.states_std, "forcedEnd", by simp, rfl⟩
  intro i hi
  rw [List.mem_singleton] at hi
  subst hi
  exact ⟨Ex.states_std, ⟨Ex.svc_std, ⟨⟨Ex.states_std, ⟨⟨Ex.svc_std, trivial⟩, trivial⟩⟩, trivial⟩⟩, trivial⟩

/-- `C95_forwarded`: a valid request with version is passed on. -/
example : ∃ e r, Reserve e ∧ readReserve Ex.noUncommon e = .ok (.passed r) ∧ r.revision ≠ none :=
  ⟨({ Ex.resv with schedule := ⟨none, none⟩ } : Resv).requestXml, { Ex.resv with schedule := ⟨none, none⟩, sd := { Ex.resv.sd with symmetric := some false, ero := none } },
    reserve_valid ⟨⟨_, rfl, .inl ⟨by simp, by decide +kernel⟩⟩, .inl rfl⟩, by decide +kernel, by simp [Ex.resv]⟩

/-- Not every element is valid: one in a wrong place, one missing, and one with a text for a number. -/
example : ¬ Generic (.mk "x" [] none [leaf "connectionId" none, leaf "connectionId" none]) ∧ ¬ Generic (.mk "x" [] none []) ∧ ¬ IntText "None".toList := by
  refine ⟨fun h => ?_, fun h => ?_, ?_⟩
  · obtain ⟨_, _, h⟩ := h
    generalize hl : (Elem.mk "x" [] none [leaf "connectionId" none, leaf "connectionId" none]).kids = l at h
    cases h with
    | cons lo hi ok rest =>
      cases rest
      have := hi 1 rfl
      simp only [Elem.kids, List.append_nil] at hl
      subst hl; simp at this
  · obtain ⟨_, _, h⟩ := h
    generalize hl : (Elem.mk "x" [] none []).kids = l at h
    cases h with
    | cons lo hi ok rest =>
      cases rest
      simp only [Elem.kids, List.append_nil] at hl
      subst hl; simp [one] at lo
  · rintro (h | ⟨t, ht, _⟩)
    · exact absurd (h.2 'N' (by simp)) (by decide)
    · simp at ht

end OpenNSA.Wire
