import Verif.Wire.Header
/-
C45: security attributes survive the wire. C59: message headers survive the wire.
-/
namespace OpenNSA.Wire
open Py

/-! ### Grouping -/

/-- The attributes of a grouping, group by group. -/
def ungroup (g : List (Str × List Str)) : List (Str × Str) := g.flatMap fun x => x.2.map fun v => (x.1, v)

theorem filter_ungroup (g : List (Str × List Str)) (h : (dkeys g).Nodup) (t : Str) :
    (ungroup g).filter (fun a => a.1 = t) = ((dget g t).getD []).map fun v => (t, v) := by
  induction g with
  | nil => rfl
  | cons x xs ih =>
    have hx : (dkeys xs).Nodup := (List.nodup_cons.1 (by simpa [dkeys] using h)).2
    have hn : x.1 ∉ dkeys xs := (List.nodup_cons.1 (by simpa [dkeys] using h)).1
    simp only [ungroup, List.flatMap_cons, List.filter_append]
    have ih' := ih hx
    simp only [ungroup] at ih'
    rw [ih']
    obtain ⟨n, vs⟩ := x
    by_cases hk : n = t
    · subst hk
      have ht : vs.filter (fun _ => true) = vs := List.filter_eq_self.2 fun _ _ => rfl
      have : dget xs n = none := by
        rw [dget_none]
        intro e he hne
        exact hn (by rw [dkeys]; exact List.mem_map.2 ⟨e, he, hne⟩)
      simp [dget, this, List.filter_map, Function.comp_def, ht]
    · simp [dget, hk, List.filter_map, Function.comp_def]

theorem nodup_groupSats (sats : List (Str × Str)) : (dkeys (groupSats sats)).Nodup := by
  unfold groupSats
  suffices ∀ d : List (Str × List Str), (dkeys d).Nodup → (dkeys (sats.foldl (fun d sa => dset d sa.1 ((dget d sa.1).getD [] ++ [sa.2])) d)).Nodup from
    this [] (by simp [dkeys])
  induction sats with
  | nil => exact fun d h => h
  | cons a as ih => exact fun d h => ih _ (nodup_dset h _ _)

theorem dget_groupSats (sats : List (Str × Str)) (t : Str) :
    (dget (groupSats sats) t).getD [] = (sats.filter fun a => a.1 = t).map Prod.snd := by
  unfold groupSats
  suffices ∀ d : List (Str × List Str),
      (dget (sats.foldl (fun d sa => dset d sa.1 ((dget d sa.1).getD [] ++ [sa.2])) d) t).getD [] =
        (dget d t).getD [] ++ (sats.filter fun a => a.1 = t).map Prod.snd from by simpa [dget] using this []
  induction sats with
  | nil => simp
  | cons a as ih =>
    intro d
    rw [List.foldl_cons, ih]
    rw [dget_dset]
    by_cases hk : t = a.1
    · subst hk; simp
    · simp [Ne.symm hk]

theorem groupSats_ne_nil (sats : List (Str × Str)) : ∀ g ∈ groupSats sats, g.2 ≠ [] := by
  unfold groupSats
  suffices ∀ d : List (Str × List Str), (∀ g ∈ d, g.2 ≠ []) →
      ∀ g ∈ sats.foldl (fun d sa => dset d sa.1 ((dget d sa.1).getD [] ++ [sa.2])) d, g.2 ≠ [] from this [] (by simp)
  induction sats with
  | nil => exact fun d h => h
  | cons a as ih =>
    intro d h
    apply ih
    intro g hg
    rcases mem_dset_of hg with rfl | hg'
    · simp
    · exact h g hg'

/-! ### What is read from what is sent -/

/-- Values that are not empty. -/
def nonEmptyValue (a : Str × Str) : Bool := !a.2.isEmpty

theorem attrValues_map (n : Str) (vs : List Str) :
    attrValues (some n) ((vs.map fun v => wire (leaf samlAttributeValue (some v))).map Elem.text) =
      .ok ((vs.map fun v => (n, v)).filter nonEmptyValue) := by
  induction vs with
  | nil => rfl
  | cons v vs ih =>
    cases v with
    | nil => simpa [attrValues, normText, nonEmptyValue] using ih
    | cons c cs =>
      simp only [List.map_cons, wire_text, leaf_text, normText, attrValues]
      simp only [List.map_map] at ih
      simp only [List.map_map, ih]
      simp [nonEmptyValue]

theorem buildAttribute_xml (g : Str × List Str) (h : g.2 ≠ []) :
    buildAttribute (wire (attributeXml g.1 g.2)) = .ok ((g.2.map fun v => (g.1, v)).filter nonEmptyValue) := by
  obtain ⟨n, vs⟩ := g
  unfold buildAttribute
  have hk : (wire (attributeXml n vs)).kids = vs.map fun v => wire (leaf samlAttributeValue (some v)) := by
    simp [attributeXml, Function.comp_def]
  have hg : (wire (attributeXml n vs)).get "Name" = some n := by simp [attributeXml, Elem.get, dget]
  rw [hk, hg]
  cases vs with
  | nil => exact absurd rfl h
  | cons v vs =>
    show attrValues (some n) (List.map Elem.text (wire (leaf samlAttributeValue (some v)) :: vs.map _)) = _
    exact attrValues_map n (v :: vs)

theorem findall_header (h : NHeader) (p : Str) :
    (createHeader h p).findall "sessionSecurityAttr" =
      (groupSats h.securityAttributes).map fun g => .mk "sessionSecurityAttr" [] none [attributeXml g.1 g.2] := by
  have e1 : (groupSats h.securityAttributes).filter (fun _ => true) = groupSats h.securityAttributes := List.filter_eq_self.2 fun _ _ => rfl
  cases hr : h.replyTo <;> cases ht : truthy h.connectionTrace <;>
    simp [Elem.findall, createHeader, hr, ht, optLeaf, traceElem, List.filter_append, List.filter_map, Function.comp_def, connectionTraceTag, e1]

theorem mapM_ok {α β : Type} (f : α → Except WireErr β) (g : α → β) (l : List α) (h : ∀ x ∈ l, f x = .ok (g x)) :
    l.mapM f = .ok (l.map g) := by
  induction l with
  | nil => rfl
  | cons x xs ih =>
    rw [List.mapM_cons, h x List.mem_cons_self, ih fun y hy => h y (List.mem_cons_of_mem _ hy)]
    rfl

theorem flatten_filter_map {α β : Type} (p : β → Bool) (f : α → List β) (l : List α) :
    (l.map fun x => (f x).filter p).flatten = (l.flatMap f).filter p := by
  induction l with
  | nil => rfl
  | cons x xs ih => simp [ih, List.filter_append]

/-- What the receiver reads as security attributes. -/
theorem buildSats_wire (h : NHeader) (p : Str) :
    buildSats (wire (createHeader h p)) = .ok ((ungroup (groupSats h.securityAttributes)).filter nonEmptyValue) := by
  unfold buildSats
  rw [wire_findall, findall_header]
  have : ((List.map wire (List.map (fun g : Str × List Str => Elem.mk "sessionSecurityAttr" [] none [attributeXml g.1 g.2]) (groupSats h.securityAttributes))).flatMap
      fun s => s.findall samlAttribute) = (groupSats h.securityAttributes).map fun g => wire (attributeXml g.1 g.2) := by
    induction groupSats h.securityAttributes with
    | nil => rfl
    | cons g gs ih =>
      simp only [List.map_cons, List.flatMap_cons, ih]
      simp [Elem.findall, attributeXml]
  rw [this]
  have hm : (List.map (fun g => wire (attributeXml g.1 g.2)) (groupSats h.securityAttributes)).mapM buildAttribute =
      .ok ((groupSats h.securityAttributes).map fun g => (g.2.map fun v => (g.1, v)).filter nonEmptyValue) := by
    rw [List.mapM_map]
    apply mapM_ok
    intro g hg
    exact buildAttribute_xml g (groupSats_ne_nil _ g hg)
  rw [hm]
  simp only
  rw [flatten_filter_map]
  rfl

/-! ### Trace -/

theorem traceXml_mapM (cs : List Str) (i : Nat) :
    ∃ l : List (Option Str × Int), ((traceXml cs i).map wire).mapM buildConnection = .ok l ∧
      l.map Prod.fst = cs.map (fun c => normText (some c)) ∧ l.Pairwise (fun a b => a.2 ≤ b.2) ∧ ∀ a ∈ l, (i : Int) ≤ a.2 := by
  induction cs generalizing i with
  | nil => exact ⟨[], rfl, rfl, .nil, by simp⟩
  | cons c cs ih =>
    obtain ⟨l, h1, h2, h3, h4⟩ := ih (i + 1)
    refine ⟨(normText (some c), (i : Int)) :: l, ?_, ?_, ?_, ?_⟩
    · rw [traceXml, List.map_cons, List.mapM_cons]
      have : buildConnection (wire (connectionXml c i)) = .ok (normText (some c), (i : Int)) := by
        simp [buildConnection, connectionXml, Elem.get, dget, pyInt_showNat]
      rw [this, h1]
      rfl
    · simp [h2]
    · rw [List.pairwise_cons]
      refine ⟨fun a ha => ?_, h3⟩
      have := h4 a ha
      show (i : Int) ≤ a.2
      omega
    · intro a ha
      rcases List.mem_cons.1 ha with rfl | ha
      · simp
      · have := h4 a ha
        omega

theorem buildTrace_wire (h : NHeader) (p : Str) :
    buildTrace (wire (createHeader h p)) = .ok ((truthy h.connectionTrace).map fun cs => cs.map fun c => normText (some c)) := by
  unfold buildTrace
  rw [wire_find]
  have hn : findIn connectionTraceTag ((groupSats h.securityAttributes).map fun g => Elem.mk "sessionSecurityAttr" [] none [attributeXml g.1 g.2]) = none := by
    apply findIn_none_of
    intro e he
    obtain ⟨g, _, rfl⟩ := List.mem_map.1 he
    simp [connectionTraceTag]
  have ho : findIn connectionTraceTag (optLeaf "replyTo" h.replyTo) = none := by
    apply findIn_none_of
    intro e he
    cases hr : h.replyTo with
    | none => rw [hr] at he; simp [optLeaf] at he
    | some v => rw [hr] at he; simp [optLeaf] at he; subst he; simp [connectionTraceTag]
  have hf : (createHeader h p).find connectionTraceTag = (truthy h.connectionTrace).map fun cs => .mk connectionTraceTag [] none (traceXml cs 0) := by
    simp only [Elem.find, createHeader, mk_kids, findIn_cons, findIn_append, hn, ho, leaf_tag]
    cases truthy h.connectionTrace <;> simp [connectionTraceTag, findIn_cons, traceElem]
  rw [hf]
  cases truthy h.connectionTrace with
  | none => rfl
  | some cs =>
    obtain ⟨l, h1, h2, h3, _⟩ := traceXml_mapM cs 0
    have ha : (traceXml cs 0).filter (fun k => decide (k.tag = "Connection")) = traceXml cs 0 := by
      rw [List.filter_eq_self]
      suffices ∀ i, ∀ a ∈ traceXml cs i, a.tag = "Connection" from fun a ha => by simpa using this 0 a ha
      clear h1 h2 h3
      induction cs with
      | nil => simp [traceXml]
      | cons c cs ih =>
        intro i a ha
        rcases List.mem_cons.1 ha with rfl | ha
        · rfl
        · exact ih _ a ha
    simp only [Option.map_some, wire_findall]
    have : (Elem.mk connectionTraceTag [] none (traceXml cs 0)).findall "Connection" = traceXml cs 0 := ha
    rw [this, h1]
    have hs : sortBy (fun a b : Option Str × Int => decide (a.2 ≤ b.2)) l = l := sortBy_of_pairwise (by simpa using h3)
    simp only [hs, h2]

/-! ### The theorems -/

/-- What `parseRequest` returns for a message made by us. -/
theorem parseRequest_createHeader (h : NHeader) (p fresh : Str) (body : List Elem) :
    parseRequest fresh (wire (soapPayload body [createHeader h p])) =
      .ok ({ requesterNSA := some h.requesterNSA, providerNSA := some h.providerNSA,
             correlationId := pyOr (some h.correlationId) (some fresh), replyTo := h.replyTo,
             securityAttributes := (ungroup (groupSats h.securityAttributes)).filter nonEmptyValue,
             connectionTrace := (truthy h.connectionTrace).map fun cs => cs.map fun c => normText (some c) },
           body.map wire) := by
  have hp : parseSoapPayload (wire (soapPayload body [createHeader h p])) = .ok (some [wire (createHeader h p)], body.map wire) := by
    simp [parseSoapPayload, soapPayload, wire_mk, soapParts, soapBody, soapHeader]
  unfold parseRequest
  rw [hp]
  have hn : ∀ t : String, t ≠ "sessionSecurityAttr" →
      findIn t ((groupSats h.securityAttributes).map fun g => Elem.mk "sessionSecurityAttr" [] none [attributeXml g.1 g.2]) = none := by
    intro t ht
    apply findIn_none_of
    intro e he
    obtain ⟨g, _, rfl⟩ := List.mem_map.1 he
    exact Ne.symm ht
  have ht : ∀ t : String, t ≠ connectionTraceTag → findIn t (traceElem (truthy h.connectionTrace)) = none := by
    intro t ht
    cases truthy h.connectionTrace with
    | none => rfl
    | some cs => simp [traceElem, findIn_cons, Ne.symm ht]
  have e1 : (createHeader h p).findtext "requesterNSA" = some h.requesterNSA := by
    simp [createHeader, Elem.findtext, Elem.find, findIn_cons]
  have e2 : (createHeader h p).findtext "providerNSA" = some h.providerNSA := by
    simp [createHeader, Elem.findtext, Elem.find, findIn_cons]
  have e3 : (createHeader h p).findtext "correlationId" = some h.correlationId := by
    simp [createHeader, Elem.findtext, Elem.find, findIn_cons]
  have e4 : (createHeader h p).findtext "replyTo" = h.replyTo := by
    simp only [createHeader, Elem.findtext, Elem.find, mk_kids, findIn_cons, findIn_append, leaf_tag, findIn_optLeaf]
    rw [hn _ (by decide), ht _ (by decide)]
    cases h.replyTo <;> simp
  have hh : parseHeader fresh (wire (createHeader h p)) = .ok
      { requesterNSA := some h.requesterNSA, providerNSA := some h.providerNSA,
        correlationId := pyOr (some h.correlationId) (some fresh), replyTo := h.replyTo,
        securityAttributes := (ungroup (groupSats h.securityAttributes)).filter nonEmptyValue,
        connectionTrace := (truthy h.connectionTrace).map fun cs => cs.map fun c => normText (some c) } := by
    unfold parseHeader
    rw [buildTrace_wire, buildSats_wire]
    simp only [wire_tag, wire_findtext, e1, e2, e3, e4]
    rw [if_neg (by simp [createHeader])]
  simp only [hh]

theorem filter_swap {α : Type} (p q : α → Bool) (l : List α) : (l.filter p).filter q = (l.filter q).filter p := by
  rw [List.filter_filter, List.filter_filter]
  apply List.filter_congr
  intro a _
  exact Bool.and_comm _ _

theorem map_retype (t : Str) (l : List (Str × Str)) :
    ((l.filter fun a => decide (a.1 = t)).map Prod.snd).map (fun v => (t, v)) = l.filter fun a => decide (a.1 = t) := by
  induction l with
  | nil => rfl
  | cons a as ih =>
    by_cases h : a.1 = t
    · subst h
      simpa using ih
    · simpa [h] using ih

theorem count_of_type (a : Str × Str) (l : List (Str × Str)) : l.count a = (l.filter fun b => decide (b.1 = a.1)).count a := by
  rw [List.count_filter (by simp)]

/-- **C45, the exact law.** Whatever the values, the receiver has the attributes whose value is not empty: with the same
multiplicities, and for each type in the same order. -/
theorem C45_exact (h : NHeader) (p fresh : Str) (body : List Elem) :
    ∃ hd bs, parseRequest fresh (wire (soapPayload body [createHeader h p])) = .ok (hd, bs) ∧
      hd.securityAttributes.Perm (h.securityAttributes.filter fun a => decide (a.2 ≠ [])) ∧
      ∀ t, hd.securityAttributes.filter (fun a => a.1 = t) =
        (h.securityAttributes.filter fun a => decide (a.2 ≠ [])).filter (fun a => a.1 = t) := by
  refine ⟨_, _, parseRequest_createHeader h p fresh body, ?_⟩
  have hq : (fun a : Str × Str => decide (a.2 ≠ [])) = nonEmptyValue := by
    funext a
    cases hv : a.2 <;> simp [nonEmptyValue, hv]
  rw [hq]
  have key : ∀ t, ((ungroup (groupSats h.securityAttributes)).filter nonEmptyValue).filter (fun a => decide (a.1 = t)) =
      (h.securityAttributes.filter nonEmptyValue).filter (fun a => decide (a.1 = t)) := by
    intro t
    rw [filter_swap, filter_ungroup _ (nodup_groupSats _), dget_groupSats, map_retype, filter_swap]
  refine ⟨?_, key⟩
  rw [List.perm_iff_count]
  intro a
  rw [count_of_type, count_of_type a (h.securityAttributes.filter nonEmptyValue)]
  exact congrArg (List.count a) (key a.1)

/-- `C45_exact`: an empty value before another of its type. -/
example : ([("user".toList, "".toList), ("user".toList, "me".toList)] : List (Str × Str)).filter (fun a => decide (a.2 ≠ [])) =
    [("user".toList, "me".toList)] := by decide

/-- **C45.** The receiver of a message has the security attributes of its sender, with the same multiplicities and for each type
in the same order, provided no value is empty. -/
theorem C45_attributes_partial (h : NHeader) (p fresh : Str) (body : List Elem) (hne : ∀ a ∈ h.securityAttributes, a.2 ≠ []) :
    ∃ hd bs, parseRequest fresh (wire (soapPayload body [createHeader h p])) = .ok (hd, bs) ∧
      hd.securityAttributes.Perm h.securityAttributes ∧
      ∀ t, hd.securityAttributes.filter (fun a => a.1 = t) = h.securityAttributes.filter (fun a => a.1 = t) := by
  have hf : (h.securityAttributes.filter fun a => decide (a.2 ≠ [])) = h.securityAttributes := by
    rw [List.filter_eq_self]
    intro a ha
    simpa using hne a ha
  have := C45_exact h p fresh body
  rwa [hf] at this

/-- `C45_attributes_partial`: a user with two groups and a token between them. -/
def Ex.header : NHeader :=
  { requesterNSA := "r".toList, providerNSA := "p".toList, correlationId := "urn:uuid:1".toList, replyTo := some "http://x".toList,
    securityAttributes := [("group".toList, "b".toList), ("token".toList, "t".toList), ("group".toList, "a".toList)],
    connectionTrace := some ["u:1".toList, "u:2".toList] }
example : (∀ a ∈ Ex.header.securityAttributes, a.2 ≠ []) ∧
    parseRequest [] (wire (soapPayload [] [createHeader Ex.header []])) = .ok
      ({ requesterNSA := some "r".toList, providerNSA := some "p".toList, correlationId := some "urn:uuid:1".toList, replyTo := some "http://x".toList,
         securityAttributes := [("group".toList, "b".toList), ("group".toList, "a".toList), ("token".toList, "t".toList)],
         connectionTrace := some [some "u:1".toList, some "u:2".toList] }, []) := by
  constructor
  · decide
  · rw [parseRequest_createHeader]; exact congrArg (fun x => Except.ok (x, [])) (by decide +kernel)

/-- **C45 violated: an empty value is lost.** An attribute with the empty text as value is sent, but not received. -/
theorem C45_empty_fails : ∃ (h : NHeader) (hd : HeaderIn) (bs : List Elem), ("user".toList, "".toList) ∈ h.securityAttributes ∧
    parseRequest [] (wire (soapPayload [] [createHeader h []])) = .ok (hd, bs) ∧ hd.securityAttributes = [] := by
  refine ⟨{ Ex.header with securityAttributes := [("user".toList, "".toList)] }, _, _, by decide, parseRequest_createHeader _ _ _ _, ?_⟩
  decide +kernel

/-- **C59.** The header of a message is received as sent: requester, provider, correlation id, reply address, and — in the order
of the hops, however many — the connection trace. The parts must not be empty texts. -/
theorem C59_header (h : NHeader) (p fresh : Str) (body : List Elem) (hc : h.correlationId ≠ [])
    (ht : ∀ cs, h.connectionTrace = some cs → cs ≠ [] ∧ ∀ c ∈ cs, c ≠ []) :
    ∃ hd, parseRequest fresh (wire (soapPayload body [createHeader h p])) = .ok (hd, body.map wire) ∧
      hd.requesterNSA = some h.requesterNSA ∧ hd.providerNSA = some h.providerNSA ∧ hd.correlationId = some h.correlationId ∧
      hd.replyTo = h.replyTo ∧ hd.connectionTrace = h.connectionTrace.map fun cs => cs.map some := by
  refine ⟨_, parseRequest_createHeader h p fresh body, rfl, rfl, ?_, rfl, ?_⟩
  · cases hcc : h.correlationId with
    | nil => exact absurd hcc hc
    | cons c cs => rfl
  · show (truthy h.connectionTrace).map _ = _
    cases hct : h.connectionTrace with
    | none => rfl
    | some cs =>
      obtain ⟨h1, h2⟩ := ht cs hct
      cases cs with
      | nil => exact absurd rfl h1
      | cons c cs =>
        simp only [truthy, Option.map_some, Option.some.injEq]
        apply List.map_congr_left
        intro x hx
        cases x with
        | nil => exact absurd rfl (h2 _ hx)
        | cons _ _ => rfl

example : Ex.header.correlationId ≠ [] ∧ ∀ cs, Ex.header.connectionTrace = some cs → cs ≠ [] ∧ ∀ c ∈ cs, c ≠ [] := by
  refine ⟨by decide, ?_⟩
  intro cs hcs
  simp only [Ex.header, Option.some.injEq] at hcs
  subst hcs
  decide

end OpenNSA.Wire
