import Verif.Wire.Parts
import Verif.Wire.PropsTime
import Verif.Stp.Props
/-
The shared parts of messages are read as they were written.
-/
namespace OpenNSA.Wire
open Py

/-- A time that Python can represent. -/
def TimeOk (t : Option Int) : Prop := ∀ x, t = some x → 0 ≤ x ∧ x < maxInstant

/-- A termination point that has a text (see C07). -/
def StpOk (s : STP) : Prop := s.WellNamed ∧ s.WellLabelled

theorem intOf_show (n : Int) : intOf (some (showInt n)) = .ok n := by simp [intOf, pyInt_showInt]

theorem optIntOf_show (n : Option Int) : optIntOf (n.map showInt) = .ok n := by
  cases n with
  | none => rfl
  | some n => simp [optIntOf, pyInt_showInt]

theorem boolText_true (b : Bool) : decide (some (boolText b) = some "true".toList) = b := by cases b <;> decide

theorem findtext_kids (t tag : String) (a x k) : (Elem.mk t a x k).findtext tag = (findIn tag k).map fun e => e.text.getD [] := rfl
theorem find_kids (t tag : String) (a x k) : (Elem.mk t a x k).find tag = findIn tag k := rfl

theorem readSched_xml (u : Uncommon) (s : Sched) (tag : String) (h1 : TimeOk s.start) (h2 : TimeOk s.end_) :
    readSched u (some (wire (s.xml tag))) = .ok s := by
  have ht : ∀ t : Option Int, TimeOk t → optTime u (t.map createXMLTime) = .ok t := by
    intro t ht
    cases t with
    | none => rfl
    | some t => simp [optTime, C47_roundtrip u t (ht t rfl).1 (ht t rfl).2]
  have e1 : (s.xml tag).findtext "startTime" = s.start.map createXMLTime := by
    simp only [Sched.xml, findtext_kids, findIn_append, findIn_optLeaf]
    cases s.start <;> simp
  have e2 : (s.xml tag).findtext "endTime" = s.end_.map createXMLTime := by
    simp only [Sched.xml, findtext_kids, findIn_append, findIn_optLeaf]
    cases s.end_ <;> simp
  simp only [readSched, wire_findtext, e1, e2, ht _ h1, ht _ h2]

theorem readDPS_xml (d : DPS) (tag : String) (h : d.version.isSome) : readDPS (some (wire (d.xml tag))) = .ok d := by
  obtain ⟨a, v, c⟩ := d
  cases v with
  | none => simp at h
  | some v =>
    simp only [readDPS, wire_findtext]
    simp only [DPS.xml, findtext_kids, findIn_cons]
    simp [strOfInt, intOf_show]
    cases a <;> cases c <;> simp [boolText]

/-- States with all their parts. -/
def ConnStates.Ok (c : ConnStates) : Prop := c.rsm.isSome ∧ c.psm.isSome ∧ c.lsm.isSome ∧ c.dps.version.isSome

theorem getD_of_isSome {x : Option Str} (h : x.isSome) : some (x.getD []) = x := by cases x <;> simp_all

theorem readStates_xml (c : ConnStates) (tag : String) (h : c.Ok) : readStates (some (wire (c.xml tag))) = .ok c := by
  obtain ⟨r, p, l, d⟩ := c
  obtain ⟨hr, hp, hl, hd⟩ := h
  have e1 : (ConnStates.xml ⟨r, p, l, d⟩ tag).find "dataPlaneStatus" = some (d.xml "dataPlaneStatus") := by
    simp [ConnStates.xml, find_kids, findIn_cons, DPS.xml]
  simp only [readStates, wire_find, e1, Option.map_some, readDPS_xml d _ hd, wire_findtext]
  simp [ConnStates.xml, findtext_kids, findIn_cons, getD_of_isSome hr, getD_of_isSome hp, getD_of_isSome hl]

/-! ### Services -/

theorem eroXml_tags (l : List STP) (i : Nat) : ∀ e ∈ eroXml l i, e.tag = "orderedSTP" := by
  induction l generalizing i with
  | nil => simp [eroXml]
  | cons s ss ih =>
    intro e he
    rcases List.mem_cons.1 he with rfl | he
    · rfl
    · exact ih _ e he

theorem findIn_symElem (t : String) (b : Option Bool) :
    findIn t (symElem b) = if "symmetricPath" = t then b.map fun v => leaf "symmetricPath" (some (boolText v)) else none := by
  cases b with
  | none => simp [symElem]
  | some v => rfl

theorem findIn_eroElem (t : String) (l : Option (List STP)) :
    findIn t (eroElem l) = if "ero" = t then l.map fun v => .mk "ero" [] none (eroXml v 0) else none := by
  cases l with
  | none => simp [eroElem]
  | some v => rfl

theorem findIn_paramElems (t : String) (l : Option (List (Option Str × Option Str))) (h : t ≠ "parameter") : findIn t (paramElems l) = none := by
  apply findIn_none_of
  intro e he
  cases l with
  | none => simp [paramElems] at he
  | some l =>
    simp only [paramElems, List.mem_map] at he
    obtain ⟨p, _, rfl⟩ := he
    exact fun hx => h hx.symm

theorem P2P.findall_parameter (p : P2P) (ero : Option (List STP)) (params : Option (List (Option Str × Option Str))) (tag : String) :
    (p.xml ero params tag).findall "parameter" = paramElems params := by
  have hp : (paramElems params).filter (fun k => decide (k.tag = "parameter")) = paramElems params := by
    apply List.filter_eq_self.2
    intro e he
    cases params with
    | none => simp [paramElems] at he
    | some l =>
      simp only [paramElems, List.mem_map] at he
      obtain ⟨q, _, rfl⟩ := he
      simp
  simp only [Elem.findall, P2P.xml, mk_kids, List.filter_append, hp]
  cases p.symmetric <;> cases ero <;> simp [symElem, eroElem, leaf]

/-- What is read of an ERO: order and termination point. -/
def eroIn : List STP → Nat → List (Option Str × Option Str)
  | [], _ => []
  | s :: ss, i => (some (showNat i), some s.urn) :: eroIn ss (i + 1)

theorem eroXml_read (l : List STP) (i : Nat) :
    ((eroXml l i).map wire).map (fun o => (o.get "order", o.findtext "stp")) = eroIn l i := by
  induction l generalizing i with
  | nil => rfl
  | cons s ss ih =>
    simp only [eroXml, List.map_cons, eroIn]
    have h : ((wire (.mk "orderedSTP" [("order", showNat i)] none [leaf "stp" (some s.urn)])).get "order",
        (wire (.mk "orderedSTP" [("order", showNat i)] none [leaf "stp" (some s.urn)])).findtext "stp") = (some (showNat i), some s.urn) := by
      simp [Elem.get, dget, findtext_kids, findIn_cons]
    rw [h, ih]

/-- What is read of parameters: none at all if there are none, and no value for an empty one. -/
def paramsIn : Option (List (Option Str × Option Str)) → Option (List (Option Str × Option Str))
  | some (q :: qs) => some ((q :: qs).map fun q => (some (q.1.getD []), normText q.2))
  | _ => none

/-- What the receiver builds of a service. -/
theorem buildP2P_xml (p : P2P) (ero : Option (List STP)) (params : Option (List (Option Str × Option Str))) (tag : String) :
    buildP2P (wire (p.xml ero params tag)) = .ok
      { capacity := p.capacity, directionality := some (p.directionality.getD []), symmetric := p.symmetric, source := some p.source.urn,
        dest := some p.dest.urn, ero := ero.map fun l => eroIn l 0,
        parameter := paramsIn params } := by
  have hs : readSym ((p.xml ero params tag).findtext "symmetricPath") = p.symmetric := by
    simp only [P2P.xml, findtext_kids, findIn_append, findIn_cons, findIn_symElem, findIn_eroElem, findIn_paramElems _ _ (by decide : "symmetricPath" ≠ "parameter")]
    cases p.symmetric with
    | none => simp [readSym]
    | some b => simp [readSym]; cases b <;> simp [boolText]
  have he : ((wire (p.xml ero params tag)).find "ero").map (fun x => x.kids.map fun o => (o.get "order", o.findtext "stp")) = ero.map fun l => eroIn l 0 := by
    simp only [wire_find]
    have : (p.xml ero params tag).find "ero" = ero.map fun v => .mk "ero" [] none (eroXml v 0) := by
      simp only [P2P.xml, find_kids, findIn_append, findIn_cons, findIn_symElem, findIn_eroElem, findIn_paramElems _ _ (by decide : "ero" ≠ "parameter")]
      cases ero <;> simp
    rw [this]
    cases ero with
    | none => rfl
    | some l => simp only [Option.map_some, wire_kids, mk_kids, eroXml_read]
  have hpar : readParams (wire (p.xml ero params tag)) = paramsIn params := by
    simp only [readParams, wire_findall, P2P.findall_parameter]
    cases params with
    | none => rfl
    | some l => cases l with
      | nil => rfl
      | cons q qs =>
        simp [paramElems, paramsIn, Elem.get, dget, Function.comp_def]
  have hc : (p.xml ero params tag).findtext "capacity" = some (showInt p.capacity) := by
    simp [P2P.xml, findtext_kids, findIn_cons]
  have hd : (p.xml ero params tag).findtext "directionality" = some (p.directionality.getD []) := by
    simp [P2P.xml, findtext_kids, findIn_cons]
  have h1 : (p.xml ero params tag).findtext "sourceSTP" = some p.source.urn := by
    simp [P2P.xml, findtext_kids, findIn_append, findIn_cons, findIn_symElem]
  have h2 : (p.xml ero params tag).findtext "destSTP" = some p.dest.urn := by
    simp [P2P.xml, findtext_kids, findIn_append, findIn_cons, findIn_symElem]
  simp only [buildP2P, wire_findtext, hc, hd, h1, h2, intOf_show, hs, he, hpar]

theorem readSTP_urn (s : STP) (h : StpOk s) : readSTP (some s.urn) = .ok s := by
  simp [readSTP, C07_urn_roundtrip s h.1 h.2]

end OpenNSA.Wire
