import Verif.Wire.Query
import Verif.Wire.PartsLemmas
import Verif.Wire.PropsHeader
/-
C46: recursive query results survive the wire. C61: summaries do.
-/
namespace OpenNSA.Wire
open Py

/-! ### The equations of reading -/

theorem rdAll_eq (u : Uncommon) (l : List Elem) : rdAll u l = l.map fun e => (e, rd u e) := by
  induction l with
  | nil => rfl
  | cons e es ih => simp [rdAll, ih]

theorem find?_map_rd (u : Uncommon) (t : String) (l : List Elem) :
    (l.map fun e => (e, rd u e)).find? (fun p => p.1.tag = t) = (findIn t l).map fun e => (e, rd u e) := by
  induction l with
  | nil => rfl
  | cons e es ih =>
    simp only [List.map_cons, List.find?_cons, findIn_cons]
    by_cases h : e.tag = t <;> simp [h, ih]

theorem readCrit_eq (u : Uncommon) (e : Elem) : readCrit u e = critOf u e ((e.find "children").map (readChildren u)) := by
  cases e with
  | mk t a x k =>
    simp only [readCrit, rd, rdAll_eq, find?_map_rd, find_kids, Option.map_map]
    rfl

theorem readChild_eq (u : Uncommon) (e : Elem) : readChild u e = childOf e ((e.findall "criteria").map (readCrit u)) := by
  cases e with
  | mk t a x k =>
    simp only [readChild, rd, rdAll_eq, Elem.findall, mk_kids, List.filter_map, List.map_map]
    rfl

theorem readChildren_eq (u : Uncommon) (e : Elem) : readChildren u e = e.kids.mapM (readChild u) := by
  cases e with
  | mk t a x k =>
    simp only [readChildren, rd, rdAll_eq, mk_kids]
    induction k with
    | nil => rfl
    | cons e es ih => simp only [List.map_cons, List.mapM_cons, ih]; rfl

/-! ### What can be sent and what is received -/

/-- A service with termination points that have a text. -/
def P2P.Ok (p : P2P) : Prop := StpOk p.source ∧ StpOk p.dest ∧ p.directionality.isSome

/-- The service without the parts that query results do not carry (queryhelper.py:25). -/
def P2P.bare (p : P2P) : P2P := { p with ero := none, parameters := none }

mutual
/-- Every text is there, every time can be represented, every data plane version is a number, every child has criteria. -/
def Crit.Ok : Crit → Prop
  | .mk _ s sd ch => TimeOk s.start ∧ TimeOk s.end_ ∧ sd.Ok ∧ childrenOk ch
def Child.Ok : Child → Prop
  | .mk cid prov st cs => cid.isSome ∧ prov.isSome ∧ st.Ok ∧ cs ≠ [] ∧ critsOk cs
def childrenOk : List Child → Prop
  | [] => True
  | c :: cs => c.Ok ∧ childrenOk cs
def critsOk : List Crit → Prop
  | [] => True
  | c :: cs => c.Ok ∧ critsOk cs
end

/-- The children with their positions as decimal numbers. -/
def indexed {α : Type} : List α → Nat → List (Str × α)
  | [], _ => []
  | c :: cs, i => (showNat i, c) :: indexed cs (i + 1)

/-- A list in the order of the decimal texts of the positions: 0, 1, 10, 11, .., 2, 20, .. -/
def byText {α : Type} (l : List α) : List α := (sortBy (fun a b => strLe a.1 b.1) (indexed l 0)).map (·.2)

mutual
/-- The tree with the children of every criteria in the order of the texts of their positions. -/
def Crit.received : Crit → Crit
  | .mk r s sd ch => .mk r s sd.bare (byText (childrenReceived ch))
def Child.received : Child → Child
  | .mk cid prov st cs => .mk cid prov st (critsReceived cs)
def childrenReceived : List Child → List Child
  | [] => []
  | c :: cs => c.received :: childrenReceived cs
def critsReceived : List Crit → List Crit
  | [] => []
  | c :: cs => c.received :: critsReceived cs
end

theorem sortBy_map {α β : Type} (f : α → β) (le : β → β → Bool) (l : List α) :
    sortBy le (l.map f) = (sortBy (fun a b => le (f a) (f b)) l).map f := by
  have hi : ∀ (x : α) (l : List α), insertBy le (f x) (l.map f) = (insertBy (fun a b => le (f a) (f b)) x l).map f := by
    intro x l
    induction l with
    | nil => rfl
    | cons y ys ih =>
      simp only [List.map_cons, insertBy]
      split <;> simp [ih]
  induction l with
  | nil => rfl
  | cons x xs ih =>
    show insertBy le (f x) (sortBy le (xs.map f)) = _
    rw [ih, hi]
    rfl

theorem sortChildren_indexed (l : List Child) : sortChildren ((indexed l 0).map fun p => (some p.1, p.2)) = .ok (byText l) := by
  unfold sortChildren
  rw [if_neg]
  · rw [sortBy_map]
    simp only [byText, List.map_map, Option.getD_some]
    rfl
  · rintro ⟨_, x, hx, hn⟩
    obtain ⟨p, _, rfl⟩ := List.mem_map.1 hx
    simp at hn

theorem bare_read (p : P2P) (h : p.Ok) :
    parseSvcDef (wire (p.xml none (some []) p2psTag)) = .ok (.p2p ⟨p.capacity, p.directionality, p.symmetric, some p.source.urn, some p.dest.urn, none, none⟩) := by
  have ht : (wire (p.xml none (some []) p2psTag)).tag = p2psTag := by simp [P2P.xml]
  unfold parseSvcDef
  rw [if_pos ht, buildP2P_xml]
  simp [getD_of_isSome h.2.2, paramsIn]

theorem readQuerySvc_bare (p : P2P) (h : p.Ok) :
    readQuerySvc (.p2p ⟨p.capacity, p.directionality, p.symmetric, some p.source.urn, some p.dest.urn, none, none⟩) = .ok p.bare := by
  obtain ⟨h1, h2, h3⟩ := h
  cases hd : p.directionality with
  | none => rw [hd] at h3; simp at h3
  | some d => simp [readQuerySvc, readP2P, readSTP_urn _ h1, readSTP_urn _ h2, P2P.bare, hd]

/-- A criteria, given what is read of its children. -/
theorem critOf_xml (u : Uncommon) (rev : Int) (s : Sched) (sd : P2P) (sty : Str) (kids : List Elem) (l : List (Option Str × Child)) (ch : List Child)
    (h1 : TimeOk s.start) (h2 : TimeOk s.end_) (h3 : sd.Ok) (hl : sortChildren l = .ok ch) :
    critOf u (wire (.mk "criteria" [("version", showInt rev)] none
      [s.xml "schedule", leaf "serviceType" (some sty), .mk "children" [] none kids, sd.xml none (some []) p2psTag])) (some (.ok l)) =
      .ok (.mk rev s sd.bare ch) := by
  have hd : readSvcDef ["schedule", "serviceType", "children"] (wire (.mk "criteria" [("version", showInt rev)] none
      [s.xml "schedule", leaf "serviceType" (some sty), .mk "children" [] none kids, sd.xml none (some []) p2psTag])) =
      .ok (.p2p ⟨sd.capacity, sd.directionality, sd.symmetric, some sd.source.urn, some sd.dest.urn, none, none⟩) := by
    have hk : ((wire (.mk "criteria" [("version", showInt rev)] none
      [s.xml "schedule", leaf "serviceType" (some sty), .mk "children" [] none kids, sd.xml none (some []) p2psTag])).kids.filter
        fun k => decide (k.tag ∉ ["schedule", "serviceType", "children"])) = [wire (sd.xml none (some []) p2psTag)] := by
      have t1 : (s.xml "schedule").tag = "schedule" := rfl
      have t2 : ∀ t, (sd.xml none (some []) t).tag = t := fun _ => rfl
      simp [t1, t2, p2psTag]
    unfold readSvcDef
    rw [hk]
    simp only [List.mapM_cons, List.mapM_nil, bare_read sd h3]
    rfl
  have hs : (wire (.mk "criteria" [("version", showInt rev)] none
      [s.xml "schedule", leaf "serviceType" (some sty), .mk "children" [] none kids, sd.xml none (some []) p2psTag])).find "schedule" =
      some (wire (s.xml "schedule")) := by
    have t1 : (s.xml "schedule").tag = "schedule" := rfl
    simp [find_kids, findIn_cons, t1]
  have hv : (wire (.mk "criteria" [("version", showInt rev)] none
      [s.xml "schedule", leaf "serviceType" (some sty), .mk "children" [] none kids, sd.xml none (some []) p2psTag])).get "version" =
      some (showInt rev) := by simp [Elem.get, dget]
  simp only [critOf, hd, hs, readSched_xml u s _ h1 h2, readQuerySvc_bare sd h3, hl, hv, intOf_show]

theorem critsXml_tags (cs : List Crit) : ∀ e ∈ critsXml cs, e.tag = "criteria" := by
  induction cs with
  | nil => simp [critsXml]
  | cons c cs ih =>
    intro e he
    rw [critsXml] at he
    rcases List.mem_cons.1 he with rfl | he
    · cases c; rfl
    · exact ih e he

mutual
theorem readCrit_xml (u : Uncommon) (c : Crit) (h : c.Ok) : readCrit u (wire c.xml) = .ok c.received := by
  cases c with
  | mk r s sd ch =>
    obtain ⟨h1, h2, h3, h4⟩ := h
    rw [readCrit_eq]
    have hc : (wire (Crit.xml (.mk r s sd ch))).find "children" = some (wire (.mk "children" [] none (childrenXml ch 0))) := by
      have t1 : (s.xml "schedule").tag = "schedule" := rfl
      simp [Crit.xml, find_kids, findIn_cons, t1]
    rw [hc, Option.map_some, readChildren_eq, wire_kids, mk_kids, readChildren_xml u ch h4 0, Crit.xml]
    exact critOf_xml u r s sd _ _ _ _ h1 h2 h3 (sortChildren_indexed _)
theorem readChild_xml (u : Uncommon) (c : Child) (h : c.Ok) (i : Nat) : readChild u (wire (c.xml i)) = .ok (some (showNat i), c.received) := by
  cases c with
  | mk cid prov st cs =>
    obtain ⟨h1, h2, h3, h4, h5⟩ := h
    rw [readChild_eq]
    have t : (st.xml "connectionStates").tag = "connectionStates" := rfl
    have hs : (wire (Child.xml (.mk cid prov st cs) i)).find "connectionStates" = some (wire (st.xml "connectionStates")) := by
      simp [Child.xml, find_kids, findIn_cons, t]
    have hf : (wire (Child.xml (.mk cid prov st cs) i)).findall "criteria" = (critsXml cs).map wire := by
      rw [wire_findall]
      congr 1
      have : (critsXml cs).filter (fun k => decide (k.tag = "criteria")) = critsXml cs := by
        apply List.filter_eq_self.2
        intro e he
        simp [critsXml_tags cs e he]
      simp only [Child.xml, Elem.findall, mk_kids, List.filter_cons, t, leaf_tag, this]
      simp
    have hr := readCrits_xml u cs h5
    have hm : (((critsXml cs).map wire).map (readCrit u)).mapM id = .ok (critsReceived cs) := by
      rw [← hr]
      generalize (critsXml cs).map wire = l
      clear hr hf hs h4 h5
      induction l with
      | nil => rfl
      | cons e es ih => simp only [List.map_cons, List.mapM_cons, ih]; rfl
    have e1 : (wire (Child.xml (.mk cid prov st cs) i)).findtext "connectionId" = cid := by
      simp [Child.xml, findtext_kids, findIn_cons, getD_of_isSome h1]
    have e2 : (wire (Child.xml (.mk cid prov st cs) i)).findtext "providerNSA" = prov := by
      cases prov with
      | none => simp at h2
      | some p => simp [Child.xml, findtext_kids, findIn_cons, strOf]
    have e3 : (wire (Child.xml (.mk cid prov st cs) i)).get "order" = some (showNat i) := by
      simp [Child.xml, Elem.get, dget]
    simp only [childOf, hs, readStates_xml st _ h3, hf, hm, e1, e2, e3]
    cases cs with
    | nil => exact absurd rfl h4
    | cons c cs => rfl
theorem readChildren_xml (u : Uncommon) (cs : List Child) (h : childrenOk cs) (i : Nat) :
    ((childrenXml cs i).map wire).mapM (readChild u) = .ok ((indexed (childrenReceived cs) i).map fun p => (some p.1, p.2)) := by
  cases cs with
  | nil => rfl
  | cons c cs =>
    rw [childrenXml, List.map_cons, List.mapM_cons, readChild_xml u c h.1 i, readChildren_xml u cs h.2 (i + 1)]
    rfl
theorem readCrits_xml (u : Uncommon) (cs : List Crit) (h : critsOk cs) : ((critsXml cs).map wire).mapM (readCrit u) = .ok (critsReceived cs) := by
  cases cs with
  | nil => rfl
  | cons c cs =>
    rw [critsXml, List.map_cons, List.mapM_cons, readCrit_xml u c h.1, readCrits_xml u cs h.2]
    rfl
end

/-! ### Whole messages -/

/-- A result whose texts are there. -/
def Info.Ok (i : Info) : Prop := i.cid.isSome ∧ i.requester.isSome ∧ i.states.Ok ∧ critsOk i.criterias

theorem readInfo_xml (i : Info) (prov : Option Str) (crit : Elem → Except WireErr Crit) (es : List Elem) (cs : List Crit)
    (h1 : i.cid.isSome) (h2 : i.requester.isSome) (h3 : i.states.Ok) (ht : ∀ e ∈ es, e.tag = "criteria")
    (hm : (es.map wire).mapM crit = .ok cs) :
    readInfo crit prov (wire (i.xml es)) = .ok { i with criterias := cs, provider := prov } := by
  have t : (i.states.xml "connectionStates").tag = "connectionStates" := rfl
  have hnone : ∀ tag, tag ≠ "criteria" → findIn tag es = none := by
    intro tag hne
    exact findIn_none_of fun e he hx => hne (by rw [← hx, ht e he])
  have hall : (wire (i.xml es)).findall "criteria" = es.map wire := by
    rw [wire_findall]
    congr 1
    have hes : es.filter (fun k => decide (k.tag = "criteria")) = es := by
      apply List.filter_eq_self.2
      intro e he
      simp [ht e he]
    have ho : ∀ t x, t ≠ "criteria" → (optLeaf t x).filter (fun k => decide (k.tag = "criteria")) = [] := by
      intro t x h
      cases x <;> simp [optLeaf, h]
    simp only [Info.xml, Elem.findall, mk_kids, List.filter_cons, List.filter_append, hes, leaf_tag, t, ho _ _ (by decide : "globalReservationId" ≠ "criteria"),
      ho _ _ (by decide : "description" ≠ "criteria"), ho _ _ (by decide : "notificationId" ≠ "criteria"), ho _ _ (by decide : "resultId" ≠ "criteria")]
    simp
  have hs : (wire (i.xml es)).find "connectionStates" = some (wire (i.states.xml "connectionStates")) := by
    simp [Info.xml, find_kids, findIn_cons, findIn_append, findIn_optLeaf, t, hnone]
  have hn : (wire (i.xml es)).findtext "notificationId" = i.notificationId.map showInt := by
    rw [wire_findtext]
    simp only [Info.xml, findtext_kids, findIn_cons, findIn_append, findIn_optLeaf, t, hnone _ (by decide : "notificationId" ≠ "criteria")]
    cases i.notificationId <;> simp
  have hr : (wire (i.xml es)).findtext "resultId" = i.resultId.map showInt := by
    rw [wire_findtext]
    simp only [Info.xml, findtext_kids, findIn_cons, findIn_append, findIn_optLeaf, t, hnone _ (by decide : "resultId" ≠ "criteria")]
    cases i.resultId <;> simp
  have hc : (wire (i.xml es)).findtext "connectionId" = i.cid := by
    simp [Info.xml, findtext_kids, findIn_cons, getD_of_isSome h1]
  have hg : (wire (i.xml es)).findtext "globalReservationId" = i.gid := by
    rw [wire_findtext]
    simp only [Info.xml, findtext_kids, findIn_cons, findIn_append, findIn_optLeaf, t, hnone _ (by decide : "globalReservationId" ≠ "criteria")]
    cases i.gid <;> simp
  have hd : (wire (i.xml es)).findtext "description" = i.description := by
    rw [wire_findtext]
    simp only [Info.xml, findtext_kids, findIn_cons, findIn_append, findIn_optLeaf, t, hnone _ (by decide : "description" ≠ "criteria")]
    cases i.description <;> simp
  have hq : (wire (i.xml es)).findtext "requesterNSA" = i.requester := by
    rw [wire_findtext]
    simp only [Info.xml, findtext_kids, findIn_cons, findIn_append, findIn_optLeaf, t, hnone _ (by decide : "requesterNSA" ≠ "criteria")]
    cases hq : i.requester with
    | none => rw [hq] at h2; simp at h2
    | some q => simp [strOf]
  simp only [readInfo, hall, hm, hs, readStates_xml _ _ h3, hn, hr, optIntOf_show, hc, hg, hd, hq]

theorem findall_reservations (t : String) (is : List Info) (f : Info → List Elem) :
    (wire (.mk t [] none (is.map fun i => i.xml (f i)))).findall "reservation" = is.map fun i => wire (i.xml (f i)) := by
  rw [wire_findall, Elem.findall, mk_kids]
  have : (is.map fun i => i.xml (f i)).filter (fun k => decide (k.tag = "reservation")) = is.map fun i => i.xml (f i) := by
    apply List.filter_eq_self.2
    intro e he
    obtain ⟨i, _, rfl⟩ := List.mem_map.1 he
    simp [Info.xml]
  rw [this, List.map_map]
  rfl

/-- What arrives of a result that was sent by `prov`. -/
def Info.received (i : Info) (prov : Str) : Info := { i with criterias := critsReceived i.criterias, provider := some prov }

/-- **C46, exact.** Recursive query results — however many, of trees of any depth and width — sent in a message are received as
the same trees, with ids, providers, states and schedules as sent; but the children of each criteria come in the order of the
decimal texts of their positions, and services without ERO and parameters. The top provider is the one of the header. -/
theorem C46_exact (u : Uncommon) (h : NHeader) (proto fresh : Str) (is : List Info) (hi : ∀ i ∈ is, i.Ok) :
    ∃ hd body, parseRequest fresh (wire (soapPayload [recursiveXml is] [createHeader h proto])) = .ok (hd, [body]) ∧
      readRecursive u hd.providerNSA body = .ok (is.map fun i => i.received h.providerNSA) := by
  refine ⟨_, _, parseRequest_createHeader h proto fresh [recursiveXml is], ?_⟩
  simp only [readRecursive, recursiveXml, findall_reservations]
  show (is.map fun i => wire (i.xml (critsXml i.criterias))).mapM (readInfo (readCrit u) (some h.providerNSA)) = _
  have : ∀ i ∈ is, readInfo (readCrit u) (some h.providerNSA) (wire (i.xml (critsXml i.criterias))) = .ok (i.received h.providerNSA) := by
    intro i hm
    obtain ⟨h1, h2, h3, h4⟩ := hi i hm
    exact readInfo_xml i _ _ _ _ h1 h2 h3 (critsXml_tags _) (readCrits_xml u _ h4)
  clear hi
  induction is with
  | nil => rfl
  | cons i is ih =>
    rw [List.map_cons, List.mapM_cons, this i List.mem_cons_self, ih fun j hj => this j (List.mem_cons_of_mem _ hj)]
    rfl

/-! ### At most ten children -/

mutual
/-- No criteria has more than ten children. -/
def Crit.Narrow : Crit → Prop
  | .mk _ _ _ ch => ch.length ≤ 10 ∧ childrenNarrow ch
def Child.Narrow : Child → Prop
  | .mk _ _ _ cs => critsNarrow cs
def childrenNarrow : List Child → Prop
  | [] => True
  | c :: cs => c.Narrow ∧ childrenNarrow cs
def critsNarrow : List Crit → Prop
  | [] => True
  | c :: cs => c.Narrow ∧ critsNarrow cs
end

mutual
/-- The tree with services without ERO and parameters; nothing else is changed. -/
def Crit.bare : Crit → Crit
  | .mk r s sd ch => .mk r s sd.bare (childrenBare ch)
def Child.bare : Child → Child
  | .mk cid prov st cs => .mk cid prov st (critsBare cs)
def childrenBare : List Child → List Child
  | [] => []
  | c :: cs => c.bare :: childrenBare cs
def critsBare : List Crit → List Crit
  | [] => []
  | c :: cs => c.bare :: critsBare cs
end

theorem strLe_digit : ∀ i j : Fin 10, i.val < j.val → strLe (showNat i.val) (showNat j.val) = true := by decide +kernel

theorem indexed_mem {α : Type} {l : List α} {i : Nat} {p : Str × α} (h : p ∈ indexed l i) : ∃ j, i ≤ j ∧ j < i + l.length ∧ p.1 = showNat j := by
  induction l generalizing i with
  | nil => simp [indexed] at h
  | cons x xs ih =>
    rcases List.mem_cons.1 h with rfl | h
    · exact ⟨i, Nat.le_refl _, by simp, rfl⟩
    · obtain ⟨j, h1, h2, h3⟩ := ih h
      exact ⟨j, by omega, by simp; omega, h3⟩

theorem indexed_snd {α : Type} (l : List α) (i : Nat) : (indexed l i).map (·.2) = l := by
  induction l generalizing i with
  | nil => rfl
  | cons x xs ih => simp [indexed, ih]

theorem byText_of_le {α : Type} (l : List α) (h : l.length ≤ 10) : byText l = l := by
  have hp : ∀ (l : List α) (i : Nat), i + l.length ≤ 10 → (indexed l i).Pairwise fun a b => strLe a.1 b.1 = true := by
    intro l
    induction l with
    | nil => intro i _; exact .nil
    | cons x xs ih =>
      intro i hi
      simp only [List.length_cons] at hi
      refine List.pairwise_cons.2 ⟨?_, ih (i + 1) (by omega)⟩
      intro p hp
      obtain ⟨j, h1, h2, h3⟩ := indexed_mem hp
      simp only [h3]
      exact strLe_digit ⟨i, by omega⟩ ⟨j, by omega⟩ (by simp; omega)
  unfold byText
  rw [sortBy_of_pairwise (hp l 0 (by omega)), indexed_snd]

theorem childrenReceived_length (cs : List Child) : (childrenReceived cs).length = cs.length := by
  induction cs with
  | nil => rfl
  | cons c cs ih => simp [childrenReceived, ih]

mutual
theorem Crit.received_of_narrow (c : Crit) (h : c.Narrow) : c.received = c.bare := by
  cases c with
  | mk r s sd ch =>
    obtain ⟨h1, h2⟩ := h
    rw [Crit.received, Crit.bare, byText_of_le _ (by rw [childrenReceived_length]; exact h1), childrenReceived_of_narrow ch h2]
theorem Child.received_of_narrow (c : Child) (h : c.Narrow) : c.received = c.bare := by
  cases c with
  | mk cid prov st cs => rw [Child.received, Child.bare, critsReceived_of_narrow cs h]
theorem childrenReceived_of_narrow (cs : List Child) (h : childrenNarrow cs) : childrenReceived cs = childrenBare cs := by
  cases cs with
  | nil => rfl
  | cons c cs => rw [childrenReceived, childrenBare, Child.received_of_narrow c h.1, childrenReceived_of_narrow cs h.2]
theorem critsReceived_of_narrow (cs : List Crit) (h : critsNarrow cs) : critsReceived cs = critsBare cs := by
  cases cs with
  | nil => rfl
  | cons c cs => rw [critsReceived, critsBare, Crit.received_of_narrow c h.1, critsReceived_of_narrow cs h.2]
end

/-- **C46 for at most ten children.** If no criteria has more than ten children, the trees are received as sent: ids, providers,
states, schedules, services (without ERO and parameters) and the order of the children. Missing: wider trees, whose order is
lost (`C46_order_fails`). -/
theorem C46_tree_partial (u : Uncommon) (h : NHeader) (proto fresh : Str) (is : List Info) (hi : ∀ i ∈ is, i.Ok)
    (hn : ∀ i ∈ is, critsNarrow i.criterias) (hp : ∀ i ∈ is, i.provider = some h.providerNSA) :
    ∃ hd body, parseRequest fresh (wire (soapPayload [recursiveXml is] [createHeader h proto])) = .ok (hd, [body]) ∧
      readRecursive u hd.providerNSA body = .ok (is.map fun i => { i with criterias := critsBare i.criterias }) := by
  obtain ⟨hd, body, e1, e2⟩ := C46_exact u h proto fresh is hi
  refine ⟨hd, body, e1, ?_⟩
  rw [e2]
  congr 1
  apply List.map_congr_left
  intro i hm
  simp only [Info.received, critsReceived_of_narrow _ (hn i hm), ← hp i hm]

/-- **C46, nothing lost.** However wide the tree, the children received are those sent, possibly in another order. -/
theorem C46_children_perm {α : Type} (l : List α) : (byText l).Perm l := by
  have := (sortBy_perm (fun a b => strLe a.1 b.1) (indexed l 0)).map (·.2)
  rwa [indexed_snd] at this

namespace Ex

def stpA : STP := ⟨"north".toList, "p1".toList, none⟩
def stpB : STP := ⟨"south".toList, "p2".toList, none⟩
def svc : P2P := ⟨stpA, stpB, 200, some "Bidirectional".toList, some false, none, none⟩
def states (v : Option Int) : ConnStates := ⟨some "ReserveHeld".toList, some "Released".toList, some "Created".toList, ⟨false, v, true⟩⟩
def sched : Sched := ⟨some 63839000000000000, none⟩
def leafChild (n : Nat) : Child := .mk (some ("C-".toList ++ showNat n)) (some "urn:peer".toList) (states (some 0)) [.mk 0 sched svc []]
def info (ch : List Child) : Info :=
  ⟨some "A-1".toList, some "gid".toList, none, [.mk 1 sched svc ch], some "urn:nsa".toList, some "urn:req".toList, states (some 0), some 7, none⟩
def hdr : NHeader := { requesterNSA := "urn:req".toList, providerNSA := "urn:nsa".toList, correlationId := "urn:uuid:1".toList, replyTo := none, securityAttributes := [], connectionTrace := none }
def noUncommon : Uncommon := fun _ => .error .valueError

theorem stp_ok : StpOk stpA ∧ StpOk stpB := by
  refine ⟨⟨⟨by decide, by decide, by decide, by decide +kernel⟩, by intro l h; cases h⟩, ⟨⟨by decide, by decide, by decide, by decide +kernel⟩, by intro l h; cases h⟩⟩

theorem sched_ok : TimeOk sched.start ∧ TimeOk sched.end_ := by
  refine ⟨?_, ?_⟩ <;> intro x hx <;> simp [sched] at hx
  subst hx
  decide

theorem leafChild_ok (n : Nat) : (leafChild n).Ok :=
  ⟨rfl, rfl, ⟨rfl, rfl, rfl, rfl⟩, by simp, ⟨sched_ok.1, sched_ok.2, ⟨stp_ok.1, stp_ok.2, rfl⟩, trivial⟩, trivial⟩

theorem info_ok (ch : List Child) (h : childrenOk ch) : (info ch).Ok :=
  ⟨rfl, rfl, ⟨rfl, rfl, rfl, rfl⟩, ⟨sched_ok.1, sched_ok.2, ⟨stp_ok.1, stp_ok.2, rfl⟩, h⟩, trivial⟩

end Ex

/-- A tree of three levels with two children meets the hypotheses of `C46_exact` and `C46_tree_partial`. -/
example : ∀ i ∈ [Ex.info [Ex.leafChild 1, .mk (some "B".toList) (some "urn:b".toList) (Ex.states (some 0)) [.mk 0 Ex.sched Ex.svc [Ex.leafChild 2]]]],
    i.Ok ∧ critsNarrow i.criterias ∧ i.provider = some Ex.hdr.providerNSA := by
  intro i hi
  simp only [List.mem_singleton] at hi
  subst hi
  refine ⟨Ex.info_ok _ ⟨Ex.leafChild_ok 1, ⟨rfl, rfl, ⟨rfl, rfl, rfl, rfl⟩, by simp, ⟨Ex.sched_ok.1, Ex.sched_ok.2, ⟨Ex.stp_ok.1, Ex.stp_ok.2, rfl⟩, Ex.leafChild_ok 2, trivial⟩, trivial⟩, trivial⟩, ?_, rfl⟩
  simp [Ex.info, critsNarrow, Crit.Narrow, childrenNarrow, Child.Narrow, Ex.leafChild]

/-- The connection ids of the children of a result. -/
def Info.childIds (i : Info) : List (Option Str) := i.criterias.flatMap fun
  | .mk _ _ _ ch => ch.map fun
    | .mk cid _ _ _ => cid

/-- **C46 is violated for more than ten children**: the positions are compared as texts (queryhelper.py:149), so that the eleventh
child comes third. -/
theorem C46_order_fails : ∃ (h : NHeader) (proto fresh : Str) (i i' : Info) (hd : HeaderIn) (body : Elem), i.Ok ∧
    parseRequest fresh (wire (soapPayload [recursiveXml [i]] [createHeader h proto])) = .ok (hd, [body]) ∧
    readRecursive Ex.noUncommon hd.providerNSA body = .ok [i'] ∧
    i.childIds = (List.range 11).map (fun n => some ("C-".toList ++ showNat n)) ∧
    i'.childIds = [0, 1, 10, 2, 3, 4, 5, 6, 7, 8, 9].map (fun n => some ("C-".toList ++ showNat n)) := by
  have hok : childrenOk ((List.range 11).map Ex.leafChild) := by
    have : ∀ l : List Nat, childrenOk (l.map Ex.leafChild) := by
      intro l
      induction l with
      | nil => trivial
      | cons n l ih => exact ⟨Ex.leafChild_ok n, ih⟩
    exact this _
  obtain ⟨hd, body, e1, e2⟩ := C46_exact Ex.noUncommon Ex.hdr [] [] [Ex.info ((List.range 11).map Ex.leafChild)] (by
    intro i hi
    simp only [List.mem_singleton] at hi
    subst hi
    exact Ex.info_ok _ hok)
  exact ⟨Ex.hdr, [], [], Ex.info ((List.range 11).map Ex.leafChild), _, hd, body, Ex.info_ok _ hok, e1, e2, by decide +kernel, by decide +kernel⟩

/-- The error with which a message is refused. -/
def errorOf {α : Type} : Except WireErr α → Option WireErr
  | .ok _ => none
  | .error x => some x

/-- **C46 is violated for connections without data plane version**: a segment that has not reported its data plane yet has version
`None`, sent as the text `None`, and the whole answer is refused with a ValueError (nsiconnection.py:17, 24). -/
theorem C46_version_fails :
    errorOf (readRecursive Ex.noUncommon none (wire (recursiveXml
      [Ex.info [.mk (some "B".toList) (some "urn:b".toList) (Ex.states none) [.mk 0 Ex.sched Ex.svc []]]]))) = some .valueError := by
  decide +kernel

/-- **C46 is violated for children without criteria**: the answer is refused with a TypeError (queryhelper.py:151). -/
theorem C46_no_criteria_fails :
    errorOf (readRecursive Ex.noUncommon none (wire (recursiveXml
      [Ex.info [.mk (some "B".toList) (some "urn:b".toList) (Ex.states (some 0)) []]]))) = some .typeError := by
  decide +kernel

/-! ### Summaries -/

/-- A criteria as a summary has it: without children. -/
def Crit.summary : Crit → Crit
  | .mk r s sd _ => .mk r s sd.bare []

/-- The criteria of a summary can be sent, whatever the children. -/
def Crit.SummaryOk : Crit → Prop
  | .mk _ s sd _ => TimeOk s.start ∧ TimeOk s.end_ ∧ sd.Ok

/-- **C61.** Summary query results, however many, are received as sent: ids, descriptions, requester, states, notification and
result ids, and each criteria with revision, schedule and service (without ERO and parameters). -/
theorem C61_summary (u : Uncommon) (h : NHeader) (proto fresh : Str) (is : List Info)
    (hi : ∀ i ∈ is, i.cid.isSome ∧ i.requester.isSome ∧ i.states.Ok ∧ ∀ c ∈ i.criterias, c.SummaryOk) :
    ∃ hd body, parseRequest fresh (wire (soapPayload [summaryXml is] [createHeader h proto])) = .ok (hd, [body]) ∧
      readSummary u hd.providerNSA body = .ok (is.map fun i => { i with criterias := i.criterias.map Crit.summary, provider := some h.providerNSA }) := by
  refine ⟨_, _, parseRequest_createHeader h proto fresh [summaryXml is], ?_⟩
  simp only [readSummary, summaryXml, findall_reservations]
  show (is.map fun i => wire (i.xml (i.criterias.map Crit.summaryXml))).mapM (readInfo (readSummaryCrit u) (some h.providerNSA)) = _
  have : ∀ i ∈ is, readInfo (readSummaryCrit u) (some h.providerNSA) (wire (i.xml (i.criterias.map Crit.summaryXml))) =
      .ok { i with criterias := i.criterias.map Crit.summary, provider := some h.providerNSA } := by
    intro i hm
    obtain ⟨h1, h2, h3, h4⟩ := hi i hm
    refine readInfo_xml i _ _ _ _ h1 h2 h3 ?_ ?_
    · intro e he
      obtain ⟨c, _, rfl⟩ := List.mem_map.1 he
      cases c; rfl
    · rw [List.map_map]
      generalize i.criterias = cs at h4
      clear h1 h2 h3
      induction cs with
      | nil => rfl
      | cons c cs ih =>
        have hc : readSummaryCrit u (wire c.summaryXml) = .ok c.summary := by
          have := h4 c List.mem_cons_self
          cases c with
          | mk r s sd ch => exact critOf_xml u r s sd _ [] [] [] this.1 this.2.1 this.2.2 rfl
        rw [List.map_cons, List.mapM_cons, Function.comp_apply, hc, ih fun c hc => h4 c (List.mem_cons_of_mem _ hc)]
        rfl
  clear hi
  induction is with
  | nil => rfl
  | cons i is ih =>
    rw [List.map_cons, List.mapM_cons, this i List.mem_cons_self, ih fun j hj => this j (List.mem_cons_of_mem _ hj)]
    rfl

example : ∀ i ∈ [Ex.info [], Ex.info [Ex.leafChild 1]],
    i.cid.isSome ∧ i.requester.isSome ∧ i.states.Ok ∧ ∀ c ∈ i.criterias, c.SummaryOk := by
  intro i hi
  have : i.cid.isSome ∧ i.requester.isSome ∧ i.states.Ok ∧ ∀ c ∈ i.criterias, c.SummaryOk := by
    rcases List.mem_cons.1 hi with rfl | hi
    · exact ⟨rfl, rfl, ⟨rfl, rfl, rfl, rfl⟩, by intro c hc; simp only [Ex.info, List.mem_singleton] at hc; subst hc; exact ⟨Ex.sched_ok.1, Ex.sched_ok.2, Ex.stp_ok.1, Ex.stp_ok.2, rfl⟩⟩
    · simp only [List.mem_singleton] at hi
      subst hi
      exact ⟨rfl, rfl, ⟨rfl, rfl, rfl, rfl⟩, by intro c hc; simp only [Ex.info, List.mem_singleton] at hc; subst hc; exact ⟨Ex.sched_ok.1, Ex.sched_ok.2, Ex.stp_ok.1, Ex.stp_ok.2, rfl⟩⟩
  exact this

end OpenNSA.Wire
