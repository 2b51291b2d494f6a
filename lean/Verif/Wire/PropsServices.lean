import Verif.Wire.PropsMessages
/- C60: requests for several services. -/
namespace OpenNSA.Wire
open Py

theorem mapM_parse_ok {l : List Elem} (h : ∀ k ∈ l, ∃ d, parseSvcDef k = .ok d) : ∃ ds, l.mapM parseSvcDef = .ok ds := by
  induction l with
  | nil => exact ⟨[], rfl⟩
  | cons k ks ih =>
    obtain ⟨d, hd⟩ := h k (by simp)
    obtain ⟨ds, hds⟩ := ih fun x hx => h x (by simp [hx])
    exact ⟨d :: ds, by simp only [List.mapM_cons, hd, hds]; rfl⟩

theorem svcDef_first {skip : List String} {e e' : Elem} {a : Elem} {l more : List Elem} (he : e.kids.filter (fun k => k.tag ∉ skip) = a :: l)
    (he' : e'.kids.filter (fun k => k.tag ∉ skip) = a :: l ++ more) (h : ∀ k ∈ more, ∃ d, parseSvcDef k = .ok d) :
    readSvcDef skip e' = readSvcDef skip e := by
  obtain ⟨ds, hds⟩ := mapM_parse_ok h
  unfold readSvcDef
  rw [he, he', List.mapM_append, hds]
  cases ha : parseSvcDef a with
  | error x => simp only [List.mapM_cons, ha]; rfl
  | ok d =>
    cases hl : l.mapM parseSvcDef with
    | error x => simp only [List.mapM_cons, ha, hl]; rfl
    | ok es => simp only [List.mapM_cons, ha, hl]; rfl

/-- **C60, several services.** If a request asks for several point to point services, the first one is taken and the others are
dropped without an error, as if they had not been there. -/
theorem C60_first_service (u : Uncommon) (tag : String) (atts catts : List (String × Str)) (tx ctx : Option Str) (pre post kids more : List Elem)
    (hp : ∀ k ∈ pre, k.tag ≠ "criteria") (hs : ∃ k ∈ kids, k.tag ≠ "schedule" ∧ k.tag ≠ "serviceType")
    (hm : ∀ k ∈ more, k.tag = "{http://schemas.ogf.org/nsi/2013/12/services/point2point}p2ps" ∧
      ∃ t n, k.findtext "capacity" = some t ∧ pyInt t = some n) :
    readReserve u (.mk tag atts tx (pre ++ .mk "criteria" catts ctx (kids ++ more) :: post)) =
      readReserve u (.mk tag atts tx (pre ++ .mk "criteria" catts ctx kids :: post)) := by
  have htag : ∀ k ∈ more, k.tag = p2psTag := fun k hk => (hm k hk).1
  have hfind : ∀ c : Elem, c.tag = "criteria" → (Elem.mk tag atts tx (pre ++ c :: post)).find "criteria" = some c := by
    intro c hc
    rw [find_kids, findIn_append, findIn_cons, if_pos hc]
    have : findIn "criteria" pre = none := by
      clear hm htag
      induction pre with
      | nil => rfl
      | cons k ks ih => rw [findIn_cons, if_neg (hp k (by simp))]; exact ih fun x hx => hp x (by simp [hx])
    rw [this]; rfl
  have hother : ∀ (c c' : Elem) (t : String), c.tag = "criteria" → c'.tag = "criteria" → t ≠ "criteria" →
      (Elem.mk tag atts tx (pre ++ c :: post)).findtext t = (Elem.mk tag atts tx (pre ++ c' :: post)).findtext t := by
    intro c c' t hc hc' ht
    have : ∀ c : Elem, c.tag = "criteria" → (Elem.mk tag atts tx (pre ++ c :: post)).find t = findIn t (pre ++ post) := by
      intro c hc
      rw [find_kids, findIn_append, findIn_append, findIn_cons, if_neg (by rw [hc]; exact fun h => ht h.symm)]
    simp only [Elem.findtext, this c hc, this c' hc']
  have hsched : (Elem.mk "criteria" catts ctx (kids ++ more)).find "schedule" = (Elem.mk "criteria" catts ctx kids).find "schedule" := by
    rw [find_kids, find_kids, findIn_append]
    have : findIn "schedule" more = none := by
      clear hm
      induction more with
      | nil => rfl
      | cons k ks ih =>
        rw [findIn_cons, if_neg (by rw [htag k (by simp)]; decide +kernel)]
        exact ih fun x hx => htag x (by simp [hx])
    rw [this, Option.or_none]
  have hsvc : readSvcDef ["schedule", "serviceType"] (.mk "criteria" catts ctx (kids ++ more)) =
      readSvcDef ["schedule", "serviceType"] (.mk "criteria" catts ctx kids) := by
    have hmore : more.filter (fun k => k.tag ∉ ["schedule", "serviceType"]) = more := by
      rw [List.filter_eq_self]
      intro k hk
      rw [htag k hk]
      decide +kernel
    cases hk : kids.filter (fun k => k.tag ∉ ["schedule", "serviceType"]) with
    | nil =>
      obtain ⟨k, h1, h2⟩ := hs
      exact absurd hk (List.ne_nil_of_mem (List.mem_filter.mpr ⟨h1, by simpa using h2⟩))
    | cons a l =>
      refine svcDef_first hk (by show (kids ++ more).filter _ = _; rw [List.filter_append, hk, hmore]) fun k hk => ?_
      obtain ⟨t, n, h1, h2⟩ := (hm k hk).2
      unfold parseSvcDef buildP2P
      rw [if_pos (htag k hk), h1]
      simp only [intOf, h2]
      exact ⟨_, rfl⟩
  unfold readReserve
  rw [hfind _ rfl, hfind _ rfl]
  simp only [hsvc, hsched, hother (.mk "criteria" catts ctx (kids ++ more)) (.mk "criteria" catts ctx kids) _ rfl rfl (show "connectionId" ≠ "criteria" by decide),
    hother (.mk "criteria" catts ctx (kids ++ more)) (.mk "criteria" catts ctx kids) _ rfl rfl (show "globalReservationId" ≠ "criteria" by decide),
    hother (.mk "criteria" catts ctx (kids ++ more)) (.mk "criteria" catts ctx kids) _ rfl rfl (show "description" ≠ "criteria" by decide)]
  rfl

namespace Ex

/-- A service with the given capacity. -/
def svcOf (capacity : String) : Elem :=
  .mk p2psTag [] none [leaf "capacity" (some capacity.toList), leaf "directionality" (some "Bidirectional".toList),
    leaf "sourceSTP" (some "urn:ogf:network:a:1".toList), leaf "destSTP" (some "urn:ogf:network:b:1".toList)]

/-- A request for these services. -/
def asksFor (services : List Elem) : Elem :=
  .mk "reserve" [] none ([leaf "description" (some "d".toList)] ++ .mk "criteria" [("version", "1".toList)] none ([.mk "schedule" [] none []] ++ services) :: [])

/-- The capacity of a request that is passed on. -/
def capacityOf (x : Except WireErr ReserveIn) : Option Int := match x with | .ok (.passed r) => some r.sd.capacity | _ => none

end Ex

/-- Of two services with capacities 5 and 7 the one with 5 is reserved. -/
example : (∃ k ∈ [Elem.mk "schedule" [] none []] ++ [Ex.svcOf "5"], k.tag ≠ "schedule" ∧ k.tag ≠ "serviceType") ∧
    (∀ k ∈ [Ex.svcOf "7"], k.tag = "{http://schemas.ogf.org/nsi/2013/12/services/point2point}p2ps" ∧
      ∃ t n, k.findtext "capacity" = some t ∧ pyInt t = some n) ∧
    Ex.capacityOf (readReserve (fun _ => .error .valueError) (Ex.asksFor [Ex.svcOf "5", Ex.svcOf "7"])) = some 5 := by
  refine ⟨⟨Ex.svcOf "5", by simp, by decide +kernel, by decide +kernel⟩, ?_, by decide +kernel⟩
  · intro k hk
    rw [List.mem_singleton.mp hk]
    exact ⟨rfl, "7".toList, 7, by decide +kernel, by decide +kernel⟩

end OpenNSA.Wire
