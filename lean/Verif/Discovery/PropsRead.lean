import Verif.Discovery.PropsDocument
/- C63: what is read from a document, whoever wrote it. -/
namespace OpenNSA.Discovery
open Py OpenNSA.Registry OpenNSA.Wire

/-- The element tells that the network `n` is reached at cost `c`: it is in the first list of topologies of an `other`. -/
def Tells (e : Elem) (n : Option Str) (c : Option Int) : Prop :=
  ∃ o ∈ e.kids, o.tag = "other" ∧ ∃ r, o.kids.find? (fun k => k.tag = reachTag) = some r ∧
    ∃ k ∈ r.kids, k.get "id" = n ∧ (k.get "cost").bind pyInt = c

theorem findIn_find (t : String) : ∀ l : List Elem, findIn t l = l.find? (fun k => k.tag = t)
  | [] => by simp
  | e :: l => by
    rw [findIn_cons, List.find?_cons, findIn_find t l]
    by_cases h : e.tag = t <;> simp [h]

theorem allSome_some {α : Type} : ∀ {l : List (Option α)} {r : List α}, allSome l = some r ↔ l = r.map some
  | [], r => by cases r <;> simp [allSome]
  | none :: l, r => by cases r <;> simp [allSome]
  | some a :: l, r => by
    simp only [allSome]
    cases h : allSome l with
    | none =>
      have : ∀ r, l ≠ List.map some r := fun r he => by have := (allSome_some (l := l) (r := r)).mpr he; rw [h] at this; simp at this
      cases r with
      | nil => simp
      | cons b r => simp [this r]
    | some l' =>
      have := (allSome_some (l := l) (r := l')).mp h
      cases r with
      | nil => simp
      | cons b r =>
        simp only [Option.some.injEq, List.cons.injEq, List.map_cons, this]
        constructor
        · rintro ⟨rfl, rfl⟩; exact ⟨rfl, rfl⟩
        · rintro ⟨rfl, h⟩; exact ⟨rfl, List.map_inj_right (fun _ _ h => Option.some.inj h) |>.mp h⟩

theorem allSome_none {α : Type} {l : List (Option α)} : allSome l = none ↔ none ∈ l := by
  induction l with
  | nil => simp [allSome]
  | cons a l ih =>
    cases a with
    | none => simp [allSome]
    | some a =>
      simp only [allSome]
      cases h : allSome l with
      | none => simp [ih.mp h]
      | some l' => simpa [h] using ih

theorem buildReach_eq (e : Elem) : buildReach e = ((e.get "cost").bind pyInt).map fun c => (e.get "id", c) := by
  unfold buildReach
  cases e.get "cost" with
  | none => rfl
  | some c => cases h : pyInt c <;> simp [h]

theorem buildOthers_eq (e : Elem) : buildOthers e = none ↔ none ∈ (e.findall "other").map buildOther := by
  unfold buildOthers
  split
  · simp [allSome_none]
  · rename_i h
    simp only [reduceCtorEq, false_iff]
    have : e.findall "other" = [] := by
      rw [Elem.find, findIn_find] at h
      simp only [Option.isSome_iff_ne_none, ne_eq, Decidable.not_not] at h
      have := List.find?_eq_none.1 h
      unfold Elem.findall
      rw [List.filter_eq_nil_iff]
      exact this
    rw [this]; simp

/-- C63: a document is refused, and nothing of it used, exactly if it is not one or a single cost in it is missing or not a number. -/
theorem C63_refused (e : Elem) : parse e = none ↔ e.tag ≠ nsaTag ∨ ∃ n, Tells e n none := by
  unfold parse
  split
  · rename_i h
    simp only [h, ne_eq, not_true, false_or, NsaType.build, Option.map_eq_none_iff, buildOthers_eq, List.mem_map]
    constructor
    · rintro ⟨o, ho, hb⟩
      unfold Elem.findall at ho
      rw [List.mem_filter] at ho
      unfold buildOther at hb
      cases hr : o.find reachTag with
      | none => rw [hr] at hb; simp at hb
      | some r =>
        rw [hr] at hb
        simp only at hb
        cases ha : allSome (r.kids.map buildReach) with
        | some l => rw [ha] at hb; simp at hb
        | none =>
          obtain ⟨k, hk, hkb⟩ := List.mem_map.1 (allSome_none.1 ha)
          rw [buildReach_eq, Option.map_eq_none_iff] at hkb
          exact ⟨_, o, ho.1, by simpa using ho.2, r, by rw [← findIn_find]; exact hr, k, hk, rfl, hkb⟩
    · rintro ⟨n, o, ho, ht, r, hr, k, hk, _, hc⟩
      refine ⟨o, List.mem_filter.2 ⟨ho, by simpa using ht⟩, ?_⟩
      unfold buildOther
      rw [Elem.find, findIn_find, hr]
      simp only
      rw [allSome_none.2 (List.mem_map.2 ⟨k, hk, by rw [buildReach_eq, hc]; rfl⟩)]
  · rename_i h
    simp [h]

/-- C63: of a document that is not refused, all is used: the id, every network id, and every network said to be reached. -/
theorem C63_read (e : Elem) (t : NsaType) (h : parse e = some t) :
    t.doc.id = e.get "id" ∧ (∀ x, x ∈ t.doc.networkIds ↔ ∃ k ∈ e.kids, k.tag = "networkId" ∧ k.text = x) ∧
    ∀ n c, (n, c) ∈ t.doc.reach ↔ Tells e n (some c) := by
  unfold parse at h
  split at h
  · unfold NsaType.build at h
    obtain ⟨other, ho, rfl⟩ := Option.map_eq_some_iff.1 h
    refine ⟨rfl, fun x => ?_, fun n c => ?_⟩
    · simp only [NsaType.doc]
      split
      · simp only [Elem.findall, List.mem_map, List.mem_filter, decide_eq_true_eq, and_assoc]
      · rename_i hn
        rw [Elem.find, findIn_find] at hn
        simp only [Option.isSome_iff_ne_none, ne_eq, Decidable.not_not] at hn
        have hn := List.find?_eq_none.1 hn
        simp only [List.not_mem_nil, false_iff]
        rintro ⟨k, hk, ht, _⟩
        exact hn k hk (by simpa using ht)
    · simp only [NsaType.doc, List.mem_flatMap]
      unfold buildOthers at ho
      split at ho
      · obtain ⟨l, hl, rfl⟩ := Option.map_eq_some_iff.1 ho
        rw [allSome_some] at hl
        simp only [Option.getD_some]
        have key : ∀ o', o' ∈ l ↔ ∃ o ∈ e.kids, o.tag = "other" ∧ buildOther o = some o' := by
          intro o'
          have : o' ∈ l ↔ some o' ∈ (e.findall "other").map buildOther := by rw [hl]; simp
          rw [this]
          simp only [Elem.findall, List.mem_map, List.mem_filter, decide_eq_true_eq, and_assoc]
        constructor
        · rintro ⟨o', ho', hm⟩
          obtain ⟨o, hk, ht, hb⟩ := (key o').1 ho'
          unfold buildOther at hb
          cases hr : o.find reachTag with
          | none => rw [hr] at hb; simp only [Option.some.injEq] at hb; subst hb; simp at hm
          | some r =>
            rw [hr] at hb
            simp only at hb
            cases ha : allSome (r.kids.map buildReach) with
            | none => rw [ha] at hb; simp at hb
            | some rl =>
              rw [ha] at hb
              simp only [Option.some.injEq] at hb
              subst hb
              simp only [Option.getD_some] at hm
              have : some (n, c) ∈ r.kids.map buildReach := by rw [allSome_some.1 ha]; exact List.mem_map.2 ⟨_, hm, rfl⟩
              obtain ⟨k, hk2, hkb⟩ := List.mem_map.1 this
              rw [buildReach_eq, Option.map_eq_some_iff] at hkb
              obtain ⟨c', hc, he⟩ := hkb
              simp only [Prod.mk.injEq] at he
              exact ⟨o, hk, ht, r, by rw [← findIn_find]; exact hr, k, hk2, he.1, by rw [hc, he.2]⟩
        · rintro ⟨o, hk, ht, r, hr, k, hk2, hn, hc⟩
          have hmem : buildOther o ∈ (e.findall "other").map buildOther := List.mem_map.2 ⟨o, List.mem_filter.2 ⟨hk, by simpa using ht⟩, rfl⟩
          rw [hl] at hmem
          obtain ⟨o', ho', hb⟩ := List.mem_map.1 hmem
          refine ⟨o', ho', ?_⟩
          have hb := hb.symm
          unfold buildOther at hb
          rw [Elem.find, findIn_find, hr] at hb
          simp only at hb
          cases ha : allSome (r.kids.map buildReach) with
          | none => rw [ha] at hb; simp at hb
          | some rl =>
            rw [ha] at hb
            simp only [Option.some.injEq] at hb
            subst hb
            have : some (n, c) ∈ r.kids.map buildReach := List.mem_map.2 ⟨k, hk2, by rw [buildReach_eq, hc, hn]; rfl⟩
            rw [allSome_some.1 ha] at this
            simpa using this
      · rename_i hn
        simp only [Option.some.injEq] at ho
        subst ho
        simp only [Option.getD_none, List.not_mem_nil, false_and, exists_false, false_iff]
        rintro ⟨o, hk, ht, _⟩
        rw [Elem.find, findIn_find] at hn
        simp only [Option.isSome_iff_ne_none, ne_eq, Decidable.not_not] at hn
        exact List.find?_eq_none.1 hn o hk (by simpa using ht)
  · exact absurd h (by simp)

namespace Ex2
/-- A document with two `other`s. -/
def two : Elem := .mk nsaTag [("id", ['i'])] none
  [leaf "networkId" (some ['n']), .mk "other" [] none [.mk reachTag [] none [.mk "t" [("id", ['a']), ("cost", ['3'])] none []]],
   .mk "other" [] none [.mk reachTag [] none [.mk "t" [("id", ['b']), ("cost", ['4'])] none []]]]
end Ex2

/-- The document is read, and tells of both networks. -/
example : (parse Ex2.two).map (·.doc.reach) = some [(some ['a'], 3), (some ['b'], 4)] := by decide +kernel

end OpenNSA.Discovery
