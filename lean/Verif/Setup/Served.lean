import Verif.Setup.Lemmas
/-
Lemmas for C79: what the tree serves; how discovery documents change tree and registry.
-/
namespace OpenNSA.Setup
open Py OpenNSA.Registry OpenNSA.Discovery

variable {β : Type}

/-! ### Specification -/

/-- Parts of paths. -/
def pNsi : Str := ['N','S','I']
def pServices : Str := ['s','e','r','v','i','c','e','s']

/-- What is served: the path, in parts, and the resource that answers. `names` are the names of the resources for replies of providers. -/
inductive Serves (vc : Config.Vc) (names : List Str) : List Str → Kind → Prop
  /-- the provider service, for the hosts that are allowed -/
  | provider (r) : Serves vc names (pNsi :: pServices :: cs2 :: r) (.provider vc.allowedHosts)
  /-- replies of other providers -/
  | requester (x r) : x ∈ names → Serves vc names (pNsi :: pServices :: x :: r) (.requester none)
  /-- the REST service, if configured, for the hosts that are allowed -/
  | rest (r) : vc.rest = true → Serves vc names (connections :: r) (.rest vc.allowedHosts)
  /-- the topology of a network -/
  | nml (b r) : b ∈ vc.backends.map (·.1) → Serves vc names (pNsi :: nmlName (net vc.domain b) :: r) (.nml (net vc.domain b))
  /-- the discovery document -/
  | discovery (r) : Serves vc names (pNsi :: discoveryXml :: r) .discovery

/-! ### The tree -/

theorem mem_treeOf {vc : Config.Vc} {names : List Str} {q : List Seg} {k : Kind} : (q, k) ∈ treeOf vc names ↔
    (q = [] ∧ k = .plain) ∨ (q = [nsi] ∧ k = .plain) ∨ (q = [nsi, services] ∧ k = .plain) ∨ (q = [nsi, services, .bytes cs2] ∧ k = .provider vc.allowedHosts) ∨
    (q = [nsi, .text connections] ∧ k = .view) ∨ (vc.rest = true ∧ q = [.bytes connections] ∧ k = .rest vc.allowedHosts) ∨
    (∃ b ∈ vc.backends.map (·.1), q = [nsi, .bytes (nmlName (net vc.domain b))] ∧ k = .nml (net vc.domain b)) ∨
    (q = [nsi, .bytes discoveryXml] ∧ k = .discovery) ∨ (∃ x ∈ names, q = [nsi, services, .bytes x] ∧ k = .requester none) := by
  simp only [treeOf, fixed, nmlEntries, requesterEntries, List.mem_append, List.mem_cons, List.mem_map, List.not_mem_nil, or_false, Prod.mk.injEq]
  constructor
  · rintro ((((h | h) | ⟨n, ⟨b, hb, rfl⟩, h1, h2⟩) | h) | ⟨x, hx, h1, h2⟩)
    · rcases h with h | h | h | h | h <;> simp [h]
    · split at h
      · rename_i hr
        simp only [List.mem_singleton, Prod.mk.injEq] at h
        simp [h, hr]
      · cases h
    · refine .inr (.inr (.inr (.inr (.inr (.inr (.inl ⟨b.1, ⟨b, hb, rfl⟩, h1.symm, h2.symm⟩))))))
    · simp [h]
    · refine .inr (.inr (.inr (.inr (.inr (.inr (.inr (.inr ⟨x, hx, h1.symm, h2.symm⟩)))))))
  · rintro (h | h | h | h | h | ⟨hr, h⟩ | ⟨b, ⟨b, hb, rfl⟩, h1, h2⟩ | h | ⟨x, hx, h1, h2⟩)
    · simp [h]
    · simp [h]
    · simp [h]
    · simp [h]
    · simp [h]
    · simp [h, hr]
    · exact .inl (.inl (.inr ⟨_, ⟨b, hb, rfl⟩, h1.symm, h2.symm⟩))
    · simp [h]
    · exact .inr ⟨x, hx, h1.symm, h2.symm⟩

theorem nsi_eq : nsi = .bytes pNsi := rfl
theorem services_eq : services = .bytes pServices := rfl

/-- At a path there is one resource at most. -/
theorem treeOf_unique {vc : Config.Vc} {names : List Str} (hf : cs2 ∉ names) {q : List Seg} {k k' : Kind} (h : (q, k) ∈ treeOf vc names) (h' : (q, k') ∈ treeOf vc names) :
    k = k' := by
  rw [mem_treeOf] at h h'
  have hcn : pNsi ≠ connections := by decide
  have hsd : pServices ≠ discoveryXml := by decide
  have hns : ∀ n, nmlName n ≠ pServices := fun n h => nmlName_ne_services n (by rw [h]; rfl)
  have hnd := nmlName_ne_discovery
  simp only [nsi_eq, services_eq] at h h'
  rcases h with ⟨rfl, rfl⟩ | ⟨rfl, rfl⟩ | ⟨rfl, rfl⟩ | ⟨rfl, rfl⟩ | ⟨rfl, rfl⟩ | ⟨_, rfl, rfl⟩ | ⟨b, _, rfl, rfl⟩ | ⟨rfl, rfl⟩ | ⟨x, hx, rfl, rfl⟩ <;>
    simp only [List.cons.injEq, and_true, true_and, reduceCtorEq, false_and, and_false, Seg.bytes.injEq, exists_false, or_false, false_or, hcn, hsd, hcn.symm, hsd.symm,
      hns, (hns _).symm, hnd, (hnd _ _).symm] at h'
  · exact h'.symm
  · exact h'.symm
  · exact h'.symm
  · rcases h' with h' | ⟨y, hy, e, _⟩
    · exact h'.symm
    · exact absurd (e ▸ hy) hf
  · exact h'.symm
  · exact h'.2.symm
  · obtain ⟨b', _, e, rfl⟩ := h'
    rw [nmlName_inj e]
  · exact h'.symm
  · rcases h' with ⟨e, _⟩ | ⟨y, hy, _, rfl⟩
    · exact absurd (e ▸ hx) hf
    · rfl

theorem dget_of_unique {κ ν : Type} [DecidableEq κ] {d : List (κ × ν)} (hu : ∀ k v v', (k, v) ∈ d → (k, v') ∈ d → v = v') {k : κ} {v : ν} :
    dget d k = some v ↔ (k, v) ∈ d := by
  refine ⟨dget_some_mem, fun h => ?_⟩
  cases hd : dget d k with
  | none => exact absurd rfl (dget_none.1 hd _ h)
  | some w => rw [hu k w v (dget_some_mem hd) h]

theorem dget_treeOf {vc : Config.Vc} {names : List Str} (hf : cs2 ∉ names) {q : List Seg} {k : Kind} :
    dget (treeOf vc names) q = some k ↔ (q, k) ∈ treeOf vc names := dget_of_unique fun _ _ _ h h' => treeOf_unique hf h h'

theorem walk_final {t : Tree} {pre : List Seg} {k : Kind} (hk : k.final = true) (r : List Str) : walk t pre k r = some k := by
  cases r with
  | nil => rfl
  | cons a r => simp [walk, hk]

theorem served_tree {vc : Config.Vc} {names : List Str} (hf : cs2 ∉ names) (path : Str) (k : Kind) :
    served (treeOf vc names) path = some k ↔ Serves vc names (parts path) k := by
  have hserved : served (treeOf vc names) path = some k ↔ walk (treeOf vc names) [] .plain (parts path) = some k ∧ k ≠ .plain := by
    unfold served
    split
    · rename_i h
      simp only [reduceCtorEq, false_iff, h, Option.some.injEq, not_and]
      rintro rfl
      simp
    · rename_i h
      constructor
      · intro h'
        refine ⟨h', ?_⟩
        rintro rfl
        exact h h'
      · exact fun h' => h'.1
  rw [hserved]
  have hcn : pNsi ≠ connections := by decide
  have hcx : pServices ≠ discoveryXml := by decide
  have step : ∀ (pre : List Seg) (a : Str) (r : List Str) (k' : Kind), (pre ++ [.bytes a], k') ∈ treeOf vc names →
      walk (treeOf vc names) pre .plain (a :: r) = walk (treeOf vc names) (pre ++ [.bytes a]) k' r := by
    intro pre a r k' h
    simp only [walk, Kind.final, Bool.false_eq_true, if_false, (dget_treeOf hf).2 h]
  have stuck : ∀ (pre : List Seg) (a : Str) (r : List Str), walk (treeOf vc names) pre .plain (a :: r) = some k →
      ∃ k', (pre ++ [.bytes a], k') ∈ treeOf vc names ∧ walk (treeOf vc names) (pre ++ [.bytes a]) k' r = some k := by
    intro pre a r h
    simp only [walk, Kind.final, Bool.false_eq_true, if_false] at h
    split at h
    · cases h
    · rename_i k' hd
      exact ⟨k', (dget_treeOf hf).1 hd, h⟩
  constructor
  · rintro ⟨h, hk⟩
    generalize parts path = ps at h
    match ps with
    | [] => simp only [walk, Option.some.injEq] at h; exact absurd h.symm hk
    | a :: r =>
      obtain ⟨k1, hm, h⟩ := stuck _ _ _ h
      rw [mem_treeOf] at hm
      simp only [List.nil_append, List.cons.injEq, and_true, reduceCtorEq, false_and, and_false, nsi_eq, Seg.bytes.injEq, exists_false, or_false, false_or] at hm
      rcases hm with ⟨rfl, rfl⟩ | ⟨hr, rfl, rfl⟩
      · match r with
        | [] => simp only [walk, Option.some.injEq] at h; exact absurd h.symm hk
        | b :: r =>
          obtain ⟨k2, hm, h⟩ := stuck _ _ _ h
          rw [mem_treeOf] at hm
          simp only [List.nil_append, List.cons_append, List.cons.injEq, and_true, true_and, reduceCtorEq, false_and, and_false, nsi_eq, services_eq, Seg.bytes.injEq,
            exists_false, or_false, false_or] at hm
          rcases hm with ⟨rfl, rfl⟩ | ⟨x, hx, rfl, rfl⟩ | ⟨rfl, rfl⟩
          · match r with
            | [] => simp only [walk, Option.some.injEq] at h; exact absurd h.symm hk
            | c :: r =>
              obtain ⟨k3, hm, h⟩ := stuck _ _ _ h
              rw [mem_treeOf] at hm
              simp only [List.nil_append, List.cons_append, List.cons.injEq, and_true, true_and, reduceCtorEq, false_and, and_false, nsi_eq, services_eq, Seg.bytes.injEq,
                exists_false, false_or] at hm
              rcases hm with ⟨rfl, rfl⟩ | ⟨x, hx, rfl, rfl⟩
              · rw [walk_final rfl] at h
                cases h
                exact .provider _
              · rw [walk_final rfl] at h
                cases h
                exact .requester _ _ hx
          · rw [walk_final rfl] at h
            cases h
            exact .nml _ _ hx
          · rw [walk_final rfl] at h
            cases h
            exact .discovery _
      · rw [walk_final rfl] at h
        cases h
        exact .rest _ hr
  · intro h
    have m1 : ([] ++ [Seg.bytes pNsi], Kind.plain) ∈ treeOf vc names := mem_treeOf.2 (.inr (.inl ⟨rfl, rfl⟩))
    have m2 : ([] ++ [Seg.bytes pNsi] ++ [.bytes pServices], Kind.plain) ∈ treeOf vc names := mem_treeOf.2 (.inr (.inr (.inl ⟨rfl, rfl⟩)))
    generalize parts path = ps at h
    cases h with
    | provider r =>
      refine ⟨?_, by simp⟩
      rw [step _ _ _ _ m1, step _ _ _ _ m2, step _ _ _ (.provider vc.allowedHosts) (mem_treeOf.2 (.inr (.inr (.inr (.inl ⟨rfl, rfl⟩))))), walk_final rfl]
    | requester x r hx =>
      refine ⟨?_, by simp⟩
      rw [step _ _ _ _ m1, step _ _ _ _ m2, step _ _ _ (.requester none) (mem_treeOf.2 (.inr (.inr (.inr (.inr (.inr (.inr (.inr (.inr ⟨x, hx, rfl, rfl⟩))))))))),
        walk_final rfl]
    | rest r hr =>
      refine ⟨?_, by simp⟩
      rw [step _ _ _ (.rest vc.allowedHosts) (mem_treeOf.2 (.inr (.inr (.inr (.inr (.inr (.inl ⟨hr, rfl, rfl⟩))))))), walk_final rfl]
    | nml b r hb =>
      refine ⟨?_, by simp⟩
      rw [step _ _ _ _ m1, step _ _ _ (.nml (net vc.domain b)) (mem_treeOf.2 (.inr (.inr (.inr (.inr (.inr (.inr (.inl ⟨b, hb, rfl, rfl⟩)))))))), walk_final rfl]
    | discovery r =>
      refine ⟨?_, by simp⟩
      rw [step _ _ _ _ m1, step _ _ _ .discovery (mem_treeOf.2 (.inr (.inr (.inr (.inr (.inr (.inr (.inr (.inl ⟨rfl, rfl⟩))))))))), walk_final rfl]

/-- Another resource for replies. -/
theorem setupSOAP_tree {vc : Config.Vc} {names : List Str} (hf : cs2 ∉ names) (x : Str) :
    setupSOAPResource (treeOf vc names) x (.requester none) = if x = cs2 ∨ x ∈ names then none else some (treeOf vc (names ++ [x])) := by
  have h1 : descend (treeOf vc names) [] nsi = treeOf vc names := by
    unfold descend
    simp only [List.nil_append]
    rw [(dget_treeOf (vc := vc) (k := .plain) hf).2 (mem_treeOf.2 (.inr (.inl ⟨rfl, rfl⟩)))]
  have h2 : descend (treeOf vc names) [nsi] services = treeOf vc names := by
    unfold descend
    simp only [List.nil_append, List.cons_append]
    rw [(dget_treeOf (vc := vc) (k := .plain) hf).2 (mem_treeOf.2 (.inr (.inr (.inl ⟨rfl, rfl⟩))))]
  unfold setupSOAPResource
  simp only [h1, h2]
  have hmem : ∀ k, ([nsi, services, .bytes x], k) ∈ treeOf vc names → x = cs2 ∨ x ∈ names := by
    intro k h
    rw [mem_treeOf] at h
    simp only [List.cons.injEq, and_true, true_and, reduceCtorEq, false_and, and_false, Seg.bytes.injEq, exists_false, false_or] at h
    rcases h with ⟨h, _⟩ | ⟨y, hy, rfl, _⟩
    · exact .inl h
    · exact .inr hy
  by_cases hx : x = cs2 ∨ x ∈ names
  · rw [if_pos hx, if_pos]
    have : ∃ k, ([nsi, services, .bytes x], k) ∈ treeOf vc names := by
      rcases hx with rfl | hx
      · exact ⟨_, mem_treeOf.2 (.inr (.inr (.inr (.inl ⟨rfl, rfl⟩))))⟩
      · exact ⟨_, mem_treeOf.2 (.inr (.inr (.inr (.inr (.inr (.inr (.inr (.inr ⟨x, hx, rfl, rfl⟩)))))))) ⟩
    obtain ⟨k, hk⟩ := this
    simp [dmem, (dget_treeOf hf).2 hk]
  · rw [if_neg hx]
    have hnone : dget (treeOf vc names) [nsi, services, .bytes x] = none := by
      cases hd : dget (treeOf vc names) [nsi, services, .bytes x] with
      | none => rfl
      | some k => exact absurd (hmem k (dget_some_mem hd)) hx
    rw [if_neg (by simp [dmem, hnone]), putChild_new]
    · simp [treeOf, requesterEntries]
    · intro e he
      obtain ⟨q, k⟩ := e
      rintro ⟨s, hs⟩
      simp only [List.cons_append, List.nil_append] at hs
      have he' := mem_treeOf.1 he
      subst hs
      simp only [List.cons.injEq, true_and, reduceCtorEq, false_and, and_false, exists_false, false_or, Seg.bytes.injEq] at he'
      rcases he' with ⟨⟨h, _⟩, _⟩ | ⟨y, hy, ⟨rfl, _⟩, _⟩
      · exact hx (.inl h)
      · exact hx (.inr hy)

end OpenNSA.Setup
