import Verif.LinkVector.Lemmas
namespace OpenNSA
open Py

theorem lvInv_step {black : List Str} {mc : Int} {lv : LinkVector} {o : LvOp} (h : LvInv black mc lv) (hg : o.Good black) :
    LvInv black mc (lv.step o).1 := by
  have key : ∀ lv' : LinkVector, NonNeg lv'.cfg.vectors → (∀ n ∈ lv'.localNets, n ∉ lv'.cfg.black) →
      lv'.cfg.black = black → lv'.cfg.maxCost = mc → LvInv black mc lv'.calculate.1 := by
    intro lv' h1 h2 h3 h4
    obtain ⟨c1, _, c2, c3⟩ := calculate_spec lv' h1 h2
    exact ⟨c1, by rw [c2]; exact h1, by rw [c2, c3]; exact h2, by rw [c2]; exact h3, by rw [c2]; exact h4⟩
  cases o with
  | addLocal n =>
    simp only [LinkVector.step]
    split
    · exact h
    · apply key
      · exact h.nonneg
      · intro m hm
        simp only [List.mem_append, List.mem_singleton] at hm
        rcases hm with hm | rfl
        · exact h.notBlack m hm
        · simp only [h.black]; exact hg
      · exact h.black
      · exact h.maxCost
  | update n p vec =>
    exact key _ (nonneg_update h.nonneg hg) h.notBlack h.black h.maxCost
  | delete n p =>
    simp only [LinkVector.step]
    split
    · exact h
    · exact key _ (nonneg_del h.nonneg) h.notBlack h.black h.maxCost

theorem lvInv_run (black : List Str) (mc : Int) (ops : List LvOp) (hg : ∀ o ∈ ops, o.Good black) :
    LvInv black mc (lvRun black mc ops) := by
  have : ∀ (ops : List LvOp) (lv : LinkVector), (∀ o ∈ ops, o.Good black) → LvInv black mc lv →
      LvInv black mc (ops.foldl (fun lv o => (lv.step o).1) lv) := by
    intro ops
    induction ops with
    | nil => intro lv _ h; exact h
    | cons o os ih =>
      intro lv hg h
      exact ih _ (fun x hx => hg x (by simp [hx])) (lvInv_step h (hg o (by simp)))
  refine this ops _ hg ⟨?_, ?_, ?_, rfl, rfl⟩
  · intro n hn; simp [LinkVector.new] at hn
  · rintro u port v k ⟨w, hw, _⟩; simp [LinkVector.new] at hw
  · intro n hn; simp [LinkVector.new] at hn

/-- The tables of a local network satisfy the search result. -/
theorem lvInv_final {black : List Str} {mc : Int} {lv : LinkVector} (h : LvInv black mc lv) {src : Str} (hs : src ∈ lv.localNets) :
    ∃ d p vis, dget lv.netPrev src = some p ∧ Final lv.cfg src vis d p ∧
      vis.length ≤ (allNetworks lv.cfg lv.localNets).length := by
  obtain ⟨d, p, hd, _, hp⟩ := h.fresh src hs
  obtain ⟨d', p', vis, hd', hf, hl⟩ := dijkstra_spec h.nonneg hs (h.notBlack src hs)
  rw [hd] at hd'
  simp only [Option.some.injEq, Prod.mk.injEq] at hd'
  obtain ⟨rfl, rfl⟩ := hd'
  exact ⟨d, p, vis, hp, hf, hl⟩

/-- All answers of `path` with enough fuel. -/
theorem path_answers {black : List Str} {mc : Int} {lv : LinkVector} (h : LvInv black mc lv) {src net : Str}
    (hs : src ∈ lv.localNets) {fuel : Nat} (hf : (allNetworks lv.cfg lv.localNets).length ≤ fuel) :
    (lv.path fuel net src = .noPath ∧ ∀ hops c, Route lv.cfg src net hops c → net ≠ src → ¬ c ≤ mc) ∨
    (∃ hops c, lv.path fuel net src = .res (.hops hops) ∧ Route lv.cfg src net hops c ∧ hops ≠ [] ∧ c ≤ mc ∧ net ≠ src ∧
      ∀ hops' c', Route lv.cfg src net hops' c' → c' ≤ mc → c ≤ c') := by
  obtain ⟨d, p, vis, hp, hfin, hl⟩ := lvInv_final h hs
  unfold LinkVector.path
  rw [if_neg (by simpa using hs), hp]
  simp only
  rcases hpn : dget p net with _ | hop
  · left
    refine ⟨rfl, ?_⟩
    intro hops c hr hne hc
    rw [← h.maxCost] at hc
    obtain ⟨c', hc', _⟩ := hfin.optimal h.nonneg hr hne hc
    obtain ⟨x, hx⟩ := (hfin.prev_iff net).mpr ⟨c', hc'⟩
    rw [hpn] at hx; simp at hx
  · right
    obtain ⟨c, hc⟩ := (hfin.prev_iff net).mp ⟨hop, hpn⟩
    obtain ⟨a1, _, a3, _⟩ := hfin.inv.snd net c hc
    obtain ⟨hops, h1, h2, h3⟩ := hfin.path vis.length net c hc (by
      intro x port hx
      obtain ⟨_, _, _, x', port', k, e4, _, e6, _⟩ := hfin.inv.snd net c hc
      rw [e4] at hx; simp at hx
      obtain ⟨rfl, rfl⟩ := hx
      exact List.idxOf_lt_length_iff.mpr e6) fuel (by omega) []
    refine ⟨hops, c, by simp [h1], h2, h3, by rw [← h.maxCost]; exact a3, a1, ?_⟩
    intro hops' c' hr hc'
    rw [← h.maxCost] at hc'
    obtain ⟨c'', e1, e2⟩ := hfin.optimal h.nonneg hr a1 hc'
    rw [hc] at e1
    simp only [Option.some.injEq] at e1
    subst e1
    exact e2

/-- C13. After any history of updates with non-negative costs, every path returned is a real route from the asked source to
the asked network, through announced vectors only, avoiding blacklisted networks, not passing the source again, and within
the cost limit. -/
theorem C13_path_is_route (black : List Str) (mc : Int) (ops : List LvOp) (hg : ∀ o ∈ ops, o.Good black)
    (fuel : Nat) (net src : Str) (hops : List (Str × Str)) (hp : (lvRun black mc ops).path fuel net src = .res (.hops hops)) :
    src ∈ (lvRun black mc ops).localNets ∧ (lvRun black mc ops).cfg.black = black ∧
    ∃ c, Route (lvRun black mc ops).cfg src net hops c ∧ c ≤ mc ∧ hops ≠ [] ∧ net ≠ src := by
  have h := lvInv_run black mc ops hg
  have hs : src ∈ (lvRun black mc ops).localNets := by
    rcases Classical.em (src ∈ (lvRun black mc ops).localNets) with h' | h'
    · exact h'
    · unfold LinkVector.path at hp; rw [if_pos (by simpa using h')] at hp; simp at hp
  refine ⟨hs, h.black, ?_⟩
  -- the same answer is given with more fuel
  have hp' : (lvRun black mc ops).path (fuel + (allNetworks (lvRun black mc ops).cfg (lvRun black mc ops).localNets).length) net src
      = .res (.hops hops) := by
    unfold LinkVector.path at hp ⊢
    rw [if_neg (by simpa using hs)] at hp ⊢
    rcases hpr : dget (lvRun black mc ops).netPrev src with _ | p
    · rw [hpr] at hp; simp at hp
    · rw [hpr] at hp
      simp only at hp ⊢
      rcases hpn : dget p net with _ | hop
      · rw [hpn] at hp; simp at hp
      · rw [hpn] at hp
        simp only [PathAns.res.injEq] at hp ⊢
        exact pathLoop_mono _ _ _ _ hp _ (by omega)
  rcases path_answers (net := net) h hs (fuel := fuel + (allNetworks (lvRun black mc ops).cfg (lvRun black mc ops).localNets).length)
      (by omega) with ⟨h1, _⟩ | ⟨hops', c, h1, h2, h3, h4, h5, _⟩
  · rw [hp'] at h1; simp at h1
  · rw [hp'] at h1
    simp only [PathAns.res.injEq, PathRes.hops.injEq] at h1
    subst h1
    exact ⟨c, h2, h4, h3, h5⟩

/-- C14. If a route within the limit exists, a path is returned, and no route is cheaper. `fuel` bounds the iterations of the
loop in `path`; it needs no more than the number of networks. -/
theorem C14_cheapest_found (black : List Str) (mc : Int) (ops : List LvOp) (hg : ∀ o ∈ ops, o.Good black) (src net : Str)
    (hs : src ∈ (lvRun black mc ops).localNets) (hne : net ≠ src) (hops : List (Str × Str)) (c : Int)
    (hr : Route (lvRun black mc ops).cfg src net hops c) (hc : c ≤ mc) :
    ∃ hops' c', (∀ fuel, (allNetworks (lvRun black mc ops).cfg (lvRun black mc ops).localNets).length ≤ fuel →
        (lvRun black mc ops).path fuel net src = .res (.hops hops')) ∧
      Route (lvRun black mc ops).cfg src net hops' c' ∧
      ∀ hops'' c'', Route (lvRun black mc ops).cfg src net hops'' c'' → c' ≤ c'' := by
  have h := lvInv_run black mc ops hg
  rcases path_answers (net := net) h hs (Nat.le_refl _) with ⟨_, h2⟩ | ⟨hops', c', h1, h2, _, h4, _, h6⟩
  · exact absurd hc (h2 hops c hr hne)
  · refine ⟨hops', c', ?_, h2, ?_⟩
    · intro fuel hf
      unfold LinkVector.path at h1 ⊢
      rw [if_neg (by simpa using hs)] at h1 ⊢
      rcases hpr : dget (lvRun black mc ops).netPrev src with _ | p
      · rw [hpr] at h1; simp at h1
      · rw [hpr] at h1
        simp only at h1 ⊢
        rcases hpn : dget p net with _ | hop
        · rw [hpn] at h1; simp at h1
        · rw [hpn] at h1
          simp only [PathAns.res.injEq] at h1 ⊢
          exact pathLoop_mono _ _ _ _ h1 _ hf
    · intro hops'' c'' hr''
      by_cases hle : c'' ≤ mc
      · exact h6 hops'' c'' hr'' hle
      · omega

/-- C15 (partial: costs are non-negative and no local network is blacklisted; see `C15_fails`). The loop of `path` ends
within as many iterations as there are networks, with a path, or the answer is 'no path' or 'not a local network'. -/
theorem C15_path_ends_partial (black : List Str) (mc : Int) (ops : List LvOp) (hg : ∀ o ∈ ops, o.Good black) (net src : Str)
    (fuel : Nat) (hf : (allNetworks (lvRun black mc ops).cfg (lvRun black mc ops).localNets).length ≤ fuel) :
    (lvRun black mc ops).path fuel net src ≠ .res .outOfFuel ∧ (lvRun black mc ops).path fuel net src ≠ .res .keyError ∧
    ((lvRun black mc ops).path fuel net src = .notLocal ↔ src ∉ (lvRun black mc ops).localNets) := by
  by_cases hs : src ∈ (lvRun black mc ops).localNets
  · rcases path_answers (net := net) (lvInv_run black mc ops hg) hs hf with ⟨h1, _⟩ | ⟨hops', c', h1, _⟩
    · rw [h1]; simp [hs]
    · rw [h1]; simp [hs]
  · have : (lvRun black mc ops).path fuel net src = .notLocal := by
      unfold LinkVector.path; rw [if_pos (by simpa using hs)]
    rw [this]; simp [hs]

def lvS : Str := ['S']
def lvA : Str := ['A']
def lvB : Str := ['B']
def lvC : Str := ['C']
def lvD : Str := ['D']

/-- A history with a negative cost. -/
def negOps : List LvOp :=
  [.update lvS ['p'] [(lvA, 1)], .update lvA ['q'] [(lvB, 1)], .update lvB ['r'] [(lvA, -5)], .addLocal lvS]

/-- After `negOps`, the predecessors of `A` and `B` point at each other. -/
theorem negOps_prev : lvS ∈ (lvRun [] 3 negOps).localNets ∧ ∃ p, dget (lvRun [] 3 negOps).netPrev lvS = some p ∧
    dget p lvA = some (lvB, ['r']) ∧ dget p lvB = some (lvA, ['q']) := by
  refine ⟨?_, ?_⟩
  · simp [lvRun, negOps, LinkVector.step, LinkVector.new, LinkVector.calculate, calcOver, dijkstra, dijLoop, allNetworks,
      updateTable, dget, dset, mergeVec, lvS, lvA, lvB, relaxFrom, relaxOne, minCost, candidates, dropNet]
  · simp [lvRun, negOps, LinkVector.step, LinkVector.new, LinkVector.calculate, calcOver, dijkstra, dijLoop, allNetworks,
      updateTable, dget, dset, mergeVec, lvS, lvA, lvB, relaxFrom, relaxOne, minCost, candidates, dropNet]

/-- C15 is violated: with a negative cost the loop of `path` never ends. -/
theorem C15_fails : ∃ ops : List LvOp, ∃ net src, ∀ fuel, (lvRun [] 3 ops).path fuel net src = .res .outOfFuel := by
  obtain ⟨hs, p, hp, ha, hb⟩ := negOps_prev
  have key : ∀ (fuel : Nat) (acc : List (Str × Str)), pathLoop p lvS fuel lvA acc = .outOfFuel ∧
      pathLoop p lvS fuel lvB acc = .outOfFuel := by
    intro fuel
    induction fuel with
    | zero => intro acc; simp [pathLoop]
    | succ n ih =>
      intro acc
      constructor
      · unfold pathLoop; rw [ha]; simp only; rw [if_neg (by decide)]; exact (ih _).2
      · unfold pathLoop; rw [hb]; simp only; rw [if_neg (by decide)]; exact (ih _).1
  refine ⟨negOps, lvB, lvS, ?_⟩
  intro fuel
  unfold LinkVector.path
  rw [if_neg (by simpa using hs), hp]
  simp only [hb]
  rw [(key fuel []).2]

/-! ### C16 -/

theorem calcOver_cfg (lv : LinkVector) (l : List Str) : (calcOver lv l).1.cfg = lv.cfg := by
  induction l generalizing lv with
  | nil => rfl
  | cons n ns ih =>
    unfold calcOver
    split
    · rfl
    · rw [ih]

/-- Exact effect of an update on the table: existing destinations keep their cost, other ports are untouched. -/
theorem C16_update_exact (lv : LinkVector) (n p : Str) (vec : Vec) (n' p' d : Str) :
    (lv.step (.update n p vec)).1.costOf n' p' d =
      if n' = n ∧ p' = p then (match lv.costOf n p d with | some k => some k | none => dget vec d) else lv.costOf n' p' d := by
  simp only [LinkVector.costOf, LinkVector.step, LinkVector.calculate, calcOver_cfg, updateTable]
  rcases ho : dget lv.cfg.vectors (n, p) with _ | old
  · simp only [dget_dset, Prod.mk.injEq]
    by_cases h : n' = n ∧ p' = p
    · obtain ⟨rfl, rfl⟩ := h; simp
    · have h' : ¬ (n = n' ∧ p = p') := fun e => h ⟨e.1.symm, e.2.symm⟩
      simp [h, h']
  · simp only [dget_dset, Prod.mk.injEq]
    by_cases h : n' = n ∧ p' = p
    · obtain ⟨rfl, rfl⟩ := h; simp [mergeVec_spec]; cases dget old d <;> rfl
    · have h' : ¬ (n = n' ∧ p = p') := fun e => h ⟨e.1.symm, e.2.symm⟩
      simp [h, h']

/-- C16 (partial: only for destinations not yet announced over that port; see `C16_fails`). After an update, the table holds
the announced cost, and other ports are unaffected. -/
theorem C16_update_partial (lv : LinkVector) (n p : Str) (vec : Vec) (d : Str) (k : Int) (hk : dget vec d = some k)
    (hnew : lv.costOf n p d = none) :
    (lv.step (.update n p vec)).1.costOf n p d = some k ∧
    ∀ n' p' d', ¬ (n' = n ∧ p' = p) → (lv.step (.update n p vec)).1.costOf n' p' d' = lv.costOf n' p' d' := by
  constructor
  · rw [C16_update_exact, if_pos ⟨rfl, rfl⟩, hnew]; exact hk
  · intro n' p' d' h; rw [C16_update_exact, if_neg h]

/-- C16 is violated: an announced cost that differs from the stored one is ignored, so the cheapest route is not used. -/
theorem C16_fails : ∃ (ops : List LvOp) (n p d : Str) (k : Int),
    ((lvRun [] 9 ops).step (.update n p [(d, k)])).1.costOf n p d ≠ some k := by
  refine ⟨[.addLocal lvS, .update lvS ['p'] [(lvA, 5)]], lvS, ['p'], lvA, 1, ?_⟩
  rw [C16_update_exact, if_pos ⟨rfl, rfl⟩]
  simp [lvRun, LinkVector.step, LinkVector.new, LinkVector.calculate, calcOver_cfg, LinkVector.costOf, updateTable, dset, dget]

/-- C16. Deleting a port removes exactly its announcements. -/
theorem C16_delete_exact (lv : LinkVector) (n p n' p' d : Str) :
    (lv.step (.delete n p)).1.costOf n' p' d = if n' = n ∧ p' = p then none else lv.costOf n' p' d := by
  simp only [LinkVector.costOf, LinkVector.step]
  rcases ho : dget lv.cfg.vectors (n, p) with _ | old
  · by_cases h : n' = n ∧ p' = p
    · obtain ⟨rfl, rfl⟩ := h; simp [ho]
    · simp [h]
  · simp only [LinkVector.calculate, calcOver_cfg, dget_ddel, Prod.mk.injEq]
    by_cases h : n' = n ∧ p' = p
    · obtain ⟨rfl, rfl⟩ := h; simp
    · have h' : ¬ (n = n' ∧ p = p') := fun e => h ⟨e.1.symm, e.2.symm⟩
      simp [h, h']

theorem Route.hops_announced {g : LvCfg} {src v : Str} {hops : List (Str × Str)} {c : Int} (h : Route g src v hops c) :
    ∀ x ∈ hops, ∃ vec, (x, vec) ∈ g.vectors := by
  induction h with
  | start => simp
  | hop _ ha _ _ ih =>
    intro x hx
    rcases List.mem_append.mp hx with hx | hx
    · exact ih x hx
    · simp at hx; subst hx
      obtain ⟨vec, hv, _⟩ := ha
      exact ⟨vec, hv⟩

/-- C16. Right after a port is deleted, no returned route uses it, whatever the history. -/
theorem C16_deleted_not_used (black : List Str) (mc : Int) (ops : List LvOp) (hg : ∀ o ∈ ops, o.Good black) (n p : Str)
    (fuel : Nat) (net src : Str) (hops : List (Str × Str))
    (hp : (lvRun black mc (ops ++ [.delete n p])).path fuel net src = .res (.hops hops)) : (n, p) ∉ hops := by
  obtain ⟨_, _, c, hr, _⟩ := C13_path_is_route black mc (ops ++ [.delete n p]) (by
    intro o ho
    rcases List.mem_append.mp ho with ho | ho
    · exact hg o ho
    · simp at ho; subst ho; trivial) fuel net src hops hp
  intro hmem
  obtain ⟨vec, hv⟩ := hr.hops_announced _ hmem
  simp only [lvRun, List.foldl_append, List.foldl_cons, List.foldl_nil, LinkVector.step] at hv
  split at hv
  · rename_i hd
    exact absurd hv (fun h => by
      have : ∀ (V : Vectors), dget V (n, p) = none → ((n, p), vec) ∉ V := by
        intro V hV hm
        exact (dget_none.mp hV) _ hm rfl
      exact this _ hd h)
  · simp only [LinkVector.calculate, calcOver_cfg] at hv
    have := List.mem_filter.mp hv
    simp at this

/-- A history meeting the hypotheses of C13-C16: a cheap two-hop route beats a dear direct one. -/
def goodOps : List LvOp :=
  [.addLocal lvS, .update lvS ['p'] [(lvA, 1), (lvB, 7)], .update lvA ['q'] [(lvB, 2)], .update lvS ['x'] [(lvC, 1)],
   .update lvC ['y'] [(lvB, 1)], .delete lvS ['x']]

example : (∀ o ∈ goodOps, o.Good [lvD]) ∧ Route (lvRun [lvD] 5 goodOps).cfg lvS lvB [(lvS, ['p']), (lvA, ['q'])] 3 := by
  constructor
  · intro o ho
    simp only [goodOps, List.mem_cons, List.not_mem_nil, or_false] at ho
    rcases ho with rfl | rfl | rfl | rfl | rfl | rfl <;> simp [LvOp.Good, lvS, lvA, lvB, lvC, lvD]
  · have e : (lvRun [lvD] 5 goodOps).cfg.vectors =
        [((lvS, ['p']), [(lvA, 1), (lvB, 7)]), ((lvA, ['q']), [(lvB, 2)]), ((lvC, ['y']), [(lvB, 1)])] := by
      simp [lvRun, goodOps, LinkVector.step, LinkVector.new, LinkVector.calculate, calcOver_cfg, updateTable, dset, dget, ddel,
        lvS, lvA, lvB, lvC]
    have b : (lvRun [lvD] 5 goodOps).cfg.black = [lvD] := (lvInv_run [lvD] 5 goodOps (by
      intro o ho
      simp only [goodOps, List.mem_cons, List.not_mem_nil, or_false] at ho
      rcases ho with rfl | rfl | rfl | rfl | rfl | rfl <;> simp [LvOp.Good, lvS, lvA, lvB, lvC, lvD])).black
    have h1 : Route (lvRun [lvD] 5 goodOps).cfg lvS lvA [(lvS, ['p'])] 1 := by
      have := Route.hop (g := (lvRun [lvD] 5 goodOps).cfg) (src := lvS) (v := lvA) (port := ['p']) (k := 1) .start
        ⟨[(lvA, 1), (lvB, 7)], by rw [e]; simp, by simp⟩ (by rw [b]; decide) (by decide)
      simpa using this
    have := Route.hop (v := lvB) (port := ['q']) (k := 2) h1 ⟨[(lvB, 2)], by rw [e]; simp, by simp⟩ (by rw [b]; decide) (by decide)
    simpa using this

end OpenNSA
