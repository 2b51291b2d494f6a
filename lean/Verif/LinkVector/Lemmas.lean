import Verif.LinkVector.Spec
namespace OpenNSA
open Py

/-! ### minimum -/

theorem minFold_spec (l : List (Int × Str)) : ∀ m : Int × Str,
    let r := l.foldl (fun m x => if x.1 < m.1 || (x.1 = m.1 && strLt x.2 m.2) then x else m) m
    (r = m ∨ r ∈ l) ∧ r.1 ≤ m.1 ∧ ∀ x ∈ l, r.1 ≤ x.1 := by
  induction l with
  | nil => intro m; simp
  | cons y ys ih =>
    intro m
    simp only [List.foldl_cons]
    split
    · rename_i h
      simp only [Bool.or_eq_true, decide_eq_true_eq, Bool.and_eq_true] at h
      obtain ⟨h1, h2, h3⟩ := ih y
      refine ⟨?_, by omega, ?_⟩
      · rcases h1 with h1 | h1
        · right; rw [h1]; simp
        · right; exact List.mem_cons_of_mem _ h1
      · intro x hx
        rcases List.mem_cons.mp hx with rfl | hx
        · exact h2
        · exact h3 x hx
    · rename_i h
      simp only [Bool.or_eq_true, decide_eq_true_eq, Bool.and_eq_true] at h
      obtain ⟨h1, h2, h3⟩ := ih m
      refine ⟨?_, h2, ?_⟩
      · rcases h1 with h1 | h1
        · exact Or.inl h1
        · right; exact List.mem_cons_of_mem _ h1
      · intro x hx
        rcases List.mem_cons.mp hx with rfl | hx
        · omega
        · exact h3 x hx

theorem minCost_some {l : List (Int × Str)} {m : Int × Str} (h : minCost l = some m) : m ∈ l ∧ ∀ x ∈ l, m.1 ≤ x.1 := by
  cases l with
  | nil => simp [minCost] at h
  | cons y ys =>
    simp only [minCost, Option.some.injEq] at h
    have := minFold_spec ys y
    simp only [h] at this
    obtain ⟨h1, h2, h3⟩ := this
    refine ⟨?_, ?_⟩
    · rcases h1 with h1 | h1
      · simp [h1]
      · simp [h1]
    · intro x hx
      rcases List.mem_cons.mp hx with rfl | hx
      · exact h2
      · exact h3 x hx

theorem minCost_none {l : List (Int × Str)} : minCost l = none ↔ l = [] := by
  cases l <;> simp [minCost]

theorem mem_candidates {unv : List Str} {dist : Dist} {c : Int} {u : Str} :
    (c, u) ∈ candidates unv dist ↔ (u, c) ∈ dist ∧ u ∈ unv := by
  unfold candidates
  simp only [List.mem_map, List.mem_filter, decide_eq_true_eq]
  constructor
  · rintro ⟨⟨a, b⟩, ⟨h1, h2⟩, h3⟩
    simp only [Prod.mk.injEq] at h3
    obtain ⟨rfl, rfl⟩ := h3
    exact ⟨h1, h2⟩
  · rintro ⟨h1, h2⟩
    exact ⟨(u, c), ⟨h1, h2⟩, rfl⟩

/-! ### relaxation -/

/-- Distance of a network, the source having distance 0. -/
def dS (dist : Dist) (x : Str) : Int := (dget dist x).getD 0

/-- Invariant of `dist` and `prev` relative to the visited networks (in order of visiting). -/
structure RInv (g : LvCfg) (src : Str) (vis : List Str) (dist : Dist) (prev : Prev) : Prop where
  nd : (dkeys dist).Nodup
  noSrc : dget dist src = none
  visd : ∀ x ∈ vis, x = src ∨ ∃ c, dget dist x = some c
  snd : ∀ v c, dget dist v = some c → v ≠ src ∧ v ∉ g.black ∧ c ≤ g.maxCost ∧ ∃ x port k,
    dget prev v = some (x, port) ∧ Announced g.vectors x port v k ∧ x ∈ vis ∧ c = dS dist x + k ∧
      (v ∈ vis → vis.idxOf x < vis.idxOf v)
  prevk : ∀ v, dget dist v = none → dget prev v = none
  ord : ∀ x ∈ vis, ∀ v c, v ∉ vis → dget dist v = some c → dS dist x ≤ c

/-- Distances of visited networks kept, other distances only get smaller. -/
structure Better (vis : List Str) (d d' : Dist) : Prop where
  keep : ∀ x ∈ vis, dget d' x = dget d x
  mono : ∀ v c, dget d v = some c → ∃ c', dget d' v = some c' ∧ c' ≤ c

theorem Better.refl (vis : List Str) (d : Dist) : Better vis d d := ⟨fun _ _ => rfl, fun _ c h => ⟨c, h, Int.le_refl _⟩⟩

theorem Better.trans {vis : List Str} {a b c : Dist} (h1 : Better vis a b) (h2 : Better vis b c) : Better vis a c := by
  refine ⟨fun x hx => (h2.keep x hx).trans (h1.keep x hx), fun v k h => ?_⟩
  obtain ⟨k', h', hle⟩ := h1.mono v k h
  obtain ⟨k'', h'', hle'⟩ := h2.mono v k' h'
  exact ⟨k'', h'', by omega⟩

theorem Better.dS {vis : List Str} {a b : Dist} (h : Better vis a b) {x : Str} (hx : x ∈ vis) : dS b x = dS a x := by
  unfold OpenNSA.dS; rw [h.keep x hx]

theorem relaxOne_update {g : LvCfg} {src u port : Str} {uCost k : Int} {vis : List Str} {dist : Dist} {prev : Prev} {v : Str}
    (hr : RInv g src vis dist prev) (hu : u ∈ vis) (huc : dS dist u = uCost) (hmax : ∀ x ∈ vis, dS dist x ≤ uCost)
    (ha : Announced g.vectors u port v k) (hk : 0 ≤ k) (h1 : v ≠ src) (h2 : v ∉ g.black) (h3 : uCost + k ≤ g.maxCost)
    (hnew : ∀ c, dget dist v = some c → uCost + k < c) :
    RInv g src vis (dset dist v (uCost + k)) (dset prev v (u, port)) ∧ Better vis dist (dset dist v (uCost + k)) ∧
    dget (dset dist v (uCost + k)) v = some (uCost + k) := by
  have hvis : v ∉ vis := by
    intro hm
    rcases hr.visd v hm with h | ⟨c, hc⟩
    · exact h1 h
    · have a := hnew c hc
      have b := hmax v hm
      simp [dS, hc] at b
      omega
  have hkeep : ∀ x ∈ vis, dget (dset dist v (uCost + k)) x = dget dist x := by
    intro x hx
    rw [dget_dset, if_neg]
    intro e; subst e; exact hvis hx
  have hb : Better vis dist (dset dist v (uCost + k)) := by
    refine ⟨hkeep, ?_⟩
    intro w c hw
    rw [dget_dset]
    by_cases e : v = w
    · subst e; simp; have := hnew c hw; omega
    · simp [e, hw]
  refine ⟨⟨nodup_dset hr.nd _ _, ?_, ?_, ?_, ?_, ?_⟩, hb, by simp [dget_dset]⟩
  · rw [dget_dset, if_neg h1]; exact hr.noSrc
  · intro x hx
    rw [hkeep x hx]
    exact hr.visd x hx
  · intro w c hw
    rw [dget_dset] at hw
    by_cases e : v = w
    · subst e
      simp at hw
      subst hw
      refine ⟨h1, h2, h3, u, port, k, by simp [dget_dset], ha, hu, ?_, fun hm => absurd hm hvis⟩
      rw [hb.dS hu, huc]
    · simp [e] at hw
      obtain ⟨a1, a2, a3, x, p, k', a4, a5, a6, a7, a8⟩ := hr.snd w c hw
      refine ⟨a1, a2, a3, x, p, k', by rw [dget_dset, if_neg e]; exact a4, a5, a6, ?_, a8⟩
      rw [hb.dS a6]; exact a7
  · intro w hw
    rw [dget_dset] at hw ⊢
    by_cases e : v = w
    · simp [e] at hw
    · simp [e] at hw ⊢; exact hr.prevk w hw
  · intro x hx w c hwv hw
    rw [hb.dS hx]
    rw [dget_dset] at hw
    by_cases e : v = w
    · subst e; simp at hw; have := hmax x hx; omega
    · simp [e] at hw; exact hr.ord x hx w c hwv hw

theorem relaxOne_spec {g : LvCfg} {src u port : Str} {uCost : Int} {vis : List Str} {st : Dist × Prev} {e : Str × Int}
    (hr : RInv g src vis st.1 st.2) (hu : u ∈ vis) (huc : dS st.1 u = uCost) (hmax : ∀ x ∈ vis, dS st.1 x ≤ uCost)
    (ha : Announced g.vectors u port e.1 e.2) (hk : 0 ≤ e.2) :
    RInv g src vis (relaxOne g src u uCost port st e).1 (relaxOne g src u uCost port st e).2 ∧
    Better vis st.1 (relaxOne g src u uCost port st e).1 ∧
    (e.1 ≠ src → e.1 ∉ g.black → uCost + e.2 ≤ g.maxCost →
      ∃ c, dget (relaxOne g src u uCost port st e).1 e.1 = some c ∧ c ≤ uCost + e.2) := by
  unfold relaxOne
  split
  · rename_i h; exact ⟨hr, .refl _ _, fun h' => absurd h h'⟩
  · rename_i h1
    split
    · rename_i h; exact ⟨hr, .refl _ _, fun _ h' => absurd h h'⟩
    · rename_i h2
      simp only
      split
      · rename_i h; exact ⟨hr, .refl _ _, fun _ _ h' => by omega⟩
      · rename_i h3
        split
        · rename_i hd
          have := relaxOne_update hr hu huc hmax ha hk h1 h2 (by omega) (by intro c hc; rw [hd] at hc; simp at hc)
          exact ⟨this.1, this.2.1, fun _ _ _ => ⟨_, this.2.2, Int.le_refl _⟩⟩
        · rename_i pd hd
          split
          · rename_i hlt
            have := relaxOne_update hr hu huc hmax ha hk h1 h2 (by omega)
              (by intro c hc; rw [hd] at hc; simp at hc; omega)
            exact ⟨this.1, this.2.1, fun _ _ _ => ⟨_, this.2.2, Int.le_refl _⟩⟩
          · exact ⟨hr, .refl _ _, fun _ _ _ => ⟨pd, hd, by omega⟩⟩

theorem relaxVec_spec {g : LvCfg} {src u port : Str} {uCost : Int} {vis : List Str} (hnn : NonNeg g.vectors) (hu : u ∈ vis) :
    ∀ (vec : Vec) (st : Dist × Prev), RInv g src vis st.1 st.2 → dS st.1 u = uCost → (∀ x ∈ vis, dS st.1 x ≤ uCost) →
      (∀ e ∈ vec, Announced g.vectors u port e.1 e.2) →
      let st' := vec.foldl (relaxOne g src u uCost port) st
      RInv g src vis st'.1 st'.2 ∧ Better vis st.1 st'.1 ∧
      ∀ e ∈ vec, e.1 ≠ src → e.1 ∉ g.black → uCost + e.2 ≤ g.maxCost → ∃ c, dget st'.1 e.1 = some c ∧ c ≤ uCost + e.2 := by
  intro vec
  induction vec with
  | nil => intro st hr _ _ _; exact ⟨hr, .refl _ _, by simp⟩
  | cons e es ih =>
    intro st hr huc hmax ha
    have h1 := relaxOne_spec (e := e) hr hu huc hmax (ha e (by simp)) (hnn _ _ _ _ (ha e (by simp)))
    have hb := h1.2.1
    have h2 := ih (relaxOne g src u uCost port st e) h1.1 (by rw [hb.dS hu]; exact huc)
      (by intro x hx; rw [hb.dS hx]; exact hmax x hx) (fun e' he' => ha e' (by simp [he']))
    refine ⟨h2.1, hb.trans h2.2.1, ?_⟩
    intro e' he' a1 a2 a3
    rcases List.mem_cons.mp he' with rfl | he'
    · obtain ⟨c, hc, hle⟩ := h1.2.2 a1 a2 a3
      obtain ⟨c', hc', hle'⟩ := h2.2.1.mono _ c hc
      exact ⟨c', hc', by omega⟩
    · exact h2.2.2 e' he' a1 a2 a3

theorem relaxFrom_spec {g : LvCfg} {src u : Str} {uCost : Int} {vis : List Str} (hnn : NonNeg g.vectors) (hu : u ∈ vis)
    {st : Dist × Prev} (hr : RInv g src vis st.1 st.2) (huc : dS st.1 u = uCost) (hmax : ∀ x ∈ vis, dS st.1 x ≤ uCost) :
    let st' := relaxFrom g src u uCost st
    RInv g src vis st'.1 st'.2 ∧ Better vis st.1 st'.1 ∧
    ∀ port v k, Announced g.vectors u port v k → v ≠ src → v ∉ g.black → uCost + k ≤ g.maxCost →
      ∃ c, dget st'.1 v = some c ∧ c ≤ uCost + k := by
  have key : ∀ (pvs : Vectors) (st : Dist × Prev), (∀ pv ∈ pvs, pv ∈ g.vectors ∧ pv.1.1 = u) → RInv g src vis st.1 st.2 →
      dS st.1 u = uCost → (∀ x ∈ vis, dS st.1 x ≤ uCost) →
      let st' := pvs.foldl (fun st pv => pv.2.foldl (relaxOne g src u uCost pv.1.2) st) st
      RInv g src vis st'.1 st'.2 ∧ Better vis st.1 st'.1 ∧
      ∀ pv ∈ pvs, ∀ e ∈ pv.2, e.1 ≠ src → e.1 ∉ g.black → uCost + e.2 ≤ g.maxCost →
        ∃ c, dget st'.1 e.1 = some c ∧ c ≤ uCost + e.2 := by
    intro pvs
    induction pvs with
    | nil => intro st _ hr _ _; exact ⟨hr, .refl _ _, by simp⟩
    | cons pv pvs ih =>
      intro st hpv hr huc hmax
      obtain ⟨hm, hpu⟩ := hpv pv (by simp)
      have h1 := relaxVec_spec (port := pv.1.2) hnn hu pv.2 st hr huc hmax
        (fun e he => ⟨pv.2, by rw [← hpu]; exact hm, he⟩)
      have hb := h1.2.1
      have h2 := ih (pv.2.foldl (relaxOne g src u uCost pv.1.2) st) (fun p hp => hpv p (by simp [hp])) h1.1
        (by rw [hb.dS hu]; exact huc) (by intro x hx; rw [hb.dS hx]; exact hmax x hx)
      refine ⟨h2.1, hb.trans h2.2.1, ?_⟩
      intro pv' hpv' e he a1 a2 a3
      rcases List.mem_cons.mp hpv' with rfl | hpv'
      · obtain ⟨c, hc, hle⟩ := h1.2.2 e he a1 a2 a3
        obtain ⟨c', hc', hle'⟩ := h2.2.1.mono _ c hc
        exact ⟨c', hc', by omega⟩
      · exact h2.2.2 pv' hpv' e he a1 a2 a3
  have := key (g.vectors.filter fun pv => pv.1.1 = u) st (by
    intro pv hpv; simpa using hpv) hr huc hmax
  refine ⟨this.1, this.2.1, ?_⟩
  rintro port v k ⟨vec, hv, he⟩ a1 a2 a3
  exact this.2.2 ((u, port), vec) (by simpa using hv) (v, k) he a1 a2 a3

/-! ### main loop -/

/-- Every announced destination from a network in `vis` has been taken into account. -/
def Relaxed (g : LvCfg) (src : Str) (vis : List Str) (dist : Dist) : Prop :=
  ∀ x ∈ vis, ∀ port v k, Announced g.vectors x port v k → v ≠ src → v ∉ g.black → dS dist x + k ≤ g.maxCost →
    ∃ c, dget dist v = some c ∧ c ≤ dS dist x + k

/-- What the result of the search satisfies. -/
structure Final (g : LvCfg) (src : Str) (vis : List Str) (dist : Dist) (prev : Prev) : Prop where
  inv : RInv g src vis dist prev
  relaxed : Relaxed g src vis dist
  all : ∀ v c, dget dist v = some c → v ∈ vis
  src : src ∈ vis

theorem mem_allNetworks {g : LvCfg} {l : List Str} {u port v : Str} {k : Int} (h : Announced g.vectors u port v k)
    (hb : v ∉ g.black) : v ∈ allNetworks g l := by
  obtain ⟨vec, hv, he⟩ := h
  unfold allNetworks
  simp only [List.mem_filter, List.mem_append, List.mem_map, List.mem_flatMap, decide_eq_true_eq]
  exact ⟨Or.inr ⟨_, hv, _, he, rfl⟩, hb⟩

theorem mem_dropNet {u x : Str} {l : List Str} : x ∈ dropNet u l ↔ x ∈ l ∧ x ≠ u := by
  simp [dropNet]

theorem idxOf_append_mem {x : Str} {l m : List Str} (h : x ∈ l) : (l ++ m).idxOf x = l.idxOf x := by
  rw [List.idxOf_append]; simp [h]

theorem dijLoop_spec {g : LvCfg} {src : Str} {l : List Str} (hnn : NonNeg g.vectors) :
    ∀ (n : Nat) (vis unv : List Str) (dist : Dist) (prev : Prev), unv.length = n →
      RInv g src vis dist prev → Relaxed g src vis dist → src ∈ vis → dist ≠ [] →
      (∀ x, x ∈ unv ↔ x ∈ allNetworks g l ∧ x ∉ vis) →
      ∃ d p vis', dijLoop g src unv dist prev = some (d, p) ∧ Final g src vis' d p ∧ vis'.length ≤ vis.length + unv.length := by
  intro n
  induction n using Nat.strongRecOn with
  | ind n ih =>
    intro vis unv dist prev hn hr hrel hsv hne hunv
    have hN : ∀ v c, dget dist v = some c → v ∈ allNetworks g l := by
      intro v c hc
      obtain ⟨_, hb, _, x, port, k, _, ha, _⟩ := hr.snd v c hc
      exact mem_allNetworks ha hb
    have hfin : (∀ v c, dget dist v = some c → v ∉ unv) → Final g src vis dist prev := by
      intro h
      refine ⟨hr, hrel, ?_, hsv⟩
      intro v c hc
      rcases Classical.em (v ∈ vis) with h' | h'
      · exact h'
      · exact absurd ((hunv v).mpr ⟨hN v c hc, h'⟩) (h v c hc)
    rw [dijLoop]
    by_cases hu0 : unv = []
    · rw [if_pos hu0]
      exact ⟨dist, prev, vis, rfl, hfin (by simp [hu0]), by omega⟩
    · rw [if_neg hu0]
      simp only [hne, if_false]
      rcases hm : minCost (candidates unv dist) with _ | ⟨uCost, u⟩
      · refine ⟨dist, prev, vis, rfl, hfin ?_, by omega⟩
        intro v c hc hvu
        have : (c, v) ∈ candidates unv dist := mem_candidates.mpr ⟨dget_some_mem hc, hvu⟩
        rw [minCost_none.mp hm] at this
        simp at this
      · obtain ⟨hmem, hmin⟩ := minCost_some hm
        obtain ⟨hud, huu⟩ := mem_candidates.mp hmem
        have hdu : dget dist u = some uCost := dget_of_mem_nodup hr.nd hud
        obtain ⟨huN, huv⟩ := (hunv u).mp huu
        have hus : u ≠ src := (hr.snd u uCost hdu).1
        have hdSu : dS dist u = uCost := by simp [dS, hdu]
        have hmax : ∀ x ∈ vis ++ [u], dS dist x ≤ uCost := by
          intro x hx
          rcases List.mem_append.mp hx with hx | hx
          · exact hr.ord x hx u uCost huv hdu
          · simp at hx; subst hx; omega
        have hr' : RInv g src (vis ++ [u]) dist prev := by
          refine ⟨hr.nd, hr.noSrc, ?_, ?_, hr.prevk, ?_⟩
          · intro x hx
            rcases List.mem_append.mp hx with hx | hx
            · exact hr.visd x hx
            · simp at hx; subst hx; exact Or.inr ⟨_, hdu⟩
          · intro v c hc
            obtain ⟨a1, a2, a3, x, port, k, a4, a5, a6, a7, a8⟩ := hr.snd v c hc
            refine ⟨a1, a2, a3, x, port, k, a4, a5, by simp [a6], a7, ?_⟩
            intro hv
            rw [idxOf_append_mem a6]
            by_cases hvv : v ∈ vis
            · rw [idxOf_append_mem hvv]; exact a8 hvv
            · have : vis.idxOf x < vis.length := List.idxOf_lt_length_iff.mpr a6
              rw [List.idxOf_append]
              simp [hvv]
              omega
          · intro x hx v c hv hc
            have hvv : v ∉ vis := fun h => hv (by simp [h])
            rcases List.mem_append.mp hx with hx | hx
            · exact hr.ord x hx v c hvv hc
            · simp at hx; subst hx
              rw [hdSu]
              have : v ∈ unv := (hunv v).mpr ⟨hN v c hc, hvv⟩
              exact hmin (c, v) (mem_candidates.mpr ⟨dget_some_mem hc, this⟩)
        have hrx := relaxFrom_spec (st := (dist, prev)) hnn (show u ∈ vis ++ [u] by simp) hr' hdSu hmax
        simp only at hrx ⊢
        obtain ⟨r1, r2, r3⟩ := hrx
        have hne' : (relaxFrom g src u uCost (dist, prev)).1 ≠ [] := by
          intro e
          obtain ⟨c', hc', _⟩ := r2.mono u uCost hdu
          rw [e] at hc'; simp [dget] at hc'
        rw [if_neg (by simp [hus]), dif_pos huu]
        obtain ⟨d, p, vis', h1, h2, h3⟩ := ih (dropNet u unv).length (by have := length_dropNet_lt huu; omega)
          (vis ++ [u]) (dropNet u unv) _ _ rfl r1 (by
            intro x hx port v k ha b1 b2 b3
            rw [r2.dS hx] at b3 ⊢
            rcases List.mem_append.mp hx with hxv | hxu
            · obtain ⟨c, hc, hle⟩ := hrel x hxv port v k ha b1 b2 b3
              obtain ⟨c', hc', hle'⟩ := r2.mono v c hc
              exact ⟨c', hc', by omega⟩
            · simp at hxu; subst hxu
              rw [hdSu] at b3 ⊢
              exact r3 port v k ha b1 b2 b3) (by simp [hsv]) hne' (by
            intro x
            rw [mem_dropNet, hunv x]
            simp only [List.mem_append, List.mem_singleton, not_or, and_assoc])
        refine ⟨d, p, vis', h1, h2, ?_⟩
        have := length_dropNet_lt huu
        simp at h3
        omega

theorem rInv_start (g : LvCfg) (src : Str) : RInv g src [src] [] [] := by
  refine ⟨by simp [dkeys], by simp [dget], by simp, by simp [dget], by simp [dget], by simp [dget]⟩

/-- The search succeeds for a local network that is not blacklisted. -/
theorem dijkstra_spec {g : LvCfg} {src : Str} {l : List Str} (hnn : NonNeg g.vectors) (hl : src ∈ l) (hb : src ∉ g.black) :
    ∃ d p vis, dijkstra g l src = some (d, p) ∧ Final g src vis d p ∧ vis.length ≤ (allNetworks g l).length := by
  have hsrc : src ∈ allNetworks g l := by
    unfold allNetworks
    simp [hl, hb]
  unfold dijkstra
  rw [dijLoop, if_neg (by intro e; rw [e] at hsrc; simp at hsrc)]
  simp only [if_true]
  have hrx := relaxFrom_spec (st := (([] : Dist), ([] : Prev))) hnn (show src ∈ [src] by simp) (rInv_start g src)
    (uCost := 0) (by simp [dS, dget]) (by simp [dS, dget])
  simp only at hrx
  obtain ⟨r1, r2, r3⟩ := hrx
  have hd0 : dS (relaxFrom g src src 0 ([], [])).1 src = 0 := by simp [dS, r1.noSrc]
  have hrel : Relaxed g src [src] (relaxFrom g src src 0 ([], [])).1 := by
    intro x hx port v k ha b1 b2 b3
    simp at hx; subst hx
    rw [hd0] at b3 ⊢
    exact r3 port v k ha b1 b2 b3
  by_cases he : (relaxFrom g src src 0 ([], [])).1 = []
  · rw [if_pos ⟨trivial, he⟩]
    refine ⟨_, _, [src], rfl, ⟨r1, hrel, ?_, by simp⟩, ?_⟩
    · intro v c hc
      have hc' : dget (relaxFrom g src src 0 ([], [])).1 v = some c := hc
      rw [he] at hc'; simp [dget] at hc'
    · have := List.length_pos_of_mem hsrc
      simp; omega
  · rw [if_neg (by simp [he]), dif_pos hsrc]
    obtain ⟨d, p, vis', h1, h2, h3⟩ := dijLoop_spec (l := l) hnn _ [src] (dropNet src (allNetworks g l)) _ _ rfl r1 hrel
      (by simp) he (by intro x; rw [mem_dropNet]; simp)
    refine ⟨d, p, vis', h1, h2, ?_⟩
    have := length_dropNet_lt hsrc
    simp at h3
    omega

/-! ### paths -/

theorem Final.path {g : LvCfg} {src : Str} {vis : List Str} {d : Dist} {p : Prev} (h : Final g src vis d p) :
    ∀ (n : Nat) (v : Str) (c : Int), dget d v = some c → (∀ x port, dget p v = some (x, port) → vis.idxOf x < n) →
      ∀ fuel, n ≤ fuel → ∀ acc, ∃ hops, pathLoop p src fuel v acc = .hops (hops ++ acc) ∧ Route g src v hops c ∧ hops ≠ [] := by
  intro n
  induction n with
  | zero =>
    intro v c hc hi
    obtain ⟨_, _, _, x, port, k, a4, _⟩ := h.inv.snd v c hc
    exact absurd (hi x port a4) (by omega)
  | succ n ih =>
    intro v c hc hi fuel hf acc
    obtain ⟨b1, b2, b3, x, port, k, a4, a5, a6, a7, a8⟩ := h.inv.snd v c hc
    obtain ⟨f, rfl⟩ : ∃ f, fuel = f + 1 := ⟨fuel - 1, by omega⟩
    unfold pathLoop
    rw [a4]
    simp only
    by_cases hx : x = src
    · rw [if_pos hx]
      subst hx
      refine ⟨[(x, port)], rfl, ?_, by simp⟩
      have : dS d x = 0 := by simp [dS, h.inv.noSrc]
      rw [a7, this]
      exact Route.hop (hops := []) .start a5 b2 b1
    · rw [if_neg hx]
      rcases h.inv.visd x a6 with e | ⟨cx, hcx⟩
      · exact absurd e hx
      · obtain ⟨_, _, _, y, port', k', e4, e5, e6, e7, e8⟩ := h.inv.snd x cx hcx
        have hlt : vis.idxOf y < n := by
          have h1 := e8 a6
          have h2 := hi x port a4
          omega
        obtain ⟨hops, h1, h2, h3⟩ := ih x cx hcx (by
          intro x' p' hp; rw [e4] at hp; simp at hp; obtain ⟨rfl, rfl⟩ := hp; exact hlt) f (by omega) ((x, port) :: acc)
        refine ⟨hops ++ [(x, port)], by rw [h1]; simp, ?_, by simp⟩
        have : dS d x = cx := by simp [dS, hcx]
        rw [a7, this]
        exact .hop h2 a5 b2 b1

theorem Route.src_nil {g : LvCfg} {src : Str} {hops : List (Str × Str)} {c : Int} (h : Route g src src hops c) :
    c = 0 := by
  cases h with
  | start => rfl
  | hop _ _ _ hne => exact absurd rfl hne

theorem Route.cost_nonneg {g : LvCfg} {src v : Str} {hops : List (Str × Str)} {c : Int} (hnn : NonNeg g.vectors)
    (h : Route g src v hops c) : 0 ≤ c := by
  induction h with
  | start => omega
  | hop _ ha _ _ ih => have := hnn _ _ _ _ ha; omega

theorem Final.optimal {g : LvCfg} {src : Str} {vis : List Str} {d : Dist} {p : Prev} (h : Final g src vis d p)
    (hnn : NonNeg g.vectors) {v : Str} {hops : List (Str × Str)} {c : Int} (hr : Route g src v hops c) (hv : v ≠ src)
    (hc : c ≤ g.maxCost) : ∃ c', dget d v = some c' ∧ c' ≤ c := by
  induction hr with
  | start => exact absurd rfl hv
  | @hop u v port k c0 hops hr ha hb hvs ih =>
    have hk := hnn _ _ _ _ ha
    by_cases hu : u = src
    · subst hu
      have h0 := hr.src_nil
      have hd0 : dS d u = 0 := by simp [dS, h.inv.noSrc]
      obtain ⟨c', h1, h2⟩ := h.relaxed u h.src port v k ha hvs hb (by omega)
      exact ⟨c', h1, by omega⟩
    · obtain ⟨cu, h1, h2⟩ := ih hu (by omega)
      have hdu : dS d u = cu := by simp [dS, h1]
      obtain ⟨c', h3, h4⟩ := h.relaxed u (h.all u cu h1) port v k ha hvs hb (by omega)
      exact ⟨c', h3, by omega⟩

theorem Final.prev_iff {g : LvCfg} {src : Str} {vis : List Str} {d : Dist} {p : Prev} (h : Final g src vis d p) (v : Str) :
    (∃ x, dget p v = some x) ↔ ∃ c, dget d v = some c := by
  constructor
  · rintro ⟨x, hx⟩
    rcases hd : dget d v with _ | c
    · rw [h.inv.prevk v hd] at hx; simp at hx
    · exact ⟨c, rfl⟩
  · rintro ⟨c, hc⟩
    obtain ⟨_, _, _, x, port, k, a4, _⟩ := h.inv.snd v c hc
    exact ⟨_, a4⟩

theorem pathLoop_mono {p : Prev} {src : Str} : ∀ (f : Nat) (v : Str) (acc h : List (Str × Str)),
    pathLoop p src f v acc = .hops h → ∀ f', f ≤ f' → pathLoop p src f' v acc = .hops h := by
  intro f
  induction f with
  | zero => intro v acc h e; simp [pathLoop] at e
  | succ f ih =>
    intro v acc h e f' hf
    obtain ⟨f'', rfl⟩ : ∃ n, f' = n + 1 := ⟨f' - 1, by omega⟩
    unfold pathLoop at e ⊢
    rcases hp : dget p v with _ | hop
    · rw [hp] at e; simp at e
    · rw [hp] at e
      simp only at e ⊢
      split
      · rename_i hs; rw [if_pos hs] at e; exact e
      · rename_i hs; rw [if_neg hs] at e; exact ih _ _ _ e f'' (by omega)

/-! ### histories -/

/-- The tables of every local network are those of the current vectors. -/
def Fresh (lv : LinkVector) : Prop := ∀ n ∈ lv.localNets, ∃ d p, dijkstra lv.cfg lv.localNets n = some (d, p) ∧
  dget lv.netDist n = some d ∧ dget lv.netPrev n = some p

structure LvInv (black : List Str) (maxCost : Int) (lv : LinkVector) : Prop where
  fresh : Fresh lv
  nonneg : NonNeg lv.cfg.vectors
  notBlack : ∀ n ∈ lv.localNets, n ∉ lv.cfg.black
  black : lv.cfg.black = black
  maxCost : lv.cfg.maxCost = maxCost

theorem calcOver_spec (lv0 : LinkVector) (h : ∀ n ∈ lv0.localNets, ∃ d p, dijkstra lv0.cfg lv0.localNets n = some (d, p)) :
    ∀ (todo : List Str) (lv : LinkVector) , (∀ n ∈ todo, n ∈ lv0.localNets) → lv.cfg = lv0.cfg → lv.localNets = lv0.localNets →
      (calcOver lv todo).2 = true ∧ (calcOver lv todo).1.cfg = lv0.cfg ∧ (calcOver lv todo).1.localNets = lv0.localNets ∧
      ∀ n, (n ∈ todo → ∃ d p, dijkstra lv0.cfg lv0.localNets n = some (d, p) ∧
          dget (calcOver lv todo).1.netDist n = some d ∧ dget (calcOver lv todo).1.netPrev n = some p) ∧
        (n ∉ todo → dget (calcOver lv todo).1.netDist n = dget lv.netDist n ∧
          dget (calcOver lv todo).1.netPrev n = dget lv.netPrev n) := by
  intro todo
  induction todo with
  | nil => intro lv _ h1 h2; simp [calcOver, h1, h2]
  | cons m ms ih =>
    intro lv hm h1 h2
    obtain ⟨d, p, hd⟩ := h m (hm m (by simp))
    have he : dijkstra lv.cfg lv.localNets m = some (d, p) := by rw [h1, h2]; exact hd
    simp only [calcOver, he]
    obtain ⟨i1, i2, i3, i4⟩ := ih { lv with netDist := dset lv.netDist m d, netPrev := dset lv.netPrev m p }
      (fun n hn => hm n (by simp [hn])) h1 h2
    refine ⟨i1, i2, i3, ?_⟩
    intro n
    constructor
    · intro hn
      by_cases hms : n ∈ ms
      · exact (i4 n).1 hms
      · have hnm : n = m := by simpa [hms] using hn
        subst hnm
        have := (i4 n).2 hms
        refine ⟨d, p, hd, ?_, ?_⟩
        · rw [this.1]; simp [dget_dset]
        · rw [this.2]; simp [dget_dset]
    · intro hn
      simp only [List.mem_cons, not_or] at hn
      have := (i4 n).2 hn.2
      rw [this.1, this.2]
      have hne : ¬ m = n := fun e => hn.1 e.symm
      simp [dget_dset, hne]

theorem calculate_spec (lv : LinkVector) (hnn : NonNeg lv.cfg.vectors) (hb : ∀ n ∈ lv.localNets, n ∉ lv.cfg.black) :
    Fresh lv.calculate.1 ∧ lv.calculate.2 = true ∧ lv.calculate.1.cfg = lv.cfg ∧ lv.calculate.1.localNets = lv.localNets := by
  have h := calcOver_spec lv (fun n hn => by
    obtain ⟨d, p, _, h, _⟩ := dijkstra_spec hnn hn (hb n hn); exact ⟨d, p, h⟩) lv.localNets lv (fun _ h => h) rfl rfl
  obtain ⟨h1, h2, h3, h4⟩ := h
  unfold LinkVector.calculate
  refine ⟨?_, h1, h2, h3⟩
  intro n hn
  rw [h3] at hn
  rw [h2, h3]
  exact (h4 n).1 hn

theorem mergeVec_spec (new : Vec) : ∀ (old : Vec) (d : Str),
    dget (mergeVec old new) d = match dget old d with | some k => some k | none => dget new d := by
  induction new with
  | nil => intro old d; simp [mergeVec, dget]; split <;> simp [*]
  | cons e es ih =>
    intro old d
    have hh : mergeVec old (e :: es) = mergeVec (match dget old e.1 with | none => dset old e.1 e.2 | some _ => old) es := rfl
    rw [hh, ih]
    rcases he : dget old e.1 with _ | k
    · simp only [dget_dset]
      by_cases hd : e.1 = d
      · subst hd; simp [he, dget]
      · simp [hd, dget]
    · simp only
      by_cases hd : e.1 = d
      · subst hd; simp [he]
      · simp [dget, hd]

theorem mem_mergeVec (new : Vec) : ∀ (old : Vec) (x : Str × Int), x ∈ mergeVec old new → x ∈ old ∨ x ∈ new := by
  induction new with
  | nil => intro old x h; exact Or.inl h
  | cons e es ih =>
    intro old x h
    have hh : mergeVec old (e :: es) = mergeVec (match dget old e.1 with | none => dset old e.1 e.2 | some _ => old) es := rfl
    rw [hh] at h
    rcases he : dget old e.1 with _ | k
    · rw [he] at h
      rcases ih _ _ h with h | h
      · have := mem_dset_of h
        rcases this with h | h
        · exact Or.inr (by simp [h])
        · exact Or.inl h
      · exact Or.inr (by simp [h])
    · rw [he] at h
      rcases ih _ _ h with h | h
      · exact Or.inl h
      · exact Or.inr (by simp [h])

theorem nonneg_update {V : Vectors} {n p : Str} {vec : Vec} (hnn : NonNeg V) (hv : ∀ e ∈ vec, (0 : Int) ≤ e.2) :
    NonNeg (updateTable V n p vec) := by
  rintro u port v k ⟨w, hw, hk⟩
  unfold updateTable at hw
  split at hw
  · rename_i old ho
    rcases mem_dset_of hw with h | h
    · simp only [Prod.mk.injEq] at h
      obtain ⟨_, rfl⟩ := h
      rcases mem_mergeVec _ _ _ hk with h | h
      · exact hnn n p v k ⟨old, dget_some_mem ho, h⟩
      · exact hv _ h
    · exact hnn u port v k ⟨w, h, hk⟩
  · rcases mem_dset_of hw with h | h
    · simp only [Prod.mk.injEq] at h
      obtain ⟨_, rfl⟩ := h
      exact hv _ hk
    · exact hnn u port v k ⟨w, h, hk⟩

theorem nonneg_del {V : Vectors} {k : Str × Str} (hnn : NonNeg V) : NonNeg (ddel V k) := by
  rintro u port v c ⟨w, hw, hk⟩
  exact hnn u port v c ⟨w, (List.mem_filter.mp hw).1, hk⟩

end OpenNSA
