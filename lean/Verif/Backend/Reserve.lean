import Verif.Backend.Run
import Verif.Backend.Spec
/-
What `reserve` does up to the point where the connection is stored.
-/
namespace OpenNSA.Backend
open OpenNSA Py Prog

/-- World at a later time. -/
abbrev World.at (w : World) (t : Time) (o : Oracle) : World := { w with clk := t, orc := o }

/-- The reservation of a label value on a port. -/
abbrev resvOf (cfg : Cfg) (port : Str) (st en : Option Time) (lv : Option LabelVal) : Resv := ⟨cfg.mgr.getResource port lv, st, en⟩

/-- At some time between `a` and `b` the calendar answered that the reservation is not possible. -/
def TakenIn (c : Cal) (a b : Time) (r : Resv) : Prop := ∃ t, a ≤ t ∧ t ≤ b ∧ c.check t r = .error .unavailable

/-- At some time between `a` and `b` the calendar answered that the reservation is possible. -/
def FreeIn (c : Cal) (a b : Time) (r : Resv) : Prop := ∃ t, a ≤ t ∧ t ≤ b ∧ c.check t r = .ok ()

theorem TakenIn.mono {c : Cal} {a a' b b' : Time} {r : Resv} (h : TakenIn c a b r) (h1 : a' ≤ a) (h2 : b ≤ b') : TakenIn c a' b' r := by
  obtain ⟨t, x, y, z⟩ := h; exact ⟨t, by omega, by omega, z⟩

theorem FreeIn.mono {c : Cal} {a a' b b' : Time} {r : Resv} (h : FreeIn c a b r) (h1 : a' ≤ a) (h2 : b ≤ b') : FreeIn c a' b' r := by
  obtain ⟨t, x, y, z⟩ := h; exact ⟨t, by omega, by omega, z⟩

/-- Another answer than "taken" or "free" of the calendar. -/
def CalFails (c : Cal) (a b : Time) (r : Resv) (e : Err) : Prop :=
  ∃ t x, a ≤ t ∧ t ≤ b ∧ c.check t r = .error x ∧ x ≠ .unavailable ∧ calErr x = e

theorem CalFails.mono {c : Cal} {a a' b b' : Time} {r : Resv} {e : Err} (h : CalFails c a b r e) (h1 : a' ≤ a) (h2 : b ≤ b') :
    CalFails c a' b' r e := by
  obtain ⟨t, x, y, z⟩ := h; exact ⟨t, x, by omega, by omega, z.2⟩

/-- Result of a search through candidates: the first free one, or all taken, or a calendar failure. -/
def Found {ι : Type} (list : List ι) (taken free : ι → Prop) (fails : Err → ι → Prop) : Except Err ι → Prop
  | .ok lv => ∃ pre post, list = pre ++ lv :: post ∧ (∀ x ∈ pre, taken x) ∧ free lv
  | .error e => (e = .stpUnavailable ∧ ∀ x ∈ list, taken x) ∨ (e ≠ .stpUnavailable ∧ ∃ x ∈ list, fails e x)

theorem Found.cons {ι : Type} {x : ι} {list : List ι} {taken taken' free free' : ι → Prop} {fails fails' : Err → ι → Prop}
    {r : Except Err ι} (h : Found list taken' free' fails' r) (hx : taken x) (h1 : ∀ i, taken' i → taken i) (h2 : ∀ i, free' i → free i)
    (h3 : ∀ e i, fails' e i → fails e i) : Found (x :: list) taken free fails r := by
  cases r with
  | ok lv =>
    obtain ⟨pre, post, e, hp, hf⟩ := h
    refine ⟨x :: pre, post, by rw [e]; rfl, ?_, h2 _ hf⟩
    intro y hy
    rcases List.mem_cons.mp hy with e | hy
    · subst e; exact hx
    · exact h1 _ (hp y hy)
  | error e =>
    rcases h with ⟨e1, hp⟩ | ⟨e1, y, hy, hf⟩
    · refine Or.inl ⟨e1, ?_⟩
      intro y hy
      rcases List.mem_cons.mp hy with e | hy
      · subst e; exact hx
      · exact h1 _ (hp y hy)
    · exact Or.inr ⟨e1, y, by simp [hy], h3 _ _ hf⟩

theorem calErr_unavailable {x : CalErr} : calErr x = .stpUnavailable ↔ x = .unavailable := by cases x <;> simp [calErr]

theorem All_calCheck {α : Type} {r : Resv} {k : Unit → Prog α} {Q : World → Except Err α → Prop} {w : World}
    (h1 : ∀ t o, w.clk ≤ t → w.cal.check t r = .ok () → All (k ()) Q (w.at t o))
    (h2 : ∀ t o e, w.clk ≤ t → w.cal.check t r = .error e → Q (w.at t o) (.error (calErr e))) :
    All ((issue (.calCheck r)).bind k) Q w := by
  rw [All_bind, All_issue]
  intro t o ht
  simp only [execAt]
  cases hc : w.cal.check t r with
  | ok u => simp only [cont_ok]; exact h1 t o ht hc
  | error e => simp only [cont_error]; exact h2 t o e ht hc

theorem All_calAdd {α : Type} {r : Resv} {k : Unit → Prog α} {Q : World → Except Err α → Prop} {w : World}
    (h : ∀ t o, w.clk ≤ t → All (k ()) Q { w with clk := t, orc := o, cal := w.cal ++ [r] }) :
    All ((issue (.calAdd r)).bind k) Q w := by
  rw [All_bind, All_issue]
  intro t o ht
  exact h t o ht

theorem firstFree_spec {cfg : Cfg} {port : Str} {st en : Option Time} : ∀ (list : List (Option LabelVal)) (w : World),
    All (firstFree cfg port st en list) (fun w' r => ∃ t o, w.clk ≤ t ∧ w' = w.at t o ∧
      Found list (fun lv => TakenIn w.cal w.clk t (resvOf cfg port st en lv)) (fun lv => FreeIn w.cal w.clk t (resvOf cfg port st en lv))
        (fun e lv => CalFails w.cal w.clk t (resvOf cfg port st en lv) e) r) w := by
  intro list
  induction list with
  | nil => intro w; exact ⟨w.clk, w.orc, Int.le_refl _, rfl, Or.inl ⟨rfl, by simp⟩⟩
  | cons lv rest ih =>
    intro w
    unfold firstFree
    rw [All_tryCatch]
    apply All_calCheck
    · intro t o ht hc
      exact ⟨t, o, ht, rfl, [], rest, rfl, by simp, t, ht, Int.le_refl _, hc⟩
    · intro t o e ht hc
      simp only [caught_error]
      by_cases he : e = .unavailable
      · subst he
        rw [if_pos (by rfl)]
        refine All_mono ?_ (ih (w.at t o))
        rintro w' r ⟨t', o', ht', hw', hf⟩
        refine ⟨t', o', by simp only at *; omega, hw', hf.cons ?_ ?_ ?_ ?_⟩
        · exact ⟨t, ht, ht', hc⟩
        · intro i hi; exact hi.mono ht (Int.le_refl _)
        · intro i hi; exact hi.mono ht (Int.le_refl _)
        · intro e i hi; exact hi.mono ht (Int.le_refl _)
      · rw [if_neg (by rw [calErr_unavailable]; exact he)]
        exact ⟨t, o, ht, rfl, Or.inr ⟨by simpa [calErr_unavailable] using he, lv, by simp, t, e, ht, Int.le_refl _, hc, he, rfl⟩⟩

/-- Both ends of a label value are taken, free, failing. -/
theorem firstFreeBoth_spec {cfg : Cfg} {sp dp : Str} {st en : Option Time} : ∀ (list : List (Option LabelVal)) (w : World),
    All (firstFreeBoth cfg sp dp st en list) (fun w' r => ∃ t o, w.clk ≤ t ∧
      w' = { w.at t o with
        cal := match r with
          | .ok lv => w.cal ++ [resvOf cfg sp st en lv] ++ [resvOf cfg dp st en lv]
          | .error _ => w.cal } ∧
      Found list (fun lv => TakenIn w.cal w.clk t (resvOf cfg sp st en lv) ∨ TakenIn w.cal w.clk t (resvOf cfg dp st en lv))
        (fun lv => FreeIn w.cal w.clk t (resvOf cfg sp st en lv) ∧ FreeIn w.cal w.clk t (resvOf cfg dp st en lv))
        (fun e lv => CalFails w.cal w.clk t (resvOf cfg sp st en lv) e ∨ CalFails w.cal w.clk t (resvOf cfg dp st en lv) e) r) w := by
  intro list
  induction list with
  | nil => intro w; exact ⟨w.clk, w.orc, Int.le_refl _, rfl, Or.inl ⟨rfl, by simp⟩⟩
  | cons lv rest ih =>
    intro w
    unfold firstFreeBoth
    rw [All_tryCatch]
    -- the handler
    have handler : ∀ t o e, w.clk ≤ t → w.cal.check t (resvOf cfg sp st en lv) = .error e ∨
        w.cal.check t (resvOf cfg dp st en lv) = .error e →
        All (if calErr e = .stpUnavailable then firstFreeBoth cfg sp dp st en rest else Prog.throw (calErr e))
          (fun w' r => ∃ t o, w.clk ≤ t ∧
            w' = { w.at t o with
              cal := match r with
                | .ok lv => w.cal ++ [resvOf cfg sp st en lv] ++ [resvOf cfg dp st en lv]
                | .error _ => w.cal } ∧
            Found (lv :: rest)
              (fun lv => TakenIn w.cal w.clk t (resvOf cfg sp st en lv) ∨ TakenIn w.cal w.clk t (resvOf cfg dp st en lv))
              (fun lv => FreeIn w.cal w.clk t (resvOf cfg sp st en lv) ∧ FreeIn w.cal w.clk t (resvOf cfg dp st en lv))
              (fun e lv => CalFails w.cal w.clk t (resvOf cfg sp st en lv) e ∨ CalFails w.cal w.clk t (resvOf cfg dp st en lv) e) r)
          (w.at t o) := by
      intro t o e ht hc
      by_cases he : e = .unavailable
      · subst he
        rw [if_pos (by rfl)]
        refine All_mono ?_ (ih (w.at t o))
        rintro w' r ⟨t', o', ht', hw', hf⟩
        refine ⟨t', o', by simp only at *; omega, hw', hf.cons ?_ ?_ ?_ ?_⟩
        · exact hc.imp (fun hc => ⟨t, ht, ht', hc⟩) (fun hc => ⟨t, ht, ht', hc⟩)
        · intro i hi; exact hi.imp (·.mono ht (Int.le_refl _)) (·.mono ht (Int.le_refl _))
        · intro i hi; exact ⟨hi.1.mono ht (Int.le_refl _), hi.2.mono ht (Int.le_refl _)⟩
        · intro e i hi; exact hi.imp (·.mono ht (Int.le_refl _)) (·.mono ht (Int.le_refl _))
      · rw [if_neg (by rw [calErr_unavailable]; exact he)]
        refine ⟨t, o, ht, rfl, Or.inr ⟨by simpa [calErr_unavailable] using he, lv, by simp, ?_⟩⟩
        exact hc.imp (fun hc => ⟨t, e, ht, Int.le_refl _, hc, he, rfl⟩) (fun hc => ⟨t, e, ht, Int.le_refl _, hc, he, rfl⟩)
    apply All_calCheck
    · intro t1 o1 ht1 hc1
      apply All_calCheck
      · intro t2 o2 ht2 hc2
        apply All_calAdd; intro t3 o3 ht3
        apply All_calAdd; intro t4 o4 ht4
        refine ⟨t4, o4, by simp only at *; omega, rfl, [], rest, rfl, by simp, ?_, ?_⟩
        · exact ⟨t1, ht1, by simp only at *; omega, hc1⟩
        · exact ⟨t2, by simp only at *; omega, by simp only at *; omega, hc2⟩
      · intro t2 o2 e ht2 hc2
        simp only [caught_error]
        exact handler t2 o2 e (by simp only at *; omega) (Or.inr hc2)
    · intro t o e ht hc
      simp only [caught_error]
      exact handler t o e ht (Or.inl hc)

/-- What the choice of labels achieved. -/
structure Allocated (cfg : Cfg) (src dst : STP) (st en : Option Time) (w : World) (t : Time) (sl dl : Option LabelVal) : Prop where
  srcFree : FreeIn w.cal w.clk t (resvOf cfg src.port st en sl)
  dstFree : FreeIn w.cal w.clk t (resvOf cfg dst.port st en dl)
  /-- with label swapping: each the first free candidate of its end; without: the first common candidate free on both ends -/
  choice :
    (cfg.mgr.canSwapLabel (labelType src) = true ∧ cfg.mgr.canSwapLabel (labelType dst) = true ∧
      (∃ pre post, labelEnum src.label = pre ++ sl :: post ∧ ∀ x ∈ pre, TakenIn w.cal w.clk t (resvOf cfg src.port st en x)) ∧
      (∃ pre post, labelEnum dst.label = pre ++ dl :: post ∧ ∀ x ∈ pre, TakenIn w.cal w.clk t (resvOf cfg dst.port st en x))) ∨
    (¬ (cfg.mgr.canSwapLabel (labelType src) = true ∧ cfg.mgr.canSwapLabel (labelType dst) = true) ∧ sl = dl ∧
      ∃ cand, labelCandidate src dst = .ok cand ∧ ∃ pre post, labelEnum cand = pre ++ sl :: post ∧
        ∀ x ∈ pre, TakenIn w.cal w.clk t (resvOf cfg src.port st en x) ∨ TakenIn w.cal w.clk t (resvOf cfg dst.port st en x))

/-- Why the choice of labels can fail. -/
def AllocFails (cfg : Cfg) (src dst : STP) (st en : Option Time) (w : World) (t : Time) (e : Err) : Prop :=
  (cfg.mgr.canSwapLabel (labelType src) = true ∧ cfg.mgr.canSwapLabel (labelType dst) = true ∧
    ((e = .stpUnavailable ∧ ∀ x ∈ labelEnum src.label, TakenIn w.cal w.clk t (resvOf cfg src.port st en x)) ∨
     (e = .stpUnavailable ∧ ∀ x ∈ labelEnum dst.label, TakenIn w.cal w.clk t (resvOf cfg dst.port st en x)) ∨
     (e ≠ .stpUnavailable ∧ ∃ r, CalFails w.cal w.clk t r e))) ∨
  (¬ (cfg.mgr.canSwapLabel (labelType src) = true ∧ cfg.mgr.canSwapLabel (labelType dst) = true) ∧
    ((labelCandidate src dst = .error e ∧ e ≠ .stpUnavailable) ∨
     (∃ cand, labelCandidate src dst = .ok cand ∧
       ((e = .stpUnavailable ∧ ∀ x ∈ labelEnum cand, TakenIn w.cal w.clk t (resvOf cfg src.port st en x) ∨
          TakenIn w.cal w.clk t (resvOf cfg dst.port st en x)) ∨
        (e ≠ .stpUnavailable ∧ ∃ r, CalFails w.cal w.clk t r e)))))

theorem labelCandidate_err {src dst : STP} {e : Err} (h : labelCandidate src dst = .error e) : e ≠ .stpUnavailable := by
  unfold labelCandidate at h
  split at h
  · simp at h
  · simp at h
  · split at h
    · simp at h
    · simp at h; subst h; rename_i x _; cases x <;> simp [labelErr]

theorem allocate_spec {cfg : Cfg} {src dst : STP} {st en : Option Time} {w : World} :
    All (allocate cfg src dst st en) (fun w' r => ∃ t o, w.clk ≤ t ∧
      w' = { w.at t o with
        cal := match r with
          | .ok (sl, dl) => w.cal ++ [resvOf cfg src.port st en sl] ++ [resvOf cfg dst.port st en dl]
          | .error _ => w.cal } ∧
      match r with
      | .ok (sl, dl) => Allocated cfg src dst st en w t sl dl
      | .error e => AllocFails cfg src dst st en w t e) w := by
  unfold allocate
  by_cases hsw : cfg.mgr.canSwapLabel (labelType src) = true ∧ cfg.mgr.canSwapLabel (labelType dst) = true
  · rw [if_pos hsw]
    simp only [bind_eq]
    rw [All_bind]
    refine All_mono ?_ (firstFree_spec _ w)
    rintro w1 r1 ⟨t1, o1, ht1, rfl, hf1⟩
    cases r1 with
    | error e =>
      simp only [cont_error]
      refine ⟨t1, o1, ht1, rfl, Or.inl ⟨hsw.1, hsw.2, ?_⟩⟩
      rcases hf1 with ⟨h1, h2⟩ | ⟨h1, x, _, h2⟩
      · exact Or.inl ⟨h1, h2⟩
      · exact Or.inr (Or.inr ⟨h1, _, h2⟩)
    | ok sl =>
      simp only [cont_ok]
      rw [All_bind]
      refine All_mono ?_ (firstFree_spec _ _)
      rintro w2 r2 ⟨t2, o2, ht2, rfl, hf2⟩
      simp only at ht2 hf2
      cases r2 with
      | error e =>
        simp only [cont_error]
        refine ⟨t2, o2, by omega, rfl, Or.inl ⟨hsw.1, hsw.2, ?_⟩⟩
        rcases hf2 with ⟨h1, h2⟩ | ⟨h1, x, _, h2⟩
        · exact Or.inr (Or.inl ⟨h1, fun x hx => (h2 x hx).mono ht1 (Int.le_refl _)⟩)
        · exact Or.inr (Or.inr ⟨h1, _, h2.mono ht1 (Int.le_refl _)⟩)
      | ok dl =>
        simp only [cont_ok]
        apply All_calAdd; intro t3 o3 ht3
        apply All_calAdd; intro t4 o4 ht4
        simp only at ht3 ht4
        obtain ⟨pre1, post1, e1, hp1, hfr1⟩ := hf1
        obtain ⟨pre2, post2, e2, hp2, hfr2⟩ := hf2
        refine ⟨t4, o4, by omega, rfl, ?_⟩
        exact
          { srcFree := hfr1.mono (Int.le_refl _) (by omega)
            dstFree := hfr2.mono ht1 (by omega)
            choice := Or.inl ⟨hsw.1, hsw.2, ⟨pre1, post1, e1, fun x hx => (hp1 x hx).mono (Int.le_refl _) (by omega)⟩,
              ⟨pre2, post2, e2, fun x hx => (hp2 x hx).mono ht1 (by omega)⟩⟩ }
  · rw [if_neg hsw]
    simp only [bind_eq]
    cases hl : labelCandidate src dst with
    | error e =>
      exact ⟨w.clk, w.orc, Int.le_refl _, rfl, Or.inr ⟨hsw, Or.inl ⟨hl, labelCandidate_err hl⟩⟩⟩
    | ok cand =>
      show All ((firstFreeBoth cfg src.port dst.port st en (labelEnum cand)).bind fun lv => Prog.pure (lv, lv)) _ w
      rw [All_bind]
      refine All_mono ?_ (firstFreeBoth_spec _ w)
      rintro w1 r1 ⟨t1, o1, ht1, hw1, hf1⟩
      cases r1 with
      | error e =>
        simp only [cont_error]
        refine ⟨t1, o1, ht1, hw1, Or.inr ⟨hsw, Or.inr ⟨cand, hl, ?_⟩⟩⟩
        rcases hf1 with ⟨h1, h2⟩ | ⟨h1, x, _, h2⟩
        · exact Or.inl ⟨h1, h2⟩
        · exact Or.inr ⟨h1, h2.elim (fun h => ⟨_, h⟩) (fun h => ⟨_, h⟩)⟩
      | ok lv =>
        simp only [cont_ok]
        obtain ⟨pre, post, e1, hp, hfr⟩ := hf1
        refine ⟨t1, o1, ht1, hw1, ?_⟩
        exact { srcFree := hfr.1, dstFree := hfr.2, choice := Or.inr ⟨hsw, rfl, cand, hl, pre, post, e1, hp⟩ }

end OpenNSA.Backend
