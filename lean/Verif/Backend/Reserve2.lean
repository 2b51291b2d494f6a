import Verif.Backend.Reserve
import Verif.Backend.InvOps2
/-
`reserve` as a whole.
-/
namespace OpenNSA.Backend
open OpenNSA Py Prog

/-- The world when the new connection has been stored. -/
def World.stored (w : World) (t : Time) (o : Oracle) (row : Row) (a b : Resv) : World :=
  { w with rows := w.rows ++ [row], heap := w.heap ++ [⟨row, false⟩], cal := w.cal ++ [a] ++ [b], clk := t, orc := o }

theorem All_find {α : Type} {cid : Str} {k : Option Nat → Prog α} {Q : World → Except Err α → Prop} {w : World}
    (h1 : ∀ t o, w.clk ≤ t → (∀ r ∈ w.rows, r.cid ≠ cid) → All (k none) Q (w.at t o))
    (h2 : ∀ t o row, w.clk ≤ t → row ∈ w.rows → row.cid = cid →
      All (k (some w.heap.length)) Q { w with heap := w.heap ++ [⟨row, false⟩], clk := t, orc := o }) :
    All ((issue (.find cid)).bind k) Q w := by
  rw [All_bind, All_issue]
  intro t o ht
  simp only [execAt]
  cases hf : w.rows.find? (fun r => decide (r.cid = cid)) with
  | none =>
    simp only [cont_ok]
    exact h1 t o ht (by simpa using hf)
  | some row =>
    simp only [cont_ok]
    have h3 := List.mem_of_find?_eq_some hf
    have h4 := List.find?_some hf
    exact h2 t o row ht h3 (by simpa using h4)

theorem idTaken_false {w : World} {cid : Str} (h : w.idTaken cid = false) : (∀ r ∈ w.rows, r.cid ≠ cid) ∧ cid ∉ w.otherIds := by
  simpa [World.idTaken] using h

theorem idTaken_true {w : World} {cid : Str} (h : w.idTaken cid = true) : (∃ r ∈ w.rows, r.cid = cid) ∨ cid ∈ w.otherIds := by
  simpa [World.idTaken] using h

/-- Which id the new connection may get. -/
def IdFor (cid? : Option Str) (cid : Str) : Prop := ∀ c, cid? = some c → cid = c

theorem reserveBody_wp {cfg : Cfg} {h : Hdr} {cid? : Option Str} {src dst : STP} {st en : Option Time} {w : World}
    {Q : World → Except Err Str → Prop}
    (herr : ∀ t o e, w.clk ≤ t →
      (admission cfg h src dst st en = .error e ∨
        (admission cfg h src dst st en = .ok () ∧ AllocFails cfg src dst st en w t e)) → Q (w.at t o) (.error e))
    (hdb : ∀ t o hs cid now sl dl, w.clk ≤ t → IdFor cid? cid → w.idTaken cid = true →
      Allocated cfg src dst st en w t sl dl → admission cfg h src dst st en = .ok () → w.clk ≤ now → now ≤ t →
      hs = [⟨newRow cid h now src dst sl dl st en, true⟩] →
      Q { w with heap := w.heap ++ hs, cal := w.cal ++ [resvOf cfg src.port st en sl] ++ [resvOf cfg dst.port st en dl],
                 clk := t, orc := o } (.error .db))
    (hok : ∀ t o t0 now cid sl dl, w.clk ≤ t0 → t0 ≤ now → now ≤ t → IdFor cid? cid → w.idTaken cid = false →
      admission cfg h src dst st en = .ok () → Allocated cfg src dst st en w t0 sl dl →
      All (Prog.spawn (doReserve w.heap.length h.corr) (Prog.pure cid)) Q
        (w.stored t o (newRow cid h now src dst sl dl st en) (resvOf cfg src.port st en sl) (resvOf cfg dst.port st en dl))) :
    All (reserveBody cfg h cid? src dst st en) Q w := by
  unfold reserveBody
  simp only [bind_eq]
  cases ha : admission cfg h src dst st en with
  | error e =>
    rw [ha] at herr
    exact herr w.clk w.orc e (Int.le_refl _) (Or.inl rfl)
  | ok u =>
    simp only [Prog.ofExcept, Prog.bind]
    rw [ha] at herr hdb hok
    rw [All_bind]
    refine All_mono ?_ allocate_spec
    rintro w1 r1 ⟨t1, o1, ht1, hw1, hr1⟩
    cases r1 with
    | error e =>
      simp only [cont_error]
      simp only at hr1 hw1
      subst hw1
      exact herr t1 o1 e ht1 (Or.inr ⟨rfl, hr1⟩)
    | ok sd =>
      obtain ⟨sl, dl⟩ := sd
      simp only [cont_ok]
      simp only at hr1 hw1
      subst hw1
      rw [All_bind, All_issue]
      intro now o2 hnow
      simp only [execAt, cont_ok]
      have rest : ∀ t3 o3 cid, now ≤ t3 → IdFor cid? cid → All ((issue (.newObj (newRow cid h now src dst sl dl st en))).bind fun ref =>
          (issue (.save ref)).bind fun _ => Prog.spawn (doReserve ref h.corr) (Prog.pure cid)) Q
          { w with cal := w.cal ++ [resvOf cfg src.port st en sl] ++ [resvOf cfg dst.port st en dl], clk := t3, orc := o3 } := by
        intro t3 o3 cid ht3 hid
        rw [All_bind, All_issue]
        intro t4 o4 ht4
        simp only [execAt, cont_ok]
        rw [All_bind, All_issue]
        intro t5 o5 ht5
        simp only at ht4 ht5 hnow
        have hget : (w.heap ++ [⟨newRow cid h now src dst sl dl st en, true⟩])[w.heap.length]? =
            some ⟨newRow cid h now src dst sl dl st en, true⟩ := by simp
        have htaken : World.idTaken
            { w with heap := w.heap ++ [⟨newRow cid h now src dst sl dl st en, true⟩],
                     cal := w.cal ++ [resvOf cfg src.port st en sl] ++ [resvOf cfg dst.port st en dl], clk := t5, orc := o5 } cid =
            w.idTaken cid := rfl
        simp only [execAt, hget, if_true]
        rw [show (newRow cid h now src dst sl dl st en).cid = cid from rfl, htaken]
        by_cases htk : w.idTaken cid = true
        · rw [if_pos htk]
          simp only [cont_error]
          have hal : Allocated cfg src dst st en w t5 sl dl :=
            { srcFree := hr1.srcFree.mono (Int.le_refl _) (by omega)
              dstFree := hr1.dstFree.mono (Int.le_refl _) (by omega)
              choice := by
                rcases hr1.choice with ⟨x1, x2, ⟨p1, q1, e1, k1⟩, ⟨p2, q2, e2, k2⟩⟩ | ⟨x1, x2, c, x3, p, q, e, k⟩
                · exact Or.inl ⟨x1, x2, ⟨p1, q1, e1, fun y hy => (k1 y hy).mono (Int.le_refl _) (by omega)⟩,
                    ⟨p2, q2, e2, fun y hy => (k2 y hy).mono (Int.le_refl _) (by omega)⟩⟩
                · exact Or.inr ⟨x1, x2, c, x3, p, q, e, fun y hy => (k y hy).imp (·.mono (Int.le_refl _) (by omega))
                    (·.mono (Int.le_refl _) (by omega))⟩ }
          exact hdb t5 o5 [⟨newRow cid h now src dst sl dl st en, true⟩] cid now sl dl (by omega) hid htk hal rfl (by omega) (by omega) rfl
        · rw [if_neg htk]
          simp only [cont_ok]
          have := hok t5 o5 t1 now cid sl dl ht1 hnow (by omega) hid (by simpa using htk) rfl hr1
          have e : (w.heap ++ [(⟨newRow cid h now src dst sl dl st en, true⟩ : Obj)]).set w.heap.length
              (⟨newRow cid h now src dst sl dl st en, false⟩ : Obj) = w.heap ++ [⟨newRow cid h now src dst sl dl st en, false⟩] := by
            simp
          rw [e]
          exact this
      cases cid? with
      | none =>
        simp only [pickId]
        rw [All_bind, All_issue]
        intro t3 o3 ht3
        simp only [execAt]
        cases o3.ids with
        | nil => exact rest t3 o3 [] ht3 (fun c hc => absurd hc (by simp))
        | cons i is => exact rest t3 _ i ht3 (fun c hc => absurd hc (by simp))
      | some c =>
        simp only [pickId, Prog.bind]
        exact rest now o2 c (Int.le_refl _) (fun c' hc => by simpa using hc)

theorem reserve_wp {cfg : Cfg} {h : Hdr} {cid? : Option Str} {src dst : STP} {st en : Option Time} {w : World}
    {Q : World → Except Err Str → Prop}
    (hval : ∀ t o row, w.clk ≤ t → row ∈ w.rows → cid? = some row.cid →
      Q { w with heap := w.heap ++ [⟨row, false⟩], clk := t, orc := o } (.error .value))
    (herr : ∀ t1 o1 t o e, w.clk ≤ t1 → t1 ≤ t →
      (admission cfg h src dst st en = .error e ∨
        (admission cfg h src dst st en = .ok () ∧ AllocFails cfg src dst st en (w.at t1 o1) t e)) → Q (w.at t o) (.error e))
    (hdb : ∀ t1 o1 t o hs cid now sl dl, w.clk ≤ t1 → t1 ≤ t → IdFor cid? cid → w.idTaken cid = true →
      Allocated cfg src dst st en (w.at t1 o1) t sl dl → admission cfg h src dst st en = .ok () → t1 ≤ now → now ≤ t →
      hs = [⟨newRow cid h now src dst sl dl st en, true⟩] →
      Q { w with heap := w.heap ++ hs, cal := w.cal ++ [resvOf cfg src.port st en sl] ++ [resvOf cfg dst.port st en dl],
                 clk := t, orc := o } (.error .db))
    (hok : ∀ t1 o1 t o t0 now cid sl dl, w.clk ≤ t1 → t1 ≤ t0 → t0 ≤ now → now ≤ t → IdFor cid? cid → w.idTaken cid = false →
      admission cfg h src dst st en = .ok () → Allocated cfg src dst st en (w.at t1 o1) t0 sl dl →
      All (Prog.spawn (doReserve w.heap.length h.corr) (Prog.pure cid)) Q
        (w.stored t o (newRow cid h now src dst sl dl st en) (resvOf cfg src.port st en sl) (resvOf cfg dst.port st en dl))) :
    All (reserve cfg h cid? src dst st en) Q w := by
  have body : ∀ t1 o1, w.clk ≤ t1 → All (reserveBody cfg h cid? src dst st en) Q (w.at t1 o1) := by
    intro t1 o1 ht1
    apply reserveBody_wp
    · intro t o e ht hr
      exact herr t1 o1 t o e ht1 ht hr
    · intro t o hs cid now sl dl ht hid htk hal hadm h1 h2 hhs
      exact hdb t1 o1 t o hs cid now sl dl ht1 ht hid htk hal hadm h1 h2 hhs
    · intro t o t0 now cid sl dl h1 h2 h3 hid htk hadm hal
      exact hok t1 o1 t o t0 now cid sl dl ht1 h1 h2 h3 hid htk hadm hal
  unfold reserve
  cases cid? with
  | none => exact body w.clk w.orc (Int.le_refl _)
  | some c =>
    simp only
    by_cases hc : c = []
    · rw [if_pos hc]; exact body w.clk w.orc (Int.le_refl _)
    · rw [if_neg hc]
      apply All_find
      · intro t o ht _
        exact body t o ht
      · intro t o row ht hrow hcid
        exact hval t o row ht hrow (by rw [hcid])

end OpenNSA.Backend
