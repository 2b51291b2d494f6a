import Verif.Backend.Global
/-
`reserve` preserves the invariant.
-/
namespace OpenNSA.Backend
open OpenNSA Py Prog

theorem Confirmed.of_append {a b : List Msg} {c : Str} (h : Confirmed (a ++ b) c) : Confirmed a c ∨ Confirmed b c := by
  obtain ⟨x1, x2, x3, x4, x5, hm⟩ := h
  rcases List.mem_append.mp hm with hm | hm
  · exact Or.inl ⟨x1, x2, x3, x4, x5, hm⟩
  · exact Or.inr ⟨x1, x2, x3, x4, x5, hm⟩

/-- A booking made later than it was checked occupies less. -/
theorem Booked.clash_later {b : Booked} {r : Resv} {t t' : Time} (h : t ≤ t') (hc : b.Clash ⟨r, t'⟩) : b.Clash ⟨r, t⟩ := by
  obtain ⟨h1, x, h2, h3, h4⟩ := hc
  refine ⟨h1, x, h2, ?_, h4⟩
  simp only at h3 ⊢
  cases hs : r.start with
  | none => rw [hs] at h3; simp only [Option.getD_none] at *; omega
  | some s => rw [hs] at h3; exact h3

theorem Booked.clash_symm {a b : Booked} (h : a.Clash b) : b.Clash a := by
  obtain ⟨h1, x, h2, h3⟩ := h
  exact ⟨h1.symm, x, h3, h2⟩

/-- A reservation whose resource was found free does not clash with the claims of the stored connections. -/
theorem GInvN.free_noClash {cfg : Cfg} {w : World} (h : GInv cfg allLoaded w) {b : Row} (hb : b ∈ w.rows) (hcl : b.claims)
    {r : Resv} {t1 t made : Time} (h1 : w.clk ≤ t1) (h2 : t ≤ made) (ht : t < forever) (hf : FreeIn w.cal t1 t r) :
    ∀ x ∈ b.books cfg, ¬ x.Clash ⟨r, made⟩ := by
  obtain ⟨tc, a1, a2, hc⟩ := hf
  intro x hx hclash
  have hclash := Booked.clash_later (show tc ≤ made by omega) hclash
  have hok := (h.conn b hb).row
  rcases hcl with hcl | hcl
  · have hxr : x.resv ∈ ents cfg b ∧ x.startOk := by
      rw [ents_holds hcl]
      simp only [Row.books, List.mem_cons, List.not_mem_nil, or_false] at hx
      rcases hx with hx | hx <;> subst hx
      · exact ⟨by simp [srcResv], hok.s95⟩
      · exact ⟨by simp [dstResv], hok.s95⟩
    refine no_clash_of_check hxr.2 (by omega) ?_ hc hclash
    refine h.cal.symm.subset ?_
    rw [List.mem_flatMap]
    exact ⟨b, by simpa using hb, hxr.1⟩
  · obtain ⟨e, he, _, hlt⟩ := hok.ended hcl.1
    have hlt := hlt hcl.2
    obtain ⟨_, u, ⟨_, hu⟩, hu', _⟩ := hclash
    have hue : u ≤ e := by
      apply hu
      simp only [Row.books, List.mem_cons, List.not_mem_nil, or_false] at hx
      rcases hx with hx | hx <;> subst hx <;> exact he
    have hs := (check_ok.mp hc).1
    simp only at hu'
    cases hst : r.start with
    | none => rw [hst] at hu'; simp only [Option.getD_none] at hu'; omega
    | some s =>
      rw [hst] at hu'; simp only [Option.getD_some] at hu'
      have := (hs.2 s hst).1
      omega

/-- What an accepted reservation has stored. -/
structure Accepted (cfg : Cfg) (h : Hdr) (cid? : Option Str) (src dst : STP) (st en : Option Time) (w w' : World) (cid : Str)
    (row : Row) : Prop where
  id : IdFor cid? cid
  fresh : w.idTaken cid = false
  adm : admission cfg h src dst st en = .ok ()
  alloc : ∃ t0 t1 t2 o sl dl, w.clk ≤ t1 ∧ t1 ≤ t0 ∧ t0 ≤ t2 ∧ t2 ≤ w'.clk ∧ Allocated cfg src dst st en (w.at t1 o) t0 sl dl ∧
    row = (newRow cid h t2 src dst sl dl st en).withR .held
  rows : w'.rows = w.rows ++ [row]
  cal : w'.cal = w.cal ++ [srcResv cfg row] ++ [dstResv cfg row]
  links : ∀ c, c ∈ w'.links → c ∈ w.links ∨ c = cid
  up : cid ∈ w'.links ↔ cid ∈ w.links
  tbl : ∀ c, c ≠ cid → dget w'.tbl c = dget w.tbl c

theorem reserve_local {cfg : Cfg} {h : Hdr} {src dst : STP} {st en : Option Time} {w : World} {t : Time} {o : Oracle} {now : Time}
    {cid : Str} {sl dl : Option LabelVal} (hn : w.idTaken cid = false) (hnd : (w.rows.map (·.cid)).Nodup) :
    let row := newRow cid h now src dst sl dl st en
    let w1 := w.stored t o row (resvOf cfg src.port st en sl) (resvOf cfg dst.port st en dl)
    Rel { w1 with cal := w.cal } cid w.heap.length w1
      ⟨row, row, w1.cal, dget w.tbl cid, decide (cid ∈ w.links), [], t⟩ := by
  intro row w1
  have hn := (idTaken_false hn).1
  have hm : row ∈ w1.rows := by simp [w1, World.stored]
  have hnd1 : (w1.rows.map (·.cid)).Nodup := by
    simp only [w1, World.stored, List.map_append, List.map_cons, List.map_nil]
    rw [List.nodup_append]
    refine ⟨hnd, by simp, ?_⟩
    intro a ha b hb
    obtain ⟨r, hr, e⟩ := List.mem_map.mp ha
    simp at hb
    subst hb
    rw [← e]; exact hn r hr
  exact
    { rows := (setRow_self hnd1 hm).symm
      rcid := rfl
      ocid := rfl
      obj := by simp [w1, World.stored]
      heap := fun _ _ => rfl
      cal := rfl
      tm := rfl
      tbl := fun _ _ => rfl
      up := rfl
      links := fun _ _ => Iff.rfl
      out := by simp
      clk := rfl
      ids := rfl }

theorem GInvN.stored {cfg : Cfg} {h : Hdr} {src dst : STP} {st en : Option Time} {w : World} (hw : GInv cfg allLoaded w)
    {t : Time} {o : Oracle} {now : Time} {cid : Str} {sl dl : Option LabelVal} (hn : w.idTaken cid = false) (hclk : w.clk ≤ t)
    (hnow : now ≤ t) (h1 : ∀ s e, st = some s → en = some e → s ≤ e) (h2 : ∀ s, st = some s → s ≤ year2095)
    (h3 : st = none → ∀ e, en = some e → now ≤ e) (a b : Resv) :
    GInv cfg allLoaded { (w.stored t o (newRow cid h now src dst sl dl st en) a b) with cal := w.cal } := by
  have hn := (idTaken_false hn).1
  have hidle := hw.idle t o [⟨newRow cid h now src dst sl dl st en, false⟩] hclk
  have hno : ∀ c, (∃ r ∈ w.rows, r.cid = c) → c ≠ cid := by
    rintro c ⟨r, hr, e⟩ e'
    exact hn r hr (e.trans e')
  have hmem : ∀ r, r ∈ w.rows ++ [newRow cid h now src dst sl dl st en] ↔ r ∈ w.rows ∨ r = newRow cid h now src dst sl dl st en := by
    simp
  have hnh : (newRow cid h now src dst sl dl st en).holds = false := by
    apply holds_false; rintro ⟨_, h | h⟩ <;> simp [newRow, ConnStates.fresh] at h
  have hncl : ¬ (newRow cid h now src dst sl dl st en).claims := by
    rintro (h | h)
    · rw [hnh] at h; exact absurd h (by simp)
    · exact absurd h.1 (by simp [newRow, ConnStates.fresh])
  constructor
  · simp only [World.stored, List.map_append, List.map_cons, List.map_nil]
    rw [List.nodup_append]
    refine ⟨hw.nodup, by simp, ?_⟩
    intro a ha b hb
    obtain ⟨r, hr, e⟩ := List.mem_map.mp ha
    simp at hb
    subst hb
    rw [← e]; exact hn r hr
  · intro r hr
    rcases (hmem r).mp hr with hr | hr
    · have hc := hidle.conn r hr
      exact { row := hc.row, timer := hc.timer, link := hc.link, exp := hc.exp }
    · subst hr
      refine ⟨?_, ?_, ?_, ?_⟩
      · exact
          { lc := Or.inl rfl
            rs := Or.inl rfl
            pv := fun h => absurd rfl h
            act := fun h => absurd h (by simp [newRow])
            ended := fun h => absurd h (by simp [newRow, ConnStates.fresh])
            order := h1
            timely := h3
            made := hnow
            s95 := h2 }
      · intro tm h1 h2
        exact absurd rfl (hno _ (hw.timers _ tm h1 h2).2)
      · have : (decide ((newRow cid h now src dst sl dl st en).cid ∈ w.links)) = false := by
          rw [decide_eq_false_iff_not]
          intro hl
          exact absurd rfl (hno _ (hw.links _ hl))
        refine ⟨fun h => absurd h (by simp [newRow]), fun h => ?_⟩
        exact absurd (h.symm.trans this) (by simp)
      · intro _ _ h
        exact absurd h (by simp [newRow, ConnStates.fresh])
  · intro c tm h1 h2
    obtain ⟨h3, r, h4, h5⟩ := hw.timers c tm h1 h2
    exact ⟨h3, r, (hmem r).mpr (Or.inl h4), h5⟩
  · intro c hc
    obtain ⟨r, h4, h5⟩ := hw.links c hc
    exact ⟨r, (hmem r).mpr (Or.inl h4), h5⟩
  · have := hw.cal
    simp only [World.stored, List.filter_append, List.flatMap_append]
    rw [show ([newRow cid h now src dst sl dl st en].filter fun r => allLoaded r.cid) = [newRow cid h now src dst sl dl st en] from rfl,
      List.flatMap_cons, ents_free hnh]
    simpa using this
  · intro _ a ha b hb hab ca cb
    rcases (hmem a).mp ha with ha | ha
    · rcases (hmem b).mp hb with hb | hb
      · exact hw.nc a ha b hb hab ca cb
      · subst hb; exact absurd cb hncl
    · subst ha; exact absurd ca hncl
  · intro c hc
    obtain ⟨r, h4, h5⟩ := hw.conf c hc
    exact ⟨r, (hmem r).mpr (Or.inl h4), h5⟩

/-- The start time of a reservation lies before its end, and times are not too late. -/
theorem Allocated.sane {cfg : Cfg} {src dst : STP} {st en : Option Time} {w : World} {t : Time} {sl dl : Option LabelVal}
    (h : Allocated cfg src dst st en w t sl dl) :
    (∀ s e, st = some s → en = some e → s ≤ e) ∧ (∀ s, st = some s → w.clk ≤ s ∧ s ≤ year2095) := by
  obtain ⟨tc, a, _, hc⟩ := h.srcFree
  have hs := (check_ok.mp hc).1
  refine ⟨hs.1, fun s h => ?_⟩
  have := hs.2 s h
  exact ⟨by omega, this.2⟩

/-- Conditions on a reserve request that was answered: see C22. -/
def ReserveClean (st en : Option Time) (w' : World) (r : Except Err Str) : Prop :=
  r ≠ .error .db ∧ w'.clk < forever ∧ (st = none → ∀ e, en = some e → (∃ c, r = .ok c) → w'.clk ≤ e)

theorem setRow_last {rows : List Row} {a b : Row} (h : ∀ r ∈ rows, r.cid ≠ a.cid) (hc : b.cid = a.cid) :
    setRow (rows ++ [a]) b = rows ++ [b] := by
  unfold setRow
  rw [List.map_append]
  congr 1
  · conv => rhs; rw [← List.map_id rows]
    apply List.map_congr_left
    intro r hr
    rw [if_neg]
    · rfl
    · rw [hc]; exact h r hr
  · simp [hc]

theorem reserve_inv {cfg : Cfg} {h : Hdr} {cid? : Option Str} {src dst : STP} {st en : Option Time} {w : World}
    (hw : GInv cfg allLoaded w) : All (reserve cfg h cid? src dst st en) (fun w' r => ReserveClean st en w' r →
      GInv cfg allLoaded w' ∧
      ((∃ e, r = .error e ∧ w'.rows = w.rows ∧ w'.cal = w.cal ∧ w'.links = w.links ∧ w'.tbl = w.tbl ∧ w.clk ≤ w'.clk) ∨
       (∃ cid row, r = .ok cid ∧ Accepted cfg h cid? src dst st en w w' cid row))) w := by
  apply reserve_wp
  · intro t o row ht hr _ _
    exact ⟨hw.idle t o _ ht, Or.inl ⟨_, rfl, rfl, rfl, rfl, rfl, ht⟩⟩
  · intro t1 o1 t o e h1 h2 _ _
    refine ⟨?_, Or.inl ⟨_, rfl, rfl, rfl, rfl, rfl, by simp only; omega⟩⟩
    have := hw.idle t o [] (by omega)
    rw [List.append_nil] at this
    exact this
  · intro t1 o1 t o hs cid now sl dl _ _ _ _ _ _ _ _ _ hcl
    exact absurd rfl hcl.1
  · intro t1 o1 t o t0 now cid sl dl h1 h2 h3 h4 hid htk hadm hal
    have hrel := reserve_local (cfg := cfg) (h := h) (src := src) (dst := dst) (st := st) (en := en) (t := t) (o := o) (now := now)
      (sl := sl) (dl := dl) htk hw.nodup
    have hn := (idTaken_false htk).1
    obtain ⟨hord, hst⟩ := hal.sane
    have hno : ∀ c, (∃ r ∈ w.rows, r.cid = c) → c ≠ cid := by
      rintro c ⟨r, hr, e⟩ e'
      exact hn r hr (e.trans e')
    have hnl : cid ∉ w.links := fun hl => hno _ (hw.links _ hl) rfl
    have hnc : ¬ Confirmed w.outbox cid := fun hl => hno _ (hw.conf _ hl) rfl
    let row := newRow cid h now src dst sl dl st en
    let w1 := w.stored t o row (resvOf cfg src.port st en sl) (resvOf cfg dst.port st en dl)
    let w0 : World := { w1 with cal := w.cal }
    let s : S := ⟨row, row, w1.cal, dget w.tbl cid, decide (cid ∈ w.links), [], t⟩
    have hup : s.up = false := by simp [s, hnl]
    -- good
    have good : w0.clk < forever → (st = none → ∀ e, en = some e → now ≤ e) → ∀ t' tm' out', t ≤ t' →
        (∀ tm, tm' = some tm → TimerOk (row.withR .held) tm ∧ tm.ref = w.heap.length) →
        (Confirmed out' cid → ExpTimer t' (row.withR .held) tm') → (∀ c, c ≠ cid → ¬ Confirmed out' c) →
        Good cfg w.heap.length true row s w0.outbox (restEnts cfg allLoaded w0.rows row.cid) (NcOthers cfg w0)
          { (s.put (row.withR .held)) with clk := t', tm := tm', out := out' } := by
      intro hfor htimely t' tm' out' ht' htm hexp hconf
      have hg0 := hw.stored (h := h) (src := src) (dst := dst) (sl := sl) (dl := dl) (o := o) htk (by omega : w.clk ≤ t) h4 hord
        (fun s hs => (hst s hs).2) htimely (resvOf cfg src.port st en sl) (resvOf cfg dst.port st en dl)
      have hr0 : row ∈ w0.rows := by simp [w0, w1, World.stored]
      have hok := ((hg0.conn row hr0).row).mono (show w0.clk ≤ t' from ht')
      have hhold : (row.withR .held).holds = true := holds_iff.mpr ⟨rfl, Or.inl rfl⟩
      exact
        { row := { hok with
            rs := Or.inr (Or.inl ⟨rfl, rfl⟩)
            ended := fun h => absurd h (by simp [row, newRow, ConnStates.fresh]) }
          timer := fun tm h1 h2 => ⟨(htm tm h1).1, rfl, Or.inr ⟨(htm tm h1).2, rfl⟩⟩
          link := by
            refine ⟨fun h => absurd h (by simp [row, newRow]), fun h => ?_⟩
            have h : s.up = true := h
            rw [hup] at h
            exact absurd h (by simp)
          cal := by
            simp only [ldEnts, if_true]
            rw [ents_holds hhold]
            have h5 := flatMap_split cfg allLoaded hg0.nodup hr0
            have h6 := hg0.cal.trans h5
            have hnh : row.holds = false := by
              apply holds_false; rintro ⟨_, h | h⟩ <;> simp [row, newRow, ConnStates.fresh] at h
            rw [show ldEnts cfg (allLoaded row.cid) row = [] by simp [ldEnts, ents_free hnh], List.nil_append] at h6
            show (w.cal ++ [_] ++ [_]).Perm _
            rw [List.append_assoc]
            refine (List.perm_append_comm).trans ?_
            exact List.Perm.append_left _ h6
          claims := by
            intro _ b hb hne hcb
            have hb' : b ∈ w.rows := by
              have hb : b ∈ w.rows ++ [row] := hb
              rcases List.mem_append.mp hb with hb | hb
              · exact hb
              · simp at hb; subst hb; exact absurd rfl hne
            have hfor' : t0 < forever := by
              have : t < forever := hfor
              omega
            have k1 := hw.free_noClash hb' hcb (made := now) h1 h3 hfor' hal.srcFree
            have k2 := hw.free_noClash hb' hcb (made := now) h1 h3 hfor' hal.dstFree
            have key : NoClash cfg b (row.withR .held) := by
              intro x hx y hy
              simp only [Row.books, List.mem_cons, List.not_mem_nil, or_false] at hy
              rcases hy with hy | hy <;> subst hy
              · exact k1 x hx
              · exact k2 x hx
            exact ⟨key, fun x hx y hy hc => key y hy x hx (Booked.clash_symm hc)⟩
          exp := by
            intro _ _ _ hc
            rcases hc.of_append with hc | hc
            · exact absurd hc hnc
            · exact hexp hc
          conf := by
            intro c hc hcf
            rcases hcf.of_append with h | h
            · exact h
            · exact absurd h (hconf c hc)
          newUp := fun h => Or.inl h
          later := ht' }
    have hl : LAll cid w.heap.length (doReserve w.heap.length h.corr) (fun s' _ => s'.row = row.withR .held ∧ s'.cal = s.cal ∧ s'.up = false ∧
        t ≤ s'.clk ∧ (s'.clk < forever → (st = none → ∀ e, en = some e → s'.clk ≤ e) →
          Good cfg w.heap.length true row s w0.outbox (restEnts cfg allLoaded w0.rows row.cid) (NcOthers cfg w0) s')) s := by
      apply L_doReserve (by rfl) (by rfl)
      · intro t' due res out' ht' hd1 hd2 _ hout hres
        refine ⟨rfl, rfl, hup, ht', fun hf htl => ?_⟩
        subst hout
        simp only at hf htl
        refine good (by show t < forever; simp only [s] at ht'; omega) (fun a e b => by have := htl a e b; simp only [s] at ht'; omega) t' _ _ ht' ?_ ?_ ?_
        · intro tm h; simp at h; subst h; exact ⟨⟨rfl, rfl⟩, rfl⟩
        · intro _; exact ⟨due, _, rfl, hd1, hd2⟩
        · rintro c hc ⟨x1, x2, x3, x4, x5, hm⟩
          simp [s] at hm
          exact hc hm.2.1
      · intro t' e ht' he hlt
        refine ⟨rfl, rfl, hup, ht', fun hf htl => ?_⟩
        simp only at hf htl
        refine good (by show t < forever; simp only [s] at ht'; omega) (fun a e b => by have := htl a e b; simp only [s] at ht'; omega) t' none [] ht' ?_ ?_ ?_
        · intro tm h; exact absurd h (by simp)
        · rintro ⟨x1, x2, x3, x4, x5, hm⟩; exact absurd hm (by simp)
        · rintro c hc ⟨x1, x2, x3, x4, x5, hm⟩; exact absurd hm (by simp)
      · intro t' ht''
        have ht' : t ≤ t' := by
          have : (0 : Int) ≤ tpcTimeout := by decide
          have : (0 : Int) ≤ second := by decide
          simp only [s] at ht''; omega
        refine ⟨rfl, rfl, hup, ht', fun hf htl => ?_⟩
        simp only at hf htl
        refine good (by show t < forever; omega) (fun a e b => by have := htl a e b; omega) t' none [] ht' ?_ ?_ ?_
        · intro tm h; exact absurd h (by simp)
        · rintro ⟨x1, x2, x3, x4, x5, hm⟩; exact absurd hm (by simp)
        · rintro c hc ⟨x1, x2, x3, x4, x5, hm⟩; exact absurd hm (by simp)
    refine All_mono (p := doReserve w.heap.length h.corr) ?_ (All_of_LAll hl hrel)
    rintro w' r ⟨s', hrel', e1, e2, e3, e4, hg⟩
    intro hcl
    have hclk : w'.clk = s'.clk := hrel'.clk
    have hfor : s'.clk < forever := by rw [← hclk]; exact hcl.2.1
    have htl : st = none → ∀ e, en = some e → s'.clk ≤ e := fun a e b => by rw [← hclk]; exact hcl.2.2 a e b ⟨_, rfl⟩
    have hg0 := hw.stored (h := h) (src := src) (dst := dst) (sl := sl) (dl := dl) (o := o) htk (by omega : w.clk ≤ t) h4 hord
      (fun s hs => (hst s hs).2) (fun a e b => by have := htl a e b; omega) (resvOf cfg src.port st en sl) (resvOf cfg dst.port st en dl)
    have hr0 : row ∈ w0.rows := by simp [w0, w1, World.stored]
    refine ⟨hg0.focus (row0 := row) (s0 := s) hr0 (by simp [World.stored, row]) hrel' (fun _ _ => rfl) (Int.le_refl _) (fun tm a _ => a) (hg hfor htl),
      Or.inr ⟨cid, row.withR .held, rfl, ?_⟩⟩
    exact
      { id := hid
        fresh := htk
        adm := hadm
        alloc := ⟨t0, t1, now, o1, sl, dl, h1, h2, h3, by rw [hclk]; omega, hal, rfl⟩
        rows := by
          rw [hrel'.rows, e1]
          exact setRow_last hn rfl
        cal := by rw [hrel'.cal, e2]; rfl
        links := fun c hc => by
          by_cases e : c = cid
          · exact Or.inr e
          · exact Or.inl ((hrel'.links c e).mp hc)
        up := by
          have := hrel'.up
          rw [e3] at this
          simp at this
          simp [this, hnl]
        tbl := fun c hc => hrel'.tbl c hc }

end OpenNSA.Backend
