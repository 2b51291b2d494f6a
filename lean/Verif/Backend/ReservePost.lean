import Verif.Backend.Step
/-
What a reserve request does, from any world (connection ids unique, as the database schema ensures).
-/
namespace OpenNSA.Backend
open OpenNSA Py Prog

/-- Why a reservation can be refused. -/
def ReserveRefused (cfg : Cfg) (h : Hdr) (cid? : Option Str) (src dst : STP) (st en : Option Time) (w w' : World) (e : Err) : Prop :=
  (e = .value ∧ ∃ row ∈ w.rows, cid? = some row.cid) ∨
  admission cfg h src dst st en = .error e ∨
  (admission cfg h src dst st en = .ok () ∧ ∃ t1 o1 t, w.clk ≤ t1 ∧ t1 ≤ t ∧ t ≤ w'.clk ∧ AllocFails cfg src dst st en (w.at t1 o1) t e) ∨
  (e = .db ∧ ∃ cid, IdFor cid? cid ∧ w.idTaken cid = true)

theorem reserve_post {cfg : Cfg} {h : Hdr} {cid? : Option Str} {src dst : STP} {st en : Option Time} {w : World}
    (hn : (w.rows.map (·.cid)).Nodup) : All (reserve cfg h cid? src dst st en) (fun w' r =>
      (∀ e, r = .error e → w'.rows = w.rows ∧ w'.links = w.links ∧ w'.tbl = w.tbl ∧ w'.outbox = w.outbox ∧ (e ≠ .db → w'.cal = w.cal) ∧
        ReserveRefused cfg h cid? src dst st en w w' e) ∧
      (∀ cid, r = .ok cid → ∃ row, Accepted cfg h cid? src dst st en w w' cid row)) w := by
  apply reserve_wp
  · intro t o row ht hr hc
    refine ⟨fun e he => ?_, fun c hc => absurd hc (by simp)⟩
    simp at he; subst he
    exact ⟨rfl, rfl, rfl, rfl, fun _ => rfl, Or.inl ⟨rfl, row, hr, hc⟩⟩
  · intro t1 o1 t o e h1 h2 hwhy
    refine ⟨fun e' he => ?_, fun c hc => absurd hc (by simp)⟩
    simp at he; subst he
    refine ⟨rfl, rfl, rfl, rfl, fun _ => rfl, ?_⟩
    rcases hwhy with a | ⟨a, b⟩
    · exact Or.inr (Or.inl a)
    · exact Or.inr (Or.inr (Or.inl ⟨a, t1, o1, t, h1, h2, Int.le_refl _, b⟩))
  · intro t1 o1 t o hs cid now sl dl _ _ hid htk _ _ _ _ _
    refine ⟨fun e' he => ?_, fun c hc => absurd hc (by simp)⟩
    simp at he; subst he
    exact ⟨rfl, rfl, rfl, rfl, fun a => absurd rfl a, Or.inr (Or.inr (Or.inr ⟨rfl, cid, hid, htk⟩))⟩
  · intro t1 o1 t o t0 now cid sl dl h1 h2 h3 h4 hid htk hadm hal
    have hrel := reserve_local (cfg := cfg) (h := h) (src := src) (dst := dst) (st := st) (en := en) (t := t) (o := o) (now := now)
      (sl := sl) (dl := dl) htk hn
    have hnew := (idTaken_false htk).1
    let row := newRow cid h now src dst sl dl st en
    let w1 := w.stored t o row (resvOf cfg src.port st en sl) (resvOf cfg dst.port st en dl)
    let s : S := ⟨row, row, w1.cal, dget w.tbl cid, decide (cid ∈ w.links), [], t⟩
    have hl : LAll cid w.heap.length (doReserve w.heap.length h.corr) (fun s' _ => s'.row = row.withR .held ∧ s'.cal = s.cal ∧ s'.up = s.up ∧
        t ≤ s'.clk) s := by
      apply L_doReserve (by rfl) (by rfl)
      · intro t' due res out' ht' hd1 hd2 _ hout hres
        exact ⟨rfl, rfl, rfl, ht'⟩
      · intro t' e ht' he hlt
        exact ⟨rfl, rfl, rfl, ht'⟩
      · intro t' ht''
        have ht' : t ≤ t' := by
          have : (0 : Int) ≤ tpcTimeout := by decide
          have : (0 : Int) ≤ second := by decide
          simp only [s] at ht''; omega
        exact ⟨rfl, rfl, rfl, ht'⟩
    refine All_mono (p := doReserve w.heap.length h.corr) ?_ (All_of_LAll hl hrel)
    rintro w' r ⟨s', hrel', e1, e2, e3, e4⟩
    refine ⟨fun e he => absurd he (by simp), fun c hc => ⟨row.withR .held, ?_⟩⟩
    simp at hc; subst hc
    have hclk : w'.clk = s'.clk := hrel'.clk
    exact
      { id := hid
        fresh := htk
        adm := hadm
        alloc := ⟨t0, t1, now, o1, sl, dl, h1, h2, h3, by rw [hclk]; omega, hal, rfl⟩
        rows := by
          rw [hrel'.rows, e1]
          exact setRow_last hnew rfl
        cal := by rw [hrel'.cal, e2]; rfl
        links := fun c hc => by
          by_cases e : c = cid
          · exact Or.inr e
          · exact Or.inl ((hrel'.links c e).mp hc)
        up := by
          have := hrel'.up
          rw [e3] at this
          simp only [s, decide_eq_decide] at this
          exact this
        tbl := fun c hc => hrel'.tbl c hc }

/-- The same for a step. -/
theorem step_reserve {cfg : Cfg} {h : Hdr} {cid? : Option Str} {src dst : STP} {st en : Option Time} {w : World} (o : Oracle)
    (hn : (w.rows.map (·.cid)).Nodup) {w' : World} {r : Except Err (Option Str)}
    (hs : step cfg w o (.req h (.reserve cid? src dst st en)) = (w', r)) :
      (∀ e, r = .error e → w'.rows = w.rows ∧ w'.links = w.links ∧ w'.tbl = w.tbl ∧ w'.outbox = w.outbox ∧ (e ≠ .db → w'.cal = w.cal) ∧
        ReserveRefused cfg h cid? src dst st en (w.with o) w' e) ∧
      (∀ c, r = .ok c → ∃ cid row, c = some cid ∧ Accepted cfg h cid? src dst st en (w.with o) w' cid row) := by
  have := run_of_All (All_map (f := fun c : Str => (some c : Option Str))
    (Q := fun w' r =>
      (∀ e, r = .error e → w'.rows = w.rows ∧ w'.links = w.links ∧ w'.tbl = w.tbl ∧ w'.outbox = w.outbox ∧ (e ≠ .db → w'.cal = w.cal) ∧
        ReserveRefused cfg h cid? src dst st en (w.with o) w' e) ∧
      (∀ c, r = .ok c → ∃ cid row, c = some cid ∧ Accepted cfg h cid? src dst st en (w.with o) w' cid row))
    (All_mono (fun w' r hq => ?_) (reserve_post (cfg := cfg) (h := h) (cid? := cid?) (src := src) (dst := dst) (st := st) (en := en)
      (w := w.with o) hn)))
  · have e : step cfg w o (.req h (.reserve cid? src dst st en)) =
        ((reserve cfg h cid? src dst st en).bind fun c => Prog.pure (some c)).run (w.with o) := rfl
    rw [← e, hs] at this
    exact this
  · cases r with
    | error e => exact ⟨fun e' he => by simp [Except.map] at he; subst he; exact hq.1 _ rfl, fun c hc => absurd hc (by simp [Except.map])⟩
    | ok c =>
      refine ⟨fun e' he => absurd he (by simp [Except.map]), fun x hx => ?_⟩
      obtain ⟨row, ha⟩ := hq.2 c rfl
      simp [Except.map] at hx
      exact ⟨c, row, hx.symm, ha⟩

end OpenNSA.Backend
