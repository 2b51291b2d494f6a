import Verif.Backend.History
import Verif.Backend.PropsReserve
/-
Properties of the backend over histories: C21-C26, C54.
-/
namespace OpenNSA.Backend
open OpenNSA Py Prog

/-! ### C21, C22 -/

/-- C21, between connections: in clean histories no two connections that hold or own resources occupy the same resource at
a common instant. -/
theorem C21_connections_partial (cfg : Cfg) (w : World) (h : Reach cfg w) (a b : Row) (ha : a ∈ w.rows) (hb : b ∈ w.rows)
    (hne : a.cid ≠ b.cid) (hha : a.holds = true) (hhb : b.holds = true) :
    ∀ x ∈ a.books cfg, ∀ y ∈ b.books cfg, ¬ x.Clash y :=
  h.inv.nc a ha b hb hne (Or.inl hha) (Or.inl hhb)

/-- C21, the two ends of one connection: if the ports are different or no label value is wanted at both ends, and the device
names resources of different ports or labels differently, then the ends of an accepted connection never clash, then or later. -/
theorem C21_ends_partial (cfg : Cfg) (w : World) (o : Oracle) (h : Hdr) (cid? : Option Str) (src dst : STP) (st en : Option Time)
    (hr : Reach cfg w) (w1 w2 : World) (cid : Str) (hs : step cfg w o (.req h (.reserve cid? src dst st en)) = (w1, .ok (some cid)))
    (hc : CleanStep (.req h (.reserve cid? src dst st en)) w1 (.ok (some cid)))
    (ht : TextLabels cfg src dst) (hsep : src.port ≠ dst.port ∨ ∀ v, Wanted src.label v → ¬ Wanted dst.label v)
    (hres : ∀ u v, cfg.mgr.getResource src.port u = cfg.mgr.getResource dst.port v → src.port = dst.port ∧ u = v)
    (hk : Hist cfg w1 w2) (y : Row) (hy : y ∈ w2.rows) (hyc : y.cid = cid) :
    ∀ p q, y.books cfg = [p, q] → ¬ p.Clash q := by
  have hw1 : w1 = (step cfg w o (.req h (.reserve cid? src dst st en))).1 := by rw [hs]
  have hr1 : Reach cfg w1 := by
    rw [hw1]; refine .step o _ hr ?_; rw [hs]; exact hc
  obtain ⟨row, hrows, h1, h2⟩ := C20_smallest cfg w o h cid? src dst st en w1 _ hs ht hr.inv.nodup
  obtain ⟨cid', row', e, ha⟩ := (step_reserve o hr.inv.nodup hs).2 _ rfl
  have hrr : row' = row := by
    have := ha.rows.symm.trans hrows
    simpa using this
  simp at e; subst e; subst hrr
  obtain ⟨_, _, t2, _, sl, dl, _, _, _, _, _, hrow⟩ := ha.alloc
  have hport : row'.srcPort = src.port ∧ row'.dstPort = dst.port ∧ row'.cid = cid := by rw [hrow]; exact ⟨rfl, rfl, rfl⟩
  have hdiff : cfg.mgr.getResource row'.srcPort row'.srcLabel ≠ cfg.mgr.getResource row'.dstPort row'.dstLabel := by
    rw [hport.1, hport.2.1]
    intro hx
    obtain ⟨k1, k2⟩ := hres _ _ hx
    rcases hsep with hsep | hsep
    · exact hsep k1
    · by_cases hsw : Swaps cfg src dst
      · obtain ⟨m1, m2, _⟩ := h1 hsw
        rw [k2] at m1
        exact hsep _ m1 m2
      · obtain ⟨_, m, _⟩ := h2 hsw
        have hadm := (C18_admission_exact cfg h src dst st en ht).mp ha.adm
        obtain ⟨sp, dp, hadm⟩ := hadm
        have hsd : sp = dp := by
          have := hadm.ports.1; rw [k1, hadm.ports.2] at this; simpa using this.symm
        subst hsd
        unfold WantedBoth at m
        rcases hadm.meet with ⟨⟨a1, a2⟩ | ⟨a, b, a1, a2, _⟩, ⟨b1, b2⟩ | ⟨c, d, b1, b2, _⟩⟩
        · exact hadm.different ⟨k1, by rw [a2, b2]; rfl⟩
        · rw [a1] at b1; exact absurd b1 (by simp)
        · rw [a1] at b1; exact absurd b1 (by simp)
        · rw [a2, b2] at m hsep
          exact hsep _ m.1 m.2
  have hm : row' ∈ w1.rows := by rw [hrows]; simp
  have hev := hk.row hr1 hm hy (hyc.trans hport.2.2.symm)
  intro p q hpq hcl
  simp only [Row.books, List.cons.injEq, and_true] at hpq
  obtain ⟨rfl, rfl⟩ := hpq
  obtain ⟨e1, e2, e3, e4, e5, e6, e7, e8, e9⟩ := hev.same
  have := hcl.1
  simp only [e4, e5, e6, e7] at this
  exact hdiff this

/-- C22: in clean histories the calendar holds exactly the entries of the connections that hold or own resources, each once
per end. -/
theorem C22_calendar_partial (cfg : Cfg) (w : World) (h : Reach cfg w) : w.cal.Perm (w.booked cfg) := by
  rw [← booked_eq]; exact h.inv.cal

/-! ### C23 -/

/-- C23: a link is only set up for a committed connection with provisioning requested, that has started and neither ended
nor been terminated. -/
theorem C23_setup_partial (cfg : Cfg) (w : World) (h : Reach cfg w) (o : Oracle) (e : Ev)
    (hc : CleanStep e (step cfg w o e).1 (step cfg w o e).2) (cid : Str) (h0 : ¬ w.up cid) (h1 : (step cfg w o e).1.up cid) :
    ∃ x ∈ (step cfg w o e).1.rows, x.cid = cid ∧ x.allocated = true ∧ x.st.p = .provisioned ∧ x.st.l = .created ∧
      ∀ s, x.start = some s → s ≤ (step cfg w o e).1.clk := by
  rcases (h.evolves o e hc).2 cid h1 with h2 | ⟨x, hx, hxc, a, b, c, d⟩
  · exact absurd h2 h0
  · exact ⟨x, hx, hxc, a, b, c, d⟩

/-- C23: a connection marked active is committed, provisioned, started, neither ended nor terminated, and its link is up; a
link that is up without its connection being marked active was reported as failed. -/
theorem C23_active_partial (cfg : Cfg) (w : World) (h : Reach cfg w) (x : Row) (hx : x ∈ w.rows) :
    (x.active = true → x.allocated = true ∧ x.st.r = .start ∧ x.st.p = .provisioned ∧ x.st.l = .created ∧ w.up x.cid ∧
      ∀ s, x.start = some s → s ≤ w.clk) ∧
    (w.up x.cid → x.active = true ∨ Reported w.outbox x.cid) := by
  have hc := h.inv.conn x hx
  refine ⟨fun ha => ?_, fun hu => hc.link.2 (decide_eq_true hu)⟩
  obtain ⟨h1, h2, h3⟩ := hc.row.act ha
  have hal : x.allocated = true := hc.row.pv (by rw [h2]; simp)
  refine ⟨hal, ?_, h2, h1, by simpa [World.up] using hc.link.1 ha, h3⟩
  rcases hc.row.rs with e | e | e
  · exact e
  · rw [e.2] at hal; exact absurd hal (by simp)
  · rw [e.2.2] at hal; exact absurd hal (by simp)

/-! ### C24 -/

/-- C24: as long as a confirmed reservation is held, its timeout call is pending, due two minutes after the confirmation and
one second after its end time at the latest (or due now, if a restart found it late). -/
theorem C24_deadline_partial (cfg : Cfg) (w1 w2 : World) (h : Reach cfg w1) (hk : Hist cfg w1 w2) (x y : Row) (hx : x ∈ w1.rows)
    (hconf : Confirmed w1.outbox x.cid) (hy : y ∈ w2.rows) (hxy : y.cid = x.cid) (hl : y.st.l = .created) (hr : y.st.r = .held) :
    ∃ due ref, w2.pending x.cid = some ⟨due, .reserveTimeout, ref, false⟩ ∧ (due ≤ w1.clk + 120 * second ∨ due ≤ w2.clk) ∧
      (∀ e, x.end_ = some e → due ≤ e + second ∨ due ≤ w2.clk) := by
  have key : ∃ due ref, dget w2.tbl x.cid = some ⟨due, .reserveTimeout, ref, false⟩ ∧ (due ≤ w1.clk + 120 * second ∨ due ≤ w2.clk) ∧
      (∀ e, x.end_ = some e → due ≤ e + second ∨ due ≤ w2.clk) := by
    induction hk generalizing y with
    | refl =>
      have := eq_of_cid h.inv.nodup hy hx hxy
      subst this
      obtain ⟨due, ref, h1, h2, h3⟩ := (h.inv.conn y hx).exp rfl hl hr hconf
      exact ⟨due, ref, h1, Or.inl h2, fun e he => Or.inl (h3 e he)⟩
    | @step w3 o e hk hc ih =>
      have hr3 := h.hist hk
      have hr4 : Hist cfg w3 (step cfg w3 o e).1 := .step o e .refl hc
      obtain ⟨z, hz, hez⟩ := hk.evolves h x hx
      have hzy := hr4.row hr3 hz hy (hxy.trans hez.same.1.symm)
      obtain ⟨zl, zr, _⟩ := held_before ((hr3.hist hr4).inv.conn y hy).row hzy hl hr
      have hclk : w3.clk ≤ (step cfg w3 o e).1.clk := hr3.clk_le o e hc
      have hsec : (0 : Int) ≤ second := by decide
      rcases hr3.held_timer o e hc hz hy (hxy.trans hez.same.1.symm) hl hr with ht | ht
      · obtain ⟨due, ref, h1, h2, h3⟩ := ih z hz hez.same.1 zl zr
        rw [hez.same.1] at ht
        refine ⟨due, ref, by rw [ht]; exact h1, by omega, fun e he => ?_⟩
        have := h3 e he
        omega
      · obtain ⟨due, ref, h1, h2, h3⟩ := ht.held hl hr
        rw [hez.same.1] at h1
        have hmade := (h.inv.conn x hx).row.made
        have e1 : y.reserveTime = x.reserveTime := hzy.same.2.2.1.trans hez.same.2.2.1
        have e2 : y.end_ = x.end_ := hzy.same.2.2.2.2.2.2.2.2.trans hez.same.2.2.2.2.2.2.2.2
        have etp : tpcTimeout = 120 * second := rfl
        refine ⟨due, ref, h1, by omega, fun e he => ?_⟩
        rw [← e2] at he
        have := h3 e he
        omega
  obtain ⟨due, ref, h1, h2⟩ := key
  refine ⟨due, ref, ?_, h2⟩
  unfold World.pending
  rw [h1]

/-- C24: when the timeout call of a held reservation runs, the reservation is rolled back: its two entries leave the calendar
and the requester is told. Ever after it holds nothing and a commit is refused without effect. -/
theorem C24_expires_partial (cfg : Cfg) (w : World) (h : Reach cfg w) (x : Row) (hx : x ∈ w.rows) (due : Time) (ref : Nat)
    (hp : w.pending x.cid = some ⟨due, .reserveTimeout, ref, false⟩) (hdue : due ≤ w.clk) (o : Oracle) (w1 : World)
    (r : Except Err (Option Str)) (hs : step cfg w o (.fire x.cid) = (w1, r)) :
    r = .ok none ∧ w.cal.Perm (srcResv cfg x :: dstResv cfg x :: w1.cal) ∧ (∃ n, Msg.reserveTimeout x.cid n ∈ w1.outbox) ∧
    ∀ w2, Hist cfg w1 w2 → ∃ y ∈ w2.rows, y.cid = x.cid ∧ y.holds = false ∧
      ∀ o' hd w3 r', step cfg w2 o' (.req hd (.commit x.cid)) = (w3, r') → (∃ e, r' = .error e) ∧ Unchanged w2 w3 := by
  have hget : dget w.tbl x.cid = some ⟨due, .reserveTimeout, ref, false⟩ := by
    unfold World.pending at hp
    split at hp
    · rename_i h1; rw [h1, hp]
    · exact absurd hp (by simp)
  have hcl : CleanStep (.fire x.cid) (step cfg w o (.fire x.cid)).1 (step cfg w o (.fire x.cid)).2 := trivial
  have hpost := h.post o (.fire x.cid) hcl
  have hk1 : Hist cfg w (step cfg w o (.fire x.cid)).1 := .step o _ .refl hcl
  have hr1 := h.hist hk1
  rw [hs] at hpost hr1 hk1
  simp only at hpost hr1 hk1
  rcases hpost with ⟨e1, e2⟩ | ⟨tm, r', hre, htm, _, _, row0, hr0, hcid, s', hrel, hfp, _, hok, hev, _⟩
  · -- the call does run
    exfalso
    have : (step cfg w o (.fire x.cid)).1.tbl = w.tbl := by rw [hs, e2]
    have := congrArg (fun t => (dget t x.cid).map (·.called)) this
    rw [hget] at this
    have hk2 := (hr1.inv.conn x (by rw [e2]; exact hx)).timer
    rw [e2] at hs
    simp only [step, hget, hdue, if_true] at hs
    have hfi := run_of_All (fire_inv (h.inv.with o) (cid := x.cid) hget rfl hdue)
    obtain ⟨_, row0, hr0, hcid, s', hrel, hfp, _, _, _, _⟩ := hfi
    have e := eq_of_cid h.inv.nodup hr0 hx hcid
    subst e
    have hm := hrel.row_mem h.inv.nodup hx rfl
    simp only [Prod.mk.injEq] at hs
    simp only [World.taken, World.with] at hm hs
    rw [hs.1] at hm
    have e := eq_of_cid h.inv.nodup hm hx hrel.rcid
    have hh := ((h.inv.conn row0 hx).timer _ hget rfl).1
    simp only [TimerOk] at hh
    have hf2 := hfp.2.1
    rw [e, hh.1] at hf2
    exact absurd hf2 (by simp)
  · have e := eq_of_cid h.inv.nodup hr0 hx hcid
    subst e
    rw [hget] at htm
    simp at htm
    subst htm
    obtain ⟨f1, f2, f3, f4, n, f5⟩ := hfp
    obtain ⟨k1, k2⟩ := hok
    have hfree : s'.row.holds = false := by
      apply holds_false
      rintro ⟨_, a | a⟩
      · rw [f2] at a; exact absurd a (by simp)
      · rw [f3] at a; exact absurd a (by simp)
    refine ⟨by rw [hre, f1]; rfl, ?_, ⟨n, ?_⟩, ?_⟩
    · exact h.freed hr1 hx rfl (w1 := w.with o) rfl hrel (holds_iff.mpr ⟨k2, Or.inl k1⟩) hfree
    · rw [hrel.out]; exact List.mem_append_right _ f5
    · intro w2 hk2
      have hm1 := hrel.row_mem (x := row0) h.inv.nodup hx rfl
      obtain ⟨y, hy, hye⟩ := hk2.evolves hr1 _ hm1
      have hyc : y.cid = row0.cid := hye.same.1.trans hrel.rcid
      obtain ⟨d1, d2⟩ := hye.dropped (by rw [f2]; simp) f3
      refine ⟨y, hy, hyc, ?_, ?_⟩
      · apply holds_false
        rintro ⟨_, a | a⟩
        · exact d1 a
        · rw [d2] at a; exact absurd a (by simp)
      · intro o' hd w3 r'' hs'
        have hr2 := hr1.hist hk2
        have hpost := hr2.post o' (.req hd (.commit row0.cid)) trivial
        rw [hs'] at hpost
        obtain ⟨r3, e3, hcp⟩ := hpost
        obtain ⟨t, o2, s2, _, _, hrel2, hc2⟩ := hcp.found hr2.inv.nodup hy hyc
        rcases hc2 with hc2 | ⟨_, hc2, _⟩
        · obtain ⟨hu, e, he, _⟩ := hc2.unchanged hr2.inv.nodup hy hyc hrel2
          simp only at e3
          exact ⟨⟨e, by rw [e3, he]; rfl⟩, ⟨hu.rows, hu.cal, hu.out, hu.links, hu.pending⟩⟩
        · exact absurd hc2 d1

/-! ### C25 -/

/-- C25: a successful terminate leaves the connection terminated, inactive, without pending call and without calendar entries;
its link is down, unless a failure was reported. Ever after it stays so, and commit, abort, provision and release are refused
without effect: as unauthorized, as gone, or (provisioning what was not committed) as not allocated. -/
theorem C25_terminate_partial (cfg : Cfg) (w : World) (h : Reach cfg w) (o : Oracle) (hd : Hdr) (cid : Str) (w1 : World)
    (c : Option Str) (hs : step cfg w o (.req hd (.terminate cid)) = (w1, .ok c)) :
    w1.pending cid = none ∧
    (∀ x ∈ w.rows, x.cid = cid → x.holds = true → w.cal.Perm (srcResv cfg x :: dstResv cfg x :: w1.cal)) ∧
    ∀ w2, Hist cfg w1 w2 → ∃ y ∈ w2.rows, y.cid = cid ∧ y.st.l = .terminated ∧ y.active = false ∧ y.holds = false ∧
      (w2.up cid → Reported w2.outbox cid) ∧
      ∀ o' hd' q w3 r', q ∈ [Req.commit cid, Req.abort cid, Req.provision cid, Req.release cid] →
        step cfg w2 o' (.req hd' q) = (w3, r') →
        Unchanged w2 w3 ∧ ∃ e, r' = .error e ∧ (authorize cfg hd' y.srcPort y.dstPort = .error e ∨ e = .gone ∨
          (q = .provision cid ∧ y.allocated = false ∧ e = .connection)) := by
  have hcl : CleanStep (.req hd (.terminate cid)) (step cfg w o (.req hd (.terminate cid))).1
      (step cfg w o (.req hd (.terminate cid))).2 := by rw [hs]; simp [CleanStep]
  have hpost := h.post o _ hcl
  have hr1 := h.hist (.step o _ .refl hcl)
  rw [hs] at hpost hr1
  obtain ⟨r', e1, hcp⟩ := hpost
  have hok : r' = .ok () := by
    cases r' with
    | ok u => rfl
    | error e => exact absurd e1 (by simp [Except.map])
  subst hok
  rcases hcp with ⟨_, h2, _⟩ | ⟨row0, hr0, hc0, t, o2, s', _, _, hrel, hpp, hev, _⟩
  · exact absurd h2 (by simp)
  rcases hpp with ⟨_, _, _, _, _, e, he, _⟩ | ⟨hnt, _, hrow, _, _, htm⟩
  · exact absurd he (by simp)
  have hm1 := hrel.row_mem (x := row0) h.inv.nodup hr0 hc0
  have hfree : s'.row.holds = false := by
    apply holds_false
    rintro ⟨a, _⟩
    rw [hrow] at a; exact absurd a (by simp)
  refine ⟨?_, ?_, ?_⟩
  · unfold World.pending; rw [hrel.tm, htm]
  · intro x hx hxc hh
    have := eq_of_cid h.inv.nodup hr0 hx (hc0.trans hxc.symm)
    subst this
    exact h.freed hr1 hx hc0 (w1 := (w.with o).looked row0 t o2) rfl hrel hh hfree
  · intro w2 hk2
    have hr2 := hr1.hist hk2
    obtain ⟨y, hy, hye⟩ := hk2.evolves hr1 _ hm1
    have hyc : y.cid = cid := hye.same.1.trans hrel.rcid
    have hyl : y.st.l = .terminated := hye.term (by rw [hrow]; rfl)
    have hya : y.active = false := by
      cases ha : y.active with
      | false => rfl
      | true => have := ((hr2.inv.conn y hy).row.act ha).1; rw [hyl] at this; exact absurd this (by simp)
    have hgone : isGone y = true := by simp [isGone, hyl]
    refine ⟨y, hy, hyc, hyl, hya, ?_, ?_, ?_⟩
    · apply holds_false; rintro ⟨a, _⟩; rw [hyl] at a; exact absurd a (by simp)
    · intro hu
      rcases (hr2.inv.conn y hy).link.2 (decide_eq_true (by rw [hyc]; exact hu)) with a | a
      · rw [hya] at a; exact absurd a (by simp)
      · rw [← hyc]; exact a
    · intro o' hd' q w3 r' hq hs'
      have fin : ∀ {why : Err → Prop} {r3 : Except Err Unit} {t : Time} {o2 : Oracle} {s2 : S},
          Rel ((w2.with o').looked y t o2) cid w2.heap.length w3 s2 → Refused (((w2.with o').looked y t o2).view y) s2 r3 why →
          r' = r3.map (fun _ => (none : Option Str)) → (∀ e, why e → authorize cfg hd' y.srcPort y.dstPort = .error e ∨ e = .gone ∨
          (q = .provision cid ∧ y.allocated = false ∧ e = .connection)) →
          Unchanged w2 w3 ∧ ∃ e, r' = .error e ∧ (authorize cfg hd' y.srcPort y.dstPort = .error e ∨ e = .gone ∨
          (q = .provision cid ∧ y.allocated = false ∧ e = .connection)) := by
        intro why r3 t o2 s2 hrel2 hrf he hw
        obtain ⟨hu, e, he2, hwhy⟩ := Refused.unchanged (w := w2.with o') hr2.inv.nodup hy hyc hrel2 hrf
        exact ⟨⟨hu.rows, hu.cal, hu.out, hu.links, hu.pending⟩, e, by rw [he, he2]; rfl, hw e hwhy⟩
      have hng : ∀ {p : Prop}, isGone y = false → p := fun a => by rw [hgone] at a; exact absurd a (by simp)
      simp only [List.mem_cons, List.not_mem_nil, or_false] at hq
      rcases hq with rfl | rfl | rfl | rfl
      · have hpost := hr2.post o' (.req hd' (.commit cid)) trivial
        rw [hs'] at hpost
        obtain ⟨r3, e3, hcp⟩ := hpost
        obtain ⟨t, o2, s2, _, _, hrel2, hc2⟩ := hcp.found hr2.inv.nodup hy hyc
        rcases hc2 with hc2 | ⟨a, _⟩
        · refine fin hrel2 hc2 e3 ?_
          rintro e (a | ⟨_, a⟩ | ⟨a, _⟩)
          · exact Or.inl a
          · exact Or.inr (Or.inl a)
          · exact hng a
        · exact hng a
      · have hpost := hr2.post o' (.req hd' (.abort cid)) trivial
        rw [hs'] at hpost
        obtain ⟨r3, e3, hcp⟩ := hpost
        obtain ⟨t, o2, s2, _, _, hrel2, hc2⟩ := hcp.found hr2.inv.nodup hy hyc
        rcases hc2 with hc2 | ⟨a, _⟩ | ⟨a, _⟩
        · refine fin hrel2 hc2 e3 ?_
          rintro e (a | ⟨_, a⟩)
          · exact Or.inl a
          · exact Or.inr (Or.inl a)
        · exact hng a
        · exact hng a
      · have hpost := hr2.post o' (.req hd' (.provision cid)) trivial
        rw [hs'] at hpost
        obtain ⟨r3, e3, hcp⟩ := hpost
        obtain ⟨t, o2, s2, _, _, hrel2, hc2⟩ := hcp.found hr2.inv.nodup hy hyc
        rcases hc2 with hc2 | ⟨_, _, _, a, _⟩
        · refine fin hrel2 hc2 e3 ?_
          rintro e (a | ⟨a, b⟩ | ⟨_, a⟩ | ⟨a, _⟩ | ⟨_, _, _, a⟩ | ⟨a, _⟩)
          · exact Or.inl a
          · exact Or.inr (Or.inr ⟨rfl, a, b⟩)
          · exact Or.inr (Or.inl a)
          · exact hng a
          · exact Or.inr (Or.inl a)
          · exact hng a
        · exact hng a.gone
      · have hpost := hr2.post o' (.req hd' (.release cid)) trivial
        rw [hs'] at hpost
        obtain ⟨r3, e3, hcp⟩ := hpost
        obtain ⟨t, o2, s2, _, _, hrel2, hc2⟩ := hcp.found hr2.inv.nodup hy hyc
        rcases hc2 with hc2 | ⟨a, _⟩
        · refine fin hrel2 hc2 e3 ?_
          rintro e (a | ⟨_, a⟩ | ⟨a, _⟩)
          · exact Or.inl a
          · exact Or.inr (Or.inl a)
          · exact hng a
        · exact hng a

/-! ### C26 -/

/-- C26: after a restart that ran through, the calendar holds exactly the entries of the connections that hold or own
resources, connections have only evolved, and every live connection has its pending call (or its activation failed and was
reported), except those found in state provisioning or releasing, or starting at the very instant they are loaded. -/
theorem C26_restart_partial (cfg : Cfg) (w : World) (h : Reach cfg w) (o : Oracle) (w1 : World) (c : Option Str)
    (hs : step cfg w o .restart = (w1, .ok c)) :
    w1.cal.Perm (w1.booked cfg) ∧ (∀ x ∈ w.rows, ∃ y ∈ w1.rows, Evolves x y) ∧
    ∀ y ∈ w1.rows, y.st.l = .created →
      (∃ x ∈ w.rows, x.cid = y.cid ∧ x.st.r ≠ .held ∧
        (x.st.p = .provisioning ∨ x.st.p = .releasing ∨ ∃ now, w.clk ≤ now ∧ now ≤ w1.clk ∧ x.start = some now)) ∨
      ((y.st.r = .held → ∃ due ref, w1.pending y.cid = some ⟨due, .reserveTimeout, ref, false⟩ ∧
          (due ≤ y.reserveTime + 120 * second ∨ due ≤ w1.clk) ∧ ∀ e, y.end_ = some e → due ≤ e ∨ due ≤ w1.clk) ∧
       (y.allocated = true → y.st.p = .released ∨ y.active = true → ∀ e, y.end_ = some e →
          (∃ due ref, w1.pending y.cid = some ⟨due, .endtime, ref, false⟩ ∧ e ≤ due ∧ (due ≤ e ∨ due ≤ w1.clk)) ∨
          e + second < w1.clk) ∧
       (y.st.p = .provisioned → y.active = false →
          (∃ s due ref, y.start = some s ∧ s ≤ due ∧ (due ≤ s ∨ due ≤ w1.clk) ∧ w1.pending y.cid = some ⟨due, .activate, ref, false⟩) ∨
          ∃ n, Msg.activateFailed y.cid n ∈ w1.outbox)) := by
  have hcl : CleanStep .restart (step cfg w o .restart).1 (step cfg w o .restart).2 := by rw [hs]; exact ⟨c, rfl⟩
  have hpost := h.post o _ hcl
  have hr1 := h.hist (.step o _ .refl hcl)
  rw [hs] at hpost hr1
  refine ⟨C22_calendar_partial cfg w1 hr1, hpost.ev, fun y hy hl => ?_⟩
  rcases hpost.resumed y hy with ⟨a, _⟩ | ⟨x, hx, hc, hnh, b⟩
  · right
    refine ⟨fun hh => ?_, fun h1 h2 e he => ?_, fun h1 h2 => ?_⟩
    · obtain ⟨due, ref, h1, h2⟩ := a.held hl hh
      exact ⟨due, ref, by unfold World.pending; simp only at h1; rw [h1], h2⟩
    · rcases a.ends hl h1 h2 e he with ⟨due, ref, h3, h4⟩ | h3
      · exact Or.inl ⟨due, ref, by unfold World.pending; simp only at h3; rw [h3], h4⟩
      · exact Or.inr h3
    · rcases a.activates hl h1 h2 with ⟨s, due, ref, h3, h4, h5, h6⟩ | h3
      · exact Or.inl ⟨s, due, ref, h3, h4, h5, by unfold World.pending; simp only at h6; rw [h6]⟩
      · exact Or.inr h3
  · left
    refine ⟨x, hx, hc, hnh, ?_⟩
    rcases b with (b | b) | b
    · exact Or.inl b
    · exact Or.inr (Or.inl b)
    · exact Or.inr (Or.inr b)

/-! ### C54 -/

/-- C54: after a release that succeeded, the connection is released and inactive, and its link is down unless a failed
teardown or activation was reported. -/
theorem C54_released_partial (cfg : Cfg) (w : World) (h : Reach cfg w) (o : Oracle) (hd : Hdr) (cid : Str) (w1 : World)
    (c : Option Str) (hs : step cfg w o (.req hd (.release cid)) = (w1, .ok c)) :
    ∃ y ∈ w1.rows, y.cid = cid ∧ y.st.p = .released ∧ y.active = false ∧ y.allocated = true ∧ (w1.up cid → Reported w1.outbox cid) ∧
    -- a later provision request is refused only as unauthorized or because the connection has ended
    ∀ o' hd' w2 r', step cfg w1 o' (.req hd' (.provision cid)) = (w2, r') → ∀ e, r' = .error e →
      authorize cfg hd' y.srcPort y.dstPort = .error e ∨ (e = .gone ∧ ∃ x, y.end_ = some x ∧ x ≤ w2.clk) ∨
      (e = .assertion ∧ ∃ x, y.start = some x ∧ w1.clk < x ∧ x + second < w2.clk) := by
  have hcl : CleanStep (.req hd (.release cid)) (step cfg w o (.req hd (.release cid))).1
      (step cfg w o (.req hd (.release cid))).2 := trivial
  have hpost := h.post o _ hcl
  have hr1 := h.hist (.step o _ .refl hcl)
  rw [hs] at hpost hr1
  obtain ⟨r', e1, hcp⟩ := hpost
  have hok : r' = .ok () := by
    cases r' with
    | ok u => rfl
    | error e => exact absurd e1 (by simp [Except.map])
  subst hok
  rcases hcp with ⟨_, h2, _⟩ | ⟨row0, hr0, hc0, t, o2, s', _, _, hrel, hpp, hev, _⟩
  · exact absurd h2 (by simp)
  rcases hpp with ⟨_, _, _, _, _, e, he, _⟩ | ⟨hng, hp, _, _, ⟨_, hrow, _⟩ | ⟨he, _⟩⟩
  · exact absurd he (by simp)
  · have hm1 := hrel.row_mem (x := row0) h.inv.nodup hr0 hc0
    have hal : row0.allocated = true := (h.inv.conn row0 hr0).row.pv (by rcases hp with a | a <;> rw [a] <;> simp)
    have hal' : s'.row.allocated = true := by rw [hrow]; exact hal
    have hrs : s'.row.st.r = .start := by
      rcases (hr1.inv.conn _ hm1).row.rs with a | a | a
      · exact a
      · rw [a.2] at hal'; exact absurd hal' (by simp)
      · rw [a.2.2] at hal'; exact absurd hal' (by simp)
    have hng' : isGone s'.row = false := by rw [hrow]; exact hng
    have hrel' : s'.row.st.p = .released := by rw [hrow]; rfl
    refine ⟨s'.row, hm1, hrel.rcid, hrel', by rw [hrow]; rfl, hal', ?_, ?_⟩
    · intro hu
      rcases (hr1.inv.conn _ hm1).link.2 (decide_eq_true (by rw [hrel.rcid]; exact hu)) with a | a
      · rw [hrow] at a; exact absurd a (by simp)
      · rw [← hrel.rcid]; exact a
    · intro o' hd' w2 r' hs' e he
      have hpost := hr1.post o' (.req hd' (.provision cid)) trivial
      rw [hs'] at hpost
      obtain ⟨r3, e3, hcp⟩ := hpost
      obtain ⟨t, o3, s2, ht, _, hrel2, hc2⟩ := hcp.found hr1.inv.nodup hm1 hrel.rcid
      simp only at e3
      have hr3 : r3 = .error e := by
        rw [he] at e3
        cases r3 with
        | ok u => exact absurd e3 (by simp [Except.map])
        | error e' => simp [Except.map] at e3; rw [e3]
      rcases hc2 with ⟨_, _, _, _, _, e', k1, k2⟩ | ⟨now, k1, k2, k3, ⟨k4, _⟩ | ⟨k4, _⟩ | ⟨k4, _, _, x, k5, k6, k7⟩⟩
      · rw [hr3] at k1; simp at k1; subst k1
        rcases k2 with a | ⟨a, _⟩ | ⟨a, _⟩ | ⟨_, a, _⟩ | ⟨x, a1, a2, a3⟩ | ⟨_, a, _⟩
        · exact Or.inl a
        · rw [hal'] at a; exact absurd a (by simp)
        · rw [hng'] at a; exact absurd a (by simp)
        · exact absurd hrs a
        · exact Or.inr (Or.inl ⟨a3, x, a1, by rw [← hrel2.clk] at a2; exact a2⟩)
        · exact absurd hrel' a
      · rw [hr3] at k4; exact absurd k4 (by simp)
      · rw [hr3] at k4; exact absurd k4 (by simp)
      · rw [hr3] at k4; simp at k4
        refine Or.inr (Or.inr ⟨k4, x, k5, ?_, ?_⟩)
        · simp only at ht k1 ⊢; omega
        · rw [← hrel2.clk] at k7; exact k7
  · exact absurd he (by simp)

/-! ### Examples

The hypotheses of the theorems above are met by the histories of Examples.lean. -/

/-- Reachable, with two connections that hold resources, one of them active. -/
example : Reach (Ex.cfg true) (runAll (Ex.cfg true) Ex.w0 Ex.h3) ∧
    (runAll (Ex.cfg true) Ex.w0 Ex.h3).rows.map (fun r => (r.cid, r.holds, r.active, r.st.p)) =
      [(['x'], true, true, .provisioned), (['y'], true, false, .released)] ∧
    (runAll (Ex.cfg true) Ex.w0 Ex.h3).links = [['x']] ∧
    (runAll (Ex.cfg true) Ex.w0 Ex.h3).cal.length = 4 :=
  ⟨Ex.reach_runAll (by decide +kernel), by decide +kernel⟩

/-- C21_ends_partial: ends on different ports; resources named apart. -/
example : ∀ u v, (Ex.cfg true).mgr.getResource ['a'] u = (Ex.cfg true).mgr.getResource ['b'] v → ['a'] = ['b'] ∧ u = v := by
  intro u v h
  cases u <;> cases v <;> simp [Ex.cfg, Ex.getResource] at h

/-- C23_setup_partial: the link comes up when the activation call runs. -/
example :
    let w := runAll (Ex.cfg true) Ex.w0 (Ex.h3.take 5)
    Reach (Ex.cfg true) w ∧ ¬ w.up ['x'] ∧ (step (Ex.cfg true) w {} (.fire ['x'])).1.up ['x'] :=
  ⟨Ex.reach_runAll (by decide +kernel), by decide +kernel⟩

/-- C24_deadline_partial, C24_expires_partial: reserved and confirmed; later the timeout is due and runs. -/
example :
    let w := runAll (Ex.cfg true) Ex.w0 (Ex.h1 ++ [(Ex.o0, .wait 120000000)])
    Reach (Ex.cfg true) w ∧ w.outbox.length = 1 ∧ w.pending ['x'] = some ⟨Ex.sec 1120, .reserveTimeout, 0, false⟩ ∧ Ex.sec 1120 ≤ w.clk ∧
    (step (Ex.cfg true) w {} (.fire ['x'])).2 = .ok none ∧ (step (Ex.cfg true) w {} (.fire ['x'])).1.cal = [] ∧
    (step (Ex.cfg true) (step (Ex.cfg true) w {} (.fire ['x'])).1 {} (Ex.req (.commit ['x']))).2 = .error .internal :=
  ⟨Ex.reach_runAll (by decide +kernel), by decide +kernel⟩

example : Confirmed (runAll (Ex.cfg true) Ex.w0 Ex.h1).outbox ['x'] :=
  ⟨['k'], some (tVlan, 12), some (tVlan, 12), some (Ex.sec 2000), some (Ex.sec 3000), by decide +kernel⟩

/-- C25_terminate_partial: an active connection is terminated; a later release is refused. -/
example :
    let w := runAll (Ex.cfg true) Ex.w0 Ex.h3
    let w1 := (step (Ex.cfg true) w {} (Ex.req (.terminate ['x']))).1
    Reach (Ex.cfg true) w ∧ (step (Ex.cfg true) w {} (Ex.req (.terminate ['x']))).2 = .ok none ∧
    w1.cal.length = 2 ∧ w1.links = [] ∧ (step (Ex.cfg true) w1 {} (Ex.req (.release ['x']))).2 = .error .gone :=
  ⟨Ex.reach_runAll (by decide +kernel), by decide +kernel⟩

/-- C26_restart_partial: a restart between provisioning and start of `x`. -/
example :
    let w := runAll (Ex.cfg true) Ex.w0 (Ex.h3.take 4)
    let w1 := (step (Ex.cfg true) w {} .restart).1
    Reach (Ex.cfg true) w ∧ (step (Ex.cfg true) w {} .restart).2 = .ok none ∧ w1.cal.length = 4 ∧
    w1.pending ['x'] = some ⟨Ex.sec 2000, .activate, 0, false⟩ ∧ w1.pending ['y'] = some ⟨Ex.sec 1120, .reserveTimeout, 1, false⟩ :=
  ⟨Ex.reach_runAll (by decide +kernel), by decide +kernel⟩

/-- C54_released_partial: released while active, and provisioned again. -/
example :
    let w := runAll (Ex.cfg true) Ex.w0 Ex.h3
    let w1 := (step (Ex.cfg true) w {} (Ex.req (.release ['x']))).1
    Reach (Ex.cfg true) w ∧ (step (Ex.cfg true) w {} (Ex.req (.release ['x']))).2 = .ok none ∧ w1.links = [] ∧
    (step (Ex.cfg true) w1 {} (Ex.req (.provision ['x']))).2 = .ok none ∧
    (step (Ex.cfg true) w1 {} (Ex.req (.provision ['x']))).1.links = [['x']] :=
  ⟨Ex.reach_runAll (by decide +kernel), by decide +kernel⟩

/-! ### Counterexamples -/

/-- A history in which `terminate` of `x` fails when the parent raises (line 513), after its entries were removed (line 508).
Then `y` is given the same resources, and `terminate` of `x` is tried again: it removes the entries of `y`. So `z` gets them,
too. -/
def Ex.retry : List (Oracle × Ev) :=
  Ex.h2 ++ [({ Ex.o0 with parents := [false] }, Ex.req (.terminate ['x'])), (Ex.ids 'y', Ex.rsv), (Ex.o0, Ex.req (.commit ['y'])),
    (Ex.o0, Ex.req (.terminate ['x'])), (Ex.ids 'z', Ex.rsv), (Ex.o0, Ex.req (.commit ['z']))]

/-- C21 fails between connections: after the history `Ex.retry`, the committed connections `y` and `z` occupy the same vlan
of port `a` from 2000 s to 3000 s. -/
theorem C21_connections_fails : ∃ (cfg : Cfg) (clk : Time) (es : List (Oracle × Ev)),
    let w := runAll cfg (World.init [] clk) es
    ∃ a ∈ w.rows, ∃ b ∈ w.rows, a.cid ≠ b.cid ∧ a.holds = true ∧ b.holds = true ∧ a.allocated = true ∧ b.allocated = true ∧
      ∃ x ∈ a.books cfg, ∃ y ∈ b.books cfg, x.Clash y := by
  let row (c : Char) : Row := ⟨[c], ['r'], Ex.sec 1000, ⟨.start, .released, .created⟩, false, true, ['a'], some (tVlan, 12), ['b'],
    some (tVlan, 12), some (Ex.sec 2000), some (Ex.sec 3000)⟩
  refine ⟨Ex.cfg true, Ex.sec 1000, Ex.retry, row 'y', by decide +kernel, row 'z', by decide +kernel, by decide +kernel, rfl, rfl, rfl, rfl,
    _, List.mem_cons_self, _, List.mem_cons_self, rfl, Ex.sec 2500, ?_, ?_⟩ <;>
  · refine ⟨by decide +kernel, ?_⟩
    intro e he
    simp only [row, Option.some.injEq] at he
    subst he
    decide +kernel

/-- C21 fails for the two ends of one connection: port `a` with vlans 12-20 to port `a` with vlans 12-13 gets vlan 12 twice,
whether or not the device swaps labels. -/
theorem C21_ends_fails (swap : Bool) : ∃ (w' : World) (row : Row),
    step (Ex.cfg swap) Ex.w0 (Ex.ids 'x') (Ex.req (.reserve none (Ex.stp 'a' 12 20) (Ex.stp 'a' 12 13) (some (Ex.sec 2000))
      (some (Ex.sec 3000)))) = (w', .ok (some ['x'])) ∧
    row ∈ w'.rows ∧ row.holds = true ∧ ∃ p q, row.books (Ex.cfg swap) = [p, q] ∧ p.Clash q := by
  refine ⟨_, ⟨['x'], ['r'], Ex.sec 1000, ⟨.held, .released, .created⟩, false, false, ['a'], some (tVlan, 12), ['a'],
    some (tVlan, 12), some (Ex.sec 2000), some (Ex.sec 3000)⟩, Prod.ext rfl ?_, ?_, rfl, _, _, rfl, ?_, Ex.sec 2500, ?_, ?_⟩
  · cases swap <;> decide +kernel
  · cases swap <;> decide +kernel
  · rfl
  all_goals
    refine ⟨by simp only [Option.getD_some]; decide +kernel, ?_⟩
    intro e he
    simp only [Option.some.injEq] at he
    subst he
    decide +kernel

/-- C22 fails: after the history `Ex.retry`, four entries should be in the calendar, but there are two. -/
theorem C22_retry_fails : ∃ (cfg : Cfg) (clk : Time) (es : List (Oracle × Ev)),
    ¬ (runAll cfg (World.init [] clk) es).cal.Perm ((runAll cfg (World.init [] clk) es).booked cfg) :=
  ⟨Ex.cfg true, Ex.sec 1000, Ex.retry, fun h => absurd h.length_eq (by decide +kernel)⟩

/-- C22 fails: when a generated connection id is in use already, storing the connection fails (line 357) after the entries were
added (lines 310-311, 330-331), and they stay in the calendar. -/
theorem C22_collision_fails : ∃ (cfg : Cfg) (clk : Time) (o : Oracle) (es : List (Oracle × Ev)) (e : Ev),
    (step cfg (runAll cfg (World.init [] clk) es) o e).2 = .error .db ∧
    ¬ (step cfg (runAll cfg (World.init [] clk) es) o e).1.cal.Perm ((step cfg (runAll cfg (World.init [] clk) es) o e).1.booked cfg) :=
  ⟨Ex.cfg true, Ex.sec 1000, Ex.ids 'x', Ex.h1, Ex.rsv, by decide +kernel, fun h => absurd h.length_eq (by decide +kernel)⟩

/-- C24 fails: a reservation without start time whose end time is in the past is accepted and becomes held, but its timeout
cannot be scheduled (scheduler.py:47), so however long one waits, it stays held. -/
theorem C24_past_end_fails : ∃ (cfg : Cfg) (w w1 : World) (o : Oracle) (src dst : STP) (en : Time) (row : Row), Reach cfg w ∧ en < w.clk ∧
    step cfg w o (.req Ex.hdr (.reserve none src dst none (some en))) = (w1, .ok (some row.cid)) ∧
    w1.rows = [row] ∧ row.st.r = .held ∧ row.holds = true ∧
    ∀ us o1 o2, (step cfg (step cfg w1 o1 (.wait us)).1 o2 (.fire row.cid)).1.rows = [row] := by
  let row : Row := ⟨['x'], ['r'], Ex.sec 1000, ⟨.held, .released, .created⟩, false, false, ['a'], some (tVlan, 12), ['b'],
    some (tVlan, 12), none, some (Ex.sec 500)⟩
  let r := step (Ex.cfg true) Ex.w0 (Ex.ids 'x')
    (Ex.req (.reserve none (Ex.stp 'a' 12 20) (Ex.stp 'b' 12 20) none (some (Ex.sec 500))))
  have hrows : r.1.rows = [row] := by decide +kernel
  have htbl : r.1.tbl = [] := by decide +kernel
  refine ⟨Ex.cfg true, Ex.w0, r.1, Ex.ids 'x', Ex.stp 'a' 12 20, Ex.stp 'b' 12 20, Ex.sec 500, row, Reach.init _ _, by decide +kernel,
    Prod.ext rfl (by decide +kernel : r.2 = _), hrows, rfl, rfl, ?_⟩
  intro us o1 o2
  simp only [step, htbl, dget]
  exact hrows

/-- C25 fails in its last part: terminating a terminated connection raises AttributeError (line 496 reads `conn.cid`). -/
theorem C25_repeat_fails : ∃ (cfg : Cfg) (w w1 : World) (h : Hdr) (cid : Str), Reach cfg w ∧
    step cfg w {} (.req h (.terminate cid)) = (w1, .ok none) ∧ (step cfg w1 {} (.req h (.terminate cid))).2 = .error .attribute :=
  ⟨Ex.cfg true, runAll (Ex.cfg true) Ex.w0 Ex.h2, _, Ex.hdr, ['x'], Ex.reach_runAll (by decide +kernel),
    Prod.ext rfl (by decide +kernel : (step _ _ {} _).2 = _), by decide +kernel⟩

/-- C26 fails: `x` is committed, starts in the future and has no end time. The restart raises an exception (line 158 compares
None with a date), and the entries of the other reservation `y` are not put back into the calendar, nor is its timeout. -/
theorem C26_no_end_fails : ∃ (cfg : Cfg) (w : World) (y : Row), Reach cfg w ∧ (step cfg w {} .restart).2 = .error .type ∧
    y ∈ (step cfg w {} .restart).1.rows ∧ y.holds = true ∧ srcResv cfg y ∉ (step cfg w {} .restart).1.cal ∧
    (step cfg w {} .restart).1.pending y.cid = none :=
  ⟨Ex.cfg true, runAll (Ex.cfg true) Ex.w0
      [(Ex.ids 'x', Ex.req (.reserve none (Ex.stp 'a' 12 20) (Ex.stp 'b' 12 20) (some (Ex.sec 2000)) none)),
       (Ex.o0, Ex.req (.commit ['x'])), (Ex.ids 'y', Ex.rsv)],
    ⟨['y'], ['r'], Ex.sec 1000, ⟨.held, .released, .created⟩, false, false, ['a'], some (tVlan, 13), ['b'],
      some (tVlan, 13), some (Ex.sec 2000), some (Ex.sec 3000)⟩,
    Ex.reach_runAll (by decide +kernel), by decide +kernel⟩

/-- C26 fails: a connection that starts at the very moment of the restart gets no call (lines 164-165): though provisioned and
in time, it is not activated. -/
theorem C26_start_now_fails : ∃ (cfg : Cfg) (w : World) (y : Row), Reach cfg w ∧ (step cfg w {} .restart).2 = .ok none ∧
    y ∈ (step cfg w {} .restart).1.rows ∧ y.holds = true ∧ y.st.p = .provisioned ∧ y.active = false ∧
    (step cfg w {} .restart).1.pending y.cid = none :=
  ⟨Ex.cfg true, runAll (Ex.cfg true) Ex.w0 (Ex.h2 ++ [(Ex.o0, Ex.req (.provision ['x'])), (Ex.o0, .wait 1000000000)]),
    ⟨['x'], ['r'], Ex.sec 1000, ⟨.start, .provisioned, .created⟩, false, true, ['a'], some (tVlan, 12), ['b'],
      some (tVlan, 12), some (Ex.sec 2000), some (Ex.sec 3000)⟩,
    Ex.reach_runAll (by decide +kernel), by decide +kernel⟩

/-- C54 fails: provisioning again one second before the start time raises an exception, if storing the state takes more than two
seconds, and the connection is left in state provisioning without pending call. -/
theorem C54_provision_fails : ∃ (cfg : Cfg) (w w1 w2 : World) (o : Oracle) (h : Hdr) (cid : Str) (y : Row), Reach cfg w ∧
    step cfg w {} (.req h (.release cid)) = (w1, .ok none) ∧
    step cfg w1 o (.req h (.provision cid)) = (w2, .error .assertion) ∧ y ∈ w2.rows ∧ y.cid = cid ∧ y.st.p = .provisioning ∧
    y.holds = true ∧ (∀ e, y.end_ = some e → w2.clk < e) ∧ w2.pending cid = none := by
  let w := runAll (Ex.cfg true) Ex.w0 (Ex.h2 ++ [(Ex.o0, Ex.req (.provision ['x'])), (Ex.o0, .wait 998000000)])
  let w1 := (step (Ex.cfg true) w {} (.req Ex.hdr (.release ['x']))).1
  let o : Oracle := { ticks := [1000000, 0, 0, 0, 0, 2000001] }
  let w2 := (step (Ex.cfg true) w1 o (.req Ex.hdr (.provision ['x']))).1
  refine ⟨Ex.cfg true, w, w1, w2, o, Ex.hdr, ['x'],
    ⟨['x'], ['r'], Ex.sec 1000, ⟨.start, .provisioning, .created⟩, false, true, ['a'], some (tVlan, 12), ['b'],
      some (tVlan, 12), some (Ex.sec 2000), some (Ex.sec 3000)⟩,
    Ex.reach_runAll (by decide +kernel), Ex.pair (by decide +kernel), Ex.pair (by decide +kernel),
    by decide +kernel, rfl, rfl, rfl, ?_, by decide +kernel⟩
  intro e he
  simp only [Option.some.injEq] at he
  subst he
  decide +kernel

end OpenNSA.Backend
