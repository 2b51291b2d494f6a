import Verif.Backend.OwnBoot
/-
Interleaved executions in which operations on the same connection do not overlap: what the theorems on sequential histories say holds
whenever no operation on the connection is under way (C23, C24, C25, C54, C88), also after restarts (C21, C22).
-/
namespace OpenNSA.Backend
open OpenNSA Py Prog

/-- The states that executions lead to in which no two operations on a connection overlap (`OneByOne`), however the operations on different
connections and the database, device and parent operations are interleaved, and whatever of them fails; the process may be restarted whenever
no operation is under way (`Boots`, `Fits`). `L` has the operations that the tasks belong to. -/
def Comes (T : Bool) (cfg : Cfg) (c : Conc) (L : Nat → Job) : Prop := ∃ ids clk, Leads T cfg { w := World.init ids clk } noJobs c L

section
variable {T : Bool} {cfg : Cfg} {c : Conc} {L : Nat → Job}

theorem Comes.apart (h : Comes T cfg c L) : ∃ tc, Apart T cfg (fun _ _ => True) L c tc := by
  obtain ⟨ids, clk, h⟩ := h
  exact apart_leads lasts_true (fun _ _ _ _ _ _ _ _ => trivial) (apart_init (T := T) cfg ids clk) h

theorem Apart.rest {P : Str → Option (Row × Option Timer) → Prop} {tc : List (Str × Resv)} (h : Apart T cfg P L c tc) {cid : Str} (hi : c.Idle L cid) :
    AtRest T cfg cid c.w tc ∧ P cid (c.w.seen cid) := (idle_iff.mp hi ▸ h.ph cid).nil

theorem Comes.here (h : Comes T cfg c L) {x : Row} (hx : x ∈ c.w.rows) (hi : c.Idle L x.cid) :
    ConnOk true c.w x ∧ OkRow x ∧ (T = true → Due c.w.clk x (dget c.w.tbl x.cid) c.w.outbox) := by
  obtain ⟨tc, h⟩ := h.apart
  obtain ⟨h1, h2, _, h3⟩ := (h.rest hi).1.here x (row?_mem h.nd hx)
  exact ⟨h1, h2, h3⟩

theorem mem_of_row? {w : World} {cid : Str} {r : Row} (h : w.row? cid = some r) : r ∈ w.rows ∧ r.cid = cid := by
  unfold World.row? at h
  exact ⟨List.mem_of_find?_eq_some h, by simpa using List.find?_some h⟩

/-- The row of one connection evolved from `r0`; its call is `tm0` as long as it is held. -/
def Since (cid : Str) (r0 : Row) (tm0 : Option Timer) : Str → Option (Row × Option Timer) → Prop := fun b o =>
  b = cid → ∃ r tm, o = some (r, tm) ∧ Evolves r0 r ∧ (r.st.l = .created → r.st.r = .held → tm = tm0)

theorem lasts_since (cid : Str) (r0 : Row) (tm0 : Option Timer) : Lasts (Since cid r0 tm0) where
  ev b x tm y tm' hok hev ht h e := by
    obtain ⟨r, tm2, h1, h2, h3⟩ := h e
    cases h1
    obtain ⟨t, hok⟩ := hok
    refine ⟨y, tm', rfl, h2.trans hev, fun h4 h5 => ?_⟩
    obtain ⟨h6, h7, _⟩ := held_before hok hev h4 h5
    rw [ht h4 h5, h3 h6 h7]
  new b r h e := by
    obtain ⟨_, _, h1, _⟩ := h e
    cases h1

/-- From a moment at which no operation on the connection is under way. -/
theorem Apart.since {tc : List (Str × Resv)} (h : Apart T cfg (fun _ _ => True) L c tc) {cid : Str} (hi : c.Idle L cid) {r : Row}
    (hr : c.w.row? cid = some r) : Apart T cfg (Since cid r (dget c.w.tbl cid)) L c tc :=
  h.swap hi (fun _ => ⟨r, _, World.seen_some hr, Evolves.refl r, fun _ _ => rfl⟩) fun _ _ hb e => absurd e hb

/-- A later moment at which no operation is under way. -/
theorem Apart.later {tc : List (Str × Resv)} {cid : Str} {r0 : Row} {tm0 : Option Timer} (h : Apart T cfg (Since cid r0 tm0) L c tc)
    {s : List (Oracle × Choice)} (hs : OneByOne T cfg c L s) (hi : (c.run cfg s).Idle (jobs cfg c L s) cid) :
    ∃ y ∈ (c.run cfg s).w.rows, y.cid = cid ∧ Evolves r0 y ∧ ConnOk true (c.run cfg s).w y ∧ OkRow y ∧
      (y.st.l = .created → y.st.r = .held → dget (c.run cfg s).w.tbl cid = tm0) ∧ ∀ z ∈ (c.run cfg s).w.rows, z.cid = cid → z = y := by
  obtain ⟨tc', h'⟩ := apart_run (lasts_since cid r0 tm0) s h hs
  obtain ⟨h1, h2⟩ := h'.rest hi
  obtain ⟨y, tm, h3, h4, h5⟩ := h2 rfl
  cases hy : (c.run cfg s).w.row? cid with
  | none => rw [World.seen_none hy] at h3; cases h3
  | some y' =>
    rw [World.seen_some hy] at h3
    cases h3
    obtain ⟨h6, h7⟩ := mem_of_row? hy
    obtain ⟨h8, h9, _⟩ := h1.here _ hy
    refine ⟨y, h6, h7, h4, h8, h9, h5, fun z hz hc => ?_⟩
    have := row?_mem h'.nd hz
    rw [hc, hy] at this
    exact (Option.some.inj this).symm

/-- The row of one connection evolved from `r0`. -/
def Evolved (cid : Str) (r0 : Row) : Str → Option (Row × Option Timer) → Prop := fun b o => b = cid → ∃ r tm, o = some (r, tm) ∧ Evolves r0 r

theorem lasts_evolved (cid : Str) (r0 : Row) : Lasts (Evolved cid r0) where
  ev b x tm y tm' _ hev _ h e := by
    obtain ⟨r, tm2, h1, h2⟩ := h e
    cases h1
    exact ⟨y, tm', rfl, h2.trans hev⟩
  new b r h e := by
    obtain ⟨_, _, h1, _⟩ := h e
    cases h1

theorem boot_evolved (cid : Str) (r0 : Row) : LastsBoot (Evolved cid r0) := by
  intro b x tm y tm' _ hev h e
  obtain ⟨r, tm2, h1, h2⟩ := h e
  cases h1
  exact ⟨y, tm', rfl, h2.trans hev⟩

theorem Apart.evolved {tc : List (Str × Resv)} (h : Apart T cfg (fun _ _ => True) L c tc) {cid : Str} (hi : c.Idle L cid) {r : Row}
    (hr : c.w.row? cid = some r) : Apart T cfg (Evolved cid r) L c tc :=
  h.swap hi (fun _ => ⟨r, _, World.seen_some hr, Evolves.refl r⟩) fun _ _ hb e => absurd e hb

/-- A later moment at which no operation is under way, possibly after restarts. -/
theorem Apart.ever {tc : List (Str × Resv)} {cid : Str} {r0 : Row} (h : Apart T cfg (Evolved cid r0) L c tc) {c2 : Conc} {L2 : Nat → Job}
    (hs : Leads T cfg c L c2 L2) (hi : c2.Idle L2 cid) :
    ∃ y ∈ c2.w.rows, y.cid = cid ∧ Evolves r0 y ∧ ConnOk true c2.w y ∧ OkRow y := by
  obtain ⟨tc', h'⟩ := apart_leads (lasts_evolved cid r0) (boot_evolved cid r0) h hs
  obtain ⟨h1, h2⟩ := h'.rest hi
  obtain ⟨y, tm, h3, h4⟩ := h2 rfl
  cases hy : c2.w.row? cid with
  | none => rw [World.seen_none hy] at h3; cases h3
  | some y' =>
    rw [World.seen_some hy] at h3
    cases h3
    obtain ⟨h6, h7⟩ := mem_of_row? hy
    obtain ⟨h8, h9, _⟩ := h1.here _ hy
    exact ⟨y, h6, h7, h4, h8, h9⟩

/-- A later request on the connection, possibly after restarts. -/
theorem Apart.request {tc : List (Str × Resv)} {cid : Str} {r0 : Row} (h : Apart T cfg (Evolved cid r0) L c tc)
    {c2 : Conc} {L2 : Nat → Job} (hs : Leads T cfg c L c2 L2) {o : Oracle} {ch : Choice} (h1 : OneByOne T cfg c2 L2 [(o, ch)])
    {k : Job} (hk : c2.job L2 o ch = some k) (hc : k.cid = cid) (hr : k.kind ≠ .reserve)
    (hi : (c2.step cfg o ch).Idle (jobs cfg c2 L2 [(o, ch)]) cid)
    {d : Nat × Except Err (Option Str)} (hd : d ∈ (c2.step cfg o ch).done) (hd' : d ∉ c2.done) :
    ∃ (x : Ctx) (s : S), x.kind = k.kind ∧ Evolves r0 x.s0.row ∧ Effect x s d.2 := by
  obtain ⟨tc', h'⟩ := apart_leads (lasts_evolved cid r0) (boot_evolved cid r0) h hs
  obtain ⟨tc2, h2, h3⟩ := apart_step (lasts_evolved cid r0) h' h1.1 h1.2.1
  subst hc
  rcases h3 k hk hi with ⟨_, h4, _⟩ | h4 | ⟨x, s', _, h5, _, _, _, _, h6, _, h7⟩
  · obtain ⟨_, _, h5, _⟩ := (h2.rest hi).2 rfl
    rw [World.seen_none h4] at h5
    cases h5
  · exact absurd h4 hr
  · obtain ⟨tm, h8⟩ := h6 hr
    obtain ⟨r, tm', h9, h10⟩ := h8 rfl
    cases h9
    exact ⟨x, s', h5, h10, (h7 d hd).resolve_left hd'⟩

theorem gone_of {r0 r : Row} (h : Evolves r0 r) (h0 : r0.st.l = .terminated) : isGone r = true := by
  simp [isGone, h.term h0]

end

/-! ### C23 -/

/-- C23, interleaved executions: whenever no operation on a connection is under way and it is marked active, it is committed, provisioned,
started, neither ended nor terminated, and its link is up; a link that is up without its connection being marked active was reported as
failed. The process may have been restarted any number of times (`Boots`, `Fits`). Missing: operations on the same connection that overlap,
restarts while operations are under way, requests that arrive before a restart has loaded the connections, restarts during which the end of
a held reservation passes, and terminations whose confirmation the requester did not take. -/
theorem C23_active_interleaved_partial (cfg : Cfg) (c : Conc) (L : Nat → Job) (h : Comes false cfg c L) (x : Row) (hx : x ∈ c.w.rows)
    (hi : c.Idle L x.cid) :
    (x.active = true → x.allocated = true ∧ x.st.r = .start ∧ x.st.p = .provisioned ∧ x.st.l = .created ∧ c.w.up x.cid ∧
      ∀ s, x.start = some s → s ≤ c.w.clk) ∧
    (c.w.up x.cid → x.active = true ∨ Reported c.w.outbox x.cid) := by
  obtain ⟨hc, hok, _⟩ := h.here hx hi
  refine ⟨fun ha => ?_, fun hu => hc.link.2 (decide_eq_true hu)⟩
  obtain ⟨h1, h2, h3⟩ := hc.row.act ha
  have hal : x.allocated = true := hc.row.pv (by rw [h2]; simp)
  exact ⟨hal, hok.alloc hal, h2, h1, by simpa [World.up] using hc.link.1 ha, h3⟩

/-! ### C24 -/

/-- C24, interleaved executions: from a moment on at which no operation on a confirmed connection is under way, whenever none is under way
and the connection is still held, its timeout call is pending, due two minutes after that first moment and one second after the end time of
the connection at the latest. Missing: restarts after that first moment, and see `C23_active_interleaved_partial`. -/
theorem C24_deadline_interleaved_partial (cfg : Cfg) (c : Conc) (L : Nat → Job) (h : Comes false cfg c L) (x : Row) (hx : x ∈ c.w.rows)
    (hi : c.Idle L x.cid) (hconf : Confirmed c.w.outbox x.cid) (s : List (Oracle × Choice)) (hs : OneByOne false cfg c L s)
    (hi' : (c.run cfg s).Idle (jobs cfg c L s) x.cid) (y : Row) (hy : y ∈ (c.run cfg s).w.rows) (hxy : y.cid = x.cid)
    (hl : y.st.l = .created) (hr : y.st.r = .held) :
    ∃ due ref, (c.run cfg s).w.pending x.cid = some ⟨due, .reserveTimeout, ref, false⟩ ∧ due ≤ c.w.clk + 120 * second ∧
      ∀ e, x.end_ = some e → due ≤ e + second := by
  obtain ⟨hc, _, _⟩ := h.here hx hi
  obtain ⟨tc, ha⟩ := h.apart
  obtain ⟨z, _, _, h3, h4, _, h5, h6⟩ := (ha.since hi (row?_mem ha.nd hx)).later hs hi'
  cases h6 y hy hxy
  obtain ⟨h7, h8, _⟩ := held_before h4.row h3 hl hr
  obtain ⟨due, ref, h9, h10, h11⟩ := hc.exp rfl h7 h8 hconf
  exact ⟨due, ref, pending_of ((h5 hl hr).trans h9), h10, h11⟩

/-- C24, interleaved executions: when the timeout of a reservation has run, whatever operations on other connections it was interleaved with,
the requester has been told; ever after, whenever no operation on the connection is under way, it holds nothing, and commit requests for
it are refused. Missing: see `C23_active_interleaved_partial`. -/
theorem C24_expires_interleaved_partial (cfg : Cfg) (c : Conc) (L : Nat → Job) (h : Comes false cfg c L) (o : Oracle) (ch : Choice)
    (h1 : OneByOne false cfg c L [(o, ch)]) (k : Job) (hj : c.job L o ch = some k) (hk : k.kind = .timeout)
    (hi : (c.step cfg o ch).Idle (jobs cfg c L [(o, ch)]) k.cid) :
    (∃ n, Msg.reserveTimeout k.cid n ∈ (c.step cfg o ch).w.outbox) ∧
    ∀ c2 L2, Leads false cfg (c.step cfg o ch) (jobs cfg c L [(o, ch)]) c2 L2 →
      (c2.Idle L2 k.cid → ∃ y ∈ c2.w.rows, y.cid = k.cid ∧ y.holds = false) ∧
      ∀ o' ch' k', OneByOne false cfg c2 L2 [(o', ch')] → c2.job L2 o' ch' = some k' → k'.cid = k.cid → k'.kind = .commit →
        (c2.step cfg o' ch').Idle (jobs cfg c2 L2 [(o', ch')]) k.cid →
        ∀ d ∈ (c2.step cfg o' ch').done, d ∉ c2.done → ∃ e, d.2 = .error e := by
  obtain ⟨tc, ha⟩ := h.apart
  obtain ⟨tc1, ha1, hO⟩ := apart_step lasts_true ha h1.1 h1.2.1
  rcases hO k hj hi with ⟨h2, _⟩ | h2 | ⟨x, s', hxc, hxk, _, hv, hr, _, _, ⟨a, hE⟩, _⟩
  · rw [hk] at h2; cases h2
  · rw [hk] at h2; cases h2
  · rw [hk] at hxk
    unfold Effect at hE
    rw [hxk] at hE
    obtain ⟨e1, e2, n, e3⟩ := hE
    have hrow : (c.step cfg o ch).w.row? k.cid = some s'.row := by rw [← hxc]; exact hv.row
    have ha2 := ha1.evolved hi hrow
    have drop : ∀ {y : Row}, Evolves s'.row y → y.st.r ≠ .held ∧ y.allocated = false := fun he => he.dropped (by rw [e1]; simp) e2
    refine ⟨⟨n, ?_⟩, fun c2 L2 hs => ⟨fun hi2 => ?_, fun o' ch' k' h3 h4 h5 h6 h7 d hd hd' => ?_⟩⟩
    · rw [← hxc]; exact hv.out _ (List.mem_append_right _ e3)
    · obtain ⟨y, hy, hyc, hye, _⟩ := ha2.ever hs hi2
      obtain ⟨d1, d2⟩ := drop hye
      refine ⟨y, hy, hyc, holds_false ?_⟩
      rintro ⟨_, b | b⟩
      · exact d1 b
      · rw [d2] at b; cases b
    · obtain ⟨x2, s2, h8, h9, h10⟩ := ha2.request hs h3 h4 h5 (by rw [h6]; simp) h7 hd hd'
      rw [h6] at h8
      unfold Effect at h10
      rw [h8] at h10
      rcases h10 with ⟨_, h10⟩ | ⟨_, h10, _⟩
      · exact h10
      · exact absurd h10 (drop h9).1

/-! ### C25 -/

/-- C25, interleaved executions: when a terminate request has been answered with success and is over, whatever operations on other
connections it was interleaved with, no call of the connection is pending; ever after, whenever no operation on the connection is under
way, it is terminated and inactive, holds nothing, and its link is down unless a failure was reported; and requests to commit, abort,
provision or release it are refused. Missing: see `C23_active_interleaved_partial`. -/
theorem C25_terminate_interleaved_partial (cfg : Cfg) (c : Conc) (L : Nat → Job) (h : Comes false cfg c L) (o : Oracle) (ch : Choice)
    (h1 : OneByOne false cfg c L [(o, ch)]) (k : Job) (hj : c.job L o ch = some k) (hk : k.kind = .terminate)
    (hi : (c.step cfg o ch).Idle (jobs cfg c L [(o, ch)]) k.cid) (n : Nat) (a : Option Str) (hd : (n, .ok a) ∈ (c.step cfg o ch).done)
    (hd' : (n, .ok a) ∉ c.done) :
    (c.step cfg o ch).w.pending k.cid = none ∧
    ∀ c2 L2, Leads false cfg (c.step cfg o ch) (jobs cfg c L [(o, ch)]) c2 L2 →
      (c2.Idle L2 k.cid → ∃ y ∈ c2.w.rows, y.cid = k.cid ∧ y.st.l = .terminated ∧ y.active = false ∧ y.holds = false ∧
        (c2.w.up k.cid → Reported c2.w.outbox k.cid)) ∧
      ∀ o' ch' k', OneByOne false cfg c2 L2 [(o', ch')] → c2.job L2 o' ch' = some k' → k'.cid = k.cid →
        k'.kind ∈ [OpKind.commit, .abort, .provision, .release] → (c2.step cfg o' ch').Idle (jobs cfg c2 L2 [(o', ch')]) k.cid →
        ∀ d ∈ (c2.step cfg o' ch').done, d ∉ c2.done → ∃ e, d.2 = .error e := by
  obtain ⟨tc, ha⟩ := h.apart
  obtain ⟨tc1, ha1, hO⟩ := apart_step lasts_true ha h1.1 h1.2.1
  rcases hO k hj hi with ⟨_, _, h2⟩ | h2 | ⟨x, s', hxc, hxk, _, hv, hr, _, _, _, hE⟩
  · rcases h2 _ hd with h3 | ⟨e, h3⟩
    · exact absurd h3 hd'
    · cases h3
  · rw [hk] at h2; cases h2
  · rw [hk] at hxk
    have hE := (hE _ hd).resolve_left hd'
    unfold Effect at hE
    rw [hxk] at hE
    obtain ⟨r, hra, ⟨_, _, _, e, he⟩ | ⟨_, _, hrow', _, _, htm⟩⟩ := hE
    · cases he
    have hrow : (c.step cfg o ch).w.row? k.cid = some s'.row := by rw [← hxc]; exact hv.row
    have ha2 := ha1.evolved hi hrow
    have hl : s'.row.st.l = .terminated := by rw [hrow']; rfl
    refine ⟨?_, fun c2 L2 hs => ⟨fun hi2 => ?_, fun o' ch' k' h3 h4 h5 h6 h7 d hd hd' => ?_⟩⟩
    · unfold World.pending
      rw [← hxc, hv.tm, htm]
    · obtain ⟨y, hy, hyc, hye, hcon, hok⟩ := ha2.ever hs hi2
      have hyl := hye.term hl
      have hya : y.active = false := by
        cases hya : y.active with
        | false => rfl
        | true => have := (hcon.row.act hya).1; rw [hyl] at this; cases this
      refine ⟨y, hy, hyc, hyl, hya, holds_false ?_, fun hu => ?_⟩
      · rintro ⟨b, _⟩; rw [hyl] at b; cases b
      · rcases hcon.link.2 (decide_eq_true (by rw [hyc]; exact hu)) with b | b
        · rw [hya] at b; cases b
        · rw [← hyc]; exact b
    · obtain ⟨x2, s2, h8, h9, h10⟩ := ha2.request hs h3 h4 h5 (by intro e; rw [e] at h6; simp at h6) h7 hd hd'
      have hg := gone_of h9 hl
      have ng : ∀ {p : Prop}, isGone x2.s0.row = false → p := fun b => by rw [hg] at b; cases b
      rw [← h8] at h6
      unfold Effect at h10
      simp only [List.mem_cons, List.not_mem_nil, or_false] at h6
      rcases h6 with e | e | e | e <;> rw [e] at h10
      · rcases h10 with ⟨_, b⟩ | ⟨b, _⟩
        · exact b
        · exact ng b
      · rcases h10 with ⟨_, b⟩ | ⟨b, _⟩
        · exact b
        · exact ng b
      · exact h10 hg
      · obtain ⟨_, _, ⟨_, _, _, e, b, _⟩ | ⟨_, b, _⟩⟩ := h10
        · exact ⟨e, b⟩
        · exact ng b

/-! ### C54 -/

/-- C54, interleaved executions: when a release request has been answered with success and is over, whatever operations on other
connections it was interleaved with, the connection is released, inactive and still committed, and its link is down unless a failed
teardown or activation was reported. Missing: see `C23_active_interleaved_partial`. -/
theorem C54_released_interleaved_partial (cfg : Cfg) (c : Conc) (L : Nat → Job) (h : Comes false cfg c L) (o : Oracle) (ch : Choice)
    (h1 : OneByOne false cfg c L [(o, ch)]) (k : Job) (hj : c.job L o ch = some k) (hk : k.kind = .release)
    (hi : (c.step cfg o ch).Idle (jobs cfg c L [(o, ch)]) k.cid) (n : Nat) (a : Option Str) (hd : (n, .ok a) ∈ (c.step cfg o ch).done)
    (hd' : (n, .ok a) ∉ c.done) :
    ∃ y ∈ (c.step cfg o ch).w.rows, y.cid = k.cid ∧ y.st.p = .released ∧ y.active = false ∧ y.allocated = true ∧
      ((c.step cfg o ch).w.up k.cid → Reported (c.step cfg o ch).w.outbox k.cid) := by
  obtain ⟨tc, ha⟩ := h.apart
  obtain ⟨tc1, ha1, hO⟩ := apart_step lasts_true ha h1.1 h1.2.1
  rcases hO k hj hi with ⟨_, _, h2⟩ | h2 | ⟨x, s', hxc, hxk, _, hv, hr, _, _, _, hE⟩
  · rcases h2 _ hd with h3 | ⟨e, h3⟩
    · exact absurd h3 hd'
    · cases h3
  · rw [hk] at h2; cases h2
  · rw [hk] at hxk
    have hE := (hE _ hd).resolve_left hd'
    unfold Effect at hE
    rw [hxk] at hE
    have hrow : (c.step cfg o ch).w.row? k.cid = some s'.row := by rw [← hxc]; exact hv.row
    obtain ⟨hm, hc⟩ := mem_of_row? hrow
    obtain ⟨hcon, _⟩ := (ha1.rest hi).1.here _ hrow
    obtain ⟨r, hra, ⟨_, _, _, e, he, _⟩ | ⟨hal, _, hp, _, _, ⟨_, hrow', _⟩ | ⟨he, _⟩⟩⟩ := hE
    · cases he
    · have hact : s'.row.active = false := by rw [hrow']; rfl
      refine ⟨_, hm, hc, by rw [hrow']; rfl, hact, by rw [hrow']; exact hal, fun hu => ?_⟩
      rcases hcon.link.2 (decide_eq_true (by rw [hc]; exact hu)) with b | b
      · rw [hact] at b; cases b
      · rw [← hc]; exact b
    · rw [he] at hra; cases hra

/-! ### C88 -/

/-- C88, interleaved executions: the call that is pending for a live connection on which no operation is under way, as in
`C88_calls_partial`. Operations are over in time (`OnTime`): by one second after the end time, and provisioning by one second after a start
time that was to come when it began. Missing: see `C23_active_interleaved_partial`. -/
theorem C88_calls_interleaved_partial (cfg : Cfg) (c : Conc) (L : Nat → Job) (h : Comes true cfg c L) (x : Row) (hx : x ∈ c.w.rows)
    (hi : c.Idle L x.cid) (hl : x.st.l = .created) :
    (x.st.p = .released ∨ x.st.p = .provisioned) ∧
    (x.allocated = true → x.st.p = .released ∨ x.active = true → ∀ e, x.end_ = some e →
      ∃ due ref, c.w.pending x.cid = some ⟨due, .endtime, ref, false⟩ ∧ e ≤ due ∧ (due = e ∨ due ≤ c.w.clk)) ∧
    (x.st.p = .provisioned → x.active = false →
      (∃ s due ref, x.start = some s ∧ c.w.pending x.cid = some ⟨due, .activate, ref, false⟩ ∧ s ≤ due ∧ (due = s ∨ due ≤ c.w.clk)) ∨
      ∃ n, Msg.activateFailed x.cid n ∈ c.w.outbox) := by
  have hd := (h.here hx hi).2.2 rfl
  refine ⟨hd.settled hl, fun ha hp e he => ?_, fun hp ha => ?_⟩
  · obtain ⟨due, ref, h1, h2, h3⟩ := hd.ends hl ha hp e he
    exact ⟨due, ref, pending_of h1, h2, by omega⟩
  · rcases hd.activates hl hp ha with ⟨s, due, ref, h1, h2, h3, h4⟩ | a
    · exact Or.inl ⟨s, due, ref, h1, pending_of h4, h2, by omega⟩
    · exact Or.inr a

/-- C88, interleaved executions: while a live connection is provisioned, no operation on it is under way, and nothing scheduled for it is
due, its link is up exactly when its start time has come, provided no failure of its activation or teardown was reported. Missing: see
`C88_calls_interleaved_partial`. -/
theorem C88_window_interleaved_partial (cfg : Cfg) (c : Conc) (L : Nat → Job) (h : Comes true cfg c L) (x : Row) (hx : x ∈ c.w.rows)
    (hi : c.Idle L x.cid) (hl : x.st.l = .created) (hp : x.st.p = .provisioned) (hd : NothingDue c.w x.cid)
    (hf : ¬ Reported c.w.outbox x.cid) : c.w.up x.cid ↔ ∀ s, x.start = some s → s ≤ c.w.clk := by
  have hc := (h.here hx hi).1
  constructor
  · intro hu
    rcases hc.link.2 (decide_eq_true hu) with ha | ha
    · exact (hc.row.act ha).2.2
    · exact absurd ha hf
  · intro hs
    cases ha : x.active with
    | true => exact by simpa [World.up] using hc.link.1 ha
    | false =>
      rcases (C88_calls_interleaved_partial cfg c L h x hx hi hl).2.2 hp ha with ⟨s, due, ref, h1, h2, h3, h4⟩ | ⟨n, hn⟩
      · have := hd _ h2
        have := hs s h1
        simp only at *
        omega
      · exact absurd ⟨n, Or.inl hn⟩ hf

/-- C88, interleaved executions: a committed connection does not outlive its end: once its end time has come, no operation on it is under
way and nothing scheduled for it is due, it is over and its link is down, unless it is still waiting for its start or a failure was
reported. Missing: see `C88_calls_interleaved_partial`. -/
theorem C88_over_interleaved_partial (cfg : Cfg) (c : Conc) (L : Nat → Job) (h : Comes true cfg c L) (x : Row) (hx : x ∈ c.w.rows)
    (hi : c.Idle L x.cid) (ha : x.allocated = true) (hd : NothingDue c.w x.cid) (hf : ¬ Reported c.w.outbox x.cid) (e : Time)
    (he : x.end_ = some e) (hpast : e ≤ c.w.clk) (hs : ∀ s, x.start = some s → s ≤ c.w.clk) :
    (x.st.l = .passedEnd ∨ x.st.l = .terminated) ∧ ¬ c.w.up x.cid := by
  have hc := (h.here hx hi).1
  have hnl : x.st.l ≠ .created := by
    intro hl
    obtain ⟨h0, h1, h2⟩ := C88_calls_interleaved_partial cfg c L h x hx hi hl
    have hend : x.st.p = .released ∨ x.active = true → False := by
      intro hp
      obtain ⟨due, ref, h3, h4, h5⟩ := h1 ha hp e he
      have := hd _ h3
      simp only at this
      omega
    rcases h0 with hp | hp
    · exact hend (Or.inl hp)
    · cases hact : x.active with
      | true => exact hend (Or.inr hact)
      | false =>
        rcases h2 hp hact with ⟨s, due, ref, h3, h4, h5, h6⟩ | ⟨n, hn⟩
        · have := hd _ h4
          have := hs s h3
          simp only at *
          omega
        · exact hf ⟨n, Or.inl hn⟩
  refine ⟨?_, fun hu => ?_⟩
  · rcases hc.row.lc with a | a | a
    · exact absurd a hnl
    · exact Or.inl a
    · exact Or.inr a
  · rcases hc.link.2 (decide_eq_true hu) with hact | hact
    · exact hnl (hc.row.act hact).1
    · exact hf hact

/-! ### Whether operations overlap, computed -/

def Conc.idle? (c : Conc) (L : Nat → Job) (cid : Str) : Bool := c.tasks.all fun t => !decide ((L t.id).cid = cid)

def Conc.may? (c : Conc) (L : Nat → Job) (o : Oracle) : Choice → Bool
  | .start _ q => c.idle? L (q.conn o) && (!decide (q.kind = .reserve) || !c.w.idTaken (q.conn o))
  | .fire cid => c.idle? L cid
  | .restart => false
  | _ => true

def onTime? (k : OpKind) (began : Time) (r : Row) (t : Time) : Bool :=
  (!(decide (k = .commit) || decide (k = .provision) || decide (k = .release) || decide (k = .activate)) || r.end_.all fun e => decide (t ≤ e + second)) &&
  (!decide (k = .provision) || r.start.all fun s => !decide (began < s) || decide (t ≤ s + second))

def fine? (L : Nat → Job) (j : Option Job) (c : Conc) : Bool :=
  (c.done.all fun d => match d.2 with | .error .parent => !decide ((L d.1).kind = .terminate) | _ => true) &&
  (c.w.rows.all fun r => match r.start, r.end_ with | none, some e => decide (r.reserveTime ≤ e) | _, _ => true) &&
  match j with
  | none => true
  | some k => !c.idle? L k.cid || match c.w.row? k.cid with | some r => !decide (r.st.l = .created) || onTime? k.kind k.began r c.w.clk | none => true

def oneByOne? (cfg : Cfg) : Conc → (Nat → Job) → List (Oracle × Choice) → Bool
  | _, _, [] => true
  | c, L, (o, ch) :: s => c.may? L o ch && fine? (c.rejob L (c.job L o ch)) (c.job L o ch) (c.step cfg o ch) &&
      oneByOne? cfg (c.step cfg o ch) (c.rejob L (c.job L o ch)) s

theorem idle_of {c : Conc} {L : Nat → Job} {cid : Str} : c.idle? L cid = true ↔ c.Idle L cid := by
  simp [Conc.idle?, Conc.Idle]

theorem may_of {c : Conc} {L : Nat → Job} {o : Oracle} {ch : Choice} (h : c.may? L o ch = true) : c.May L o ch := by
  cases ch with
  | start hd q =>
    simp only [Conc.may?, Bool.and_eq_true, idle_of] at h
    refine ⟨h.1, fun hq => ?_⟩
    simpa [hq] using h.2
  | fire cid => exact fun _ _ _ _ _ => idle_of.mp h
  | restart => cases h
  | _ => trivial

theorem onTime_of {k : OpKind} {began : Time} {r : Row} {t : Time} (h : onTime? k began r t = true) : OnTime k began r t := by
  simp only [onTime?, Bool.and_eq_true, Bool.or_eq_true, Bool.not_eq_true', Bool.or_eq_false_iff, decide_eq_false_iff_not] at h
  refine ⟨fun hk e he => ?_, fun hk s hs hb => ?_⟩
  · rcases h.1 with h1 | h1
    · rcases hk with a | a | a | a
      · exact absurd a h1.1.1.1
      · exact absurd a h1.1.1.2
      · exact absurd a h1.1.2
      · exact absurd a h1.2
    · rw [he] at h1; simpa using h1
  · rcases h.2 with h1 | h1
    · exact absurd hk h1
    · rw [hs] at h1
      simp only [Option.all_some, Bool.or_eq_true, Bool.not_eq_true', decide_eq_false_iff_not, decide_eq_true_eq] at h1
      omega

theorem fine_of {T : Bool} {L : Nat → Job} {j : Option Job} {c : Conc} (h : fine? L j c = true) : Fine T L j c := by
  simp only [fine?, Bool.and_eq_true, List.all_eq_true] at h
  obtain ⟨⟨h1, h2⟩, h3⟩ := h
  refine ⟨fun n hn => ?_, fun r hr hs e he => ?_, ?_⟩
  · have := h1 _ hn
    simpa using this
  · have := h2 r hr
    simpa [hs, he] using this
  · rintro _ k rfl hi r hr hl
    simp only [idle_of.mpr hi, hr, hl] at h3
    exact onTime_of (by simpa using h3)

theorem oneByOne_of {T : Bool} {cfg : Cfg} : ∀ {s : List (Oracle × Choice)} {c : Conc} {L : Nat → Job}, oneByOne? cfg c L s = true → OneByOne T cfg c L s
  | [], _, _, _ => trivial
  | _ :: _, _, _, h => by
    simp only [oneByOne?, Bool.and_eq_true] at h
    exact ⟨may_of h.1.1, fine_of h.1.2, oneByOne_of h.2⟩

namespace Ex

/-- `x` and `y` are reserved at the same time and committed at the same time; after their start `x` is provisioned while `y` is terminated;
`z` is reserved while `x` is activated; `x` is released while `z` times out; `x` ends. -/
def apart : List (Oracle × Choice) :=
  let r : Choice := .start hdr (.reserve none (stp 'a' 12 13) (stp 'b' 12 13) (some (sec 2000)) (some (sec 3000)))
  let z : Choice := .start hdr (.reserve none (stp 'a' 15 16) (stp 'b' 15 16) (some (sec 4000)) (some (sec 5000)))
  [(ids 'x', r), (ids 'y', r)] ++ go 0 ++ go 1 ++ go 2 ++ go 3 ++ go 2 ++ go 3 ++
  [(o0, .start hdr (.commit ['x'])), (o0, .start hdr (.commit ['y']))] ++ go 5 ++ go 4 ++ go 4 ++ go 5 ++ go 5 ++ go 4 ++
  [(o0, .wait 1200000000), (o0, .start hdr (.provision ['x'])), (o0, .start hdr (.terminate ['y']))] ++
  go 8 ++ go 9 ++ go 8 ++ go 8 ++ go 9 ++ go 9 ++ go 9 ++
  [(ids 'z', z)] ++ go 13 ++ go 12 ++ go 14 ++ go 12 ++ go 14 ++ go 14 ++ go 12 ++ go 12 ++
  [(o0, .wait 200000000), (o0, .start hdr (.release ['x'])), (o0, .fire ['z'])] ++
  go 15 ++ go 16 ++ go 15 ++ go 16 ++ go 16 ++ go 16 ++ go 15 ++ go 15 ++ go 15 ++
  [(o0, .wait 1000000000), (o0, .fire ['x'])] ++ go 19

/-- After `n` of its steps. -/
def when (n : Nat) : Conc := Conc.run (cfg true) { w := w0 } (apart.take n)

/-- The operations of the tasks then. -/
def ops (n : Nat) : Nat → Job := jobs (cfg true) { w := w0 } noJobs (apart.take n)

theorem comes {T : Bool} (n : Nat) (h : oneByOne? (cfg true) { w := w0 } noJobs (apart.take n) = true) : Comes T (cfg true) (when n) (ops n) :=
  ⟨[], 1000 * second, .run (apart.take n) .refl (oneByOne_of h)⟩

end Ex

/-- C23_active_interleaved_partial, C88_window_interleaved_partial: `x` is active while `z` is being reserved. -/
example : Comes true (Ex.cfg true) (Ex.when 54) (Ex.ops 54) ∧ (Ex.when 54).Idle (Ex.ops 54) ['x'] ∧ ¬ (Ex.when 54).Idle (Ex.ops 54) ['z'] ∧
    (∃ x ∈ (Ex.when 54).w.rows, x.cid = ['x'] ∧ x.active = true ∧ x.st.l = .created ∧ x.st.p = .provisioned) ∧
    NothingDue (Ex.when 54).w ['x'] ∧ ¬ Reported (Ex.when 54).w.outbox ['x'] :=
  ⟨Ex.comes _ (by decide +kernel), idle_of.mp (by decide +kernel), by rw [← idle_of]; decide +kernel, by decide +kernel,
    Ex.nothingDue (by decide +kernel), Ex.unreported (by decide +kernel)⟩

/-- C24_deadline_interleaved_partial: `z` is confirmed, and still held when `x` is being released. -/
example : Comes false (Ex.cfg true) (Ex.when 56) (Ex.ops 56) ∧ (Ex.when 56).Idle (Ex.ops 56) ['z'] ∧
    (∃ x ∈ (Ex.when 56).w.rows, x.cid = ['z'] ∧ x.end_ = some (Ex.sec 5000)) ∧ Confirmed (Ex.when 56).w.outbox ['z'] ∧
    OneByOne false (Ex.cfg true) (Ex.when 56) (Ex.ops 56) ((Ex.apart.drop 56).take 8) ∧
    ((Ex.when 56).run (Ex.cfg true) ((Ex.apart.drop 56).take 8)).tasks.map (·.id) = [15] ∧
    ((Ex.when 56).run (Ex.cfg true) ((Ex.apart.drop 56).take 8)).Idle (jobs (Ex.cfg true) (Ex.when 56) (Ex.ops 56) ((Ex.apart.drop 56).take 8)) ['z'] ∧
    ∃ y ∈ ((Ex.when 56).run (Ex.cfg true) ((Ex.apart.drop 56).take 8)).w.rows, y.cid = ['z'] ∧ y.st.l = .created ∧ y.st.r = .held :=
  ⟨Ex.comes _ (by decide +kernel), idle_of.mp (by decide +kernel), by decide +kernel,
    ⟨['k'], some (tVlan, 15), some (tVlan, 15), some (Ex.sec 4000), some (Ex.sec 5000), by decide +kernel⟩, oneByOne_of (by decide +kernel),
    by decide +kernel, idle_of.mp (by decide +kernel), by decide +kernel⟩

/-- C24_expires_interleaved_partial: the timeout of `z` is over while `x` is being released; a later commit of `z`. -/
example : Comes false (Ex.cfg true) (Ex.when 74) (Ex.ops 74) ∧ OneByOne false (Ex.cfg true) (Ex.when 74) (Ex.ops 74) [(Ex.o0, .resume 16)] ∧
    ((Ex.when 74).job (Ex.ops 74) Ex.o0 (.resume 16)).map (fun k => (k.cid, k.kind)) = some (['z'], .timeout) ∧
    (Ex.when 75).tasks.map (·.id) = [15] ∧ (Ex.when 75).Idle (Ex.ops 75) ['z'] ∧
    OneByOne false (Ex.cfg true) (Ex.when 75) (Ex.ops 75) [(Ex.o0, .start Ex.hdr (.commit ['z'])), (Ex.o0, .perform 19), (Ex.o0, .resume 19)] ∧
    ((Ex.when 75).run (Ex.cfg true) [(Ex.o0, .start Ex.hdr (.commit ['z'])), (Ex.o0, .perform 19), (Ex.o0, .resume 19)]).done.length =
      (Ex.when 75).done.length + 1 :=
  ⟨Ex.comes _ (by decide +kernel), oneByOne_of (by decide +kernel), by decide +kernel, by decide +kernel, idle_of.mp (by decide +kernel),
    oneByOne_of (by decide +kernel), by decide +kernel⟩

/-- C25_terminate_interleaved_partial: the termination of `y` is answered while `x` is being activated; a later commit of `y`. -/
example : Comes false (Ex.cfg true) (Ex.when 44) (Ex.ops 44) ∧ OneByOne false (Ex.cfg true) (Ex.when 44) (Ex.ops 44) [(Ex.o0, .resume 9)] ∧
    ((Ex.when 44).job (Ex.ops 44) Ex.o0 (.resume 9)).map (fun k => (k.cid, k.kind)) = some (['y'], .terminate) ∧
    (Ex.when 45).tasks.map (·.id) = [12] ∧ (Ex.when 45).Idle (Ex.ops 45) ['y'] ∧
    ((9, .ok none) ∈ (Ex.when 45).done ∧ (9, .ok none) ∉ (Ex.when 44).done) ∧
    OneByOne false (Ex.cfg true) (Ex.when 45) (Ex.ops 45) [(Ex.o0, .start Ex.hdr (.commit ['y'])), (Ex.o0, .perform 13), (Ex.o0, .resume 13)] ∧
    ((Ex.when 45).run (Ex.cfg true) [(Ex.o0, .start Ex.hdr (.commit ['y'])), (Ex.o0, .perform 13), (Ex.o0, .resume 13)]).done.length =
      (Ex.when 45).done.length + 1 :=
  ⟨Ex.comes _ (by decide +kernel), oneByOne_of (by decide +kernel), by decide +kernel, by decide +kernel, idle_of.mp (by decide +kernel),
    by decide +kernel, oneByOne_of (by decide +kernel), by decide +kernel⟩

/-- C54_released_interleaved_partial: the release of `x` is answered. -/
example : Comes false (Ex.cfg true) (Ex.when 82) (Ex.ops 82) ∧ OneByOne false (Ex.cfg true) (Ex.when 82) (Ex.ops 82) [(Ex.o0, .resume 15)] ∧
    ((Ex.when 82).job (Ex.ops 82) Ex.o0 (.resume 15)).map (fun k => (k.cid, k.kind)) = some (['x'], .release) ∧
    (Ex.when 83).Idle (Ex.ops 83) ['x'] ∧ (15, .ok none) ∈ (Ex.when 83).done ∧ (15, .ok none) ∉ (Ex.when 82).done :=
  ⟨Ex.comes _ (by decide +kernel), oneByOne_of (by decide +kernel), by decide +kernel, idle_of.mp (by decide +kernel), by decide +kernel⟩

/-- C88_calls_interleaved_partial: `x` is committed. C88_over_interleaved_partial: `x` has ended. -/
example : Comes true (Ex.cfg true) (Ex.when 28) (Ex.ops 28) ∧ (Ex.when 28).Idle (Ex.ops 28) ['x'] ∧
    (∃ x ∈ (Ex.when 28).w.rows, x.cid = ['x'] ∧ x.st.l = .created ∧ x.allocated = true ∧ x.end_ = some (Ex.sec 3000)) ∧
    Comes true (Ex.cfg true) (Ex.when 87) (Ex.ops 87) ∧ (Ex.when 87).Idle (Ex.ops 87) ['x'] ∧
    (∃ x ∈ (Ex.when 87).w.rows, x.cid = ['x'] ∧ x.allocated = true ∧ x.start = some (Ex.sec 2000) ∧ x.end_ = some (Ex.sec 3000)) ∧
    Ex.sec 3000 ≤ (Ex.when 87).w.clk ∧ NothingDue (Ex.when 87).w ['x'] ∧ ¬ Reported (Ex.when 87).w.outbox ['x'] :=
  ⟨Ex.comes _ (by decide +kernel), idle_of.mp (by decide +kernel), by decide +kernel, Ex.comes _ (by decide +kernel),
    idle_of.mp (by decide +kernel), by decide +kernel, by decide +kernel, Ex.nothingDue (by decide +kernel), Ex.unreported (by decide +kernel)⟩

/-! ### Restarts -/

def fits? (c c' : Conc) : Bool :=
  c.w.rows.all fun r => (!decide (r.st.r = .held) || r.end_.all fun e => decide (c'.w.clk ≤ e)) &&
    (!(decide (r.st.l = .created) && r.allocated) || ((r.end_.all fun e => decide (e < c.w.clk) || decide (c'.w.clk ≤ e + second)) &&
      r.start.all fun s => decide (s < c.w.clk) || decide (c'.w.clk < s)))

theorem fits_of {T : Bool} {c c' : Conc} (h : fits? c c' = true) : Fits T c c' := by
  simp only [fits?, List.all_eq_true, Bool.and_eq_true, Bool.or_eq_true, Bool.not_eq_true', decide_eq_false_iff_not, Bool.and_eq_false_iff] at h
  refine ⟨fun r hr hh e he => ?_, fun _ r hr hl ha => ?_⟩
  · rcases (h r hr).1 with a | a
    · exact absurd hh a
    · rw [he] at a; simpa using a
  · rcases (h r hr).2 with (a | a) | a
    · exact absurd hl a
    · rw [ha] at a; cases a
    · refine ⟨fun e he => ?_, fun s hs => ?_⟩
      · have := a.1; rw [he] at this; simpa using this
      · have := a.2; rw [hs] at this; simpa using this

namespace Ex

/-- After 63 steps of `apart` (`x` is active, `y` terminated, the timeout of `z` is due) the process is restarted; `x` ends. -/
def reboot : List (Oracle × Choice) := (o0, .restart) :: (go 15 ++ go 15 ++ go 15 ++ go 15)
def after : List (Oracle × Choice) := [(o0, .wait 700000000), (o0, .fire ['x'])] ++ go 16 ++ go 16 ++ go 16 ++ go 16
def up : Conc := (when 63).run (cfg true) reboot

theorem boots : Boots (cfg true) (when 63) up := by
  refine ⟨List.isEmpty_iff.mp (by decide +kernel), ⟨o0, go 15 ++ go 15 ++ go 15 ++ go 15, ?_, rfl⟩, List.isEmpty_iff.mp (by decide +kernel), fun e he => ?_⟩
  · intro p hp
    refine ⟨15, ?_⟩
    simp only [go, List.cons_append, List.nil_append, List.mem_cons, List.not_mem_nil, or_false] at hp
    rcases hp with rfl | rfl | rfl | rfl | rfl | rfl | rfl | rfl <;> simp
  · have : up.done.all (fun d => isOk d.2) = true := by decide +kernel
    have := List.all_eq_true.mp this _ he
    cases this

theorem run_app (cfg : Cfg) : ∀ (a b : List (Oracle × Choice)) (c : Conc) (L : Nat → Job), c.run cfg (a ++ b) = (c.run cfg a).run cfg b ∧
    jobs cfg c L (a ++ b) = jobs cfg (c.run cfg a) (jobs cfg c L a) b
  | [], _, _, _ => ⟨rfl, rfl⟩
  | (o, ch) :: a, b, c, L => run_app cfg a b (c.step cfg o ch) (c.rejob L (c.job L o ch))

theorem leads {T : Bool} (m n : Nat) (h : OneByOne T (cfg true) (when m) (ops m) ((apart.drop m).take n)) :
    Leads T (cfg true) (when m) (ops m) (when (m + n)) (ops (m + n)) := by
  obtain ⟨h1, h2⟩ := run_app (cfg true) (apart.take m) ((apart.drop m).take n) { w := w0 } noJobs
  have h3 : when (m + n) = (when m).run (cfg true) ((apart.drop m).take n) := by rw [when, List.take_add, h1]; rfl
  have h4 : ops (m + n) = jobs (cfg true) (when m) (ops m) ((apart.drop m).take n) := by rw [ops, List.take_add, h2]; rfl
  rw [h3, h4]
  exact .run _ .refl h

theorem comesUp (T : Bool) : Comes T (cfg true) up (ops 63) :=
  ⟨[], 1000 * second, .boot (.run (apart.take 63) .refl (oneByOne_of (by decide +kernel))) boots (fits_of (by decide +kernel))⟩

end Ex

/-- C23_active_interleaved_partial, C88_window_interleaved_partial, after a restart: `x` is active. C24: `z` holds nothing. -/
example : Comes true (Ex.cfg true) Ex.up (Ex.ops 63) ∧ Ex.up.Idle (Ex.ops 63) ['x'] ∧
    (∃ x ∈ Ex.up.w.rows, x.cid = ['x'] ∧ x.active = true ∧ x.st.l = .created ∧ x.st.p = .provisioned) ∧
    (∃ x ∈ Ex.up.w.rows, x.cid = ['z'] ∧ x.st.l = .created ∧ x.st.r = .start) ∧
    NothingDue Ex.up.w ['x'] ∧ ¬ Reported Ex.up.w.outbox ['x'] :=
  ⟨Ex.comesUp true, idle_of.mp (by decide +kernel), by decide +kernel, by decide +kernel, Ex.nothingDue (by decide +kernel), Ex.unreported (by decide +kernel)⟩

/-- C25_terminate_interleaved_partial: `y`, terminated before the restart, stays terminated while `x` ends after it. -/
example : Leads false (Ex.cfg true) (Ex.when 45) (Ex.ops 45) (Ex.up.run (Ex.cfg true) Ex.after) (jobs (Ex.cfg true) Ex.up (Ex.ops 63) Ex.after) ∧
    (Ex.up.run (Ex.cfg true) Ex.after).tasks.length = 0 ∧
    (∃ x ∈ (Ex.up.run (Ex.cfg true) Ex.after).w.rows, x.cid = ['x'] ∧ x.st.l = .passedEnd) ∧
    ∃ x ∈ (Ex.up.run (Ex.cfg true) Ex.after).w.rows, x.cid = ['y'] ∧ x.st.l = .terminated := by
  refine ⟨.run Ex.after (.boot (c1 := Ex.when 63) (L1 := Ex.ops 63) ?_ Ex.boots (fits_of (by decide +kernel))) (oneByOne_of (by decide +kernel)), ?_⟩
  · exact Ex.leads 45 18 (oneByOne_of (by decide +kernel))
  · decide +kernel

/-! ### C21, C22 -/

/-- C22, interleaved executions with restarts: whenever no operation is under way, the calendar has exactly the entries of the stored
connections that hold or own resources. Missing: see `C23_active_interleaved_partial`; `C22_interleaved_partial` has more of the overlaps, but
no restarts. -/
theorem C22_restarts_interleaved_partial (cfg : Cfg) (c : Conc) (L : Nat → Job) (h : Comes false cfg c L) (ht : c.tasks = []) :
    c.w.cal.Perm (c.w.booked cfg) := by
  obtain ⟨tc, h⟩ := h.apart
  have hi := (h.inv ht).cal
  have e : (c.w.rows.filter fun r => allLoaded r.cid) = c.w.rows := List.filter_eq_self.mpr fun _ _ => rfl
  rw [e] at hi
  rw [booked_contrib]
  exact hi

/-- C21, interleaved executions with restarts: at every moment, also while operations are under way, two stored connections that hold or own
resources never share a resource at an instant from now on. Missing: see `C23_active_interleaved_partial`;
`C21_connections_interleaved_partial` has more of the overlaps, but no restarts. The time is before the year 9999. -/
theorem C21_restarts_interleaved_partial (cfg : Cfg) (c : Conc) (L : Nat → Job) (h : Comes false cfg c L) (hc : c.w.clk < forever) :
    ∀ a ∈ c.w.rows, ∀ b ∈ c.w.rows, a.cid ≠ b.cid → a.holds = true → b.holds = true →
      ∀ x ∈ a.books cfg, ∀ y ∈ b.books cfg, x.resv.resource = y.resv.resource →
        ∀ t, ¬ (x.resv.OccupiesAt c.w.clk t ∧ y.resv.OccupiesAt c.w.clk t) := by
  intro a ha b hb hne hha hhb x hx y hy hres t ⟨h1, h2⟩
  obtain ⟨ids, clk, h⟩ := h
  obtain ⟨_, tc, _, _, h, _⟩ := (kept_init (T := false) cfg ids clk).leads h
  have mem : ∀ r ∈ c.w.rows, r.holds = true → ∀ z ∈ r.books cfg, (r.cid, z.resv) ∈ tc := by
    intro r hr hh z hz
    refine mem_own' ((h.phase r.cid).cov r (row?_mem h.glob.nodup hr) z.resv ?_)
    simp only [contrib, hh, if_true]
    exact List.mem_map_of_mem hz
  exact h.glob.apart hc _ (mem a ha hha x hx) _ (mem b hb hhb y hy) hne ⟨hres, t, h1, h2⟩

namespace Ex

/-- After the restart somebody reserves what `x` has now, for later; the commit is under way. -/
def more : List (Oracle × Choice) :=
  [(ids 'v', .start hdr (.reserve none (stp 'a' 12 12) (stp 'b' 12 12) (some (sec 3001)) (some (sec 4000))))] ++ go 16 ++ go 16 ++ go 17 ++ go 17 ++ go 17 ++
  [(o0, .start hdr (.commit ['v']))] ++ go 18

end Ex

/-- C21_restarts_interleaved_partial: `x` and `v` hold the same, one after the other, and the commit of `v` is under way. -/
example : Comes false (Ex.cfg true) (Ex.up.run (Ex.cfg true) Ex.more) (jobs (Ex.cfg true) Ex.up (Ex.ops 63) Ex.more) ∧
    (Ex.up.run (Ex.cfg true) Ex.more).tasks.length = 1 ∧ (Ex.up.run (Ex.cfg true) Ex.more).w.clk < forever ∧
    ((Ex.up.run (Ex.cfg true) Ex.more).w.rows.filter Row.holds).map (fun r => (r.cid, r.srcPort, r.srcLabel)) =
      [(['x'], ['a'], some (tVlan, 12)), (['v'], ['a'], some (tVlan, 12))] := by
  refine ⟨?_, by decide +kernel, by decide +kernel, by decide +kernel⟩
  obtain ⟨ids, clk, h⟩ := Ex.comesUp false
  exact ⟨ids, clk, .run Ex.more h (oneByOne_of (by decide +kernel))⟩

/-- C22_restarts_interleaved_partial: the calendar has the entries of `x`. -/
example : Comes false (Ex.cfg true) Ex.up (Ex.ops 63) ∧ Ex.up.tasks.length = 0 ∧ Ex.up.w.cal.length = 2 :=
  ⟨Ex.comesUp false, by decide +kernel, by decide +kernel⟩

end OpenNSA.Backend
