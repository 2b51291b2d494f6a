import Verif.Backend.History
import Verif.Backend.Trace
/-
Every live connection has the scheduled call it needs.
-/
namespace OpenNSA.Backend
open OpenNSA Py Prog

/-- The event was dealt with in time: a commit, provision or release request on a live connection, and an activation, are
completed at most a second after the end time of the connection; a provision request before the start time is completed at
most a second after it; and no start time, nor an end time and the second after it, lies within a restart.

Outside these bounds `scheduleCall` (backends/common/scheduler.py:47) raises an assertion error (C54), or `buildSchedule`
(genericbackend.py:164-165) schedules nothing (C26). -/
def Timely (w w' : World) : Ev → Prop
  | .req _ (.commit cid) => ∀ x ∈ w.rows, x.cid = cid → x.st.l = .created → ∀ e, x.end_ = some e → w'.clk ≤ e + second
  | .req _ (.release cid) => ∀ x ∈ w.rows, x.cid = cid → x.st.l = .created → ∀ e, x.end_ = some e → w'.clk ≤ e + second
  | .req _ (.provision cid) => ∀ x ∈ w.rows, x.cid = cid → x.st.l = .created →
      (∀ e, x.end_ = some e → w'.clk ≤ e + second) ∧ ∀ s, x.start = some s → w.clk < s → w'.clk ≤ s + second
  | .fire cid => ∀ x ∈ w.rows, x.cid = cid → x.st.l = .created → x.st.p = .provisioned → x.active = false →
      ∀ e, x.end_ = some e → w'.clk ≤ e + second
  | .restart => ∀ x ∈ w.rows, x.st.l = .created → x.allocated = true →
      (∀ e, x.end_ = some e → e < w.clk ∨ w'.clk ≤ e + second) ∧ ∀ s, x.start = some s → s < w.clk ∨ w'.clk < s
  | _ => True

/-- Worlds reachable by completed events dealt with in time, without the incidents of `CleanStep`. -/
inductive ReachT (cfg : Cfg) : World → Prop
  | init (ids : List Str) (clk : Time) : ReachT cfg (World.init ids clk)
  | step {w : World} (o : Oracle) (e : Ev) : ReachT cfg w → CleanStep e (Backend.step cfg w o e).1 (Backend.step cfg w o e).2 →
      Timely w (Backend.step cfg w o e).1 e → ReachT cfg (Backend.step cfg w o e).1

theorem ReachT.reach {cfg : Cfg} {w : World} (h : ReachT cfg w) : Reach cfg w := by
  induction h with
  | init ids clk => exact .init ids clk
  | step o e _ hc _ ih => exact .step o e ih hc

/-- The call a live connection needs is in the table. -/
structure Due (clk : Time) (x : Row) (tm : Option Timer) (out : List Msg) : Prop where
  settled : x.st.l = .created → x.st.p = .released ∨ x.st.p = .provisioned
  ends : x.st.l = .created → x.allocated = true → x.st.p = .released ∨ x.active = true → ∀ e, x.end_ = some e →
    ∃ due ref, tm = some ⟨due, .endtime, ref, false⟩ ∧ e ≤ due ∧ (due ≤ e ∨ due ≤ clk)
  activates : x.st.l = .created → x.st.p = .provisioned → x.active = false →
    (∃ s due ref, x.start = some s ∧ s ≤ due ∧ (due ≤ s ∨ due ≤ clk) ∧ tm = some ⟨due, .activate, ref, false⟩) ∨
    ∃ n, Msg.activateFailed x.cid n ∈ out

theorem Due.dead {clk : Time} {x : Row} {tm : Option Timer} {out : List Msg} (h : x.st.l ≠ .created) : Due clk x tm out :=
  ⟨fun a => absurd a h, fun a => absurd a h, fun a => absurd a h⟩

theorem Due.mono {c c' : Time} {x : Row} {tm : Option Timer} {o o' : List Msg} (h : Due c x tm o) (hc : c ≤ c')
    (ho : ∀ m ∈ o, m ∈ o') : Due c' x tm o' where
  settled := h.settled
  ends a b d e he := by
    obtain ⟨due, ref, h1, h2, h3⟩ := h.ends a b d e he
    exact ⟨due, ref, h1, h2, by omega⟩
  activates a b d := by
    rcases h.activates a b d with ⟨s, due, ref, h1, h2, h3, h4⟩ | ⟨n, hn⟩
    · exact Or.inl ⟨s, due, ref, h1, h2, by omega, h4⟩
    · exact Or.inr ⟨n, ho _ hn⟩

/-- With no claim there is nothing to wait for. -/
theorem Due.idle {clk : Time} {x : Row} {tm : Option Timer} {out : List Msg} (ha : x.allocated = false) (hp : x.st.p = .released) :
    Due clk x tm out :=
  ⟨fun _ => Or.inl hp, fun _ a => by rw [ha] at a; exact absurd a (by simp),
   fun _ a => by rw [hp] at a; exact absurd a (by simp)⟩

theorem EndCall.due {end_ : Option Time} {tm : Option Timer} {clk : Time} (h : EndCall end_ tm clk)
    (ht : ∀ e, end_ = some e → clk ≤ e + second) : ∀ e, end_ = some e →
    ∃ due ref, tm = some ⟨due, .endtime, ref, false⟩ ∧ e ≤ due ∧ (due ≤ e ∨ due ≤ clk) := by
  intro e he
  rcases h e he with a | a
  · exact a
  · have := ht e he; omega

theorem ConnPost.clk_le {α : Type} {cid : Str} {w w' : World} {r : Except Err α} {P : Row → S → S → Except Err α → Prop}
    (h : ConnPost cid w w' r P) : w.clk ≤ w'.clk := by
  rcases h with ⟨_, _, t, o, ht, e⟩ | ⟨row0, _, _, t, o, s', h1, h2, hrel, _⟩
  · subst e; exact ht
  · rw [hrel.clk]; omega

theorem ReachT.due {cfg : Cfg} {w : World} (h : ReachT cfg w) : ∀ x ∈ w.rows, Due w.clk x (dget w.tbl x.cid) w.outbox := by
  induction h with
  | init ids clk => intro x hx; exact absurd hx (by simp [World.init])
  | @step w o e h hc ht ih =>
    have hreach := h.reach
    have hr' : Reach cfg (Backend.step cfg w o e).1 := .step o e hreach hc
    have hclk := hreach.clk_le o e hc
    have hn := hreach.inv.nodup
    have hn' := hr'.inv.nodup
    obtain ⟨ms, hms⟩ := step_outbox cfg w o e
    have hp := hreach.post o e hc
    have hrow := fun y hy => (hr'.inv.conn y hy).row
    revert hp hn' ht hclk hms hrow
    generalize Backend.step cfg w o e = res
    obtain ⟨w', r⟩ := res
    simp only
    intro ht hclk hn' hms hp hrow y hy
    have hout : ∀ m ∈ w.outbox, m ∈ w'.outbox := fun m hm => by rw [hms]; exact List.mem_append_left _ hm
    -- a connection that is not touched
    have same : ∀ x ∈ w.rows, dget w'.tbl x.cid = dget w.tbl x.cid → Due w'.clk x (dget w'.tbl x.cid) w'.outbox := by
      intro x hx htm
      rw [htm]; exact (ih x hx).mono hclk hout
    have conn : ∀ {cid : Str} {r' : Except Err Unit} {P : Row → S → S → Except Err Unit → Prop},
        ConnPost cid (w.with o) w' r' P →
        (∀ x t o1 s', x ∈ w.rows → x.cid = cid → w.clk ≤ t → P x (((w.with o).looked x t o1).view x) s' r' → s'.clk = w'.clk →
          s'.row = y → (∀ m ∈ s'.out, m ∈ w'.outbox) →
          (s'.tm = dget w.tbl x.cid ∧ s'.row = x) ∨ Due w'.clk y s'.tm w'.outbox) →
        Due w'.clk y (dget w'.tbl y.cid) w'.outbox := by
      intro cid r' P hcp hPP
      rcases hcp with ⟨_, _, t, o', _, e⟩ | ⟨row0, hr0, hc0, t, o', s', h1, h2, hrel, hpp, _⟩
      · subst e; exact same y hy rfl
      · by_cases hcid : y.cid = cid
        · have hsy : s'.row = y := eq_of_cid hn' (hrel.row_mem hn hr0 hc0) hy (by rw [hrel.rcid, hcid])
          have ho : ∀ m ∈ s'.out, m ∈ w'.outbox := fun m hm => by
            rw [hrel.out]; exact List.mem_append_right _ hm
          rcases hPP row0 t o' s' hr0 hc0 h1 hpp hrel.clk.symm hsy ho with ⟨a, b⟩ | a
          · rw [hcid, hrel.tm, a]
            rw [hsy] at b
            subst b
            exact (ih _ hr0).mono hclk hout
          · rw [hcid, hrel.tm]; exact a
        · have hy' : y ∈ w.rows := by
            have : y ∈ w'.rows := hy
            rw [hrel.rows] at this
            rcases (mem_setRow hn hr0 (hrel.rcid.trans hc0.symm) y).mp this with e | ⟨e, _⟩
            · exact absurd (by rw [e]; exact hrel.rcid) hcid
            · exact e
          exact same y hy' (hrel.tbl _ hcid)
    cases e with
    | req hd q =>
      cases q with
      | reserve cid? src dst st en =>
        rcases hp with ⟨_, _, h0, _, _, h1, _⟩ | ⟨cid, row, _, ha⟩
        · rw [h0] at hy; exact same y hy (by rw [h1])
        · rw [ha.rows] at hy
          rcases List.mem_append.mp hy with hy | hy
          · refine same y hy (ha.tbl _ ?_)
            intro e
            have := ha.fresh
            rw [← e] at this
            exact (idTaken_false this).1 y hy rfl
          · simp at hy
            subst hy
            obtain ⟨_, _, _, _, sl, dl, _, _, _, _, _, e⟩ := ha.alloc
            rw [e]
            exact Due.idle rfl rfl
      | commit cid =>
        obtain ⟨r', _, h1⟩ := hp
        refine conn h1 ?_
        rintro x t o1 s' hx hxc _ hpp hcl hsy _
        rcases hpp with h2 | ⟨_, hh, h3, _, _, h4⟩
        · exact Or.inl ⟨h2.2.2.1, h2.1⟩
        · right
          by_cases hl : x.st.l = .created
          · obtain ⟨_, hact, hp⟩ := (hreach.inv.conn x hx).row.held hh
            rw [← hsy, h3]
            refine ⟨fun _ => Or.inl hp, fun _ _ _ => ?_, fun _ a => ?_⟩
            · rw [← hcl]
              refine EndCall.due h4 ?_
              intro e he; rw [hcl]; exact ht x hx hxc hl e he
            · rw [show x.st.p = .provisioned from a] at hp; exact absurd hp (by simp)
          · rw [← hsy, h3]; exact Due.dead hl
      | abort cid =>
        obtain ⟨r', _, h1⟩ := hp
        refine conn h1 ?_
        rintro x t o1 s' hx hxc _ hpp hcl hsy _
        rcases hpp with h2 | ⟨_, _, _, h2, _, _, h3⟩ | ⟨_, _, _, _, h2, _⟩
        · exact Or.inl ⟨h2.2.2.1, h2.1⟩
        · exact Or.inl ⟨h3, h2⟩
        · right
          rw [hsy] at h2
          refine Due.idle h2 (Decidable.byContradiction fun hp => ?_)
          rw [(hrow y hy).pv hp] at h2; exact absurd h2 (by simp)
      | provision cid =>
        obtain ⟨r', _, h1⟩ := hp
        refine conn h1 ?_
        rintro x t o1 s' hx hxc htt hpp hcl hsy ho
        rcases hpp with h2 | ⟨now, hn1, hn2, hok, h2⟩
        · exact Or.inl ⟨h2.2.2.1, h2.1⟩
        · right
          by_cases hl : x.st.l = .created
          · obtain ⟨ht1, ht2⟩ := ht x hx hxc hl
            rcases h2 with ⟨_, _, a, h3, h4, h5⟩ | ⟨_, h3, _, s, due, ref, h4, h5, h6, h7⟩ | ⟨_, h3, _, s, h4, h5, h6⟩
            · rw [← hsy, h3]
              refine ⟨fun _ => Or.inr rfl, fun _ _ hp => ?_, fun _ _ ha => ?_⟩
              · have ha : a = true := by
                  rcases hp with hp | hp
                  · exact absurd hp (by simp)
                  · exact hp
                rw [← hcl]
                exact EndCall.due (h4 ha).2 (fun e he => by rw [hcl]; exact ht1 e he)
              · obtain ⟨n, hn⟩ := h5 ha
                exact Or.inr ⟨n, ho _ (by show Msg.activateFailed x.cid n ∈ _; exact hn)⟩
            · rw [← hsy, h3]
              have hact : x.active = false := by
                cases ha : x.active with
                | false => rfl
                | true =>
                  have := ((hreach.inv.conn x hx).row.act ha).2.1
                  rcases hok.p with h1 | h1 <;> rw [h1] at this <;> exact absurd this (by simp)
              refine ⟨fun _ => Or.inr rfl, fun _ _ hp => ?_, fun _ _ ha => ?_⟩
              · rcases hp with hp | hp
                · exact absurd hp (by simp)
                · rw [show x.active = true from hp] at hact; exact absurd hact (by simp)
              · exact Or.inl ⟨s, due, ref, h4, h5, by rw [← hcl]; exact h6, h7⟩
            · have := ht2 s h4 (by simp only at hn1; omega)
              omega
          · have : y.st.l ≠ .created := by
              rw [← hsy]
              rcases h2 with ⟨_, _, a, h3, _⟩ | ⟨_, h3, _⟩ | ⟨_, h3, _⟩ <;> rw [h3] <;> exact hl
            exact Due.dead this
      | release cid =>
        obtain ⟨r', _, h1⟩ := hp
        refine conn h1 ?_
        rintro x t o1 s' hx hxc _ hpp hcl hsy _
        rcases hpp with h2 | ⟨_, _, _, _, h2⟩
        · exact Or.inl ⟨h2.2.2.1, h2.1⟩
        · right
          by_cases hl : x.st.l = .created
          · rcases h2 with ⟨_, h3, h4⟩ | ⟨_, h3, e, h4, h5⟩
            · rw [← hsy, h3]
              refine ⟨fun _ => Or.inl rfl, fun _ _ _ => ?_, fun _ a => absurd a (by simp)⟩
              rw [← hcl]
              exact EndCall.due h4 (fun e he => by rw [hcl]; exact ht x hx hxc hl e he)
            · have := ht x hx hxc hl e h4
              omega
          · have : y.st.l ≠ .created := by
              rw [← hsy]
              rcases h2 with ⟨_, h3, _⟩ | ⟨_, h3, _⟩ <;> rw [h3] <;> exact hl
            exact Due.dead this
      | terminate cid =>
        obtain ⟨r', _, h1⟩ := hp
        refine conn h1 ?_
        rintro x t o1 s' hx hxc _ hpp hcl hsy _
        rcases hpp with h2 | ⟨_, _, h2, _⟩
        · exact Or.inl ⟨h2.2.2.1, h2.1⟩
        · right; refine Due.dead ?_; rw [← hsy, h2]; simp
    | fire cid =>
      rcases hp with ⟨_, e⟩ | ⟨tm, r', _, htm, hcall, _, x, hx, hxc, s', hrel, hfp, _, hok, hev, _⟩
      · subst e; exact same y hy rfl
      · by_cases hcid : y.cid = cid
        · have hsy : s'.row = y := eq_of_cid hn' (hrel.row_mem hn hx hxc) hy (by rw [hrel.rcid, hcid])
          have ho : ∀ m ∈ s'.out, m ∈ w'.outbox := fun m hm => by
            rw [hrel.out]; exact List.mem_append_right _ hm
          rw [hcid, hrel.tm]
          unfold FirePost at hfp
          unfold TimerOk at hok
          split at hfp
          · obtain ⟨_, _, h2, _⟩ := hfp
            rw [hsy] at h2
            refine Due.idle h2 (Decidable.byContradiction fun hp => ?_)
            rw [(hrow y hy).pv hp] at h2; exact absurd h2 (by simp)
          · refine Due.dead ?_
            by_cases hl : x.st.l = .created
            · rw [← hsy, (hfp hl).2.1]; simp
            · rw [← hsy]; exact hev.left hl
          · rename_i hact
            rw [hact] at hok
            obtain ⟨_, hxp, hl, hxa, _⟩ := hok
            obtain ⟨_, a, h3, h4, h5⟩ := hfp
            rw [← hsy, h3]
            refine ⟨fun _ => Or.inr hxp, fun _ _ hp => ?_, fun _ _ ha => ?_⟩
            · have ha : a = true := by
                rcases hp with hp | hp
                · rw [show x.st.p = .released from hp] at hxp; exact absurd hxp (by simp)
                · exact hp
              rw [hrel.clk]
              exact EndCall.due (h4 ha).2 (fun e he => by rw [← hrel.clk]; exact ht x hx hxc hl hxp hxa e he)
            · obtain ⟨n, hn⟩ := h5 ha
              exact Or.inr ⟨n, ho _ (by show Msg.activateFailed x.cid n ∈ _; exact hn)⟩
        · have hy' : y ∈ w.rows := by
            have : y ∈ w'.rows := hy
            rw [hrel.rows] at this
            rcases (mem_setRow hn hx (hrel.rcid.trans hxc.symm) y).mp this with e | ⟨e, _⟩
            · exact absurd (by rw [e]; exact hrel.rcid) hcid
            · exact e
          exact same y hy' (hrel.tbl _ hcid)
    | wait us => obtain ⟨_, e⟩ := hp; subst e; exact same y hy rfl
    | restart =>
      by_cases hl : y.st.l = .created
      · obtain ⟨x, hx, hxc⟩ := hp.old y hy
        have hx : x ∈ w.rows := hx
        obtain ⟨z, hz, hev⟩ := hp.ev x hx
        have := eq_of_cid hn' hz hy (hev.same.1.trans hxc)
        subst this
        have hxl : x.st.l = .created := Decidable.byContradiction fun a => hev.left a hl
        have hset := (ih x hx).settled hxl
        rcases hp.resumed z hy with ⟨a, b⟩ | ⟨x0, h1, h2, h3, h4⟩
        · obtain ⟨b1, b2⟩ := b x hx hxc
          refine ⟨fun _ => by rw [(b2 hl).1]; exact hset, fun c1 c2 c3 => ?_, a.activates⟩
          have hxal : x.allocated = true := by rw [← (b2 hl).2]; exact c2
          refine EndCall.due (a.ends c1 c2 c3) ?_
          intro e he
          rcases (ht x hx hxl hxal).1 e (by rw [← hev.same.2.2.2.2.2.2.2.2]; exact he) with d | d
          · rcases b1 e (by rw [← hev.same.2.2.2.2.2.2.2.2]; exact he) d with f | f
            · exact absurd hl f
            · rw [c2] at f; exact absurd f (by simp)
          · exact d
        · have := eq_of_cid hn h1 hx (h2.trans hxc.symm)
          subst this
          by_cases hxal : x0.allocated = true
          case neg =>
            have h5 := (hev.dropped h3 (by simpa using hxal)).2
            refine Due.idle h5 (Decidable.byContradiction fun hp => ?_)
            rw [(hrow z hy).pv hp] at h5; exact absurd h5 (by simp)
          exfalso
          rcases h4 with h4 | ⟨now, h5, h6, h7⟩
          · rcases hset with a | a <;> rw [a] at h4 <;> rcases h4 with b | b <;> exact absurd b (by simp)
          · have h5 : w.clk ≤ now := h5
            rcases (ht x0 hx hxl hxal).2 now h7 with d | d <;> omega
      · exact Due.dead hl

end OpenNSA.Backend
