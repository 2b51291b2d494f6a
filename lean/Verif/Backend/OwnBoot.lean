import Verif.Backend.ApartBoot
/-
Interleaved executions with restarts, connection by connection: what two connections have in the calendar stays apart (C21, C22).
-/
namespace OpenNSA.Backend
open OpenNSA Py Prog

section
variable {T : Bool} {cfg : Cfg} {P : Str → Option (Row × Option Timer) → Prop} {c : Conc} {L : Nat → Job} {lab : Nat → Str × Bool} {tc td : List (Str × Resv)}

/-- Both ways of keeping track of the operations agree. -/
def SameOps (c : Conc) (lab : Nat → Str × Bool) (L : Nat → Job) : Prop := ∀ n, n < c.next → (lab n).1 = (L n).cid

theorem SameOps.clear (h : SameOps c lab L) (hids : ∀ t ∈ c.tasks, t.id < c.next) {cid : Str} (hi : c.Idle L cid) (b : Bool) : c.Clear lab cid b :=
  fun t ht e => absurd ((h t.id (hids t ht)).symm.trans e) (hi t ht)

theorem allowed_of_may (hag : SameOps c lab L) (ha : Apart T cfg P L c tc) {o : Oracle} {ch : Choice} (hm : c.May L o ch) : c.Allowed lab o ch := by
  cases ch with
  | start h q =>
    refine ⟨hag.clear ha.ids hm.1 _, ?_⟩
    cases q with
    | reserve => exact hm.2 rfl
    | terminate cid =>
      intro r hr e
      have := (((idle_iff.mp hm.1 ▸ ha.ph cid).nil).1.here r hr).1.row.lc
      rw [e] at this
      rcases this with a | a | a <;> cases a
    | _ => trivial
  | fire cid => exact fun due act ref h1 h2 => hag.clear ha.ids (hm due act ref h1 h2) _
  | restart => exact hm
  | _ => trivial

theorem SameOps.step (hag : SameOps c lab L) (hids : ∀ t ∈ c.tasks, t.id < c.next) {o : Oracle} {ch : Choice} (hm : c.May L o ch) :
    SameOps (c.step cfg o ch) (c.relabel lab (c.about lab o ch)) (c.rejob L (c.job L o ch)) := by
  intro n hn
  unfold Conc.relabel Conc.rejob
  split
  · rename_i h; exact hag n h
  · rename_i h
    have none_ : ∀ m, takeTask m c.tasks = none → c.tasks.any (fun t => t.id = m) = false := fun m h => takeTask_none h
    have any_ : ∀ m, c.tasks.any (fun t => t.id = m) = true → m < c.next := by
      intro m h
      obtain ⟨t, h1, h2⟩ := List.any_eq_true.mp h
      have := hids t h1
      rw [of_decide_eq_true h2] at this
      exact this
    cases ch with
    | start h q => rfl
    | fire cid =>
      simp only [Conc.job, Conc.about]
      simp only [Conc.step] at hn
      split at hn
      · rename_i due act ref ht
        split at hn
        · rename_i hd
          rw [show dget c.w.tbl cid = some ⟨due, act, ref, false⟩ from ht]
          simp only [show due ≤ c.w.clk from hd, if_true, Option.getD_some]
        · exact absurd hn h
      · exact absurd hn h
    | perform m =>
      simp only [Conc.job, Conc.about]
      split
      · rename_i h1; exact hag m (any_ m h1)
      · rename_i h1
        simp only [Conc.step] at hn
        split at hn
        · exact absurd hn h
        · exact absurd hn h
    | resume m =>
      simp only [Conc.job, Conc.about]
      split
      · rename_i h1; exact hag m (any_ m h1)
      · rename_i h1
        simp only [Conc.step] at hn
        split at hn
        · rename_i ht
          obtain ⟨hmem, _⟩ := takeTask_mem ht
          obtain ⟨_, _, _, _, he⟩ := takeTask_split ht
          exact absurd (List.any_eq_true.mpr ⟨_, hmem, decide_eq_true he⟩) h1
        · exact absurd hn h
    | wait m => exact absurd hn h
    | restart => cases hm

/-- What a connection has in the calendar, it had before. -/
theorem ents_sub {x y : Row} (h : Evolves x y) : ∀ e ∈ ents cfg y, e ∈ ents cfg x := by
  intro e he
  unfold ents at he
  split at he
  · rename_i hy
    obtain ⟨h1, h2⟩ := holds_iff.mp hy
    have hx : x.holds = true := by
      refine holds_iff.mpr ⟨Classical.byContradiction fun a => h.left a h1, Classical.byContradiction fun a => ?_⟩
      simp only [not_or, Bool.not_eq_true] at a
      obtain ⟨b1, b2⟩ := h.dropped a.1 a.2
      rcases h2 with h2 | h2
      · exact b1 h2
      · rw [b2] at h2; cases h2
    obtain ⟨-, -, -, a4, a5, a6, a7, a8, a9⟩ := h.same
    unfold ents
    rw [if_pos hx]
    have e1 : srcResv cfg y = srcResv cfg x := by unfold srcResv; rw [a4, a5, a8, a9]
    have e2 : dstResv cfg y = dstResv cfg x := by unfold dstResv; rw [a6, a7, a8, a9]
    rwa [← e1, ← e2]
  · cases he

theorem mem_tagged {rows : List Row} {p : Str × Resv} : p ∈ tagged cfg rows ↔ ∃ r ∈ rows, r.cid = p.1 ∧ p.2 ∈ ents cfg r := by
  unfold tagged
  simp only [List.mem_flatMap, List.mem_map]
  constructor
  · rintro ⟨r, hr, e, he, rfl⟩
    exact ⟨r, hr, rfl, he⟩
  · rintro ⟨r, hr, h1, h2⟩
    exact ⟨r, hr, p.2, h2, by rw [h1]⟩

theorem ents_start {r : Row} {e : Resv} (h : e ∈ ents cfg r) : e.start = r.start := by
  unfold ents at h
  split at h
  · simp only [List.mem_cons, List.not_mem_nil, or_false] at h
    rcases h with rfl | rfl <;> rfl
  · cases h

/-- After a restart. -/
theorem sys_boot {c' : Conc} (hs : SysAt cfg lab c td) (h : Apart T cfg (fun _ _ => True) L c tc) (hb : Boots cfg c c') (hf : Fits T c c') :
    SysAt cfg (tags L) c' (tagged cfg c'.w.rows) := by
  have ha := apart_boot (fun _ _ _ _ _ _ _ _ => trivial) h hb hf L
  obtain ⟨hi', hr⟩ := hb.restarted (h.inv hb.idle)
  have rest : ∀ cid, AtRest T cfg cid c'.w (tagged cfg c'.w.rows) := fun cid => by
    have := ha.ph cid
    rw [hb.over] at this
    exact (Ph.nil this).1
  have before : ∀ p ∈ tagged cfg c'.w.rows, p ∈ td := by
    intro p hp
    obtain ⟨y, hy, h1, h2⟩ := mem_tagged.mp hp
    obtain ⟨x, hx, hxc⟩ := hr.old y hy
    obtain ⟨z, hz, hev⟩ := hr.ev x hx
    have := eq_of_cid hi'.nodup hz hy (hev.same.1.trans hxc)
    subst this
    have := (hs.phase x.cid).cov x (row?_mem h.nd hx) p.2 (by rw [contrib_ents]; exact ents_sub hev _ h2)
    have := mem_own' this
    rwa [hxc, h1] at this
  refine ⟨⟨ha.nd, ha.cal, fun p hp => hs.glob.starts p (before p hp), fun hc p hp q hq hne hsh => ?_⟩, ha.owned, ha.ids, fun cid => ?_⟩
  · exact hs.glob.apart (Int.lt_of_le_of_lt hr.clk hc) p (before p hp) q (before q hq) hne (hsh.earlier hr.clk)
  · rw [hb.over]
    refine Or.inl ⟨c'.w.row? cid, ⟨⟨fun r hrow => ?_, fun hrow => ((rest cid).away hrow).2, fun due act ref ht => ?_⟩, ?_⟩, fun t ht => by cases ht⟩
    · obtain ⟨_, h2, h3, _⟩ := (rest cid).here r hrow
      exact ⟨h2, h3⟩
    · cases hrow : c'.w.row? cid with
      | none =>
        have := ((rest cid).away hrow).1.tm _ ht
        cases this
      | some r =>
        obtain ⟨h1, h2, _⟩ := (rest cid).here r hrow
        have hc := row?_cid hrow
        obtain ⟨k1, k2⟩ := h1.timer _ (by rw [hc]; exact ht) rfl
        refine ⟨r, ⟨r, false⟩, hrow, ?_, rfl, Core.refl r, h2, ?_⟩
        · show c'.w.objsOf cid ref = _
          unfold World.objsOf
          rw [k2]
          simp [hc]
        · cases act with
          | reserveTimeout => exact k1
          | endtime => exact k1.1
          | activate => exact h2.prov (by rw [k1.2.1]; simp)
    · show CoreOpt (c'.w.row? cid) (c'.w.row? cid)
      cases hrow : c'.w.row? cid with
      | none => exact Or.inl ⟨rfl, rfl⟩
      | some r => exact Or.inr ⟨r, r, rfl, rfl, Core.refl r⟩

/-- Both invariants. -/
def Kept (T : Bool) (cfg : Cfg) (c : Conc) (L : Nat → Job) : Prop :=
  ∃ tc td lab, Apart T cfg (fun _ _ => True) L c tc ∧ SysAt cfg lab c td ∧ SameOps c lab L

theorem Kept.run : ∀ (s : List (Oracle × Choice)) {c : Conc} {L : Nat → Job}, Kept T cfg c L → OneByOne T cfg c L s → Kept T cfg (c.run cfg s) (jobs cfg c L s)
  | [], _, _, h, _ => h
  | (o, ch) :: s, c, L, ⟨tc, td, lab, h1, h2, h3⟩, hs => by
    obtain ⟨tc', k1, _⟩ := apart_step lasts_true h1 hs.1 hs.2.1
    obtain ⟨td', k2⟩ := sys_step h2 (allowed_of_may h3 h1 hs.1)
    exact Kept.run s ⟨tc', td', _, k1, k2, h3.step h1.ids hs.1⟩ hs.2.2

theorem Kept.leads {c' : Conc} {L' : Nat → Job} (h : Kept T cfg c L) (hl : Leads T cfg c L c' L') : Kept T cfg c' L' := by
  induction hl with
  | refl => exact h
  | run s _ hs ih => exact ih.run s hs
  | boot _ hb hf ih =>
    obtain ⟨tc, td, lab, h1, h2, _⟩ := ih
    exact ⟨_, _, _, apart_boot (fun _ _ _ _ _ _ _ _ => trivial) h1 hb hf _, sys_boot h2 h1 hb hf, fun _ _ => rfl⟩

theorem kept_init (cfg : Cfg) (ids : List Str) (clk : Time) : Kept T cfg { w := World.init ids clk } noJobs :=
  ⟨_, _, noLabels, apart_init cfg ids clk, sys_init cfg ids clk, fun _ _ => rfl⟩

end
end OpenNSA.Backend
