import Verif.Agg.PropsCounts
/- C30 in executions handling one message after the other: what is confirmed has happened on every segment, and what has happened on every
segment is confirmed. -/
namespace OpenNSA.Agg
open OpenNSA Py Coro

/-- The state a segment or connection has when the request is done. -/
def Kind.reached : Kind → ConnStates → Bool
  | .commit, s => s.r = .start
  | .abort, s => s.r = .start
  | .provision, s => s.p = .provisioned
  | .release, s => s.p = .released
  | .terminate, s => s.l = .terminated

/-- The provider's confirmation of a request. -/
def Kind.reply (k : Kind) (h : RHdr) (scid : Str) : Msg :=
  match k with
  | .commit => .commitConfirmed h scid
  | .abort => .abortConfirmed h scid
  | .provision => .provisionConfirmed h scid
  | .release => .releaseConfirmed h scid
  | .terminate => .terminateConfirmed h scid

/-- The confirmation sent to the requester. -/
def Kind.answer (k : Kind) (to_ cid : Str) : Out :=
  match k with
  | .commit => .reserveCommitConfirmed to_ cid
  | .abort => .reserveAbortConfirmed to_ cid
  | .provision => .provisionConfirmed to_ cid
  | .release => .releaseConfirmed to_ cid
  | .terminate => .terminateConfirmed to_ cid

/-- What a confirmation does to the segment. -/
def Kind.move : Kind → ConnStates → Option ConnStates
  | .commit, s => some { s with r := .start }
  | .abort, s => some { s with r := .start }
  | .provision, s => switchP s .provisioned
  | .release, s => switchP s .released
  | .terminate, s => some { s with l := .terminated }

/-- What the completion does to the connection. -/
def Kind.finish : Kind → ConnStates → Option ConnStates
  | .commit, s => switchR s .start
  | .abort, s => switchR s .start
  | .provision, s => switchP s .provisioned
  | .release, s => switchP s .released
  | .terminate, s => switchL s .terminated

theorem Eff.reply {cfg : Cfg} {w w' : World} {r : Except Err (Option Str)} {k : Kind} {h : RHdr} {scid : Str} (he : Eff cfg w w' r (k.reply h scid)) :
    ReplyEff h.prov scid k.move k.reached k.finish k.answer w w' := by
  cases k <;> exact he

theorem Tr.reply_of {m : Msg} {cid to_ : Str} {s s' : ConnStates} {outs : List Out} (ht : Tr m cid to_ s s' outs) {o : Out} (ho : o ∈ outs) {k : Kind}
    {c : Str} (hc : o.confirms k c = true) : ∃ h scid, m = k.reply h scid := by
  cases ht with
  | committed hm _ => rw [List.mem_singleton.mp ho] at hc; cases k <;> simp [Out.confirms] at hc; exact ⟨_, _, hm⟩
  | aborted hm _ => rw [List.mem_singleton.mp ho] at hc; cases k <;> simp [Out.confirms] at hc; exact ⟨_, _, hm⟩
  | provisioned hm _ => rw [List.mem_singleton.mp ho] at hc; cases k <;> simp [Out.confirms] at hc; exact ⟨_, _, hm⟩
  | released hm _ => rw [List.mem_singleton.mp ho] at hc; cases k <;> simp [Out.confirms] at hc; exact ⟨_, _, hm⟩
  | terminated hm _ => rw [List.mem_singleton.mp ho] at hc; cases k <;> simp [Out.confirms] at hc; exact ⟨_, _, hm⟩
  | held hm _ => rw [List.mem_singleton.mp ho] at hc; cases k <;> simp [Out.confirms] at hc
  | failed hm _ => rw [List.mem_singleton.mp ho] at hc; cases k <;> simp [Out.confirms] at hc
  | note hn => rw [List.mem_singleton.mp ho, (isNote_counts hn c).2.2 k] at hc; cases hc
  | _ => simp at ho

theorem Kind.finish_reached {k : Kind} {s s' : ConnStates} (h : k.finish s = some s') : k.reached s' = true := by
  cases k <;> simp only [Kind.finish] at h <;> simp [Kind.reached]
  all_goals first | exact (switchR_r h).1 | exact (switchP_p h).1 | exact (switchL_l h).1

theorem confirms_answer {k : Kind} {to_ c cid : Str} (h : (k.answer to_ c).confirms k cid = true) : c = cid := by
  cases k <;> simpa [Kind.answer, Out.confirms] using h

/-- With messages handled one after the other and unique segment ids: when the requester is sent a confirmation, the connection and every one
of its segments are in the confirmed state. -/
theorem C30_all_segments_partial {cfg : Cfg} {ms : List Msg} {w : World} (h : Runs cfg ms w) (o : Oracle) (m : Msg) (hn : NewSeg w m) {k : Kind} {cid : Str}
    {out : Out} (hout : out ∈ (Agg.step cfg w o m).1.outbox.drop w.outbox.length) (hc : out.confirms k cid = true) :
    ∃ row ∈ (Agg.step cfg w o m).1.conns, row.cid = cid ∧ k.reached row.st = true ∧
      ∀ s ∈ (Agg.step cfg w o m).1.subs, s.skey = row.key → k.reached s.st = true := by
  obtain ⟨outs, old, news, hs⟩ := step_shape (cfg := cfg) h.good o m hn
  rw [hs.outbox, List.drop_left] at hout
  obtain ⟨row, hr, rfl⟩ := hs.abt out hout cid (Out.confirms_about hc)
  obtain ⟨row', hr', hrs⟩ := forall₂_left_exists hs.rows _ hr
  obtain ⟨hh, scid, rfl⟩ := hrs.tr.reply_of (o := out) (by simp [hout, Out.confirms_about hc]) hc
  have he := (step_eff (cfg := cfg) h.good o (k.reply hh scid) hn).2.reply
  have hquiet : ∀ {v}, Same v (Agg.step cfg w o (k.reply hh scid)).1 → v.outbox = w.outbox → outs = [] := by
    intro v hsame hv
    have := hsame.outbox.symm.trans hs.outbox
    rw [hv] at this
    simpa using this
  have hne : outs ≠ [] := List.ne_nil_of_mem hout
  cases he with
  | unknown _ hsame => exact absurd (hquiet hsame rfl) hne
  | refused _ _ _ hsame => exact absurd (hquiet hsame rfl) hne
  | @done s row2 st hsm hsc hset hr2 hk2 hsame =>
    unfold upEff at hsame
    split at hsame
    · rename_i hall
      split at hsame
      · exact absurd (hquiet hsame rfl) hne
      · rename_i st2 hst2
        have heq : outs = [k.answer row2.requester row2.cid] := by
          have := hsame.outbox.symm.trans hs.outbox
          simpa [segEff] using this.symm
        rw [heq, List.mem_singleton] at hout
        have hcid := confirms_answer (hout ▸ hc)
        refine ⟨{ row2 with st := st2 }, ?_, hcid, Kind.finish_reached hst2, ?_⟩
        · rw [hsame.conns]
          exact (mem_setCRow h.good.ckeys hr2 (by rfl) _).mpr (Or.inl rfl)
        · intro x hx hxk
          rw [hsame.subs] at hx
          have := hall.1
          rw [List.all_eq_true] at this
          exact this x (by simpa [World.segments] using ⟨hx, hxk⟩)
    · exact absurd (hquiet hsame rfl) hne

/-- With messages handled one after the other and unique segment ids: when the last segment of a connection confirms a request that is being
carried out, the requester is sent the confirmation. -/
theorem C30_completion_partial {cfg : Cfg} {ms : List Msg} {w : World} (hw : Runs cfg ms w) (o : Oracle) (k : Kind) (h : RHdr) {row : CRow} {s : SRow}
    (hr : row ∈ w.conns) (hp : k.pending row.st = true) (hs : s ∈ w.subs) (hk : s.skey = row.key) (hprov : h.prov = s.prov)
    (hsp : k = .provision ∨ k = .release → k.pending s.st = true)
    (hrest : ∀ s' ∈ w.subs, s'.skey = row.key → s' ≠ s → k.reached s'.st = true) :
    (Agg.step cfg w o (k.reply h s.cid)).1.outbox = w.outbox ++ [k.answer row.requester row.cid] := by
  have hg := hw.good
  have he := (step_eff (cfg := cfg) hg o (k.reply h s.cid) (by cases k <;> trivial)).2.reply
  obtain ⟨st, hst, hreach⟩ : ∃ st, k.move s.st = some st ∧ k.reached st = true := by
    cases k with
    | commit => exact ⟨_, rfl, by simp [Kind.reached]⟩
    | abort => exact ⟨_, rfl, by simp [Kind.reached]⟩
    | terminate => exact ⟨_, rfl, by simp [Kind.reached]⟩
    | provision =>
      have := hsp (Or.inl rfl)
      simp only [Kind.pending, decide_eq_true_eq] at this
      exact ⟨{ s.st with p := .provisioned }, by simp [Kind.move, switchP, this, provisionTransitions], by simp [Kind.reached]⟩
    | release =>
      have := hsp (Or.inr rfl)
      simp only [Kind.pending, decide_eq_true_eq] at this
      exact ⟨{ s.st with p := .released }, by simp [Kind.move, switchP, this, provisionTransitions], by simp [Kind.reached]⟩
  obtain ⟨st', hst', hnr⟩ : ∃ st', k.finish row.st = some st' ∧ k.reached row.st = false := by
    cases k <;> simp only [Kind.pending, decide_eq_true_eq] at hp <;>
      simp [Kind.finish, switchR, switchP, switchL, hp, reserveTransitions, provisionTransitions, lifecycleTransitions, Kind.reached]
  cases he with
  | unknown hu _ => exact absurd hprov.symm (hu s hs rfl)
  | refused hs' hc hset _ =>
    rw [nodup_map_inj hg.scids hs' hs hc, hst] at hset
    cases hset
  | @done s' row' st2 hs' hc hset hr' hk' hsame =>
    have hss : s' = s := nodup_map_inj hg.scids hs' hs hc
    rw [hss] at hset hk' hsame
    have hrr : row' = row := nodup_map_inj hg.ckeys hr' hr (hk'.trans hk)
    rw [hrr] at hsame
    have hst2 : st2 = st := by rw [hst] at hset; simpa using hset.symm
    rw [hst2] at hsame
    have hall : (((segEff { w with orc := o } { s with st }).segments row.key).all fun s => k.reached s.st) = true := by
      rw [List.all_eq_true]
      intro x hx
      simp only [World.segments, segEff, List.mem_filter, decide_eq_true_eq] at hx
      rcases (mem_setSRow hg.skeys hs (by rfl) x).mp hx.1 with rfl | ⟨h1, h2⟩
      · exact hreach
      · exact hrest x h1 hx.2 h2
    unfold upEff at hsame
    rw [if_pos ⟨hall, by simp [hnr]⟩, hst'] at hsame
    exact hsame.outbox

/-- A commit with two segments: the hypotheses of the theorem before the second segment's confirmation. -/
example : let l := Ex.held ++ [(Ex.o, .commit Ex.hdr ['c', '1']), (Ex.nil, .commitConfirmed ⟨['m'], []⟩ ['s', '2'])]
    let w := runMsgs Ex.cfg .init l
    newSegs Ex.cfg .init l = true ∧ ∃ row ∈ w.conns, Kind.pending .commit row.st = true ∧ ∃ s ∈ w.subs, s.skey = row.key ∧ s.prov = ['m'] ∧
      ∀ s' ∈ w.subs, s'.skey = row.key → s' ≠ s → Kind.reached .commit s'.st = true := by decide +kernel

end OpenNSA.Agg
