import Verif.Ssh.Sender

namespace OpenNSA.Ssh

/-- Call `j` is in `channel.sendCommands`. -/
def Running (st : Sender) (j : Nat) : Prop := ∃ c, st.stage j = .running c

/-- What holds of a sender with a lock at every moment. -/
structure LockInv (st : Sender) : Prop where
  run : ∀ j, Running st j ↔ st.holder = some j
  wait : ∀ j, (∃ c, st.stage j = .waiting c) ↔ j ∈ st.queue
  nodup : st.queue.Nodup
  free : st.holder = none → st.queue = []

theorem LockInv.init : LockInv {} :=
  ⟨by simp [Running], by simp, by simp, by simp⟩

/-- A call goes from one place to another, and neither has to do with the lock. -/
theorem LockInv.set {st : Sender} (h : LockInv st) {j : Nat} {s : Stage} (h1 : ∀ c, st.stage j ≠ .running c)
    (h2 : ∀ c, st.stage j ≠ .waiting c) (h3 : ∀ c, s ≠ .running c) (h4 : ∀ c, s ≠ .waiting c) : LockInv (st.set j s) := by
  refine ⟨fun i => ?_, fun i => ?_, h.nodup, h.free⟩
  · simp only [Running, Sender.set]
    by_cases hi : i = j
    · subst hi
      rw [if_pos rfl, ← h.run i]
      exact ⟨fun ⟨c, hc⟩ => absurd hc (h3 c), fun ⟨c, hc⟩ => absurd hc (h1 c)⟩
    · rw [if_neg hi]; exact h.run i
  · simp only [Sender.set]
    by_cases hi : i = j
    · subst hi
      rw [if_pos rfl, ← h.wait i]
      exact ⟨fun ⟨c, hc⟩ => absurd hc (h4 c), fun ⟨c, hc⟩ => absurd hc (h2 c)⟩
    · rw [if_neg hi]; exact h.wait i

theorem LockInv.step {k : SenderKind} (hk : k.locking = true) {st : Sender} (h : LockInv st) (ev : SEv) : LockInv (st.step k ev) := by
  cases ev with
  | request j =>
    simp only [Sender.step]
    split
    · rename_i hi
      split
      · exact h.set (by simp [hi]) (by simp [hi]) (by simp) (by simp)
      · exact h.set (by simp [hi]) (by simp [hi]) (by simp) (by simp)
    · exact h
  | connected j =>
    simp only [Sender.step]
    split
    · rename_i hi
      have := h.set (j := j) (s := .opening st.made) (by simp [hi]) (by simp [hi]) (by simp) (by simp)
      exact ⟨this.run, this.wait, this.nodup, this.free⟩
    · exact h
  | refused j =>
    simp only [Sender.step]
    split
    · rename_i hi
      exact h.set (by simp [hi]) (by simp [hi]) (by simp) (by simp)
    · exact h
  | lose c => exact ⟨h.run, h.wait, h.nodup, h.free⟩
  | opened j =>
    simp only [Sender.step]
    split
    · rename_i c hc
      split
      · exact h
      · have hjq : j ∉ st.queue := by intro hq; obtain ⟨c', hc'⟩ := (h.wait j).mpr hq; rw [hc] at hc'; cases hc'
        split
        · rename_i hh
          refine ⟨fun i => ?_, fun i => ?_, h.nodup, by simp⟩
          · simp only [Running, Sender.set]
            by_cases hi : i = j
            · subst hi; simp
            · rw [if_neg hi]
              constructor
              · rintro hr
                rw [(h.run i).mp hr] at hh
                cases hh
              · intro he
                exact absurd (Option.some.inj he).symm hi
          · simp only [Sender.set]
            by_cases hi : i = j
            · subst hi; simp [hjq]
            · rw [if_neg hi]; exact h.wait i
        · rename_i x hh
          refine ⟨fun i => ?_, fun i => ?_, ?_, by simp [Sender.set, hh]⟩
          · simp only [Running, Sender.set]
            by_cases hi : i = j
            · subst hi
              rw [if_pos rfl]
              constructor
              · rintro ⟨_, h'⟩; cases h'
              · intro he
                obtain ⟨c', hc'⟩ := (h.run i).mpr he
                rw [hc] at hc'; cases hc'
            · rw [if_neg hi]; exact h.run i
          · simp only [Sender.set, List.mem_append, List.mem_singleton]
            by_cases hi : i = j
            · subst hi; simp
            · rw [if_neg hi, h.wait i]; simp [hi]
          · rw [List.nodup_append]
            exact ⟨h.nodup, by simp, by intro a ha b hb; simp at hb; subst hb; intro e; exact hjq (e ▸ ha)⟩
    · exact h
  | ended j ok =>
    simp only [Sender.step]
    split
    · rename_i c hc
      split
      · exact h
      · have hhold : st.holder = some j := (h.run j).mp ⟨c, hc⟩
        have hother : ∀ i, i ≠ j → ∀ c', st.stage i ≠ .running c' := by
          intro i hi c' hc'
          have := (h.run i).mp ⟨c', hc'⟩
          rw [hhold] at this
          exact hi (Option.some.inj this).symm
        have hjq : j ∉ st.queue := by intro hq; obtain ⟨c', hc'⟩ := (h.wait j).mpr hq; rw [hc] at hc'; cases hc'
        have hne : ∀ c', (if ok then Stage.done else Stage.failed) ≠ .running c' ∧ (if ok then Stage.done else Stage.failed) ≠ .waiting c' := by
          intro c'; cases ok <;> simp
        unfold Sender.release
        simp only [Sender.set]
        split
        · rename_i hq
          refine ⟨fun i => ?_, fun i => ?_, by simp [hq], fun _ => hq⟩
          · simp only [Running]
            constructor
            · rintro ⟨c', hc'⟩
              split at hc'
              · exact absurd hc' (hne c').1
              · rename_i hi; exact absurd hc' (hother i hi c')
            · intro he; cases he
          · dsimp only
            by_cases hi : i = j
            · subst hi
              rw [if_pos rfl]
              exact ⟨fun ⟨c', hc'⟩ => absurd hc' (hne c').2, fun hm => absurd hm hjq⟩
            · rw [if_neg hi]; exact h.wait i
        · rename_i x q hq
          rw [hq] at hjq
          simp only [List.mem_cons, not_or] at hjq
          have hxj : x ≠ j := fun e => hjq.1 e.symm
          obtain ⟨cx, hcx⟩ := (h.wait x).mpr (by rw [hq]; simp)
          have hnd := h.nodup
          rw [hq] at hnd
          refine ⟨fun i => ?_, fun i => ?_, (List.nodup_cons.mp hnd).2, by simp⟩
          · simp only [Running]
            by_cases hi : i = x
            · subst hi
              simp [hxj, hcx]
            · simp only [if_neg hi]
              constructor
              · rintro ⟨c', hc'⟩
                split at hc'
                · exact absurd hc' (hne c').1
                · rename_i hij; exact absurd hc' (hother i hij c')
              · intro he; exact absurd (Option.some.inj he).symm hi
          · by_cases hi : i = x
            · subst hi
              simp [hxj, hcx, (List.nodup_cons.mp hnd).1]
            · simp only [if_neg hi]
              by_cases hij : i = j
              · subst hij
                rw [if_pos rfl]
                exact ⟨fun ⟨c', hc'⟩ => absurd hc' (hne c').2, fun hm => absurd hm hjq.2⟩
              · rw [if_neg hij, h.wait i, hq]
                simp [hi]
    · exact h

theorem LockInv.run' {k : SenderKind} (hk : k.locking = true) (evs : List SEv) : ∀ {st : Sender}, LockInv st → LockInv (st.run k evs) := by
  induction evs with
  | nil => intro st h; exact h
  | cons e evs ih => intro st h; exact ih (h.step hk e)

/-- C73, JunOS MX and JunOS EX: at every moment at most one session is under way. -/
theorem C73_one (evs : List SEv) (i j : Nat) (hi : Running (Sender.run mxSender {} evs) i) (hj : Running (Sender.run mxSender {} evs) j) :
    i = j := by
  have h := LockInv.run' (k := mxSender) rfl evs LockInv.init
  have h1 := (h.run i).mp hi
  have h2 := (h.run j).mp hj
  rw [h1] at h2
  exact Option.some.inj h2

example : Running (Sender.run mxSender {} [.request 1, .request 2, .connected 2, .connected 1, .opened 2, .opened 1, .ended 2 true]) 1 :=
  ⟨0 + 1, by decide⟩

/-- Nothing can happen any more to the calls that were made: no connection is being made, and channels and sessions are only open on
connections that were lost. -/
def Still (st : Sender) : Prop :=
  ∀ j, st.stage j ≠ .connecting ∧ (∀ c, st.stage j = .opening c → c ∈ st.lost) ∧ (∀ c, st.stage j = .running c → c ∈ st.lost)

theorem lost_run {k : SenderKind} (evs : List SEv) : ∀ {st : Sender}, (∀ c, SEv.lose c ∉ evs) → (st.run k evs).lost = st.lost := by
  induction evs with
  | nil => intro st _; rfl
  | cons e evs ih =>
    intro st h
    have he : ∀ c, SEv.lose c ∉ evs := fun c hc => h c (List.mem_cons_of_mem _ hc)
    show ((st.step k e).run k evs).lost = _
    rw [ih he]
    cases e with
    | lose c => exact absurd List.mem_cons_self (h c)
    | request j => simp only [Sender.step]; split; split <;> rfl; rfl
    | connected j => simp only [Sender.step]; split <;> rfl
    | refused j => simp only [Sender.step]; split <;> rfl
    | opened j =>
      simp only [Sender.step]
      split
      · split
        · rfl
        · split
          · split <;> rfl
          · rfl
      · rfl
    | ended j ok =>
      simp only [Sender.step]
      split
      · split
        · rfl
        · split
          · unfold Sender.release; split <;> rfl
          · rfl
      · rfl

/-- C73, JunOS MX and JunOS EX: if no connection is lost and every session ends, then every call ends: when nothing more can happen,
none is left. Missing: see `C73_lost_fails`, `C73_blocked_fails`. -/
theorem C73_all_partial (evs : List SEv) (hl : ∀ c, SEv.lose c ∉ evs) (hs : Still (Sender.run mxSender {} evs)) (j : Nat) :
    (Sender.run mxSender {} evs).stage j = .idle ∨ (Sender.run mxSender {} evs).stage j = .done ∨
    (Sender.run mxSender {} evs).stage j = .failed := by
  have h := LockInv.run' (k := mxSender) rfl evs LockInv.init
  have hlost := lost_run (k := mxSender) evs (st := {}) hl
  obtain ⟨h1, h2, h3⟩ := hs j
  cases hst : (Sender.run mxSender {} evs).stage j with
  | idle => exact .inl rfl
  | done => exact .inr (.inl rfl)
  | failed => exact .inr (.inr rfl)
  | connecting => exact absurd hst h1
  | opening c => have := h2 c hst; rw [hlost] at this; simp at this
  | running c => have := h3 c hst; rw [hlost] at this; simp at this
  | waiting c =>
    exfalso
    have hq := (h.wait j).mp ⟨c, hst⟩
    cases hh : (Sender.run mxSender {} evs).holder with
    | none => rw [h.free hh] at hq; simp at hq
    | some i =>
      obtain ⟨c', hc'⟩ := (h.run i).mpr hh
      have := (hs i).2.2 c' hc'
      rw [hlost] at this
      simp at this

example : (Sender.run mxSender {} [.request 1, .connected 1, .request 2, .opened 1, .opened 2, .ended 1 false, .ended 2 true]).stage 2 = .done ∧
    Still (Sender.run mxSender {} [.request 1, .connected 1, .request 2, .opened 1, .opened 2, .ended 1 false, .ended 2 true]) := by
  refine ⟨by decide, fun j => ?_⟩
  match j with
  | 0 => exact ⟨by decide, fun c h => (by cases h), fun c h => (by cases h)⟩
  | 1 => exact ⟨by decide, fun c h => (by cases h), fun c h => (by cases h)⟩
  | 2 => exact ⟨by decide, fun c h => (by cases h), fun c h => (by cases h)⟩
  | n + 3 => exact ⟨fun h => (by cases h), fun c h => (by cases h), fun c h => (by cases h)⟩

/-- Without a lock no call waits. -/
theorem no_wait {k : SenderKind} (hk : k.locking = false) (evs : List SEv) : ∀ {st : Sender}, (∀ j c, st.stage j ≠ .waiting c) →
    ∀ j c, (st.run k evs).stage j ≠ .waiting c := by
  induction evs with
  | nil => intro st h; exact h
  | cons e evs ih =>
    intro st h
    have hset : ∀ i s, (∀ c, s ≠ .waiting c) → ∀ j c, (st.set i s).stage j ≠ .waiting c := by
      intro i s hs j c
      simp only [Sender.set]
      split
      · exact hs c
      · exact h j c
    refine ih (st := st.step k e) ?_
    cases e with
    | lose c => exact h
    | request i => simp only [Sender.step]; split; split; exact hset _ _ (by simp); exact hset _ _ (by simp); exact h
    | connected i => simp only [Sender.step]; split; exact hset _ _ (by simp); exact h
    | refused i => simp only [Sender.step]; split; exact hset _ _ (by simp); exact h
    | opened i =>
      simp only [Sender.step, hk]
      split
      · split
        · exact h
        · exact hset _ _ (by simp)
      · exact h
    | ended i ok =>
      simp only [Sender.step, hk]
      split
      · split
        · exact h
        · exact hset _ _ (by intro c; cases ok <;> simp)
      · exact h

/-- C73, Juniper EX and VPLS: when nothing more can happen, the only calls left are those whose connection was lost while they were
under way; a call made after a loss makes a new connection. -/
theorem C73_ex_partial (evs : List SEv) (hs : Still (Sender.run exSender {} evs)) (j : Nat) :
    ((Sender.run exSender {} evs).stage j = .idle ∨ (Sender.run exSender {} evs).stage j = .done ∨
      (Sender.run exSender {} evs).stage j = .failed ∨
      ∃ c ∈ (Sender.run exSender {} evs).lost,
        (Sender.run exSender {} evs).stage j = .opening c ∨ (Sender.run exSender {} evs).stage j = .running c) ∧
    ((Sender.run exSender {} evs).stage j = .idle →
      (∀ c, ((Sender.run exSender {} evs).step exSender (.request j)).stage j = .opening c → c ∉ (Sender.run exSender {} evs).lost) ∧
      ((Sender.run exSender {} evs).step exSender (.request j)).stage j ≠ .idle) := by
  have hw := no_wait (k := exSender) rfl evs (st := {}) (by simp)
  generalize Sender.run exSender {} evs = st at hs hw
  obtain ⟨h1, h2, h3⟩ := hs j
  refine ⟨?_, fun hi => ?_⟩
  · cases hst : st.stage j with
    | idle => exact .inl rfl
    | done => exact .inr (.inl rfl)
    | failed => exact .inr (.inr (.inl rfl))
    | connecting => exact absurd hst h1
    | opening c => exact .inr (.inr (.inr ⟨c, h2 c hst, .inl rfl⟩))
    | running c => exact .inr (.inr (.inr ⟨c, h3 c hst, .inr rfl⟩))
    | waiting c => exact absurd hst (hw j c)
  · simp only [Sender.step, if_pos hi]
    cases hu : st.usable exSender with
    | none => simp [Sender.set]
    | some c =>
      simp only [Sender.set, if_pos]
      refine ⟨fun c' hc' => ?_, by simp⟩
      cases hc'
      unfold Sender.usable at hu
      split at hu
      · split at hu
        · cases hu
        · rename_i hn
          cases hu
          intro hm
          exact hn ⟨rfl, hm⟩
      · cases hu

example : (Sender.run exSender {} [.request 1, .connected 1, .opened 1, .lose 0]).stage 2 = .idle ∧
    Still (Sender.run exSender {} [.request 1, .connected 1, .opened 1, .lose 0]) := by
  refine ⟨by decide, fun j => ?_⟩
  match j with
  | 0 => exact ⟨by decide, fun c h => (by cases h), fun c h => (by cases h)⟩
  | 1 => exact ⟨by decide, fun c h => (by cases h), fun c h => (by cases h; decide)⟩
  | n + 2 => exact ⟨fun h => (by cases h), fun c h => (by cases h), fun c h => (by cases h)⟩

/-- C73 is violated by Juniper EX: two sessions are under way at the same time. Its sessions enter the mode with `configure`
(juniperex.py:34), in which all sessions share one uncommitted configuration, so the first to commit also commits what the other has
entered so far. -/
theorem C73_shared_fails : ∃ evs, Running (Sender.run exSender {} evs) 1 ∧ Running (Sender.run exSender {} evs) 2 :=
  ⟨[.request 1, .connected 1, .opened 1, .request 2, .opened 2], ⟨0, by decide⟩, ⟨0, by decide⟩⟩

/-- C73 is violated by JunOS MX and JunOS EX: after the connection is lost, and if no other is being made, no call ever gets as far as
sending its commands. -/
theorem C73_lost_fails (before evs : List SEv) (c : Nat) (hc : (Sender.run mxSender {} before).conn = some c)
    (hl : c ∈ (Sender.run mxSender {} before).lost) (hn : ∀ j, (Sender.run mxSender {} before).stage j ≠ .connecting)
    (j : Nat) (hj : (Sender.run mxSender {} before).stage j = .idle) :
    (Sender.run mxSender {} (before ++ evs)).stage j = .idle ∨ (Sender.run mxSender {} (before ++ evs)).stage j = .opening c := by
  have key : ∀ (evs : List SEv) (st : Sender), st.conn = some c → c ∈ st.lost → (∀ j, st.stage j ≠ .connecting) → j ∉ st.queue →
      (st.stage j = .idle ∨ st.stage j = .opening c) →
      ((st.run mxSender evs).stage j = .idle ∨ (st.run mxSender evs).stage j = .opening c) := by
    intro evs
    induction evs with
    | nil => intro st _ _ _ _ h; exact h
    | cons e evs ih =>
      intro st hc hl hn hq h
      have hset : ∀ i s, i ≠ j → s ≠ .connecting → (∀ x, (st.set i s).stage x ≠ .connecting) ∧
          ((st.set i s).stage j = .idle ∨ (st.set i s).stage j = .opening c) := by
        intro i s hi hs
        refine ⟨fun x => ?_, ?_⟩
        · simp only [Sender.set]
          split
          · exact hs
          · exact hn x
        · simp only [Sender.set, if_neg (Ne.symm hi)]
          exact h
      show ((st.step mxSender e).run mxSender evs).stage j = _ ∨ ((st.step mxSender e).run mxSender evs).stage j = _
      cases e with
      | lose x => exact ih _ hc (List.mem_cons_of_mem _ hl) hn hq h
      | connected i =>
        simp only [Sender.step, if_neg (hn i)]
        exact ih _ hc hl hn hq h
      | refused i =>
        simp only [Sender.step, if_neg (hn i)]
        exact ih _ hc hl hn hq h
      | request i =>
        have hu : st.usable mxSender = some c := by simp [Sender.usable, hc, mxSender]
        simp only [Sender.step, hu]
        split
        · by_cases hi : i = j
          · subst hi
            refine ih _ hc hl ?_ hq (.inr ?_)
            · intro x
              simp only [Sender.set]
              split
              · simp
              · exact hn x
            · simp [Sender.set]
          · obtain ⟨h1, h2⟩ := hset i (.opening c) hi (by simp)
            exact ih _ hc hl h1 hq h2
        · exact ih _ hc hl hn hq h
      | opened i =>
        simp only [Sender.step]
        split
        · rename_i c' hc'
          split
          · exact ih _ hc hl hn hq h
          · rename_i hnl
            have hi : i ≠ j := by
              intro e
              subst e
              rcases h with h | h
              · rw [h] at hc'; cases hc'
              · rw [h] at hc'; cases hc'; exact hnl hl
            simp only [mxSender, if_true]
            split
            · obtain ⟨h1, h2⟩ := hset i (.running c') hi (by simp)
              exact ih { st.set i (.running c') with holder := some i } hc hl h1 hq h2
            · obtain ⟨h1, h2⟩ := hset i (.waiting c') hi (by simp)
              refine ih { st.set i (.waiting c') with queue := st.queue ++ [i] } hc hl h1 ?_ h2
              simp only [List.mem_append, List.mem_singleton, not_or]
              exact ⟨hq, fun e => hi e.symm⟩
        · exact ih _ hc hl hn hq h
      | ended i ok =>
        simp only [Sender.step]
        split
        · rename_i c' hc'
          split
          · exact ih _ hc hl hn hq h
          · have hi : i ≠ j := by
              intro e
              subst e
              rcases h with h | h <;> (rw [h] at hc'; cases hc')
            simp only [mxSender, if_true]
            obtain ⟨h1, h2⟩ := hset i (if ok then .done else .failed) hi (by cases ok <;> simp)
            unfold Sender.release
            split
            · exact ih { st.set i (if ok then .done else .failed) with holder := none } hc hl h1 hq h2
            · rename_i x q hqq
              have hqq' : st.queue = x :: q := hqq
              have hxj : j ≠ x := by intro e; exact hq (by rw [hqq', e]; simp)
              refine ih _ hc hl ?_ ?_ ?_
              · intro y
                dsimp only
                split
                · cases hsx : (st.set i (if ok then Stage.done else Stage.failed)).stage x with
                  | connecting => exact absurd hsx (h1 x)
                  | _ => simp
                · exact h1 y
              · intro hm; exact hq (by rw [hqq']; exact List.mem_cons_of_mem _ hm)
              · dsimp only
                rw [if_neg hxj]
                exact h2
        · exact ih _ hc hl hn hq h
  have hinv := LockInv.run' (k := mxSender) rfl before LockInv.init
  have hrun : Sender.run mxSender {} (before ++ evs) = (Sender.run mxSender {} before).run mxSender evs := by simp [Sender.run]
  rw [hrun]
  refine key evs _ hc hl hn ?_ (.inl hj)
  intro hq
  obtain ⟨c', hc'⟩ := (hinv.wait j).mpr hq
  rw [hj] at hc'
  cases hc'

example : (Sender.run mxSender {} [.request 1, .connected 1, .opened 1, .ended 1 true, .lose 0]).conn = some 0 ∧
    0 ∈ (Sender.run mxSender {} [.request 1, .connected 1, .opened 1, .ended 1 true, .lose 0]).lost ∧
    (Sender.run mxSender {} [.request 1, .connected 1, .opened 1, .ended 1 true, .lose 0]).stage 2 = .idle := by decide

/-- C73 is violated by JunOS MX and JunOS EX: as long as a session does not end, no other call gets to send its commands. A session
need not ever end (`C72_cut_fails`, `C72_silent_fails`), and does not when its connection is lost. -/
theorem C73_blocked_fails (before evs : List SEv) (j : Nat) (hr : Running (Sender.run mxSender {} before) j)
    (he : ∀ ok, SEv.ended j ok ∉ evs) (i : Nat) (hi : i ≠ j) : ¬ Running (Sender.run mxSender {} (before ++ evs)) i := by
  have key : ∀ (evs : List SEv) (st : Sender), LockInv st → st.holder = some j → (∀ ok, SEv.ended j ok ∉ evs) →
      (st.run mxSender evs).holder = some j := by
    intro evs
    induction evs with
    | nil => intro st _ h _; exact h
    | cons e evs ih =>
      intro st hinv h he
      refine ih (st.step mxSender e) (hinv.step rfl e) ?_ (fun ok hm => he ok (List.mem_cons_of_mem _ hm))
      cases e with
      | lose x => exact h
      | connected x => simp only [Sender.step]; split <;> exact h
      | refused x => simp only [Sender.step]; split <;> exact h
      | request x => simp only [Sender.step]; split; split <;> exact h; exact h
      | opened x =>
        simp only [Sender.step]
        split
        · split
          · exact h
          · simp only [h, mxSender, if_true]
            exact h
        · exact h
      | ended x ok =>
        simp only [Sender.step]
        split
        · rename_i c hc
          exfalso
          have := (hinv.run x).mp ⟨c, hc⟩
          rw [h] at this
          have hx : j = x := Option.some.inj this
          subst hx
          exact he ok List.mem_cons_self
        · exact h
  have hinv := LockInv.run' (k := mxSender) rfl before LockInv.init
  have hrun : Sender.run mxSender {} (before ++ evs) = (Sender.run mxSender {} before).run mxSender evs := by simp [Sender.run]
  have hinv' := LockInv.run' (k := mxSender) rfl (before ++ evs) LockInv.init
  intro h
  have h1 := (hinv'.run i).mp h
  rw [hrun, key evs _ hinv ((hinv.run j).mp hr) he] at h1
  exact hi (Option.some.inj h1).symm

example : Running (Sender.run mxSender {} [.request 1, .connected 1, .opened 1]) 1 := ⟨0, by decide⟩

end OpenNSA.Ssh
