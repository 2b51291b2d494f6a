import Verif.Ssh.PropsLines

namespace OpenNSA.Ssh
open Py

/-- How many waits for the character `c` are not over. -/
def left (c : Char) (ch : Chan) : Nat :=
  ch.todo.countP (fun st => st.wait == [c]) + (if ch.wait = some [c] then 1 else 0)

theorem left_resume (c : Char) {ch : Chan} (h : ch.wait = none) : left c ch.resume = left c ch := by
  unfold Chan.resume left
  cases ht : ch.todo with
  | nil => simp [h]
  | cons st t =>
    simp only [h, List.countP_cons]
    by_cases hw : st.wait = [c] <;> simp [hw]

theorem left_fire (c : Char) {ch : Chan} {x : Str} (h : ch.wait = some x) : left c ch = left c ch.fire + (if x = [c] then 1 else 0) := by
  unfold Chan.fire
  rw [left_resume c rfl]
  simp [left, h]

theorem received_count (c : Char) (ch : Chan) (d : Str) :
    (ch.received .data d).buf.count c + left c ch ≤ left c (ch.received .data d) + ch.buf.count c + d.count c := by
  unfold Chan.received
  split
  · rename_i h
    rw [h]
    simp only [List.count_nil]
    omega
  · dsimp only
    split
    · rename_i x hx
      split
      · rename_i hf
        have hl : left c ch = left c (Chan.fire { ch with buf := [] }) + (if x = [c] then 1 else 0) :=
          left_fire c (ch := { ch with buf := [] }) hx
        have hb : (Chan.fire { ch with buf := [] }).buf = [] := by unfold Chan.fire Chan.resume; split <;> rfl
        rw [hb, hl]
        simp only [List.count_nil]
        by_cases hxc : x = [c]
        · subst hxc
          have hpos : 0 < (ch.buf ++ d).count c := List.count_pos_iff.mpr ((has_single _ _).mp hf.2)
          rw [List.count_append] at hpos
          simp only [if_true]
          omega
        · simp only [if_neg hxc]
          omega
      · show (ch.buf ++ d).count c + left c ch ≤ left c ch + _ + _
        rw [List.count_append]
        omega
    · show (ch.buf ++ d).count c + left c ch ≤ left c ch + _ + _
      rw [List.count_append]
      omega

/-- Every wait for `c` that is over has used up one of the characters `c` that have arrived. -/
def Counted (s : Script) (c : Char) (banner : List Str) (dev : Dev) (w : World) : Prop :=
  s.steps.countP (fun st => st.wait == [c]) + w.ch.buf.count c + w.out.flatten.count c
    ≤ left c w.ch + (printed banner dev w.answered).count c

theorem Counted.step {s : Script} {c : Char} {banner : List Str} {dev : Dev} {p : Proto} (hm : p.matcher = .data) (ht : p.timed = false)
    {w : World} (h : Counted s c banner dev w) (ev : Ev) (hn : w.ch.started = false → w.ch.wait = none) :
    Counted s c banner dev (w.step p p.buffer dev ev) := by
  unfold Counted at h ⊢
  cases ev with
  | timeout => simp only [World.step, ht]; simpa using h
  | shell =>
    simp only [World.step]
    split
    · exact h
    · rename_i hs
      have hbuf : ∀ ch : Chan, ch.resume.buf = ch.buf := by intro ch; unfold Chan.resume; split <;> rfl
      have hw : ({ w.ch with started := true } : Chan).wait = none := hn (by simpa using hs)
      show _ + List.count c (Chan.resume { w.ch with started := true }).buf + _ ≤ left c (Chan.resume { w.ch with started := true }) + _
      rw [hbuf, left_resume c hw]
      exact h
  | answer =>
    simp only [World.step]
    split
    · simp only [printed, List.flatten_append, List.count_append]
      omega
    · exact h
  | deliver n =>
    have hfl := congrArg (List.count c) (flatten_take_drop w.out n)
    rw [List.count_append] at hfl
    simp only [World.step, if_true]
    split
    · rename_i hd
      rw [hd] at hfl
      simp only [List.count_nil, Nat.zero_add] at hfl
      rw [hfl] at h
      exact h
    · have hr := received_count c w.ch (w.out.take n).flatten
      rw [hm]
      dsimp only
      omega

theorem Counted.closed {s : Script} (hne : s.steps ≠ []) (c : Char) (banner : List Str) (dev : Dev) {p : Proto} (hm : p.matcher = .data)
    (ht : p.timed = false) (evs : List Ev) (hc : ((s.begin banner).run p p.buffer dev evs).ch.closed = true) :
    s.steps.countP (fun st => st.wait == [c]) ≤ (printed banner dev ((s.begin banner).run p p.buffer dev evs).answered).count c := by
  have key : ∀ (evs : List Ev) (w : World), Place s w.ch → Counted s c banner dev w →
      Place s (w.run p p.buffer dev evs).ch ∧ Counted s c banner dev (w.run p p.buffer dev evs) := by
    intro evs
    induction evs with
    | nil => intro w h1 h2; exact ⟨h1, h2⟩
    | cons e evs ih =>
      intro w h1 h2
      refine ih _ (h1.step hne e) (h2.step hm ht e ?_)
      intro hs
      obtain ⟨_, ⟨_, _, h, _⟩ | ⟨h, _⟩ | ⟨h, _⟩⟩ := h1
      · exact h
      · rw [hs] at h; exact absurd h (by simp)
      · rw [hs] at h; exact absurd h (by simp)
  obtain ⟨h1, h2⟩ := key evs (s.begin banner) (Place.begin s banner) (by simp [Counted, Script.begin, left, printed])
  obtain ⟨_, ⟨_, h, _⟩ | ⟨_, h, _⟩ | ⟨_, _, hw, htd, _⟩⟩ := h1
  · rw [hc] at h; exact absurd h (by simp)
  · rw [hc] at h; exact absurd h (by simp)
  · unfold Counted at h2
    simp only [left, hw, htd] at h2
    simp at h2
    omega

theorem printed_count {c : Char} {banner : List Str} {dev : Dev} (hb : c ∉ banner.flatten) (hd : ∀ k, (dev k).flatten.count c ≤ 1) :
    ∀ n, (printed banner dev n).count c ≤ n
  | 0 => by simp only [printed]; rw [List.count_eq_zero_of_not_mem hb]; omega
  | n + 1 => by
    simp only [printed, List.count_append]
    have := printed_count hb hd n
    have := hd n
    omega

/-- C72, Brocade: if the banner has no `#` and each answer at most one, then a session that has ended was answered the command
`enable`, the command `configure terminal`, and all configuration commands. (It need not have been answered `end`.) -/
theorem C72_brocade_done (pw : Str) (cmds : List Str) (banner : List Str) (dev : Dev) (evs : List Ev)
    (hb : '#' ∉ banner.flatten) (hd : ∀ k, (dev k).flatten.count '#' ≤ 1)
    (hc : (((brocadeScript pw cmds).begin banner).run brocade .bytes dev evs).ch.closed = true) :
    cmds.length + 2 ≤ (((brocadeScript pw cmds).begin banner).run brocade .bytes dev evs).answered := by
  have h := Counted.closed (s := brocadeScript pw cmds) (by simp [brocadeScript]) '#' banner dev (p := brocade) rfl rfl evs hc
  have hn : (brocadeScript pw cmds).steps.countP (fun st => st.wait == ['#']) = cmds.length + 2 := by
    simp only [brocadeScript, List.cons_append, List.nil_append, List.countP_cons, List.countP_append, List.countP_map,
      List.countP_nil]
    have : cmds.countP ((fun st : Step => st.wait == ['#']) ∘ fun c => (⟨[c ++ ['\r']], ['#']⟩ : Step)) = cmds.length := by
      rw [List.countP_eq_length]; intro c _; rfl
    rw [this]
    simp
  rw [hn] at h
  exact Nat.le_trans h (printed_count hb hd _)

/-- A switch with one `#` in every answer. -/
private def oneDev : Dev := fun _ => ["echo\r\nsw#".toList]

example : '#' ∉ ["welcome\r\nsw>".toList].flatten ∧ (∀ k, (oneDev k).flatten.count '#' ≤ 1) ∧
    (((brocadeScript "pw".toList ["vlan 5".toList]).begin ["welcome\r\nsw>".toList]).run brocade .bytes oneDev
      [.shell, .deliver 1, .answer, .deliver 1, .answer, .deliver 1, .answer, .deliver 1]).ch.closed = true :=
  ⟨by decide, fun _ => by simp only [oneDev]; decide, by decide +kernel⟩

theorem printed_count' {c : Char} {banner : List Str} {dev : Dev} (hb : c ∉ banner.flatten) (h0 : c ∉ (dev 0).flatten)
    (hd : ∀ k, (dev k).flatten.count c ≤ 1) : ∀ n, (printed banner dev n).count c ≤ n - 1
  | 0 => by simp only [printed]; rw [List.count_eq_zero_of_not_mem hb]; omega
  | 1 => by
    simp only [printed, List.count_append]
    rw [List.count_eq_zero_of_not_mem hb, List.count_eq_zero_of_not_mem h0]
    omega
  | n + 2 => by
    have ih := printed_count' hb h0 hd (n + 1)
    have := hd (n + 1)
    simp only [printed, List.count_append] at ih ⊢
    omega

/-- C72, Force10: if neither the banner nor the question for the password has a `#`, and each answer has at most one, then a session
that has ended was answered everything up to `write`. -/
theorem C72_force10_done (pw : Str) (cmds : List Str) (banner : List Str) (dev : Dev) (evs : List Ev)
    (hb : '#' ∉ banner.flatten) (h0 : '#' ∉ (dev 0).flatten) (hd : ∀ k, (dev k).flatten.count '#' ≤ 1)
    (hc : (((force10Script pw cmds).begin banner).run force10 .text dev evs).ch.closed = true) :
    cmds.length + 4 ≤ (((force10Script pw cmds).begin banner).run force10 .text dev evs).answered := by
  have h := Counted.closed (s := force10Script pw cmds) (by simp [force10Script]) '#' banner dev (p := force10) rfl rfl evs hc
  have hn : (force10Script pw cmds).steps.countP (fun st => st.wait == ['#']) = cmds.length + 3 := by
    simp only [force10Script, List.cons_append, List.nil_append, List.countP_cons, List.countP_append, List.countP_map,
      List.countP_nil]
    have : cmds.countP ((fun st : Step => st.wait == ['#']) ∘ fun c => (⟨[c ++ ['\r']], ['#']⟩ : Step)) = cmds.length := by
      rw [List.countP_eq_length]; intro c _; rfl
    rw [this]
    simp
  rw [hn] at h
  have := Nat.le_trans h (printed_count' hb h0 hd _)
  have h4 : (((force10Script pw cmds).begin banner).run force10 .text dev evs).answered
      = (((force10Script pw cmds).begin banner).run force10 force10.buffer dev evs).answered := rfl
  rw [h4]
  omega

/-- A Force10 switch. -/
private def f10Dev : Dev := fun n => if n = 0 then ["enable\r\nPassword:".toList] else ["x\r\nsw#".toList]

example : '#' ∉ ["sw>".toList].flatten ∧ '#' ∉ (f10Dev 0).flatten ∧ (∀ k, (f10Dev k).flatten.count '#' ≤ 1) ∧
    (((force10Script "pw".toList ["vlan 5".toList]).begin ["sw>".toList]).run force10 .text f10Dev
      (.shell :: [.deliver 1, .answer, .deliver 1, .answer, .deliver 1, .answer, .deliver 1, .answer, .deliver 1, .answer,
        .deliver 1])).ch.closed = true := by
  refine ⟨by decide, by decide, fun k => ?_, by decide +kernel⟩
  unfold f10Dev
  split <;> decide

/-! ### Violations -/

/-- C72 is violated by Brocade: the prompt that the switch prints at the beginning is taken for the answer to `enable`, so
`configure terminal` is written before `enable` has been answered, and so on. -/
theorem C72_early_fails : ∃ evs : List Ev,
    (((brocadeScript "pw".toList ["vlan 5".toList]).begin ["sw>".toList]).run brocade .bytes oneDev evs).answered = 0 ∧
    (((brocadeScript "pw".toList ["vlan 5".toList]).begin ["sw>".toList]).run brocade .bytes oneDev evs).ch.sent
      = ["enable pw\r".toList, "configure terminal\r".toList] :=
  ⟨[.shell, .deliver 1], by decide +kernel, by decide +kernel⟩

/-- C72 is violated by Pica8: every line that the switch prints, also those of its greeting, counts as an answer. Here the session
ends, and the connection is closed, before the switch has answered any of the commands. -/
theorem C72_pica8_early_fails : ∃ (banner : List Str) (dev : Dev) (evs : List Ev), (∀ k, '\n' ∈ (dev k).flatten) ∧
    (((pica8Script ["ovs-vsctl x".toList]).begin banner).run pica8 .text dev evs).ch.closed = true ∧
    (((pica8Script ["ovs-vsctl x".toList]).begin banner).run pica8 .text dev evs).answered = 0 :=
  ⟨["Welcome\n".toList, "to\n".toList, "Pica8\n".toList], fun _ => ["\n".toList], [.shell, .deliver 1, .deliver 1, .deliver 1],
    fun _ => by simp, by decide +kernel, by decide +kernel⟩

/-- A router that refuses the second text. -/
private def refuseDev : Dev := fun n =>
  if n = 1 then ["set a\r\n".toList, "syntax error.\r\n".toList, "\r\n".toList, "[edit]\r\n".toList, "me@r# ".toList] else mxDev n

/-- C72 is violated by the JunOS channels: a command that the router refuses goes unnoticed; the rest is committed and the session
ends as if all was well. -/
theorem C72_refused_fails : ∃ evs : List Ev, "syntax error".toList <:+: (refuseDev 1).flatten ∧
    (((junosmxScript ["set a".toList]).begin []).run junosmx .text refuseDev evs).answered = 3 ∧
    (((junosmxScript ["set a".toList]).begin []).run junosmx .text refuseDev evs).ch.closed = true := by
  refine ⟨[.shell, .answer, .deliver 9, .answer, .deliver 9, .answer, .deliver 9], ?_, by decide +kernel, by decide +kernel⟩
  exact (has_iff _ _).mp (by decide +kernel)

/-- C72 is violated by all channels: a device that prints nothing keeps the session waiting for ever; no exception is raised. (Only
VPLS has a time limit, see `C72_timeout_fails`.) -/
theorem C72_silent_fails (p : Proto) (s : Script) (st : Step) (t : List Step) (hs : s.steps = st :: t) (evs : List Ev) :
    ((s.begin []).run p p.buffer (fun _ => []) evs).ch.closed = false ∧
    ((s.begin []).run p p.buffer (fun _ => []) evs).errors = 0 ∧
    ((s.begin []).run p p.buffer (fun _ => []) evs).ch.sent <+: st.writes := by
  have key : ∀ (evs : List Ev) (w : World), w.out.flatten = [] → w.errors = 0 → w.ch.closed = false →
      (w.ch.started = false ∧ w.ch.todo = st :: t ∧ w.ch.sent = [] ∨ w.ch.started = true ∧ w.ch.sent = st.writes) →
      (w.run p p.buffer (fun _ => []) evs).ch.closed = false ∧ (w.run p p.buffer (fun _ => []) evs).errors = 0 ∧
      (w.run p p.buffer (fun _ => []) evs).ch.sent <+: st.writes := by
    intro evs
    induction evs with
    | nil =>
      intro w _ he hc h
      refine ⟨hc, he, ?_⟩
      show w.ch.sent <+: _
      rcases h with ⟨_, _, h⟩ | ⟨_, h⟩
      · rw [h]; exact List.nil_prefix
      · rw [h]; exact List.prefix_rfl
    | cons e evs ih =>
      intro w ho he hc h
      cases e with
      | shell =>
        rcases h with ⟨h1, h2, h3⟩ | ⟨h1, h2⟩
        · refine ih _ ?_ ?_ ?_ (.inr ?_)
          all_goals simp [World.step, h1, Chan.resume, h2, h3, ho, he, hc]
        · refine ih _ ?_ ?_ ?_ (.inr ?_)
          all_goals simp [World.step, h1, h2, ho, he, hc]
      | answer =>
        by_cases hlt : w.answered < w.ch.sent.length
        · refine ih _ ?_ ?_ ?_ ?_
          all_goals simp only [World.step, if_pos hlt]
          · simpa using ho
          · exact he
          · exact hc
          · exact h
        · refine ih _ ?_ ?_ ?_ ?_
          all_goals simp only [World.step, if_neg hlt]
          · exact ho
          · exact he
          · exact hc
          · exact h
      | deliver n =>
        have hfl := flatten_take_drop w.out n
        rw [ho] at hfl
        obtain ⟨h1, h2⟩ := List.append_eq_nil_iff.mp hfl.symm
        refine ih _ ?_ ?_ ?_ ?_
        all_goals simp only [World.step, if_pos h1]
        · exact h2
        · exact he
        · exact hc
        · exact h
      | timeout =>
        by_cases hx : p.timed = true ∧ w.ch.wait.isSome = true
        · refine ih _ ?_ ?_ ?_ ?_
          all_goals simp only [World.step, if_pos hx, Chan.waitTimeout]
          · exact ho
          · exact he
          · exact hc
          · exact h
        · refine ih _ ?_ ?_ ?_ ?_
          all_goals simp only [World.step, if_neg hx]
          · exact ho
          · exact he
          · exact hc
          · exact h
  exact key evs _ rfl rfl rfl (.inl ⟨rfl, hs, rfl⟩)

example : ∃ st t, (brocadeScript "pw".toList ["vlan 5".toList]).steps = st :: t := ⟨_, _, rfl⟩

/-- Nothing is awaited any more, but the session has not ended. -/
theorem stuck {p : Proto} {arrive : Kind} {dev : Dev} (evs : List Ev) :
    ∀ {w : World}, w.ch.started = true → w.ch.wait = none → w.ch.closed = false →
      (w.run p arrive dev evs).ch.closed = false ∧ (w.run p arrive dev evs).ch.sent = w.ch.sent := by
  induction evs with
  | nil => intro w _ _ hc; exact ⟨hc, rfl⟩
  | cons e evs ih =>
    intro w hs hn hc
    have h : (w.step p arrive dev e).ch.started = true ∧ (w.step p arrive dev e).ch.wait = none ∧
        (w.step p arrive dev e).ch.closed = false ∧ (w.step p arrive dev e).ch.sent = w.ch.sent := by
      cases e with
      | shell => simp [World.step, hs, hn, hc]
      | answer => simp only [World.step]; split <;> exact ⟨hs, hn, hc, rfl⟩
      | deliver n =>
        simp only [World.step]
        split
        · exact ⟨hs, hn, hc, rfl⟩
        · split
          · obtain ⟨b, hb⟩ := received_none (m := p.matcher) hn (w.out.take n).flatten
            rw [hb]
            exact ⟨hs, hn, hc, rfl⟩
          · exact ⟨hs, hn, hc, rfl⟩
      | timeout => simp [World.step, hs, hn, hc]
    obtain ⟨h1, h2⟩ := ih h.1 h.2.1 h.2.2.1
    exact ⟨h1, h2.trans h.2.2.2⟩

/-- C72 is violated by VPLS: when the time limit of a wait is reached, the session does not fail. It stays where it is, writes
nothing more and never ends, whatever the router prints later. -/
theorem C72_timeout_fails (cmds : List Str) (banner : List Str) (dev : Dev) (evs later : List Ev)
    (hw : (((vplsScript cmds).begin banner).run vpls .text dev evs).ch.wait.isSome = true) :
    (((vplsScript cmds).begin banner).run vpls .text dev (evs ++ .timeout :: later)).ch.closed = false ∧
    (((vplsScript cmds).begin banner).run vpls .text dev (evs ++ .timeout :: later)).ch.sent
      = (((vplsScript cmds).begin banner).run vpls .text dev evs).ch.sent := by
  have hpl : Place (vplsScript cmds) (((vplsScript cmds).begin banner).run vpls .text dev evs).ch :=
    Place.run (by simp [vplsScript, junosScript]) evs (Place.begin _ banner)
  have hrun : ((vplsScript cmds).begin banner).run vpls .text dev (evs ++ .timeout :: later)
      = World.run vpls .text dev ((((vplsScript cmds).begin banner).run vpls .text dev evs).step vpls .text dev .timeout) later := by
    simp [World.run]
  rw [hrun]
  generalize ((vplsScript cmds).begin banner).run vpls .text dev evs = w at hw hpl
  have hst : w.step vpls .text dev .timeout = { w with ch := w.ch.waitTimeout } := by
    simp only [World.step]
    rw [if_pos ⟨rfl, hw⟩]
  rw [hst]
  have hsc : w.ch.started = true ∧ w.ch.closed = false := by
    obtain ⟨_, ⟨_, _, h, _⟩ | ⟨h1, h2, _⟩ | ⟨_, _, h, _⟩⟩ := hpl
    · simp [h] at hw
    · exact ⟨h1, h2⟩
    · simp [h] at hw
  exact stuck later hsc.1 rfl hsc.2

example : (((vplsScript ["set a".toList]).begin []).run vpls .text mxDev [.shell, .answer]).ch.wait.isSome = true := by decide +kernel

/-- C72 is violated by all channels but Brocade's: what arrives from the network is bytes, the buffer is text, so every packet
raises `TypeError`; the session never gets past its first wait. -/
theorem C72_text_fails (p : Proto) (hp : p.buffer = .text) (s : Script) (st : Step) (t : List Step) (hs : s.steps = st :: t)
    (banner : List Str) (dev : Dev) (evs : List Ev) :
    ((s.begin banner).run p .bytes dev evs).ch.closed = false ∧ ((s.begin banner).run p .bytes dev evs).ch.sent <+: st.writes := by
  have key : ∀ (evs : List Ev) (w : World), w.ch.closed = false →
      (w.ch.started = false ∧ w.ch.todo = st :: t ∧ w.ch.sent = [] ∨ w.ch.started = true ∧ w.ch.sent = st.writes) →
      (w.run p .bytes dev evs).ch.closed = false ∧ (w.run p .bytes dev evs).ch.sent <+: st.writes := by
    intro evs
    induction evs with
    | nil =>
      intro w hc h
      refine ⟨hc, ?_⟩
      show w.ch.sent <+: _
      rcases h with ⟨_, _, h⟩ | ⟨_, h⟩
      · rw [h]; exact List.nil_prefix
      · rw [h]; exact List.prefix_rfl
    | cons e evs ih =>
      intro w hc h
      cases e with
      | shell =>
        rcases h with ⟨h1, h2, h3⟩ | ⟨h1, h2⟩
        · refine ih _ ?_ (.inr ?_)
          all_goals simp [World.step, h1, Chan.resume, h2, h3, hc]
        · refine ih _ ?_ (.inr ?_)
          all_goals simp [World.step, h1, h2, hc]
      | answer =>
        refine ih _ ?_ ?_
        all_goals simp only [World.step]; split
        all_goals first | exact hc | exact h
      | deliver n =>
        have hk : ¬(p.buffer = Kind.bytes) := by rw [hp]; simp
        refine ih _ ?_ ?_
        all_goals simp only [World.step, if_neg hk]; split
        all_goals first | exact hc | exact h
      | timeout =>
        refine ih _ ?_ ?_
        all_goals simp only [World.step]; split
        all_goals first | exact hc | exact h
  exact key evs _ rfl (.inl ⟨rfl, hs, rfl⟩)

example : junosmx.buffer = .text ∧ junosex.buffer = .text ∧ juniperex.buffer = .text ∧ vpls.buffer = .text ∧ force10.buffer = .text ∧
    pica8.buffer = .text ∧ brocade.buffer ≠ .text := by decide

/-- C72: all channels but VPLS are patient: however long a device takes to print, the session goes on as if it had been quick. -/
theorem C72_patient (p : Proto) (hp : p = brocade ∨ p = force10 ∨ p = pica8 ∨ p = junosmx ∨ p = junosex ∨ p = juniperex) (arrive : Kind) (dev : Dev)
    (w : World) (evs : List Ev) : w.run p arrive dev evs = w.run p arrive dev (evs.filter (fun e => e ≠ .timeout)) := by
  have ht : p.timed = false := by rcases hp with h | h | h | h | h | h <;> subst h <;> rfl
  induction evs generalizing w with
  | nil => rfl
  | cons e evs ih =>
    show (w.step p arrive dev e).run p arrive dev evs = _
    rw [ih]
    cases e with
    | timeout => simp [World.step, ht]
    | _ => simp [World.run]

example : (((junosmxScript ["set a".toList]).begin []).run junosmx .text mxDev [.shell, .timeout, .answer]).answered = 1 := by decide +kernel

end OpenNSA.Ssh
