import Verif.Ssh.Lemmas

namespace OpenNSA.Ssh
open Py

theorem Place.prefix {s : Script} {ch : Chan} (h : Place s ch) : ch.sent <+: s.text ∧ (ch.closed = true → ch.sent = s.text) := by
  obtain ⟨_, ⟨_, hc, _, _, hsent⟩ | ⟨_, hc, pre, st, he, _, hsent⟩ | ⟨_, hc, _, _, hsent⟩⟩ := h
  · exact ⟨by rw [hsent]; exact List.nil_prefix, by simp [hc]⟩
  · refine ⟨?_, by simp [hc]⟩
    rw [hsent, Script.text, he]
    refine ⟨ch.todo.flatMap (·.writes) ++ s.last, ?_⟩
    simp
  · exact ⟨by rw [hsent]; exact List.prefix_rfl, fun _ => hsent⟩

/-- C72: whatever the device prints and however it is cut, at every moment the texts written to the device are a first part of the
script, each once and in order; a session that has ended has written all of them. -/
theorem C72_order (p : Proto) (arrive : Kind) (dev : Dev) (s : Script) (hne : s.steps ≠ []) (banner : List Str) (evs : List Ev) :
    ((s.begin banner).run p arrive dev evs).ch.sent <+: s.text ∧
    (((s.begin banner).run p arrive dev evs).ch.closed = true → ((s.begin banner).run p arrive dev evs).ch.sent = s.text) :=
  (Place.run hne evs (Place.begin s banner)).prefix

/-- A switch that prompts after every command. -/
private def niceDev : Dev := fun _ => ["echo\r\nsw#".toList]

example : (((brocadeScript "pw".toList ["vlan 5".toList]).begin ["welcome\r\nsw>".toList]).run brocade .bytes niceDev
      [.shell, .deliver 1, .answer, .deliver 1]).ch.sent = ["enable pw\r".toList, "configure terminal\r".toList, "vlan 5\r".toList] := by decide +kernel

theorem Live.run {s : Script} (hne : s.steps ≠ []) {banner : List Str} {dev : Dev} {p : Proto} (hm : p.matcher = .data)
    (ht : p.timed = false) (hp : ∀ pre st post, s.steps = pre ++ st :: post → PromptsStep banner dev pre st)
    (hfirst : ∃ st t, s.steps = st :: t ∧ st.writes ≠ []) (evs : List Ev) :
    ∀ {w : World}, Live s banner w → Live s banner (w.run p p.buffer dev evs) := by
  induction evs with
  | nil => intro w h; exact h
  | cons e evs ih => intro w h; exact ih (h.step hne hm ht hp e (fun _ _ => .inl hfirst))

theorem step_started {p : Proto} {arrive : Kind} {dev : Dev} {w : World} (hs : w.ch.started = true) (e : Ev) : (w.step p arrive dev e).ch.started = true := by
  cases e with
  | shell => simp only [World.step, hs, if_true]
  | answer => simp only [World.step]; split <;> exact hs
  | deliver n =>
    simp only [World.step]
    split
    · exact hs
    · split
      · -- `started` is not touched
        have hres : ∀ ch : Chan, ch.resume.started = ch.started := by intro ch; unfold Chan.resume; split <;> rfl
        have hml : ∀ (m : Matcher) (ch : Chan) l, (ch.matchLine m l).started = ch.started := by
          intro m ch l
          unfold Chan.matchLine Chan.fire
          split
          · split
            · rw [hres]
            · rfl
          · rfl
        have hfo : ∀ (m : Matcher) (ls : List Str) (ch : Chan), (ls.foldl (Chan.matchLine m) ch).started = ch.started := by
          intro m ls
          induction ls with
          | nil => intro ch; rfl
          | cons l ls ih => intro ch; rw [List.foldl_cons, ih, hml]
        unfold Chan.received
        split
        · exact hs
        · cases p.matcher with
          | data =>
            dsimp only
            split
            · split
              · unfold Chan.fire; rw [hres]; exact hs
              · exact hs
            · exact hs
          | lineIs => dsimp only; split; rw [hfo]; exact hs; exact hs
          | lineHas => dsimp only; split; rw [hfo]; exact hs; exact hs
      · exact hs
  | timeout => simp only [World.step]; split <;> exact hs

theorem Live.run' {s : Script} (hne : s.steps ≠ []) {banner : List Str} {dev : Dev} {p : Proto} (hm : p.matcher = .data)
    (ht : p.timed = false) (hp : ∀ pre st post, s.steps = pre ++ st :: post → PromptsStep banner dev pre st) (evs : List Ev) :
    ∀ {w : World}, Live s banner w → w.ch.started = true → Live s banner (w.run p p.buffer dev evs) := by
  induction evs with
  | nil => intro w h _; exact h
  | cons e evs ih =>
    intro w h hs
    exact ih (h.step hne hm ht hp e (fun _ h' => by simp [hs] at h')) (step_started hs e)

theorem Live.begin (s : Script) (banner : List Str) : Live s banner (s.begin banner) :=
  ⟨Place.begin s banner, by simp [Script.begin], by simp [Script.begin], by simp [Script.begin]⟩

/-- When nothing more can happen, the session has ended. -/
theorem Live.quiet {s : Script} {banner : List Str} {dev : Dev}
    (hp : ∀ pre st post, s.steps = pre ++ st :: post → PromptsStep banner dev pre st) {w : World} (h : Live s banner w) (hq : Quiet w) :
    w.ch.closed = true ∧ w.ch.sent = s.text := by
  obtain ⟨hpl, ha, hns, hl⟩ := h
  obtain ⟨hs, ho, han⟩ := hq
  have hc : w.ch.closed = true := by
    cases hc : w.ch.closed with
    | true => rfl
    | false =>
      exfalso
      obtain ⟨pre, st, he, hw, hsent, hc⟩ := hl hs hc
      obtain ⟨c, hwc, _⟩ := hp pre st _ he
      obtain ⟨h1, h2, _⟩ := hc c hwc
      rw [ho, List.append_nil] at h1
      rcases h1 with h1 | h1
      · omega
      · rcases h2 h1 with h2 | h2
        · omega
        · exact h2 ho
  exact ⟨hc, hpl.prefix.2 hc⟩

/-- The text at a place of the script. -/
theorem text_at {s : Script} {pre post : List Step} {st : Step} (he : s.steps = pre ++ st :: post) {t : Str}
    (ht : st.writes.getLast? = some t) : s.text[((pre ++ [st]).flatMap (·.writes)).length - 1]? = some t := by
  obtain ⟨ws, hws⟩ : ∃ ws, st.writes = ws ++ [t] := by
    obtain ⟨ws, h⟩ := List.getLast?_eq_some_iff.mp ht
    exact ⟨ws, h⟩
  rw [Script.text, he]
  simp only [List.flatMap_append, List.flatMap_cons, List.flatMap_nil, hws, List.append_nil, List.append_assoc]
  rw [← List.append_assoc (pre.flatMap _) ws]
  have : (pre.flatMap (·.writes) ++ (ws ++ [t])).length - 1 = (pre.flatMap (·.writes) ++ ws).length := by simp
  rw [this, List.getElem?_append_right (by omega)]
  simp

theorem brocade_step {pw : Str} {cmds : List Str} {pre post : List Step} {st : Step}
    (he : (brocadeScript pw cmds).steps = pre ++ st :: post) :
    (pre = [] ∧ st.wait = ['>'] ∧ st.writes.length = 1) ∨ (pre ≠ [] ∧ st.wait = ['#'] ∧ st.writes.length = 1) := by
  cases pre with
  | nil =>
    simp only [brocadeScript, List.cons_append, List.nil_append, List.cons.injEq] at he
    exact .inl ⟨rfl, by rw [← he.1], by rw [← he.1]; rfl⟩
  | cons a pre =>
    simp only [brocadeScript, List.cons_append, List.nil_append, List.cons.injEq] at he
    have hm : st ∈ pre ++ st :: post := by simp
    rw [← he.2] at hm
    simp only [List.mem_cons, List.mem_append, List.mem_map, List.not_mem_nil, or_false] at hm
    rcases hm with h | ⟨c, _, h⟩ | h
    · exact .inr ⟨by simp, by rw [h], by rw [h]; rfl⟩
    · exact .inr ⟨by simp, by rw [← h], by rw [← h]; rfl⟩
    · exact .inr ⟨by simp, by rw [h], by rw [h]; rfl⟩

/-- C72, Brocade: if the banner has a `>` and the switch answers every command with a `#` (the first with anything), then, when
nothing more can happen, the session has ended and has written everything, whatever packets the answers came in. -/
theorem C72_brocade (pw : Str) (cmds : List Str) (banner : List Str) (dev : Dev) (evs : List Ev)
    (hb : '>' ∈ banner.flatten) (h0 : (dev 0).flatten ≠ []) (hd : ∀ k, 0 < k → '#' ∈ (dev k).flatten)
    (hq : Quiet (((brocadeScript pw cmds).begin banner).run brocade .bytes dev evs)) :
    (((brocadeScript pw cmds).begin banner).run brocade .bytes dev evs).ch.closed = true ∧
    (((brocadeScript pw cmds).begin banner).run brocade .bytes dev evs).ch.sent = (brocadeScript pw cmds).text := by
  have hp : ∀ pre st post, (brocadeScript pw cmds).steps = pre ++ st :: post → PromptsStep banner dev pre st := by
    intro pre st post he
    have hne : st.writes.length = 1 → st.writes ≠ [] := by intro h h'; rw [h'] at h; simp at h
    rcases brocade_step he with ⟨rfl, hw, hl⟩ | ⟨hpre, hw, hl⟩
    · refine ⟨'>', hw, .inr ⟨hne hl, ?_, .inr ⟨rfl, hb⟩⟩⟩
      simpa [hl] using h0
    · have hlen : 0 < ((pre ++ [st]).flatMap (·.writes)).length - 1 := by
        cases pre with
        | nil => exact absurd rfl hpre
        | cons a pre =>
          have ha : a.writes.length = 1 := by
            rcases brocade_step (pre := []) (st := a) (post := pre ++ st :: post) (by simpa using he) with ⟨_, _, h⟩ | ⟨h, _⟩
            · exact h
            · exact absurd rfl h
          simp only [List.flatMap_append, List.flatMap_cons, List.flatMap_nil, List.length_append, hl, ha, List.length_nil]
          omega
      have := hd _ hlen
      exact ⟨'#', hw, .inr ⟨hne hl, List.ne_nil_of_mem this, .inl this⟩⟩
  have hl := Live.run (s := brocadeScript pw cmds) (by simp [brocadeScript]) (p := brocade) rfl rfl hp
    ⟨_, _, rfl, by simp⟩ evs (Live.begin _ banner)
  exact hl.quiet hp hq

/-- The hypotheses can be met: the switch prompts, and the packets are cut badly. -/
example : Quiet (((brocadeScript "pw".toList ["vlan 5".toList]).begin ["welcome\r\ns".toList, "w>".toList]).run brocade .bytes niceDev
      [.deliver 1, .shell, .answer, .deliver 2, .answer, .deliver 1, .answer, .deliver 1, .answer, .deliver 1]) ∧
    (((brocadeScript "pw".toList ["vlan 5".toList]).begin ["welcome\r\ns".toList, "w>".toList]).run brocade .bytes niceDev
      [.deliver 1, .shell, .answer, .deliver 2, .answer, .deliver 1, .answer, .deliver 1, .answer, .deliver 1]).ch.closed = true := by
  simp only [Quiet]; decide +kernel

theorem force10_step {pw : Str} {cmds : List Str} {pre post : List Step} {st : Step}
    (he : (force10Script pw cmds).steps = pre ++ st :: post) :
    (pre = [] ∧ st.wait = ['>'] ∧ st.writes = []) ∨
    (pre.length = 1 ∧ st.wait = [':'] ∧ ((pre ++ [st]).flatMap (·.writes)).length = 1) ∨
    (1 < pre.length ∧ st.wait = ['#'] ∧ 1 < ((pre ++ [st]).flatMap (·.writes)).length ∧ st.writes.length = 1) := by
  match pre, he with
  | [], he =>
    simp only [force10Script, List.cons_append, List.nil_append, List.cons.injEq] at he
    exact .inl ⟨rfl, by rw [← he.1], by rw [← he.1]⟩
  | [a], he =>
    simp only [force10Script, List.cons_append, List.nil_append, List.cons.injEq] at he
    exact .inr (.inl ⟨rfl, by rw [← he.2.1], by rw [← he.2.1, ← he.1]; rfl⟩)
  | a :: b :: pre, he =>
    simp only [force10Script, List.cons_append, List.nil_append, List.cons.injEq] at he
    have hm : st ∈ pre ++ st :: post := by simp
    rw [← he.2.2] at hm
    simp only [List.mem_cons, List.mem_append, List.mem_map, List.not_mem_nil, or_false] at hm
    have hst : st.wait = ['#'] ∧ st.writes.length = 1 := by
      rcases hm with h | h | ⟨c, _, h⟩ | h
      · exact ⟨by rw [h], by rw [h]; rfl⟩
      · exact ⟨by rw [h], by rw [h]; rfl⟩
      · exact ⟨by rw [← h], by rw [← h]; rfl⟩
      · exact ⟨by rw [h], by rw [h]; rfl⟩
    refine .inr (.inr ⟨by simp, hst.1, ?_, hst.2⟩)
    have hb : b.writes.length = 1 := by rw [← he.2.1]; rfl
    simp only [List.flatMap_append, List.flatMap_cons, List.flatMap_nil, List.length_append, hst.2, hb, List.length_nil]
    omega

/-- C72, Force10: the same, if the switch asks for the password with a `:`, and nothing that it prints arrives before the shell is
granted. Missing: see `C72_force10_early_fails`. -/
theorem C72_force10_partial (pw : Str) (cmds : List Str) (banner : List Str) (dev : Dev) (evs : List Ev)
    (hb : '>' ∈ banner.flatten) (h0 : ':' ∈ (dev 0).flatten) (hd : ∀ k, 0 < k → '#' ∈ (dev k).flatten)
    (hq : Quiet (((force10Script pw cmds).begin banner).run force10 .text dev (.shell :: evs))) :
    (((force10Script pw cmds).begin banner).run force10 .text dev (.shell :: evs)).ch.closed = true ∧
    (((force10Script pw cmds).begin banner).run force10 .text dev (.shell :: evs)).ch.sent = (force10Script pw cmds).text := by
  have hp : ∀ pre st post, (force10Script pw cmds).steps = pre ++ st :: post → PromptsStep banner dev pre st := by
    intro pre st post he
    rcases force10_step he with ⟨rfl, hw, hl⟩ | ⟨hpre, hw, hl⟩ | ⟨hpre, hw, hl, hl'⟩
    · exact ⟨'>', hw, .inl ⟨hl, rfl, hb⟩⟩
    · refine ⟨':', hw, .inr ⟨?_, ?_, .inl ?_⟩⟩
      · intro h
        match pre, hpre with
        | [a], _ =>
          simp only [force10Script, List.cons_append, List.nil_append, List.cons.injEq] at he
          rw [← he.2.1] at h
          simp at h
      · rw [hl]; exact List.ne_nil_of_mem h0
      · rw [hl]; exact h0
    · have := hd (((pre ++ [st]).flatMap (·.writes)).length - 1) (by omega)
      exact ⟨'#', hw, .inr ⟨by intro h; simp [h] at hl', List.ne_nil_of_mem this, .inl this⟩⟩
  have hne : (force10Script pw cmds).steps ≠ [] := by simp [force10Script]
  have h1 : Live (force10Script pw cmds) banner (((force10Script pw cmds).begin banner).step force10 .text dev .shell) :=
    (Live.begin _ banner).step (p := force10) hne rfl rfl hp .shell (fun _ _ => .inr rfl)
  have hl := Live.run' (p := force10) hne rfl rfl hp evs h1 (by simp [World.step, Script.begin, Chan.resume, force10Script])
  exact hl.quiet hp hq

/-- A Force10 switch. -/
private def f10Dev : Dev := fun n => if n = 0 then ["enable\r\nPassword:".toList] else ["x\r\nsw#".toList]

example : Quiet (((force10Script "pw".toList ["vlan 5".toList]).begin ["sw>".toList]).run force10 .text f10Dev
      (.shell :: [.deliver 1, .answer, .deliver 1, .answer, .deliver 1, .answer, .deliver 1, .answer, .deliver 1, .answer, .deliver 1,
        .answer, .deliver 1])) ∧
    (((force10Script "pw".toList ["vlan 5".toList]).begin ["sw>".toList]).run force10 .text f10Dev
      (.shell :: [.deliver 1, .answer, .deliver 1, .answer, .deliver 1, .answer, .deliver 1, .answer, .deliver 1, .answer, .deliver 1,
        .answer, .deliver 1])).ch.sent.length = 6 := by
  simp only [Quiet]; decide +kernel

/-- C72 is violated by Force10: if the prompt arrives before the answer to the request for a shell, then the session never writes
anything: `waitForData` does not look at the data that is already there. -/
theorem C72_force10_early_fails : ∃ (banner : List Str) (dev : Dev) (evs : List Ev),
    '>' ∈ banner.flatten ∧ ':' ∈ (dev 0).flatten ∧ (∀ k, 0 < k → '#' ∈ (dev k).flatten) ∧
    Quiet (((force10Script "pw".toList ["vlan 5".toList]).begin banner).run force10 .text dev evs) ∧
    (((force10Script "pw".toList ["vlan 5".toList]).begin banner).run force10 .text dev evs).ch.closed = false ∧
    (((force10Script "pw".toList ["vlan 5".toList]).begin banner).run force10 .text dev evs).ch.sent = [] := by
  refine ⟨["sw>".toList], f10Dev, [.deliver 1, .shell], by decide, by decide, ?_, ?_, by decide +kernel, by decide +kernel⟩
  · intro k hk
    have : k ≠ 0 := by omega
    simp only [f10Dev, if_neg this]
    decide
  · simp only [Quiet]; decide +kernel

/-- C72, Pica8: if every `echo` is answered with a line end, then, when nothing more can happen, the session has ended and has
written everything. -/
theorem C72_pica8 (cmds : List Str) (banner : List Str) (dev : Dev) (evs : List Ev)
    (hd : ∀ k, (pica8Script cmds).text[k]? = some "echo\n".toList → '\n' ∈ (dev k).flatten)
    (hq : Quiet (((pica8Script cmds).begin banner).run pica8 .text dev evs)) :
    (((pica8Script cmds).begin banner).run pica8 .text dev evs).ch.closed = true ∧
    (((pica8Script cmds).begin banner).run pica8 .text dev evs).ch.sent = (pica8Script cmds).text := by
  have hp : ∀ pre st post, (pica8Script cmds).steps = pre ++ st :: post → PromptsStep banner dev pre st := by
    intro pre st post he
    have hm : st ∈ pre ++ st :: post := by simp
    rw [← he] at hm
    simp only [pica8Script, List.mem_cons, List.mem_append, List.mem_map, List.not_mem_nil, or_false] at hm
    have hst : st.wait = ['\n'] ∧ st.writes.getLast? = some "echo\n".toList ∧ st.writes ≠ [] := by
      rcases hm with (h | ⟨c, _, h⟩) | h
      · rw [h]; exact ⟨rfl, rfl, by simp⟩
      · rw [← h]; exact ⟨rfl, rfl, by simp⟩
      · rw [h]; exact ⟨rfl, rfl, by simp⟩
    have := hd _ (text_at he hst.2.1)
    exact ⟨'\n', hst.1, .inr ⟨hst.2.2, List.ne_nil_of_mem this, .inl this⟩⟩
  have hl := Live.run (s := pica8Script cmds) (by simp [pica8Script]) (p := pica8) rfl rfl hp
    ⟨_, _, rfl, by simp⟩ evs (Live.begin _ banner)
  exact hl.quiet hp hq

example : Quiet (((pica8Script ["ovs-vsctl x".toList]).begin []).run pica8 .text (fun n => if n = 1 then [] else ["\n".toList])
      [.shell, .answer, .deliver 1, .answer, .answer, .deliver 1, .answer, .deliver 1]) ∧
    (((pica8Script ["ovs-vsctl x".toList]).begin []).run pica8 .text (fun n => if n = 1 then [] else ["\n".toList])
      [.shell, .answer, .deliver 1, .answer, .answer, .deliver 1, .answer, .deliver 1]).ch.closed = true := by
  simp only [Quiet]; decide +kernel

end OpenNSA.Ssh
