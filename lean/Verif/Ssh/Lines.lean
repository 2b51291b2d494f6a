import Verif.Ssh.Lemmas

namespace OpenNSA.Ssh
open Py

theorem splitOn_cut (c : Char) (b : Str) : ∀ a : Str, splitOn c (a ++ c :: b) = splitOn c a ++ splitOn c b
  | [] => by simp [splitOn]
  | x :: a => by
    have ih := splitOn_cut c b a
    simp only [List.cons_append, splitOn, ih]
    by_cases hx : x = c
    · simp [hx]
    · simp only [if_neg hx]
      cases h : splitOn c a with
      | nil => exact absurd h (splitOn_ne_nil c a)
      | cons y ys => simp

theorem dropWhile_append_last {α} (p : α → Bool) (s : List α) : ∀ x, (s.dropWhile p).head? = some x → p x = false := by
  induction s with
  | nil => simp
  | cons a s ih =>
    intro x hx
    rw [List.dropWhile_cons] at hx
    split at hx
    · exact ih x hx
    · simp at hx
      subst hx
      simp_all

theorem dropWhile_of_head {α} (p : α → Bool) (s : List α) (h : ∀ x, s.head? = some x → p x = false) : s.dropWhile p = s := by
  cases s with
  | nil => rfl
  | cons a s =>
    rw [List.dropWhile_cons, if_neg]
    simp [h a rfl]

theorem strip_strip (s : Str) : strip (strip s) = strip s := by
  unfold strip
  generalize ht : (s.dropWhile isSpace) = t
  have hh := dropWhile_append_last isSpace s
  rw [ht] at hh
  have h1 : (t.reverse.dropWhile isSpace).reverse.dropWhile isSpace = (t.reverse.dropWhile isSpace).reverse := by
    apply dropWhile_of_head
    intro x hx
    apply hh
    have hsuf : (t.reverse.dropWhile isSpace) <:+ t.reverse := List.dropWhile_suffix _
    have hpre : (t.reverse.dropWhile isSpace).reverse <+: t := by
      have := List.reverse_prefix.mpr hsuf
      simpa using this
    obtain ⟨r, hr⟩ := hpre
    rw [← hr]
    cases h : (t.reverse.dropWhile isSpace).reverse with
    | nil => simp [h] at hx
    | cons y ys => simp [h] at hx ⊢; exact hx
  rw [h1, List.reverse_reverse, dropWhile_of_head]
  exact dropWhile_append_last isSpace _

theorem lineFits_strip (m : Matcher) (x l : Str) : lineFits m x (strip l) = lineFits m x l := by
  cases m <;> simp [lineFits, strip_strip]

/-- A complete line, with its end, in which the channel finds what it waits for. -/
def MarkerLine (m : Matcher) (x l : Str) : Prop :=
  ∃ body, l = body ++ ['\n'] ∧ '\n' ∉ body ∧ lineFits m x body = true

theorem lineFits_ne {m : Matcher} {x l : Str} (hx : x ≠ []) (h : lineFits m x l = true) : strip l ≠ [] := by
  intro hs
  cases m with
  | data => simp [lineFits] at h
  | lineIs => simp only [lineFits, hs, beq_iff_eq] at h; exact hx h
  | lineHas => simp only [lineFits, hs, has] at h; cases x <;> simp at h hx

theorem mem_linesOf {b s : Str} (h : b ∈ splitOn '\n' s) (hb : strip b ≠ []) : strip b ∈ linesOf s := by
  unfold linesOf
  rw [List.mem_filter]
  exact ⟨List.mem_map_of_mem h, by simpa using hb⟩

/-- A line between two line ends is one of the lines. -/
theorem marker_mid {m : Matcher} {x l : Str} (hx : x ≠ []) (h : MarkerLine m x l) (a b : Str) :
    ∃ y ∈ linesOf (a ++ '\n' :: (l ++ b)), lineFits m x y = true := by
  obtain ⟨body, rfl, hn, hf⟩ := h
  refine ⟨strip body, mem_linesOf ?_ (lineFits_ne hx hf), by rw [lineFits_strip]; exact hf⟩
  rw [splitOn_cut]
  apply List.mem_append_right
  have : body ++ ['\n'] ++ b = body ++ '\n' :: b := by simp
  rw [this, splitOn_append b hn]
  simp

/-- A line at the beginning is one of the lines. -/
theorem marker_head {m : Matcher} {x l : Str} (hx : x ≠ []) (h : MarkerLine m x l) (b : Str) :
    ∃ y ∈ linesOf (l ++ b), lineFits m x y = true := by
  obtain ⟨body, rfl, hn, hf⟩ := h
  refine ⟨strip body, mem_linesOf ?_ (lineFits_ne hx hf), by rw [lineFits_strip]; exact hf⟩
  have : body ++ ['\n'] ++ b = body ++ '\n' :: b := by simp
  rw [this, splitOn_append b hn]
  simp

/-- `sendCommands` waits for something. -/
def Waiting (s : Script) (ch : Chan) : Prop :=
  ch.last = s.last ∧ ch.started = true ∧ ch.closed = false ∧
    ∃ pre st, s.steps = pre ++ st :: ch.todo ∧ ch.wait = some st.wait ∧ ch.sent = (pre ++ [st]).flatMap (·.writes)

/-- `sendCommands` has come to its end. -/
def Ended (s : Script) (ch : Chan) : Prop :=
  ch.started = true ∧ ch.closed = true ∧ ch.wait = none ∧ ch.sent = s.text

theorem Waiting.fire {s : Script} (hw : ∀ st ∈ s.steps, st.writes ≠ []) {ch : Chan} (h : Waiting s ch) :
    ch.fire.buf = ch.buf ∧ ch.sent.length ≤ ch.fire.sent.length ∧
      ((Waiting s ch.fire ∧ ch.sent.length < ch.fire.sent.length) ∨ Ended s ch.fire) := by
  obtain ⟨hl, hs, hc, pre, st, he, hwt, hsent⟩ := h
  unfold Chan.fire Chan.resume
  cases ht : ch.todo with
  | nil =>
    dsimp only
    rw [ht] at he
    exact ⟨rfl, by simp, .inr ⟨hs, rfl, rfl, by simp only [Script.text, he, hsent, hl]⟩⟩
  | cons st' t =>
    dsimp only
    rw [ht] at he
    have hw' := List.length_pos_iff.mpr (hw st' (by simp [he]))
    refine ⟨rfl, by simp, .inl ⟨⟨hl, hs, hc, pre ++ [st], st', ?_, rfl, ?_⟩, ?_⟩⟩
    · simp [he]
    · simp [hsent]
    · simp only [List.length_append]; omega

theorem Ended.foldl {s : Script} {m : Matcher} (ls : List Str) {ch : Chan} (h : Ended s ch) : ls.foldl (Chan.matchLine m) ch = ch := by
  induction ls with
  | nil => rfl
  | cons l ls ih =>
    have : ch.matchLine m l = ch := by unfold Chan.matchLine; simp [h.2.2.1]
    rw [List.foldl_cons, this, ih]

/-- What a number of lines does to a session that waits. -/
theorem Waiting.foldl {s : Script} (hw : ∀ st ∈ s.steps, st.writes ≠ []) (m : Matcher) (ls : List Str) : ∀ {ch : Chan}, Waiting s ch →
    (ls.foldl (Chan.matchLine m) ch).buf = ch.buf ∧ ch.sent.length ≤ (ls.foldl (Chan.matchLine m) ch).sent.length ∧
    ((Waiting s (ls.foldl (Chan.matchLine m) ch) ∧
        (ch.sent.length < (ls.foldl (Chan.matchLine m) ch).sent.length ∨
          (ls.foldl (Chan.matchLine m) ch = ch ∧ ∀ x, ch.wait = some x → x ≠ [] → ∀ l ∈ ls, lineFits m x l = false))) ∨
      Ended s (ls.foldl (Chan.matchLine m) ch)) := by
  induction ls with
  | nil => intro ch h; exact ⟨rfl, by simp, .inl ⟨h, .inr ⟨rfl, by simp⟩⟩⟩
  | cons l ls ih =>
    intro ch h
    have ⟨_, _, _, pre, st, _, hwt, _⟩ := h
    by_cases hf : st.wait ≠ [] ∧ lineFits m st.wait l = true
    · have hm : ch.matchLine m l = ch.fire := by unfold Chan.matchLine; rw [hwt]; simp only; rw [if_pos hf]
      rw [List.foldl_cons, hm]
      obtain ⟨hb, hle, ⟨h1, h2⟩ | h1⟩ := h.fire hw
      · obtain ⟨hb', hle', h'⟩ := ih h1
        refine ⟨hb'.trans hb, by omega, ?_⟩
        rcases h' with ⟨h3, _⟩ | h3
        · exact .inl ⟨h3, .inl (by omega)⟩
        · exact .inr h3
      · rw [h1.foldl]
        exact ⟨hb, hle, .inr h1⟩
    · have hm : ch.matchLine m l = ch := by unfold Chan.matchLine; rw [hwt]; simp only; rw [if_neg hf]
      rw [List.foldl_cons, hm]
      obtain ⟨hb, hle, h'⟩ := ih h
      refine ⟨hb, hle, ?_⟩
      rcases h' with ⟨h3, h4 | ⟨h4, h5⟩⟩ | h3
      · exact .inl ⟨h3, .inl h4⟩
      · refine .inl ⟨h3, .inr ⟨h4, fun x hx hne l' hl' => ?_⟩⟩
        rcases List.mem_cons.mp hl' with rfl | hl'
        · have : st.wait = x := by rw [hwt] at hx; exact Option.some.inj hx
          subst this
          cases h6 : lineFits m st.wait l' with
          | false => rfl
          | true => exact absurd ⟨hne, h6⟩ hf
        · exact h5 x hx hne l' hl'
      · exact .inr h3

/-- The answer to the last text of the step `st` has, after the end of some line, the line that is awaited. -/
def AnswersLine (m : Matcher) (dev : Dev) (pre : List Step) (st : Step) : Prop :=
  ∃ a r l b, dev (((pre ++ [st]).flatMap (·.writes)).length - 1) = a ++ (r ++ ['\n']) :: l :: b ∧ MarkerLine m st.wait l

/-- The line that is awaited has not arrived. -/
def Ahead (m : Matcher) (x : Str) (buf : Str) (out : List Str) : Prop :=
  (∃ a r l b, out = a ++ (r ++ ['\n']) :: l :: b ∧ MarkerLine m x l) ∨ (buf = [] ∧ ∃ l b, out = l :: b ∧ MarkerLine m x l)

theorem Ahead.more {m : Matcher} {x buf : Str} {out : List Str} (h : Ahead m x buf out) (o : List Str) : Ahead m x buf (out ++ o) := by
  rcases h with ⟨a, r, l, b, rfl, hl⟩ | ⟨hb, l, b, rfl, hl⟩
  · exact .inl ⟨a, r, l, b ++ o, by simp, hl⟩
  · exact .inr ⟨hb, l, b ++ o, by simp, hl⟩

theorem take_drop_cons {α} (a : List α) (x : α) (b : List α) (n : Nat) :
    (n ≤ a.length ∧ ∃ a1 a2, a = a1 ++ a2 ∧ (a ++ x :: b).take n = a1 ∧ (a ++ x :: b).drop n = a2 ++ x :: b) ∨
    (∃ b1 b2, b = b1 ++ b2 ∧ (a ++ x :: b).take n = a ++ x :: b1 ∧ (a ++ x :: b).drop n = b2) := by
  by_cases h : n ≤ a.length
  · refine .inl ⟨h, a.take n, a.drop n, (List.take_append_drop n a).symm, ?_, ?_⟩
    · rw [List.take_append_of_le_length h]
    · rw [List.drop_append_of_le_length h]
  · refine .inr ⟨b.take (n - a.length - 1), b.drop (n - a.length - 1), (List.take_append_drop _ b).symm, ?_, ?_⟩
    · rw [List.take_append, List.take_of_length_le (by omega)]
      congr 1
      obtain ⟨k, hk⟩ : ∃ k, n - a.length = k + 1 := ⟨n - a.length - 1, by omega⟩
      rw [hk]
      simp
    · rw [List.drop_append, List.drop_eq_nil_of_le (by omega)]
      obtain ⟨k, hk⟩ : ∃ k, n - a.length = k + 1 := ⟨n - a.length - 1, by omega⟩
      rw [hk]
      simp

/-- What a packet does to a line that is ahead: either it is still ahead, or it is among the lines that are looked at. -/
theorem Ahead.deliver {m : Matcher} {x buf : Str} {out : List Str} (hx : x ≠ []) (h : Ahead m x buf out) (n : Nat)
    (hd : (out.take n).flatten ≠ []) :
    (Ahead m x (if '\n' ∈ (out.take n).flatten then [] else buf ++ (out.take n).flatten) (out.drop n)) ∨
    ('\n' ∈ (out.take n).flatten ∧ ∃ y ∈ linesOf (buf ++ (out.take n).flatten), lineFits m x y = true) := by
  rcases h with ⟨a, r, l, b, rfl, hl⟩ | ⟨hb, l, b, rfl, hl⟩
  · rcases take_drop_cons a (r ++ ['\n']) (l :: b) n with ⟨_, a1, a2, rfl, h1, h2⟩ | ⟨b1, b2, hb, h1, h2⟩
    · rw [h1, h2]
      exact .inl (.inl ⟨a2, r, l, b, rfl, hl⟩)
    · rw [h1, h2]
      have hnl : '\n' ∈ (a ++ (r ++ ['\n']) :: b1).flatten := by simp
      rw [if_pos hnl]
      cases b1 with
      | nil =>
        refine .inl (.inr ⟨rfl, l, b, ?_, hl⟩)
        simpa using hb.symm
      | cons l' b1 =>
        cases hb
        refine .inr ⟨hnl, ?_⟩
        have : buf ++ (a ++ (r ++ ['\n']) :: l :: b1).flatten = (buf ++ a.flatten ++ r) ++ '\n' :: (l ++ b1.flatten) := by
          simp
        rw [this]
        exact marker_mid hx hl _ _
  · subst hb
    cases n with
    | zero => simp at hd
    | succ n =>
      simp only [List.take_succ_cons, List.flatten_cons, List.nil_append, List.drop_succ_cons]
      refine .inr ⟨?_, marker_head hx hl _⟩
      obtain ⟨body, rfl, _⟩ := hl
      simp

/-- What keeps a session that waits for lines from being stuck. -/
def LiveLine (s : Script) (m : Matcher) (w : World) : Prop :=
  w.answered ≤ w.ch.sent.length ∧
  ((w.ch.last = s.last ∧ w.ch.started = false ∧ w.ch.closed = false ∧ w.ch.wait = none ∧ w.ch.todo = s.steps ∧ w.ch.sent = []) ∨
   (Waiting s w.ch ∧ (w.answered < w.ch.sent.length ∨ ∀ x, w.ch.wait = some x → Ahead m x w.ch.buf w.out)) ∨
   Ended s w.ch)

theorem foldl_none {m : Matcher} (ls : List Str) {ch : Chan} (h : ch.wait = none) : ls.foldl (Chan.matchLine m) ch = ch := by
  induction ls with
  | nil => rfl
  | cons l ls ih =>
    have : ch.matchLine m l = ch := by unfold Chan.matchLine; simp [h]
    rw [List.foldl_cons, this, ih]

/-- `dataReceived` when nothing is awaited. -/
theorem received_none {m : Matcher} {ch : Chan} (h : ch.wait = none) (d : Str) : ∃ b, ch.received m d = { ch with buf := b } := by
  unfold Chan.received
  split
  · exact ⟨ch.buf, rfl⟩
  · cases m with
    | data => simp only [h]; exact ⟨_, rfl⟩
    | lineIs => dsimp only; split; exact ⟨[], foldl_none _ h⟩; exact ⟨_, rfl⟩
    | lineHas => dsimp only; split; exact ⟨[], foldl_none _ h⟩; exact ⟨_, rfl⟩

theorem LiveLine.step {s : Script} (hne : s.steps ≠ []) {dev : Dev} {p : Proto} (hm : p.matcher ≠ .data)
    (hw : ∀ st ∈ s.steps, st.writes ≠ [] ∧ st.wait ≠ [])
    (hp : ∀ pre st post, s.steps = pre ++ st :: post → AnswersLine p.matcher dev pre st)
    {w : World} (h : LiveLine s p.matcher w) {ev : Ev} (hev : ev ≠ .timeout) : LiveLine s p.matcher (w.step p p.buffer dev ev) := by
  have hw1 : ∀ st ∈ s.steps, st.writes ≠ [] := fun st h => (hw st h).1
  obtain ⟨ha, h⟩ := h
  cases ev with
  | timeout => exact absurd rfl hev
  | shell =>
    simp only [World.step]
    split
    · exact ⟨ha, h⟩
    · rename_i hs
      rcases h with ⟨hl, _, hc, hn, htd, hsent⟩ | ⟨⟨_, hs', _⟩, _⟩ | ⟨hs', _⟩
      · unfold Chan.resume
        cases hst : s.steps with
        | nil => exact absurd hst hne
        | cons st t =>
          simp only [htd, hst]
          have hpos := List.length_pos_iff.mpr (hw1 st (by simp [hst]))
          have ha0 : w.answered = 0 := by simp [hsent] at ha; exact ha
          have hlt : w.answered < (w.ch.sent ++ st.writes).length := by simp [hsent]; omega
          exact ⟨by dsimp only; omega, .inr (.inl ⟨⟨hl, rfl, hc, [], st, by simp [hst], rfl, by simp [hsent]⟩, .inl hlt⟩)⟩
      · exact absurd hs' hs
      · exact absurd hs' hs
  | answer =>
    simp only [World.step]
    split
    · rename_i hlt
      refine ⟨by dsimp only; omega, ?_⟩
      rcases h with ⟨_, _, _, _, _, hsent⟩ | ⟨hwt, hor⟩ | hend
      · simp [hsent] at hlt
      · refine .inr (.inl ⟨hwt, ?_⟩)
        dsimp only
        by_cases hlast : w.answered + 1 < w.ch.sent.length
        · exact .inl hlast
        · right
          intro x hx
          have ⟨_, _, _, pre, st, he, hwait, hsent⟩ := hwt
          have : st.wait = x := by rw [hwait] at hx; exact Option.some.inj hx
          subst this
          obtain ⟨a, r, l, b, hdev, hl⟩ := hp pre st _ he
          have hidx : ((pre ++ [st]).flatMap (·.writes)).length - 1 = w.answered := by rw [← hsent]; omega
          rw [hidx] at hdev
          exact .inl ⟨w.out ++ a, r, l, b, by simp [hdev], hl⟩
      · exact .inr (.inr hend)
    · exact ⟨ha, h⟩
  | deliver n =>
    simp only [World.step, if_true]
    by_cases hd : (w.out.take n).flatten = []
    · rw [if_pos hd]
      refine ⟨ha, ?_⟩
      rcases h with h | ⟨hwt, hor⟩ | hend
      · exact .inl h
      · refine .inr (.inl ⟨hwt, ?_⟩)
        rcases hor with hor | hor
        · exact .inl hor
        · right
          intro x hx
          dsimp only
          rcases hor x hx with ⟨a, r, l, b, ho, hl⟩ | ⟨hb, l, b, ho, hl⟩
          · rw [ho] at hd ⊢
            rcases take_drop_cons a (r ++ ['\n']) (l :: b) n with ⟨_, a1, a2, _, _, h2⟩ | ⟨b1, b2, _, h1, _⟩
            · exact .inl ⟨a2, r, l, b, h2, hl⟩
            · rw [h1] at hd; simp at hd
          · rw [ho] at hd ⊢
            cases n with
            | zero => exact .inr ⟨hb, l, b, rfl, hl⟩
            | succ n =>
              obtain ⟨body, rfl, _⟩ := hl
              simp at hd
      · exact .inr (.inr hend)
    · rw [if_neg hd]
      rcases h with ⟨hl, hs, hc, hn, htd, hsent⟩ | ⟨hwt, hor⟩ | hend
      · obtain ⟨b, hb⟩ := received_none (m := p.matcher) hn (w.out.take n).flatten
        rw [hb]
        exact ⟨ha, .inl ⟨hl, hs, hc, hn, htd, hsent⟩⟩
      · generalize hdd : (w.out.take n).flatten = d at hd ⊢
        have hrec : w.ch.received p.matcher d =
            if '\n' ∈ d then (linesOf (w.ch.buf ++ d)).foldl (Chan.matchLine p.matcher) { w.ch with buf := [] }
            else { w.ch with buf := w.ch.buf ++ d } := by
          unfold Chan.received
          rw [if_neg hd]
          cases hmm : p.matcher with
          | data => exact absurd hmm hm
          | lineIs => rfl
          | lineHas => rfl
        rw [hrec]
        have ⟨_, _, _, pre, st, he, hwait, hsent⟩ := hwt
        have hxne : st.wait ≠ [] := (hw st (by simp [he])).2
        by_cases hnl : '\n' ∈ d
        · rw [if_pos hnl]
          obtain ⟨hbuf, hle, h3⟩ := Waiting.foldl hw1 p.matcher (linesOf (w.ch.buf ++ d)) (ch := { w.ch with buf := [] }) hwt
          refine ⟨by dsimp only; dsimp only at hle; omega, ?_⟩
          rcases h3 with ⟨h4, h5 | ⟨h5, h6⟩⟩ | h4
          · refine .inr (.inl ⟨h4, .inl ?_⟩)
            dsimp only at h5 ⊢
            omega
          · rw [h5]
            refine .inr (.inl ⟨hwt, ?_⟩)
            rcases hor with hor | hor
            · exact .inl hor
            · right
              intro x hx
              have hxx : st.wait = x := by rw [hwait] at hx; exact Option.some.inj hx
              subst hxx
              have hdl := (hor st.wait hwait).deliver hxne n (by rw [hdd]; exact hd)
              rw [hdd, if_pos hnl] at hdl
              rcases hdl with hdl | ⟨_, y, hy, hf⟩
              · exact hdl
              · rw [h6 st.wait hwait hxne y hy] at hf
                exact absurd hf (by simp)
          · exact .inr (.inr h4)
        · rw [if_neg hnl]
          refine ⟨ha, .inr (.inl ⟨hwt, ?_⟩)⟩
          rcases hor with hor | hor
          · exact .inl hor
          · right
            intro x hx
            have hxx : st.wait = x := by rw [hwait] at hx; exact Option.some.inj hx
            subst hxx
            have hdl := (hor st.wait hwait).deliver hxne n (by rw [hdd]; exact hd)
            rw [hdd, if_neg hnl] at hdl
            rcases hdl with hdl | ⟨h7, _⟩
            · exact hdl
            · exact absurd h7 hnl
      · obtain ⟨b, hb⟩ := received_none (m := p.matcher) hend.2.2.1 (w.out.take n).flatten
        rw [hb]
        exact ⟨ha, .inr (.inr hend)⟩

end OpenNSA.Ssh
