import Verif.Ssh.Model
import Verif.PyLemmas

namespace OpenNSA.Ssh
open Py

/-- All that a script writes, in order. -/
def Script.text (s : Script) : List Str := s.steps.flatMap (·.writes) ++ s.last

/-- Nothing more can happen: the shell was granted, all packets have arrived, and the device has answered everything. -/
def Quiet (w : World) : Prop := w.ch.started = true ∧ w.out.flatten = [] ∧ w.answered = w.ch.sent.length

theorem has_single (c : Char) (s : Str) : has [c] s = true ↔ c ∈ s := by
  induction s with
  | nil => simp [has]
  | cons d s ih =>
    simp only [has, Bool.or_eq_true, ih, List.mem_cons, List.isPrefixOf_iff_prefix]
    constructor
    · rintro (h | h)
      · exact .inl (List.cons_prefix_cons.mp h).1
      · exact .inr h
    · rintro (h | h)
      · exact .inl (List.cons_prefix_cons.mpr ⟨h, List.nil_prefix⟩)
      · exact .inr h

theorem has_append (w b : Str) : ∀ a : Str, has w (a ++ (w ++ b)) = true
  | [] => by
    cases w with
    | nil => cases b <;> simp [has]
    | cons c w =>
      simp only [List.nil_append, List.cons_append, has, Bool.or_eq_true]
      left
      rw [List.isPrefixOf_iff_prefix]
      exact ⟨b, by simp⟩
  | x :: a => by
    simp only [List.cons_append, has, Bool.or_eq_true]
    exact Or.inr (has_append w b a)

/-- Where `sendCommands` can be. -/
def Place (s : Script) (ch : Chan) : Prop :=
  ch.last = s.last ∧
  ((ch.started = false ∧ ch.closed = false ∧ ch.wait = none ∧ ch.todo = s.steps ∧ ch.sent = []) ∨
   (ch.started = true ∧ ch.closed = false ∧ ∃ pre st, s.steps = pre ++ st :: ch.todo ∧ (ch.wait = some st.wait ∨ ch.wait = none) ∧
      ch.sent = (pre ++ [st]).flatMap (·.writes)) ∨
   (ch.started = true ∧ ch.closed = true ∧ ch.wait = none ∧ ch.todo = [] ∧ ch.sent = s.text))

theorem Place.fire {s : Script} {ch : Chan} (h : Place s ch) {w : Str} (hw : ch.wait = some w) :
    Place s ch.fire ∧ ch.fire.started = true ∧ ch.fire.buf = ch.buf := by
  obtain ⟨hl, ⟨_, _, hn, _⟩ | ⟨hs, hc, pre, st, he, _, hsent⟩ | ⟨_, _, hn, _⟩⟩ := h
  · simp [hn] at hw
  · unfold Chan.fire Chan.resume
    cases ht : ch.todo with
    | nil =>
      rw [ht] at he
      dsimp only
      exact ⟨⟨hl, .inr (.inr ⟨hs, rfl, rfl, rfl, by simp only [Script.text, he, hsent, hl]⟩)⟩, hs, rfl⟩
    | cons s' t' =>
      rw [ht] at he
      dsimp only
      refine ⟨⟨hl, .inr (.inl ⟨hs, hc, pre ++ [st], s', ?_, .inl rfl, ?_⟩)⟩, hs, rfl⟩
      · simp [he]
      · simp [hsent]
  · simp [hn] at hw

theorem Place.buf {s : Script} {ch : Chan} (h : Place s ch) (b : Str) : Place s { ch with buf := b } := h

theorem Place.matchLine {s : Script} {m : Matcher} {ch : Chan} (h : Place s ch) (l : Str) : Place s (ch.matchLine m l) := by
  unfold Chan.matchLine
  split
  · rename_i w hw
    split
    · exact (h.fire hw).1
    · exact h
  · exact h

theorem Place.foldl {s : Script} {m : Matcher} (ls : List Str) : ∀ {ch : Chan}, Place s ch → Place s (ls.foldl (Chan.matchLine m) ch) := by
  induction ls with
  | nil => intro ch h; exact h
  | cons l ls ih => intro ch h; exact ih (h.matchLine l)

theorem Place.received {s : Script} {m : Matcher} {ch : Chan} (h : Place s ch) (d : Str) : Place s (ch.received m d) := by
  unfold Chan.received
  split
  · exact h
  · cases m with
    | data =>
      dsimp only
      split
      · rename_i w hw
        split
        · exact (Place.fire (h.buf []) (w := w) hw).1
        · exact h
      · exact h
    | lineIs => dsimp only; split; exact Place.foldl _ (h.buf []); exact h
    | lineHas => dsimp only; split; exact Place.foldl _ (h.buf []); exact h

theorem Place.step {s : Script} (hne : s.steps ≠ []) {p : Proto} {arrive : Kind} {dev : Dev} {w : World} (h : Place s w.ch) (ev : Ev) :
    Place s (w.step p arrive dev ev).ch := by
  cases ev with
  | shell =>
    simp only [World.step]
    split
    · exact h
    · rename_i hs
      obtain ⟨hl, ⟨_, hc, hn, ht, hsent⟩ | ⟨hs', _⟩ | ⟨hs', _⟩⟩ := h
      · unfold Chan.resume
        cases hst : s.steps with
        | nil => exact absurd hst hne
        | cons st t =>
          simp only [ht, hst]
          exact ⟨hl, .inr (.inl ⟨rfl, hc, [], st, by simp [hst], .inl rfl, by simp [hsent]⟩)⟩
      · exact absurd hs' hs
      · exact absurd hs' hs
  | answer => simp only [World.step]; split <;> exact h
  | deliver n =>
    simp only [World.step]
    split
    · exact h
    · split
      · exact h.received _
      · exact h
  | timeout =>
    simp only [World.step]
    split
    · unfold Chan.waitTimeout
      obtain ⟨hl, ⟨hs, hc, hn, ht, hsent⟩ | ⟨hs, hc, pre, st, he, _, hsent⟩ | ⟨hs, hc, hn, ht, hsent⟩⟩ := h
      · exact ⟨hl, .inl ⟨hs, hc, rfl, ht, hsent⟩⟩
      · exact ⟨hl, .inr (.inl ⟨hs, hc, pre, st, he, .inr rfl, hsent⟩)⟩
      · exact ⟨hl, .inr (.inr ⟨hs, hc, rfl, ht, hsent⟩)⟩
    · exact h

theorem Place.run {s : Script} (hne : s.steps ≠ []) {p : Proto} {arrive : Kind} {dev : Dev} (evs : List Ev) :
    ∀ {w : World}, Place s w.ch → Place s (w.run p arrive dev evs).ch := by
  induction evs with
  | nil => intro w h; exact h
  | cons e evs ih => intro w h; exact ih (h.step hne e)

theorem Place.begin (s : Script) (banner : List Str) : Place s (s.begin banner).ch :=
  ⟨rfl, .inl ⟨rfl, rfl, rfl, rfl, rfl⟩⟩

/-! ### Waiting for data -/

/-- The device prompts for the step `st` that follows the steps `pre`: the answer to the last text of the step has the character
that is awaited. At the beginning the banner can have it, too. -/
def PromptsStep (banner : List Str) (dev : Dev) (pre : List Step) (st : Step) : Prop :=
  ∃ c, st.wait = [c] ∧
    ((st.writes = [] ∧ pre = [] ∧ c ∈ banner.flatten) ∨
     (st.writes ≠ [] ∧ (dev (((pre ++ [st]).flatMap (·.writes)).length - 1)).flatten ≠ [] ∧
        (c ∈ (dev (((pre ++ [st]).flatMap (·.writes)).length - 1)).flatten ∨ (pre = [] ∧ c ∈ banner.flatten))))

/-- What keeps a session that waits for data from being stuck. -/
def Live (s : Script) (banner : List Str) (w : World) : Prop :=
  Place s w.ch ∧ w.answered ≤ w.ch.sent.length ∧
  (w.ch.started = false → w.ch.buf ++ w.out.flatten = banner.flatten) ∧
  (w.ch.started = true → w.ch.closed = false → ∃ pre st, s.steps = pre ++ st :: w.ch.todo ∧ w.ch.wait = some st.wait ∧
      w.ch.sent = (pre ++ [st]).flatMap (·.writes) ∧
      ∀ c, st.wait = [c] →
        (w.answered < w.ch.sent.length ∨ c ∈ w.ch.buf ++ w.out.flatten) ∧
        (c ∈ w.ch.buf → w.answered < w.ch.sent.length ∨ w.out.flatten ≠ []) ∧
        (pre = [] → c ∈ banner.flatten → c ∈ w.ch.buf ++ w.out.flatten))

theorem flatten_take_drop (l : List Str) (n : Nat) : l.flatten = (l.take n).flatten ++ (l.drop n).flatten := by
  rw [← List.flatten_append, List.take_append_drop]

theorem mem_more {c : Char} (b : Str) (o d : List Str) (h : c ∈ b ++ o.flatten) : c ∈ b ++ (o ++ d).flatten := by
  rw [List.flatten_append, ← List.append_assoc]
  exact List.mem_append_left _ h

theorem Live.step {s : Script} (hne : s.steps ≠ []) {banner : List Str} {dev : Dev} {p : Proto} (hm : p.matcher = .data) (ht : p.timed = false)
    (hp : ∀ pre st post, s.steps = pre ++ st :: post → PromptsStep banner dev pre st)
    {w : World} (h : Live s banner w) (ev : Ev)
    (hshell : ev = .shell → w.ch.started = false → (∃ st t, s.steps = st :: t ∧ st.writes ≠ []) ∨ w.ch.buf = []) :
    Live s banner (w.step p p.buffer dev ev) := by
  obtain ⟨hpl, ha, hns, hl⟩ := h
  have hpl' : Place s (w.step p p.buffer dev ev).ch := hpl.step hne ev
  cases ev with
  | shell =>
    simp only [World.step] at hpl' ⊢
    split
    · exact ⟨hpl, ha, hns, hl⟩
    · rename_i hs
      simp only [Bool.not_eq_true] at hs
      rw [if_neg (by simp [hs])] at hpl'
      obtain ⟨hl', ⟨_, hc, hn, htd, hsent⟩ | ⟨hs', _⟩ | ⟨hs', _⟩⟩ := hpl
      · have hsh := hshell rfl hs
        have hbn := hns hs
        have ha0 : w.answered = 0 := by simp [hsent] at ha; exact ha
        unfold Chan.resume at hpl' ⊢
        cases hst : s.steps with
        | nil => exact absurd hst hne
        | cons st t =>
          simp only [htd, hst] at hpl' ⊢
          refine ⟨hpl', by simp [ha0], by simp, fun _ _ => ⟨[], st, by simp [hst], rfl, by simp [hsent], ?_⟩⟩
          intro c hwc
          obtain ⟨c', hw', hor⟩ := hp [] st t (by simp [hst])
          have hcc : c' = c := by rw [hw'] at hwc; simpa using hwc
          subst hcc
          dsimp only
          rw [hbn]
          refine ⟨?_, ?_, fun _ h => h⟩
          · rcases hor with ⟨_, _, hb⟩ | ⟨hw, _⟩
            · exact .inr hb
            · left
              simp [hsent, ha0]
              exact List.length_pos_iff.mpr hw
          · intro hcb
            rcases hsh with ⟨st', t', he, hw⟩ | hb
            · left
              rw [hst] at he
              cases he
              simp [hsent, ha0]
              exact List.length_pos_iff.mpr hw
            · simp [hb] at hcb
      · simp [hs] at hs'
      · simp [hs] at hs'
  | answer =>
    simp only [World.step] at hpl' ⊢
    split
    · rename_i hlt
      refine ⟨hpl, by simp; omega, ?_, ?_⟩
      · intro h1
        have : w.ch.sent = [] := by
          obtain ⟨_, ⟨_, _, _, _, hsent⟩ | ⟨hs', _⟩ | ⟨hs', _⟩⟩ := hpl
          · exact hsent
          · simp at h1; simp [h1] at hs'
          · simp at h1; simp [h1] at hs'
        simp [this] at hlt
      · intro h1 h2
        obtain ⟨pre, st, he, hw, hsent, hc⟩ := hl h1 h2
        refine ⟨pre, st, he, hw, hsent, fun c hwc => ?_⟩
        obtain ⟨hc1, hc2, hc3⟩ := hc c hwc
        obtain ⟨c', hw', hor⟩ := hp pre st _ he
        have hcc : c' = c := by rw [hw'] at hwc; simpa using hwc
        subst hcc
        dsimp only
        by_cases hlast : w.answered + 1 < w.ch.sent.length
        · exact ⟨.inl hlast, fun _ => .inl hlast, fun a b => mem_more _ _ _ (hc3 a b)⟩
        · have hidx : w.answered = ((pre ++ [st]).flatMap (·.writes)).length - 1 := by rw [← hsent]; omega
          rcases hor with ⟨h3, h4, _⟩ | ⟨_, h5, h6⟩
          · exfalso
            rw [hsent] at hlt
            simp [h3, h4] at hlt
          · rw [← hidx] at h5 h6
            refine ⟨.inr ?_, fun _ => .inr ?_, fun a b => ?_⟩
            · rcases h6 with h6 | ⟨h6, h7⟩
              · simp only [List.flatten_append, List.mem_append]; exact .inr (.inr h6)
              · exact mem_more _ _ _ (hc3 h6 h7)
            · rw [List.flatten_append]
              intro hh
              exact h5 (List.append_eq_nil_iff.mp hh).2
            · exact mem_more _ _ _ (hc3 a b)
    · exact ⟨hpl, ha, hns, hl⟩
  | deliver n =>
    have hfl := flatten_take_drop w.out n
    simp only [World.step, if_true] at hpl' ⊢
    by_cases hd : (w.out.take n).flatten = []
    · rw [hd, List.nil_append] at hfl
      rw [if_pos hd]
      simp only [hfl] at hns hl
      exact ⟨hpl, ha, hns, hl⟩
    · rw [if_neg hd] at hpl' ⊢
      generalize hdd : (w.out.take n).flatten = d at hd hfl hpl' ⊢
      unfold Chan.received at hpl' ⊢
      rw [if_neg hd, hm] at hpl' ⊢
      dsimp only at hpl' ⊢
      cases hwt : w.ch.wait with
      | none =>
        simp only [hwt] at hpl' ⊢
        refine ⟨hpl', ha, fun h1 => ?_, fun h1 h2 => ?_⟩
        · have := hns h1
          rw [hfl] at this
          simpa using this
        · obtain ⟨pre, st, _, hw, _⟩ := hl h1 h2
          simp [hwt] at hw
      | some x =>
        simp only [hwt] at hpl' ⊢
        have hst : w.ch.started = true ∧ w.ch.closed = false := by
          obtain ⟨_, ⟨_, _, h2, _⟩ | ⟨h2, h3, _⟩ | ⟨_, _, h2, _⟩⟩ := hpl
          · simp [hwt] at h2
          · exact ⟨h2, h3⟩
          · simp [hwt] at h2
        obtain ⟨pre, st, he, hw, hsent, hc⟩ := hl hst.1 hst.2
        obtain ⟨c, hwc, _⟩ := hp pre st _ he
        have hxc : x = [c] := by rw [hwt] at hw; rw [← hwc]; exact Option.some.inj hw
        subst hxc
        obtain ⟨hc1, hc2, hc3⟩ := hc c hwc
        by_cases hin : c ∈ w.ch.buf ++ d
        · have hcond : ([c] : Str) ≠ [] ∧ has [c] (w.ch.buf ++ d) = true := ⟨by simp, (has_single _ _).mpr hin⟩
          rw [if_pos hcond] at hpl' ⊢
          unfold Chan.fire Chan.resume at hpl' ⊢
          cases htd : w.ch.todo with
          | nil =>
            simp only [htd] at hpl' ⊢
            refine ⟨hpl', by simp; omega, by simp [hst.1], by simp⟩
          | cons st' t' =>
            simp only [htd] at hpl' ⊢
            rw [htd] at he
            obtain ⟨c', hw', hor⟩ := hp (pre ++ [st]) st' t' (by simp [he])
            have hwr : st'.writes ≠ [] := by
              rcases hor with ⟨_, h1, _⟩ | ⟨h1, _⟩
              · simp at h1
              · exact h1
            have hlt : w.answered < (w.ch.sent ++ st'.writes).length := by
              have := List.length_pos_iff.mpr hwr
              simp only [List.length_append]
              omega
            refine ⟨hpl', by dsimp only; omega, by simp [hst.1], fun _ _ => ⟨pre ++ [st], st', by simp [he], rfl, by simp [hsent, List.flatMap_append], ?_⟩⟩
            intro c'' _
            refine ⟨.inl hlt, fun _ => .inl hlt, fun h => by simp at h⟩
        · have hcond : ¬(([c] : Str) ≠ [] ∧ has [c] (w.ch.buf ++ d) = true) := by
            rintro ⟨_, h⟩
            exact hin ((has_single _ _).mp h)
          rw [if_neg hcond] at hpl' ⊢
          refine ⟨hpl', ha, fun h => by simp [hst.1] at h, fun _ _ => ⟨pre, st, he, hwc.symm ▸ rfl, hsent, ?_⟩⟩
          intro c'' hwc''
          have hcc : c = c'' := by rw [hwc] at hwc''; simpa using hwc''
          subst hcc
          dsimp only
          rw [hfl] at hc1 hc3
          refine ⟨by simpa using hc1, fun h => absurd h hin, fun a b => by simpa using hc3 a b⟩
  | timeout => simp only [World.step, ht]; simp; exact ⟨hpl, ha, hns, hl⟩

end OpenNSA.Ssh
