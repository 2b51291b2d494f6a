import Verif.Ssh.Lines
import Verif.Ssh.PropsData

namespace OpenNSA.Ssh
open Py

/-- The pieces have, after the end of some line, a complete line in which the channel finds `x`. -/
def HasLine (m : Matcher) (x : Str) (pieces : List Str) : Prop :=
  ∃ a r l b, pieces = a ++ (r ++ ['\n']) :: l :: b ∧ MarkerLine m x l

theorem junos_steps {configure entered edit : Str} {cmds : List Str} {pre post : List Step} {st : Step}
    (he : (junosScript configure entered edit cmds).steps = pre ++ st :: post) :
    st.writes.length = 1 ∧ ((pre ++ [st]).flatMap (·.writes)).length = pre.length + 1 ∧
    ((pre.length = 0 ∧ st.wait = entered) ∨ (1 ≤ pre.length ∧ pre.length ≤ cmds.length ∧ st.wait = edit) ∨
      (pre.length = cmds.length + 1 ∧ st.wait = "commit complete".toList)) := by
  have hw1 : ∀ x ∈ (junosScript configure entered edit cmds).steps, x.writes.length = 1 := by
    intro x hx
    simp only [junosScript, List.cons_append, List.nil_append, List.mem_cons, List.mem_append, List.mem_map, List.not_mem_nil,
      or_false] at hx
    rcases hx with h | ⟨c, _, h⟩ | h
    · rw [h]; rfl
    · rw [← h]; rfl
    · rw [h]; rfl
  have hst : st.writes.length = 1 := hw1 st (by rw [he]; simp)
  have hlen : ∀ l : List Step, (∀ x ∈ l, x.writes.length = 1) → (l.flatMap (·.writes)).length = l.length := by
    intro l
    induction l with
    | nil => simp
    | cons x l ih =>
      intro h
      simp only [List.flatMap_cons, List.length_append, List.length_cons]
      rw [h x (by simp), ih (fun y hy => h y (by simp [hy]))]
      omega
  have hpre : ((pre ++ [st]).flatMap (·.writes)).length = pre.length + 1 := by
    rw [hlen]
    · simp
    · intro x hx
      apply hw1
      rw [he]
      simp only [List.mem_append, List.mem_cons, List.not_mem_nil, or_false] at hx ⊢
      rcases hx with h | h
      · exact .inl h
      · exact .inr (.inl h)
  refine ⟨hst, hpre, ?_⟩
  have hget : (junosScript configure entered edit cmds).steps[pre.length]? = some st := by
    rw [he, List.getElem?_append_right (by omega)]
    simp
  simp only [junosScript, List.cons_append, List.nil_append] at hget
  cases hk : pre.length with
  | zero =>
    rw [hk] at hget
    simp only [List.getElem?_cons_zero, Option.some.injEq] at hget
    exact .inl ⟨rfl, by rw [← hget]⟩
  | succ k =>
    rw [hk] at hget
    simp only [List.getElem?_cons_succ] at hget
    by_cases hlt : k < cmds.length
    · rw [List.getElem?_append_left (by simpa using hlt)] at hget
      simp only [List.getElem?_map, Option.map_eq_some_iff] at hget
      obtain ⟨c, _, hc⟩ := hget
      exact .inr (.inl ⟨by omega, by omega, by rw [← hc]⟩)
    · rw [List.getElem?_append_right (by simpa using hlt)] at hget
      simp only [List.length_map] at hget
      have hz : k - cmds.length = 0 := by
        cases h : k - cmds.length with
        | zero => rfl
        | succ j => rw [h] at hget; simp at hget
      rw [hz] at hget
      simp only [List.getElem?_cons_zero, Option.some.injEq] at hget
      exact .inr (.inr ⟨by omega, by rw [← hget]⟩)

theorem LiveLine.run {s : Script} (hne : s.steps ≠ []) {dev : Dev} {p : Proto} (hm : p.matcher ≠ .data)
    (hw : ∀ st ∈ s.steps, st.writes ≠ [] ∧ st.wait ≠ [])
    (hp : ∀ pre st post, s.steps = pre ++ st :: post → AnswersLine p.matcher dev pre st) (evs : List Ev) (hev : Ev.timeout ∉ evs) :
    ∀ {w : World}, LiveLine s p.matcher w → LiveLine s p.matcher (w.run p p.buffer dev evs) := by
  induction evs with
  | nil => intro w h; exact h
  | cons e evs ih =>
    intro w h
    simp only [List.mem_cons, not_or] at hev
    exact ih hev.2 (h.step hne hm hw hp (fun he => hev.1 he.symm))

/-- C72, the four JunOS channels: if the router answers every command with the line that is awaited, and this line and the end of
the line before it are not cut (the pieces are what is not cut), then, when nothing more can happen, the session has ended and has
written everything. Missing: see `C72_cut_fails`, `C72_timeout_fails`. -/
theorem C72_lines_partial (p : Proto) (hp : p = junosmx ∨ p = junosex ∨ p = juniperex ∨ p = vpls) (configure entered edit : Str)
    (hen : entered ≠ []) (hed : edit ≠ []) (cmds : List Str) (banner : List Str) (dev : Dev)
    (h0 : HasLine p.matcher entered (dev 0))
    (hd : ∀ k, 1 ≤ k → k ≤ cmds.length → HasLine p.matcher edit (dev k))
    (hc : HasLine p.matcher "commit complete".toList (dev (cmds.length + 1)))
    (evs : List Ev) (hev : Ev.timeout ∉ evs)
    (hq : Quiet (((junosScript configure entered edit cmds).begin banner).run p .text dev evs)) :
    (((junosScript configure entered edit cmds).begin banner).run p .text dev evs).ch.closed = true ∧
    (((junosScript configure entered edit cmds).begin banner).run p .text dev evs).ch.sent
      = (junosScript configure entered edit cmds).text := by
  have hpm : p.matcher ≠ .data ∧ p.buffer = .text := by rcases hp with h | h | h | h <;> subst h <;> simp [junosmx, junosex, juniperex, vpls]
  have hans : ∀ pre st post, (junosScript configure entered edit cmds).steps = pre ++ st :: post → AnswersLine p.matcher dev pre st := by
    intro pre st post he
    obtain ⟨_, hlen, h⟩ := junos_steps he
    unfold AnswersLine
    rw [hlen, Nat.add_sub_cancel]
    rcases h with ⟨hk, hw⟩ | ⟨hk1, hk2, hw⟩ | ⟨hk, hw⟩
    · rw [hw, hk]; exact h0
    · rw [hw]; exact hd _ hk1 hk2
    · rw [hw, hk]; exact hc
  have hw : ∀ st ∈ (junosScript configure entered edit cmds).steps, st.writes ≠ [] ∧ st.wait ≠ [] := by
    intro st hst
    obtain ⟨pre, post, he⟩ := List.append_of_mem hst
    obtain ⟨h1, _, h⟩ := junos_steps he
    refine ⟨by intro h'; simp [h'] at h1, ?_⟩
    rcases h with ⟨_, hw⟩ | ⟨_, _, hw⟩ | ⟨_, hw⟩
    · rw [hw]; exact hen
    · rw [hw]; exact hed
    · rw [hw]; decide
  have hl := LiveLine.run (s := junosScript configure entered edit cmds) (by simp [junosScript]) hpm.1 hw hans evs hev
    (w := (junosScript configure entered edit cmds).begin banner)
    ⟨by simp [Script.begin], .inl ⟨rfl, rfl, rfl, rfl, rfl, rfl⟩⟩
  rw [hpm.2] at hl
  obtain ⟨_, hl⟩ := hl
  obtain ⟨hs, ho, han⟩ := hq
  rcases hl with ⟨_, hns, _⟩ | ⟨hwt, hor⟩ | hend
  · rw [hs] at hns; exact absurd hns (by simp)
  · exfalso
    rcases hor with hor | hor
    · omega
    · obtain ⟨_, _, _, pre, st, _, hwait, _⟩ := hwt
      rcases hor st.wait hwait with ⟨a, r, l, b, h, _⟩ | ⟨_, l, b, h, hm⟩
      · rw [h] at ho; simp at ho
      · rw [h] at ho
        obtain ⟨body, rfl, _⟩ := hm
        simp at ho
  · exact ⟨hend.2.1, hend.2.2.2⟩

/-- A JunOS router: it echoes the text and prints its prompt; after the third text it has committed. -/
def mxDev : Dev := fun n =>
  if n = 2 then ["commit\r\n".toList, "commit complete\r\n".toList, "\r\n".toList, "[edit]\r\n".toList, "me@r# ".toList]
  else ["x\r\n".toList, "\r\n".toList, "[edit]\r\n".toList, "me@r# ".toList]

theorem mxDev_edit (k : Nat) : HasLine .lineIs "[edit]".toList (mxDev k) := by
  unfold mxDev
  split
  · exact ⟨["commit\r\n".toList, "commit complete\r\n".toList], ['\r'], "[edit]\r\n".toList, ["me@r# ".toList], by decide +kernel,
      "[edit]\r".toList, by decide +kernel, by decide +kernel, by decide +kernel⟩
  · exact ⟨["x\r\n".toList], ['\r'], "[edit]\r\n".toList, ["me@r# ".toList], by decide +kernel,
      "[edit]\r".toList, by decide +kernel, by decide +kernel, by decide +kernel⟩

theorem mxDev_commit : HasLine .lineIs "commit complete".toList (mxDev 2) :=
  ⟨[], "commit\r".toList, "commit complete\r\n".toList, ["\r\n".toList, "[edit]\r\n".toList, "me@r# ".toList], by decide +kernel,
    "commit complete\r".toList, by decide +kernel, by decide +kernel, by decide +kernel⟩

/-- The hypotheses of `C72_lines_partial` can be met. -/
example : HasLine junosmx.matcher "[edit]".toList (mxDev 0) ∧
    (∀ k, 1 ≤ k → k ≤ ["set a".toList].length → HasLine junosmx.matcher "[edit]".toList (mxDev k)) ∧
    HasLine junosmx.matcher "commit complete".toList (mxDev (["set a".toList].length + 1)) ∧
    Quiet (((junosmxScript ["set a".toList]).begin ["hello\r\nme@r> ".toList]).run junosmx .text mxDev
      [.shell, .deliver 1, .answer, .deliver 3, .answer, .deliver 2, .deliver 7, .answer, .deliver 2, .deliver 3]) :=
  ⟨mxDev_edit 0, fun k _ _ => mxDev_edit k, mxDev_commit, by simp only [Quiet]; decide +kernel⟩

/-- The same router; the answer to the first text is cut within the line that is awaited. -/
def cutDev : Dev := fun n =>
  if n = 0 then ["x\r\n\r\n[ed".toList, "it]\r\nme@r# ".toList] else mxDev n

/-- C72 is violated by the JunOS channels: two routers print the same; with one of them the session ends, with the other, where the
line `[edit]` comes in two packets, it writes nothing after the first command and never ends. -/
theorem C72_cut_fails : (∀ k, (cutDev k).flatten = (mxDev k).flatten) ∧
    (∃ evs, Quiet (((junosmxScript ["set a".toList]).begin []).run junosmx .text mxDev evs) ∧
      (((junosmxScript ["set a".toList]).begin []).run junosmx .text mxDev evs).ch.closed = true) ∧
    (∃ evs, Quiet (((junosmxScript ["set a".toList]).begin []).run junosmx .text cutDev evs) ∧
      (((junosmxScript ["set a".toList]).begin []).run junosmx .text cutDev evs).ch.closed = false ∧
      (((junosmxScript ["set a".toList]).begin []).run junosmx .text cutDev evs).ch.sent = ["edit private\r".toList]) := by
  refine ⟨fun k => ?_, ⟨[.shell, .answer, .deliver 9, .answer, .deliver 9, .answer, .deliver 9], ?_, ?_⟩,
    ⟨[.shell, .answer, .deliver 1, .deliver 1], ?_, ?_, ?_⟩⟩
  · unfold cutDev
    split
    · rename_i h; subst h; decide +kernel
    · rfl
  · simp only [Quiet]; decide +kernel
  · decide +kernel
  · simp only [Quiet]; decide +kernel
  · decide +kernel
  · decide +kernel

/-! ### What was awaited was printed -/

/-- All that the device has printed after it has answered `n` texts. -/
def printed (banner : List Str) (dev : Dev) : Nat → Str
  | 0 => banner.flatten
  | n + 1 => printed banner dev n ++ (dev n).flatten

theorem has_iff (x : Str) (t : Str) : has x t = true ↔ x <:+: t := by
  induction t with
  | nil => simp [has]
  | cons c t ih => simp only [has, Bool.or_eq_true, ih, List.isPrefixOf_iff_prefix, List.infix_cons_iff]

theorem mem_splitOn_infix {c : Char} {b : Str} : ∀ {t : Str}, b ∈ splitOn c t → b <:+: t
  | [], h => by simp [splitOn] at h; subst h; exact List.infix_rfl
  | x :: t, h => by
    have key : ∀ {t : Str} {b : Str} {bs : List Str}, splitOn c t = b :: bs → b <+: t := by
      intro t
      induction t with
      | nil => intro b bs h; simp [splitOn] at h; rw [h.1]; exact List.nil_prefix
      | cons x t ih =>
        intro b bs h
        simp only [splitOn] at h
        split at h
        · cases h; exact List.nil_prefix
        · split at h
          · rename_i h'; exact absurd h' (splitOn_ne_nil c t)
          · rename_i y ys h'
            cases h
            exact List.cons_prefix_cons.mpr ⟨rfl, ih h'⟩
    simp only [splitOn] at h
    split at h
    · rcases List.mem_cons.mp h with rfl | h
      · exact (List.nil_prefix).isInfix
      · exact (mem_splitOn_infix h).trans (List.suffix_cons x t).isInfix
    · split at h
      · rename_i h'; exact absurd h' (splitOn_ne_nil c t)
      · rename_i y ys h'
        rcases List.mem_cons.mp h with rfl | h
        · exact (List.cons_prefix_cons.mpr ⟨rfl, key h'⟩).isInfix
        · exact (mem_splitOn_infix (by rw [h']; exact List.mem_cons_of_mem _ h)).trans (List.suffix_cons x t).isInfix

theorem strip_infix (s : Str) : strip s <:+: s := by
  unfold strip
  have h1 : (s.dropWhile isSpace) <:+ s := List.dropWhile_suffix _
  have h2 : ((s.dropWhile isSpace).reverse.dropWhile isSpace).reverse <+: s.dropWhile isSpace := by
    have := List.reverse_prefix.mpr (List.dropWhile_suffix isSpace (l := (s.dropWhile isSpace).reverse))
    simpa using this
  exact h2.isInfix.trans h1.isInfix

theorem fits_infix {m : Matcher} {x y t : Str} (hy : y ∈ linesOf t) (hf : lineFits m x y = true) : x <:+: t := by
  unfold linesOf at hy
  obtain ⟨hy, _⟩ := List.mem_filter.mp hy
  obtain ⟨b, hb, rfl⟩ := List.mem_map.mp hy
  have hbt : strip (strip b) <:+: t := by rw [strip_strip]; exact (strip_infix b).trans (mem_splitOn_infix hb)
  cases m with
  | data => simp [lineFits] at hf
  | lineIs => simp only [lineFits, beq_iff_eq] at hf; rw [hf]; exact hbt
  | lineHas => simp only [lineFits] at hf; exact ((has_iff _ _).mp hf).trans hbt

/-- Every wait of the script is still to come, is the present one, or was found in `t`. -/
def Cov (s : Script) (t : Str) (ch : Chan) : Prop :=
  ∀ st ∈ s.steps, st ∈ ch.todo ∨ ch.wait = some st.wait ∨ st.wait <:+: t

theorem Cov.resume {s : Script} {t : Str} {ch : Chan} (h : ∀ st ∈ s.steps, st ∈ ch.todo ∨ st.wait <:+: t) : Cov s t ch.resume := by
  intro st hst
  unfold Chan.resume
  rcases h st hst with h1 | h1
  · cases hto : ch.todo with
    | nil => rw [hto] at h1; simp at h1
    | cons a r =>
      rw [hto] at h1
      rcases List.mem_cons.mp h1 with rfl | h1
      · exact .inr (.inl rfl)
      · exact .inl h1
  · exact .inr (.inr h1)

theorem Cov.fire {s : Script} {t : Str} {ch : Chan} (h : Cov s t ch) {x : Str} (hx : ch.wait = some x) (hin : x <:+: t) :
    Cov s t ch.fire := by
  apply Cov.resume
  intro st hst
  rcases h st hst with h1 | h1 | h1
  · exact .inl h1
  · rw [hx] at h1
    exact .inr (by rw [← Option.some.inj h1]; exact hin)
  · exact .inr h1

theorem Cov.foldl {s : Script} {m : Matcher} {t : Str} (ls : List Str) :
    ∀ {ch : Chan}, Cov s t ch → (∀ x, ∀ l ∈ ls, lineFits m x l = true → x <:+: t) → Cov s t (ls.foldl (Chan.matchLine m) ch) := by
  induction ls with
  | nil => intro ch h _; exact h
  | cons l ls ih =>
    intro ch h hls
    rw [List.foldl_cons]
    refine ih ?_ (fun x l' hl' => hls x l' (List.mem_cons_of_mem _ hl'))
    unfold Chan.matchLine
    split
    · rename_i x hx
      split
      · rename_i hf
        exact h.fire hx (hls x l List.mem_cons_self hf.2)
      · exact h
    · exact h

theorem Cov.mono {s : Script} {t t' : Str} {ch : Chan} (h : Cov s t ch) (ht : t <:+: t') : Cov s t' ch := by
  intro st hst
  rcases h st hst with h1 | h1 | h1
  · exact .inl h1
  · exact .inr (.inl h1)
  · exact .inr (.inr (h1.trans ht))

theorem Cov.received {s : Script} {m : Matcher} {t : Str} {ch : Chan} (h : Cov s t ch) (d : Str) (ht : ch.buf ++ d <:+: t) :
    Cov s t (ch.received m d) := by
  unfold Chan.received
  split
  · exact h
  · cases m with
    | data =>
      dsimp only
      split
      · rename_i x hx
        split
        · rename_i hf
          exact Cov.fire (ch := { ch with buf := [] }) h hx (((has_iff _ _).mp hf.2).trans ht)
        · exact h
      · exact h
    | lineIs =>
      dsimp only
      split
      · exact Cov.foldl _ (ch := { ch with buf := [] }) h (fun x l hl hf => (fits_infix hl hf).trans ht)
      · exact h
    | lineHas =>
      dsimp only
      split
      · exact Cov.foldl _ (ch := { ch with buf := [] }) h (fun x l hl hf => (fits_infix hl hf).trans ht)
      · exact h

theorem foldl_buf {m : Matcher} (ls : List Str) : ∀ ch : Chan, (ls.foldl (Chan.matchLine m) ch).buf = ch.buf := by
  induction ls with
  | nil => intro ch; rfl
  | cons l ls ih =>
    intro ch
    rw [List.foldl_cons, ih]
    unfold Chan.matchLine Chan.fire Chan.resume
    split
    · split
      · split <;> rfl
      · rfl
    · rfl

/-- The buffer is a last part of what has arrived. -/
theorem received_buf {m : Matcher} {ch : Chan} (d : Str) : (ch.received m d).buf = [] ∨ (ch.received m d).buf = ch.buf ++ d := by
  unfold Chan.received
  split
  · rename_i h; simp [h]
  · cases m with
    | data =>
      dsimp only
      split
      · split
        · left; unfold Chan.fire Chan.resume; split <;> rfl
        · exact .inr rfl
      · exact .inr rfl
    | lineIs => dsimp only; split; left; rw [foldl_buf]; exact .inr rfl
    | lineHas => dsimp only; split; left; rw [foldl_buf]; exact .inr rfl

/-- The buffer and what is under way are the last part of what was printed, and every wait that is over was printed. -/
def Found (s : Script) (banner : List Str) (dev : Dev) (w : World) : Prop :=
  w.ch.buf ++ w.out.flatten <:+ printed banner dev w.answered ∧ Cov s (printed banner dev w.answered) w.ch

theorem Found.step {s : Script} {banner : List Str} {dev : Dev} {p : Proto} {w : World}
    (h : Found s banner dev w) {ev : Ev} (hev : ev ≠ .timeout) (hn : w.ch.started = false → w.ch.wait = none) :
    Found s banner dev (w.step p p.buffer dev ev) := by
  obtain ⟨h1, h2⟩ := h
  cases ev with
  | timeout => exact absurd rfl hev
  | shell =>
    simp only [World.step]
    split
    · exact ⟨h1, h2⟩
    · rename_i hs
      have hbuf : ∀ ch : Chan, ch.resume.buf = ch.buf := by intro ch; unfold Chan.resume; split <;> rfl
      refine ⟨by dsimp only; rw [hbuf]; exact h1, ?_⟩
      apply Cov.resume
      intro st hst
      rcases h2 st hst with h3 | h3 | h3
      · exact .inl h3
      · rw [hn (by simpa using hs)] at h3; exact absurd h3 (by simp)
      · exact .inr h3
  | answer =>
    simp only [World.step]
    split
    · refine ⟨?_, h2.mono (List.prefix_append _ _).isInfix⟩
      dsimp only
      rw [List.flatten_append, ← List.append_assoc]
      show _ <:+ printed banner dev w.answered ++ (dev w.answered).flatten
      obtain ⟨r, hr⟩ := h1
      exact ⟨r, by rw [← hr]; simp⟩
    · exact ⟨h1, h2⟩
  | deliver n =>
    have hfl := flatten_take_drop w.out n
    simp only [World.step, if_true]
    split
    · rename_i hd
      rw [hd, List.nil_append] at hfl
      rw [hfl] at h1
      exact ⟨h1, h2⟩
    · rw [hfl, ← List.append_assoc] at h1
      have hin : w.ch.buf ++ (w.out.take n).flatten <:+: printed banner dev w.answered :=
        (List.prefix_append _ _).isInfix.trans h1.isInfix
      refine ⟨?_, h2.received _ hin⟩
      dsimp only
      rcases received_buf (m := p.matcher) (ch := w.ch) (w.out.take n).flatten with hb | hb
      · rw [hb, List.nil_append]
        exact (List.suffix_append _ _).trans h1
      · rw [hb]; exact h1

/-- C72: whatever the device prints and however it is cut, a session that has ended has seen everything that it waited for; with
the JunOS channels the router has printed `commit complete`. -/
theorem C72_confirmed (p : Proto) (s : Script) (hne : s.steps ≠ []) (banner : List Str) (dev : Dev) (evs : List Ev)
    (hev : Ev.timeout ∉ evs) (hc : ((s.begin banner).run p p.buffer dev evs).ch.closed = true) :
    ∀ st ∈ s.steps, st.wait <:+: printed banner dev ((s.begin banner).run p p.buffer dev evs).answered := by
  have key : ∀ (evs : List Ev) (w : World), Ev.timeout ∉ evs → Place s w.ch → Found s banner dev w →
      Place s (w.run p p.buffer dev evs).ch ∧ Found s banner dev (w.run p p.buffer dev evs) := by
    intro evs
    induction evs with
    | nil => intro w _ h1 h2; exact ⟨h1, h2⟩
    | cons e evs ih =>
      intro w hev h1 h2
      simp only [List.mem_cons, not_or] at hev
      refine ih _ hev.2 (h1.step hne e) (h2.step (fun h => hev.1 h.symm) ?_)
      intro hs
      obtain ⟨_, ⟨_, _, h, _⟩ | ⟨h, _⟩ | ⟨h, _⟩⟩ := h1
      · exact h
      · rw [hs] at h; exact absurd h (by simp)
      · rw [hs] at h; exact absurd h (by simp)
  obtain ⟨h1, h2⟩ := key evs (s.begin banner) hev (Place.begin s banner)
    ⟨by simp [Script.begin, printed], fun st hst => .inl hst⟩
  intro st hst
  obtain ⟨_, ⟨_, h, _⟩ | ⟨_, h, _⟩ | ⟨_, _, hw, htd, _⟩⟩ := h1
  · rw [hc] at h; exact absurd h (by simp)
  · rw [hc] at h; exact absurd h (by simp)
  · rcases h2.2 st hst with h | h | h
    · rw [htd] at h; simp at h
    · rw [hw] at h; exact absurd h (by simp)
    · exact h

example : (((junosmxScript ["set a".toList]).begin []).run junosmx .text mxDev
      [.shell, .answer, .deliver 9, .answer, .deliver 9, .answer, .deliver 9]).ch.closed = true ∧
    (⟨["commit\r".toList], "commit complete".toList⟩ : Step) ∈ (junosmxScript ["set a".toList]).steps := by decide +kernel

end OpenNSA.Ssh
