import Verif.View.Model
import Verif.Stp.Lemmas
import Verif.Wire.TimeLemmas
import Mathlib.Data.List.Forall2
/- C102: the page of connections. -/
namespace OpenNSA.View
open Py

/-! ### What a reader sees -/

/-- Where the reader is: inside a tag or not, and the text since the last tag. -/
structure Seen where
  tag : Bool
  text : Str
  deriving DecidableEq

/-- Text between tags is shown unless it is blank. -/
def flush (t : Str) : List Str := if t.all (fun c => c = ' ' || c = '\n') then [] else [t]

/-- Reading a part of a page: the texts shown, and where the reader is after it. -/
def reads (s : Seen) : Str → List Str × Seen
  | [] => ([], s)
  | c :: cs =>
    if s.tag then reads (if c = '>' then ⟨false, []⟩ else s) cs
    else if c = '<' then let r := reads ⟨true, []⟩ cs; (flush s.text ++ r.1, r.2)
    else reads ⟨false, s.text ++ [c]⟩ cs

/-- The texts a reader is shown. -/
def shown (p : Str) : List Str := (reads ⟨false, []⟩ p).1

/-- A text that is shown as it is: no markup, and not blank. -/
def Plain (t : Str) : Prop := '<' ∉ t ∧ ∃ c ∈ t, c ≠ ' ' ∧ c ≠ '\n'

theorem reads_append (s : Seen) (a b : Str) : reads s (a ++ b) = ((reads s a).1 ++ (reads (reads s a).2 b).1, (reads (reads s a).2 b).2) := by
  induction a generalizing s with
  | nil => simp [reads]
  | cons c cs ih =>
    simp only [List.cons_append, reads]
    split
    · exact ih _
    · split
      · simp only [ih, List.append_assoc]
      · exact ih _

theorem reads_text (t : Str) (h : '<' ∉ t) (acc : Str) : reads ⟨false, acc⟩ t = ([], ⟨false, acc ++ t⟩) := by
  induction t generalizing acc with
  | nil => simp [reads]
  | cons c cs ih =>
    simp only [List.mem_cons, not_or] at h
    simp only [reads, Bool.false_eq_true, if_false, if_neg (fun e => h.1 (e ▸ rfl) : ¬ c = '<')]
    rw [ih h.2]
    simp

theorem flush_plain {t : Str} (h : Plain t) : flush t = [t] := by
  obtain ⟨_, c, hc, h1, h2⟩ := h
  unfold flush
  rw [if_neg]
  simp only [List.all_eq_true, Bool.or_eq_true, decide_eq_true_eq]
  exact fun hall => (hall c hc).elim h1 h2

/-- Blanks and line ends only. -/
def Blank (t : Str) : Prop := t.all (fun c => c = ' ' || c = '\n') = true

theorem reads_blank {acc b rest : Str} (ha : Blank acc) (hb : Blank b) : reads ⟨false, acc⟩ (b ++ '<' :: rest) = reads ⟨true, []⟩ rest := by
  have hn : '<' ∉ b := by
    intro h
    have := List.all_eq_true.mp hb _ h
    simp at this
  rw [reads_append, reads_text b hn]
  have hf : flush (acc ++ b) = [] := by
    unfold flush
    rw [if_pos]
    rw [List.all_append, ha, hb]; rfl
  simp only [reads, Bool.false_eq_true, if_false, if_true, hf, List.nil_append]

/-- Blanks, tags, then a text, then tags. -/
theorem reads_cell {pre b pre' t post post' acc acc' : Str} (ha : Blank acc) (hp : pre = b ++ '<' :: pre') (hb : Blank b)
    (hpre : reads ⟨true, []⟩ pre' = ([], ⟨false, []⟩)) (h : Plain t) (hq : post = '<' :: post')
    (hpost : reads ⟨true, []⟩ post' = ([], ⟨false, acc'⟩)) : reads ⟨false, acc⟩ (pre ++ (t ++ post)) = ([t], ⟨false, acc'⟩) := by
  rw [reads_append, hp, reads_blank ha hb, hpre, reads_append, reads_text t h.1, hq]
  simp only [reads, Bool.false_eq_true, if_false, if_true, hpost, List.nil_append, flush_plain h, List.append_nil]

theorem cell_reads {t acc : Str} (ha : Blank acc) (h : Plain t) : reads ⟨false, acc⟩ (cell t) = ([t], ⟨false, ['\n']⟩) :=
  reads_cell (b := "                    ".toList) (pre' := "th>".toList) (post' := "/th>\n".toList) ha (by decide +kernel) (by unfold Blank; decide +kernel)
    (by decide +kernel) h (by decide +kernel) (by decide +kernel)

theorem blank_nl : Blank ['\n'] := by unfold Blank; decide +kernel

theorem row_reads {id state source dest start end_ acc : Str} (ha : Blank acc) (h1 : Plain id) (h2 : Plain state) (h3 : Plain source) (h4 : Plain dest)
    (h5 : Plain start) (h6 : Plain end_) :
    reads ⟨false, acc⟩ (rowText id state source dest start end_) = ([id, state, source, dest, start, end_], ⟨false, "\n            ".toList⟩) := by
  have hc : ∀ t, Plain t → reads ⟨false, ['\n']⟩ (cell t) = ([t], ⟨false, ['\n']⟩) := fun t h => cell_reads blank_nl h
  have hid : reads ⟨false, acc⟩ ("\n                 <tr>\n                    <th><div>".toList ++ (id ++ "</div></th>\n".toList)) = ([id], ⟨false, ['\n']⟩) :=
    reads_cell (b := "\n                 ".toList) (pre' := "tr>\n                    <th><div>".toList) (post' := "/div></th>\n".toList) ha (by decide +kernel)
      (by unfold Blank; decide +kernel) (by decide +kernel) h1 (by decide +kernel) (by decide +kernel)
  have hend : reads ⟨false, ['\n']⟩ "                 </tr>\n            ".toList = ([], ⟨false, "\n            ".toList⟩) := by decide +kernel
  unfold rowText
  have : ∀ x y z w : Str, x ++ (y ++ (z ++ w)) = (x ++ (y ++ z)) ++ w := by intro x y z w; simp only [List.append_assoc]
  rw [this, reads_append, hid]
  simp only [reads_append ⟨false, ['\n']⟩ (cell _), hc _ h2, hc _ h3, hc _ h4, hc _ h5, hc _ h6, hend]
  rfl

/-! ### The texts -/

theorem plain_state (l : LState) : Plain (stateText l) := by
  cases l
  · exact ⟨by decide +kernel, 'C', by decide +kernel, by decide +kernel⟩
  · exact ⟨by decide +kernel, 'F', by decide +kernel, by decide +kernel⟩
  · exact ⟨by decide +kernel, 'P', by decide +kernel, by decide +kernel⟩
  · exact ⟨by decide +kernel, 'T', by decide +kernel, by decide +kernel⟩
  · exact ⟨by decide +kernel, 'T', by decide +kernel, by decide +kernel⟩

theorem digs_lt {w n x : Nat} (h : x ∈ Wire.digs w n) : x < 10 := by
  induction w generalizing n with
  | zero => simp [Wire.digs] at h
  | succ w ih =>
    simp only [Wire.digs, List.mem_append, List.mem_singleton] at h
    rcases h with h | rfl
    · exact ih h
    · omega

theorem digit_ne {d : Nat} (h : d < 10) : digitChar d ≠ '<' := by
  have : ∀ d : Fin 10, digitChar d.1 ≠ '<' := by decide +kernel
  exact this ⟨d, h⟩

theorem pad_no (w n : Nat) : '<' ∉ Wire.pad w n := by
  intro h
  obtain ⟨d, hd, he⟩ := List.mem_map.mp h
  exact digit_ne (digs_lt hd) he

theorem plain_time (t : Int) : Plain (timeText t) := by
  unfold timeText
  refine ⟨?_, '-', by simp, by decide, by decide⟩
  simp only [List.mem_append, List.mem_cons, not_or]
  exact ⟨pad_no _ _, by decide, pad_no _ _, by decide, pad_no _ _, by decide, pad_no _ _, by decide, pad_no _ _, by decide, pad_no _ _⟩

theorem plain_start (t : Option Int) : Plain (startText t) := by
  cases t with
  | none => exact ⟨by decide, '-', by decide, by decide⟩
  | some t => exact plain_time t

theorem showInt_plain (i : Int) : '<' ∉ showInt i := by
  intro h
  rcases showInt_chars h with h | ⟨d, hd, h⟩
  · cases h
  · exact digit_ne hd h.symm

theorem labelValue_no (l : Label) : '<' ∉ l.labelValue := by
  intro h
  rcases mem_joinWith h with h | ⟨p, hp, h⟩
  · cases h
  · obtain ⟨r, _, rfl⟩ := List.mem_map.mp hp
    unfold valueText at h
    split at h
    · exact showInt_plain _ h
    · rcases List.mem_append.mp h with h | h
      · exact showInt_plain _ h
      · rcases List.mem_cons.mp h with h | h
        · cases h
        · exact showInt_plain _ h

theorem plain_end {s : STP} (h1 : '<' ∉ s.network) (h2 : '<' ∉ s.port) : Plain (endText s) := by
  unfold endText
  refine ⟨?_, ':', by simp, by decide, by decide⟩
  simp only [List.mem_append, List.mem_cons, not_or]
  refine ⟨h1, by decide, h2, ?_⟩
  cases s.label with
  | none => simp
  | some l => simp only [List.mem_cons, not_or]; exact ⟨by decide, labelValue_no l⟩

/-! ### C102 -/

/-- What is to be read of a connection. -/
def Shows (c : Agg.CRow) (texts : List Str) : Prop :=
  ∃ e, c.end_ = some e ∧ texts = [c.cid, stateText c.st.l, endText c.src, endText c.dst, startText c.start, timeText e]

/-- Names without markup. -/
def Named (c : Agg.CRow) : Prop :=
  Plain c.cid ∧ '<' ∉ c.src.network ∧ '<' ∉ c.src.port ∧ '<' ∉ c.dst.network ∧ '<' ∉ c.dst.port

theorem rows_reads : ∀ {conns : List Agg.CRow} {r : Str}, rows conns = .ok r → (∀ c ∈ conns, Named c) → ∀ {acc : Str}, Blank acc →
    ∃ ts acc', reads ⟨false, acc⟩ r = (ts.flatten, ⟨false, acc'⟩) ∧ Blank acc' ∧ List.Forall₂ Shows conns ts
  | [], r, h, _, acc, ha => by
    obtain rfl := Except.ok.inj h
    exact ⟨[], acc, rfl, ha, .nil⟩
  | c :: cs, r, h, hn, acc, ha => by
    simp only [rows] at h
    cases he : c.end_ with
    | none => simp [he] at h
    | some e =>
      cases hr : rows cs with
      | error x => simp [he, hr] at h
      | ok r' =>
        simp only [he, hr, Except.ok.injEq] at h
        subst h
        obtain ⟨h1, h2, h3, h4, h5⟩ := hn c (by simp)
        obtain ⟨ts, acc', g1, g2, g3⟩ := rows_reads hr (fun x hx => hn x (by simp [hx])) (acc := "\n            ".toList) (by unfold Blank; decide +kernel)
        refine ⟨_ :: ts, acc', ?_, g2, .cons ⟨e, he, rfl⟩ g3⟩
        rw [reads_append, row_reads ha h1 (plain_state _) (plain_end h2 h3) (plain_end h4 h5) (plain_start _) (plain_time _), g1]
        rfl

/-- The page as it is put together shows each connection once and in order, with its id, lifecycle state, ends, start and end time,
below the titles of the columns, and nothing else; if names contain no markup. -/
theorem C102_shown_partial {conns : List Agg.CRow} {p : Str} (h : page conns = .ok p) (hn : ∀ c ∈ conns, Named c) :
    ∃ ts, List.Forall₂ Shows conns ts ∧ shown p = ["OpenNSA Connections".toList, "Connections".toList, "Connection Id".toList, "Lifecycle state".toList,
      "Source".toList, "Destination".toList, "Start time".toList, "End time".toList] ++ ts.flatten := by
  unfold page at h
  cases hr : rows conns with
  | error x => simp [hr] at h
  | ok r =>
    simp only [hr, Except.ok.injEq] at h
    subst h
    obtain ⟨ts, acc', h1, h2, h3⟩ := rows_reads hr hn (acc := []) rfl
    refine ⟨ts, h3, ?_⟩
    unfold shown
    have e1 : reads ⟨false, []⟩ (header "OpenNSA Connections".toList) = (["OpenNSA Connections".toList], ⟨false, "\n".toList⟩) := by decide +kernel
    have e2 : reads ⟨false, "\n".toList⟩ tableHead = (["Connections".toList, "Connection Id".toList, "Lifecycle state".toList,
      "Source".toList, "Destination".toList, "Start time".toList, "End time".toList], ⟨false, []⟩) := by decide +kernel
    have e3 : (reads ⟨false, acc'⟩ ("                </tbody>".toList ++ ("            </table>".toList ++ footer))).1 = [] := by
      have : "                </tbody>".toList ++ ("            </table>".toList ++ footer) =
          "                ".toList ++ '<' :: ("/tbody>            </table>   </body>\n</html>\n".toList) := by decide +kernel
      rw [this, reads_blank h2 (by unfold Blank; decide +kernel)]
      decide +kernel
    rw [reads_append, e1, reads_append, e2, reads_append, h1]
    simp only [e3, List.append_nil]
    rfl

/-- It is put together exactly when all connections have an end time. -/
theorem C102_made (conns : List Agg.CRow) : (∃ p, page conns = .ok p) ↔ ∀ c ∈ conns, c.end_ ≠ none := by
  have key : ∀ conns : List Agg.CRow, (∃ r, rows conns = .ok r) ↔ ∀ c ∈ conns, c.end_ ≠ none := by
    intro conns
    induction conns with
    | nil => exact ⟨fun _ => by simp, fun _ => ⟨_, rfl⟩⟩
    | cons c cs ih =>
      simp only [List.mem_cons, forall_eq_or_imp, ← ih]
      simp only [rows]
      cases c.end_ with
      | none => simp
      | some e => cases rows cs <;> simp
  rw [← key]
  unfold page
  cases rows conns <;> simp

/-- Times are shown as the date and the time of day of their instant: year, month, day, hour, minute and second. -/
theorem C102_time {t : Int} (h0 : 0 ≤ t) (h1 : t < Wire.maxInstant) : ∃ d : Wire.DT, d.valid ∧ d.instant = t ∧
    timeText t = Wire.pad 4 d.year ++ ['-'] ++ Wire.pad 2 d.month ++ ['-'] ++ Wire.pad 2 d.day ++ [' '] ++
      Wire.pad 2 d.hour ++ [':'] ++ Wire.pad 2 d.minute ++ [':'] ++ Wire.pad 2 d.second :=
  ⟨Wire.ofInstant t, Wire.ofInstant_valid h0 h1, Wire.instant_ofInstant h0 h1, by simp [timeText]⟩

/-- `C102_time`: a leap day. -/
example : timeText (Wire.DT.instant ⟨2024, 2, 29, 13, 5, 59, 7⟩) = "2024-02-29 13:05:59".toList := by decide +kernel

/-! ### Violations -/

/-- C102 fails altogether: the page is put together as a text, and texts cannot be written to a connection in Python 3 (viewresource.py:85); whatever connections there are, an exception is raised and nothing is sent. -/
theorem C102_written_fails (conns : List Agg.CRow) : ∃ e, renderPage conns = .error e := by
  unfold renderPage
  cases page conns <;> exact ⟨_, rfl⟩

namespace Ex

/-- A connection between the given ports. -/
def conn (id src dst : Str) (start end_ : Option Int) : Agg.CRow :=
  ⟨1, id, ['u'], .fresh, ⟨['A'], src, none⟩, ⟨['B'], dst, some ⟨['v', 'l', 'a', 'n'], [(7, 9)], false⟩⟩, start, end_, 10⟩

end Ex

/-- C102 fails for connections without end time: one of them, and the page is not made for any (viewresource.py:68). -/
theorem C102_no_end_fails (before after : List Agg.CRow) (id src dst : Str) (start : Option Int) :
    ∀ p, page (before ++ Ex.conn id src dst start none :: after) ≠ .ok p :=
  fun p hp => (C102_made _).mp ⟨p, hp⟩ (Ex.conn id src dst start none) (by simp) rfl

/-- C102 fails for names with markup: the names of ports come from requests and are put into the page as they are (viewresource.py:64-65, 70-79); a requester can choose what the reader is shown. Here the page shows a terminated connection C-2 that is not in the database. -/
theorem C102_markup_fails : ∃ c : Agg.CRow, Plain c.cid ∧ ∃ p, page [c] = .ok p ∧
    shown p = ["OpenNSA Connections".toList, "Connections".toList, "Connection Id".toList, "Lifecycle state".toList,
      "Source".toList, "Destination".toList, "Start time".toList, "End time".toList,
      "C-1".toList, "Created".toList, "A:1".toList, "C-2".toList, "Terminated".toList, "B:2:7-9".toList, "-".toList, "0001-01-01 00:00:09".toList] :=
  ⟨Ex.conn "C-1".toList "1</th></tr><tr><th>C-2</th><th>Terminated".toList "2".toList none (some 9000000),
    ⟨by decide +kernel, 'C', by decide +kernel, by decide⟩, _, rfl, by decide +kernel⟩

/-- `C102_shown_partial`: two connections. -/
example : (∀ c ∈ [Ex.conn "C-1".toList "1".toList "2".toList none (some 9000000), Ex.conn "C-2".toList "1".toList "2".toList (some 0) (some 9000000)], Named c) ∧
    ∃ p, page [Ex.conn "C-1".toList "1".toList "2".toList none (some 9000000), Ex.conn "C-2".toList "1".toList "2".toList (some 0) (some 9000000)] = .ok p := by
  refine ⟨?_, (C102_made _).mpr (by simp [Ex.conn])⟩
  intro c hc
  simp only [List.mem_cons, List.not_mem_nil, or_false] at hc
  rcases hc with rfl | rfl <;> exact ⟨⟨by decide +kernel, 'C', by decide +kernel, by decide⟩, by decide +kernel, by decide +kernel, by decide +kernel, by decide +kernel⟩

end OpenNSA.View
