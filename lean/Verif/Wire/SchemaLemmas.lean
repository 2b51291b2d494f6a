import Verif.Wire.Schema
import Verif.Wire.TimeLemmas
import Verif.Wire.Dispatch
import Verif.PyLemmas
/-
Lemmas for the validity of messages.
-/
namespace OpenNSA.Wire.Schema
open Py

/-! ### Sequences -/

theorem Seq.one {tag : String} {ok : Elem → Prop} {ps : List Part} {e : Elem} {b : List Elem} (ht : e.tag = tag) (he : ok e) (h : Seq ps b) :
    Seq (one tag ok :: ps) (e :: b) :=
  Seq.cons (a := [e]) (p := Schema.one tag ok) (by simp [Schema.one]) (by simp [Schema.one]) (by simp [Schema.one, ht, he]) h

theorem Seq.opt {tag : String} {ok : Elem → Prop} {ps : List Part} {a b : List Elem} (hl : a.length ≤ 1) (ha : ∀ e ∈ a, e.tag = tag ∧ ok e)
    (h : Seq ps b) : Seq (opt tag ok :: ps) (a ++ b) :=
  Seq.cons (a := a) (p := Schema.opt tag ok) (by simp [Schema.opt]) (by simpa [Schema.opt] using hl) ha h

theorem Seq.many {tag : String} {ok : Elem → Prop} {ps : List Part} {a b : List Elem} (ha : ∀ e ∈ a, e.tag = tag ∧ ok e)
    (h : Seq ps b) : Seq (many tag ok :: ps) (a ++ b) :=
  Seq.cons (a := a) (p := Schema.many tag ok) (by simp [Schema.many]) (by simp [Schema.many]) ha h

theorem Seq.some1 {tag : String} {ok : Elem → Prop} {ps : List Part} {a b : List Elem} (hne : a ≠ []) (ha : ∀ e ∈ a, e.tag = tag ∧ ok e)
    (h : Seq ps b) : Seq (some1 tag ok :: ps) (a ++ b) :=
  Seq.cons (a := a) (p := Schema.some1 tag ok) (by
    have : a.length ≠ 0 := by simpa using hne
    simp only [Schema.some1]; omega) (by simp [Schema.some1]) ha h

theorem Seq.skip {p : Part} {ps : List Part} {b : List Elem} (hl : p.lo = 0) (h : Seq ps b) : Seq (p :: ps) b :=
  Seq.cons (a := []) (by simp [hl]) (by simp) (by simp) h

theorem Seq.many_end {tag : String} {ok : Elem → Prop} {a : List Elem} (ha : ∀ e ∈ a, e.tag = tag ∧ ok e) : Seq [Schema.many tag ok] a := by
  have := Seq.many (ps := []) ha Seq.nil
  simpa using this

theorem Seq.some1_end {tag : String} {ok : Elem → Prop} {a : List Elem} (hne : a ≠ []) (ha : ∀ e ∈ a, e.tag = tag ∧ ok e) :
    Seq [Schema.some1 tag ok] a := by
  have := Seq.some1 (ps := []) hne ha Seq.nil
  simpa using this

theorem Seq.opt_end {tag : String} {ok : Elem → Prop} {a : List Elem} (hl : a.length ≤ 1) (ha : ∀ e ∈ a, e.tag = tag ∧ ok e) :
    Seq [Schema.opt tag ok] a := by
  have := Seq.opt (ps := []) hl ha Seq.nil
  simpa using this

/-- What is sent of an optional text. -/
theorem Seq.optLeaf {tag : String} {p : Str → Prop} {ps : List Part} {x : Option Str} {b : List Elem} (hx : ∀ s, x = some s → p s) (h : Seq ps b) :
    Seq (Schema.opt tag (Text p) :: ps) (optLeaf tag x ++ b) := by
  refine Seq.opt ?_ ?_ h
  · cases x <;> simp [Wire.optLeaf]
  · cases x with
    | none => simp [Wire.optLeaf]
    | some s => simpa [Wire.optLeaf, leaf, Elem.tag, Text, Elem.attrib, Elem.kids, Elem.text] using hx s rfl

/-- The parts of the second list allow what those of the first allow. -/
def Wider : List Part → List Part → Prop
  | [], [] => True
  | p :: ps, q :: qs => (q.tag = p.tag ∧ q.lo = p.lo ∧ q.hi = p.hi ∧ ∀ e, p.ok e → q.ok e) ∧ Wider ps qs
  | _, _ => False

theorem Seq.mono {ps qs : List Part} {l : List Elem} (hs : Seq ps l) (h : Wider ps qs) : Seq qs l := by
  induction hs generalizing qs with
  | nil => cases qs with
    | nil => exact .nil
    | cons => exact h.elim
  | cons lo hi ok _ ih =>
    cases qs with
    | nil => exact h.elim
    | cons q qs =>
      obtain ⟨⟨h1, h2, h3, h4⟩, hr⟩ := h
      exact .cons (by rw [h2]; exact lo) (by rw [h3]; exact hi) (fun e he => ⟨by rw [h1]; exact (ok e he).1, h4 e (ok e he).2⟩) (ih hr)

theorem text_leaf {p : Str → Prop} {tag : String} {x : Option Str} (h : p (x.getD [])) : Text p (leaf tag x) := ⟨rfl, rfl, h⟩
theorem text_any {tag : String} {x : Option Str} : Text AnyText (leaf tag x) := ⟨rfl, rfl, trivial⟩
theorem tag_leaf {tag : String} {x : Option Str} : (leaf tag x).tag = tag := rfl
theorem atts_nil : Atts [] [] := ⟨by simp, by simp, by simp⟩
theorem atts_one {n : String} {r : Bool} {p : Str → Prop} {v : Str} (h : p v) : Atts [⟨n, r, p⟩] [(n, v)] := ⟨by simp, by simpa using h, by simp⟩
theorem node {tag : String} {as : List Att} {ps : List Part} {a : List (String × Str)} {k : List Elem} (ha : Atts as a) (hk : Seq ps k) :
    Node as ps (.mk tag a none k) := ⟨ha, rfl, hk⟩

/-- Every element of a sequence belongs to a part. -/
theorem Seq.mem {ps : List Part} {l : List Elem} (h : Seq ps l) : ∀ e ∈ l, ∃ p ∈ ps, e.tag = p.tag ∧ p.ok e := by
  induction h with
  | nil => simp
  | cons _ _ ok _ ih =>
    intro e he
    rcases List.mem_append.1 he with he | he
    · exact ⟨_, List.mem_cons_self .., ok e he⟩
    · obtain ⟨p, hp, h⟩ := ih e he
      exact ⟨p, List.mem_cons_of_mem _ hp, h⟩

theorem findIn_mem {tag : String} {l : List Elem} {e : Elem} (h : findIn tag l = some e) : e ∈ l ∧ e.tag = tag := by
  induction l with
  | nil => simp [findIn] at h
  | cons x xs ih =>
    simp only [findIn] at h
    split at h
    · rename_i hx; cases h; exact ⟨List.mem_cons_self .., hx⟩
    · exact ⟨List.mem_cons_of_mem _ (ih h).1, (ih h).2⟩

/-- What `find` gives in a valid element. -/
theorem Node.find {as : List Att} {ps : List Part} {e c : Elem} {tag : String} (h : Node as ps e) (hc : e.find tag = some c) :
    ∃ p ∈ ps, p.tag = tag ∧ p.ok c := by
  obtain ⟨hm, ht⟩ := findIn_mem hc
  obtain ⟨p, hp, h1, h2⟩ := h.2.2.mem c hm
  exact ⟨p, hp, by rw [← h1, ht], h2⟩

/-! ### Nothing changes on the wire -/

/-- What holds of an element holds of it at the receiver. -/
def Kept (ok : Elem → Prop) : Prop := ∀ e, ok e → ok (wire e)

theorem wire_tag (e : Elem) : (wire e).tag = e.tag := by cases e; rfl

theorem Kept.text {p : Str → Prop} : Kept (Text p) := by
  intro e ⟨h1, h2, h3⟩
  cases e with
  | mk t a x k =>
    simp only [Elem.attrib, Elem.kids, Elem.text] at h1 h2 h3
    subst h1 h2
    refine ⟨rfl, rfl, ?_⟩
    cases x with
    | none => exact h3
    | some s => cases s <;> exact h3

theorem Kept.textWith {as : List Att} {p : Str → Prop} : Kept (TextWith as p) := by
  intro e ⟨h1, h2, h3⟩
  cases e with
  | mk t a x k =>
    simp only [Elem.attrib, Elem.kids, Elem.text] at h1 h2 h3
    subst h2
    refine ⟨h1, rfl, ?_⟩
    cases x with
    | none => exact h3
    | some s => cases s <;> exact h3

theorem Seq.wire {ps : List Part} {l : List Elem} (h : Seq ps l) (hk : ∀ p ∈ ps, Kept p.ok) : Seq ps (wireAll l) := by
  rw [wireAll_eq]
  induction h with
  | nil => exact .nil
  | cons lo hi ok _ ih =>
    rw [List.map_append]
    refine .cons (by simpa using lo) (by simpa using hi) ?_ (ih fun p hp => hk p (List.mem_cons_of_mem _ hp))
    intro e he
    obtain ⟨x, hx, rfl⟩ := List.mem_map.1 he
    exact ⟨by rw [wire_tag]; exact (ok x hx).1, hk _ (List.mem_cons_self ..) x (ok x hx).2⟩

theorem Kept.node {as : List Att} {ps : List Part} (hk : ∀ p ∈ ps, Kept p.ok) : Kept (Node as ps) := by
  intro e ⟨h1, h2, h3⟩
  cases e with
  | mk t a x k =>
    simp only [Elem.attrib, Elem.kids, Elem.text] at h1 h2 h3
    subst h2
    exact ⟨h1, rfl, h3.wire hk⟩

theorem Kept.nil : ∀ p ∈ ([] : List Part), Kept p.ok := by simp
theorem Kept.cons {p : Part} {ps : List Part} (h : Kept p.ok) (hs : ∀ q ∈ ps, Kept q.ok) : ∀ q ∈ p :: ps, Kept q.ok := by
  intro q hq
  rcases List.mem_cons.1 hq with rfl | h'
  · exact h
  · exact hs q h'

/-- Types made of nodes and texts are kept. -/
syntax "kept" : tactic
macro_rules
  | `(tactic| kept) => `(tactic| repeat (first
      | assumption | exact Kept.text | exact Kept.textWith | exact Kept.nil | refine Kept.cons ?_ ?_ | refine Kept.node ?_))

theorem Kept.schedule : Kept Schedule := by unfold Schedule; kept
theorem Kept.p2ps : Kept P2PS := by unfold P2PS; kept
theorem Kept.dataPlaneStatus : Kept DataPlaneStatus := by unfold DataPlaneStatus; kept
theorem Kept.service : Kept service.ok := Kept.p2ps
theorem Kept.states : Kept States := by have := Kept.dataPlaneStatus; unfold States; kept
theorem Kept.serviceException : Kept ServiceException := by unfold ServiceException; kept
theorem Kept.reserve : Kept Reserve := by have := Kept.schedule; have := Kept.service; unfold Reserve; kept
theorem Kept.reserveConfirmed : Kept ReserveConfirmed := by have := Kept.schedule; have := Kept.service; unfold ReserveConfirmed; kept
theorem Kept.generic : Kept Generic := by unfold Generic; kept
theorem Kept.genericFailed : Kept GenericFailed := by have := Kept.states; have := Kept.serviceException; unfold GenericFailed; kept
theorem Kept.reserveTimeout : Kept ReserveTimeout := by unfold ReserveTimeout; kept
theorem Kept.dataPlaneStateChange : Kept DataPlaneStateChange := by have := Kept.dataPlaneStatus; unfold DataPlaneStateChange; kept
theorem Kept.errorEvent : Kept ErrorEvent := by have := Kept.serviceException; unfold ErrorEvent; kept
theorem Kept.query : Kept Query := by unfold Query; kept
theorem Kept.reservation {c : Elem → Prop} (hc : Kept c) : Kept (Reservation c) := by have := Kept.states; unfold Reservation; kept
theorem Kept.summaryCriteria : Kept SummaryCriteria := by have := Kept.schedule; have := Kept.service; unfold SummaryCriteria; kept
theorem Kept.recCriteria : ∀ n, Kept (RecCriteria n)
  | 0 => fun _ h => h.elim
  | n + 1 => by
    have := Kept.schedule; have := Kept.service; have := Kept.states; have := Kept.recCriteria n
    have h : RecCriteria (n + 1) = fun e => RecCriteria (n + 1) e := rfl
    rw [h]; simp only [RecCriteria]; kept
theorem Kept.summaryConfirmed : Kept SummaryConfirmed := by
  have := Kept.reservation Kept.summaryCriteria; unfold SummaryConfirmed; kept
theorem Kept.recursiveConfirmed : Kept RecursiveConfirmed := by
  have := Kept.reservation (c := fun e => ∃ n, RecCriteria n e) fun e ⟨n, h⟩ => ⟨n, Kept.recCriteria n e h⟩
  unfold RecursiveConfirmed; kept
theorem Kept.header {p : String} : Kept (Header p) := by unfold Header; kept

/-! ### Simple types -/

theorem digit_mem {d : Nat} (h : d < 10) : digitChar d ∈ ['0', '1', '2', '3', '4', '5', '6', '7', '8', '9'] := by
  have : ∀ d : Fin 10, digitChar d.val ∈ ['0', '1', '2', '3', '4', '5', '6', '7', '8', '9'] := by decide +kernel
  exact this ⟨d, h⟩

theorem digits_showNat (n : Nat) : Digits (showNat n) := by
  refine ⟨showNat_ne_nil n, fun c hc => ?_⟩
  obtain ⟨d, hd, rfl⟩ := showNat_digits n c hc
  exact digit_mem hd

theorem intText_showNat (n : Nat) : IntText (showNat n) := .inl (digits_showNat n)

theorem intText_showInt (n : Int) : IntText (showInt n) := by
  cases n with
  | ofNat n => exact .inl (digits_showNat n)
  | negSucc n => exact .inr ⟨_, rfl, digits_showNat _⟩

theorem boolText_ok (b : Bool) : BoolText (boolText b) := by cases b <;> simp [BoolText, TrueText, FalseText, boolText]

theorem digs_lt (w n : Nat) : ∀ d ∈ digs w n, d < 10 := by
  induction w generalizing n with
  | zero => simp [digs]
  | succ w ih =>
    intro d hd
    simp only [digs, List.mem_append, List.mem_singleton] at hd
    rcases hd with h | rfl
    · exact ih _ d h
    · exact Nat.mod_lt _ (by decide)

theorem pad_ok {w n : Nat} (h : w ≠ 0) : Digits (pad w n) ∧ (pad w n).length = w := by
  have hl : ∀ w n, (digs w n).length = w := by
    intro w
    induction w with
    | zero => simp [digs]
    | succ w ih => intro n; simp [digs, ih]
  have hl' : (pad w n).length = w := by simp [pad, hl]
  refine ⟨⟨fun h0 => h (by rw [← hl', h0]; rfl), fun c hc => ?_⟩, hl'⟩
  simp only [pad, List.mem_map] at hc
  obtain ⟨d, hd, rfl⟩ := hc
  exact digit_mem (digs_lt _ _ d hd)

theorem timeText_iso (d : DT) {z : Str} (hz : z = ['Z'] ∨ z = ['+', '0', '0', ':', '0', '0']) : TimeText (isoformat d ++ z) := by
  refine ⟨pad 4 d.year, pad 2 d.month, pad 2 d.day, pad 2 d.hour, pad 2 d.minute, pad 2 d.second,
    if d.micro = 0 then [] else '.' :: pad 6 d.micro, z, by simp [isoformat], pad_ok (by decide), pad_ok (by decide), pad_ok (by decide),
    pad_ok (by decide), pad_ok (by decide), pad_ok (by decide), ?_, hz⟩
  split
  · exact .inl rfl
  · exact .inr ⟨_, rfl, (pad_ok (by decide)).1⟩

theorem timeText_xml (t : Int) : TimeText (createXMLTime t) := timeText_iso _ (.inl rfl)
theorem timeText_utc (t : Int) : TimeText (utcText t) := timeText_iso _ (.inr rfl)

end OpenNSA.Wire.Schema
