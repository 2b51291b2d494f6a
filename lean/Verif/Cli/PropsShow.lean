import Verif.Cli.Show
import Verif.Wire.PropsAnswers
/-
C97: what the command line tool prints for a query.
-/
namespace OpenNSA.Cli
open OpenNSA Py Wire

mutual
/-- The segments of a connection, each before its own segments, with depth: the children of the first criteria. -/
def segments (d : Nat) : List Crit → List (Nat × Child)
  | [] => []
  | .mk _ _ _ ch :: _ => segmentsAll d ch
def segmentsAll (d : Nat) : List Child → List (Nat × Child)
  | [] => []
  | c :: cs => segmentsOf d c ++ segmentsAll d cs
def segmentsOf (d : Nat) : Child → List (Nat × Child)
  | .mk cid prov st cs => (d, .mk cid prov st cs) :: segments (d + 1) cs
end

/-- The state machines have states. -/
def Stated (st : ConnStates) : Prop := st.rsm.isSome ∧ st.psm.isSome ∧ st.lsm.isSome

/-- The lines about the states. -/
def stateLines (ind : Str) (st : ConnStates) : List Str :=
  [ind ++ "States       ".toList ++ st.rsm.getD [] ++ ", ".toList ++ st.psm.getD [] ++ ", ".toList ++ st.lsm.getD [],
   ind ++ "Dataplane    Active : ".toList ++ (if st.dps.active then "True".toList else "False".toList) ++ ", Version: ".toList ++
     (match st.dps.version with | some v => showInt v | none => "None".toList) ++ ", Consistent ".toList ++
     (if st.dps.consistent then "True".toList else "False".toList)]

/-- The line about the ends. -/
def pathLine (ind : Str) : List Crit → List Str
  | [] => []
  | .mk _ _ sd _ :: _ => [ind ++ "Path         ".toList ++ sd.source.shortName ++ " -- ".toList ++ sd.dest.shortName]

/-- The lines about a segment: two blanks per level. -/
def segmentLines : Nat × Child → List Str
  | (d, .mk cid prov st cs) =>
    let ind : Str := List.replicate (2 * d) ' '
    [[], ind ++ "Connection   ".toList ++ strOf cid ++ " (".toList ++ strOf prov ++ ")".toList] ++ stateLines ind st ++
    pathLine ind cs

/-- A line for something that may be missing. -/
def optLine (text : Str) (x : Option Str) : List Str := if x.getD [] = [] then [] else [text ++ x.getD []]

/-- The lines about a connection itself. -/
def connectionLines (i : Info) : List Str :=
  [[], "Connection   ".toList ++ strOf i.cid ++ " (".toList ++ strOf i.provider ++ ")".toList] ++
  optLine "Global ID    ".toList i.gid ++ optLine "Description  ".toList i.description ++ stateLines [] i.states ++
  match i.criterias with
  | [] => []
  | .mk _ s sd _ :: _ =>
    ["Start-End    ".toList ++ pyTime s.start ++ " - ".toList ++ pyTime s.end_,
     "Path         ".toList ++ sd.source.shortName ++ " -- ".toList ++ sd.dest.shortName,
     "Bandwidth    ".toList ++ showInt sd.capacity, "Direction    ".toList ++ strOf sd.directionality] ++
    if sd.symmetric = some true then ["Symmetric    True".toList] else []

section
variable {params : List (Option Str × Option Str) → Str}

theorem next_ok (a b : List Str) (r : Bool) : Shown.next ⟨a, false⟩ ⟨b, r⟩ = ⟨a ++ b, r⟩ := rfl

theorem ifText_eq (text : Str) (x : Option Str) : ifText text x = optLine text x := by
  match x with
  | none => rfl
  | some [] => rfl
  | some (c :: cs) => simp [ifText, optLine]

theorem optLine_none (text : Str) : optLine text none = [] := rfl

theorem showHead_ok {ind : Str} {cid prov gid desc : Option Str} {st : ConnStates} (h : Stated st) : showHead ind cid prov gid desc st =
    ⟨[[], ind ++ "Connection   ".toList ++ strOf cid ++ " (".toList ++ strOf prov ++ ")".toList] ++
      optLine (ind ++ "Global ID    ".toList) gid ++ optLine (ind ++ "Description  ".toList) desc ++ stateLines ind st, false⟩ := by
  obtain ⟨r, p, l, a, v, c⟩ := st
  obtain ⟨h1, h2, h3⟩ := h
  obtain ⟨r, rfl⟩ := Option.isSome_iff_exists.mp h1
  obtain ⟨p, rfl⟩ := Option.isSome_iff_exists.mp h2
  obtain ⟨l, rfl⟩ := Option.isSome_iff_exists.mp h3
  unfold showHead stateLines
  simp only [ifText_eq]
  cases v <;> rfl

theorem indent (d : Nat) : List.replicate (2 * d) ' ' ++ "  ".toList = List.replicate (2 * (d + 1)) ' ' := by
  rw [show 2 * (d + 1) = 2 * d + 2 from by omega, ← List.replicate_append_replicate]
  rfl

theorem service_top (s : Sched) (sd : P2P) (h : sd.parameters = none) : showService params [] false s sd =
    ["Start-End    ".toList ++ pyTime s.start ++ " - ".toList ++ pyTime s.end_,
     "Path         ".toList ++ sd.source.shortName ++ " -- ".toList ++ sd.dest.shortName,
     "Bandwidth    ".toList ++ showInt sd.capacity, "Direction    ".toList ++ strOf sd.directionality] ++
    if sd.symmetric = some true then ["Symmetric    True".toList] else [] := by
  unfold showService
  rw [h]
  by_cases hs : sd.symmetric = some true
  · rw [if_pos hs, if_pos hs]; rfl
  · rw [if_neg hs, if_neg hs]; rfl

theorem service_child (ind : Str) (s : Sched) (sd : P2P) : showService params ind true s sd =
    [ind ++ "Path         ".toList ++ sd.source.shortName ++ " -- ".toList ++ sd.dest.shortName] := by
  simp [showService]

mutual
theorem showCrits_ok (d : Nat) : (cs : List Crit) → (∀ x ∈ segments (d + 1) cs, ∀ cid prov st l, x.2 = .mk cid prov st l → Stated st) →
    showCrits params (List.replicate (2 * d) ' ') true cs =
      ⟨pathLine (List.replicate (2 * d) ' ') cs ++ (segments (d + 1) cs).flatMap segmentLines, false⟩
  | [], _ => by rw [showCrits, segments]; rfl
  | .mk _ s sd ch :: _, h => by
    rw [segments] at h ⊢
    rw [showCrits, indent, showChildren_ok (d + 1) ch h, service_child]
    rfl
theorem showChildren_ok (d : Nat) : (cs : List Child) → (∀ x ∈ segmentsAll d cs, ∀ cid prov st l, x.2 = .mk cid prov st l → Stated st) →
    showChildren params (List.replicate (2 * d) ' ') cs = ⟨(segmentsAll d cs).flatMap segmentLines, false⟩
  | [], _ => by rw [showChildren, segmentsAll]; rfl
  | c :: cs, h => by
    rw [segmentsAll] at h ⊢
    rw [showChildren, showChild_ok d c fun x hx => h x (List.mem_append_left _ hx), showChildren_ok d cs fun x hx => h x (List.mem_append_right _ hx),
      next_ok, List.flatMap_append]
theorem showChild_ok (d : Nat) : (c : Child) → (∀ x ∈ segmentsOf d c, ∀ cid prov st l, x.2 = .mk cid prov st l → Stated st) →
    showChild params (List.replicate (2 * d) ' ') c = ⟨(segmentsOf d c).flatMap segmentLines, false⟩
  | .mk cid prov st cs, h => by
    rw [segmentsOf] at h ⊢
    rw [showChild, showHead_ok (h _ List.mem_cons_self _ _ _ _ rfl), showCrits_ok d cs fun x hx => h x (List.mem_cons_of_mem _ hx), next_ok,
      List.flatMap_cons, segmentLines]
    rw [optLine_none, optLine_none, List.append_nil, List.append_nil, ← List.append_assoc]
end

end

/-- A connection that can be shown: it and its segments have states. -/
def Showable (i : Info) : Prop := Stated i.states ∧ (∀ x ∈ segments 1 i.criterias, ∀ cid prov st l, x.2 = .mk cid prov st l → Stated st) ∧
  ∀ r s sd ch cs, i.criterias = .mk r s sd ch :: cs → sd.parameters = none

theorem showInfo_ok {params : List (Option Str × Option Str) → Str} {i : Info} (h : Showable i) :
    showInfo params i = ⟨connectionLines i ++ (segments 1 i.criterias).flatMap segmentLines, false⟩ := by
  obtain ⟨h1, h2, h3⟩ := h
  unfold showInfo connectionLines
  rw [showHead_ok h1]
  cases hc : i.criterias with
  | nil => rw [showCrits, segments]; simp [next_ok, List.nil_append]
  | cons c cs =>
    obtain ⟨r, s, sd, ch⟩ := c
    rw [hc, segments] at h2
    rw [segments, showCrits]
    have := showChildren_ok (params := params) 1 ch h2
    rw [show ([] : Str) ++ "  ".toList = List.replicate (2 * 1) ' ' from rfl, this]
    rw [next_ok, next_ok, service_top s sd (h3 r s sd ch cs hc), ← List.append_assoc]
    rfl

/-- C97: for an answer with results, the command line tool prints, without error, a line that says so, then for each connection of the answer,
in their order, its id and provider, global id and description if there are any, states, times, ends and service, and then for each of its
segments, each before its own segments, indented by two blanks per level, id, provider, states and ends; nothing else, but a blank line
before each and at the end. -/
theorem C97_answer (params : List (Option Str × Option Str) → Str) (is : List Info) (hne : is ≠ []) (h : ∀ i ∈ is, Showable i) :
    showAnswer params is = ⟨["Query results:".toList] ++ (is.flatMap fun i => connectionLines i ++ (segments 1 i.criterias).flatMap segmentLines) ++ [[]], false⟩ := by
  have all : ∀ l : List Info, (∀ i ∈ l, Showable i) → showInfos params l = ⟨l.flatMap fun i => connectionLines i ++ (segments 1 i.criterias).flatMap segmentLines, false⟩ := by
    intro l
    induction l with
    | nil => intro _; rfl
    | cons i l ih =>
      intro h
      rw [showInfos, showInfo_ok (h i List.mem_cons_self), ih fun j hj => h j (List.mem_cons_of_mem _ hj), next_ok]
      rfl
  unfold showAnswer
  rw [if_neg (by simpa using hne), all is h, next_ok, next_ok]

/-- C97: for an answer without results, the tool says that there are none. -/
theorem C97_nothing (params : List (Option Str × Option Str) → Str) : showAnswer params [] = ⟨["No results from query".toList], false⟩ := rfl

/-! ### From the provider to the screen -/

/-- What is not sent is not shown either. -/
def bareSeg (x : Nat × Child) : Nat × Child := (x.1, x.2.bare)

mutual
theorem segments_bare (d : Nat) : (cs : List Crit) → segments d (critsBare cs) = (segments d cs).map bareSeg
  | [] => by rw [critsBare, segments]; rfl
  | .mk _ _ _ ch :: _ => by rw [critsBare, Crit.bare, segments, segments, segmentsAll_bare d ch]
theorem segmentsAll_bare (d : Nat) : (cs : List Child) → segmentsAll d (childrenBare cs) = (segmentsAll d cs).map bareSeg
  | [] => by rw [childrenBare, segmentsAll]; rfl
  | c :: cs => by rw [childrenBare, segmentsAll, segmentsAll, segmentsOf_bare d c, segmentsAll_bare d cs, List.map_append]
theorem segmentsOf_bare (d : Nat) : (c : Child) → segmentsOf d c.bare = (segmentsOf d c).map bareSeg
  | .mk cid prov st cs => by rw [Child.bare, segmentsOf, segmentsOf, segments_bare (d + 1) cs, List.map_cons, bareSeg, Child.bare]
end

theorem segmentLines_bare (x : Nat × Child) : segmentLines (bareSeg x) = segmentLines x := by
  obtain ⟨d, cid, prov, st, cs⟩ := x
  cases cs with
  | nil => simp only [bareSeg, Child.bare, critsBare]
  | cons c cs => obtain ⟨r, s, sd, ch⟩ := c; simp only [bareSeg, Child.bare, critsBare, segmentLines, pathLine, Crit.bare, P2P.bare]

theorem bare_lines (d : Nat) (cs : List Crit) : (segments d (critsBare cs)).flatMap segmentLines = (segments d cs).flatMap segmentLines := by
  rw [segments_bare]
  generalize segments d cs = l
  induction l with
  | nil => rfl
  | cons x l ih => rw [List.map_cons, List.flatMap_cons, List.flatMap_cons, ih, segmentLines_bare]

theorem connectionLines_bare (i : Info) : connectionLines { i with criterias := critsBare i.criterias } = connectionLines i := by
  unfold connectionLines
  cases hc : i.criterias with
  | nil => simp only [critsBare]
  | cons c cs => obtain ⟨r, s, sd, ch⟩ := c; simp only [critsBare, Crit.bare, P2P.bare]

mutual
theorem segments_stated (d : Nat) : (cs : List Crit) → critsOk cs → ∀ x ∈ segments d cs, ∀ cid prov st l, x.2 = .mk cid prov st l → Stated st
  | [], _ => by rw [segments]; intro x hx; cases hx
  | .mk _ _ _ ch :: _, h => by rw [segments]; exact segmentsAll_stated d ch h.1.2.2.2
theorem segmentsAll_stated (d : Nat) : (cs : List Child) → childrenOk cs → ∀ x ∈ segmentsAll d cs, ∀ cid prov st l, x.2 = .mk cid prov st l → Stated st
  | [], _ => by rw [segmentsAll]; intro x hx; cases hx
  | c :: cs, h => by
    rw [segmentsAll]
    intro x hx
    rcases List.mem_append.mp hx with hx | hx
    · exact segmentsOf_stated d c h.1 x hx
    · exact segmentsAll_stated d cs h.2 x hx
theorem segmentsOf_stated (d : Nat) : (c : Child) → c.Ok → ∀ x ∈ segmentsOf d c, ∀ cid prov st l, x.2 = .mk cid prov st l → Stated st
  | .mk cid prov st cs, h => by
    rw [segmentsOf]
    intro x hx
    rcases List.mem_cons.mp hx with rfl | hx
    · intro _ _ _ _ e
      cases e
      exact ⟨h.2.2.1.1, h.2.2.1.2.1, h.2.2.1.2.2.1⟩
    · exact segments_stated (d + 1) cs h.2.2.2.2 x hx
end

/-- C97, recursive queries: whatever connections a provider answers with, the message is understood, and what is printed are the lines of these
connections and their segments, as the provider has them. Missing: criteria with more than ten children (their order can change, see
`C46_order_fails`). -/
theorem C97_recursive_partial (params : List (Option Str × Option Str) → Str) (u : Uncommon) (h : NHeader) (proto fresh : Str) (is : List Info)
    (hi : ∀ i ∈ is, i.Ok) (hn : ∀ i ∈ is, critsNarrow i.criterias) (hp : ∀ i ∈ is, i.provider = some h.providerNSA) (hne : is ≠ []) :
    ∃ hd body answer, parseRequest fresh (wire (soapPayload [recursiveXml is] [createHeader h proto])) = .ok (hd, [body]) ∧
      readRecursive u hd.providerNSA body = .ok answer ∧ showAnswer params answer =
        ⟨["Query results:".toList] ++ (is.flatMap fun i => connectionLines i ++ (segments 1 i.criterias).flatMap segmentLines) ++ [[]], false⟩ := by
  obtain ⟨hd, body, e1, e2⟩ := C46_tree_partial u h proto fresh is hi hn hp
  refine ⟨hd, body, _, e1, e2, ?_⟩
  rw [C97_answer]
  · congr 3
    rw [List.flatMap_map]
    congr 1
    funext i
    rw [connectionLines_bare, bare_lines]
  · simpa using hne
  · intro j hj
    obtain ⟨i, hm, rfl⟩ := List.mem_map.mp hj
    obtain ⟨_, _, h3, h4⟩ := hi i hm
    refine ⟨⟨h3.1, h3.2.1, h3.2.2.1⟩, ?_, ?_⟩
    · simp only
      rw [segments_bare]
      intro x hx cid prov st l e
      obtain ⟨y, hy, rfl⟩ := List.mem_map.mp hx
      obtain ⟨d, c⟩ := y
      obtain ⟨a, b, st', cs⟩ := c
      rw [bareSeg, Child.bare] at e
      cases e
      exact segments_stated 1 i.criterias h4 _ hy _ _ _ _ rfl
    · intro r s sd ch cs e
      cases hc : i.criterias with
      | nil => simp [hc, critsBare] at e
      | cons c cs =>
        obtain ⟨_, _, sd', _⟩ := c
        simp only [hc, critsBare, Crit.bare, List.cons.injEq, Crit.mk.injEq] at e
        rw [← e.1.2.2.1]
        rfl

/-- C97, summaries: whatever connections a provider answers with, the answer is understood, and what is printed are the lines of these
connections, as the provider has them, without segments. -/
theorem C97_summary (params : List (Option Str × Option Str) → Str) (u : Uncommon) (h : HeaderIn) (fresh : Str) (is : List Info)
    (hi : ∀ i ∈ is, i.cid.isSome ∧ i.requester.isSome ∧ i.states.Ok ∧ ∀ c ∈ i.criterias, c.SummaryOk) (p : Str) (hh : h.providerNSA = some p)
    (hp : ∀ i ∈ is, i.provider = some p) (hne : is ≠ []) :
    ∃ answer, readSyncAnswer u fresh (wire (syncAnswer h is)) = .ok answer ∧
      showAnswer params answer = ⟨["Query results:".toList] ++ is.flatMap connectionLines ++ [[]], false⟩ := by
  refine ⟨_, C61_sync u fresh h is hi p hh, ?_⟩
  have none_ : ∀ cs : List Crit, segments 1 (cs.map Crit.summary) = [] := by
    intro cs
    cases cs with
    | nil => rw [List.map_nil, segments]
    | cons c cs => obtain ⟨_, _, _, _⟩ := c; rw [List.map_cons, Crit.summary, segments, segmentsAll]
  rw [C97_answer]
  · congr 3
    rw [List.flatMap_map]
    simp only [none_, List.flatMap_nil, List.append_nil]
    have : ∀ i ∈ is, connectionLines { i with criterias := i.criterias.map Crit.summary, provider := some p } = connectionLines i := by
      intro i hm
      rw [← hp i hm]
      unfold connectionLines
      cases hc : i.criterias with
      | nil => simp only [List.map_nil]
      | cons c cs => obtain ⟨_, _, _, _⟩ := c; simp only [List.map_cons, Crit.summary, P2P.bare]
    clear hi hp hne
    induction is with
    | nil => rfl
    | cons i is ih => rw [List.flatMap_cons, List.flatMap_cons, this i List.mem_cons_self, ih fun j hj => this j (List.mem_cons_of_mem _ hj)]
  · simpa using hne
  · intro j hj
    obtain ⟨i, hm, rfl⟩ := List.mem_map.mp hj
    obtain ⟨_, _, h3, _⟩ := hi i hm
    refine ⟨⟨h3.1, h3.2.1, h3.2.2.1⟩, ?_, ?_⟩
    · simp only
      rw [none_]
      intro x hx
      cases hx
    · intro r s sd ch cs e
      cases hc : i.criterias with
      | nil => simp [hc] at e
      | cons c cs =>
        obtain ⟨_, _, sd', _⟩ := c
        simp only [hc, List.map_cons, Crit.summary, List.cons.injEq, Crit.mk.injEq] at e
        rw [← e.1.2.2.1]
        rfl

namespace Ex

/-- A connection with two segments, the second of which has a segment. -/
def tree : Info := Wire.Ex.info [Wire.Ex.leafChild 1, .mk (some "B".toList) (some "urn:b".toList) (Wire.Ex.states (some 0)) [.mk 0 Wire.Ex.sched Wire.Ex.svc [Wire.Ex.leafChild 2]]]

end Ex

/-- C97_answer, C97_recursive_partial, C97_summary: the tree above meets the hypotheses. -/
example : Ex.tree.Ok ∧ critsNarrow Ex.tree.criterias ∧ Ex.tree.provider = some Wire.Ex.hdr.providerNSA ∧ (∀ c ∈ Ex.tree.criterias, c.SummaryOk) ∧
    (Wire.Ex.hdr.arrived []).providerNSA = some Wire.Ex.hdr.providerNSA := by
  refine ⟨Wire.Ex.info_ok _ ⟨Wire.Ex.leafChild_ok 1, ⟨rfl, rfl, ⟨rfl, rfl, rfl, rfl⟩, by simp, ⟨Wire.Ex.sched_ok.1, Wire.Ex.sched_ok.2, ⟨Wire.Ex.stp_ok.1, Wire.Ex.stp_ok.2, rfl⟩, Wire.Ex.leafChild_ok 2, trivial⟩, trivial⟩, trivial⟩, ?_, rfl, ?_, rfl⟩
  · simp [Ex.tree, Wire.Ex.info, critsNarrow, Crit.Narrow, childrenNarrow, Child.Narrow, Wire.Ex.leafChild]
  · intro c hc
    simp only [Ex.tree, Wire.Ex.info, List.mem_singleton] at hc
    subst hc
    exact ⟨Wire.Ex.sched_ok.1, Wire.Ex.sched_ok.2, Wire.Ex.stp_ok.1, Wire.Ex.stp_ok.2, rfl⟩

/-- What is printed for it. -/
example : showAnswer (fun _ => []) [Ex.tree] = ⟨["Query results:", "", "Connection   A-1 (urn:nsa)", "Global ID    gid", "States       ReserveHeld, Released, Created",
    "Dataplane    Active : False, Version: 0, Consistent True", "Start-End    2023-12-24 07:33:20 - None", "Path         north:p1 -- south:p2",
    "Bandwidth    200", "Direction    Bidirectional",
    "", "  Connection   C-1 (urn:peer)", "  States       ReserveHeld, Released, Created", "  Dataplane    Active : False, Version: 0, Consistent True",
    "  Path         north:p1 -- south:p2",
    "", "  Connection   B (urn:b)", "  States       ReserveHeld, Released, Created", "  Dataplane    Active : False, Version: 0, Consistent True",
    "  Path         north:p1 -- south:p2",
    "", "    Connection   C-2 (urn:peer)", "    States       ReserveHeld, Released, Created", "    Dataplane    Active : False, Version: 0, Consistent True",
    "    Path         north:p1 -- south:p2", ""].map String.toList, false⟩ := by
  decide +kernel

end OpenNSA.Cli
