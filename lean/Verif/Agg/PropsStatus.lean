import Verif.Agg.Spec
import Verif.Agg.Examples
/- C35 (aggregate status, as functions of the segments) and C55 (failed sub-operations). -/
namespace OpenNSA.Agg
open OpenNSA Py Coro

/-! ### C35 -/

theorem foldl_max_ge (l : List Int) : ∀ a : Int, a ≤ l.foldl max a ∧ ∀ x ∈ l, x ≤ l.foldl max a := by
  induction l with
  | nil => intro a; simp
  | cons y ys ih =>
    intro a
    simp only [List.foldl_cons]
    have := ih (max a y)
    refine ⟨Int.le_trans (Int.le_max_left a y) this.1, ?_⟩
    intro x hx
    rcases List.mem_cons.mp hx with rfl | hx
    · exact Int.le_trans (Int.le_max_right a x) this.1
    · exact this.2 x hx

theorem foldl_max_mem (l : List Int) : ∀ a : Int, l.foldl max a = a ∨ l.foldl max a ∈ l := by
  induction l with
  | nil => intro a; simp
  | cons y ys ih =>
    intro a
    simp only [List.foldl_cons]
    rcases ih (max a y) with h | h
    · rw [h]
      rcases Int.le_total a y with hay | hay
      · rw [Int.max_eq_right hay]; right; simp
      · rw [Int.max_eq_left hay]; left; rfl
    · right; simp [h]

theorem maxInt_spec (l : List Int) (h : l ≠ []) : maxInt l ∈ l ∧ ∀ x ∈ l, x ≤ maxInt l := by
  cases l with
  | nil => exact absurd rfl h
  | cons a l =>
    refine ⟨?_, ?_⟩
    · rcases foldl_max_mem l a with h | h <;> simp [maxInt, h]
    · intro x hx
      rcases List.mem_cons.mp hx with rfl | hx
      · exact (foldl_max_ge l x).1
      · exact (foldl_max_ge l a).2 x hx

/-- `v` is the greatest of the versions of the segments, a missing version counting as 0. -/
def GreatestVersion (subs : List SRow) (v : Int) : Prop :=
  (∃ s ∈ subs, s.dpVersion.getD 0 = v) ∧ ∀ s ∈ subs, s.dpVersion.getD 0 ≤ v

theorem maxInt_greatest (subs : List SRow) (h : subs ≠ []) : GreatestVersion subs (maxInt (subs.map fun s => s.dpVersion.getD 0)) := by
  have := maxInt_spec (subs.map fun s => s.dpVersion.getD 0) (by simpa using h)
  refine ⟨?_, fun s hs => this.2 _ (List.mem_map.mpr ⟨s, hs, rfl⟩)⟩
  obtain ⟨s, hs, he⟩ := List.mem_map.mp this.1
  exact ⟨s, hs, he⟩

/-- All segments have reported that they are consistent. -/
def AllConsistent (subs : List SRow) : Prop := ∀ s ∈ subs, s.dpCons = some true

/-- All segments are active, or none is. -/
def Agree (subs : List SRow) : Prop := ∀ s ∈ subs, ∀ t ∈ subs, s.dpActive = t.dpActive

theorem allConsistent_iff (subs : List SRow) : (subs.all fun s => s.dpCons.getD false) = true ↔ AllConsistent subs := by
  rw [List.all_eq_true]
  constructor
  · intro h s hs
    have := h s hs
    cases hc : s.dpCons with
    | none => rw [hc] at this; cases this
    | some b => rw [hc] at this; rw [show b = true from this]
  · intro h s hs
    rw [h s hs]; rfl

/-- Summary query: active exactly when there are segments and all of them are active; the version is the greatest; consistent when there are
segments and all are (see `C35_consistent_fails`). -/
theorem C35_summary (subs : List SRow) :
    ((summaryStatus subs).1 = true ↔ subs ≠ [] ∧ ∀ s ∈ subs, s.dpActive = true) ∧
    (subs ≠ [] → GreatestVersion subs (summaryStatus subs).2.1) ∧
    ((summaryStatus subs).2.2 = true ↔ subs ≠ [] ∧ AllConsistent subs) := by
  unfold summaryStatus
  by_cases h : subs = []
  · simp [h]
  · rw [if_neg h]
    exact ⟨by simp [h], fun _ => maxInt_greatest subs h, by simp only; rw [allConsistent_iff]; simp [h]⟩

/-- Data plane notification: likewise (it is only made for connections with segments); consistent when all segments are, and all or none is
active. -/
theorem C35_notification (subs : List SRow) (h : subs ≠ []) :
    ((changeStatus subs).1 = true ↔ ∀ s ∈ subs, s.dpActive = true) ∧ GreatestVersion subs (changeStatus subs).2.1 ∧
    ((changeStatus subs).2.2 = true ↔ AllConsistent subs ∧ Agree subs) := by
  refine ⟨by simp [changeStatus], maxInt_greatest subs h, ?_⟩
  unfold changeStatus
  simp only [Bool.and_eq_true]
  rw [allConsistent_iff]
  refine and_congr_right fun _ => ?_
  cases subs with
  | nil => exact absurd rfl h
  | cons x xs =>
    simp only [List.head?_cons, Option.map_some, Option.getD_some, List.all_eq_true]
    constructor
    · intro hx s hs t ht
      rw [of_decide_eq_true (hx s hs), of_decide_eq_true (hx t ht)]
    · intro ha s hs
      exact decide_eq_true (ha s hs x (by simp))

/-- Recursive query: likewise if the computation succeeds, which it does if there is at most one segment or all segments have
a version. -/
theorem C35_recursive (subs : List SRow) (d : DPS) (hd : recursiveStatus subs = .ok d) :
    (d.1 = true ↔ subs ≠ [] ∧ ∀ s ∈ subs, s.dpActive = true) ∧ (subs ≠ [] → GreatestVersion subs d.2.1) ∧
    (d.2.2 = true ↔ subs ≠ [] ∧ AllConsistent subs) := by
  unfold recursiveStatus at hd
  by_cases h : subs = []
  · rw [if_pos h] at hd; cases hd; simp [h]
  · rw [if_neg h] at hd
    have hv : ∀ v, maxVersion (subs.map (·.dpVersion)) = .ok v → v = maxInt (subs.map fun s => s.dpVersion.getD 0) := by
      intro v hv
      match subs, h, hv with
      | [s], _, hv => simp [maxVersion] at hv; simp [maxInt, hv]
      | s :: t :: rest, _, hv =>
        simp only [List.map_cons, maxVersion] at hv
        split at hv
        · simp only [Except.ok.injEq] at hv
          rw [← hv]
          simp [Function.comp_def]
        · cases hv
    split at hd
    · cases hd
    · rename_i v hm
      cases hd
      exact ⟨by simp [h], fun _ => hv v hm ▸ maxInt_greatest subs h, by simp only; rw [allConsistent_iff]; simp [h]⟩

theorem C35_recursive_defined (subs : List SRow) (h : subs.length ≤ 1 ∨ ∀ s ∈ subs, s.dpVersion ≠ none) :
    ∃ d, recursiveStatus subs = .ok d := by
  unfold recursiveStatus
  match subs, h with
  | [], _ => exact ⟨_, rfl⟩
  | [s], _ => exact ⟨_, rfl⟩
  | s :: t :: rest, h =>
    rcases h with h | h
    · simp at h
    · have hall : ((s :: t :: rest).map (·.dpVersion)).all (·.isSome) = true := by
        refine List.all_eq_true.mpr fun x hx => ?_
        obtain ⟨y, hy, rfl⟩ := List.mem_map.mp hx
        exact Option.isSome_iff_ne_none.mpr (h y hy)
      simp only [List.map_cons] at hall
      simp [maxVersion, hall]

def Ex.sub (active : Bool) (v : Option Int) : SRow :=
  ⟨1, 1, ['s'], ['m'], 0, ⟨.start, .provisioned, .created⟩, active, v, some true, Ex.src, Ex.dst⟩

example : summaryStatus [Ex.sub true (some 3), Ex.sub true none] = (true, 3, true) ∧ changeStatus [Ex.sub true (some 3), Ex.sub false (some 7)]
    = (false, 7, false) ∧ recursiveStatus [Ex.sub true (some 3), Ex.sub true (some 4)] = .ok (true, 4, true) := by decide

/-- A recursive query of a connection with two segments that have not reported a data plane version yet raises TypeError
(aggregator.py:809), although the status is well defined. -/
theorem C35_recursive_fails : ¬ ∀ subs : List SRow, ∃ d, recursiveStatus subs = .ok d := by
  intro h
  obtain ⟨d, hd⟩ := h [Ex.sub false none, Ex.sub false none]
  rw [show recursiveStatus [Ex.sub false none, Ex.sub false none] = .error .type by decide] at hd
  cases hd

/-- The answer to a query says that a connection is consistent although one of its segments is up and another is down; the notification about the
same segments says that it is not (aggregator.py:712, 810 and 1174-1176). -/
theorem C35_consistent_fails : ∃ subs : List SRow, ¬ Agree subs ∧ (summaryStatus subs).2.2 = true ∧ recursiveStatus subs = .ok (false, 1, true) ∧
    (changeStatus subs).2.2 = false := by
  refine ⟨[Ex.sub true (some 1), Ex.sub false (some 1)], ?_, by decide, by decide, by decide⟩
  intro h
  exact absurd (h (Ex.sub true (some 1)) (by simp) (Ex.sub false (some 1)) (by simp)) (by decide)

/-! ### C55 -/

/-- The outcome is a failure. -/
def isFailure : Except Err Str → Bool
  | .error _ => true
  | .ok _ => false

theorem allOk_iff (results : List (Except Err Str)) : allOk results = true ↔ ∀ r ∈ results, isFailure r = false := by
  unfold allOk
  rw [List.all_eq_true]
  refine forall_congr' fun r => forall_congr' fun _ => ?_
  cases r <;> simp [isFailure]

theorem failures_append (a b : List (Except Err Str)) : failures (a ++ b) = failures a ++ failures b := by
  simp [failures]

theorem failures_nil {results : List (Except Err Str)} (h : ∀ r ∈ results, isFailure r = false) : failures results = [] := by
  unfold failures
  rw [List.filterMap_eq_nil_iff]
  intro r hr
  have := h r hr
  cases r with
  | ok v => rfl
  | error e => simp [isFailure] at this

theorem failures_length (results : List (Except Err Str)) : (failures results).length = (results.filter isFailure).length := by
  induction results with
  | nil => rfl
  | cons r rs ih =>
    cases r with
    | ok v => simpa [failures, isFailure] using ih
    | error e =>
      rw [List.filter_cons_of_pos (by rfl)]
      simpa [failures] using ih

/-- If no segment fails, the operation is acknowledged. -/
theorem C55_success (cid action : Str) (subs : List SRow) (results : List (Except Err Str)) (h : ∀ r ∈ results, isFailure r = false) :
    answer cid action subs results = Coro.pure (some cid) := by
  unfold answer
  rw [if_pos ((allOk_iff results).mpr h)]

/-- If exactly one fails, the requester gets that failure. -/
theorem C55_single (cid action : Str) (subs : List SRow) (pre post : List (Except Err Str)) (e : Err)
    (h1 : ∀ r ∈ pre, isFailure r = false) (h2 : ∀ r ∈ post, isFailure r = false) :
    answer cid action subs (pre ++ .error e :: post) = Coro.throw e ∧
    ∀ urns create, aggException action (pre ++ .error e :: post) urns create = e := by
  have hf : failures (pre ++ .error e :: post) = [e] := by
    rw [failures_append, failures_nil h1]
    show [] ++ (e :: failures post) = [e]
    rw [failures_nil h2]
    rfl
  have ha : ∀ urns create, aggException action (pre ++ .error e :: post) urns create = e := by
    intro urns create; unfold aggException; rw [hf]
  refine ⟨?_, ha⟩
  unfold answer
  rw [if_neg, ha]
  intro h
  have := (allOk_iff _).mp h (.error e) (by simp)
  simp [isFailure] at this

theorem mem_joinText {sep s : Str} : ∀ {l : List Str}, s ∈ l → s <:+: joinText sep l
  | [t], h => by rw [List.mem_singleton.mp h]; exact List.infix_rfl
  | t :: u :: rest, h => by
    simp only [joinText]
    rcases List.mem_cons.mp h with rfl | h
    · exact ⟨[], sep ++ joinText sep (u :: rest), by simp⟩
    · obtain ⟨a, b, hab⟩ := mem_joinText (sep := sep) h
      exact ⟨t ++ sep ++ a, b, by rw [← hab]; simp⟩

/-- If several fail, the requester gets one error naming each failing provider with its failure. -/
theorem C55_several (action : Str) (results : List (Except Err Str)) (urns : List Str) (create : Bool)
    (h : 2 ≤ (results.filter isFailure).length) :
    ∃ msg, aggException action results urns create = .aggregate create msg ∧
      ∀ (i : Nat) (e : Err) (u : Str), results[i]? = some (.error e) → urns[i]? = some u → (u ++ ": ".toList ++ e.message) <:+: msg := by
  rw [← failures_length] at h
  unfold aggException
  match hf : failures results with
  | [] => rw [hf] at h; simp at h
  | [x] => rw [hf] at h; simp at h
  | x :: y :: zs =>
    refine ⟨_, rfl, ?_⟩
    intro i e u hr hu
    have hz : (urns.zip results)[i]? = some (u, .error e) := by
      rw [List.getElem?_zip_eq_some]; exact ⟨hu, hr⟩
    have hm : (u ++ ": ".toList ++ e.message) ∈ providerFailures urns results := by
      refine List.mem_filterMap.mpr ⟨_, List.mem_of_getElem? hz, rfl⟩
    exact (mem_joinText (sep := ['\n', ' ', ' ']) hm).trans (List.suffix_append _ _).isInfix

example : (2 : Nat) ≤ (([.error (.remote ['x'] ['n']), .ok ['s'], .error .gone] : List (Except Err Str)).filter isFailure).length := by decide
example : aggException tProvision [.error (.remote ['x'] ['n', 'o']), .ok ['s'], .error (.remote ['y'] ['n', 'e'])] [['A'], ['B'], ['C']] false
    = .aggregate false "2/3 provision failed:\n  A: no\n  C: ne".toList := by decide +kernel

/-- If several providers fail, the operation fails with one error about the connection, that names each of them with its failure. -/
theorem C55_operations (cid action : Str) (subs : List SRow) (results : List (Except Err Str)) (h : 2 ≤ (results.filter isFailure).length) :
    ∃ msg, answer cid action subs results = Coro.throw (.aggregate false msg) ∧
      ∀ (i : Nat) (e : Err) (s : SRow), results[i]? = some (.error e) → subs[i]? = some s → (s.prov ++ ": ".toList ++ e.message) <:+: msg := by
  obtain ⟨msg, h1, h2⟩ := C55_several action results (subs.map (·.prov)) false h
  refine ⟨msg, ?_, fun i e s hr hs => h2 i e s.prov hr (by rw [List.getElem?_map, hs]; rfl)⟩
  unfold answer
  rw [if_neg, h1]
  intro hk
  have hn : results.filter isFailure = [] := List.filter_eq_nil_iff.mpr fun r hr => by simp [(allOk_iff results).mp hk r hr]
  rw [hn] at h
  exact absurd h (by decide)

/-- The failure of an abort is not reported: computing the message raises TypeError (`len(n_success)` of a number, aggregator.py:533). -/
theorem C55_abort_fails : ¬ ∀ (w : World) (o : Oracle) (h : Hdr) (cid : Str) (e : Err), SReach Ex.cfg w →
    o.acks = [.error e] → (Agg.step Ex.cfg w o (.abort h cid)).1.sent.length = w.sent.length + 1 →
    (Agg.step Ex.cfg w o (.abort h cid)).2 = .error e := by
  intro h
  let c : Crit := ⟨Ex.src, ⟨['A'], ['y'], Ex.vlan 1 9⟩, none, none, 5⟩
  let w1 := (Agg.step Ex.cfg .init Ex.o (.reserve Ex.hdr none c)).1
  let w2 := (Agg.step Ex.cfg w1 {} (.reserveConfirmed ⟨['m'], ['1']⟩ ['s', '1'] c)).1
  exact absurd (h w2 { acks := [.error .gone] } Ex.hdr ['c', '1'] .gone ((SReach.init.step _ _).step _ _) rfl (by decide +kernel))
    (by decide +kernel)

end OpenNSA.Agg
