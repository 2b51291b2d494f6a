import Verif.Backend.SpecReserve
/-
A small configuration used by the examples and counterexamples of the backend properties.
-/
namespace OpenNSA.Backend.Ex
open OpenNSA Py

/-- Labels `vlan lo-hi`. -/
def vlan (lo hi : Int) : Label := { type_ := tVlan, values := [(lo, hi)] }

theorem fromText_10_30 : (vlan 10 30).FromText := ⟨"10-30".toList, by decide +kernel⟩
theorem fromText_1_20 : (vlan 1 20).FromText := ⟨"1-20".toList, by decide +kernel⟩
theorem fromText_12_20 : (vlan 12 20).FromText := ⟨"12-20".toList, by decide +kernel⟩
theorem fromText_12_13 : (vlan 12 13).FromText := ⟨"12-13".toList, by decide +kernel⟩
theorem fromText_15_18 : (vlan 15 18).FromText := ⟨"15-18".toList, by decide +kernel⟩

/-- Resources as in backends/dud.py:37-39 (with the port names as NRM ports): port and label value. -/
def getResource (port : Str) : Option LabelVal → Str
  | none => port ++ [':']
  | some (_, v) => port ++ ':' :: showInt v

/-- Network `n` with ports `a`, `b` carrying vlans 10-30, port `c` without label. -/
def cfg (swap : Bool) : Cfg where
  network := ['n']
  ports := [(['a'], ⟨some (vlan 10 30), [], false⟩), (['b'], ⟨some (vlan 10 30), [], true⟩), (['c'], ⟨none, [⟨['u', 's', 'e', 'r'], ['x']⟩], false⟩)]
  mgr := ⟨getResource, fun _ => swap, none⟩
  minDuration := 60

/-- A requester with the credential of port `c`. -/
def hdr : Hdr := ⟨['r'], ['k'], [⟨['u', 's', 'e', 'r'], ['x']⟩], none⟩

/-- The termination point of a port with vlans `lo-hi`. -/
def stp (port : Char) (lo hi : Int) : STP := ⟨['n'], [port], some (vlan lo hi)⟩

/-- An empty backend at 1000 seconds. -/
def w0 : World := World.init [] (1000 * second)

/-- Seconds. -/
def sec (n : Int) : Time := n * second

/-- Oracle supplying a connection id. -/
def ids (c : Char) : Oracle := { ids := [[c]] }

/-- Request: `a` to `b`, vlans 12-20, from 2000 s to 3000 s. -/
def rsv : Ev := .req hdr (.reserve none (stp 'a' 12 20) (stp 'b' 12 20) (some (sec 2000)) (some (sec 3000)))

theorem textLabels (swap : Bool) {src dst : STP} (hs : ∀ l, src.label = some l → l.FromText) (hd : ∀ l, dst.label = some l → l.FromText) :
    TextLabels (cfg swap) src dst := by
  refine ⟨hs, hd, ?_⟩
  intro n p l hp hl
  simp only [cfg, dget] at hp
  split at hp
  · simp at hp; subst hp; simp at hl; subst hl; exact fromText_10_30
  · split at hp
    · simp at hp; subst hp; simp at hl; subst hl; exact fromText_10_30
    · split at hp
      · simp at hp; subst hp; simp at hl
      · simp at hp

/-- A request of that requester. -/
def req (q : Req) : Ev := .req hdr q

/-- Decides `CleanStep`. -/
def cleanB (e : Ev) (w' : World) (r : Except Err (Option Str)) : Bool :=
  match e with
  | .req _ (.reserve _ _ _ st en) =>
    decide (r ≠ .error .db) && decide (w'.clk < forever) &&
      (match st, en with
      | none, some x => decide (w'.clk ≤ x)
      | _, _ => true)
  | .req _ (.terminate _) => decide (r ≠ .error .parent)
  | .restart => match r with
    | .ok _ => true
    | .error _ => false
  | _ => true

theorem cleanB_sound {e : Ev} {w' : World} {r : Except Err (Option Str)} (h : cleanB e w' r = true) : CleanStep e w' r := by
  unfold cleanB at h
  unfold CleanStep
  split at h
  · rename_i st en
    simp only [Bool.and_eq_true, decide_eq_true_eq] at h
    refine ⟨h.1.1, h.1.2, ?_⟩
    rintro rfl x rfl _
    simpa using h.2
  · simpa using h
  · split at h
    · exact ⟨_, rfl⟩
    · exact absurd h (by simp)
  · rename_i h1 h2 h3
    split
    · exact absurd rfl (h1 _ _ _ _ _ _)
    · exact absurd rfl (h2 _ _)
    · exact absurd rfl h3
    · trivial

/-- The history is clean. -/
def cleanAll (cfg : Cfg) (w : World) : List (Oracle × Ev) → Bool
  | [] => true
  | (o, e) :: es => cleanB e (step cfg w o e).1 (step cfg w o e).2 && cleanAll cfg (step cfg w o e).1 es

theorem hist_runAll {cfg : Cfg} {w0 : World} : ∀ (es : List (Oracle × Ev)) {w : World}, Hist cfg w0 w → cleanAll cfg w es = true →
    Hist cfg w0 (runAll cfg w es)
  | [], _, h, _ => h
  | (o, e) :: es, w, h, hc => by
    simp only [cleanAll, Bool.and_eq_true] at hc
    exact hist_runAll es (.step o e h (cleanB_sound hc.1)) hc.2

theorem reach_runAll {cfg : Cfg} {es : List (Oracle × Ev)} (hc : cleanAll cfg w0 es = true) : Reach cfg (runAll cfg w0 es) :=
  Reach.hist (Reach.init [] _) (hist_runAll es .refl hc)

instance (w : World) (c : Str) : Decidable (w.up c) := inferInstanceAs (Decidable (c ∈ w.links))

theorem pair {α β : Type} {x : α × β} {b : β} (h : x.2 = b) : x = (x.1, b) := Prod.ext rfl h

/-- No particular choices. -/
def o0 : Oracle := {}

/-- A reserved connection `x`. -/
def h1 : List (Oracle × Ev) := [(ids 'x', rsv)]
/-- Committed too. -/
def h2 : List (Oracle × Ev) := h1 ++ [(o0, req (.commit ['x']))]
/-- Provisioned too, and activated after its start time; meanwhile `y` was reserved. -/
def h3 : List (Oracle × Ev) := h2 ++
  [(o0, req (.provision ['x'])), (ids 'y', rsv), (o0, .wait 1000000000), (o0, .fire ['x'])]

end OpenNSA.Backend.Ex
