import Verif.PyLemmas
/-
Model of /repo/opennsa/topology/linkvector.py.
-/
namespace OpenNSA
open Py

/-- `{ network : cost }`, linkvector.py:35. Costs are integers. -/
abbrev Vec := List (Str × Int)
/-- `self.vectors`: `(network, port) -> { network : cost }`, linkvector.py:35. -/
abbrev Vectors := List ((Str × Str) × Vec)
/-- `dist` of `_dijkstra`, linkvector.py:136. -/
abbrev Dist := List (Str × Int)
/-- `prev` of `_dijkstra`, linkvector.py:137. -/
abbrev Prev := List (Str × (Str × Str))

/-- What `_dijkstra` reads: vectors, blacklist, maximum cost (linkvector.py:28-35). -/
structure LvCfg where
  vectors : Vectors
  black : List Str
  maxCost : Int
  deriving DecidableEq, Repr

/-- Body of the innermost loop of `_dijkstra`, linkvector.py:155-166. -/
def relaxOne (g : LvCfg) (src u : Str) (uCost : Int) (port : Str) (st : Dist × Prev) (e : Str × Int) : Dist × Prev :=
  if e.1 = src then st                                                     -- line 155
  else if e.1 ∈ g.black then st                                            -- line 157
  else
    let destCost := uCost + e.2                                            -- line 159
    if destCost > g.maxCost then st                                        -- line 160
    else match dget st.1 e.1 with                                          -- line 163
      | none => (dset st.1 e.1 destCost, dset st.2 e.1 (u, port))          -- lines 164-166
      | some prevDist =>
        if destCost < prevDist then (dset st.1 e.1 destCost, dset st.2 e.1 (u, port)) else st

/-- The two nested loops, linkvector.py:153-166. -/
def relaxFrom (g : LvCfg) (src u : Str) (uCost : Int) (st : Dist × Prev) : Dist × Prev :=
  (g.vectors.filter fun pv => pv.1.1 = u).foldl
    (fun st pv => pv.2.foldl (relaxOne g src u uCost pv.1.2) st) st

/-- Strict lexicographic comparison of texts by code point (Python `str.__lt__`). -/
def strLt : Str → Str → Bool
  | [], [] => false
  | [], _ :: _ => true
  | _ :: _, [] => false
  | a :: as, b :: bs => a.toNat < b.toNat || (a = b && strLt as bs)

/-- Python `min` of a list of `(cost, network)` tuples, linkvector.py:151; `none` for the empty list. -/
def minCost : List (Int × Str) → Option (Int × Str)
  | [] => none
  | m :: rest => some (rest.foldl (fun m x => if x.1 < m.1 || (x.1 = m.1 && strLt x.2 m.2) then x else m) m)

/-- The candidates of linkvector.py:146. -/
def candidates (unv : List Str) (dist : Dist) : List (Int × Str) :=
  (dist.filter fun e => e.1 ∈ unv).map fun e => (e.2, e.1)

/-- `set.remove(u)` on the list representing the set, linkvector.py:170. -/
def dropNet (u : Str) (l : List Str) : List Str := l.filter fun x => x ≠ u

/-- Removing a member makes the list shorter (termination of the loop below). -/
theorem length_dropNet_lt {u : Str} {l : List Str} (h : u ∈ l) : (dropNet u l).length < l.length :=
  List.length_filter_lt_length_iff_exists.mpr ⟨u, h, by simp⟩

/-- The `while` loop of `_dijkstra`, linkvector.py:139-172. The set of unvisited networks is a list. `none` models the
KeyError of `unvisited_networks.remove(u)` (line 170). -/
def dijLoop (g : LvCfg) (src : Str) (unv : List Str) (dist : Dist) (prev : Prev) : Option (Dist × Prev) :=
  if unv = [] then some (dist, prev)
  else
    let sel := if dist = [] then some ((0 : Int), src) else minCost (candidates unv dist)   -- lines 141-151
    match sel with
    | none => some (dist, prev)                                                             -- line 148
    | some (uCost, u) =>
      let st := relaxFrom g src u uCost (dist, prev)
      if u = src ∧ st.1 = [] then some st                                                   -- lines 167-168
      else if _h : u ∈ unv then dijLoop g src (dropNet u unv) st.1 st.2          -- line 170
      else none
termination_by unv.length
decreasing_by
  exact length_dropNet_lt _h

/-- The set built at linkvector.py:127-134. -/
def allNetworks (g : LvCfg) (localNets : List Str) : List Str :=
  (localNets ++ g.vectors.map (fun pv => pv.1.1) ++ g.vectors.flatMap (fun pv => pv.2.map (·.1))).filter
    fun x => x ∉ g.black

/-- `_dijkstra`, linkvector.py:124-172. -/
def dijkstra (g : LvCfg) (localNets : List Str) (src : Str) : Option (Dist × Prev) :=
  dijLoop g src (allNetworks g localNets) [] []

/-- Result of following `prev` links. -/
inductive PathRes
  | hops (l : List (Str × Str))   -- a path (linkvector.py:194)
  | keyError                      -- `prev[prev_network]` missing (line 191)
  | outOfFuel                     -- loop not finished within the fuel
  deriving DecidableEq, Repr

/-- The loop of `path`, linkvector.py:187-194, from the last network backwards: `acc` is the path so far (already
reversed). The unbounded `while` is given fuel; `outOfFuel` for every fuel means the loop does not end. -/
def pathLoop (prev : Prev) (src : Str) : Nat → Str → List (Str × Str) → PathRes
  | 0, _, _ => .outOfFuel
  | n + 1, net, acc =>
    match dget prev net with
    | none => .keyError
    | some hop => if hop.1 = src then .hops (hop :: acc) else pathLoop prev src n hop.1 (hop :: acc)

/-- `LinkVector` objects, linkvector.py:24-47. -/
structure LinkVector where
  localNets : List Str
  cfg : LvCfg
  netDist : List (Str × Dist)
  netPrev : List (Str × Prev)
  deriving DecidableEq, Repr

/-- `LinkVector()` before any local network is added, linkvector.py:28-44. -/
def LinkVector.new (black : List Str) (maxCost : Int) : LinkVector :=
  { localNets := [], cfg := { vectors := [], black, maxCost }, netDist := [], netPrev := [] }

/-- `_calculateVectors`, linkvector.py:114-121, over the given local networks; the Boolean is false when a KeyError
stopped it. -/
def calcOver (lv : LinkVector) : List Str → LinkVector × Bool
  | [] => (lv, true)
  | n :: ns =>
    match dijkstra lv.cfg lv.localNets n with
    | none => (lv, false)
    | some (d, p) => calcOver { lv with netDist := dset lv.netDist n d, netPrev := dset lv.netPrev n p } ns

/-- `_calculateVectors`, linkvector.py:114-121. -/
def LinkVector.calculate (lv : LinkVector) : LinkVector × Bool := calcOver lv lv.localNets

/-- Updates of a `LinkVector`. -/
inductive LvOp
  | addLocal (network : Str)
  | update (network port : Str) (vec : Vec)
  | delete (network port : Str)
  deriving DecidableEq, Repr

/-- The loop of `updateVector` over an existing entry, linkvector.py:85-96: only destinations that are not there yet
are stored; a changed cost is logged but not stored. -/
def mergeVec (old : Vec) (new : Vec) : Vec :=
  new.foldl (fun v e => match dget v e.1 with | none => dset v e.1 e.2 | some _ => v) old

/-- `updateVector` on the table, linkvector.py:83-100. Not modelled: the table keeps a reference to the caller's
dictionary (line 98). -/
def updateTable (v : Vectors) (network port : Str) (vec : Vec) : Vectors :=
  match dget v (network, port) with
  | some old => dset v (network, port) (mergeVec old vec)
  | none => dset v (network, port) vec

/-- One update: `addLocalNetwork` (linkvector.py:66-76), `updateVector` (81-103), `deleteVector` (106-111).
The Boolean tells whether the call returned normally (`deleteVector` swallows KeyError). -/
def LinkVector.step (lv : LinkVector) : LvOp → LinkVector × Bool
  | .addLocal n =>
    if n ∈ lv.localNets then (lv, false)                     -- line 68
    else ({ lv with localNets := lv.localNets ++ [n], netDist := dset lv.netDist n [], netPrev := dset lv.netPrev n [] }).calculate
  | .update n p vec => ({ lv with cfg := { lv.cfg with vectors := updateTable lv.cfg.vectors n p vec } }).calculate
  | .delete n p =>
    match dget lv.cfg.vectors (n, p) with
    | none => (lv, true)                                     -- lines 110-111
    | some _ => ((({ lv with cfg := { lv.cfg with vectors := ddel lv.cfg.vectors (n, p) } }).calculate).1, true)

/-- Answer of `path`. -/
inductive PathAns
  | notLocal                      -- ValueError (linkvector.py:180)
  | noPath                        -- None (line 183)
  | res (r : PathRes)
  deriving DecidableEq, Repr

/-- `path`, linkvector.py:175-194. -/
def LinkVector.path (lv : LinkVector) (fuel : Nat) (network source : Str) : PathAns :=
  if source ∉ lv.localNets then .notLocal
  else match dget lv.netPrev source with
    | none => .notLocal            -- unreachable: every local network has an entry (line 72)
    | some prev => match dget prev network with
      | none => .noPath
      | some _ => .res (pathLoop prev source fuel network [])

end OpenNSA
