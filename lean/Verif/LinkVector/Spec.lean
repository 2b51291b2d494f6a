import Verif.LinkVector.Model
/-
Routes in a vector table.
-/
namespace OpenNSA

/-- The table announces: from network `u`, port `port` leads to `v` at cost `k`. -/
def Announced (V : Vectors) (u port v : Str) (k : Int) : Prop := ∃ vec, ((u, port), vec) ∈ V ∧ (v, k) ∈ vec

/-- `Route g src v hops c`: following `hops` from `src` leads to `v` at total cost `c`, each hop being announced, never
entering a blacklisted network and never coming back to `src`. -/
inductive Route (g : LvCfg) (src : Str) : Str → List (Str × Str) → Int → Prop
  | start : Route g src src [] 0
  | hop {u v port : Str} {k c : Int} {hops : List (Str × Str)} :
      Route g src u hops c → Announced g.vectors u port v k → v ∉ g.black → v ≠ src →
      Route g src v (hops ++ [(u, port)]) (c + k)

/-- No announced cost is negative. -/
def NonNeg (V : Vectors) : Prop := ∀ u port v k, Announced V u port v k → 0 ≤ k

/-- Updates with non-negative costs; local networks are not blacklisted. -/
def LvOp.Good (black : List Str) : LvOp → Prop
  | .addLocal n => n ∉ black
  | .update _ _ vec => ∀ e ∈ vec, (0 : Int) ≤ e.2
  | .delete _ _ => True

/-- The path finder after a history of updates. -/
def lvRun (black : List Str) (maxCost : Int) (ops : List LvOp) : LinkVector :=
  ops.foldl (fun lv o => (lv.step o).1) (LinkVector.new black maxCost)

/-- The cost the table holds for destination `d` over port `p` of network `n`. -/
def LinkVector.costOf (lv : LinkVector) (n p d : Str) : Option Int := (Py.dget lv.cfg.vectors (n, p)).bind fun vec => Py.dget vec d

end OpenNSA
