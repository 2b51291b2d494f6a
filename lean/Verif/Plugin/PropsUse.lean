import Verif.Plugin.Props
import Verif.Agg.Examples
/-
C68: what the pruner plugin makes of a list of paths, and whether anybody asks it.
-/
namespace OpenNSA.Plugin
open Py Agg

/-- **C68, paths.** The plugin prunes the first path and drops the others; if there is no path, or the first one cannot be pruned, there is an exception. -/
theorem C68_paths (networks : List Str) (paths ps : List (List Link)) : prunePaths networks paths = some (.ok ps) ↔
    ∃ p p', paths.head? = some p ∧ pruneLabels networks p = .ok p' ∧ ps = [p'] := by
  cases paths with
  | nil => simp [prunePaths]
  | cons p rest =>
    cases h : pruneLabels networks p with
    | error e => simp [prunePaths, h]
    | ok p' => simp [prunePaths, h, eq_comm]

namespace Ex
/-- As in the examples of the aggregator, but the ports of B have VLANs in common. -/
def wayCfg : Cfg :=
  { Agg.Ex.cfg with ports :=
    [(['A'], [(['x'], ⟨Agg.Ex.vlan 1 9, none, none⟩), (['a', 'b'], ⟨Agg.Ex.vlan 10 19, some ['B'], some ['b', 'a']⟩)]),
     (['B'], [(['b', 'a'], ⟨Agg.Ex.vlan 10 19, some ['A'], some ['a', 'b']⟩), (['b', 'c'], ⟨Agg.Ex.vlan 15 29, some ['C'], some ['c', 'b']⟩)])] }
/-- The path chosen. -/
def way : List Link :=
  [⟨Agg.Ex.src, ⟨['A'], ['a', 'b'], Agg.Ex.vlan 10 19⟩⟩, ⟨⟨['B'], ['b', 'a'], Agg.Ex.vlan 10 19⟩, ⟨['B'], ['b', 'c'], Agg.Ex.vlan 15 29⟩⟩,
   ⟨⟨['C'], ['c', 'b'], Agg.Ex.vlan 15 29⟩, Agg.Ex.dst⟩]
/-- What the pruner makes of it for a B that cannot translate. -/
def wayPruned : List Link :=
  [⟨Agg.Ex.src, ⟨['A'], ['a', 'b'], some ⟨['v'], [(15, 19)], false⟩⟩⟩, ⟨⟨['B'], ['b', 'a'], some ⟨['v'], [(15, 19)], false⟩⟩, ⟨['B'], ['b', 'c'], some ⟨['v'], [(15, 19)], false⟩⟩⟩,
   ⟨⟨['C'], ['c', 'b'], some ⟨['v'], [(15, 19)], false⟩⟩, Agg.Ex.dst⟩]
end Ex

example : prunePaths [['B']] [Ex.way, []] = some (.ok [Ex.wayPruned]) ∧ prunePaths [['B']] [] = none := by decide +kernel

/-- **C68 is violated as the pruner is never asked**: nothing calls `prunePaths`, so a reservation through a network that needs help is requested with the labels as
they were found. Here B, which cannot translate, is asked for VLANs 10-19 at one end and 15-29 at the other, although the pruner would have left 15-19 at both. -/
theorem C68_unused_fails : ∃ (cfg : Cfg) (networks : List Str) (path pruned : List Link) (h : Hdr) (c : Crit) (o : Oracle), choosePath cfg c.src c.dst = .ok path ∧
    prunePaths networks [path] = some (.ok [pruned]) ∧ (∃ l ∈ path, Helped networks l ∧ l ∉ pruned ∧ l.src.label ≠ l.dst.label) ∧
    (Agg.step cfg .init o (.reserve h none c)).1.sent.map (·.op) = path.map fun l => .reserve ['c', '1'] l.src l.dst c.start c.end_ c.bw := by
  refine ⟨Ex.wayCfg, [['B']], Ex.way, Ex.wayPruned, Agg.Ex.hdr, Agg.Ex.crit, Agg.Ex.o, by decide +kernel, by decide +kernel, ?_, by decide +kernel⟩
  refine ⟨⟨⟨['B'], ['b', 'a'], Agg.Ex.vlan 10 19⟩, ⟨['B'], ['b', 'c'], Agg.Ex.vlan 15 29⟩⟩, by decide +kernel, ?_, by decide +kernel, by decide +kernel⟩
  exact ⟨['B'], List.mem_singleton.2 rfl, [], [], rfl⟩

end OpenNSA.Plugin
