import Verif.Agg.Spec
/- Example configurations and histories. -/
namespace OpenNSA.Agg.Ex
open OpenNSA Py Coro

/-- Networks A and B are ours, linked at ports `ab`/`ba`; B is linked to C (ports `bc`/`cb`), which belongs to somebody else. -/
def lv : LinkVector :=
  ((((LinkVector.new [] 10).step (.addLocal ['A'])).1.step (.addLocal ['B'])).1.step (.update ['A'] ['a', 'b'] [(['B'], 1)])).1.step
    (.update ['B'] ['b', 'c'] [(['C'], 1)]) |>.1

/-- VLAN labels. -/
def vlan (lo hi : Int) : Option Label := some { type_ := ['v'], values := [(lo, hi)] }

def ports : List (Str × List (Str × NPort)) :=
  [(['A'], [(['x'], ⟨vlan 1 9, none, none⟩), (['y'], ⟨vlan 1 9, none, none⟩), (['a', 'b'], ⟨vlan 10 19, some ['B'], some ['b', 'a']⟩)]),
   (['B'], [(['b', 'a'], ⟨vlan 10 19, some ['A'], some ['a', 'b']⟩), (['b', 'c'], ⟨vlan 20 29, some ['C'], some ['c', 'b']⟩)])]

/-- Providers: our backends for A and B, a remote provider for C. -/
def cfg : Cfg :=
  { urn := ['m'], ports, lv, fuel := 10, reg := [(['A'], (0, ['m'])), (['B'], (1, ['m'])), (['C'], (2, ['r']))],
    policies := [], admins := [] }

def src : STP := ⟨['A'], ['x'], vlan 1 9⟩
def dst : STP := ⟨['C'], ['z'], vlan 1 9⟩
def crit : Crit := ⟨src, dst, some 100, some 200, 50⟩
def hdr : Hdr := ⟨['u'], ['q'], none, []⟩
def o : Oracle := { cids := [['c', '1']], corrs := [['1'], ['2'], ['3'], ['4'], ['5']], acks := [.ok ['s', '1'], .ok ['s', '2'], .ok ['s', '3']] }

example : choosePath cfg src dst = .ok
    [⟨src, ⟨['A'], ['a', 'b'], vlan 10 19⟩⟩, ⟨⟨['B'], ['b', 'a'], vlan 10 19⟩, ⟨['B'], ['b', 'c'], vlan 20 29⟩⟩,
     ⟨⟨['C'], ['c', 'b'], vlan 20 29⟩, dst⟩] := by decide +kernel

end OpenNSA.Agg.Ex
