import Verif.Py
/-
Model of `Label` in /repo/opennsa/nsa.py:67-194.
-/
namespace OpenNSA
open Py

/-- Exceptions raised by the label code. -/
inductive LabelErr
  | payload        -- error.PayloadError             (nsa.py:93, 99)
  | assertion      -- AssertionError                 (nsa.py:76, 126)
  | stopIteration  -- StopIteration from `next(i)`   (nsa.py:130)
  | emptySet       -- nsa.EmptyLabelSet              (nsa.py:152)
  deriving DecidableEq, Repr

/-- A range `(low, high)` of label values; nsa.py:97 `return i1, i2`. -/
abbrev Rng := Int × Int

/-- `Label` objects, nsa.py:72-82. `listPairs` records that the label was constructed from an `int`
and hence stores `[[n, n]]` (a list inside the list, line 80) and not `[(n, n)]`.
`values = None` (line 82) is not representable: line 76 rejects `values=None`
(`type(None)` is not `None`), so no such object exists. -/
structure Label where
  type_ : Str
  values : List Rng
  listPairs : Bool := false
  deriving DecidableEq, Repr

/-- Argument forms of `Label(type_, values)`, nsa.py:74-76. -/
inductive LabelArg
  | none
  | str (s : Str)
  | list (l : List Str)
  | int (n : Int)
  deriving DecidableEq, Repr

/-- `createValue`, nsa.py:87-99. -/
def createValue (value : Str) : Except LabelErr Rng :=
  match cutFirst '-' value with
  | some (v1, v2) =>                          -- lines 89-93
    match pyInt v1, pyInt v2 with
    | some i1, some i2 => if i1 > i2 then .error .payload else .ok (i1, i2)
    | _, _ => .error .payload                 -- lines 98-99
  | none =>                                   -- lines 94-96
    match pyInt value with
    | some i => .ok (i, i)
    | none => .error .payload

/-- The list comprehension `[ createValue(value) for value in values ]`, nsa.py:104. -/
def createValues : List Str → Except LabelErr (List Rng)
  | [] => .ok []
  | v :: vs =>
    match createValue v with
    | .error e => .error e
    | .ok r => match createValues vs with
      | .error e => .error e
      | .ok rs => .ok (r :: rs)

/-- Lexicographic `<=` on pairs, the order used by Python's `sorted` (nsa.py:104, 190). -/
def rngLe (a b : Rng) : Bool := a.1 < b.1 || (a.1 = b.1 && a.2 ≤ b.2)

/-- Insertion into a sorted list, before the first element that is not smaller. -/
def insertRng (r : Rng) : List Rng → List Rng
  | [] => [r]
  | x :: xs => if rngLe r x then r :: x :: xs else x :: insertRng r xs

/-- Python's `sorted` on a list of pairs (nsa.py:104, 190). The result of sorting by a total order does
not depend on the algorithm; insertion sort is used because it is structurally recursive. -/
def sortRngs : List Rng → List Rng
  | [] => []
  | r :: rs => insertRng r (sortRngs rs)

/-- One iteration of the merge loop, nsa.py:109-118. -/
def mergeStep (nv : List Rng) (v : Rng) : List Rng :=
  match nv.getLast? with
  | none => nv ++ [v]                                     -- lines 110-112
  | some l =>
    if v.1 ≤ l.2 + 1 then nv.dropLast ++ [(l.1, max l.2 v.2)]  -- line 116
    else nv ++ [v]                                        -- line 118

/-- The merge loop, nsa.py:108-118. -/
def normalise (rs : List Rng) : List Rng := rs.foldl mergeStep []

/-- `_parseLabelValues` on a list of items, nsa.py:104-120. -/
def parseItems (items : List Str) : Except LabelErr (List Rng) :=
  match createValues items with
  | .error e => .error e
  | .ok rs => .ok (normalise (sortRngs rs))

/-- `Label.__init__`, nsa.py:74-82. -/
def Label.mk' (type_ : Str) : LabelArg → Except LabelErr Label
  | .none => .error .assertion                                        -- line 76
  | .int n => .ok { type_, values := [(n, n)], listPairs := true }     -- line 80
  | .str s =>                                                          -- lines 101-102
    match parseItems (splitOn ',' s) with
    | .error e => .error e
    | .ok vs => .ok { type_, values := vs }
  | .list l =>
    match parseItems l with
    | .error e => .error e
    | .ok vs => .ok { type_, values := vs }

/-- The inner `while True` loop of `intersect`, nsa.py:133-149, for one range `v` of `self`,
current range `o` of `other` and remaining ranges `os`. Returns the appended ranges and the
iterator state. The condition of line 145 always holds when line 143 failed. -/
def isectInner (v : Rng) : Rng → List Rng → List Rng × (Rng × List Rng)
  | o, [] =>
    if v.2 < o.1 then ([], o, [])                            -- line 134
    else if o.2 < v.1 then ([], o, [])                       -- lines 136-140
    else ([(max v.1 o.1, min v.2 o.2)], o, [])               -- lines 142-149, StopIteration or break
  | o, o' :: os =>
    if v.2 < o.1 then ([], o, o' :: os)                      -- line 134
    else if o.2 < v.1 then isectInner v o' os                -- lines 136-141
    else
      let x := (max v.1 o.1, min v.2 o.2)                    -- line 142
      if v.2 ≤ o.2 then ([x], o, o' :: os)                   -- line 143
      else
        let r := isectInner v o' os                          -- lines 145-147
        (x :: r.1, r.2)

/-- The outer `for` loop of `intersect`, nsa.py:132-149. -/
def isectOuter : List Rng → Rng → List Rng → List Rng
  | [], _, _ => []
  | v :: vs, o, os =>
    let r := isectInner v o os
    r.1 ++ isectOuter vs r.2.1 r.2.2

/-- The text `'%i-%s' % (lo, hi)`, nsa.py:154. -/
def rangeText (r : Rng) : Str := showInt r.1 ++ '-' :: showInt r.2

/-- `Label.intersect`, nsa.py:123-155 (the argument is always a `Label` here, line 125). -/
def Label.intersect (self other : Label) : Except LabelErr Label :=
  if self.type_ ≠ other.type_ then .error .assertion         -- line 126
  else match other.values with
    | [] => .error .stopIteration                            -- line 130
    | o :: os =>
      match isectOuter self.values o os with
      | [] => .error .emptySet                               -- lines 151-152
      | lv => Label.mk' self.type_ (.str (joinWith ',' (lv.map rangeText)))  -- lines 154-155

/-- Text of one range in `labelValue`, nsa.py:159. -/
def valueText (r : Rng) : Str :=
  if r.1 = r.2 then showInt r.1 else showInt r.1 ++ '-' :: showInt r.2

/-- `Label.labelValue`, nsa.py:158-160. -/
def Label.labelValue (l : Label) : Str := joinWith ',' (l.values.map valueText)

/-- `Label.singleValue`, nsa.py:162-163. -/
def Label.singleValue (l : Label) : Bool :=
  match l.values with
  | [r] => r.1 = r.2
  | _ => false

/-- `range(lo, hi+1)`, nsa.py:166. -/
def pyRange (r : Rng) : List Int :=
  (List.range (r.2 + 1 - r.1).toNat).map fun (i : Nat) => r.1 + (i : Int)

/-- `Label.enumerateValues`, nsa.py:165-167. -/
def Label.enumerateValues (l : Label) : List Int := l.values.flatMap pyRange

/-- `Label.randomLabel`, nsa.py:169-172. The two random draws are arguments: `pick` indexes
`random.choice(self.values)`, `draw` is the result of `random.randint(lo, hi + 1)`, which Python
guarantees to satisfy `lo ≤ draw ≤ hi + 1`. `none` models the exception of `random.choice([])`
or a draw outside that guarantee. -/
def Label.randomLabel (l : Label) (pick : Nat) (draw : Int) : Option Int :=
  match l.values[pick]? with
  | none => none
  | some r => if r.1 ≤ draw ∧ draw ≤ r.2 + 1 then some draw else none

/-- `Label.canMatch`, nsa.py:174-184; only `EmptyLabelSet` is caught, other exceptions propagate. -/
def Label.canMatch : Option Label → Option Label → Except LabelErr Bool
  | none, none => .ok true
  | some l1, some l2 =>
    match l1.intersect l2 with
    | .ok _ => .ok true
    | .error .emptySet => .ok false
    | .error e => .error e
  | _, _ => .ok false

/-- `Label.__eq__` between two labels, nsa.py:187-190. `sorted(self.values) == sorted(other.values)`
compares element by element; a list `[n, n]` never equals a tuple `(n, n)`. -/
def Label.eq (a b : Label) : Bool :=
  a.type_ = b.type_
    && sortRngs a.values = sortRngs b.values
    && (a.listPairs = b.listPairs || a.values.isEmpty)

/-- Comparison of two label attributes that may be `None` (`self.label == other.label`, nsa.py:231;
also genericbackend.py:262). -/
def optLabelEq : Option Label → Option Label → Bool
  | none, none => true
  | some a, some b => a.eq b
  | _, _ => false

/-- Storing a label in PostgreSQL and reading it back: `adaptLabel` writes `(type_, labelValue())`,
`LabelComposite.make` rebuilds `nsa.Label(*values)`; database.py:32-33, 47-49. -/
def Label.dbRoundTrip (l : Label) : Except LabelErr Label := Label.mk' l.type_ (.str l.labelValue)

end OpenNSA
