/-
Python runtime primitives used by the modelled code: text as lists of characters,
`str.split`, `str.rsplit`, `str.join`, `int()`, `str(int)`, and insertion-ordered dictionaries.

These are not part of /repo; they model the Python built-ins that /repo calls.
-/
namespace OpenNSA

/-- Python `str`, as a list of characters. -/
abbrev Str := List Char

deriving instance DecidableEq for Except

namespace Py

/-- `s.split(c)` for a one-character separator (used e.g. at opennsa/nsa.py:102). Never empty. -/
def splitOn (c : Char) : Str → List Str
  | [] => [[]]
  | x :: xs =>
    if x = c then [] :: splitOn c xs
    else match splitOn c xs with
      | [] => [[x]]          -- unreachable: `splitOn` never returns `[]`
      | y :: ys => (x :: y) :: ys

/-- `s.split(c, 1)` when `c` occurs in `s`: the parts before and after the first occurrence
(used e.g. at opennsa/nsa.py:90). `none` when `c` does not occur. -/
def cutFirst (c : Char) : Str → Option (Str × Str)
  | [] => none
  | x :: xs =>
    if x = c then some ([], xs)
    else match cutFirst c xs with
      | none => none
      | some (a, b) => some (x :: a, b)

/-- `s.rsplit(c, 1)` when `c` occurs in `s`: the parts before and after the last occurrence
(used e.g. at opennsa/protocols/nsi2/helper.py:196). `none` when `c` does not occur. -/
def cutLast (c : Char) (s : Str) : Option (Str × Str) :=
  match cutFirst c s.reverse with
  | none => none
  | some (a, b) => some (b.reverse, a.reverse)

/-- `sep.join(parts)` for a one-character separator (used e.g. at opennsa/nsa.py:160). -/
def joinWith (c : Char) : List Str → Str
  | [] => []
  | [s] => s
  | s :: t :: rest => s ++ c :: joinWith c (t :: rest)

/-- Python's ASCII whitespace, as stripped by `int()` and `str.strip()`.
Simplified: non-ASCII Unicode whitespace is not modelled. -/
def isSpace (c : Char) : Bool :=
  c = ' ' || c = '\t' || c = '\n' || c = '\r' || c = '\x0b' || c = '\x0c'
    || c = '\x1c' || c = '\x1d' || c = '\x1e' || c = '\x1f'

/-- `s.strip()` restricted to ASCII whitespace. -/
def strip (s : Str) : Str := ((s.dropWhile isSpace).reverse.dropWhile isSpace).reverse

/-- Value of an ASCII decimal digit. -/
def digitVal (c : Char) : Option Nat :=
  if '0' ≤ c ∧ c ≤ '9' then some (c.toNat - '0'.toNat) else none

/-- Digits of a Python integer literal accepted by `int()`: at least one digit, single underscores
allowed between digits. `acc` is the value so far, `prevDigit` tells whether the previous character
was a digit. Simplified: non-ASCII Unicode digits are not modelled. -/
def readDigits (acc : Nat) (prevDigit : Bool) : Str → Option Nat
  | [] => if prevDigit then some acc else none
  | c :: cs =>
    match digitVal c with
    | some d => readDigits (acc * 10 + d) true cs
    | none => if c = '_' ∧ prevDigit = true ∧ cs ≠ [] then readDigits acc false cs else none

/-- `int(s)` for a text `s`; `none` models `ValueError`. Surrounding whitespace and a sign are allowed. -/
def pyInt (s : Str) : Option Int :=
  match strip s with
  | [] => none
  | c :: cs =>
    if c = '-' then (readDigits 0 false cs).map fun (n : Nat) => -(n : Int)
    else if c = '+' then (readDigits 0 false cs).map fun (n : Nat) => (n : Int)
    else (readDigits 0 false (c :: cs)).map fun (n : Nat) => (n : Int)

/-- The ASCII digit of a number below ten. -/
def digitChar (d : Nat) : Char := Char.ofNat ('0'.toNat + d)

/-- `str(n)` for a natural number. -/
def showNat (n : Nat) : Str :=
  if n < 10 then [digitChar n] else showNat (n / 10) ++ [digitChar (n % 10)]
termination_by n

/-- `str(i)` (also `'%i' % i`) for an integer. -/
def showInt : Int → Str
  | .ofNat n => showNat n
  | .negSucc n => '-' :: showNat (n + 1)

/-! ### Dictionaries (insertion ordered association lists) -/

/-- `d.get(k)` / `d[k]`. -/
def dget {κ ν : Type} [DecidableEq κ] (d : List (κ × ν)) (k : κ) : Option ν :=
  match d with
  | [] => none
  | (k', v) :: rest => if k' = k then some v else dget rest k

/-- `d[k] = v`: replace in place, or append. -/
def dset {κ ν : Type} [DecidableEq κ] (d : List (κ × ν)) (k : κ) (v : ν) : List (κ × ν) :=
  match d with
  | [] => [(k, v)]
  | (k', v') :: rest => if k' = k then (k', v) :: rest else (k', v') :: dset rest k v

/-- `d.pop(k)` on the dictionary part: drop the entry of `k`. -/
def ddel {κ ν : Type} [DecidableEq κ] (d : List (κ × ν)) (k : κ) : List (κ × ν) :=
  d.filter fun e => e.1 ≠ k

/-- `k in d`. -/
def dmem {κ ν : Type} [DecidableEq κ] (d : List (κ × ν)) (k : κ) : Bool := (dget d k).isSome

end Py
end OpenNSA
