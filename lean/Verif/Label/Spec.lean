import Verif.Label.Model
/-
Specification vocabulary for labels, independent of the parsing code.
-/
namespace OpenNSA
open Py

/-- The integer `n` lies in one of the ranges. -/
def InRanges (rs : List Rng) (n : Int) : Prop := ∃ r ∈ rs, r.1 ≤ n ∧ n ≤ r.2

/-- Canonical range list: non-empty ranges, ascending, disjoint and not even adjacent. -/
def Canonical (rs : List Rng) : Prop :=
  (∀ r ∈ rs, r.1 ≤ r.2) ∧ rs.Pairwise fun a b => a.2 + 1 < b.1

/-- What one comma-free item of a label text denotes: a number, or two numbers in ascending order
separated by the first minus sign. Python's `int()` is the primitive `pyInt`. -/
inductive ItemDen : Str → Int → Int → Prop
  | single (s : Str) (n : Int) : '-' ∉ s → pyInt s = some n → ItemDen s n n
  | range (a b : Str) (lo hi : Int) : '-' ∉ a → pyInt a = some lo → pyInt b = some hi → lo ≤ hi →
      ItemDen (a ++ '-' :: b) lo hi

/-- `items` are the comma-separated items of the text `s`. -/
def ItemsOf (s : Str) (items : List Str) : Prop :=
  items ≠ [] ∧ (∀ i ∈ items, ',' ∉ i) ∧ s = joinWith ',' items

/-- The integer `n` is named by one of the items. -/
def Named (items : List Str) (n : Int) : Prop :=
  ∃ i ∈ items, ∃ lo hi, ItemDen i lo hi ∧ lo ≤ n ∧ n ≤ hi

/-- A label as produced by any constructor call. -/
def Label.Constructed (l : Label) : Prop := ∃ a, Label.mk' l.type_ a = .ok l

/-- A label as produced from a text: the only form used for labels arriving over the wire or read
from the configuration and the database. -/
def Label.FromText (l : Label) : Prop := ∃ s, Label.mk' l.type_ (.str s) = .ok l

/-- The set of integers a label stands for. -/
def Label.has (l : Label) (n : Int) : Prop := InRanges l.values n

end OpenNSA
