import Verif.PyLemmas
/-
XML elements as used through `xml.etree.ElementTree` by /repo/opennsa/protocols/nsi2/bindings and helper.py.

These are not part of /repo; they model the library.
-/
namespace OpenNSA.Wire
open Py

/-- An element: tag, attributes, text, children (`ET.Element`). Tails are not modelled: nothing reads them. -/
inductive Elem
  | mk (tag : String) (attrib : List (String × Str)) (text : Option Str) (kids : List Elem)
  deriving Repr

def Elem.tag : Elem → String
  | .mk t _ _ _ => t
def Elem.attrib : Elem → List (String × Str)
  | .mk _ a _ _ => a
def Elem.text : Elem → Option Str
  | .mk _ _ x _ => x
def Elem.kids : Elem → List Elem
  | .mk _ _ _ k => k

/-- An element with text only: `ET.SubElement(r, tag).text = x`. -/
def leaf (tag : String) (x : Option Str) : Elem := .mk tag [] x []

/-- A leaf that is left out for `None` (`if x is not None: ET.SubElement(r, tag).text = x`). -/
def optLeaf (tag : String) : Option Str → List Elem
  | none => []
  | some x => [leaf tag (some x)]

/-- `element.get(name)` -/
def Elem.get (e : Elem) (name : String) : Option Str := dget e.attrib name

/-- `element.find(tag)`: the first child with that tag. -/
def findIn (tag : String) : List Elem → Option Elem
  | [] => none
  | e :: es => if e.tag = tag then some e else findIn tag es
def Elem.find (e : Elem) (tag : String) : Option Elem := findIn tag e.kids

/-- `element.findall(tag)` -/
def Elem.findall (e : Elem) (tag : String) : List Elem := e.kids.filter fun k => k.tag = tag

/-- `element.findtext(tag)`: `None` if there is no such child, `''` if it has no text. -/
def Elem.findtext (e : Elem) (tag : String) : Option Str := (e.find tag).map fun k => k.text.getD []

/-- Text as it comes back from the wire: the empty text is not distinguished from no text. -/
def normText : Option Str → Option Str
  | some [] => none
  | x => x

mutual
/-- `ET.fromstring(ET.tostring(e))`: the element as the receiver sees it. The empty text is lost.
Simplified: characters are assumed to be passed verbatim, which XML does for all characters it allows except carriage returns;
the white space that `_indent` (minisoap.py:30-43) puts into elements with children is left out (their text is never read). -/
def wire : Elem → Elem
  | .mk t a x k => .mk t a (normText x) (wireAll k)
def wireAll : List Elem → List Elem
  | [] => []
  | e :: es => wire e :: wireAll es
end

theorem wireAll_eq (l : List Elem) : wireAll l = l.map wire := by
  induction l with
  | nil => rfl
  | cons e es ih => simp [wireAll, ih]

theorem wire_mk (t : String) (a : List (String × Str)) (x : Option Str) (k : List Elem) :
    wire (.mk t a x k) = .mk t a (normText x) (k.map wire) := by simp [wire, wireAll_eq]

@[simp] theorem wire_tag (e : Elem) : (wire e).tag = e.tag := by cases e; simp [wire, Elem.tag]
@[simp] theorem wire_attrib (e : Elem) : (wire e).attrib = e.attrib := by cases e; simp [wire, Elem.attrib]
@[simp] theorem wire_kids (e : Elem) : (wire e).kids = e.kids.map wire := by cases e; simp [wire, Elem.kids, wireAll_eq]
@[simp] theorem wire_text (e : Elem) : (wire e).text = normText e.text := by cases e; simp [wire, Elem.text]
@[simp] theorem wire_get (e : Elem) (n : String) : (wire e).get n = e.get n := by simp [Elem.get]

theorem findIn_map_wire (tag : String) (l : List Elem) : findIn tag (l.map wire) = (findIn tag l).map wire := by
  induction l with
  | nil => rfl
  | cons e es ih =>
    simp only [List.map_cons, findIn, wire_tag]
    split <;> simp [ih]

@[simp] theorem wire_find (e : Elem) (tag : String) : (wire e).find tag = (e.find tag).map wire := by
  simp [Elem.find, findIn_map_wire]

@[simp] theorem wire_findall (e : Elem) (tag : String) : (wire e).findall tag = (e.findall tag).map wire := by
  simp only [Elem.findall, wire_kids]
  rw [List.filter_map]
  congr 1
  apply List.filter_congr
  intro k _
  simp

@[simp] theorem wire_findtext (e : Elem) (tag : String) : (wire e).findtext tag = e.findtext tag := by
  simp only [Elem.findtext, wire_find]
  cases e.find tag with
  | none => rfl
  | some k =>
    simp only [Option.map_some, wire_text]
    cases h : k.text with
    | none => rfl
    | some x => cases x <;> rfl

@[simp] theorem leaf_tag (t : String) (x : Option Str) : (leaf t x).tag = t := rfl
@[simp] theorem leaf_text (t : String) (x : Option Str) : (leaf t x).text = x := rfl
@[simp] theorem mk_tag (t : String) (a x k) : (Elem.mk t a x k).tag = t := rfl
@[simp] theorem mk_attrib (t : String) (a x k) : (Elem.mk t a x k).attrib = a := rfl
@[simp] theorem mk_kids (t : String) (a x k) : (Elem.mk t a x k).kids = k := rfl
@[simp] theorem mk_text (t : String) (a x k) : (Elem.mk t a x k).text = x := rfl
@[simp] theorem findIn_nil (t : String) : findIn t [] = none := rfl
theorem findIn_cons (t : String) (e : Elem) (es : List Elem) : findIn t (e :: es) = if e.tag = t then some e else findIn t es := rfl
theorem findIn_append (t : String) (a b : List Elem) : findIn t (a ++ b) = (findIn t a).or (findIn t b) := by
  induction a with
  | nil => simp
  | cons e es ih =>
    simp only [List.cons_append, findIn_cons]
    split <;> simp [ih]
theorem findIn_optLeaf (t t' : String) (x : Option Str) :
    findIn t (optLeaf t' x) = if t' = t then x.map fun v => leaf t' (some v) else none := by
  cases x with
  | none => simp [optLeaf]
  | some v => rfl

theorem findIn_none_of {t : String} {l : List Elem} (h : ∀ e ∈ l, e.tag ≠ t) : findIn t l = none := by
  induction l with
  | nil => rfl
  | cons e es ih =>
    rw [findIn_cons, if_neg (h e List.mem_cons_self)]
    exact ih fun e he => h e (List.mem_cons_of_mem _ he)

/-! ### Python's `sorted` -/

/-- One step of `sortBy`. -/
def insertBy {α : Type} (le : α → α → Bool) (x : α) : List α → List α
  | [] => [x]
  | y :: ys => if le x y then x :: y :: ys else y :: insertBy le x ys

/-- `sorted(l, key=..)`, for the order `le` of the keys: Python guarantees a stable sort, of which insertion is one. -/
def sortBy {α : Type} (le : α → α → Bool) (l : List α) : List α := l.foldr (insertBy le) []

theorem sortBy_of_pairwise {α : Type} {le : α → α → Bool} {l : List α} (h : l.Pairwise fun a b => le a b = true) : sortBy le l = l := by
  induction l with
  | nil => rfl
  | cons x xs ih =>
    rw [List.pairwise_cons] at h
    show insertBy le x (sortBy le xs) = _
    rw [ih h.2]
    cases xs with
    | nil => rfl
    | cons y ys => simp [insertBy, h.1 y List.mem_cons_self]

theorem insertBy_perm {α : Type} (le : α → α → Bool) (x : α) (l : List α) : (insertBy le x l).Perm (x :: l) := by
  induction l with
  | nil => exact .refl _
  | cons y ys ih =>
    unfold insertBy
    split
    · exact .refl _
    · exact (List.Perm.cons y ih).trans (List.Perm.swap x y ys)

theorem sortBy_perm {α : Type} (le : α → α → Bool) (l : List α) : (sortBy le l).Perm l := by
  induction l with
  | nil => exact .refl _
  | cons x xs ih => exact (insertBy_perm le x _).trans (List.Perm.cons x ih)

end OpenNSA.Wire
