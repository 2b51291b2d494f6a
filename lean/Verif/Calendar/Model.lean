import Verif.PyLemmas
/-
Model of /repo/opennsa/backends/common/calendar.py.
Times are microseconds since 1970-01-01 (naive UTC `datetime`), so the type and tzinfo assertions of
`_checkArgs` (lines 30-39) hold by typing.
-/
namespace OpenNSA

/-- Naive UTC time in microseconds since 1970-01-01. -/
notation "Time" => Int

/-- One second. -/
def second : Time := 1000000
/-- `datetime.datetime(2095, 1, 1)`, calendar.py:75. -/
def year2095 : Time := 3944678400 * 1000000
/-- `forever = datetime.datetime(9999, 1, 1)`, calendar.py:94. -/
def forever : Time := 253370764800 * 1000000

/-- A stored reservation `(resource, start_time, end_time)`, calendar.py:27, 45. -/
structure Resv where
  resource : Str
  start : Option Time
  end_ : Option Time
  deriving DecidableEq, Repr

/-- `self.reservations`, calendar.py:27. -/
abbrev Cal := List Resv

/-- Exceptions of the calendar. -/
inductive CalErr
  | payload       -- error.PayloadError         (lines 64, 73, 77)
  | unavailable   -- error.STPUnavailableError  (line 82)
  | assertion     -- AssertionError             (lines 101, 102)
  | value         -- ValueError                 (line 56)
  deriving DecidableEq, Repr

/-- `addReservation`, calendar.py:42-46. -/
def Cal.add (c : Cal) (r : Resv) : Cal := c ++ [r]

/-- `removeReservation`, calendar.py:49-56: `list.remove` drops the first equal element. -/
def Cal.remove (c : Cal) (r : Resv) : Except CalErr Cal := if r ∈ c then .ok (c.erase r) else .error .value

/-- `_resourceOverlap`, calendar.py:87-110. `x or now`: a datetime is always true. -/
def resourceOverlap (now : Time) (s1 e1 s2 e2 : Option Time) : Except CalErr Bool :=
  let r1s := s1.getD now
  let r2s := s2.getD now
  let r1e := e1.getD forever
  let r2e := e2.getD forever
  if ¬ r1s < r1e then .error .assertion
  else if ¬ r2s < r2e then .error .assertion
  else if r2e < r1s then .ok false
  else if r2s > r1e then .ok false
  else .ok true

/-- The loop of `checkReservation`, calendar.py:79-82. -/
def checkLoop (now : Time) (resource : Str) (s e : Option Time) : Cal → Except CalErr Unit
  | [] => .ok ()
  | c :: cs =>
    if resource = c.resource then
      match resourceOverlap now c.start c.end_ s e with
      | .error x => .error x
      | .ok true => .error .unavailable
      | .ok false => checkLoop now resource s e cs
    else checkLoop now resource s e cs

/-- `checkReservation`, calendar.py:59-84. Simplified: one reading `now` of the clock per call (the code reads
it once at line 69 and once per compared reservation). -/
def Cal.check (c : Cal) (now : Time) (r : Resv) : Except CalErr Unit :=
  if (match r.start, r.end_ with | some s, some e => decide (s > e) | _, _ => false) then .error .payload  -- lines 63-64
  else
    match r.start with
    | none => checkLoop now r.resource r.start r.end_ c
    | some s =>
      if s < now then .error .payload               -- lines 69-73
      else if s > year2095 then .error .payload     -- lines 76-77
      else checkLoop now r.resource r.start r.end_ c

/-! ### Histories -/

/-- Calendar operations as used by a careful caller: check then add, and remove. -/
inductive CalOp
  | checkAdd (r : Resv)
  | remove (r : Resv)
  deriving DecidableEq, Repr

/-- One operation at clock time `now`. Failing operations change nothing. -/
def Cal.step (c : Cal) (now : Time) : CalOp → Cal
  | .checkAdd r => match c.check now r with | .ok _ => c.add r | .error _ => c
  | .remove r => match c.remove r with | .ok c' => c' | .error _ => c

end OpenNSA
