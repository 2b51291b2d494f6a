import Verif.Wire.Errors
/-
Model of /repo/opennsa/shared/xmlhelper.py and of the library functions it calls: `datetime` (fields, `isoformat`, arithmetic)
and dateutil's `parser.isoparse`.

Elsewhere in this model a point in time is an integer (microseconds). Here are the fields of Python's `datetime`, and the integer
they stand for.
-/
namespace OpenNSA.Wire
open Py

/-! ### Dates -/

/-- `calendar.isleap`. -/
def leap (y : Nat) : Bool := y % 4 = 0 && (y % 100 ≠ 0 || y % 400 = 0)

/-- Days in a month, `datetime._days_in_month`. -/
def dim (l : Bool) (m : Nat) : Nat :=
  match m with
  | 1 => 31 | 2 => if l then 29 else 28 | 3 => 31 | 4 => 30 | 5 => 31 | 6 => 30
  | 7 => 31 | 8 => 31 | 9 => 30 | 10 => 31 | 11 => 30 | 12 => 31
  | _ => 0

/-- Days of a year before a month, `datetime._days_before_month`. -/
def dbm (l : Bool) (m : Nat) : Nat :=
  (match m with
  | 1 => 0 | 2 => 31 | 3 => 59 | 4 => 90 | 5 => 120 | 6 => 151
  | 7 => 181 | 8 => 212 | 9 => 243 | 10 => 273 | 11 => 304 | 12 => 334
  | _ => 0) + if l && decide (2 < m) then 1 else 0

/-- Days before the first of January of a year, `datetime._days_before_year`. -/
def dby (y : Nat) : Nat := (y - 1) * 365 + (y - 1) / 4 - (y - 1) / 100 + (y - 1) / 400

/-- A `datetime` without time zone. -/
structure DT where
  year : Nat
  month : Nat
  day : Nat
  hour : Nat
  minute : Nat
  second : Nat
  micro : Nat
  deriving DecidableEq, Repr

/-- What the constructor of `datetime` demands. -/
def DT.valid (d : DT) : Prop :=
  1 ≤ d.year ∧ d.year ≤ 9999 ∧ 1 ≤ d.month ∧ d.month ≤ 12 ∧ 1 ≤ d.day ∧ d.day ≤ dim (leap d.year) d.month ∧
  d.hour < 24 ∧ d.minute < 60 ∧ d.second < 60 ∧ d.micro < 1000000

instance (d : DT) : Decidable d.valid := by unfold DT.valid; infer_instance

/-- The day, counted from the first of January of year 1 (`toordinal() - 1`). -/
def DT.days (d : DT) : Nat := dby d.year + dbm (leap d.year) d.month + (d.day - 1)

/-- Microseconds since the beginning of year 1. -/
def DT.instant (d : DT) : Int :=
  (((((d.days * 24 + d.hour) * 60 + d.minute) * 60 + d.second) * 1000000 + d.micro : Nat) : Int)

/-- The first instant after year 9999. -/
def maxInstant : Int := 3652059 * 86400000000

/-- Month and day from the day of the year, the end of `datetime._ord2ymd`. -/
def monthDay (l : Bool) (n : Nat) : Nat × Nat :=
  let m := (n + 50) / 32
  if dbm l m > n then (m - 1, n - dbm l (m - 1) + 1) else (m, n - dbm l m + 1)

/-- `datetime._ord2ymd` for a day counted from zero. -/
def ymd (n : Nat) : Nat × Nat × Nat :=
  let n400 := n / 146097
  let r400 := n % 146097
  let n100 := r400 / 36524
  let r100 := r400 % 36524
  let n4 := r100 / 1461
  let r4 := r100 % 1461
  let n1 := r4 / 365
  let r1 := r4 % 365
  let y := n400 * 400 + 1 + (n100 * 100 + n4 * 4 + n1)
  if n1 = 4 ∨ n100 = 4 then (y - 1, 12, 31)
  else
    let l := decide (n1 = 3) && (decide (n4 ≠ 24) || decide (n100 = 3))
    (y, (monthDay l r1).1, (monthDay l r1).2)

/-- The `datetime` of an instant. -/
def ofInstant (t : Int) : DT :=
  let n := t.toNat
  let u := n % 86400000000
  let d := ymd (n / 86400000000)
  { year := d.1, month := d.2.1, day := d.2.2,
    hour := u / 3600000000, minute := u / 60000000 % 60, second := u / 1000000 % 60, micro := u % 1000000 }

/-! ### Writing -/

/-- The digits of a number, `w` places. -/
def digs : Nat → Nat → List Nat
  | 0, _ => []
  | w + 1, n => digs w (n / 10) ++ [n % 10]

/-- `'%0wd' % n` for a number that has at most `w` digits. -/
def pad (w n : Nat) : Str := (digs w n).map digitChar

/-- `datetime.isoformat()` without time zone: microseconds only if there are some. -/
def isoformat (d : DT) : Str :=
  pad 4 d.year ++ '-' :: (pad 2 d.month ++ '-' :: (pad 2 d.day ++ 'T' :: (pad 2 d.hour ++ ':' :: (pad 2 d.minute ++ ':' :: (pad 2 d.second ++
    (if d.micro = 0 then [] else '.' :: pad 6 d.micro))))))

/-- `createXMLTime`, xmlhelper.py:27-30: times inside OpenNSA have no time zone and are UTC. -/
def createXMLTime (t : Int) : Str := isoformat (ofInstant t) ++ ['Z']

/-! ### Reading -/

/-- Components of a time of day while it is being read. The time zone is an offset in minutes. -/
structure TC where
  h : Int := 0
  m : Int := 0
  s : Int := 0
  us : Int := 0
  tz : Option Int := none
  deriving DecidableEq, Repr

/-- dateutil, `isoparser._parse_tzstr`: offset in minutes. -/
def parseTz (z : Str) : Except WireErr Int :=
  if z = ['Z'] ∨ z = ['z'] then .ok 0
  else match z with
    | [] => .error .valueError
    | c :: rest =>
      if ¬ (z.length = 3 ∨ z.length = 5 ∨ z.length = 6) then .error .valueError
      else if c ≠ '-' ∧ c ≠ '+' then .error .valueError
      else
        let mult : Int := if c = '-' then -1 else 1
        match pyInt (rest.take 2) with
        | none => .error .valueError
        | some hours =>
          let ms := if z.length = 3 then some 0
            else pyInt (if (rest.drop 2).head? = some ':' then rest.drop 3 else rest.drop 2)
          match ms with
          | none => .error .valueError
          | some minutes =>
            if hours = 0 ∧ minutes = 0 then .ok 0
            else if 59 < minutes then .error .valueError
            else if 23 < hours then .error .valueError
            else .ok (mult * (hours * 60 + minutes))

/-- The match of `[\.,]([0-9]+)` at the beginning of a text: the digits, and what follows. -/
def fraction : Str → Option (Str × Str)
  | c :: rest =>
    if c = '.' ∨ c = ',' then
      let ds := rest.takeWhile fun x => (digitVal x).isSome
      if ds = [] then none else some (ds, rest.dropWhile fun x => (digitVal x).isSome)
    else none
  | [] => none

/-- Store a component. -/
def TC.set (c : TC) (comp : Nat) (v : Int) : TC :=
  match comp with
  | 0 => { c with h := v }
  | 1 => { c with m := v }
  | 2 => { c with s := v }
  | _ => { c with us := v }

/-- The loop of dateutil's `isoparser._parse_isotime`, on the text not yet read; `fuel` is the number of rounds left (six in
all, `while pos < len_str and comp < 5`). -/
def isoTimeLoop : Nat → Nat → Bool → Str → TC → Except WireErr TC
  | _, _, _, [], c => .ok c
  | 0, _, _, _ :: _, _ => .error .valueError                    -- unused components
  | fuel + 1, comp, hasSep, ch :: rest, c =>
    if ch = '-' ∨ ch = '+' ∨ ch = 'Z' ∨ ch = 'z' then
      match parseTz (ch :: rest) with
      | .error e => .error e
      | .ok o => .ok { c with tz := some o }
    else if comp = 2 ∧ hasSep = true ∧ ch ≠ ':' then .error .valueError     -- inconsistent use of colon separator
    else
      let sep := (comp = 1 ∧ ch = ':') ∨ (comp = 2 ∧ hasSep = true)
      let hasSep' := hasSep || (decide (comp = 1) && decide (ch = ':'))
      let r := if sep then rest else ch :: rest
      if comp < 3 then
        match pyInt (r.take 2) with
        | none => .error .valueError
        | some v => isoTimeLoop fuel (comp + 1) hasSep' (r.drop 2) (c.set comp v)
      else if comp = 3 then
        match fraction r with
        | none => isoTimeLoop fuel (comp + 1) hasSep' r c
        | some (ds, r') =>
          match pyInt (ds.take 6) with
          | none => .error .valueError
          | some v => isoTimeLoop fuel (comp + 1) hasSep' r' (c.set 3 (v * 10 ^ (6 - (ds.take 6).length)))
      else isoTimeLoop fuel (comp + 1) hasSep' r c

/-- dateutil, `isoparser._parse_isotime`. -/
def parseIsoTime (s : Str) : Except WireErr TC :=
  if s.length < 2 then .error .valueError
  else match isoTimeLoop 6 0 false s {} with
    | .error e => .error e
    | .ok c => if c.h = 24 ∧ ¬ (c.m = 0 ∧ c.s = 0 ∧ c.us = 0) then .error .valueError else .ok c

/-- dateutil, `isoparser._parse_isodate_common`: components, and the text after the date. -/
def parseIsoDateCommon (s : Str) : Except WireErr ((Int × Int × Int) × Str) :=
  if s.length < 4 then .error .valueError
  else match pyInt (s.take 4) with
    | none => .error .valueError
    | some y =>
      match s.drop 4 with
      | [] => .ok ((y, 1, 1), [])
      | c :: rest =>
        let hasSep := decide (c = '-')
        let r := if hasSep then rest else c :: rest
        if r.length < 2 then .error .valueError
        else match pyInt (r.take 2) with
          | none => .error .valueError
          | some m =>
            match r.drop 2 with
            | [] => if hasSep then .ok ((y, m, 1), []) else .error .valueError
            | c' :: rest' =>
              if hasSep = true ∧ c' ≠ '-' then .error .valueError
              else
                let r' := if hasSep then rest' else c' :: rest'
                if r'.length < 2 then .error .valueError
                else match pyInt (r'.take 2) with
                  | none => .error .valueError
                  | some d => .ok ((y, m, d), r'.drop 2)

/-- The constructor of `datetime`. -/
def mkDT (y m d h mi s us : Int) : Except WireErr DT :=
  let dt : DT := ⟨y.toNat, m.toNat, d.toNat, h.toNat, mi.toNat, s.toNat, us.toNat⟩
  if 0 ≤ y ∧ 0 ≤ m ∧ 0 ≤ d ∧ 0 ≤ h ∧ 0 ≤ mi ∧ 0 ≤ s ∧ 0 ≤ us ∧ dt.valid then .ok dt else .error .valueError

/-- dateutil, `isoparser._parse_isodate`. `uncommon` stands for `_parse_isodate_uncommon` (week dates and ordinal dates). -/
def parseIsoDate (uncommon : Str → Except WireErr ((Int × Int × Int) × Str)) (s : Str) : Except WireErr ((Int × Int × Int) × Str) :=
  match parseIsoDateCommon s with
  | .ok r => .ok r
  | .error _ => uncommon s

/-- The text after the date, in `isoparser.isoparse`: any one character, then the time of day. -/
def timePart (rest : Str) : Except WireErr TC :=
  match rest with
  | [] => .ok {}
  | _ :: t => parseIsoTime t

/-- dateutil, `isoparser.isoparse`: the local time and the offset in minutes, if there is a zone. Non-ASCII texts are refused.
`uncommon` stands for `_parse_isodate_uncommon` (week dates and ordinal dates), which is not modelled: the theorems hold whatever
it returns. The local time is an instant, because 24:00 may be the day after the last. -/
def isoparse (uncommon : Str → Except WireErr ((Int × Int × Int) × Str)) (s : Str) : Except WireErr (Int × Option Int) :=
  if s.any (fun c => decide (128 ≤ c.toNat)) then .error .valueError
  else
    match parseIsoDate uncommon s with
    | .error e => .error e
    | .ok ((y, m, d), rest) =>
      match timePart rest with
      | .error e => .error e
      | .ok c =>
        if c.h = 24 then
          match mkDT y m d 0 c.m c.s c.us with
          | .error e => .error e
          | .ok dt => if dt.instant + 86400000000 < maxInstant then .ok (dt.instant + 86400000000, c.tz) else .error .overflowError
        else match mkDT y m d c.h c.m c.s c.us with
          | .error e => .error e
          | .ok dt => .ok (dt.instant, c.tz)

/-- `parseXMLTimestamp`, xmlhelper.py:33-43. -/
def parseXMLTimestamp (uncommon : Str → Except WireErr ((Int × Int × Int) × Str)) (s : Str) : Except WireErr Int :=
  match isoparse uncommon s with
  | .error e => .error e
  | .ok (_, none) => .error .payloadError                                    -- lines 37-39
  | .ok (t, some off) =>
    let u := t - off * 60000000                                              -- line 42: astimezone
    if 0 ≤ u ∧ u < maxInstant then .ok u else .error .overflowError

end OpenNSA.Wire
