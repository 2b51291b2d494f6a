import Verif.Wire.Messages
import Verif.Wire.Header
/-
Model of database.py and datafiles/schema.sql: the SQL text that rows become, how the server reads it, which rows it accepts, and what is
read back. The adapters of psycopg2 and PostgreSQL's lexical rules are third-party and modelled from their documentation.
-/
namespace OpenNSA.Db
open Py Wire

/-! ### Values and their SQL text -/

/-- The Python values that are saved in rows (aggregator.py:239-253, 922-933; genericbackend.py:350-356). -/
inductive Val
  | null
  | int (n : Int)
  | bool (b : Bool)
  | text (s : Str)
  | time (t : Int)
  | label (l : Label)
  | attrs (l : List (Str × Str))
  | texts (l : List (Option Str))
  deriving DecidableEq, Repr

/-- Each of the characters is written twice. -/
def double (cs : List Char) : Str → Str
  | [] => []
  | c :: s => if c ∈ cs then c :: c :: double cs s else c :: double cs s

/-- `adapt(text)` of psycopg2: a literal; with backslashes, one with escapes. -/
def quoted (s : Str) : Str :=
  if '\\' ∈ s then ' ' :: 'E' :: '\'' :: (double ['\'', '\\'] s ++ ['\''])
  else '\'' :: (double ['\''] s ++ ['\''])

/-- The texts joined with a comma and a space. -/
def commas : List Str → Str
  | [] => []
  | [x] => x
  | x :: y :: xs => x ++ ',' :: ' ' :: commas (y :: xs)

/-- `adaptLabel`, database.py:32-33, and `adaptSecuritAttribute`, lines 35-36: `(%s, %s)::name`. -/
def pairSql (name : Str) (a b : Str) : Str := '(' :: (quoted a ++ ',' :: ' ' :: (quoted b ++ ')' :: ':' :: ':' :: name))

/-- `adapt(int)` of psycopg2: a negative number is preceded by a space. -/
def intSql (n : Int) : Str := if n < 0 then ' ' :: showInt n else showInt n

/-- An element of an array of texts. -/
def elemSql : Option Str → Str
  | none => "NULL".toList
  | some s => quoted s

/-- The text of a value: psycopg2's adapters, `adaptDatetime` (database.py:38-39) and lists: an empty one is the literal `{}`. -/
def Val.sql : Val → Str
  | .null => "NULL".toList
  | .int n => intSql n
  | .bool true => "true".toList
  | .bool false => "false".toList
  | .text s => quoted s
  | .time t => quoted (isoformat (ofInstant t))
  | .label l => pairSql "label".toList l.type_ l.labelValue
  | .attrs [] => quoted "{}".toList
  | .attrs (a :: l) => "ARRAY[".toList ++ (commas ((a :: l).map fun a => pairSql "security_attribute".toList a.1 a.2) ++ [']'])
  | .texts [] => quoted "{}".toList
  | .texts (a :: l) => "ARRAY[".toList ++ (commas ((a :: l).map elemSql) ++ [']'])

/-- The values of an INSERT statement, as twistar's `save` has them: separated by commas, in parentheses. -/
def valuesSql : List Val → Str
  | [] => [')']
  | [v] => v.sql ++ [')']
  | v :: w :: vs => v.sql ++ ',' :: valuesSql (w :: vs)

/-! ### How the server reads them -/

/-- Expressions of SQL, as far as they occur. -/
inductive Expr
  | null
  | num (n : Int)
  | bool (b : Bool)
  | lit (s : Str)
  | pair (name : Str) (a b : Str)
  | array (l : List Expr)
  deriving Repr

/-- The rest of a literal after the opening quote: two quotes are one, one quote ends it. -/
def readPlain : Str → Option (Str × Str)
  | [] => none
  | '\'' :: '\'' :: r => (readPlain r).map fun x => ('\'' :: x.1, x.2)
  | '\'' :: r => some ([], r)
  | c :: r => (readPlain r).map fun x => (c :: x.1, x.2)

/-- The rest of a literal with escapes. Of the escapes only the backslash itself is modelled; others are not accepted. -/
def readEscaped : Str → Option (Str × Str)
  | [] => none
  | '\\' :: '\\' :: r => (readEscaped r).map fun x => ('\\' :: x.1, x.2)
  | '\\' :: _ => none
  | '\'' :: '\'' :: r => (readEscaped r).map fun x => ('\'' :: x.1, x.2)
  | '\'' :: r => some ([], r)
  | c :: r => (readEscaped r).map fun x => (c :: x.1, x.2)

/-- A literal, after any blank. -/
def readLit : Str → Option (Str × Str)
  | ' ' :: 'E' :: '\'' :: r => readEscaped r
  | '\'' :: r => readPlain r
  | _ => none

/-- What is left after a given text. -/
def dropText : Str → Str → Option Str
  | [], r => some r
  | c :: t, d :: r => if c = d then dropText t r else none
  | _ :: _, [] => none

/-- A name: small letters and underscores. -/
def isName (c : Char) : Bool := c.isLower || c = '_'

/-- `(literal, literal)::name`, after the opening parenthesis. -/
def readPair (r : Str) : Option (Expr × Str) :=
  match readLit r with
  | none => none
  | some (a, r) => match dropText ", ".toList r with
    | none => none
    | some r => match readLit r with
      | none => none
      | some (b, r) => match dropText ")::".toList r with
        | none => none
        | some r => some (.pair (r.takeWhile isName) a b, r.dropWhile isName)

/-- Digits and signs. -/
def isNum (c : Char) : Bool := (digitVal c).isSome || c = '-'

/-- A number, with its sign. -/
def readNum (r : Str) : Option (Expr × Str) := (pyInt (r.takeWhile isNum)).map fun n => (.num n, r.dropWhile isNum)

/-- An expression that is no array. -/
def readSimple (r : Str) : Option (Expr × Str) :=
  match r with
  | '\'' :: _ => (readLit r).map fun x => (.lit x.1, x.2)
  | ' ' :: 'E' :: _ => (readLit r).map fun x => (.lit x.1, x.2)
  | '(' :: s => readPair s
  | ' ' :: s => readNum s
  | _ =>
    match dropText "NULL".toList r with
    | some s => some (.null, s)
    | none => match dropText "true".toList r with
      | some s => some (.bool true, s)
      | none => match dropText "false".toList r with
        | some s => some (.bool false, s)
        | none => readNum r

/-- The elements of an array, up to the closing bracket; `fuel` bounds their number. -/
def readElems : Nat → Str → Option (List Expr × Str)
  | 0, _ => none
  | fuel + 1, r => match readSimple r with
    | none => none
    | some (x, r) => match r with
      | ']' :: r => some ([x], r)
      | ',' :: ' ' :: r => (readElems fuel r).map fun y => (x :: y.1, y.2)
      | _ => none

/-- An expression. -/
def readExpr (r : Str) : Option (Expr × Str) :=
  match dropText "ARRAY[".toList r with
  | some s => (readElems s.length s).map fun x => (.array x.1, x.2)
  | none => readSimple r

/-- The values of the statement; `fuel` bounds their number. Nothing may follow. -/
def readValues : Nat → Str → Option (List Expr)
  | 0, _ => none
  | fuel + 1, r => match readExpr r with
    | none => none
    | some (x, [')']) => some [x]
    | some (x, ',' :: r) => (readValues fuel r).map fun xs => x :: xs
    | some _ => none

/-! ### Which values a column takes -/

/-- The types of schema.sql. -/
inductive ColType
  | text | integer | boolean | timestamp | directionality | label | attributes | texts
  deriving DecidableEq, Repr

/-- A column: type and `NOT NULL`. -/
structure Column where
  type_ : ColType
  notNull : Bool := false
  deriving DecidableEq, Repr

/-- Values in the database. -/
inductive Stored
  | null
  | int (n : Int)
  | bool (b : Bool)
  | text (s : Str)
  | time (t : Int)
  | pair (a b : Str)
  | pairs (l : List (Str × Str))
  | texts (l : List (Option Str))
  deriving DecidableEq, Repr

/-- What saving a row raises. -/
inductive DbErr
  | value        -- ValueError: a text with the character 0
  | syntax       -- the statement is not understood
  | data         -- DataError: a value that the type does not have
  | integrity    -- IntegrityError: NOT NULL, UNIQUE or CHECK
  deriving DecidableEq, Repr

/-- The elements of an array of composites. -/
def pairsOf (name : Str) : List Expr → Option (List (Str × Str))
  | [] => some []
  | .pair n a b :: l => if n = name then (pairsOf name l).map fun x => (a, b) :: x else none
  | _ :: _ => none

/-- The elements of an array of texts. -/
def textsOf : List Expr → Option (List (Option Str))
  | [] => some []
  | .lit s :: l => (textsOf l).map fun x => some s :: x
  | .null :: l => (textsOf l).map fun x => none :: x
  | _ :: _ => none

/-- Times as the server reads them: ISO 8601 without time zone (the columns are `timestamp`). -/
def readTimestamp (s : Str) : Option Int :=
  match isoparse (fun _ => .error .valueError) s with
  | .ok (t, none) => some t
  | _ => none

/-- The value of an expression for a column, schema.sql. The range of `integer` is that of 32 bits. -/
def coerce (c : Column) (e : Expr) : Except DbErr Stored :=
  match e with
  | .null => if c.notNull then .error .integrity else .ok .null
  | e => match c.type_, e with
    | .text, .lit s => .ok (.text s)
    | .integer, .num n => if -2147483648 ≤ n ∧ n ≤ 2147483647 then .ok (.int n) else .error .data
    | .integer, .lit s => match pyInt s with
      | some n => if -2147483648 ≤ n ∧ n ≤ 2147483647 then .ok (.int n) else .error .data
      | none => .error .data
    | .boolean, .bool b => .ok (.bool b)
    | .timestamp, .lit s => match readTimestamp s with
      | some t => .ok (.time t)
      | none => .error .data
    | .directionality, .lit s => if s = "Bidirectional".toList ∨ s = "Unidirectional".toList then .ok (.text s) else .error .data
    | .label, .pair n a b => if n = "label".toList then .ok (.pair a b) else .error .data
    | .attributes, .lit s => if s = "{}".toList then .ok (.pairs []) else .error .data
    | .attributes, .array l => match pairsOf "security_attribute".toList l with
      | some x => .ok (.pairs x)
      | none => .error .data
    | .texts, .lit s => if s = "{}".toList then .ok (.texts []) else .error .data
    | .texts, .array l => match textsOf l with
      | some x => .ok (.texts x)
      | none => .error .data
    | _, _ => .error .data

/-- All columns. -/
def coerceAll : List Column → List Expr → Except DbErr (List Stored)
  | [], [] => .ok []
  | c :: cs, e :: es => match coerce c e with
    | .error x => .error x
    | .ok v => match coerceAll cs es with
      | .error x => .error x
      | .ok vs => .ok (v :: vs)
  | _, _ => .error .syntax

/-! ### Tables -/

/-- A table: columns without `id`, the columns that are unique together, the columns of `CHECK ( start_time < end_time)`. -/
structure Table where
  columns : List Column
  unique : List Nat
  check : Option (Nat × Nat) := none

/-- `service_connections`, schema.sql:24-51, without `id` and `parameter`, which is not written. -/
def serviceConnections : Table :=
  { columns :=
      [⟨.text, true⟩, ⟨.integer, true⟩, ⟨.text, false⟩, ⟨.text, false⟩, ⟨.text, true⟩, ⟨.text, false⟩, ⟨.timestamp, true⟩,
       ⟨.text, true⟩, ⟨.text, true⟩, ⟨.text, true⟩,
       ⟨.text, true⟩, ⟨.text, true⟩, ⟨.label, false⟩, ⟨.text, true⟩, ⟨.text, true⟩, ⟨.label, false⟩,
       ⟨.timestamp, false⟩, ⟨.timestamp, false⟩, ⟨.boolean, true⟩, ⟨.directionality, true⟩, ⟨.integer, true⟩,
       ⟨.attributes, false⟩, ⟨.texts, false⟩]
    unique := [0]
    check := some (16, 17) }

/-- `sub_connections`, schema.sql:54-74. -/
def subConnections : Table :=
  { columns :=
      [⟨.integer, true⟩, ⟨.text, true⟩, ⟨.text, true⟩, ⟨.integer, true⟩, ⟨.integer, true⟩, ⟨.text, true⟩, ⟨.text, true⟩, ⟨.text, true⟩,
       ⟨.boolean, true⟩, ⟨.integer, false⟩, ⟨.boolean, false⟩,
       ⟨.text, true⟩, ⟨.text, true⟩, ⟨.label, false⟩, ⟨.text, true⟩, ⟨.text, true⟩, ⟨.label, false⟩]
    unique := [2, 1] }

/-- `generic_backend_connections`, schema.sql:78-104, without `id` and `parameter`, which is not written. -/
def backendConnections : Table :=
  { columns :=
      [⟨.text, true⟩, ⟨.integer, true⟩, ⟨.text, false⟩, ⟨.text, false⟩, ⟨.text, true⟩, ⟨.timestamp, true⟩,
       ⟨.text, true⟩, ⟨.text, true⟩, ⟨.text, true⟩, ⟨.boolean, true⟩,
       ⟨.text, true⟩, ⟨.text, true⟩, ⟨.label, false⟩, ⟨.text, true⟩, ⟨.text, true⟩, ⟨.label, false⟩,
       ⟨.timestamp, false⟩, ⟨.timestamp, false⟩, ⟨.boolean, true⟩, ⟨.directionality, true⟩, ⟨.integer, true⟩, ⟨.boolean, true⟩]
    unique := [0]
    check := some (16, 17) }

/-- Rows in the order of their ids. -/
abbrev Rows := List (List Stored)

/-- The row violates UNIQUE. -/
def Table.clash (t : Table) (rows : Rows) (row : List Stored) : Bool :=
  rows.any fun r => t.unique.all fun i => r[i]? = row[i]?

/-- The row violates CHECK. Comparisons with NULL do not. -/
def Table.checkFails (t : Table) (row : List Stored) : Bool :=
  match t.check with
  | none => false
  | some (i, j) => match row[i]?, row[j]? with
    | some (.time a), some (.time b) => decide (b ≤ a)
    | _, _ => false

/-- A character 0 in one of the texts. -/
def Val.hasNul : Val → Bool
  | .text s => '\x00' ∈ s
  | .label l => '\x00' ∈ l.type_
  | .attrs l => l.any fun a => '\x00' ∈ a.1 || '\x00' ∈ a.2
  | .texts l => l.any fun a => '\x00' ∈ a.getD []
  | _ => false

/-- `save()` of a new object: the statement is made, the server reads it and adds the row, unless it is refused. A column without value is
written NULL (twistar leaves it out). -/
def insert (t : Table) (rows : Rows) (vals : List Val) : Except DbErr Rows :=
  if vals.any Val.hasNul then .error .value
  else match readValues (vals.length) (valuesSql vals) with
    | none => .error .syntax
    | some es => match coerceAll t.columns es with
      | .error x => .error x
      | .ok row =>
        if t.clash rows row then .error .integrity
        else if t.checkFails row then .error .integrity
        else .ok (rows ++ [row])

/-- Values as they are read back: `LabelComposite.make`, `SecuritAttributeComposite.make`, database.py:47-54. Times are `timestamp`, which psycopg2
makes `datetime` objects without time zone; `castDatetime` (lines 57-58) is for another type and not used. -/
def load : Stored → Except LabelErr Val
  | .null => .ok .null
  | .int n => .ok (.int n)
  | .bool b => .ok (.bool b)
  | .text s => .ok (.text s)
  | .time t => .ok (.time t)
  | .pair a b => match Label.mk' a (.str b) with
    | .error x => .error x
    | .ok l => .ok (.label l)
  | .pairs l => .ok (.attrs l)
  | .texts l => .ok (.texts l)

/-- A row as it is read back. -/
def loadAll : List Stored → Except LabelErr (List Val)
  | [] => .ok []
  | s :: r => match load s with
    | .error x => .error x
    | .ok v => match loadAll r with
      | .error x => .error x
      | .ok vs => .ok (v :: vs)

/-! ### The rows that are written -/

/-- A text or `None`. -/
def optText : Option Str → Val
  | none => .null
  | some s => .text s

/-- A label or `None`. -/
def optLabel : Option Label → Val
  | none => .null
  | some l => .label l

/-- A time or `None`. -/
def optTime : Option Int → Val
  | none => .null
  | some t => .time t

/-- A truth value or `None`. -/
def optBool : Option Bool → Val
  | none => .null
  | some b => .bool b

/-- The trace or `None`. -/
def optTrace : Option (List (Option Str)) → Val
  | none => .null
  | some l => .texts l

/-- The row that `Aggregator.reserve` saves, aggregator.py:239-253. -/
def serviceVals (cid : Str) (now : Int) (h : HeaderIn) (r : Resv) : List Val :=
  [.text cid, .int 0, optText r.gid, optText r.description, optText h.requesterNSA, optText h.replyTo, .time now,
   .text "ReserveStart".toList, .text "Released".toList, .text "Created".toList,
   .text r.sd.source.network, .text r.sd.source.port, optLabel r.sd.source.label, .text r.sd.dest.network, .text r.sd.dest.port, optLabel r.sd.dest.label,
   optTime r.schedule.start, optTime r.schedule.end_, optBool r.sd.symmetric, optText r.sd.directionality, .int r.sd.capacity,
   .attrs h.securityAttributes, optTrace h.connectionTrace]

/-- The row that `Aggregator.reserveConfirmed` saves, aggregator.py:922-933 (attributes without column are not written). The revision is the
text of the message. -/
def subVals (key order : Int) (provider : Str) (r : Resv) : List Val :=
  [.int key, optText r.cid, .text provider, optText r.revision, .int order, .text "ReserveHeld".toList, .text "Released".toList, .text "Created".toList,
   .bool false, .null, .null,
   .text r.sd.source.network, .text r.sd.source.port, optLabel r.sd.source.label, .text r.sd.dest.network, .text r.sd.dest.port, optLabel r.sd.dest.label]

/-- The row that `GenericBackend.reserve` saves, genericbackend.py:350-356. -/
def backendVals (cid : Str) (now : Int) (requester : Option Str) (r : Resv) (src dst : Option Label) : List Val :=
  [.text cid, .int 0, optText r.gid, optText r.description, optText requester, .time now,
   .text "ReserveStart".toList, .text "Released".toList, .text "Created".toList, .bool false,
   .text r.sd.source.network, .text r.sd.source.port, optLabel src, .text r.sd.dest.network, .text r.sd.dest.port, optLabel dst,
   optTime r.schedule.start, optTime r.schedule.end_, optBool r.sd.symmetric, optText r.sd.directionality, .int r.sd.capacity, .bool false]

end OpenNSA.Db
