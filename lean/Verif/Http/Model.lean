import Verif.Wire.Time
/-
Model of /repo/opennsa/shared/modifiableresource.py (documents served over HTTP) and of the access checks of
/repo/opennsa/protocols/shared/requestauthz.py and /repo/opennsa/protocols/shared/soapresource.py.
-/
namespace OpenNSA.Http
open Py OpenNSA.Wire

/-! ### Dates in headers -/

/-- `%a` in the C locale, `datetime.weekday()` counting from Monday. -/
def dayNames : List Str := ["Mon".toList, "Tue".toList, "Wed".toList, "Thu".toList, "Fri".toList, "Sat".toList, "Sun".toList]

/-- `%b` in the C locale. -/
def monthNames : List Str := ["Jan".toList, "Feb".toList, "Mar".toList, "Apr".toList, "May".toList, "Jun".toList, "Jul".toList, "Aug".toList,
  "Sep".toList, "Oct".toList, "Nov".toList, "Dec".toList]

/-- `datetime.strftime(d, RFC850_FORMAT)`, modifiableresource.py:13, 41. The first of January of year 1 is a Monday. Simplification: the
year is written with four digits also before the year 1000. -/
def httpDate (d : DT) : Str :=
  dayNames.getD (d.days % 7) [] ++ ", ".toList ++ (pad 2 d.day ++ ' ' :: (monthNames.getD (d.month - 1) [] ++ ' ' :: (pad 4 d.year ++ ' ' ::
    (pad 2 d.hour ++ ':' :: (pad 2 d.minute ++ ':' :: (pad 2 d.second ++ " GMT".toList))))))

/-- A literal of the pattern; `_strptime` ignores case. -/
def lit (p s : Str) : Option Str := if (s.take p.length).map Char.toLower = p.map Char.toLower then some (s.drop p.length) else none

/-- White space of the format is `\s+` in the pattern of `_strptime`. -/
def spaces : Str → Option Str
  | c :: r => if isSpace c then some (r.dropWhile isSpace) else none
  | [] => none

/-- `%a`, `%b`: one of the names; its index. -/
def oneOf (names : List Str) (i : Nat) (s : Str) : Option (Nat × Str) :=
  match names with
  | [] => none
  | n :: ns => match lit n s with
    | some r => some (i, r)
    | none => oneOf ns (i + 1) s

/-- A number of one or two digits up to a bound (`%d`, `%H`, `%M`, `%S`): nothing that follows one of these in the format is a
digit, so that all digits have to be taken. Simplification: only ASCII digits. -/
def num2 (lo hi : Nat) (s : Str) : Option (Nat × Str) :=
  match s with
  | [] => none
  | a :: r => match digitVal a with
    | none => none
    | some x => match r with
      | [] => if lo ≤ x ∧ x ≤ hi then some (x, r) else none
      | b :: r' => match digitVal b with
        | none => if lo ≤ x ∧ x ≤ hi then some (x, r) else none
        | some y => if lo ≤ x * 10 + y ∧ x * 10 + y ≤ hi then some (x * 10 + y, r') else none

/-- `%Y`: four digits. -/
def num4 (s : Str) : Option (Nat × Str) :=
  match s with
  | a :: b :: c :: d :: r => match digitVal a, digitVal b, digitVal c, digitVal d with
    | some x, some y, some z, some w => some (x * 1000 + y * 100 + z * 10 + w, r)
    | _, _, _, _ => none
  | _ => none

/-- `datetime.strptime(s, RFC850_FORMAT)`, modifiableresource.py:55; `none` for ValueError. The day of the week is not compared with
the date. Seconds up to 61 match, but the constructor of `datetime` refuses them. -/
def strptime (s : Str) : Option Int := do
  let (_, s) ← oneOf dayNames 0 s
  let s ← lit [','] s
  let s ← spaces s
  let (day, s) ← num2 1 31 s
  let s ← spaces s
  let (month, s) ← oneOf monthNames 1 s
  let s ← spaces s
  let (year, s) ← num4 s
  let s ← spaces s
  let (hour, s) ← num2 0 23 s
  let s ← lit [':'] s
  let (minute, s) ← num2 0 59 s
  let s ← lit [':'] s
  let (second, s) ← num2 0 61 s
  let s ← spaces s
  let s ← lit "GMT".toList s
  if s = [] then
    let d : DT := { year, month, day, hour, minute, second, micro := 0 }
    if d.valid then some d.instant else none
  else none

/-! ### Documents -/

/-- A time without its microseconds: `.replace(microsecond=0)`, modifiableresource.py:38. -/
def wholeSeconds (t : Int) : Int := t / 1000000 * 1000000

/-- `ModifiableResource`, modifiableresource.py:20-41. -/
structure Res where
  /-- `self.representation` -/
  representation : Option Str
  /-- `self.last_update_time` -/
  lastUpdate : Int
  /-- `self.last_modified_timestamp` -/
  lastModified : Str
  /-- `self.mime_type` -/
  mime : Option Str
  deriving DecidableEq, Repr

/-- `updateResource`, modifiableresource.py:34-41, at the time `now`. -/
def Res.update (r : Res) (rep : Option Str) (updateTime : Option Int) (now : Int) : Res :=
  let t := updateTime.getD (wholeSeconds now)
  { r with representation := rep, lastUpdate := t, lastModified := httpDate (ofInstant t) }

/-- `__init__`, modifiableresource.py:24-31. -/
def Res.new (mime : Option Str) (now : Int) : Res :=
  Res.update { representation := none, lastUpdate := 0, lastModified := [], mime } none none now

/-- An answer: code, `Last-modified`, `Content-type`, body. -/
structure Answer where
  code : Nat
  lastModified : Option Str
  contentType : Option Str
  body : Str
  deriving DecidableEq, Repr

/-- The text of modifiableresource.py:49. -/
def notYet : Str := "Resource has not yet been created/updated.".toList

/-- An answer with the document, modifiableresource.py:62-66 (`if self.mime_type`: an empty type is not sent). -/
def Res.full (r : Res) (rep : Str) : Answer :=
  { code := 200, lastModified := some r.lastModified, contentType := r.mime.bind fun m => if m = [] then none else some m, body := rep }

/-- `render_GET`, modifiableresource.py:44-66. `parse` is `strptime` with the format (`none`: ValueError). -/
def Res.get (parse : Str → Option Int) (r : Res) (ifModifiedSince : Option Str) : Answer :=
  match r.representation with
  | none => { code := 500, lastModified := none, contentType := none, body := notYet }           -- lines 46-49
  | some rep =>
    match ifModifiedSince with
    | none => r.full rep
    | some h =>
      if h = [] then r.full rep                                                                  -- line 53
      else match parse h with
        | none => r.full rep                                                                     -- lines 59-60
        | some msd =>
          if r.lastUpdate ≤ msd then { code := 304, lastModified := none, contentType := none, body := [] }  -- lines 56-58
          else r.full rep

/-! ### Access -/

/-- `bytes` of the certificate. -/
abbrev Bytes := List UInt8

/-- `b.decode('utf-8')`; `none` for UnicodeDecodeError. -/
def decodeUtf8 (b : Bytes) : Option Str := (String.fromUTF8? ⟨b.toArray⟩).map String.toList

/-- A text or bytes; in Python 3 the one never equals the other. -/
inductive PyVal
  | str (s : Str)
  | bytes (b : Bytes)
  deriving DecidableEq, Repr

/-- What the checks read of a request: whether it came over TLS, and the components of the subject of the client certificate, if there
is one (pyOpenSSL: `X509Name.get_components()` is a list of pairs of bytes). -/
structure Req where
  secure : Bool
  cert : Option (List (Bytes × Bytes))
  deriving DecidableEq, Repr

/-- The outcome of a check: the request goes on, with this host name for the authorization of ports; it is refused with 401; or an
exception is raised, which twisted answers with 500. -/
inductive Gate
  | admitted (hostDn : Option PyVal)
  | refused
  | raised
  deriving DecidableEq, Repr

/-- `checkAuthz`, requestauthz.py:15-62. Every caller in resource.py answers 401 when it is not allowed. -/
def checkAuthz (req : Req) (allowed : Option (List PyVal)) : Gate :=
  match allowed with
  | none =>                                                                   -- lines 24-34
    if req.secure then
      match req.cert with
      | none => .admitted none
      | some cs => match cs.getLast? with
        | none => .raised                                                     -- `[-1]` of an empty list
        | some c => .admitted (some (.bytes c.2))
    else .admitted none
  | some hosts =>
    if ¬ req.secure then .refused                                             -- lines 38-41
    else match req.cert with
      | none => .refused                                                      -- lines 43-47
      | some cs => match cs.getLast? with                                     -- line 51
        | none => .raised
        | some c => if PyVal.bytes c.2 ∈ hosts then .admitted (some (.bytes c.2)) else .refused     -- lines 56-60

/-- The key `b'CN'`. -/
def cn : Bytes := [67, 78]

/-- `dict(components)`: for a key that occurs several times the last value stays. -/
def dictOf (cs : List (Bytes × Bytes)) : List (Bytes × Bytes) := cs.foldl (fun d c => dset d c.1 c.2) []

/-- `(dict(cert.get_subject().get_components()).get(b'CN')).decode('utf-8')`, soapresource.py:65, 81. `none`: None has no method
`decode`, or the bytes are not UTF-8. -/
def commonName (cs : List (Bytes × Bytes)) : Option Str := (dget (dictOf cs) cn).bind decodeUtf8

/-- The check at the beginning of `SOAPResource.render_POST`, soapresource.py:51-85. -/
def soapGate (req : Req) (allowed : Option (List PyVal)) : Gate :=
  match allowed with
  | some hosts =>
    if ¬ req.secure then .refused                                             -- lines 52-55
    else match req.cert with
      | none => .refused                                                      -- lines 57-61
      | some cs => match commonName cs with                                   -- line 65
        | none => .raised
        | some name => if PyVal.str name ∈ hosts then .admitted (some (.str name)) else .refused    -- lines 68-73
  | none =>
    if req.secure then                                                        -- lines 75-82
      match req.cert with
      | none => .raised                                                       -- line 81: None has no method `get_subject`
      | some cs => match commonName cs with
        | none => .raised
        | some name => .admitted (some (.str name))
    else .admitted none                                                       -- lines 84-85

/-- The handlers that an HTTP request can reach. -/
inductive Endpoint
  | soap                  -- soapresource.py:49
  | restCreate            -- rest/resource.py:160, P2PBaseResource.render_POST
  | restList              -- rest/resource.py:136, P2PBaseResource.render_GET
  | restRead              -- rest/resource.py:289, P2PConnectionResource.render_GET
  | restStatus            -- rest/resource.py:326, P2PStatusResource.render_GET
  | restCommand           -- rest/resource.py:362, P2PStatusResource.render_POST
  deriving DecidableEq, Repr

/-- The check each handler makes; all are given the same list, setup.py:214, 299, which config.py:385 makes of texts. -/
def gate (e : Endpoint) (req : Req) (allowed : Option (List Str)) : Gate :=
  let hosts := allowed.map fun l => l.map PyVal.str
  match e with
  | .soap => soapGate req hosts
  | .restList => .admitted none                 -- rest/resource.py:136-157 makes no check
  | _ => checkAuthz req hosts

end OpenNSA.Http
