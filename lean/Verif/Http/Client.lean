import Verif.PyLemmas
import Verif.Wire.Errors
/-
Model of /repo/opennsa/protocols/shared/httpclient.py, of the handling of its failures in
/repo/opennsa/protocols/nsi2/requesterclient.py:56-83, and of the rounds of /repo/opennsa/discovery/fetcher.py:48-66.

Simplifications: URLs are ASCII without tabs and line breaks (urllib removes those). `twhttp.urlparse` is `urllib.parse.urlparse` on bytes:
third-party, modelled from its source (scheme and netloc only; what it checks inside of brackets is left out). What Twisted's
HTTPClientFactory does with the connection is `Net`; redirections, which it follows by itself, are left out.
-/
namespace OpenNSA.Http.Client
open Py Wire

/-- The characters of schemes, `urllib.parse.scheme_chars`. -/
def schemeChar (c : Char) : Bool := c.isAlphanum || c = '+' || c = '-' || c = '.'

/-- Scheme (lower case) and the rest, `urllib.parse.urlsplit`. -/
def urlScheme (s : Str) : Str × Str :=
  match cutFirst ':' s with
  | some (c :: cs, rest) => if c.isAlpha && (c :: cs).all schemeChar then ((c :: cs).map Char.toLower, rest) else ([], s)
  | _ => ([], s)

/-- The end of the netloc, `urllib.parse._splitnetloc`. -/
def urlDelim (c : Char) : Bool := c = '/' || c = '?' || c = '#'

/-- Scheme and netloc, `urllib.parse.urlsplit`; `none` for the ValueError if only one of the brackets occurs. -/
def urlparse (s : Str) : Option (Str × Str) :=
  let (scheme, rest) := urlScheme s
  match rest with
  | '/' :: '/' :: t =>
    let netloc := t.takeWhile (fun c => !urlDelim c)
    if decide ('[' ∈ netloc) != decide (']' ∈ netloc) then none else some (scheme, netloc)
  | _ => some (scheme, [])

/-- A request on its way. `tls`: the name that the certificate of the server must have (opennsaTlsContext.py:63-66). -/
structure Conn where
  host : Str
  port : Int
  tls : Option Str
  url : Str
  method : Str
  body : Str
  headers : List (Str × Str)
  timeout : Int
  deriving DecidableEq, Repr

/-- What a call does: raise an exception, return a failed Deferred, or start a request. -/
inductive Action
  | raises
  | fails
  | connects (c : Conn)
  deriving DecidableEq, Repr

/-- `port = 80 if scheme == 'http' else 443`, line 60. `scheme` is bytes, so it never equals the text. -/
def defaultPort (_scheme : Str) : Int := 443

/-- `httpRequest`, lines 39-84. `ctx`: whether a TLS context is given. -/
def httpRequest (url body : Str) (headers : List (Str × Str)) (method : Str := ['P','O','S','T']) (timeout : Int := 30) (ctx : Bool := false) : Action :=
  if ¬ (['h','t','t','p'] : Str).isPrefixOf url then .fails                              -- lines 51-53
  else match urlparse url with                                                           -- line 57
    | none => .raises
    | some (scheme, netloc) =>
      match (match cutFirst ':' netloc with
          | none => some (netloc, defaultPort scheme)                                    -- lines 58-60
          | some (host, port) => (pyInt port).map (host, ·)) with                        -- lines 62-63
      | none => .raises
      | some (host, port) =>
        let hs := dset (dset [] "host".toList netloc) "User-Agent".toList "OpenNSA/Twisted".toList       -- lines 70-71
        let hs := headers.foldl (fun d h => dset d h.1 h.2) hs                           -- lines 73-74
        if scheme = ['h','t','t','p','s'] then
          if ctx then .connects { host, port, tls := some host, url, method, body, headers := hs, timeout }     -- line 79
          else .fails                                                                    -- lines 77-78
        else .connects { host, port, tls := none, url, method, body, headers := hs, timeout }                   -- line 81

/-- `soapRequest`, lines 27-35. `timeout` is not passed on. -/
def soapRequest (url action envelope : Str) (_timeout : Int := 30) (ctx : Bool := false) (headers : List (Str × Str) := []) : Action :=
  let hs := dset (dset headers "Content-Type".toList "text/xml; charset=utf-8".toList) "soapaction".toList action
  httpRequest url envelope hs (ctx := ctx)

/-! ### Outcomes -/

/-- What becomes of a request. -/
inductive Net
  | reply (data : Str)                          -- 200, 201, 202, 204
  | status (code : Nat) (data : Str)            -- any other status: `WebError`
  | closed                                      -- `ConnectionClosed`, `ConnectionDone`, `ConnectionLost`
  | refused                                     -- `ConnectionRefusedError`
  | other                                       -- timeout, no such host, TLS failure, …
  deriving DecidableEq, Repr

/-- Failures. -/
inductive Failure
  | web (code : Nat) (data : Str)
  | refused
  | other
  deriving DecidableEq, Repr

/-- `logReply`, `invocationError`, lines 83-109: what the caller's Deferred yields. A closed connection yields None: line 88 returns nothing. -/
def outcome : Net → Except Failure (Option Str)
  | .reply d => .ok (some d)
  | .closed => .ok none
  | .status c d => .error (.web c d)
  | .refused => .error .refused
  | .other => .error .other

/-- An error of a request to a provider: an NSI error, or any other exception. -/
inductive ReqErr
  | nsi (e : NSIErrorIn)
  | failure (f : Failure)
  | wire (e : WireErr)

/-- `_handleErrorReply`, requesterclient.py:56-83. `parse`: ElementTree, `none` for a text that is no XML (a ParseError). -/
def handleErrorReply (parse : Str → Option Elem) (provider : Option Str) (f : Failure) : ReqErr :=
  match f with
  | .refused => .nsi { cls := .downstreamNSAError, text := some "Could not contact NSA".toList, nsaId := provider,
                       connectionId := none, variables := none }                         -- lines 59-63
  | .other => .failure .other                                                            -- lines 64-66
  | .web c d =>
    if c ≠ 500 then .failure (.web c d)                                                  -- lines 68-70
    else match parse d with
      | none => .wire .valueError
      | some env => match readFault env provider with                                    -- lines 72-81
        | .ok e => .nsi e
        | .error w => .wire w

/-- Requests to a provider other than `reserve` and `querySummarySync`: `d.addCallbacks(lambda sd : None, self._handleErrorReply)`,
requesterclient.py:146, 157, 168, 179, 189, 205, 240. -/
def acknowledged (parse : Str → Option Elem) (provider : Option Str) (n : Net) : Except ReqErr Unit :=
  match outcome n with
  | .ok _ => .ok ()
  | .error f => .error (handleErrorReply parse provider f)

/-- `reserve`: the acknowledgement is parsed by `ack`, requesterclient.py:129-135; that of None raises (a TypeError). -/
def reserveAck {α : Type} (ack : Str → Except WireErr α) (parse : Str → Option Elem) (provider : Option Str) (n : Net) : Except ReqErr α :=
  match outcome n with
  | .ok none => .error (.wire .typeError)
  | .ok (some d) => match ack d with
    | .ok x => .ok x
    | .error w => .error (.wire w)
  | .error f => .error (handleErrorReply parse provider f)

/-! ### Discovery -/

/-- `fetchDocuments`, discovery/fetcher.py:48-66: the requests started, and whether all were; an exception ends the loop over peers. -/
def fetchRound (ctx : Bool) : List Str → List Action × Bool
  | [] => ([], true)
  | url :: rest =>
    match httpRequest url [] [] ['G','E','T'] 10 ctx with
    | .raises => ([], false)
    | a => (a :: (fetchRound ctx rest).1, (fetchRound ctx rest).2)

/-- The requests of the first rounds. `task.LoopingCall` makes no further round after an exception. -/
def fetchRounds (ctx : Bool) (peers : List Str) : Nat → List (List Action)
  | 0 => []
  | n + 1 => (fetchRound ctx peers).1 :: if (fetchRound ctx peers).2 then fetchRounds ctx peers n else []

/-- `updateInterval`, discovery/fetcher.py:57-59. -/
def nextInterval (i : Nat) : Nat := min (i * 2) 3600

/-- The interval after a number of rounds, discovery/fetcher.py:37-39 (`FETCH_INTERVAL_MIN // 2`). -/
def intervalAfter : Nat → Nat
  | 0 => 5
  | n + 1 => nextInterval (intervalAfter n)

end OpenNSA.Http.Client
