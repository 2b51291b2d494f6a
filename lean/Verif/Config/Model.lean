import Verif.Py
/-
Model of `Config` in /repo/opennsa/config.py:169-424.

The file is given as `configparser` holds it after reading: sections with their options, defaults of the section `DEFAULT` merged in; `configparser` refuses
sections and options that occur twice. A value is `some text` if interpolation and expansion of environment variables (config.py:161-166, library code)
succeed, `none` if they raise an `InterpolationError`. `os.path.exists` is a parameter.
-/
namespace OpenNSA.Config
open Py

/-- Exceptions: `ConfigurationError`; `InterpolationError` of configparser; `ValueError` of `getboolean`, `getint` and of unpacking (config.py:407). -/
inductive Err
  | configuration
  | interpolation
  | value
  deriving DecidableEq, Repr

/-- A configuration file: the section `service`, always present (config.py:196), and the others in their order. -/
structure File where
  service : List (Str × Option Str)
  sections : List (Str × List (Str × Option Str))
  deriving DecidableEq, Repr

/-- Option names, config.py:41-67. -/
def oDomain : Str := ['d','o','m','a','i','n']
def oNetwork : Str := ['n','e','t','w','o','r','k']
def oLogfile : Str := ['l','o','g','f','i','l','e']
def oHost : Str := ['h','o','s','t']
def oPort : Str := ['p','o','r','t']
def oTls : Str := ['t','l','s']
def oBaseUrl : Str := ['b','a','s','e','_','u','r','l']
def oRest : Str := ['r','e','s','t']
def oNrmmap : Str := ['n','r','m','m','a','p']
def oPeers : Str := ['p','e','e','r','s']
def oPolicy : Str := ['p','o','l','i','c','y']
def oPlugin : Str := ['p','l','u','g','i','n']
def oServiceId : Str := ['s','e','r','v','i','c','e','i','d','_','s','t','a','r','t']
def oDatabase : Str := ['d','a','t','a','b','a','s','e']
def oDbuser : Str := ['d','b','u','s','e','r']
def oDbpassword : Str := ['d','b','p','a','s','s','w','o','r','d']
def oDbhost : Str := ['d','b','h','o','s','t']
def oKey : Str := ['k','e','y']
def oCertificate : Str := ['c','e','r','t','i','f','i','c','a','t','e']
def oCertdir : Str := ['c','e','r','t','d','i','r']
def oVerify : Str := ['v','e','r','i','f','y']
def oAllowedHosts : Str := ['a','l','l','o','w','e','d','h','o','s','t','s']
def oAllowedAdmins : Str := ['a','l','l','o','w','e','d','_','a','d','m','i','n','s']

/-- Defaults, config.py:15, 22, 249. -/
def dLogfile : Str := ['/','v','a','r','/','l','o','g','/','o','p','e','n','n','s','a','.','l','o','g']
def dCertdir : Str := ['/','e','t','c','/','s','s','l','/','c','e','r','t','s']
def dDbhost : Str := ['l','o','c','a','l','h','o','s','t']

/-- `cfg.get(BLOCK_SERVICE, option)`: `ok none` stands for `NoOptionError`. -/
def get (f : File) (o : Str) : Except Err (Option Str) :=
  match dget f.service o with
  | none => .ok none
  | some none => .error .interpolation
  | some (some t) => .ok (some t)

/-- A mandatory option, e.g. config.py:277-281. -/
def mandatory (f : File) (o : Str) : Except Err Str :=
  match get f o with
  | .error e => .error e
  | .ok none => .error .configuration
  | .ok (some t) => .ok t

/-- `cfg.get(BLOCK_SERVICE, option, fallback=d)`. -/
def getDefault (f : File) (o d : Str) : Except Err Str :=
  match get f o with
  | .error e => .error e
  | .ok none => .ok d
  | .ok (some t) => .ok t

/-- An option that must not be there, config.py:268-273, 283-288. -/
def forbidden (f : File) (o : Str) : Except Err Unit :=
  match get f o with
  | .error e => .error e
  | .ok none => .ok ()
  | .ok (some _) => .error .configuration

/-- `BOOLEAN_STATES` of configparser, on the text in lower case. -/
def boolOf (t : Str) : Option Bool :=
  let l := t.map Char.toLower
  if l ∈ [['1'], ['y','e','s'], ['t','r','u','e'], ['o','n']] then some true
  else if l ∈ [['0'], ['n','o'], ['f','a','l','s','e'], ['o','f','f']] then some false
  else none

/-- `cfg.getboolean(BLOCK_SERVICE, option, fallback=d)`. The fallback of `tls` is the text `'true'` (config.py:16, 310), which counts as true. -/
def getBool (f : File) (o : Str) (d : Bool) : Except Err Bool :=
  match get f o with
  | .error e => .error e
  | .ok none => .ok d
  | .ok (some t) => match boolOf t with | some b => .ok b | none => .error .value

/-- `cfg.getint(BLOCK_SERVICE, option, fallback=d)`. -/
def getInt (f : File) (o : Str) (d : Int) : Except Err Int :=
  match get f o with
  | .error e => .error e
  | .ok none => .ok d
  | .ok (some t) => match pyInt t with | some i => .ok i | none => .error .value

/-- Policies, config.py:331 and constants.py:44-47. -/
def policies : List Str :=
  [['r','e','q','u','i','r','e','u','s','e','r'], ['r','e','q','u','i','r','e','t','r','a','c','e'], ['a','g','g','r','e','g','a','t','o','r'], ['a','l','l','o','w','h','a','i','r','p','i','n']]

/-- The policies, config.py:328-335. -/
def getPolicy (f : File) : Except Err (List Str) :=
  match get f oPolicy with
  | .error e => .error e
  | .ok none => .ok []
  | .ok (some t) => if (splitOn ',' t).all (policies.contains ·) then .ok (splitOn ',' t) else .error .configuration

/-- The URLs of the peers, config.py:303-307. -/
def getPeers (f : File) : Except Err (Option (List Str)) :=
  match get f oPeers with
  | .error e => .error e
  | .ok none => .ok none
  | .ok (some t) => .ok (some ((splitOn '\n' t).map strip))

/-- `[i.strip() for i in text.split(',') if len(i) > 0]`, config.py:344, 385. -/
def entries (t : Str) : List Str := ((splitOn ',' t).filter fun i => decide (i ≠ [])).map strip

/-- The directory of certificates, config.py:353-360. -/
def getCertdir (ex : Str → Bool) (f : File) : Except Err Str :=
  match get f oCertdir with
  | .error e => .error e
  | .ok none => .ok dCertdir
  | .ok (some t) => if ex t then .ok t else .error .configuration

/-- A file that TLS needs, config.py:369-381: given, not empty, and there. -/
def tlsFile (ex : Str → Bool) : Option Str → Except Err Unit
  | none => .error .configuration
  | some t => if t = [] then .error .configuration else if ex t then .ok () else .error .configuration

/-- The hosts that are allowed, config.py:383-388: every exception is ignored. -/
def getHosts (f : File) : Option (List Str) :=
  match get f oAllowedHosts with
  | .ok (some t) => some (entries t)
  | _ => none

/-- TLS settings, config.py:367-392; the list of hosts. -/
def getTls (ex : Str → Bool) (f : File) (tls : Bool) (key certificate : Option Str) : Except Err (Option (List Str)) :=
  if tls then
    match tlsFile ex key with
    | .error e => .error e
    | .ok () =>
      match tlsFile ex certificate with
      | .error e => .error e
      | .ok () => .ok (getHosts f)
  else .ok none

/-- The backend types, config.py:26-37 and 416-419. -/
def backendTypes : List Str :=
  [['d','u','d'], ['j','u','n','i','p','e','r','e','x'], ['j','u','n','i','p','e','r','v','p','l','s'], ['j','u','n','o','s','m','x'], ['f','o','r','c','e','1','0'],
   ['b','r','o','c','a','d','e'], ['n','c','s','v','p','n'], ['p','i','c','a','8','o','v','s'], ['o','e','s','s'], ['j','u','n','o','s','s','p','a','c','e'],
   ['j','u','n','o','s','e','x'], ['c','u','s','t','o','m','b','a','c','k','e','n','d'], ['a','s','y','n','c','f','a','i','l']]

/-- `backend_type, name = section.split(':', 2)`, config.py:406-410: two colons or more give three parts. -/
def sectionName (s : Str) : Except Err (Str × Str) :=
  match splitOn ':' s with
  | [_] => .ok (s, [])
  | [t, n] => .ok (t, n)
  | _ => .error .value

/-- `dict(cfg.items(section))`, config.py:420. -/
def items : List (Str × Option Str) → Except Err (List (Str × Str))
  | [] => .ok []
  | (_, none) :: _ => .error .interpolation
  | (o, some t) :: r => match items r with | .error e => .error e | .ok l => .ok ((o, t) :: l)

/-- `'_backend_type'`, config.py:421. -/
def kType : Str := ['_','b','a','c','k','e','n','d','_','t','y','p','e']

/-- The backends by name. -/
abbrev Backends := List (Str × List (Str × Str))

/-- `_load_backends`, config.py:394-424. -/
def loadBackends : List (Str × List (Str × Option Str)) → Backends → Except Err Backends
  | [], b => .ok b
  | (s, opts) :: r, b =>
    match sectionName s with
    | .error e => .error e
    | .ok (t, n) =>
      if dmem b n then .error .configuration
      else if backendTypes.contains t then
        match items opts with
        | .error e => .error e
        | .ok l => loadBackends r (dset b n (dset l kType t))
      else loadBackends r b

/-- The verified configuration, a dictionary in the program (config.py:264-348). -/
structure Vc where
  domain : Str
  logfile : Str
  rest : Bool
  peers : Option (List Str)
  host : Option Str
  tls : Bool
  port : Int
  baseUrl : Option Str
  key : Option Str
  certificate : Option Str
  policy : List Str
  plugin : Option Str
  database : Str
  dbUser : Str
  dbPassword : Option Str
  dbHost : Str
  serviceId : Option Str
  certdir : Str
  verify : Bool
  allowedHosts : Option (List Str)
  admins : List Str
  backends : Backends
  deriving DecidableEq, Repr

/-- `_load_config_dict`, config.py:252-348. Line 293 reads the option that line 269 has found to be absent, and does nothing. -/
def load (ex : Str → Bool) (f : File) : Except Err Vc := do
  forbidden f oNrmmap                                                       -- lines 268-273
  let domain ← mandatory f oDomain                                          -- lines 277-281
  forbidden f oNetwork                                                      -- lines 283-288
  let logfile ← getDefault f oLogfile dLogfile                              -- line 290
  let rest ← getBool f oRest false                                          -- line 301
  let peers ← getPeers f                                                    -- lines 303-307
  let host ← get f oHost                                                    -- line 309
  let tls ← getBool f oTls true                                             -- line 310
  let port ← getInt f oPort (if tls then 9443 else 9080)                    -- line 311
  let baseUrl ← get f oBaseUrl                                              -- lines 313-316
  let key ← get f oKey                                                      -- lines 318-321
  let certificate ← get f oCertificate                                      -- lines 323-326
  let policy ← getPolicy f                                                  -- lines 328-335
  let plugin ← get f oPlugin                                                -- line 337
  let database ← mandatory f oDatabase                                      -- lines 236-240
  let dbUser ← mandatory f oDbuser                                          -- lines 242-246
  let dbPassword ← get f oDbpassword                                        -- line 248
  let dbHost ← getDefault f oDbhost dDbhost                                 -- line 249
  let serviceId ← get f oServiceId                                          -- line 250
  let certdir ← getCertdir ex f                                             -- lines 353-360
  let verify ← getBool f oVerify true                                       -- lines 361-364
  let allowedHosts ← getTls ex f tls key certificate                        -- lines 367-392
  let admins ← getDefault f oAllowedAdmins []                               -- line 343
  let backends ← loadBackends f.sections []                                 -- line 347
  pure { domain, logfile, rest, peers, host, tls, port, baseUrl, key, certificate, policy, plugin, database, dbUser, dbPassword, dbHost, serviceId, certdir,
         verify, allowedHosts, admins := entries admins, backends }

/-- `is_admin_override`, config.py:222-230. -/
def isAdmin (vc : Vc) (urn : Str) : Bool := vc.admins.any (· = urn)

/-- The singleton: what has been loaded (config.py:180-207). -/
structure Singleton where
  cfg : Option File
  vc : Option Vc
  deriving DecidableEq, Repr

/-- `read_config`, config.py:190-207: the file is read if none has been read before. -/
def readConfig (ex : Str → Bool) (s : Singleton) (f : File) : Singleton × Except Err Vc :=
  let cfg := s.cfg.getD f
  let s := { s with cfg := some cfg }
  match s.vc with
  | some vc => (s, .ok vc)
  | none => match load ex cfg with
    | .ok vc => ({ s with vc := some vc }, .ok vc)
    | .error e => (s, .error e)

end OpenNSA.Config
