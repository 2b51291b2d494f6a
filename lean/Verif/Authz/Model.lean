import Verif.PyLemmas
/-
Model of /repo/opennsa/authz.py.
-/
namespace OpenNSA

/-- `SecurityAttribute`, nsa.py:52-59: a (type, value) pair presented in the request header. -/
structure SecAttr where
  type_ : Str
  value : Str
  deriving DecidableEq, Repr

/-- `AuthorizationAttribute`, authz.py:40-44: a rule of a port. -/
structure Rule where
  type_ : Str
  value : Str
  deriving DecidableEq, Repr

/-- `HEADER_ATTRIBUTES`, authz.py:20-26: nsa, user, group, token. -/
def headerAttributes : List Str :=
  [['n', 's', 'a'], ['u', 's', 'e', 'r'], ['g', 'r', 'o', 'u', 'p'], ['t', 'o', 'k', 'e', 'n']]

/-- `HOST_DN`, authz.py:24, the only member of `REQUEST_ATTRIBUTES` (line 27). -/
def hostDn : Str := ['h', 'o', 's', 't', 'd', 'n']

/-- The request information, an object with attribute `cert_host_dn` (which may be None); `request_info=None` is the outer
`none` (default of the backend methods, e.g. genericbackend.py:208). -/
abbrev ReqInfo := Option (Option Str)

/-- `AuthorizationAttribute.match`, authz.py:47-49. -/
def Rule.matches (r : Rule) (sa : SecAttr) : Bool := r.type_ = sa.type_ && r.value = sa.value

/-- The loop of `isAuthorized`, authz.py:59-71. `none` models the AttributeError of reading `cert_host_dn` on a missing
request info (line 65). -/
def authzLoop (default : Bool) (attrs : List SecAttr) (ri : ReqInfo) : List Rule → Option Bool
  | [] => some default
  | r :: rs =>
    if r.type_ ∈ headerAttributes then
      if attrs.any r.matches then some true else authzLoop default attrs ri rs      -- lines 60-63
    else if r.type_ = hostDn then                                                   -- line 64
      match ri with
      | none => none
      | some dn => if some r.value = dn then some true else authzLoop default attrs ri rs
    else authzLoop default attrs ri rs                                              -- lines 68-69

/-- `isAuthorized`, authz.py:53-71, on the port's rule list. -/
def isAuthorized (rules : List Rule) (attrs : List SecAttr) (ri : ReqInfo) : Option Bool :=
  authzLoop rules.isEmpty attrs ri rules

end OpenNSA
