import Verif.Label.Model
/-
Model of `STP` (/repo/opennsa/nsa.py:198-235), of the STP URN parser of the NSI2 protocol
(/repo/opennsa/protocols/nsi2/helper.py:164-198) and of the STP argument parser of the command line
client (/repo/opennsa/cli/commands.py:14-30).
-/
namespace OpenNSA
open Py

/-- `STP` objects, nsa.py:198-206. The type assertions of lines 201-203 hold by typing. -/
structure STP where
  network : Str
  port : Str
  label : Option Label
  deriving DecidableEq, Repr

/-- `URN_OGF_PREFIX` (constants.py:14) and `URN_NETWORK` (helper.py:26): `'urn:ogf:network:'`. -/
def urnPrefix : Str :=
  ['u','r','n',':','o','g','f',':','n','e','t','w','o','r','k',':']

/-- `'vlan'`, `cnt.ETHERNET_VLAN`, constants.py:31. -/
def tVlan : Str := ['v','l','a','n']
/-- `'mpls'`, `cnt.MPLS`, constants.py:32. -/
def tMpls : Str := ['m','p','l','s']

/-- `LABEL_MAP`, helper.py:35-38 and cli/commands.py:8-11. -/
def labelMap : List (Str × Str) := [(tVlan, tVlan), (tMpls, tMpls)]

/-- `type_.split('#')[-1]`, nsa.py:212, 224. -/
def shortType (t : Str) : Str := (splitOn '#' t).getLast (splitOn_ne t)
where
  /-- `split` never returns an empty list. -/
  splitOn_ne (t : Str) : splitOn '#' t ≠ [] := by
    cases t with
    | nil => simp [splitOn]
    | cons x xs =>
      unfold splitOn
      split
      · simp
      · split <;> simp

/-- The label suffix `'?' + short type + '=' + values`, nsa.py:224. -/
def labelSuffix (l : Label) : Str := '?' :: (shortType l.type_ ++ '=' :: l.labelValue)

/-- `STP.shortName`, nsa.py:209-213. `if self.label` is truthiness; a `Label` object is always true. -/
def STP.shortName (s : STP) : Str :=
  s.network ++ ':' :: s.port ++ (match s.label with | none => [] | some l => labelSuffix l)

/-- `STP.baseURN`, nsa.py:216-217. -/
def STP.baseURN (s : STP) : Str := urnPrefix ++ (s.network ++ ':' :: s.port)

/-- `STP.urn`, nsa.py:220-225. -/
def STP.urn (s : STP) : Str :=
  s.baseURN ++ (match s.label with | none => [] | some l => labelSuffix l)

/-- `STP.__eq__`, nsa.py:228-231. -/
def STP.eq (a b : STP) : Bool := a.network = b.network && a.port = b.port && optLabelEq a.label b.label

/-- Exceptions of the STP parsers. -/
inductive StpErr
  | payload     -- error.PayloadError (helper.py:166, 172, 181, 193; nsa.py:93, 99)
  | value       -- ValueError: too many values to unpack (helper.py:168, 186; commands.py:19, 23)
  | usage       -- usage.UsageError (commands.py:16, 22)
  | key         -- KeyError (commands.py:24)
  | other       -- any other exception of the label constructor
  deriving DecidableEq, Repr

/-- `s.replace(pat, '')`: drop every non-overlapping occurrence of `pat`, left to right
(helper.py:183). The first argument counts characters still to be dropped. -/
def removeAll (pat : Str) : Nat → Str → Str
  | _, [] => []
  | 0, c :: cs => if pat.isPrefixOf (c :: cs) then removeAll pat (pat.length - 1) cs else c :: removeAll pat 0 cs
  | k + 1, _ :: cs => removeAll pat k cs

/-- `nsa.Label(label_type, label_value)` as called at helper.py:174. -/
def mkLabel (type_ value : Str) : Except StpErr Label :=
  match Label.mk' type_ (.str value) with
  | .ok l => .ok l
  | .error .payload => .error .payload
  | .error _ => .error .other

/-- `parseLabel`, helper.py:164-174. -/
def parseLabel (part : Str) : Except StpErr Label :=
  if '=' ∉ part then .error .payload                      -- lines 165-166
  else match splitOn '=' part with                         -- line 168
    | [ty, value] =>
      match dget labelMap ty with
      | none => .error .payload                            -- lines 171-172
      | some t => mkLabel t value
    | _ => .error .value

/-- Lines 192-198 of `createSTP`, helper.py. -/
def createSTPLoc (loc : Str) (label : Option Label) : Except StpErr STP :=
  if ':' ∉ loc then .error .payload                       -- lines 192-193
  else match cutLast ':' loc with                          -- line 196
    | some (network, port) => .ok { network, port, label }
    | none => .error .other                                -- unreachable: ':' in loc

/-- `createSTP`, helper.py:178-198. -/
def createSTP (stpId : Str) : Except StpErr STP :=
  if ¬ urnPrefix.isPrefixOf stpId then .error .payload     -- lines 180-181
  else
    let tsi := removeAll urnPrefix 0 stpId                 -- line 183
    if '?' ∈ tsi then
      match splitOn '?' tsi with                           -- line 186
      | [loc, lbp] =>
        match parseLabel lbp with                          -- line 187
        | .error e => .error e
        | .ok l => createSTPLoc loc (some l)
      | _ => .error .value
    else createSTPLoc tsi none                             -- lines 188-190

/-- `_createSTP` of the command line client, cli/commands.py:14-30. When there is no ':' before the '#',
`rsplit` gives one part and unpacking raises ValueError. -/
def cliCreateSTP (arg : Str) : Except StpErr STP :=
  if ':' ∉ arg then .error .usage                          -- lines 15-16
  else if '#' ∈ arg then
    match splitOn '#' arg with                             -- line 19
    | [desc, labelDesc] =>
      match cutLast ':' desc with                          -- line 20
      | none => .error .value
      | some (network, port) =>
        if '=' ∉ labelDesc then .error .usage              -- lines 21-22
        else match splitOn '=' labelDesc with              -- line 23
          | [ty, value] =>
            match dget labelMap ty with                    -- line 24
            | none => .error .key
            | some t =>
              match mkLabel t value with
              | .error e => .error e
              | .ok l => .ok { network, port, label := some l }
          | _ => .error .value
    | _ => .error .value
  else match cutLast ':' arg with                          -- line 27
    | some (network, port) => .ok { network, port, label := none }
    | none => .error .value                                -- unreachable: ':' in arg

end OpenNSA
