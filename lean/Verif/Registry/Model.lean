import Verif.PyLemmas
/-
Model of /repo/opennsa/provreg.py.
-/
namespace OpenNSA.Registry
open Py

/-- `ProviderRegistry`, provreg.py:18-26. `π` is the type of provider objects. -/
structure Reg (π : Type) where
  /-- `self.providers`, line 23 -/
  providers : List (Str × π)
  /-- `self.provider_urns`, line 24 -/
  urns : List (Str × Str)
  /-- keys of `self.provider_factories`, line 26 -/
  factories : List Str
  deriving DecidableEq, Repr

/-- `ProviderRegistry.__init__`, provreg.py:20-26. -/
def Reg.new {π : Type} (factories : List Str) : Reg π := { providers := [], urns := [], factories }

/-- What the methods raise. -/
inductive Err
  | valueError | stpResolutionError | keyError | factoryError
  deriving DecidableEq, Repr

/-- `nsa.NetworkServiceAgent`: its URN and service type (nsa.py `urn()`, `getServiceType()`). -/
structure Agent where
  urn : Str
  serviceType : Str
  deriving DecidableEq, Repr

variable {π : Type}

/-- `addProvider`, provreg.py:29-38. -/
def Reg.addProvider (r : Reg π) (urn network : Str) (p : π) : Except Err (Reg π) :=
  if dmem r.providers network then .error .valueError                        -- lines 33-34
  else .ok { r with providers := dset r.providers network p,                 -- line 37
                    urns := dset r.urns network urn }                        -- line 38

/-- `s.endswith(':nsa')`, provreg.py:45. -/
def endsWithNsa (s : Str) : Bool := [':', 'n', 's', 'a'].isSuffixOf s

/-- `getProvider`, provreg.py:41-52. -/
def Reg.getProvider (r : Reg π) (network : Str) : Except Err π :=
  if endsWithNsa network then .error .valueError                             -- lines 45-46
  else match dget r.providers network with
    | some p => .ok p                                                        -- line 49
    | none => .error .stpResolutionError                                     -- line 52

/-- `getProviderURN`, provreg.py:55-56. -/
def Reg.getProviderURN (r : Reg π) (network : Str) : Except Err Str :=
  match dget r.urns network with
  | some u => .ok u
  | none => .error .keyError

/-- The loop of provreg.py:71-75: the first network registered with the URN. -/
def firstWith (urns : List (Str × Str)) (urn : Str) : Option Str :=
  match urns with
  | [] => none
  | (n, u) :: rest => if u = urn then some n else firstWith rest urn

/-- `spawnProvider`, provreg.py:59-86. `made` is what the factory returns, `none` if it raises. The result is the
new registry and the returned provider (`None` when an existing provider is re-used, line 75). -/
def Reg.spawnProvider (r : Reg π) (agent : Agent) (network : Str) (made : Option π) : Except Err (Reg π × Option π) :=
  match dget r.providers network with
  | some p => .ok (r, some p)                                                -- lines 65-67
  | none =>
    if agent.urn ∈ r.urns.map (·.2) then                                     -- line 69
      match firstWith r.urns agent.urn with                                  -- lines 71-72
      | some other =>
        match dget r.providers other with
        | none => .error .keyError                                           -- line 73
        | some p =>
          match r.addProvider agent.urn network p with                       -- line 74
          | .error e => .error e
          | .ok r' => .ok (r', none)                                         -- line 75
      | none => .ok (r, none)                                                -- lines 76-78
    else if agent.serviceType ∉ r.factories then .error .keyError            -- line 80
    else match made with
      | none => .error .factoryError                                         -- line 81
      | some p =>
        match r.addProvider agent.urn network p with                         -- line 83
        | .error e => .error e
        | .ok r' => .ok (r', some p)                                         -- line 86

/-- A call of one of the two registering methods. -/
inductive Op (π : Type)
  | add (urn network : Str) (p : π)
  | spawn (agent : Agent) (network : Str) (made : Option π)
  deriving DecidableEq, Repr

/-- One call; a call that raises changes nothing (both dictionaries are written by the last two statements of
`addProvider` only). -/
def Reg.step (r : Reg π) : Op π → Reg π
  | .add u n p => match r.addProvider u n p with
    | .ok r' => r'
    | .error _ => r
  | .spawn a n made => match r.spawnProvider a n made with
    | .ok (r', _) => r'
    | .error _ => r

/-- A history of calls. -/
def Reg.run (r : Reg π) (ops : List (Op π)) : Reg π := ops.foldl Reg.step r

end OpenNSA.Registry
