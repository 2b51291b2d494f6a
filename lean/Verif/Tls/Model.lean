import Verif.Http.Model
import Verif.Setup.Model
/-
Model of /repo/opennsa/opennsaTlsContext.py, and of what TLS does with it: whose certificates are accepted, by the service as a server (setup.py:350-352) and as a client
(httpclient.py:74-77). Chains of certificates and their signatures are those of the library; see `Cert`.
-/
namespace OpenNSA.Tls
open Py OpenNSA.Http

/-- A certificate authority, by its key. -/
abbrev Ca := Nat

/-- A certificate and the chain it is presented with, as far as its verification reads them: the components of the subject, the host names it is for, the authority at the
end of the chain, and whether all signatures, dates and uses in the chain are good. Who presents a certificate in TLS has its private key. -/
structure Cert where
  subject : List (Bytes × Bytes)
  names : List Str
  root : Ca
  sound : Bool
  deriving DecidableEq, Repr

/-- Versions of the protocol. -/
inductive Version
  | ssl2 | ssl3 | tls10 | tls11 | tls12 | tls13
  deriving DecidableEq, Repr

/-- A file in the directory of certificates: one that cannot be read, or one with these certificates, none if it is something else. -/
inductive File
  | unreadable
  | pem (cas : List Ca)
  deriving DecidableEq, Repr

/-- A directory, in the order of `listdir`. -/
abbrev Dir := List (Str × File)

/-- What the files are read from: directories, and the certificate that the files with a key and with a certificate make, if both can be read and belong together. -/
structure Disk where
  dir : Str → Option Dir
  pair : Str → Str → Option Cert

/-- What is raised: OSError, the errors of OpenSSL, AttributeError. -/
inductive TlsErr
  | os | ssl | noAttribute
  deriving DecidableEq, Repr

/-- `'.0'`, opennsaTlsContext.py:42. -/
def dotZero : Str := ['.', '0']

/-- `_createTrustRootFromCADirectory`, opennsaTlsContext.py:38-55. `Certificate.loadPEM` reads the first certificate of a file; what is no certificate is skipped (lines
46-47). -/
def trustRoot : Dir → Except TlsErr (List Ca)
  | [] => .ok []
  | (name, f) :: d =>
    if !dotZero.isSuffixOf name then trustRoot d                       -- lines 41-42
    else match f with
      | .unreadable => .error .os                                      -- line 43
      | .pem [] => trustRoot d
      | .pem (c :: _) => (trustRoot d).map (c :: ·)

/-- An `opennsaTlsContext` or `opennsa2WayTlsContext`. -/
structure Context where
  dir : Dir
  verify : Bool
  trusted : List Ca
  own : Option Cert
  deriving DecidableEq, Repr

/-- `__init__`, opennsaTlsContext.py:25-36, 110-123. -/
def Context.make (disk : Disk) (certdir : Str) (keys : Option (Str × Str)) (verify : Bool) : Except TlsErr Context :=
  match disk.dir certdir with
  | none => .error .os
  | some d => match trustRoot d with
    | .error e => .error e
    | .ok cas => match keys with
      | none => .ok ⟨d, verify, cas, none⟩
      | some (k, c) => match disk.pair k c with
        | none => .error .ssl                                          -- lines 121-123
        | some cert => .ok ⟨d, verify, cas, some cert⟩

/-- `getClientTLSOptions`, opennsaTlsContext.py:63-66, 134-137, and the handshake made with them: `optionsForClientTLS` verifies the chain and the name of the host, from TLS 1.2
on (line 34). `verify` makes no difference (line 64). -/
def Context.connects (c : Context) (host : Str) (v : Version) (server : Cert) : Bool :=
  (match v with | .tls12 | .tls13 => true | _ => false) && server.sound && c.trusted.contains server.root && server.names.contains host

/-- The loop over the files in `createOpenSSLContext`, opennsaTlsContext.py:97-103: `load_verify_locations` reads all certificates of a file, and raises if there is none. -/
def verifyLocations : Dir → Except TlsErr (List Ca)
  | [] => .ok []
  | (name, f) :: d =>
    if !dotZero.isSuffixOf name then verifyLocations d
    else match f with
      | .unreadable => .error .ssl
      | .pem [] => .error .ssl
      | .pem cs => (verifyLocations d).map (cs ++ ·)

/-- An OpenSSL context. -/
structure Server where
  trusted : List Ca
  verify : Bool
  own : Cert
  deriving DecidableEq, Repr

/-- `getContext` when the service begins to listen, opennsaTlsContext.py:68-105, 139-156. Without keys there is no attribute `ctx` (line 69). -/
def Context.getContext (c : Context) : Except TlsErr Server :=
  match c.own with
  | none => .error .noAttribute
  | some cert => (verifyLocations c.dir).map fun cas => ⟨cas, c.verify, cert⟩

/-- Whether a handshake with a client succeeds: the versions of lines 86-88, and `verify_callback` in lines 77-82. `VERIFY_PEER` alone (line 94) does not ask for a certificate. -/
def Server.accepts (s : Server) (v : Version) (client : Option Cert) : Bool :=
  (match v with | .ssl2 | .ssl3 => false | _ => true) &&
  match client with
  | none => true
  | some c => if s.verify then c.sound && s.trusted.contains c.root else true

/-- What comes of a SOAP request of a client: `none` if there is no connection. -/
def Server.request (s : Server) (hosts : Option (List Str)) (v : Version) (client : Option Cert) : Option Gate :=
  if s.accepts v client then some (gate .soap ⟨true, client.map (·.subject)⟩ hosts) else none

/-- The context of the service, `setupTLSContext`, setup.py:100-113. -/
def service (disk : Disk) (vc : Config.Vc) : Except TlsErr Context :=
  match Setup.tlsContext vc with
  | .twoWay k c dir verify => Context.make disk dir (some (k, c)) verify
  | .oneWay dir verify => Context.make disk (dir.getD []) none verify

end OpenNSA.Tls
