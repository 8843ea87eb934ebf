import Verif.Model.Network
import Verif.Model.UserIp

/-! # Model of the connections to servers: addresses, TLS and certificates

upstream.go:240-398 and 2474-2493. `crypto/tls` and `crypto/x509` are modelled by what they promise: a handshake
succeeds only with a peer that holds the private key of the first certificate it presents, and verification of the
chain is a parameter. -/

namespace Verif.Model

/-- What is left open of the cryptographic libraries: SHA-256 and SHA-512 (as bytes), parsing of private keys, and the
verification of a chain of certificates for a host. -/
structure TlsLib where
  sha256 : Str → Str
  sha512 : Str → Str
  parseKey : Str → Bool
  verifyChain : List Str → Str → Bool

/-- A hexadecimal digit, lower case. -/
def hexDigit (n : Nat) : Byte := if n < 10 then 48 + n else 87 + n

/-- `hex.EncodeToString`. -/
def hexEncode : Str → Str
  | [] => []
  | b :: s => hexDigit (b / 16) :: hexDigit (b % 16) :: hexEncode s

/-- The fields of `tls.Config` that are set: the name of the server, the certificate and key of the client, and the
fingerprint its own verification compares with instead of the usual verification. -/
structure TlsConf where
  serverName : Str
  client : Option (Str × Str)
  pin : Option Str
deriving DecidableEq, Repr

/-- Where `connectToUpstream` connects to, and how. -/
inductive DialPlan
  | tls (addr : Str) (conf : TlsConf)
  | plain (addr : Str)
  | unix (path : Str)
deriving DecidableEq, Repr

/-- upstream.go:253-258, 330-333: the port is added if there is none. -/
def withPort (host port : Str) : Str := match splitHostPort host with
  | some _ => host
  | none => host ++ port

/-- upstream.go:261-280: the certificate for SASL EXTERNAL; `none` is an error. A missing certificate or key is empty
here. -/
def clientCert (lib : TlsLib) (r : NetRec) : Option (Option (Str × Str)) :=
  if r.sasl.mechanism ≠ b!"EXTERNAL" then some none
  else if r.sasl.certBlob = [] then none
  else if r.sasl.privKeyBlob = [] then none
  else if lib.parseKey r.sasl.privKeyBlob then some (some (r.sasl.certBlob, r.sasl.privKeyBlob))
  else none

/-- upstream.go:240-351 — `connectToUpstream`, up to the connection itself; `none` is an error. -/
def dialPlan (ulib : UrlLib) (lib : TlsLib) (r : NetRec) : Option DialPlan :=
  match netUrl ulib r.addr with
  | none => none
  | some u =>
    if u.scheme = b!"ircs" then
      let host := match splitHostPort u.host with
        | some (h, _) => h
        | none => u.host
      match clientCert lib r with
      | none => none
      | some c => some (.tls (withPort u.host b!":6697") ⟨host, c, if r.certFP ≠ [] then some r.certFP else none⟩)
    else if u.scheme = b!"irc+insecure" then some (.plain (withPort u.host b!":6667"))
    else if u.scheme = b!"irc+unix" ∨ u.scheme = b!"unix" then some (.unix u.path)
    else none

/-- upstream.go:293-301: the fingerprint of a certificate, empty for another algorithm. -/
def remoteFp (lib : TlsLib) (algo rawCert : Str) : Str :=
  if algo = b!"sha-512" then hexEncode (lib.sha512 rawCert)
  else if algo = b!"sha-256" then hexEncode (lib.sha256 rawCert)
  else []

/-- upstream.go:284-313 — the verification by fingerprint. `none`: the index out of range at line 290 (there is no
colon). -/
def verifyPin (lib : TlsLib) (pin : Str) (rawCerts : List Str) : Option Bool :=
  if rawCerts = [] then some false
  else match cutStr b!":" pin with
    | none => none
    | some (algo, fp) => some (rawCerts.any (fun c => decide (remoteFp lib algo c = fp)))

/-- The peer of a handshake: the certificates it presents and those whose private keys it holds. -/
structure TlsPeer where
  chain : List Str
  holds : Str → Bool

/-- `crypto/tls`: what is required of the peer. With `InsecureSkipVerify`, the chain is not verified, but the function
`VerifyPeerCertificate` has to accept it; in either case the peer has to prove that it holds the key of its first
certificate. (Without a `ClientSessionCache`, sessions are never resumed.) -/
def tlsAccepts (lib : TlsLib) (conf : TlsConf) (peer : TlsPeer) : Bool :=
  match peer.chain with
  | [] => false
  | leaf :: _ =>
    peer.holds leaf &&
    (match conf.pin with
     | none => lib.verifyChain peer.chain conf.serverName
     | some pin => (verifyPin lib pin peer.chain).getD false)

/-- upstream.go:2474-2493 — `resolveIPAddr`; `i` is the random number. -/
def resolveIPAddr (addrs : List (List Byte)) (i : Nat) : Option (List Byte) :=
  let v6 := addrs.filter (fun a => (ipTo4 a).isNone)
  let l := if v6.length > 0 then v6 else addrs
  l[i % l.length]?

/-- upstream.go:376-398 — `dialTCP`: the address to connect to and the local one, `none` if it is left to the system;
the outer `none` is an error. `lookup` is the resolver, `join` is `net.JoinHostPort` of an IP address. -/
def dialTCP (ranges : List IpNet) (userId : Nat) (lookup : Str → Option (List (List Byte))) (i : Nat)
    (join : List Byte → Str → Str) (addr : Str) : Option (Str × Option (List Byte)) :=
  if ranges = [] then some (addr, none)
  else match splitHostPort addr with
    | none => none
    | some (host, port) =>
      match (lookup host).bind (fun l => resolveIPAddr l i) with
      | none => none
      | some ip =>
        match localTCPAddr ranges ip userId with
        | .automatic => some (join ip port, none)
        | .tooSmall => none
        | .addr a => some (join ip port, some a)

end Verif.Model
