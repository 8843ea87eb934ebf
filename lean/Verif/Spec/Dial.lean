import Verif.Model.Dial

/-! # Fingerprints, as the user writes them -/

namespace Verif.Spec
open Verif.Model

/-- The bytes that hexadecimal digits, of either case, stand for. -/
def hexBytes : Str → Option Str
  | [] => some []
  | [_] => none
  | a :: b :: s =>
    match hexDigitVal a, hexDigitVal b, hexBytes s with
    | some x, some y, some r => some ((16 * x + y) :: r)
    | _, _, _ => none

/-- What the user has entered, colons aside, is the SHA-256 or the SHA-512 fingerprint of the certificate. -/
def FingerprintOf (lib : TlsLib) (typed cert : Str) : Prop :=
  hexBytes (typed.filter (fun c => decide (c ≠ 58))) = some (lib.sha256 cert) ∨
  hexBytes (typed.filter (fun c => decide (c ≠ 58))) = some (lib.sha512 cert)

/-- SHA-256 and SHA-512 have 32 and 64 bytes. -/
def Digests (lib : TlsLib) : Prop :=
  ∀ c, (lib.sha256 c).length = 32 ∧ (lib.sha512 c).length = 64 ∧ (∀ b ∈ lib.sha256 c, b < 256) ∧ ∀ b ∈ lib.sha512 c, b < 256

/-- The peer is the one whose certificate has this fingerprint: it holds the private key of such a certificate. -/
def IsPinned (lib : TlsLib) (typed : Str) (peer : TlsPeer) : Prop :=
  ∃ cert, FingerprintOf lib typed cert ∧ peer.holds cert = true

/-- The property of the statement. -/
def PinEnforced (lib : TlsLib) : Prop :=
  ∀ (r r' : NetRec) (typed : Str) (conf : TlsConf) (peer : TlsPeer), flagCertFP (some typed) r = some r' →
    r'.certFP ≠ [] → conf.pin = some r'.certFP → tlsAccepts lib conf peer = true → IsPinned lib typed peer

end Verif.Spec
