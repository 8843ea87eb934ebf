import Verif.Basic

/-! # Model of encoding/base64 (Go standard library), as used by the bouncer

The library is not part of /repo; the call sites are xirc/genmsg.go:209, downstream.go:1001,1017,
upstream.go:797, msgstore/msgstore.go:125,129.  The model follows the documented RFC 4648 behaviour
of `StdEncoding` and `RawURLEncoding` (non-strict decoding: CR and LF are skipped, trailing padding bits
are not checked). -/

namespace Verif.Model.Base64

/-- Which of the two encodings: `StdEncoding` (padded, `+/`) or `RawURLEncoding` (unpadded, `-_`). -/
inductive Enc where | std | rawURL
deriving DecidableEq, Repr

/-- The alphabet. -/
def encChar (e : Enc) (n : Nat) : Byte :=
  if n < 26 then n + 65
  else if n < 52 then n - 26 + 97
  else if n < 62 then n - 52 + 48
  else if n = 62 then (match e with | .std => 43 | .rawURL => 45)
  else (match e with | .std => 47 | .rawURL => 95)

/-- Inverse of the alphabet; `none` is an invalid character. -/
def decChar (e : Enc) (c : Byte) : Option Nat :=
  if 65 ≤ c ∧ c ≤ 90 then some (c - 65)
  else if 97 ≤ c ∧ c ≤ 122 then some (c - 97 + 26)
  else if 48 ≤ c ∧ c ≤ 57 then some (c - 48 + 52)
  else if c = (match e with | .std => 43 | .rawURL => 45) then some 62
  else if c = (match e with | .std => 47 | .rawURL => 95) then some 63
  else none

/-- Padding character, if any. -/
def pad : Enc → List Byte
  | .std => [61]
  | .rawURL => []

/-- `EncodeToString`. -/
def encode (e : Enc) : List Byte → Str
  | [] => []
  | [a] => [encChar e (a / 4), encChar e (a % 4 * 16)] ++ pad e ++ pad e
  | [a, b] => [encChar e (a / 4), encChar e (a % 4 * 16 + b / 16), encChar e (b % 16 * 4)] ++ pad e
  | a :: b :: c :: rest =>
    encChar e (a / 4) :: encChar e (a % 4 * 16 + b / 16) :: encChar e (b % 16 * 4 + c / 64) ::
      encChar e (c % 64) :: encode e rest

/-- Decode a text without line breaks. -/
def decodeClean (e : Enc) : Str → Option (List Byte)
  | [] => some []
  | [_] => none
  | [w, x] =>
    if e = .std then none
    else do
      let w ← decChar e w; let x ← decChar e x
      return [w * 4 + x / 16]
  | [w, x, y] =>
    if e = .std then none
    else do
      let w ← decChar e w; let x ← decChar e x; let y ← decChar e y
      return [w * 4 + x / 16, x % 16 * 16 + y / 4]
  | w :: x :: y :: z :: rest =>
    if e = .std ∧ z = 61 then
      if rest ≠ [] then none
      else if y = 61 then do
        let w ← decChar e w; let x ← decChar e x
        return [w * 4 + x / 16]
      else do
        let w ← decChar e w; let x ← decChar e x; let y ← decChar e y
        return [w * 4 + x / 16, x % 16 * 16 + y / 4]
    else do
      let w ← decChar e w; let x ← decChar e x; let y ← decChar e y; let z ← decChar e z
      let r ← decodeClean e rest
      return (w * 4 + x / 16) :: (x % 16 * 16 + y / 4) :: (y % 4 * 64 + z) :: r

/-- `DecodeString`; `none` is an error. -/
def decode (e : Enc) (s : Str) : Option (List Byte) :=
  decodeClean e (s.filter (fun c => decide (c ≠ 10 ∧ c ≠ 13)))

end Verif.Model.Base64
