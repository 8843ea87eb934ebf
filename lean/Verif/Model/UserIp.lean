import Verif.Basic

/-! # Model of the per-user source addresses (user.go:1303-1332) -/

namespace Verif.Model

/-- `net.IPNet`: the bytes of the address and of the mask. -/
structure IpNet where
  ip : List Byte
  mask : List Byte
  deriving DecidableEq, Repr

/-- `net.IP.To4`. -/
def ipTo4 (ip : List Byte) : Option (List Byte) :=
  if ip.length = 4 then some ip
  else if ip.length = 16 ∧ ip.take 12 = [0, 0, 0, 0, 0, 0, 0, 0, 0, 0, 255, 255] then some (ip.drop 12)
  else none

/-- `net.networkNumberAndMask`. -/
def netNumberAndMask (n : IpNet) : Option (List Byte × List Byte) :=
  let ip := (ipTo4 n.ip).getD n.ip
  if ip.length ≠ 4 ∧ ip.length ≠ 16 then none
  else if n.mask.length = 4 then (if ip.length = 4 then some (ip, n.mask) else none)
  else if n.mask.length = 16 then (if ip.length = 4 then some (ip, n.mask.drop 12) else some (ip, n.mask))
  else none

/-- The comparison of two addresses under a mask. -/
def agreeMask : List Byte → List Byte → List Byte → Bool
  | a :: as, b :: bs, m :: ms => decide (a &&& m = b &&& m) && agreeMask as bs ms
  | _, _, _ => true

/-- `net.IPNet.Contains`. -/
def netContains (n : IpNet) (ip : List Byte) : Bool :=
  match netNumberAndMask n with
  | none => false
  | some (nn, m) =>
    let x := (ipTo4 ip).getD ip
    if x.length ≠ nn.length then false else agreeMask nn x m

/-- `big.Int.SetBytes`. -/
def natOfBytes (bs : List Byte) : Nat := bs.foldl (fun a b => a * 256 + b) 0

/-- `big.Int.Bytes`: no leading zeros; the first argument bounds the recursion. -/
def bytesAux : Nat → Nat → List Byte
  | 0, _ => []
  | f + 1, n => if n = 0 then [] else bytesAux f (n / 256) ++ [n % 256]

/-- `big.Int.Bytes`. -/
def bytesOfNat (n : Nat) : List Byte := bytesAux n n

/-- What `localTCPAddr` returns. -/
inductive LocalAddr
  | automatic
  | tooSmall
  | addr (ip : List Byte)
  deriving DecidableEq, Repr

/-- user.go:1303-1332: `localTCPAddr`. User IDs are positive (simplification: natural numbers). -/
def localTCPAddr (ranges : List IpNet) (remote : List Byte) (userId : Nat) : LocalAddr :=
  match ranges.find? (fun n => decide ((ipTo4 remote).isNone = (ipTo4 n.ip).isNone)) with
  | none => .automatic
  | some n =>
    let ip := bytesOfNat (natOfBytes n.ip + (userId + 1))
    if netContains n ip then .addr ip else .tooSmall

/-- `net.CIDRMask`: `k` bytes whose first `n` bits are set. -/
def cidrMask : Nat → Nat → List Byte
  | _, 0 => []
  | n, k + 1 => if n ≥ 8 then 255 :: cidrMask (n - 8) k else (256 - 2 ^ (8 - n)) :: cidrMask 0 k

end Verif.Model
