import Verif.Model.Base64

/-! # Model of the internal message IDs (msgstore/msgstore.go, memory.go, fs.go, db.go)

IDs are BARE-encoded (library git.sr.ht/~sircmpwn/go-bare, modelled by its documented format: `uint` is
a base-128 varint as in `encoding/binary`, `int` is its zigzag form, `string` is a length-prefixed UTF-8
text) and then base64url-encoded without padding. -/

namespace Verif.Model

/-- `binary.PutUvarint`, as used by go-bare's `WriteUint` (msgstore/msgstore.go:119). -/
def uvarint (n : Nat) : List Byte :=
  if n < 128 then [n] else (n % 128 + 128) :: uvarint (n / 128)
termination_by n
decreasing_by omega

/-- `binary.ReadUvarint` (as used by go-bare's `ReadUint`, msgstore/msgstore.go:137): value and rest.
`i` bytes have been read; a 64-bit value has at most 10 bytes and the tenth is at most 1. -/
def readUvarint (i : Nat) : List Byte → Option (Nat × List Byte)
  | [] => none
  | b :: bs =>
    if i ≥ 10 then none
    else if b < 128 then (if i = 9 ∧ b > 1 then none else some (b, bs))
    else do
      let (x, rest) ← readUvarint (i + 1) bs
      return (b % 128 + 128 * x, rest)

/-- Zigzag (`binary.PutVarint`). -/
def zigzag (x : Int) : Nat := if 0 ≤ x then (2 * x).toNat else (-2 * x - 1).toNat

/-- Inverse of zigzag (`binary.ReadVarint`). -/
def unzigzag (n : Nat) : Int := if n % 2 = 0 then (n / 2 : Nat) else -((n / 2 : Nat) : Int) - 1

/-- go-bare `WriteInt`. -/
def bareInt (x : Int) : List Byte := uvarint (zigzag x)

/-- go-bare `ReadInt`. -/
def readBareInt (bs : List Byte) : Option (Int × List Byte) := do
  let (n, rest) ← readUvarint 0 bs
  return (unzigzag n, rest)

/-- go-bare `WriteString`. -/
def bareString (s : Str) : List Byte := uvarint s.length ++ s

/-- go-bare `ReadString`: `ok` is the library's acceptance test (UTF-8 validity and size limit). -/
def readBareString (ok : Str → Bool) (bs : List Byte) : Option (Str × List Byte) := do
  let (n, rest) ← readUvarint 0 bs
  if rest.length < n then none
  else if ok (rest.take n) then return (rest.take n, rest.drop n)
  else none

/-- msgstore/msgstore.go:87-94 with memory.go:16-22, fs.go:37-57, db.go:12-18 — the body of an ID, one
constructor per store: sequence number; date and file offset; database row. -/
inductive MsgIdBody where
  | memory (seq : Nat)
  | fs (year month day offset : Int)
  | db (id : Nat)
deriving DecidableEq, Repr

/-- msgstore/msgstore.go:87-94 — `msgIDType`: msgIDNone 0, msgIDMemory 1, msgIDFS 2, msgIDDB 3. -/
inductive MsgIdType where | memory | fs | db
deriving DecidableEq, Repr

/-- msgstore/msgstore.go:89-94. -/
def MsgIdType.num : MsgIdType → Nat
  | .memory => 1 | .fs => 2 | .db => 3

/-- The `msgIDType()` methods: memory.go:20, fs.go:55, db.go:16. -/
def MsgIdBody.type : MsgIdBody → MsgIdType
  | .memory _ => .memory | .fs .. => .fs | .db _ => .db

/-- BARE encoding of the bodies. -/
def MsgIdBody.marshal : MsgIdBody → List Byte
  | .memory seq => uvarint seq
  | .fs y m d o => bareInt y ++ bareInt m ++ bareInt d ++ bareInt o
  | .db id => uvarint id

/-- msgstore/msgstore.go:109-126 — `formatMsgID` before base64: version 0, network, target, type, body. -/
def msgIdBytes (netID : Int) (target : Str) (body : MsgIdBody) : List Byte :=
  uvarint 0 ++ bareInt netID ++ bareString target ++ uvarint body.type.num ++ body.marshal

/-- msgstore/msgstore.go:109-126 — `formatMsgID`. -/
def formatMsgID (netID : Int) (target : Str) (body : MsgIdBody) : Str :=
  Base64.encode .rawURL (msgIdBytes netID target body)

/-- msgstore/msgstore.go:136-143 — decoding the header; the version must be 0. -/
def readHeader (ok : Str → Bool) (bs : List Byte) : Option ((Int × Str × Nat) × List Byte) := do
  let (v, bs) ← readUvarint 0 bs
  let (net, bs) ← readBareInt bs
  let (target, bs) ← readBareString ok bs
  let (typ, bs) ← readUvarint 0 bs
  if v ≠ 0 then none else return ((net, target, typ), bs)

/-- msgstore/msgstore.go:151 — decoding a body of a given type. -/
def readBody (t : MsgIdType) (bs : List Byte) : Option MsgIdBody :=
  match t with
  | .memory => do let (n, _) ← readUvarint 0 bs; return .memory n
  | .db => do let (n, _) ← readUvarint 0 bs; return .db n
  | .fs => do
    let (y, bs) ← readBareInt bs
    let (m, bs) ← readBareInt bs
    let (d, bs) ← readBareInt bs
    let (o, _) ← readBareInt bs
    return .fs y m d o

/-- msgstore/msgstore.go:128-157 — `ParseMsgID` with a body of the given type. -/
def parseMsgID (ok : Str → Bool) (t : MsgIdType) (s : Str) : Option (Int × Str × MsgIdBody) := do
  let b ← Base64.decode .rawURL s
  let ((net, target, typ), bs) ← readHeader ok b
  if typ ≠ t.num then none
  else do
    let body ← readBody t bs
    return (net, target, body)

/-- msgstore/msgstore.go:128-157 — `ParseMsgID` with a nil body (downstream.go:597). -/
def parseMsgIDHeader (ok : Str → Bool) (s : Str) : Option (Int × Str) := do
  let b ← Base64.decode .rawURL s
  let ((net, target, _), _) ← readHeader ok b
  return (net, target)

end Verif.Model
