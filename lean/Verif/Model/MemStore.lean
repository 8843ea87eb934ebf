import Verif.Model.GoMap

/-! # Model of msgstore/memory.go

Messages are of an arbitrary type with a flag telling whether the command is PRIVMSG or NOTICE.  Message
IDs are represented by their sequence number, network and entity (their text encoding is the subject of
C11).  Sequence numbers are unbounded naturals (the Go type is uint64). -/

namespace Verif.Model

variable {M : Type}

/-- msgstore/memory.go:123-126 — `messageRingBuffer` (`none` is the nil pointer of an unused slot). -/
structure RingBuffer (M : Type) where
  buf : List (Option M)
  cur : Nat

/-- msgstore/memory.go:128-133 — `newMessageRingBuffer`. -/
def RingBuffer.new (M : Type) (capacity : Nat) : RingBuffer M := ⟨List.replicate capacity none, 1⟩

/-- msgstore/memory.go:139-145 — `Append`: the new buffer and the sequence number. -/
def RingBuffer.append (rb : RingBuffer M) (msg : M) : RingBuffer M × Nat :=
  let seq := rb.cur
  ({ buf := rb.buf.set (seq % rb.buf.length) (some msg), cur := rb.cur + 1 }, seq)

/-- msgstore/memory.go:147-171 — `LoadLatestSeq`; `none` is the error. -/
def RingBuffer.loadLatestSeq (rb : RingBuffer M) (seq limit : Nat) : Option (List (Option M)) :=
  if seq > rb.cur then none
  else if seq = rb.cur then some []
  else
    let diff := rb.cur - seq - 1
    let diff := if diff > rb.buf.length then rb.buf.length else diff
    let diff := if diff > limit then limit else diff
    some ((List.range diff).map (fun i => (rb.buf[(rb.cur - diff + i) % rb.buf.length]?).join))

/-- msgstore/memory.go:38-41 — `ringBufferKey`: network ID and entity. -/
abbrev RBKey := Int × Str

/-- msgstore/memory.go:48-50 — `memoryMessageStore`. -/
abbrev MemStore (M : Type) := GoMap RBKey (RingBuffer M)

/-- A memory message ID (memory.go:16-36): network, entity, sequence number. -/
structure MemID where
  key : RBKey
  seq : Nat
deriving DecidableEq, Repr

/-- msgstore/memory.go:75-82 — `LastMsgID`. -/
def memLastMsgID (ms : MemStore M) (k : RBKey) : MemID :=
  match ms.get k with
  | some rb => ⟨k, rb.cur⟩
  | none => ⟨k, 0⟩

/-- msgstore/memory.go:84-102 — `Append`; `isText` tells whether the command is PRIVMSG or NOTICE,
`capacity` is `messageRingBufferCap` (line 14: 4096). -/
def memAppend (capacity : Nat) (isText : M → Bool) (ms : MemStore M) (k : RBKey) (msg : M) :
    MemStore M × Option MemID :=
  if isText msg then
    let rb := (ms.get k).getD (RingBuffer.new M capacity)
    let (rb, seq) := rb.append msg
    (ms.set k rb, some ⟨k, seq⟩)
  else (ms, none)

/-- msgstore/memory.go:104-121 — `LoadLatestID` (without events; with events it is an error). The
network and entity recorded in the ID are ignored: only its sequence number is used. -/
def memLoadLatestID (ms : MemStore M) (id : MemID) (k : RBKey) (limit : Nat) :
    Option (List (Option M)) :=
  match ms.get k with
  | none => some []
  | some rb => rb.loadLatestSeq id.seq limit

end Verif.Model
