import Verif.Model.Casemap

/-! # Model of MARKREAD (downstream.go:2879-2986) and of the ReadReceipt table (database/sqlite.go)

Instants are integers: nanoseconds since Go's zero time.  The handler runs on the user's event loop, one
command at a time, so a history is a sequence of steps. -/

namespace Verif.Model

/-- database/sqlite.go:26-59 — a time written to and read back from the database keeps its
milliseconds. -/
def toMillis (t : Int) : Int := t - t % 1000000

/-- The ReadReceipt table: (network ID, folded target) ↦ timestamp (the table has a UNIQUE(network,
target) constraint, sqlite_schema.sql). -/
abbrev ReceiptTable := GoMap (Nat × Str) Int

/-- What the handler knows of a client connection. -/
structure RmClient where
  id : Nat
  network : Option Nat
  /-- `draft/read-marker` enabled -/
  readMarker : Bool
deriving DecidableEq, Repr

/-- The criteria parameter as parsed: `timestamp=<time>`, or something refused. -/
inductive Criteria where
  | absent
  | unknown
  | badTime
  | timestamp (t : Int)
deriving DecidableEq, Repr

/-- Messages sent by the handler. -/
inductive RmReply where
  /-- a FAIL message -/
  | fail
  /-- MARKREAD/READ with a target and a timestamp (`none` is `*`) -/
  | marker (command target : Str) (t : Option Int)
deriving DecidableEq, Repr

/-- A MARKREAD command as received: the issuing client, the command name it used, its parameters, the
clock, and whether a database write fails now. -/
structure MarkRead where
  client : RmClient
  command : Str
  target : Str
  criteria : Criteria
  now : Int
  dbFails : Bool
deriving DecidableEq, Repr

/-- service.go:24. -/
def serviceNickCM : Str := b!"bouncerserv"

/-- database/sqlite.go:870-892 — `GetReadReceipt`, zero when there is no row (downstream.go:2918-2922). -/
def getReceipt (tbl : ReceiptTable) (net : Nat) (targetCM : Str) : Int :=
  (GoMap.get tbl (net, targetCM)).getD 0

/-- downstream.go:2926-2957 — the new timestamp and whether to broadcast; `none` if the criteria or the
write is refused.  The in-memory timestamp after a write is not yet truncated. -/
def markCriteria (r : Int) (q : MarkRead) : Option (Int × Bool) :=
  match q.criteria with
  | .absent => some (r, false)
  | .unknown => none
  | .badTime => none
  | .timestamp t =>
    let t := if t > q.now then q.now else t
    if r < t then
      if q.dbFails then none else some (t, true)
    else some (r, false)

/-- downstream.go:2959-2978 — the replies; a timestamp is formatted to the millisecond. -/
def markReplies (clients : List RmClient) (net : Nat) (q : MarkRead) (t : Int) (broadcast : Bool) :
    List (Nat × RmReply) :=
  let ts := if t = 0 then none else some (toMillis t)
  (clients.filter (fun d => decide (d.network = some net ∧ (broadcast = true ∨ q.client.id = d.id)))).map
    (fun d => (d.id, .marker (if d.readMarker then b!"MARKREAD" else b!"READ") q.target ts))

/-- downstream.go:2879-2986 — the MARKREAD handler (push notifications left out): new table and messages
sent, by client ID. -/
def markRead (cm : CaseMapping) (clients : List RmClient) (tbl : ReceiptTable) (q : MarkRead) :
    ReceiptTable × List (Nat × RmReply) :=
  if casemap cm q.target = serviceNickCM then
    (tbl, [(q.client.id, .marker q.command q.target none)])
  else match q.client.network with
    | none => (tbl, [(q.client.id, .fail)])
    | some net =>
      let key := casemap cm q.target
      match markCriteria (getReceipt tbl net key) q with
      | none => (tbl, [(q.client.id, .fail)])
      | some (t, broadcast) =>
        (if broadcast then GoMap.set tbl (net, key) (toMillis t) else tbl,
          markReplies clients net q t broadcast)

/-- A history of commands; the set of connected clients may change between commands. -/
def markReadRun (cm : CaseMapping) (tbl : ReceiptTable) : List (List RmClient × MarkRead) → ReceiptTable
  | [] => tbl
  | (clients, q) :: rest => markReadRun cm (markRead cm clients tbl q).1 rest

end Verif.Model
