import Verif.Model.GenMsg

/-! # Model of the way of messages from the connections of a user to its event loop

server.go:464-514, user.go:221-262, downstream.go:460-482, 1712-1760, upstream.go:2047-2098, user.go:641-890: the goroutines
that read the connections of the clients and of the servers, the channel of events, and the loop that handles them.
What the handling of a message does is left out, except that it may close connections, let the registration of the
connection succeed or fail, and stop the loop. -/

namespace Verif.Model

/-- Where the goroutine of a connection is. -/
inductive PmReader
  /-- downstream.go:1732-1758, upstream.go:2056-2069: it handles the messages itself -/
  | registering
  /-- server.go:507, user.go:255: it sends that the connection is there -/
  | announcing
  /-- downstream.go:469-482, upstream.go:2085-2098: it waits for a message -/
  | reading
  /-- downstream.go:478, upstream.go:2094: it sends a message -/
  | holding (m : Msg)
  /-- server.go:511, user.go:256-258: it sends that the connection is gone -/
  | ending
  /-- it has ended -/
  | gone
deriving DecidableEq, Repr

/-- A connection. -/
structure PmConn where
  num : Nat
  /-- what the other side sent -/
  arrived : List Msg
  /-- what of this has not been read -/
  unread : List Msg
  reader : PmReader
  /-- conn.go:123, 180-195 -/
  closed : Bool
deriving DecidableEq, Repr

/-- user.go:26-87 — events; those that do not come from the goroutine of a connection are `other`. -/
inductive PmEvent
  | connected (num : Nat)
  | message (num : Nat) (m : Msg)
  | disconnected (num : Nat)
  | other (what : Nat)
deriving DecidableEq, Repr

/-- What was done. -/
inductive PmDone
  /-- a message was handled during the registration, by the goroutine of the connection -/
  | registration (num : Nat) (m : Msg)
  /-- the loop handled the event -/
  | handled (e : PmEvent)
  /-- the loop ignored a message, as the connection was closed -/
  | ignored (num : Nat) (m : Msg)
deriving DecidableEq, Repr

/-- The connections, the channel of events (its capacity: user.go:559), what was done, and whether the loop has ended. -/
structure PmState where
  conns : List PmConn
  queue : List PmEvent
  log : List PmDone
  stopped : Bool
deriving DecidableEq, Repr

/-- What the handling of a message during the registration leads to. -/
inductive PmVerdict
  | goesOn
  | registered
  | fails
deriving DecidableEq, Repr

/-- Steps. -/
inductive PmOp
  /-- a connection is made -/
  | opens (num : Nat)
  /-- the other side sends a message -/
  | arrives (num : Nat) (m : Msg)
  /-- the goroutine of the connection reads a message; the verdict matters during the registration -/
  | reads (num : Nat) (v : PmVerdict)
  /-- the goroutine sends an event -/
  | sends (num : Nat)
  /-- the goroutine finds that there is nothing more to read, or that the connection was closed (EOF) -/
  | eof (num : Nat)
  /-- the goroutine gets an error from the connection -/
  | breaks (num : Nat)
  /-- someone closes the connection: its own goroutine when it has ended (server.go:480, user.go:235), a failed write, a timeout,
  another loop -/
  | closes (num : Nat)
  /-- someone else sends an event -/
  | injects (what : Nat)
  /-- the loop takes an event; handling it closes these connections, or stops the loop -/
  | takes (closing : List Nat) (stop : Bool)
deriving DecidableEq, Repr

/-- The connection with this number. -/
def pmGet (st : PmState) (num : Nat) : Option PmConn := st.conns.find? (fun c => c.num = num)

/-- Change the connection with this number. -/
def pmSet (st : PmState) (num : Nat) (f : PmConn → PmConn) : PmState :=
  { st with conns := st.conns.map (fun c => if c.num = num then f c else c) }

/-- The goroutine of a connection reads the next message. -/
def pmRead (st : PmState) (c : PmConn) (v : PmVerdict) : PmState :=
  match c.unread with
  | [] => st
  | m :: rest =>
    match c.reader with
    -- downstream.go:1732-1758, upstream.go:2056-2069
    | .registering =>
      let st := { st with log := st.log ++ [.registration c.num m] }
      match v with
      | .goesOn => pmSet st c.num (fun c => { c with unread := rest })
      | .registered => pmSet st c.num (fun c => { c with unread := rest, reader := .announcing })
      | .fails => pmSet st c.num (fun c => { c with unread := rest, reader := .gone })
    -- downstream.go:471-478, upstream.go:2087-2094
    | .reading => pmSet st c.num (fun c => { c with unread := rest, reader := .holding m })
    | _ => st

/-- The goroutine of a connection sends an event, if there is a place. -/
def pmSend (cap : Nat) (st : PmState) (c : PmConn) : PmState :=
  if st.queue.length ≥ cap then st
  else
    match c.reader with
    | .announcing => pmSet { st with queue := st.queue ++ [.connected c.num] } c.num (fun c => { c with reader := .reading })
    | .holding m => pmSet { st with queue := st.queue ++ [.message c.num m] } c.num (fun c => { c with reader := .reading })
    | .ending => pmSet { st with queue := st.queue ++ [.disconnected c.num] } c.num (fun c => { c with reader := .gone })
    | _ => st

/-- conn.go:199-209, downstream.go:472-476, upstream.go:2088-2092 — reading ends without a message. -/
def pmEnds (c : PmConn) : PmConn :=
  match c.reader with
  | .registering => { c with reader := .gone }
  | .reading => { c with reader := .ending }
  | _ => c

/-- user.go:641-890 — the loop handles an event; for messages, user.go:701-709, 804-816. -/
def pmHandle (st : PmState) (e : PmEvent) : PmDone :=
  match e with
  | .message num m => if ((pmGet st num).map (·.closed)).getD true then .ignored num m else .handled (.message num m)
  | e => .handled e

/-- One step. -/
def pmStep (cap : Nat) (st : PmState) : PmOp → PmState
  | .opens num => if (pmGet st num).isSome then st else { st with conns := st.conns ++ [⟨num, [], [], .registering, false⟩] }
  | .arrives num m => pmSet st num (fun c => { c with arrived := c.arrived ++ [m], unread := c.unread ++ [m] })
  | .reads num v =>
    match pmGet st num with
    | none => st
    | some c => pmRead st c v
  | .sends num =>
    match pmGet st num with
    | none => st
    | some c => pmSend cap st c
  | .eof num => pmSet st num (fun c => if c.unread = [] ∨ c.closed = true then pmEnds c else c)
  | .breaks num => pmSet st num pmEnds
  | .closes num => pmSet st num (fun c => { c with closed := true })
  | .injects what => if st.queue.length ≥ cap then st else { st with queue := st.queue ++ [.other what] }
  | .takes closing stop =>
    if st.stopped then st
    else
      match st.queue with
      | [] => st
      | e :: rest =>
        { conns := st.conns.map (fun c => if closing.contains c.num then { c with closed := true } else c)
          queue := rest
          log := st.log ++ [pmHandle st e]
          stopped := stop }

/-- A run. -/
def pmRun (cap : Nat) (ops : List PmOp) : PmState := ops.foldl (pmStep cap) ⟨[], [], [], false⟩

end Verif.Model
