import Verif.Model.GenMsg
import Verif.Model.Flags

/-! # Model of the log of the bouncer, and of the numbers of messages

server.go:49-93 (`DebugLogger`, `prefixLogger`), 271-289 (the counters), 464-512 (`Handle`); service.go:1620-1639
(`server debug`); cmd/soju/main.go:145, 174 (`-debug`); conn.go:132-176, 196-230 (the connection); downstream.go:460-482, 547,
789, 1733-1745, 3352; upstream.go:649-656, 780, 1851, 2047-2107; user.go:292-303, 701-709, 804-817.

The connections of clients and to servers, which are numbered; the parameter `server` says which are to servers.
Simplifications: of the lines of the log only those are modelled that have a whole message of a connection in them; the other
lines are in no theorem.  What the handler of a message does is left open
(`LgResult`), and so is when the writer of a connection writes.  The order
in which a connection writes is left open (C33). -/

namespace Verif.Model

/-- What the handler of a message returns. -/
inductive LgResult where
  /-- handled, or refused with a reply (`ircError`) -/
  | done
  /-- downstream.go:789, 3352, upstream.go:780, 1851: the message is not known; then as `done` -/
  | unknown
  /-- upstream.go:649-656: a message of a server that says it is from or for the service of the bouncer is skipped -/
  | skipped
  /-- any other error -/
  | error
deriving DecidableEq, Repr

/-- The lines of the log with a message in them. -/
inductive LgLine where
  /-- conn.go:207 -/
  | received (c : Nat) (m : Msg)
  /-- conn.go:161 -/
  | sent (c : Nat) (m : Msg)
  /-- downstream.go:789, 3352, upstream.go:780, 1851 -/
  | unhandled (c : Nat) (m : Msg)
  /-- upstream.go:650, 654 -/
  | skipping (c : Nat) (m : Msg)
  /-- user.go:704, 807 -/
  | ignored (c : Nat) (m : Msg)
  /-- user.go:708, 815; downstream.go:1743 with server.go:492; upstream.go:2068 with user.go:301 -/
  | failed (c : Nat) (m : Msg)
deriving DecidableEq, Repr

structure LgState where
  /-- server.go:60 -/
  debug : Bool
  closed : List Nat := []
  /-- messages received that the loops of their users have not handled yet -/
  events : List (Nat × Msg) := []
  /-- messages that have not been written yet -/
  queue : List (Nat × Msg) := []
  log : List LgLine := []
  /-- what has been sent -/
  written : List (Nat × Msg) := []
  /-- server.go:286-289 -/
  inTotal : Nat := 0
  /-- server.go:281-284 -/
  outTotal : Nat := 0
  /-- server.go:276-279 -/
  srvIn : Nat := 0
  /-- server.go:271-274 -/
  srvOut : Nat := 0
deriving DecidableEq, Repr

inductive LgOp where
  /-- the service command `server debug` -/
  | debug (params : List Str)
  /-- a client that is not logged in, or a server that has not let the bouncer in, says something, which is handled at
  once -/
  | early (c : Nat) (m : Msg) (res : LgResult)
  /-- a client or a server says something later -/
  | recv (c : Nat) (m : Msg)
  /-- the loop of a user handles the message at this place of `events`; nothing if there is none -/
  | handle (i : Nat) (res : LgResult)
  /-- a message is sent; `room`: its queue has room in time (conn.go:221-228) -/
  | send (c : Nat) (m : Msg) (room : Bool)
  /-- the writer of a connection writes a message, at this place of `queue`; nothing if there is none -/
  | write (i : Nat) (ok : Bool)
  /-- a connection is closed -/
  | close (c : Nat)
deriving DecidableEq, Repr

/-- cmd/soju/main.go:145, 174, server.go:70-76 — the start, with or without `-debug`. -/
def lgInit (debug : Bool) : LgState := { debug := debug }

/-- server.go:63-68, 90-93 — `Debugf`. -/
def lgDebugf (st : LgState) (l : LgLine) : LgState := if st.debug then { st with log := st.log ++ [l] } else st

/-- server.go:85-88 — `Printf`. -/
def lgPrintf (st : LgState) (l : LgLine) : LgState := { st with log := st.log ++ [l] }

/-- downstream.go:465, upstream.go:2052 — a message received is counted. -/
def lgCountIn (server : Nat → Bool) (st : LgState) (c : Nat) : LgState :=
  if server c then { st with srvIn := st.srvIn + 1 } else { st with inTotal := st.inTotal + 1 }

/-- downstream.go:547, upstream.go:2106 — a message sent is counted. -/
def lgCountOut (server : Nat → Bool) (st : LgState) (c : Nat) : LgState :=
  if server c then { st with srvOut := st.srvOut + 1 } else { st with outTotal := st.outTotal + 1 }

/-- conn.go:196-209, downstream.go:460-467, upstream.go:2047-2054 — `ReadMessage`. -/
def lgRead (server : Nat → Bool) (st : LgState) (c : Nat) (m : Msg) : LgState :=
  lgCountIn server (lgDebugf st (.received c m)) c

/-- conn.go:186-194 — `Close`.  What is queued stays there: the writer may still take some of it (conn.go:147-150). -/
def lgClose (st : LgState) (c : Nat) : LgState :=
  { st with closed := if c ∈ st.closed then st.closed else c :: st.closed }

/-- service.go:1620-1639 — `server debug`: the value, or `none` if the command is refused. -/
def lgDebugArg (params : List Str) : Option Bool :=
  match params with
  | [p] => parseBool p
  | _ => none

/-- downstream.go:789, 3352, upstream.go:649-656, 780, 1851 and user.go:707-709, 809-816 (or downstream.go:1738-1744,
server.go:490-494, upstream.go:2063-2070) — a message is handled; `closes` says whether the connection is closed on an error.
A message of a client is never skipped. -/
def lgHandle (server : Nat → Bool) (st : LgState) (c : Nat) (m : Msg) (closes : Bool) (res : LgResult) : LgState :=
  match res with
  | .done => st
  | .unknown => lgDebugf st (.unhandled c m)
  | .skipped => if server c then lgPrintf st (.skipping c m) else st
  | .error => if closes then lgClose (lgPrintf st (.failed c m)) c else lgPrintf st (.failed c m)

/-- What happens; nothing if it cannot. -/
def lgStep (server : Nat → Bool) (st : LgState) : LgOp → LgState
  | .debug params => match lgDebugArg params with
    | some enabled => { st with debug := enabled }
    | none => st
  | .early c m res => if c ∈ st.closed then st else lgHandle server (lgRead server st c m) c m true res
  | .recv c m =>
    if c ∈ st.closed then st
    else
      let st := lgRead server st c m
      { st with events := st.events ++ [(c, m)] }
  | .handle i res =>
    match st.events[i]? with
    | none => st
    | some (c, m) =>
      let st := { st with events := st.events.eraseIdx i }
      if c ∈ st.closed then lgPrintf st (.ignored c m) else lgHandle server st c m (!server c) res
  | .send c m room =>
    let st := lgCountOut server st c
    if c ∈ st.closed ∨ room = false then st else { st with queue := st.queue ++ [(c, m)] }
  | .write i ok =>
    match st.queue[i]? with
    | none => st
    | some (c, m) =>
      let st := lgDebugf { st with queue := st.queue.eraseIdx i } (.sent c m)
      if ok ∧ c ∉ st.closed then { st with written := st.written ++ [(c, m)] } else lgClose st c
  | .close c => lgClose st c

/-- A history. -/
def lgRun (server : Nat → Bool) (debug : Bool) (ops : List LgOp) : LgState := ops.foldl (lgStep server) (lgInit debug)

end Verif.Model
