import Verif.Basic

/-! # Model of the outgoing half of a connection

conn.go:119-249 as a transition system: any number of senders, the writer goroutine, and `Close` called from
anywhere, interleaved in any way.  A message is a number.  The write of a message either succeeds or fails;
what a failed write leaves on the wire is not modelled. -/

namespace Verif.Model

/-- conn.go:135-169 — where the writer goroutine is. -/
inductive WriterPc
  /-- in the `select` -/
  | idle
  /-- waiting for the rate limiter with a message -/
  | limited (m : Nat)
  /-- about to write a message -/
  | ready (m : Nat)
  /-- out of the loop, about to call `Close` -/
  | leaving
  /-- after `Close` -/
  | finished
deriving DecidableEq, Repr

/-- conn.go:185-193 — how far the (only) effective call to `Close` has come. -/
inductive ClosePc
  | opened
  /-- `closed` is set -/
  | flagged
  /-- the socket is closed -/
  | sockClosed
  /-- `closedCh` is closed: `Close` returns -/
  | finished
deriving DecidableEq, Repr

/-- A connection.  `none` in the channel is the nil message of `Shutdown`. -/
structure ConnState where
  /-- the buffer of `outgoingCh` -/
  queue : List (Option Nat) := []
  /-- goroutines in the `select` of `SendMessage` or `Shutdown` -/
  pending : List (Nat × Option Nat) := []
  writer : WriterPc := .idle
  close : ClosePc := .opened
  /-- everything that was put in the channel (not in the code: a record of the past) -/
  queued : List (Option Nat) := []
  /-- everything that was written to the socket (same remark) -/
  written : List Nat := []
deriving DecidableEq, Repr

/-- What can happen. -/
inductive ConnEv
  /-- `SendMessage` (or, with `none`, `Shutdown`) is called by goroutine `g` -/
  | call (g : Nat) (m : Option Nat)
  /-- goroutine `g` puts its message in the channel -/
  | enqueue (g : Nat)
  /-- goroutine `g` sees that the connection is closed -/
  | seeClosed (g : Nat)
  /-- the context of goroutine `g` is done -/
  | ctxDone (g : Nat)
  /-- the writer receives from the channel -/
  | recv
  /-- the writer sees that the connection is closed -/
  | recvClosed
  | rateOk
  | rateErr
  | writeOk
  | writeErr
  /-- the writer calls `Close` -/
  | writerClose
  /-- `Close` is called by somebody else -/
  | closeCall
  /-- the effective call to `Close` closes the socket -/
  | closeSock
  /-- the effective call to `Close` closes the channel `closedCh` -/
  | closeCh
deriving DecidableEq, Repr

/-- conn.go:186 — the entry of `Close`: only the first call goes on. -/
def enterClose (s : ConnState) : ConnState :=
  if s.close = .opened then { s with close := .flagged } else s

/-- conn.go:126 — the capacity of the channel. -/
def outgoingCap : Nat := 64

/-- Goroutine `g` is done. -/
def dropPending (l : List (Nat × Option Nat)) (g : Nat) : List (Nat × Option Nat) :=
  l.filter (fun p => decide (p.1 ≠ g))

/-- One step; `none` if the event cannot happen. -/
def connStep (s : ConnState) : ConnEv → Option ConnState
  -- conn.go:217-219 and 233-235
  | .call g m =>
    if (s.pending.lookup g).isSome then none
    else if s.close ≠ .opened then some s
    else some { s with pending := (g, m) :: s.pending }
  -- conn.go:222 and 238: the channel has room
  | .enqueue g => match s.pending.lookup g with
    | none => none
    | some m =>
      if s.queue.length < outgoingCap then
        some { s with pending := dropPending s.pending g, queue := s.queue ++ [m],
                      queued := s.queued ++ [m] }
      else none
  -- conn.go:224 and 240
  | .seeClosed g =>
    if (s.pending.lookup g).isSome ∧ s.close = .finished then
      some { s with pending := dropPending s.pending g }
    else none
  -- conn.go:226 and 242-247
  | .ctxDone g => match s.pending.lookup g with
    | none => none
    | some m =>
      let s := { s with pending := dropPending s.pending g }
      some (if m = none then enterClose s else s)
  -- conn.go:144-149
  | .recv => match s.writer, s.queue with
    | .idle, some m :: q => some { s with writer := .limited m, queue := q }
    | .idle, none :: q => some { s with writer := .leaving, queue := q }
    | _, _ => none
  | .recvClosed =>
    if s.writer = .idle ∧ s.close = .finished then some { s with writer := .leaving } else none
  -- conn.go:151-155
  | .rateOk => match s.writer with
    | .limited m => some { s with writer := .ready m }
    | _ => none
  | .rateErr => match s.writer with
    | .limited _ => some { s with writer := .leaving }
    | _ => none
  -- conn.go:159-162: a write to a closed socket fails
  | .writeOk => match s.writer with
    | .ready m =>
      if s.close = .sockClosed ∨ s.close = .finished then none
      else some { s with writer := .idle, written := s.written ++ [m] }
    | _ => none
  | .writeErr => match s.writer with
    | .ready _ => some { s with writer := .leaving }
    | _ => none
  -- conn.go:165
  | .writerClose => match s.writer with
    | .leaving => some (enterClose { s with writer := .finished })
    | _ => none
  | .closeCall => some (enterClose s)
  -- conn.go:190
  | .closeSock => if s.close = .flagged then some { s with close := .sockClosed } else none
  -- conn.go:191
  | .closeCh => if s.close = .sockClosed then some { s with close := .finished } else none

/-- A run: a list of events that can happen one after the other. -/
def connRun (s : ConnState) : List ConnEv → Option ConnState
  | [] => some s
  | e :: evs => (connStep s e).bind (fun s' => connRun s' evs)

end Verif.Model
