import Verif.Model.GenMsg
import Verif.Model.GoMap

/-! # Model of the queue of pending upstream commands (upstream.go:446-566)

One value of `PendingCmds` is the `pendingCmds` field of one upstream connection.  Everything runs on
the user's event loop.  Times are nanoseconds. -/

namespace Verif.Model

/-- upstream.go:187-192 — `pendingUpstreamCommand`; `none` is the zero time. -/
structure PendingCmd where
  downstreamID : Nat
  msg : Msg
  sentAt : Option Nat
deriving DecidableEq, Repr

/-- upstream.go:245 — `pendingCmds map[string][]pendingUpstreamCommand`. -/
abbrev PendingCmds := GoMap Str (List PendingCmd)

/-- Indexing the Go map: a missing key gives the empty slice. -/
def pendingOf (p : PendingCmds) (cmd : Str) : List PendingCmd := (GoMap.get p cmd).getD []

/-- upstream.go:511-516 — the commands that can be queued; any other one panics. -/
def queueable : List Str := [b!"LIST", b!"WHO", b!"WHOIS", b!"AUTHENTICATE", b!"REGISTER", b!"VERIFY"]

/-- A message sent to the upstream server on behalf of a client, with the time. -/
structure Sent where
  client : Nat
  msg : Msg
deriving DecidableEq, Repr

/-- upstream.go:501-508 — `sendNextPendingCommand`. -/
def sendNextPendingCommand (p : PendingCmds) (cmd : Str) (now : Nat) : PendingCmds × List Sent :=
  match pendingOf p cmd with
  | [] => (p, [])
  | c :: rest => (GoMap.set p cmd ({ c with sentAt := some now } :: rest), [⟨c.downstreamID, c.msg⟩])

/-- upstream.go:525 — `time.Since(t) > 30*time.Second` for a non-zero `t`. -/
def pendingStale (now : Nat) : Option Nat → Bool
  | none => false
  | some t => decide (now - t > 30000000000)

/-- upstream.go:526 — `copy(l, l[1:])`: shifts the elements down by one and, since the length of `l` is
not changed, keeps the last one in place as well. -/
def copyShift {α : Type} : List α → List α
  | [] => []
  | [a] => [a]
  | _ :: b :: l => b :: copyShift (b :: l)

/-- upstream.go:510-532 — `enqueueCommand`; `none` is the panic on an unsupported command. -/
def enqueueCommand (p : PendingCmds) (client : Nat) (msg : Msg) (now : Nat) : Option (PendingCmds × List Sent) :=
  if msg.command ∈ queueable then
    let l := pendingOf p msg.command ++ [⟨client, msg, none⟩]
    let l := if pendingStale now (l.head?.bind (·.sentAt)) then copyShift l else l
    let p := GoMap.set p msg.command l
    if l.length = 1 then some (sendNextPendingCommand p msg.command now) else some (p, [])
  else none

/-- upstream.go:543-554 — `dequeueCommand`: the completed command (with the ID of its client, who may be
gone) and what is sent next. -/
def dequeueCommand (p : PendingCmds) (cmd : Str) (now : Nat) : PendingCmds × Option PendingCmd × List Sent :=
  match pendingOf p cmd with
  | [] => (p, none, [])
  | c :: rest =>
    let r := sendNextPendingCommand (GoMap.set p cmd rest) cmd now
    (r.1, some c, r.2)

/-- upstream.go:558-565 — the backwards deletion loop: every element but the first is dropped if it
belongs to the client. -/
def cancelTail (client : Nat) : List PendingCmd → List PendingCmd
  | [] => []
  | c :: rest => c :: rest.filter (fun d => decide (d.downstreamID ≠ client))

/-- upstream.go:556-566 — `cancelPendingCommandsByDownstreamID`. -/
def cancelPending (p : PendingCmds) (client : Nat) : PendingCmds :=
  p.map (fun e => (e.1, cancelTail client e.2))

/-- upstream.go:455-495 — the reply a client gets when its command is aborted (the nick parameter is left
out: command, the masks and texts follow); `none` is a panic: an index out of range or an unsupported
command. -/
def abortReply (msg : Msg) : Option Msg :=
  if msg.command = b!"LIST" then some ⟨b!"323", [b!"Command aborted"]⟩
  else if msg.command = b!"WHO" then
    some ⟨b!"315", [msg.params.head?.getD b!"*", b!"Command aborted"]⟩
  else if msg.command = b!"WHOIS" then
    msg.params.getLast?.map (fun nick => ⟨b!"318", [nick, b!"Command aborted"]⟩)
  else if msg.command = b!"AUTHENTICATE" then some ⟨b!"906", [b!"SASL authentication aborted"]⟩
  else if msg.command = b!"REGISTER" ∨ msg.command = b!"VERIFY" then
    msg.params.head?.map (fun account =>
      ⟨b!"FAIL", [msg.command, b!"TEMPORARILY_UNAVAILABLE", account, b!"Command aborted"]⟩)
  else none

/-- upstream.go:452-499 — `abortPendingCommands`: what is sent to which connected client, in answer to
which command, in one arbitrary order of the commands (that of the association list). -/
def abortPendingCommands (p : PendingCmds) (connected : List Nat) : PendingCmds × List (PendingCmd × Option Msg) :=
  ([], (p.flatMap (fun e => e.2)).filterMap (fun c =>
    if c.downstreamID ∈ connected then some (c, abortReply c.msg) else none))

end Verif.Model
