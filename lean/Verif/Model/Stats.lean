import Verif.Model.GoMap

/-! # The figures of the server, and the notices of administrators

server.go:420-426 (`forEachUser`), 435-460 (users), 464-512 (`Handle`), 704-720 (`Stats`); user.go:221-268 (`runConn`), 755-812
(clients come and go), 825-829 (`eventBroadcast`); service.go:1568-1618 (`server status`, `server notice`).

Simplifications: users and networks are numbered, and an account that is deleted and created again gets another number; notices are
numbered, and the target `$hostname` and the text are left out; the channel of the events of a user is not bounded (what happens when
it is full is in `Verif.Model.Loops`: whom a notice reaches before the deadline is an input here); a connection does not panic. -/

namespace Verif.Model

/-- The events of the loop of a user that matter here: a client that is logged in, and whether it is welcomed (the account is enabled
and the network it asks for can be loaded); the end of a connection; a notice. -/
inductive NtEvent
  | connected (id : Nat) (ok : Bool)
  | disconnected (id : Nat)
  | notice (n : Nat)
deriving DecidableEq, Repr

/-- user.go:518-541 — a user: the events it has not handled yet, and its clients (`downstreamConns`). -/
structure NtUser where
  queue : List NtEvent
  clients : List Nat
deriving DecidableEq, Repr

/-- How far `Handle` is with a connection: not logged in; reading for a user, as a client that is welcomed or not; about to return. -/
inductive NtStage
  | greeting
  | user (u : Nat) (ok : Bool)
  | leaving
deriving DecidableEq, Repr

/-- The server: the users; the calls of `Handle`, by the number of the connection; the figures; the running `runConn`, with whether the
connection to the server is established; what was sent to clients (user, client, notice); what `server notice` answered
(notice, sent, total, no error). -/
structure NtState where
  users : GoMap Nat NtUser
  conns : GoMap Nat NtStage
  downstreams : Int
  tries : List (Nat × Bool)
  upstreams : Int
  got : List (Nat × Nat × Nat)
  replies : List (Nat × Nat × Nat × Bool)
  lastUser : Nat
  lastConn : Nat
deriving DecidableEq, Repr

/-- What happens. -/
inductive NtOp
  /-- an account is created, or loaded at the start -/
  | start
  /-- the loop of a user has ended -/
  | ended (u : Nat)
  /-- a client connects -/
  | accept
  /-- it has logged in -/
  | login (id u : Nat) (ok : Bool)
  /-- its connection has ended -/
  | logout (id : Nat)
  /-- `Handle` returns -/
  | closed (id : Nat)
  /-- the loop of a user handles an event -/
  | handle (u : Nat)
  /-- a network is tried -/
  | try_ (net : Nat)
  /-- the bouncer is registered with its server -/
  | established (net : Nat)
  /-- `runConn` returns -/
  | tried (net : Nat)
  /-- `server notice`, and the users it reaches before the deadline -/
  | notice (n : Nat) (reached : List Nat)
deriving DecidableEq, Repr

/-- An event is sent to the loop of a user, if there is one. -/
def ntSend (users : GoMap Nat NtUser) (u : Nat) (e : NtEvent) : GoMap Nat NtUser :=
  match GoMap.get users u with
  | some v => GoMap.set users u { v with queue := v.queue ++ [e] }
  | none => users

/-- user.go:723-812, 825-829 — a user handles an event: its clients, and to which of them a notice is sent. -/
def ntHandle (clients : List Nat) : NtEvent → List Nat × List (Nat × Nat)
  | .connected id ok => (if ok then clients ++ [id] else clients, [])
  | .disconnected id => (clients.erase id, [])
  | .notice n => (clients, clients.map (fun id => (id, n)))

/-- One step. -/
def ntStep (st : NtState) : NtOp → NtState
  | .start =>
    { st with users := GoMap.set st.users (st.lastUser + 1) ⟨[], []⟩, lastUser := st.lastUser + 1 }
  | .ended u => { st with users := GoMap.del st.users u }
  | .accept =>
    { st with conns := GoMap.set st.conns (st.lastConn + 1) .greeting, downstreams := st.downstreams + 1, lastConn := st.lastConn + 1 }
  | .login id u ok =>
    if GoMap.get st.conns id = some .greeting ∧ (GoMap.get st.users u).isSome then
      { st with conns := GoMap.set st.conns id (.user u ok), users := ntSend st.users u (.connected id ok) }
    else st
  | .logout id =>
    match GoMap.get st.conns id with
    | some (.user u _) => { st with conns := GoMap.set st.conns id .leaving, users := ntSend st.users u (.disconnected id) }
    | _ => st
  | .closed id =>
    if GoMap.get st.conns id = some .greeting ∨ GoMap.get st.conns id = some .leaving then
      { st with conns := GoMap.del st.conns id, downstreams := st.downstreams - 1 }
    else st
  | .handle u =>
    match GoMap.get st.users u with
    | some ⟨e :: queue, clients⟩ =>
      let r := ntHandle clients e
      { st with users := GoMap.set st.users u ⟨queue, r.1⟩, got := st.got ++ r.2.map (fun p => (u, p)) }
    | _ => st
  | .try_ net =>
    if (GoMap.get st.tries net).isNone then
      { st with tries := GoMap.set st.tries net false, upstreams := st.upstreams + 1 }
    else st
  | .established net =>
    if (GoMap.get st.tries net).isSome then { st with tries := GoMap.set st.tries net true } else st
  | .tried net =>
    if (GoMap.get st.tries net).isSome then { st with tries := GoMap.del st.tries net, upstreams := st.upstreams - 1 } else st
  | .notice n reached =>
    let users := st.users.map (fun p =>
      (p.1, if p.1 ∈ reached then { p.2 with queue := p.2.queue ++ [.notice n] } else p.2))
    let sent := (st.users.filter (fun p => decide (p.1 ∈ reached))).length
    { st with users := users, replies := st.replies ++ [(n, sent, st.users.length, decide (sent = st.users.length))] }

/-- The server, from its start. -/
def ntRun (ops : List NtOp) : NtState := ops.foldl ntStep ⟨[], [], 0, [], 0, [], [], 0, 0⟩

/-- server.go:712-720 — the figures: users, clients, servers. -/
def ntStats (st : NtState) : Nat × Int × Int := (st.users.length, st.downstreams, st.upstreams)

end Verif.Model
