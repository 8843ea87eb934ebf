import Verif.Model.GoMap

/-! # Model of delivery receipts and of the backlog (user.go:95-147, 168-186, 426-446, 628-636,
778-800, 876-888, 1120-1142;
downstream.go:574-628, 1612-1696; upstream.go:2154-2174)

One network, one persistent message store.  The store is abstract: for each target it keeps the sequence of
PRIVMSG and NOTICE messages logged for it (events are never replayed), and a message ID is a position in it:
`n` stands for the ID of the `n`-th message, or for the `LastMsgID` of a log of `n` messages.
`LoadLatestID` of position `n` gives the last `limit` messages after the first `n`.  (C11, C12 and C13 relate
the actual stores to this.)  Names of targets are folded.

Clients are known by their name; a client that has enabled draft/chathistory takes no part in this
(downstream.go:578, 1613).  Simplification: at most one connection per client name. -/

namespace Verif.Model

/-- user.go:95-99 — `deliveredStore`: target ↦ client name ↦ message ID. -/
abbrev Delivered := GoMap Str (GoMap Str Nat)

/-- user.go:113-119 — `LoadID`; `none` is the empty ID. -/
def Delivered.loadID (ds : Delivered) (target client : Str) : Option Nat :=
  (GoMap.get ds target).bind (fun cs => GoMap.get cs client)

/-- user.go:121-128 — `StoreID`. -/
def Delivered.storeID (ds : Delivered) (target client : Str) (id : Nat) : Delivered :=
  GoMap.set ds target (GoMap.set ((GoMap.get ds target).getD []) client id)

/-- user.go:109-111 — `HasTarget`. -/
def Delivered.hasTarget (ds : Delivered) (target : Str) : Bool := (GoMap.get ds target).isSome

/-- user.go:136-147 — `ForEachClient`: the names of all clients with a receipt (the callers do not depend on
the order, or on repetitions). -/
def Delivered.clients (ds : Delivered) : List Str := ds.flatMap (fun e => e.2.map (·.1))

/-- user.go:130-134 — `ForEachTarget`. -/
def Delivered.targets (ds : Delivered) : List Str := ds.map (·.1)

/-- How a client came to know a message. -/
inductive How where
  /-- sent to it as it arrived -/
  | live
  /-- its own message, not echoed to it -/
  | own
  /-- replayed when it connected -/
  | backlog
deriving DecidableEq, Repr

/-- A client gets to know the `index`-th message (from 0) of a target. -/
structure Seen where
  client : Str
  target : Str
  index : Nat
  how : How
deriving DecidableEq, Repr

/-- The state of one network. -/
structure BlState (M : Type) where
  /-- the message store -/
  log : GoMap Str (List M)
  delivered : Delivered
  /-- connected clients, with the message IDs of the PINGs they have not answered yet, oldest first -/
  conns : GoMap Str (List (Str × Nat))
  /-- the DeliveryReceipt table: client ↦ (target, ID) -/
  db : GoMap Str (List (Str × Nat))

variable {M : Type}

/-- The messages of a target. -/
def BlState.logOf (st : BlState M) (target : Str) : List M := (GoMap.get st.log target).getD []

/-- upstream.go:2154-2174 — `appendLog`: before the first message of a target with no receipt, every known
client is given the position before that message. -/
def blAppend (st : BlState M) (target : Str) (m : M) : BlState M × Nat :=
  let n := (st.logOf target).length
  let ds := if st.delivered ≠ [] ∧ st.delivered.hasTarget target = false then
      st.delivered.clients.foldl (fun ds c => ds.storeID target c n) st.delivered
    else st.delivered
  ({ st with log := GoMap.set st.log target (st.logOf target ++ [m]), delivered := ds }, n + 1)

/-- upstream.go:2184-2203, downstream.go:574-593 — `produce`: the message is logged, sent to every connected
client except `noEcho` (its sender, if it did not enable echo-message), and every one is sent a PING with the
message ID. -/
def blMessage (st : BlState M) (target : Str) (m : M) (noEcho : Option Str) : BlState M × List Seen :=
  let r := blAppend st target m
  ({ r.1 with conns := r.1.conns.map (fun e => (e.1, e.2 ++ [(target, r.2)])) },
    st.conns.map (fun e => ⟨e.1, target, r.2 - 1, if noEcho = some e.1 then .own else .live⟩))

/-- downstream.go:596-628 — a client answers the oldest PING: its receipt becomes that message. -/
def blPong (st : BlState M) (client : Str) : BlState M :=
  match GoMap.get st.conns client with
  | some ((target, id) :: rest) =>
    { st with conns := GoMap.set st.conns client rest, delivered := st.delivered.storeID target client id }
  | _ => st

/-- user.go:426-446 and database/sqlite.go:832-868 — the rows of a client are replaced with its receipts. -/
def blPersist (st : BlState M) (client : Str) : BlState M :=
  let rows := st.delivered.targets.filterMap (fun t => (st.delivered.loadID t client).map (fun id => (t, id)))
  { st with db := GoMap.set st.db client rows }

/-- user.go:778-800 — a client disconnects. -/
def blDisconnect (st : BlState M) (client : Str) : BlState M :=
  blPersist { st with conns := GoMap.del st.conns client } client

/-- msgstore `LoadLatestID` on positions: the indices of the messages replayed. -/
def latestAfter (len pos limit : Nat) : List Nat :=
  let start := max pos (len - limit)
  List.range' start (len - start)

/-- downstream.go:1612-1644, 1662-1696 — a client connects: for each target it has a receipt for, it is sent
the messages that follow, up to the limit, and its receipt becomes the last message. -/
def blConnect (limit : Nat) (st : BlState M) (client : Str) : BlState M × List Seen :=
  if (GoMap.get st.conns client).isSome then (st, [])
  else
    let known := st.delivered.targets.filterMap (fun t => (st.delivered.loadID t client).map (fun id => (t, id)))
    let ds := known.foldl (fun ds e => ds.storeID e.1 client (st.logOf e.1).length) st.delivered
    ({ st with conns := GoMap.set st.conns client [], delivered := ds },
      known.flatMap (fun e => (latestAfter (st.logOf e.1).length e.2 limit).map
        (fun i => ⟨client, e.1, i, .backlog⟩)))

/-- user.go:628-636 — receipts read at startup. -/
def blLoad (db : GoMap Str (List (Str × Nat))) : Delivered :=
  (db.flatMap (fun e => e.2.map (fun r => (e.1, r)))).foldl (fun ds x => ds.storeID x.2.1 x.1 x.2.2) []

/-- The server process starts again on the same database. -/
def blStart (st : BlState M) : BlState M := { st with conns := [], delivered := blLoad st.db }

/-- user.go:876-888 — a clean shutdown stores the receipts of every client; then the server is started
again. -/
def blRestart (st : BlState M) : BlState M := blStart (st.delivered.clients.foldl blPersist st)

/-- user.go:1120-1142, 168-186 — `updateNetwork`: the settings of the network are changed.  It is made anew from its
record and its channels, without the receipts; its clients stay connected.  (The rows in the database stay.) -/
def blUpdate (st : BlState M) : BlState M := { st with delivered := [] }

/-- What happens on the network. -/
inductive BlOp (M : Type) where
  | message (target : Str) (m : M) (noEcho : Option Str)
  | pong (client : Str)
  | disconnect (client : Str)
  | connect (client : Str)
  | restart
  | crash
  /-- its settings are changed -/
  | update

/-- One event. -/
def blStep (limit : Nat) (st : BlState M) : BlOp M → BlState M × List Seen
  | .message t m e => blMessage st t m e
  | .pong c => (blPong st c, [])
  | .disconnect c => (blDisconnect st c, [])
  | .connect c => blConnect limit st c
  | .restart => (blRestart st, [])
  | .crash => (blStart st, [])
  | .update => (blUpdate st, [])

/-- A history. -/
def blRun (limit : Nat) (st : BlState M) : List (BlOp M) → BlState M × List Seen
  | [] => (st, [])
  | op :: ops =>
    let r := blStep limit st op
    let r' := blRun limit r.1 ops
    (r'.1, r.2 ++ r'.2)

/-- A new network. -/
def blInit : BlState M := ⟨[], [], [], []⟩

end Verif.Model
