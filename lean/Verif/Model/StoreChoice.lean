import Verif.Model.Config

/-! # Model of the choice of the message store

user.go:542-563 (`newUser`), downstream.go:391-399 (`newDownstreamConn`), 1612-1615, 2774-2780, 2988-2994 (the uses of the
store), cmd/soju/main.go:450-459 (SIGHUP), server.go:217-219, 404-458.

Simplifications: a configuration is the driver and the source of its message store, since nothing else matters here.  What the
stores do with messages is modelled elsewhere: here a store is only known by where it is, and messages are numbers.  The network a
client is bound to is left out: every client is bound to some network.  Each step is one operation under the lock of the server or
in the loop of a user.  When a user is stopped its clients are closed in the same step (C62, C68 are about that).  Failures of the database
and of the stores are left out. -/

namespace Verif.Model

/-- Where messages are: in the files of a user under a directory, in the database, or in an object in memory. -/
inductive HkStore where
  | fs (root user : Str)
  | db
  | memory (id : Nat)
deriving DecidableEq, Repr

/-- config/config.go:107-110, 177-195 — the message store of a configuration, with or without a directive for it. -/
def hkLoad : Option (List Str) → Option (Str × Str)
  | none => some (b!"memory", [])
  | some params => loadMsgStore params

/-- user.go:545-553 — the store of a new user; `fresh` is the next unused object in memory. -/
def hkNewStore (cfg : Str × Str) (user : Str) (fresh : Nat) : Option HkStore :=
  if cfg.1 = b!"fs" then some (.fs cfg.2 user)
  else if cfg.1 = b!"db" then some .db
  else if cfg.1 = b!"memory" then some (.memory fresh)
  else none

/-- downstream.go:395-399 — whether draft/chathistory and soju.im/search are available to a new client. -/
def hkOffers (cfg : Str × Str) : Bool := cfg.1 = b!"fs" || cfg.1 = b!"db"

/-- msgstore/fs.go:95-96, msgstore/db.go:42-43 — the stores that are a `ChatHistoryStore` and a `SearchStore`. -/
def hkAnswers : Option HkStore → Bool
  | some (.fs _ _) => true
  | some .db => true
  | _ => false

/-- user.go:527-540 — a user: the name and the store. -/
structure HkUser where
  name : Str
  store : Option HkStore
deriving DecidableEq, Repr

/-- A client: whether draft/chathistory is available to it and enabled by it, and the user it is logged in as. -/
structure HkClient where
  id : Nat
  offered : Bool
  enabled : Bool
  user : Option HkUser
deriving DecidableEq, Repr

/-- The server: its current configuration, the running users, the clients, the next unused object in memory, and the messages that
have been stored, each with its user and the store it was given to. -/
structure HkState where
  cfg : Str × Str
  users : List HkUser
  clients : List HkClient
  fresh : Nat
  kept : List (Str × HkStore × Nat)

/-- What can happen. -/
inductive HkOp where
  | reload (params : Option (List Str))
  | create (name : Str)
  | gone (name : Str)
  | connect (id : Nat)
  | enable (id : Nat)
  | login (id : Nat) (name : Str)
  | close (id : Nat)
  | message (name : Str) (m : Nat)

/-- server.go:427-432 — `getUser`. -/
def hkUser (st : HkState) (name : Str) : Option HkUser := st.users.find? (fun u => decide (u.name = name))

/-- The client with an id. -/
def hkClient (st : HkState) (id : Nat) : Option HkClient := st.clients.find? (fun c => decide (c.id = id))

/-- server.go:435-438 — `addUserLocked`: a user is started with a store of the current configuration. -/
def hkAdd (st : HkState) (name : Str) : HkState :=
  { st with users := st.users ++ [⟨name, hkNewStore st.cfg name st.fresh⟩], fresh := st.fresh + 1 }

/-- One step.
* `reload`: cmd/soju/main.go:452-459, the configuration is replaced if it can be loaded.
* `create`: server.go:404-418, unless there is such a user.
* `gone`: server.go:448-451, the user is stopped, with its clients.
* `connect`: downstream.go:395-399.
* `enable`: a client requests draft/chathistory, which is granted if it is available.
* `login`: a client that is not logged in yet becomes a client of the user (server.go:497-512, downstream.go:1450).
* `close`: a client goes.
* `message`: a message for the user is appended to the store, if there is one (upstream.go:2169). -/
def hkStep (st : HkState) : HkOp → HkState
  | .reload params =>
    match hkLoad params with
    | none => st
    | some cfg => { st with cfg := cfg }
  | .create name =>
    match hkUser st name with
    | some _ => st
    | none => hkAdd st name
  | .gone name =>
    { st with
      users := st.users.filter (fun u => !decide (u.name = name)),
      clients := st.clients.filter (fun c => !decide (c.user.map (·.name) = some name)) }
  | .connect id =>
    match hkClient st id with
    | some _ => st
    | none => { st with clients := st.clients ++ [⟨id, hkOffers st.cfg, false, none⟩] }
  | .enable id =>
    { st with clients := st.clients.map (fun c => if c.id = id then { c with enabled := c.offered } else c) }
  | .login id name =>
    match hkUser st name with
    | none => st
    | some u =>
      { st with clients := st.clients.map (fun c => if c.id = id ∧ c.user = none then { c with user := some u } else c) }
  | .close id => { st with clients := st.clients.filter (fun c => !decide (c.id = id)) }
  | .message name m =>
    match hkUser st name with
    | none => st
    | some u =>
      match u.store with
      | none => st
      | some s => { st with kept := st.kept ++ [(name, s, m)] }

/-- Many steps. -/
def hkRun (st : HkState) (ops : List HkOp) : HkState := ops.foldl hkStep st

/-- server.go:228-237 — `Start`: the users in the database are started. -/
def hkStart (cfg : Str × Str) (names : List Str) : HkState := names.foldl hkAdd ⟨cfg, [], [], 0, []⟩

/-- The answer to a request for history or to a search: an error, or what is found in a store. -/
inductive HkReply where
  | unknownCommand
  | found (s : HkStore)
deriving DecidableEq, Repr

/-- downstream.go:2774-2780, 2988-2994 — the answer to CHATHISTORY and SEARCH. -/
def hkReply (u : HkUser) : HkReply :=
  match u.store with
  | some s => if hkAnswers (some s) then .found s else .unknownCommand
  | none => .unknownCommand

/-- downstream.go:1612-1615, 1662-1665 — the store the backlog of a client is sent from, if it is sent. -/
def hkBacklog (c : HkClient) (u : HkUser) : Option HkStore := if c.enabled then none else u.store

end Verif.Model
