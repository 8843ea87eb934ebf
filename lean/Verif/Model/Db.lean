import Verif.Model.MsgDb
import Verif.Model.Network

/-! # Model of the database tables

database/sqlite.go:473-721 and database/sqlite_schema.sql.  A table is a list of rows.  Foreign keys are
enforced (database/sqlite_mattn.go:14, sqlite_modernc.go:12): a statement after which a row refers to a row
that does not exist fails, and the transaction is rolled back. -/

namespace Verif.Model

/-- A row of User; `data` stands for the columns that are not keys. -/
structure DbUser where
  id : Nat
  data : Str
deriving DecidableEq, Repr

/-- A row of Network (the other columns are in `NetworkRow`). -/
structure DbNetwork where
  id : Nat
  user : Nat
  data : Str
deriving DecidableEq, Repr

/-- A row of Channel, DeliveryReceipt or ReadReceipt. -/
structure DbChild where
  id : Nat
  network : Nat
  data : Str
deriving DecidableEq, Repr

/-- A row of WebPushSubscription. -/
structure DbSub where
  id : Nat
  user : Nat
  network : Option Nat
  data : Str
deriving DecidableEq, Repr

/-- The tables. -/
structure Db where
  users : List DbUser := []
  networks : List DbNetwork := []
  channels : List DbChild := []
  deliveries : List DbChild := []
  reads : List DbChild := []
  subs : List DbSub := []
  targets : List MsgTargetRow := []
  messages : List MsgRow := []
deriving DecidableEq, Repr

/-- database/sqlite_schema.sql — the foreign keys hold. -/
def fkOK (db : Db) : Bool :=
  db.networks.all (fun n => db.users.any (fun u => decide (u.id = n.user))) &&
  db.channels.all (fun c => db.networks.any (fun n => decide (n.id = c.network))) &&
  db.deliveries.all (fun c => db.networks.any (fun n => decide (n.id = c.network))) &&
  db.reads.all (fun c => db.networks.any (fun n => decide (n.id = c.network))) &&
  db.targets.all (fun c => db.networks.any (fun n => decide (n.id = c.network))) &&
  db.messages.all (fun m => db.targets.any (fun t => decide (t.id = m.target))) &&
  db.subs.all (fun s => db.users.any (fun u => decide (u.id = s.user)) &&
    (match s.network with | none => true | some i => db.networks.any (fun n => decide (n.id = i))))

/-- One statement of a transaction. -/
def statement (db : Db) : Option Db := if fkOK db then some db else none

/-- `SELECT Child.id FROM Child JOIN Network ON Child.network = Network.id WHERE Network.user = ?`. -/
def childIdsOfUser (children : List DbChild) (networks : List DbNetwork) (user : Nat) : List Nat :=
  children.flatMap (fun c => (networks.filter (fun n =>
    decide (c.network = n.id) && decide (n.user = user))).map (fun _ => c.id))

/-- database/sqlite.go:507-515 — the targets of the networks of a user. -/
def targetIdsOfUser (targets : List MsgTargetRow) (networks : List DbNetwork) (user : Nat) : List Nat :=
  targets.flatMap (fun t => (networks.filter (fun n =>
    decide (t.network = n.id) && decide (n.user = user))).map (fun _ => t.id))

/-- database/sqlite.go:495-503 — the messages of the networks of a user. -/
def messageIdsOfUser (messages : List MsgRow) (targets : List MsgTargetRow) (networks : List DbNetwork)
    (user : Nat) : List Nat :=
  messages.flatMap (fun m => targets.flatMap (fun t => (networks.filter (fun n =>
    decide (m.target = t.id) && decide (t.network = n.id) && decide (n.user = user))).map (fun _ => m.id)))

/-- `DELETE FROM Child WHERE id IN (…)`. -/
def dropChildren (children : List DbChild) (ids : List Nat) : List DbChild :=
  children.filter (fun c => decide (c.id ∉ ids))

/-- database/sqlite.go:473-556 — `DeleteUser`; `none` is an error, after which nothing has changed. -/
def deleteUser (db : Db) (user : Nat) : Option Db := do
  let db ← statement { db with
    deliveries := dropChildren db.deliveries (childIdsOfUser db.deliveries db.networks user) }
  let db ← statement { db with reads := dropChildren db.reads (childIdsOfUser db.reads db.networks user) }
  let db ← statement { db with messages := db.messages.filter (fun m =>
    decide (m.id ∉ messageIdsOfUser db.messages db.targets db.networks user)) }
  let db ← statement { db with targets := db.targets.filter (fun t =>
    decide (t.id ∉ targetIdsOfUser db.targets db.networks user)) }
  let db ← statement { db with subs := db.subs.filter (fun s => decide (s.user ≠ user)) }
  let db ← statement { db with channels := dropChildren db.channels (childIdsOfUser db.channels db.networks user) }
  let db ← statement { db with networks := db.networks.filter (fun n => decide (n.user ≠ user)) }
  statement { db with users := db.users.filter (fun u => decide (u.id ≠ user)) }

/-- database/sqlite.go:675-721 — `DeleteNetwork`. -/
def dbDeleteNetwork (db : Db) (id : Nat) : Option Db := do
  let db ← statement { db with messages := db.messages.filter (fun m =>
    decide (m.target ∉ (db.targets.filter (fun t => decide (t.network = id))).map (·.id))) }
  let db ← statement { db with targets := db.targets.filter (fun t => decide (t.network ≠ id)) }
  let db ← statement { db with subs := db.subs.filter (fun s => decide (s.network ≠ some id)) }
  let db ← statement { db with deliveries := db.deliveries.filter (fun c => decide (c.network ≠ id)) }
  let db ← statement { db with reads := db.reads.filter (fun c => decide (c.network ≠ id)) }
  let db ← statement { db with channels := db.channels.filter (fun c => decide (c.network ≠ id)) }
  statement { db with networks := db.networks.filter (fun n => decide (n.id ≠ id)) }

/-! ## The columns of Network, Channel and User -/

/-- database/database.go:287-292 — `toNullString`. -/
def toNull (s : Str) : Option Str := if s = [] then none else some s

/-- `strings.Split(s, "\r\n")`. -/
def splitCRLF : Str → List Str
  | [] => [[]]
  | [c] => [[c]]
  | c :: d :: s =>
    if c = 13 ∧ d = 10 then [] :: splitCRLF s
    else match splitCRLF (d :: s) with
    | [] => [[c]]
    | p :: ps => (c :: p) :: ps
termination_by s => s.length

/-- database/sqlite_schema.sql:14-35 — a row of Network.  A NULL blob and an empty one are the same here. -/
structure NetworkRow where
  id : Nat
  user : Nat
  name : Option Str
  addr : Str
  nick : Option Str
  username : Option Str
  realname : Option Str
  certfp : Option Str
  pass : Option Str
  connectCommands : Option Str
  saslMechanism : Option Str
  saslPlainUsername : Option Str
  saslPlainPassword : Option Str
  saslCert : Str
  saslKey : Str
  autoAway : Bool
  enabled : Bool
deriving DecidableEq, Repr

/-- database/sqlite.go:610-644 — the columns `StoreNetwork` writes; `none` for an unsupported mechanism. -/
def networkColumns (user : Nat) (r : NetRec) : Option NetworkRow :=
  let row (plainUsername plainPassword : Option Str) (cert key : Str) : NetworkRow :=
    { id := r.id, user := user, name := toNull r.name, addr := r.addr, nick := toNull r.nick,
      username := toNull r.username, realname := toNull r.realname, certfp := toNull r.certFP, pass := toNull r.pass,
      connectCommands := toNull (joinStr [13, 10] r.connectCommands), saslMechanism := toNull r.sasl.mechanism,
      saslPlainUsername := plainUsername, saslPlainPassword := plainPassword, saslCert := cert, saslKey := key,
      autoAway := r.autoAway, enabled := r.enabled }
  if r.sasl.mechanism = [] then some (row none none r.sasl.certBlob r.sasl.privKeyBlob)
  else if r.sasl.mechanism = b!"PLAIN" then
    some (row (toNull r.sasl.plainUsername) (toNull r.sasl.plainPassword) [] [])
  else if r.sasl.mechanism = b!"EXTERNAL" then some (row none none r.sasl.certBlob r.sasl.privKeyBlob)
  else none

/-- The uniqueness constraints of Network; NULLs are distinct. -/
def networkUnique (rows : List NetworkRow) : Bool :=
  rows.all (fun a => rows.all (fun b => decide (a.id = b.id) || decide (a.user ≠ b.user) ||
    ((decide (a.addr ≠ b.addr) || decide (a.nick ≠ b.nick) || a.nick.isNone) &&
     (decide (a.name ≠ b.name) || a.name.isNone))))

/-- database/sqlite.go:606-673 — `StoreNetwork`: the table and the identifier of the network, or an error. -/
def dbStoreNetwork (rows : List NetworkRow) (user : Nat) (r : NetRec) : Option (List NetworkRow × Nat) :=
  match networkColumns user r with
  | none => none
  | some row =>
    if r.id ≠ 0 then
      let rows' := rows.map (fun o => if o.id = r.id then { row with user := o.user } else o)
      if networkUnique rows' then some (rows', r.id) else none
    else
      let id := nextRowId (rows.map (·.id))
      let rows' := rows ++ [{ row with id := id }]
      if networkUnique rows' then some (rows', id) else none

/-- database/sqlite.go:574-599 — a row of `ListNetworks`. -/
def networkOfRow (row : NetworkRow) : NetRec :=
  { id := row.id, name := row.name.getD [], addr := row.addr, nick := row.nick.getD [],
    username := row.username.getD [], realname := row.realname.getD [], pass := row.pass.getD [],
    connectCommands := (match row.connectCommands with | none => [] | some s => splitCRLF s),
    certFP := row.certfp.getD [],
    sasl := ⟨row.saslMechanism.getD [], row.saslPlainUsername.getD [], row.saslPlainPassword.getD [],
      row.saslCert, row.saslKey⟩,
    autoAway := row.autoAway, enabled := row.enabled }

/-- database/sqlite.go:558-604 — `ListNetworks`. -/
def dbListNetworks (rows : List NetworkRow) (user : Nat) : List NetRec :=
  (rows.filter (fun r => decide (r.user = user))).map networkOfRow

/-- database/database.go:244-256 — `Channel`; filters are numbers. -/
structure ChanRec where
  id : Nat
  name : Str
  key : Str
  detached : Bool
  detachedMsgID : Str
  relayDetached : Nat
  reattachOn : Nat
  /-- nanoseconds -/
  detachAfter : Nat
  detachOn : Nat
deriving DecidableEq, Repr

/-- database/sqlite_schema.sql:37-50 — a row of Channel; `detachAfter` is in seconds. -/
structure ChannelRow where
  id : Nat
  network : Nat
  name : Str
  key : Option Str
  detached : Bool
  detachedMsgID : Option Str
  relayDetached : Nat
  reattachOn : Nat
  detachAfter : Nat
  detachOn : Nat
deriving DecidableEq, Repr

/-- database/sqlite.go:761-773 — the columns `StoreChannel` writes.  The rounding up is on integers (the code
goes through floating point numbers). -/
def channelColumns (network : Nat) (c : ChanRec) : ChannelRow :=
  ⟨c.id, network, c.name, toNull c.key, c.detached, toNull c.detachedMsgID, c.relayDetached, c.reattachOn,
    (c.detachAfter + 999999999) / 1000000000, c.detachOn⟩

/-- The uniqueness constraint of Channel. -/
def channelUnique (rows : List ChannelRow) : Bool :=
  rows.all (fun a => rows.all (fun b => decide (a.id = b.id) || decide (a.network ≠ b.network) ||
    decide (a.name ≠ b.name)))

/-- database/sqlite.go:757-792 — `StoreChannel`. -/
def dbStoreChannel (rows : List ChannelRow) (network : Nat) (c : ChanRec) : Option (List ChannelRow × Nat) :=
  if c.id ≠ 0 then
    let rows' := rows.map (fun o => if o.id = c.id then channelColumns network c else o)
    if channelUnique rows' then some (rows', c.id) else none
  else
    let id := nextRowId (rows.map (·.id))
    let rows' := rows ++ [{ channelColumns network c with id := id }]
    if channelUnique rows' then some (rows', id) else none

/-- database/sqlite.go:740-748 — a row of `ListChannels`. -/
def channelOfRow (r : ChannelRow) : ChanRec :=
  ⟨r.id, r.name, r.key.getD [], r.detached, r.detachedMsgID.getD [], r.relayDetached, r.reattachOn,
    r.detachAfter * 1000000000, r.detachOn⟩

/-- database/sqlite.go:723-755 — `ListChannels`. -/
def dbListChannels (rows : List ChannelRow) (network : Nat) : List ChanRec :=
  (rows.filter (fun r => decide (r.network = network))).map channelOfRow

/-- database/sqlite.go:794-800 — `DeleteChannel`. -/
def dbDeleteChannel (rows : List ChannelRow) (id : Nat) : List ChannelRow :=
  rows.filter (fun r => decide (r.id ≠ id))

end Verif.Model
