import Verif.Model.PgDb
import Verif.Model.SqlTime

/-! # Model of the account tables of an SQLite database

database/sqlite.go:328-1054 and database/sqlite_schema.sql:1-92.  A table is a list of rows in the order of insertion.
The calls and the records are those of the `Database` interface (database/database.go), as in `Model.PgDb`.  Each call
is one step.  A new row gets the highest identifier of the table plus one (`INTEGER PRIMARY KEY` without
AUTOINCREMENT).  Texts are kept as they are, instants as texts.  Foreign keys are enforced
(database/sqlite_mattn.go:14, sqlite_modernc.go:12): a statement after which a row refers to a row that does not
exist fails.  The tables of messages, which the deletions also clear, are in `Model.Db`.  Simplification: the clock is
never the zero time. -/

namespace Verif.Model

/-- database/sqlite_schema.sql:1-12 — a row of User. -/
structure SqUserRow where
  id : Nat
  username : Str
  password : Option Str
  admin : Bool
  realname : Option Str
  nick : Option Str
  createdAt : Str
  enabled : Bool
  interactedAt : Option Str
  maxNetworks : Int
deriving DecidableEq, Repr

/-- database/sqlite_schema.sql:52-60 — a row of DeliveryReceipt. -/
structure SqReceiptRow where
  id : Nat
  network : Nat
  target : Str
  client : Option Str
  msgID : Str
deriving DecidableEq, Repr

/-- database/sqlite_schema.sql:62-69 — a row of ReadReceipt. -/
structure SqReadRow where
  id : Nat
  network : Nat
  target : Str
  timestamp : Str
deriving DecidableEq, Repr

/-- database/sqlite_schema.sql:79-92 — a row of WebPushSubscription; the key columns are never NULL. -/
structure SqSubRow where
  id : Nat
  createdAt : Str
  updatedAt : Str
  user : Nat
  network : Option Nat
  endpoint : Str
  vapid : Str
  auth : Str
  p256dh : Str
deriving DecidableEq, Repr

/-- The tables; the time a key for push messages was created is never read. -/
structure SqDb where
  users : List SqUserRow := []
  networks : List NetworkRow := []
  channels : List ChannelRow := []
  receipts : List SqReceiptRow := []
  reads : List SqReadRow := []
  subs : List SqSubRow := []
  configs : List PdConfig := []
deriving DecidableEq, Repr

/-- database/sqlite_schema.sql:32,48,58,67,89-90 — a foreign key to Network. -/
def sqNetThere (db : SqDb) (id : Nat) : Bool := db.networks.any (fun n => decide (n.id = id))

/-- database/sqlite_schema.sql:32,48,58,67,89-90 — the foreign keys hold. -/
def sqFk (db : SqDb) : Bool :=
  db.networks.all (fun n => db.users.any (fun u => decide (u.id = n.user))) &&
  db.channels.all (fun c => sqNetThere db c.network) &&
  db.receipts.all (fun c => sqNetThere db c.network) &&
  db.reads.all (fun c => sqNetThere db c.network) &&
  db.subs.all (fun s => db.users.any (fun u => decide (u.id = s.user)) &&
    (match s.network with | none => true | some i => sqNetThere db i))

/-- A statement: it fails if a foreign key would not hold afterwards. -/
def sqStatement (db : SqDb) : Option SqDb := if sqFk db then some db else none

/-- A call of one statement, or of one transaction: nothing has changed after an error. -/
def sqCommit (db : SqDb) (after : Option SqDb) (id : Nat) : SqDb × Option Nat :=
  match after with
  | some after => (after, some id)
  | none => (db, none)

/-- database/sqlite.go:433-443 — the columns `StoreUser` writes. -/
def sqUserColumns (now : Int) (r : PdUserRec) : SqUserRow :=
  { id := r.id, username := r.username, password := toNull r.password, admin := r.admin, realname := toNull r.realname,
    nick := toNull r.nick, createdAt := sqliteFormat now, enabled := r.enabled,
    interactedAt := sqliteValue r.interactedAt, maxNetworks := r.maxNetworks }

/-- database/sqlite.go:429-471 — `StoreUser`: the identifier, or `none` for an error.  An update is by name. -/
def sqStoreUser (db : SqDb) (now : Int) (r : PdUserRec) : SqDb × Option Nat :=
  let row := sqUserColumns now r
  if r.id ≠ 0 then
    sqCommit db (sqStatement { db with users := db.users.map (fun o => if o.username = r.username then
      { row with id := o.id, createdAt := o.createdAt } else o) }) r.id
  else if db.users.any (fun o => decide (o.username = r.username)) then (db, none)
  else
    let id := nextRowId (db.users.map (·.id))
    sqCommit db (sqStatement { db with users := db.users ++ [{ row with id := id }] }) id

/-- database/sqlite.go:359-370 — a row of `ListUsers`; `none` if the time cannot be read. -/
def sqUserOf (r : SqUserRow) : Option PdUserRec :=
  (sqliteScan r.interactedAt).map (fun t =>
    { id := r.id, username := r.username, password := r.password.getD [], nick := r.nick.getD [],
      realname := r.realname.getD [], admin := r.admin, enabled := r.enabled, interactedAt := t,
      maxNetworks := r.maxNetworks })

/-- The rows of a query, each of which is read; `none` is an error. -/
def sqRead {α β : Type} (f : α → Option β) : List α → Option (List β)
  | [] => some []
  | x :: l => match f x with
    | none => none
    | some y => (sqRead f l).map (y :: ·)

/-- database/sqlite.go:344-376 — `ListUsers`. -/
def sqListUsers (db : SqDb) : Option (List PdUserRec) := sqRead sqUserOf db.users

/-- database/sqlite.go:378-401 — `GetUser`: the first row, an error if there is none. -/
def sqGetUser (db : SqDb) (username : Str) : Option PdUserRec :=
  match (db.users.filter (fun o => decide (o.username = username))).head? with
  | none => none
  | some r => (sqUserOf r).map (fun u => { u with username := username })

/-- database/sqlite.go:402-427 — `ListInactiveUsernames`: nothing is less than NULL. -/
def sqListInactive (db : SqDb) (limit : Int) : List Str :=
  match sqliteValue limit with
  | none => []
  | some l => (db.users.filter (fun o => decide (o.interactedAt.getD o.createdAt < l))).map (·.username)

/-- database/sqlite.go:606-673 — `StoreNetwork`. -/
def sqStoreNetwork (db : SqDb) (user : Nat) (r : NetRec) : SqDb × Option Nat :=
  match dbStoreNetwork db.networks user r with
  | none => (db, none)
  | some (rows, id) => sqCommit db (sqStatement { db with networks := rows }) id

/-- database/sqlite.go:558-604 — `ListNetworks`. -/
def sqListNetworks (db : SqDb) (user : Nat) : List NetRec := dbListNetworks db.networks user

/-- `SELECT Child.id FROM Child JOIN Network ON Child.network = Network.id WHERE Network.user = ?`; a child is given
as its identifier and that of its network. -/
def sqIdsOfUser (children : List (Nat × Nat)) (networks : List NetworkRow) (user : Nat) : List Nat :=
  children.flatMap (fun c => (networks.filter (fun n =>
    decide (c.2 = n.id) && decide (n.user = user))).map (fun _ => c.1))

/-- database/sqlite.go:473-556 — `DeleteUser`, statement by statement (without the messages). -/
def sqDeleteUser (db : SqDb) (user : Nat) : Option SqDb := do
  let db ← sqStatement { db with receipts := db.receipts.filter (fun c =>
    decide (c.id ∉ sqIdsOfUser (db.receipts.map (fun c => (c.id, c.network))) db.networks user)) }
  let db ← sqStatement { db with reads := db.reads.filter (fun c =>
    decide (c.id ∉ sqIdsOfUser (db.reads.map (fun c => (c.id, c.network))) db.networks user)) }
  let db ← sqStatement { db with subs := db.subs.filter (fun s => decide (s.user ≠ user)) }
  let db ← sqStatement { db with channels := db.channels.filter (fun c =>
    decide (c.id ∉ sqIdsOfUser (db.channels.map (fun c => (c.id, c.network))) db.networks user)) }
  let db ← sqStatement { db with networks := db.networks.filter (fun n => decide (n.user ≠ user)) }
  sqStatement { db with users := db.users.filter (fun u => decide (u.id ≠ user)) }

/-- database/sqlite.go:675-721 — `DeleteNetwork`, statement by statement (without the messages). -/
def sqDeleteNetwork (db : SqDb) (id : Nat) : Option SqDb := do
  let db ← sqStatement { db with subs := db.subs.filter (fun s => decide (s.network ≠ some id)) }
  let db ← sqStatement { db with receipts := db.receipts.filter (fun c => decide (c.network ≠ id)) }
  let db ← sqStatement { db with reads := db.reads.filter (fun c => decide (c.network ≠ id)) }
  let db ← sqStatement { db with channels := db.channels.filter (fun c => decide (c.network ≠ id)) }
  sqStatement { db with networks := db.networks.filter (fun n => decide (n.id ≠ id)) }

/-- database/sqlite.go:757-792 — `StoreChannel`. -/
def sqStoreChannel (db : SqDb) (network : Nat) (c : ChanRec) : SqDb × Option Nat :=
  match dbStoreChannel db.channels network c with
  | none => (db, none)
  | some (rows, id) => sqCommit db (sqStatement { db with channels := rows }) id

/-- database/sqlite.go:723-755 — `ListChannels`. -/
def sqListChannels (db : SqDb) (network : Nat) : List ChanRec := dbListChannels db.channels network

/-- database/sqlite.go:848-866 — the loop of `StoreClientDeliveryReceipts`; NULLs are distinct. -/
def sqInsertReceipts (network : Nat) (client : Str) : SqDb → List PdReceipt → Option SqDb
  | db, [] => some db
  | db, r :: rs =>
    if client ≠ [] ∧ db.receipts.any (fun o =>
        decide (o.network = network ∧ o.target = r.target ∧ o.client = toNull client)) then none
    else match sqStatement { db with receipts := db.receipts ++
        [⟨nextRowId (db.receipts.map (·.id)), network, r.target, toNull client, r.msgID⟩] } with
      | none => none
      | some db => sqInsertReceipts network client db rs

/-- database/sqlite.go:832-869 — `StoreClientDeliveryReceipts`. -/
def sqStoreReceipts (db : SqDb) (network : Nat) (client : Str) (rs : List PdReceipt) : SqDb × Option Nat :=
  sqCommit db ((sqStatement { db with receipts := db.receipts.filter (fun o =>
    !(decide (o.network = network) && decide (o.client = toNull client))) }).bind
      (fun db => sqInsertReceipts network client db rs)) 0

/-- database/sqlite.go:802-830 — `ListDeliveryReceipts`. -/
def sqListReceipts (db : SqDb) (network : Nat) : List PdReceipt :=
  (db.receipts.filter (fun r => decide (r.network = network))).map (fun r => ⟨r.id, r.target, r.client.getD [], r.msgID⟩)

/-- database/sqlite.go:894-924 — `StoreReadReceipt`; the time is NOT NULL. -/
def sqStoreRead (db : SqDb) (network : Nat) (r : PdRead) : SqDb × Option Nat :=
  if r.id ≠ 0 then
    match sqliteValue r.timestamp with
    | none => if db.reads.any (fun o => decide (o.id = r.id)) then (db, none) else (db, some r.id)
    | some t => sqCommit db (sqStatement { db with reads := db.reads.map (fun o => if o.id = r.id then
        { o with timestamp := t } else o) }) r.id
  else match sqliteValue r.timestamp with
    | none => (db, none)
    | some t =>
      if db.reads.any (fun o => decide (o.network = network ∧ o.target = r.target)) then (db, none)
      else
        let id := nextRowId (db.reads.map (·.id))
        sqCommit db (sqStatement { db with reads := db.reads ++ [⟨id, network, r.target, t⟩] }) id

/-- database/sqlite.go:870-892 — `GetReadReceipt`: `none` is an error, `some none` if there is none. -/
def sqGetRead (db : SqDb) (network : Nat) (name : Str) : Option (Option PdRead) :=
  match (db.reads.filter (fun o => decide (o.network = network ∧ o.target = name))).head? with
  | none => some none
  | some o => (sqliteScan (some o.timestamp)).map (fun t => some ⟨o.id, name, t⟩)

/-- database/sqlite_schema.sql:91 — there is a subscription with the network and the endpoint; NULLs are distinct. -/
def sqSubTaken (db : SqDb) (net : Option Nat) (endpoint : Str) : Bool :=
  db.subs.any (fun o => decide (o.network = net) && o.network.isSome && decide (o.endpoint = endpoint))

/-- database/sqlite.go:1004-1046 — `StoreWebPushSubscription`. -/
def sqStoreSub (db : SqDb) (now : Int) (user network : Nat) (s : PdSub) : SqDb × Option Nat :=
  let net := if network ≠ 0 then some network else none
  if s.id ≠ 0 then
    sqCommit db (sqStatement { db with subs := db.subs.map (fun o => if o.id = s.id then
      { o with updatedAt := sqliteFormat now, auth := s.auth, p256dh := s.p256dh, vapid := s.vapid } else o) }) s.id
  else if sqSubTaken db net s.endpoint then (db, none)
  else
    let id := nextRowId (db.subs.map (·.id))
    sqCommit db (sqStatement { db with subs := db.subs ++
      [⟨id, sqliteFormat now, sqliteFormat now, user, net, s.endpoint, s.vapid, s.auth, s.p256dh⟩] }) id

/-- database/sqlite.go:989-999 — a row of `ListWebPushSubscriptions`. -/
def sqSubOf (s : SqSubRow) : Option PdSub :=
  match sqliteScan (some s.createdAt), sqliteScan (some s.updatedAt) with
  | some c, some u => some ⟨s.id, s.endpoint, c, u, s.auth, s.p256dh, s.vapid⟩
  | _, _ => none

/-- database/sqlite.go:971-1002 — `ListWebPushSubscriptions`. -/
def sqListSubs (db : SqDb) (user network : Nat) : Option (List PdSub) :=
  let net := if network ≠ 0 then some network else none
  sqRead sqSubOf (db.subs.filter (fun s => decide (s.user = user) && decide (s.network = net)))

/-- database/sqlite.go:1048-1054 — `DeleteWebPushSubscription`. -/
def sqDeleteSub (db : SqDb) (id : Nat) : SqDb := { db with subs := db.subs.filter (fun s => decide (s.id ≠ id)) }

/-- database/sqlite.go:950-968 — `StoreWebPushConfig`. -/
def sqStoreConfig (db : SqDb) (c : PdConfig) : SqDb × Option Nat :=
  if c.id ≠ 0 then (db, none)
  else if db.configs.any (fun o => decide (o.pub = c.pub)) then (db, none)
  else
    let id := nextRowId (db.configs.map (·.id))
    ({ db with configs := db.configs ++ [{ c with id := id }] }, some id)

/-- database/sqlite.go:926-948 — `ListWebPushConfigs`. -/
def sqListConfigs (db : SqDb) : List PdConfig := db.configs

/-- database/sqlite.go:328-342 — `Stats`: the numbers of users, networks and channels. -/
def sqStats (db : SqDb) : Nat × Nat × Nat := (db.users.length, db.networks.length, db.channels.length)

/-- One call (database/database.go:25-68): the tables afterwards, and the identifier it gives (0 if it gives none),
`none` for an error; database/sqlite.go:794-800 is `DeleteChannel`. -/
def sqStep (db : SqDb) : PdOp → SqDb × Option Nat
  | .storeUser now r => sqStoreUser db now r
  | .deleteUser id => sqCommit db (sqDeleteUser db id) 0
  | .storeNetwork user r => sqStoreNetwork db user r
  | .deleteNetwork id => sqCommit db (sqDeleteNetwork db id) 0
  | .storeChannel network c => sqStoreChannel db network c
  | .deleteChannel id => ({ db with channels := dbDeleteChannel db.channels id }, some 0)
  | .storeReceipts network client rs => sqStoreReceipts db network client rs
  | .storeRead network r => sqStoreRead db network r
  | .storeSub now user network s => sqStoreSub db now user network s
  | .deleteSub id => (sqDeleteSub db id, some 0)
  | .storeConfig c => sqStoreConfig db c

/-- A sequence of calls on an empty database, with their results. -/
def sqRun (ops : List PdOp) : SqDb × List (PdOp × Option Nat) :=
  ops.foldl (fun st op => ((sqStep st.1 op).1, st.2 ++ [(op, (sqStep st.1 op).2)])) ({}, [])

end Verif.Model
