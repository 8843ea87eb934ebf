import Verif.Model.Db

/-! # Model of the account tables of a PostgreSQL database

database/postgres.go:255-798 and database/postgres_schema.sql:1-88.  A table is a list of rows in the order of
insertion (SQL promises no order for queries without ORDER BY: the theorems are up to the order).  Parameters: `ok n`,
the texts a VARCHAR(n) column accepts (`ok 0`: TEXT); `tm`, what is read back of an instant that was written to a
`TIMESTAMP WITH TIME ZONE` column.  Each call is one step.  Columns are checked also when an UPDATE finds no row, and
an INSERT that fails takes a value of the sequence.  Overflows of INTEGER columns are not modelled. -/

namespace Verif.Model

/-- database/database.go:90-100 — `User`; the zero time is 0. -/
structure PdUserRec where
  id : Nat := 0
  username : Str
  password : Str := []
  nick : Str := []
  realname : Str := []
  admin : Bool := false
  enabled : Bool := true
  interactedAt : Int := 0
  maxNetworks : Int := -1
deriving DecidableEq, Repr

/-- database/postgres_schema.sql:1-12 — a row of "User"; instants as they are read back. -/
structure PdUserRow where
  id : Nat
  username : Str
  password : Option Str
  admin : Bool
  nick : Option Str
  realname : Option Str
  createdAt : Int
  enabled : Bool
  interactedAt : Option Int
  maxNetworks : Int
deriving DecidableEq, Repr

/-- database/database.go:258-263 — `DeliveryReceipt`. -/
structure PdReceipt where
  id : Nat := 0
  target : Str
  client : Str := []
  msgID : Str
deriving DecidableEq, Repr

/-- database/postgres_schema.sql:52-59 — a row of "DeliveryReceipt". -/
structure PdReceiptRow where
  id : Nat
  network : Nat
  target : Str
  client : Str
  msgID : Str
deriving DecidableEq, Repr

/-- database/database.go:265-269 — `ReadReceipt`. -/
structure PdRead where
  id : Nat := 0
  target : Str
  timestamp : Int
deriving DecidableEq, Repr

/-- database/postgres_schema.sql:61-67 — a row of "ReadReceipt". -/
structure PdReadRow where
  id : Nat
  network : Nat
  target : Str
  timestamp : Int
deriving DecidableEq, Repr

/-- database/database.go:278-288 — `WebPushSubscription`. -/
structure PdSub where
  id : Nat := 0
  endpoint : Str
  createdAt : Int := 0
  updatedAt : Int := 0
  auth : Str
  p256dh : Str
  vapid : Str
deriving DecidableEq, Repr

/-- database/postgres_schema.sql:77-88 — a row of "WebPushSubscription"; the key columns are never NULL. -/
structure PdSubRow where
  id : Nat
  createdAt : Int
  updatedAt : Int
  user : Nat
  network : Option Nat
  endpoint : Str
  vapid : Str
  auth : Str
  p256dh : Str
deriving DecidableEq, Repr

/-- database/database.go:271-276 — `WebPushConfig`, and database/postgres_schema.sql:69-75, a row of "WebPushConfig"
without the time of creation, which is never read. -/
structure PdConfig where
  id : Nat := 0
  pub : Str
  priv : Str
deriving DecidableEq, Repr

/-- The tables, and the next values of their sequences. -/
structure PdDb where
  users : List PdUserRow := []
  networks : List NetworkRow := []
  channels : List ChannelRow := []
  receipts : List PdReceiptRow := []
  reads : List PdReadRow := []
  subs : List PdSubRow := []
  configs : List PdConfig := []
  seqU : Nat := 1
  seqN : Nat := 1
  seqC : Nat := 1
  seqD : Nat := 1
  seqR : Nat := 1
  seqS : Nat := 1
  seqW : Nat := 1
deriving DecidableEq, Repr

/-- A value that may be NULL is accepted by a VARCHAR(n) column. -/
def pdOk (ok : Nat → Str → Bool) (n : Nat) : Option Str → Bool
  | none => true
  | some s => ok n s

/-- database/database.go:294-299 — `toNullTime`, with what is read back. -/
def pdTime (tm : Int → Int) (t : Int) : Option Int := if t = 0 then none else some (tm t)

/-- database/postgres.go:343-346 — the columns `StoreUser` writes. -/
def pdUserColumns (tm : Int → Int) (now : Int) (r : PdUserRec) : PdUserRow :=
  { id := r.id, username := r.username, password := toNull r.password, admin := r.admin, nick := toNull r.nick,
    realname := toNull r.realname, createdAt := now, enabled := r.enabled, interactedAt := pdTime tm r.interactedAt,
    maxNetworks := r.maxNetworks }

/-- database/postgres_schema.sql:4-7 — the columns of a user are accepted, without the name. -/
def pdUserOk (ok : Nat → Str → Bool) (r : PdUserRow) : Bool :=
  pdOk ok 255 r.password && pdOk ok 255 r.nick && pdOk ok 255 r.realname

/-- database/postgres.go:339-365 — `StoreUser`: the identifier, or `none` for an error. -/
def pdStoreUser (ok : Nat → Str → Bool) (tm : Int → Int) (db : PdDb) (now : Int) (r : PdUserRec) : PdDb × Option Nat :=
  let row := pdUserColumns tm now r
  if r.id = 0 then
    if ok 255 row.username && pdUserOk ok row && !(db.users.any (fun o => decide (o.username = r.username))) then
      ({ db with
          users := db.users ++ [{ row with id := db.seqU }]
          seqU := db.seqU + 1 }, some db.seqU)
    else ({ db with seqU := db.seqU + 1 }, none)
  else if pdUserOk ok row then
    ({ db with users := db.users.map (fun o => if o.id = r.id then
        { row with id := o.id, username := o.username, createdAt := o.createdAt } else o) }, some r.id)
  else (db, none)

/-- database/postgres.go:275-278 — a row of `ListUsers`. -/
def pdUserOf (r : PdUserRow) : PdUserRec :=
  { id := r.id, username := r.username, password := r.password.getD [], nick := r.nick.getD [],
    realname := r.realname.getD [], admin := r.admin, enabled := r.enabled, interactedAt := r.interactedAt.getD 0,
    maxNetworks := r.maxNetworks }

/-- database/postgres.go:255-287 — `ListUsers`. -/
def pdListUsers (db : PdDb) : List PdUserRec := db.users.map pdUserOf

/-- database/postgres.go:289-310 — `GetUser`: the first row, an error if there is none. -/
def pdGetUser (db : PdDb) (username : Str) : Option PdUserRec :=
  ((db.users.filter (fun o => decide (o.username = username))).head?).map (fun r => { pdUserOf r with username := username })

/-- database/postgres.go:312-337 — `ListInactiveUsernames`. -/
def pdListInactive (tm : Int → Int) (db : PdDb) (limit : Int) : List Str :=
  (db.users.filter (fun o => decide (o.interactedAt.getD o.createdAt < tm limit))).map (·.username)

/-- database/postgres.go:427-452 — the columns `StoreNetwork` writes; `none` for an unsupported mechanism. -/
def pdNetColumns (user : Nat) (r : NetRec) : Option NetworkRow :=
  let row (mechanism plainUsername plainPassword : Option Str) (cert key : Str) : NetworkRow :=
    { id := r.id, user := user, name := toNull r.name, addr := r.addr, nick := toNull r.nick,
      username := toNull r.username, realname := toNull r.realname, certfp := toNull r.certFP, pass := toNull r.pass,
      connectCommands := toNull (joinStr [13, 10] r.connectCommands), saslMechanism := mechanism,
      saslPlainUsername := plainUsername, saslPlainPassword := plainPassword, saslCert := cert, saslKey := key,
      autoAway := r.autoAway, enabled := r.enabled }
  if r.sasl.mechanism ≠ [] then
    if r.sasl.mechanism = b!"PLAIN" then
      some (row (toNull r.sasl.mechanism) (toNull r.sasl.plainUsername) (toNull r.sasl.plainPassword) [] [])
    else if r.sasl.mechanism = b!"EXTERNAL" then
      some (row (toNull r.sasl.mechanism) none none r.sasl.certBlob r.sasl.privKeyBlob)
    else none
  else some (row none none none r.sasl.certBlob r.sasl.privKeyBlob)

/-- database/postgres_schema.sql:16-36 — the columns of a network are accepted. -/
def pdNetOk (ok : Nat → Str → Bool) (r : NetworkRow) : Bool :=
  pdOk ok 255 r.name && ok 255 r.addr && pdOk ok 255 r.nick && pdOk ok 255 r.username && pdOk ok 255 r.realname &&
  pdOk ok 0 r.certfp && pdOk ok 255 r.pass && pdOk ok 1023 r.connectCommands && pdOk ok 255 r.saslPlainUsername &&
  pdOk ok 255 r.saslPlainPassword

/-- database/postgres.go:423-475 — `StoreNetwork`. -/
def pdStoreNetwork (ok : Nat → Str → Bool) (db : PdDb) (user : Nat) (r : NetRec) : PdDb × Option Nat :=
  match pdNetColumns user r with
  | none => (db, none)
  | some row =>
    if r.id = 0 then
      let rows := db.networks ++ [{ row with id := db.seqN }]
      if pdNetOk ok row && db.users.any (fun u => decide (u.id = user)) && networkUnique rows then
        ({ db with
            networks := rows
            seqN := db.seqN + 1 }, some db.seqN)
      else ({ db with seqN := db.seqN + 1 }, none)
    else
      let rows := db.networks.map (fun o => if o.id = r.id then { row with id := o.id, user := o.user } else o)
      if pdNetOk ok row && networkUnique rows then ({ db with networks := rows }, some r.id) else (db, none)

/-- database/postgres.go:396-415 — a row of `ListNetworks`. -/
def pdNetOf (row : NetworkRow) : NetRec :=
  { id := row.id, name := row.name.getD [], addr := row.addr, nick := row.nick.getD [],
    username := row.username.getD [], realname := row.realname.getD [], pass := row.pass.getD [],
    connectCommands := (match row.connectCommands with | none => [] | some s => splitCRLF s),
    certFP := row.certfp.getD [],
    sasl := ⟨row.saslMechanism.getD [], row.saslPlainUsername.getD [], row.saslPlainPassword.getD [],
      row.saslCert, row.saslKey⟩,
    autoAway := row.autoAway, enabled := row.enabled }

/-- database/postgres.go:377-421 — `ListNetworks`. -/
def pdListNetworks (db : PdDb) (user : Nat) : List NetRec :=
  (db.networks.filter (fun r => decide (r.user = user))).map pdNetOf

/-- The network columns of the rows that refer to networks: a network disappears (`ON DELETE CASCADE`,
postgres_schema.sql:40,54,63,82). -/
def pdDropNetworks (db : PdDb) (gone : NetworkRow → Bool) : PdDb :=
  let ids := (db.networks.filter gone).map (·.id)
  { db with
    networks := db.networks.filter (fun n => !gone n)
    channels := db.channels.filter (fun c => !ids.contains c.network)
    receipts := db.receipts.filter (fun c => !ids.contains c.network)
    reads := db.reads.filter (fun c => !ids.contains c.network)
    subs := db.subs.filter (fun s => match s.network with | none => true | some n => !ids.contains n) }

/-- database/postgres.go:477-483 — `DeleteNetwork`. -/
def pdDeleteNetwork (db : PdDb) (id : Nat) : PdDb := pdDropNetworks db (fun n => decide (n.id = id))

/-- database/postgres.go:367-375 — `DeleteUser`; the networks and the subscriptions of the user are deleted with it. -/
def pdDeleteUser (db : PdDb) (id : Nat) : PdDb :=
  let db := pdDropNetworks db (fun n => decide (n.user = id))
  { db with
    users := db.users.filter (fun u => decide (u.id ≠ id))
    subs := db.subs.filter (fun s => decide (s.user ≠ id)) }

/-- database/postgres.go:523-524 — the columns `StoreChannel` writes.  The rounding up is on integers (the code goes
through floating point numbers). -/
def pdChanColumns (network : Nat) (c : ChanRec) : ChannelRow :=
  ⟨c.id, network, c.name, toNull c.key, c.detached, toNull c.detachedMsgID, c.relayDetached, c.reattachOn,
    (c.detachAfter + 999999999) / 1000000000, c.detachOn⟩

/-- database/postgres_schema.sql:38-50 — the columns of a channel are accepted. -/
def pdChanOk (ok : Nat → Str → Bool) (r : ChannelRow) : Bool :=
  ok 255 r.name && pdOk ok 255 r.key && pdOk ok 255 r.detachedMsgID

/-- database/postgres.go:519-545 — `StoreChannel`. -/
def pdStoreChannel (ok : Nat → Str → Bool) (db : PdDb) (network : Nat) (c : ChanRec) : PdDb × Option Nat :=
  let row := pdChanColumns network c
  if c.id = 0 then
    let rows := db.channels ++ [{ row with id := db.seqC }]
    if pdChanOk ok row && db.networks.any (fun n => decide (n.id = network)) && channelUnique rows then
      ({ db with
          channels := rows
          seqC := db.seqC + 1 }, some db.seqC)
    else ({ db with seqC := db.seqC + 1 }, none)
  else
    let rows := db.channels.map (fun o => if o.id = c.id then { row with id := o.id, network := o.network } else o)
    if pdChanOk ok row && channelUnique rows then ({ db with channels := rows }, some c.id) else (db, none)

/-- database/postgres.go:500-510 — a row of `ListChannels`. -/
def pdChanOf (r : ChannelRow) : ChanRec :=
  ⟨r.id, r.name, r.key.getD [], r.detached, r.detachedMsgID.getD [], r.relayDetached, r.reattachOn,
    r.detachAfter * 1000000000, r.detachOn⟩

/-- database/postgres.go:485-517 — `ListChannels`. -/
def pdListChannels (db : PdDb) (network : Nat) : List ChanRec :=
  (db.channels.filter (fun r => decide (r.network = network))).map pdChanOf

/-- database/postgres.go:547-553 — `DeleteChannel`. -/
def pdDeleteChannel (db : PdDb) (id : Nat) : PdDb :=
  { db with channels := db.channels.filter (fun r => decide (r.id ≠ id)) }

/-- database/postgres.go:608-616 — the loop of `StoreClientDeliveryReceipts`: the rows, `none` as soon as one violates
the uniqueness constraint or is not accepted, and the value of the sequence. -/
def pdInsertReceipts (ok : Nat → Str → Bool) (network : Nat) (client : Str) :
    List PdReceiptRow → Nat → List PdReceipt → Nat × Option (List PdReceiptRow)
  | rows, seq, [] => (seq, some rows)
  | rows, seq, r :: rs =>
    if ok 255 r.target && ok 255 client && ok 255 r.msgID &&
        !(rows.any (fun o => decide (o.network = network ∧ o.target = r.target ∧ o.client = client))) then
      pdInsertReceipts ok network client (rows ++ [⟨seq, network, r.target, client, r.msgID⟩]) (seq + 1) rs
    else (seq + 1, none)

/-- database/postgres.go:583-620 — `StoreClientDeliveryReceipts`; the identifiers are those taken from the sequence.
The text of the client's name is checked by the first statement (it can be of any length there). -/
def pdStoreReceipts (ok : Nat → Str → Bool) (db : PdDb) (network : Nat) (client : Str) (rs : List PdReceipt) :
    PdDb × Option Nat :=
  let rest := db.receipts.filter (fun o => !(decide (o.network = network) && decide (o.client = client)))
  if !(ok 0 client) then (db, none)
  else if rs ≠ [] && !(db.networks.any (fun n => decide (n.id = network))) then ({ db with seqD := db.seqD + 1 }, none)
  else match pdInsertReceipts ok network client rest db.seqD rs with
    | (seq, some rows) => ({ db with
        receipts := rows
        seqD := seq }, some 0)
    | (seq, none) => ({ db with seqD := seq }, none)

/-- database/postgres.go:555-581 — `ListDeliveryReceipts`. -/
def pdListReceipts (db : PdDb) (network : Nat) : List PdReceipt :=
  (db.receipts.filter (fun r => decide (r.network = network))).map (fun r => ⟨r.id, r.target, r.client, r.msgID⟩)

/-- database/postgres.go:642-661 — `StoreReadReceipt`. -/
def pdStoreRead (ok : Nat → Str → Bool) (tm : Int → Int) (db : PdDb) (network : Nat) (r : PdRead) : PdDb × Option Nat :=
  if r.id ≠ 0 then
    ({ db with reads := db.reads.map (fun o => if o.id = r.id then { o with timestamp := tm r.timestamp } else o) }, some r.id)
  else if ok 255 r.target && db.networks.any (fun n => decide (n.id = network)) &&
      !(db.reads.any (fun o => decide (o.network = network ∧ o.target = r.target))) then
    ({ db with
        reads := db.reads ++ [⟨db.seqR, network, r.target, tm r.timestamp⟩]
        seqR := db.seqR + 1 }, some db.seqR)
  else ({ db with seqR := db.seqR + 1 }, none)

/-- database/postgres.go:622-640 — `GetReadReceipt`. -/
def pdGetRead (db : PdDb) (network : Nat) (name : Str) : Option PdRead :=
  ((db.reads.filter (fun o => decide (o.network = network ∧ o.target = name))).head?).map
    (fun o => ⟨o.id, name, o.timestamp⟩)

/-- database/postgres_schema.sql:82 — the network a subscription refers to exists, if there is one. -/
def pdNetThere (db : PdDb) : Option Nat → Bool
  | none => true
  | some n => db.networks.any (fun x => decide (x.id = n))

/-- database/postgres_schema.sql:87 — there is a subscription with the network and the endpoint; NULLs are distinct. -/
def pdSubTaken (db : PdDb) (net : Option Nat) (endpoint : Str) : Bool :=
  db.subs.any (fun o => decide (o.network = net) && o.network.isSome && decide (o.endpoint = endpoint))

/-- database/postgres.go:763-790 — `StoreWebPushSubscription`. -/
def pdStoreSub (ok : Nat → Str → Bool) (db : PdDb) (now : Int) (user network : Nat) (s : PdSub) : PdDb × Option Nat :=
  let net := if network ≠ 0 then some network else none
  if s.id ≠ 0 then
    if ok 0 s.auth && ok 0 s.p256dh && ok 0 s.vapid then
      ({ db with subs := db.subs.map (fun o => if o.id = s.id then
          { o with updatedAt := now, auth := s.auth, p256dh := s.p256dh, vapid := s.vapid } else o) }, some s.id)
    else (db, none)
  else if ok 0 s.endpoint && ok 0 s.auth && ok 0 s.p256dh && ok 0 s.vapid &&
      db.users.any (fun u => decide (u.id = user)) &&
      pdNetThere db net && !(pdSubTaken db net s.endpoint) then
    ({ db with
        subs := db.subs ++ [⟨db.seqS, now, now, user, net, s.endpoint, s.vapid, s.auth, s.p256dh⟩]
        seqS := db.seqS + 1 }, some db.seqS)
  else ({ db with seqS := db.seqS + 1 }, none)

/-- database/postgres.go:733-761 — `ListWebPushSubscriptions`. -/
def pdListSubs (db : PdDb) (user network : Nat) : List PdSub :=
  let net := if network ≠ 0 then some network else none
  (db.subs.filter (fun s => decide (s.user = user) && decide (s.network = net))).map
    (fun s => ⟨s.id, s.endpoint, s.createdAt, s.updatedAt, s.auth, s.p256dh, s.vapid⟩)

/-- database/postgres.go:792-798 — `DeleteWebPushSubscription`. -/
def pdDeleteSub (db : PdDb) (id : Nat) : PdDb := { db with subs := db.subs.filter (fun s => decide (s.id ≠ id)) }

/-- database/postgres.go:717-731 — `StoreWebPushConfig`. -/
def pdStoreConfig (ok : Nat → Str → Bool) (db : PdDb) (c : PdConfig) : PdDb × Option Nat :=
  if c.id ≠ 0 then (db, none)
  else if ok 0 c.pub && ok 0 c.priv && !(db.configs.any (fun o => decide (o.pub = c.pub))) then
    ({ db with
        configs := db.configs ++ [{ c with id := db.seqW }]
        seqW := db.seqW + 1 }, some db.seqW)
  else ({ db with seqW := db.seqW + 1 }, none)

/-- database/postgres.go:693-715 — `ListWebPushConfigs`. -/
def pdListConfigs (db : PdDb) : List PdConfig := db.configs

/-- The calls that change the tables; `now` is the clock of the database. -/
inductive PdOp where
  | storeUser (now : Int) (r : PdUserRec)
  | deleteUser (id : Nat)
  | storeNetwork (user : Nat) (r : NetRec)
  | deleteNetwork (id : Nat)
  | storeChannel (network : Nat) (c : ChanRec)
  | deleteChannel (id : Nat)
  | storeReceipts (network : Nat) (client : Str) (rs : List PdReceipt)
  | storeRead (network : Nat) (r : PdRead)
  | storeSub (now : Int) (user network : Nat) (s : PdSub)
  | deleteSub (id : Nat)
  | storeConfig (c : PdConfig)
deriving DecidableEq, Repr

/-- One call: the tables afterwards, and the identifier it gives (0 if it gives none), `none` for an error. -/
def pdStep (ok : Nat → Str → Bool) (tm : Int → Int) (db : PdDb) : PdOp → PdDb × Option Nat
  | .storeUser now r => pdStoreUser ok tm db now r
  | .deleteUser id => (pdDeleteUser db id, some 0)
  | .storeNetwork user r => pdStoreNetwork ok db user r
  | .deleteNetwork id => (pdDeleteNetwork db id, some 0)
  | .storeChannel network c => pdStoreChannel ok db network c
  | .deleteChannel id => (pdDeleteChannel db id, some 0)
  | .storeReceipts network client rs => pdStoreReceipts ok db network client rs
  | .storeRead network r => pdStoreRead ok tm db network r
  | .storeSub now user network s => pdStoreSub ok db now user network s
  | .deleteSub id => (pdDeleteSub db id, some 0)
  | .storeConfig c => pdStoreConfig ok db c

/-- A sequence of calls on an empty database, with their results. -/
def pdRun (ok : Nat → Str → Bool) (tm : Int → Int) (ops : List PdOp) : PdDb × List (PdOp × Option Nat) :=
  ops.foldl (fun st op => ((pdStep ok tm st.1 op).1, st.2 ++ [(op, (pdStep ok tm st.1 op).2)])) ({}, [])

end Verif.Model
