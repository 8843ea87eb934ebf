import Verif.Model.GoMap

/-! # Model of the upgrade of the database

database/sqlite.go:61-323, database/sqlite_schema.sql, database/postgres.go:21-227,
database/postgres_schema.sql. A database is a list of tables; the statements are those the migrations use, with
the meaning the documentation of SQLite and PostgreSQL gives them. Left out: the types of the columns (but for
the enumeration of PostgreSQL), indexes, the index for full-text search and its triggers. -/

namespace Verif.Model

/-- A value in a table. -/
inductive SqlVal
  | null
  | int (i : Int)
  | text (s : Str)
deriving DecidableEq, Repr

/-- A row: the values by column. -/
abbrev SqlRow := List (Str × SqlVal)

/-- The value of a row in a column. -/
def sqlVal (r : SqlRow) (c : Str) : SqlVal := (GoMap.get r c).getD .null

/-- A column. -/
structure SqlCol where
  name : Str
  notNull : Bool := false
  dflt : SqlVal := .null
  ref : Option Str := none
deriving DecidableEq, Repr

/-- A table. -/
structure SqlTable where
  name : Str
  cols : List SqlCol
  uniques : List (List Str)
  rows : List SqlRow
deriving DecidableEq, Repr

abbrev SqlDb := List SqlTable

/-- What the existing rows get in a new column: the default; the time of the migration (sqlite.go:201-206,
postgres.go:89); the owner of the network of the row (sqlite.go:194-197). -/
inductive SqlFill
  | dflt
  | now
  | owner
deriving DecidableEq, Repr

/-- The statements of the migrations. A column that is added and then filled in the same migration is one
statement, and so are the four statements with which SQLite gives a table new columns (create, copy, drop,
rename): `rebuild` takes `id` from `idFrom`, and with `byName` the column `user` holds user names that become
user identifiers (sqlite.go:102-108). -/
inductive SqlStmt
  | create (name : Str) (cols : List SqlCol) (uniques : List (List Str))
  | addColumn (table : Str) (col : SqlCol) (fill : SqlFill)
  | rebuild (table : Str) (cols : List SqlCol) (uniques : List (List Str)) (idFrom : Str) (byName : Bool)
  | dropNotNull (table col : Str)
  | setNotNull (table col : Str)
  | setEnum (table col : Str) (vals : List Str)
  | deleteAll (table : Str)
deriving DecidableEq, Repr

def hasTable (db : SqlDb) (t : Str) : Bool := db.any (fun tb => tb.name = t)

def tableHasCol (tb : SqlTable) (c : Str) : Bool := tb.cols.any (fun col => col.name = c)

def hasCol (db : SqlDb) (t c : Str) : Bool := db.any (fun tb => decide (tb.name = t) && tableHasCol tb c)

/-- The rows of a table. -/
def rowsOf (db : SqlDb) (t : Str) : List SqlRow :=
  match db.find? (fun tb => tb.name = t) with
  | none => []
  | some tb => tb.rows

/-- sqlite.go:196 — `(SELECT n.user FROM Network AS n WHERE n.id = wps.network)`; without result, NULL. Nothing
equals NULL. -/
def ownerOf (db : SqlDb) (r : SqlRow) : SqlVal :=
  match (rowsOf db b!"Network").find?
      (fun n => decide (sqlVal n b!"id" = sqlVal r b!"network") && decide (sqlVal r b!"network" ≠ .null)) with
  | none => .null
  | some n => sqlVal n b!"user"

def fillVal (now : Str) (db : SqlDb) (col : SqlCol) (r : SqlRow) : SqlFill → SqlVal
  | .dflt => col.dflt
  | .now => .text now
  | .owner => ownerOf db r

/-- Two rows conflict in a UNIQUE constraint: same values, none of them NULL. -/
def conflict (cs : List Str) (r r' : SqlRow) : Bool :=
  cs.all (fun c => decide (sqlVal r c = sqlVal r' c) && decide (sqlVal r c ≠ .null))

def uniqueOk (cs : List Str) : List SqlRow → Bool
  | [] => true
  | r :: rs => !rs.any (conflict cs r) && uniqueOk cs rs

/-- The constraints of a table hold for its rows. -/
def constraintsOk (fk : Bool) (db : SqlDb) (tb : SqlTable) : Bool :=
  tb.rows.all (fun r => tb.cols.all (fun c =>
    (!c.notNull || decide (sqlVal r c.name ≠ .null)) &&
    (!fk || match c.ref with
      | none => true
      | some t => decide (sqlVal r c.name = .null) ||
          (rowsOf db t).any (fun p => decide (sqlVal p b!"id" = sqlVal r c.name))))) &&
  tb.uniques.all (fun cs => uniqueOk cs tb.rows)

/-- Dropping a table first deletes its rows, which fails if a row of another table refers to one of them
(https://www.sqlite.org/lang_droptable.html); sqlite_mattn.go:14 and sqlite_modernc.go:12 enable foreign keys. -/
def referenced (db : SqlDb) (t : Str) : Bool :=
  db.any (fun tb => tb.cols.any (fun c => decide (c.ref = some t) && tb.rows.any (fun r =>
    decide (sqlVal r c.name ≠ .null) &&
    (rowsOf db t).any (fun p => decide (sqlVal p b!"id" = sqlVal r c.name)))))

/-- The rows a row becomes when its table is rebuilt. -/
def rebuildRow (db : SqlDb) (cols : List SqlCol) (idFrom : Str) (byName : Bool) (r : SqlRow) : List SqlRow :=
  let copy (owner : SqlVal) : SqlRow := cols.map (fun c => (c.name,
    if c.name = b!"id" then sqlVal r idFrom
    else if byName ∧ c.name = b!"user" then owner
    else sqlVal r c.name))
  if byName then
    ((rowsOf db b!"User").filter (fun u =>
        decide (sqlVal r b!"user" = sqlVal u b!"username") && decide (sqlVal r b!"user" ≠ .null))).map
      (fun u => copy (sqlVal u b!"id"))
  else [copy .null]

def onTable (db : SqlDb) (t : Str) (f : SqlTable → SqlTable) : SqlDb :=
  db.map (fun tb => if tb.name = t then f tb else tb)

/-- Execute a statement; `none`: it fails. `fk`: foreign keys are checked. -/
def sqlExec (fk : Bool) (now : Str) (db : SqlDb) : SqlStmt → Option SqlDb
  | .create name cols uniques =>
    if hasTable db name then none else some (db ++ [⟨name, cols, uniques, []⟩])
  | .addColumn t col fill =>
    if hasTable db t && !hasCol db t col.name && (!col.notNull || decide (col.dflt ≠ .null)) then
      some (onTable db t (fun tb => { tb with
        cols := tb.cols ++ [col]
        rows := tb.rows.map (fun r => (col.name, fillVal now db col r fill) :: r) }))
    else none
  | .rebuild t cols uniques idFrom byName =>
    let rows := (rowsOf db t).flatMap (rebuildRow db cols idFrom byName)
    if hasTable db t && constraintsOk fk db ⟨t, cols, uniques, rows⟩ && !(fk && referenced db t) then
      some (onTable db t (fun _ => ⟨t, cols, uniques, rows⟩))
    else none
  | .dropNotNull t c =>
    if hasCol db t c then
      some (onTable db t (fun tb => { tb with
        cols := tb.cols.map (fun col => if col.name = c then { col with notNull := false } else col) }))
    else none
  | .setNotNull t c =>
    if hasCol db t c && (rowsOf db t).all (fun r => decide (sqlVal r c ≠ .null)) then
      some (onTable db t (fun tb => { tb with
        cols := tb.cols.map (fun col => if col.name = c then { col with notNull := true } else col) }))
    else none
  | .setEnum t c vals =>
    if hasCol db t c && (rowsOf db t).all (fun r =>
        decide (sqlVal r c = .null) || vals.any (fun v => decide (sqlVal r c = .text v))) then some db
    else none
  | .deleteAll t =>
    if hasTable db t then some (onTable db t (fun tb => { tb with rows := [] })) else none

def sqlExecAll (fk : Bool) (now : Str) : SqlDb → List SqlStmt → Option SqlDb
  | db, [] => some db
  | db, s :: ss =>
    match sqlExec fk now db s with
    | none => none
    | some db' => sqlExecAll fk now db' ss

/-- The statements a version of soju comes with. -/
structure SqlProgram where
  fk : Bool
  schema : List SqlStmt
  migrations : List (List SqlStmt)

/-- A database file. -/
structure SqlStore where
  version : Nat
  db : SqlDb
deriving DecidableEq, Repr

/-- sqlite.go:302-321, postgres.go:209-226 — the transaction, given the version that was read; `none`: it is
rolled back. -/
def upgradeTx (p : SqlProgram) (now : Str) (version : Nat) (st : SqlStore) : Option SqlStore :=
  (sqlExecAll p.fk now st.db (if version = 0 then p.schema else (p.migrations.drop version).flatten)).map
    (fun db => ⟨p.migrations.length, db⟩)

/-- Outcomes of opening a database. -/
inductive UpgradeResult
  | ok
  | error
deriving DecidableEq, Repr

/-- sqlite.go:285-323, postgres.go:183-227 — `upgrade`. -/
def dbUpgrade (p : SqlProgram) (now : Str) (st : SqlStore) : SqlStore × UpgradeResult :=
  if st.version = p.migrations.length then (st, .ok)
  else if st.version > p.migrations.length then (st, .error)
  else match upgradeTx p now st.version st with
    | none => (st, .error)
    | some st' => (st', .ok)

/-- Several processes open the same database. The version is read before the transaction that upgrades it
has its locks, so that another process may have done its upgrade in between. -/
inductive UpgradeOp
  /-- a process reads the version -/
  | read (proc : Nat)
  /-- a process that has read the version executes its transaction; with `fault`, it crashes before the commit -/
  | run (proc : Nat) (now : Str) (fault : Bool)
deriving DecidableEq, Repr

structure UpgradeState where
  store : SqlStore
  seen : GoMap Nat Nat

def upgradeStep (p : SqlProgram) (st : UpgradeState) : UpgradeOp → UpgradeState
  | .read proc => { st with seen := st.seen.set proc st.store.version }
  | .run proc now fault =>
    match st.seen.get proc with
    | none => st
    | some v =>
      if fault ∨ v ≥ p.migrations.length then { st with seen := st.seen.del proc }
      else match upgradeTx p now v st.store with
        | none => { st with seen := st.seen.del proc }
        | some s => ⟨s, st.seen.del proc⟩

def upgradeRun (p : SqlProgram) (st : UpgradeState) (ops : List UpgradeOp) : UpgradeState :=
  ops.foldl (upgradeStep p) st

/-! ## SQLite -/

private def col (n : Str) : SqlCol := { name := n }
private def colN (n : Str) : SqlCol := { name := n, notNull := true }
private def colI (n : Str) (i : Int) : SqlCol := { name := n, notNull := true, dflt := .int i }
private def colR (n t : Str) : SqlCol := { name := n, notNull := true, ref := some t }

/-- sqlite.go:71-81: the table `User` with identifiers. -/
def sqliteUser6 : SqlStmt :=
  .rebuild b!"User" [col b!"id", colN b!"username", col b!"password", colI b!"admin" 0]
    [[b!"id"], [b!"username"]] b!"rowid" false

/-- sqlite.go:82-111: the owner of a network by identifier. -/
def sqliteNetwork7 : SqlStmt :=
  .rebuild b!"Network" [col b!"id", col b!"name", colR b!"user" b!"User", colN b!"addr", colN b!"nick",
    col b!"username", col b!"realname", col b!"pass", col b!"connect_commands", col b!"sasl_mechanism",
    col b!"sasl_plain_username", col b!"sasl_plain_password", col b!"sasl_external_cert", col b!"sasl_external_key"]
    [[b!"id"], [b!"user", b!"addr", b!"nick"], [b!"user", b!"name"]] b!"id" true

/-- sqlite.go:132-161: the nick of a network may be NULL. -/
def sqliteNetwork13 : SqlStmt :=
  .rebuild b!"Network" [col b!"id", col b!"name", colR b!"user" b!"User", colN b!"addr", col b!"nick",
    col b!"username", col b!"realname", col b!"pass", col b!"connect_commands", col b!"sasl_mechanism",
    col b!"sasl_plain_username", col b!"sasl_plain_password", col b!"sasl_external_cert", col b!"sasl_external_key",
    colI b!"enabled" 1]
    [[b!"id"], [b!"user", b!"addr", b!"nick"], [b!"user", b!"name"]] b!"id" false

/-- sqlite.go:209-227 and sqlite_schema.sql:94-111, without the index for full-text search. -/
def sqliteMessages : List SqlStmt :=
  [.create b!"Message" [col b!"id", colR b!"target" b!"MessageTarget", colN b!"raw", colN b!"time", colN b!"sender",
      col b!"text"] [[b!"id"]],
   .create b!"MessageTarget" [col b!"id", colR b!"network" b!"Network", colN b!"target"]
      [[b!"id"], [b!"network", b!"target"]]]

/-- sqlite.go:64-246 — `sqliteMigrations`. -/
def sqliteMigrations : List (List SqlStmt) :=
  [[],
   [.addColumn b!"Network" (col b!"connect_commands") .dflt],
   [.addColumn b!"Channel" (colI b!"detached" 0) .dflt],
   [.addColumn b!"Network" (col b!"sasl_external_cert") .dflt],
   [.addColumn b!"Network" (col b!"sasl_external_key") .dflt],
   [.addColumn b!"User" (colI b!"admin" 0) .dflt],
   [sqliteUser6],
   [sqliteNetwork7],
   [.addColumn b!"Channel" (colI b!"relay_detached" 0) .dflt, .addColumn b!"Channel" (colI b!"reattach_on" 0) .dflt,
    .addColumn b!"Channel" (colI b!"detach_after" 0) .dflt, .addColumn b!"Channel" (colI b!"detach_on" 0) .dflt],
   [.create b!"DeliveryReceipt" [col b!"id", colR b!"network" b!"Network", colN b!"target", col b!"client",
      colN b!"internal_msgid"] [[b!"id"], [b!"network", b!"target", b!"client"]]],
   [.addColumn b!"Channel" (col b!"detached_internal_msgid") .dflt],
   [.addColumn b!"Network" (colI b!"enabled" 1) .dflt],
   [.addColumn b!"User" (col b!"realname") .dflt],
   [sqliteNetwork13],
   [.create b!"ReadReceipt" [col b!"id", colR b!"network" b!"Network", colN b!"target", colN b!"timestamp"]
      [[b!"id"], [b!"network", b!"target"]]],
   [.create b!"WebPushConfig" [col b!"id", colN b!"created_at", colN b!"vapid_key_public", colN b!"vapid_key_private"]
      [[b!"id"], [b!"vapid_key_public"]],
    .create b!"WebPushSubscription" [col b!"id", colN b!"created_at", colN b!"updated_at",
      { name := b!"network", ref := some b!"Network" }, colN b!"endpoint", col b!"key_vapid", col b!"key_auth",
      col b!"key_p256dh"] [[b!"id"], [b!"network", b!"endpoint"]]],
   [.addColumn b!"WebPushSubscription" { name := b!"user", ref := some b!"User" } .owner],
   [.addColumn b!"User" (col b!"nick") .dflt],
   [.addColumn b!"Network" (colI b!"auto_away" 1) .dflt],
   [.addColumn b!"Network" (col b!"certfp") .dflt],
   [.addColumn b!"User" { name := b!"created_at", notNull := true, dflt := .text [] } .now],
   [.addColumn b!"User" (colI b!"enabled" 1) .dflt],
   [.addColumn b!"User" (col b!"downstream_interacted_at") .dflt],
   sqliteMessages,
   [.addColumn b!"User" (colI b!"max_networks" (-1)) .dflt]]

/-- database/sqlite_schema.sql. -/
def sqliteSchema : List SqlStmt :=
  [.create b!"User" [col b!"id", colN b!"username", col b!"password", colI b!"admin" 0, col b!"realname", col b!"nick",
      colN b!"created_at", colI b!"enabled" 1, col b!"downstream_interacted_at", colI b!"max_networks" (-1)]
      [[b!"id"], [b!"username"]],
   .create b!"Network" [col b!"id", col b!"name", colR b!"user" b!"User", colN b!"addr", col b!"nick", col b!"username",
      col b!"realname", col b!"certfp", col b!"pass", col b!"connect_commands", col b!"sasl_mechanism",
      col b!"sasl_plain_username", col b!"sasl_plain_password", col b!"sasl_external_cert", col b!"sasl_external_key",
      colI b!"auto_away" 1, colI b!"enabled" 1]
      [[b!"id"], [b!"user", b!"addr", b!"nick"], [b!"user", b!"name"]],
   .create b!"Channel" [col b!"id", colR b!"network" b!"Network", colN b!"name", col b!"key", colI b!"detached" 0,
      col b!"detached_internal_msgid", colI b!"relay_detached" 0, colI b!"reattach_on" 0, colI b!"detach_after" 0,
      colI b!"detach_on" 0] [[b!"id"], [b!"network", b!"name"]],
   .create b!"DeliveryReceipt" [col b!"id", colR b!"network" b!"Network", colN b!"target", col b!"client",
      colN b!"internal_msgid"] [[b!"id"], [b!"network", b!"target", b!"client"]],
   .create b!"ReadReceipt" [col b!"id", colR b!"network" b!"Network", colN b!"target", colN b!"timestamp"]
      [[b!"id"], [b!"network", b!"target"]],
   .create b!"WebPushConfig" [col b!"id", colN b!"created_at", colN b!"vapid_key_public", colN b!"vapid_key_private"]
      [[b!"id"], [b!"vapid_key_public"]],
   .create b!"WebPushSubscription" [col b!"id", colN b!"created_at", colN b!"updated_at", colR b!"user" b!"User",
      { name := b!"network", ref := some b!"Network" }, colN b!"endpoint", col b!"key_vapid", col b!"key_auth",
      col b!"key_p256dh"] [[b!"id"], [b!"network", b!"endpoint"]]] ++ sqliteMessages

/-- The options of sqlite_mattn.go:14 and sqlite_modernc.go:12 enable foreign keys. -/
def sqliteProgram : SqlProgram := ⟨true, sqliteSchema, sqliteMigrations⟩

/-! ## PostgreSQL -/

/-- postgres.go:33-117 — `postgresMigrations`. -/
def postgresMigrations : List (List SqlStmt) :=
  [[],
   [.dropNotNull b!"Network" b!"nick"],
   [.setEnum b!"Network" b!"sasl_mechanism" [b!"PLAIN", b!"EXTERNAL"]],
   [.create b!"ReadReceipt" [col b!"id", colR b!"network" b!"Network", colN b!"target", colN b!"timestamp"]
      [[b!"id"], [b!"network", b!"target"]]],
   [.create b!"WebPushConfig" [col b!"id", colN b!"created_at", colN b!"vapid_key_public", colN b!"vapid_key_private"]
      [[b!"id"], [b!"vapid_key_public"]],
    .create b!"WebPushSubscription" [col b!"id", colN b!"created_at", colN b!"updated_at",
      { name := b!"network", ref := some b!"Network" }, colN b!"endpoint", col b!"key_vapid", col b!"key_auth",
      col b!"key_p256dh"] [[b!"id"], [b!"network", b!"endpoint"]]],
   [.addColumn b!"WebPushSubscription" { name := b!"user", ref := some b!"User" } .dflt],
   [.addColumn b!"User" (col b!"nick") .dflt],
   [.deleteAll b!"WebPushSubscription", .setNotNull b!"WebPushSubscription" b!"user"],
   [.addColumn b!"Network" (colI b!"auto_away" 1) .dflt],
   [.addColumn b!"Network" (col b!"certfp") .dflt],
   [.addColumn b!"User" { name := b!"created_at", notNull := true, dflt := .text b!"now()" } .now],
   [.addColumn b!"User" (colI b!"enabled" 1) .dflt],
   [.addColumn b!"User" (col b!"downstream_interacted_at") .dflt],
   [.create b!"MessageTarget" [col b!"id", colR b!"network" b!"Network", colN b!"target"]
      [[b!"id"], [b!"network", b!"target"]],
    .create b!"Message" [col b!"id", colR b!"target" b!"MessageTarget", colN b!"raw", colN b!"time", colN b!"sender",
      col b!"text", col b!"text_search"] [[b!"id"]]],
   [.addColumn b!"User" (colI b!"max_networks" (-1)) .dflt]]

/-- database/postgres_schema.sql; TRUE and FALSE are 1 and 0 here. -/
def postgresSchema : List SqlStmt :=
  [.create b!"User" [col b!"id", colN b!"username", col b!"password", colI b!"admin" 0, col b!"nick", col b!"realname",
      { name := b!"created_at", notNull := true, dflt := .text b!"now()" }, colI b!"enabled" 1,
      col b!"downstream_interacted_at", colI b!"max_networks" (-1)] [[b!"id"], [b!"username"]],
   .create b!"Network" [col b!"id", col b!"name", colR b!"user" b!"User", colN b!"addr", col b!"nick", col b!"username",
      col b!"realname", col b!"certfp", col b!"pass", col b!"connect_commands", col b!"sasl_mechanism",
      col b!"sasl_plain_username", col b!"sasl_plain_password", col b!"sasl_external_cert", col b!"sasl_external_key",
      colI b!"auto_away" 1, colI b!"enabled" 1]
      [[b!"id"], [b!"user", b!"addr", b!"nick"], [b!"user", b!"name"]],
   .create b!"Channel" [col b!"id", colR b!"network" b!"Network", colN b!"name", col b!"key", colI b!"detached" 0,
      col b!"detached_internal_msgid", colI b!"relay_detached" 0, colI b!"reattach_on" 0, colI b!"detach_after" 0,
      colI b!"detach_on" 0] [[b!"id"], [b!"network", b!"name"]],
   .create b!"DeliveryReceipt" [col b!"id", colR b!"network" b!"Network", colN b!"target",
      { name := b!"client", notNull := true, dflt := .text [] }, colN b!"internal_msgid"]
      [[b!"id"], [b!"network", b!"target", b!"client"]],
   .create b!"ReadReceipt" [col b!"id", colR b!"network" b!"Network", colN b!"target", colN b!"timestamp"]
      [[b!"id"], [b!"network", b!"target"]],
   .create b!"WebPushConfig" [col b!"id", colN b!"created_at", colN b!"vapid_key_public", colN b!"vapid_key_private"]
      [[b!"id"], [b!"vapid_key_public"]],
   .create b!"WebPushSubscription" [col b!"id", colN b!"created_at", colN b!"updated_at", colR b!"user" b!"User",
      { name := b!"network", ref := some b!"Network" }, colN b!"endpoint", col b!"key_vapid", col b!"key_auth",
      col b!"key_p256dh"] [[b!"id"], [b!"network", b!"endpoint"]],
   .create b!"MessageTarget" [col b!"id", colR b!"network" b!"Network", colN b!"target"]
      [[b!"id"], [b!"network", b!"target"]],
   .create b!"Message" [col b!"id", colR b!"target" b!"MessageTarget", colN b!"raw", colN b!"time", colN b!"sender",
      col b!"text", col b!"text_search"] [[b!"id"]]]

def postgresProgram : SqlProgram := ⟨true, postgresSchema, postgresMigrations⟩

end Verif.Model
