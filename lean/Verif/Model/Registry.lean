import Verif.Model.GoMap

/-! # Model of the table of users and of the goroutines that serve them

server.go:221-246 (`Start`), 404-460 (`createUser`, `getUser`, `addUserLocked`), 514-535 (`getOrCreateUser`) and
service.go:1175-1225 (`user delete`).

Each operation is one critical section of `s.lock`, one database statement or one step of a user's goroutine; the
callers (clients that log in, administrators, the event loops) interleave them in any way.  `getOrCreateUser` is a
`lookup`, then a query, then a `create`; other operations may happen in between, and it may give up at any point.

Simplifications: an account is its row identifier and its name. -/

namespace Verif.Model

/-- Where the goroutine of a user is (server.go:442-457). -/
inductive RgPhase where
  /-- the event loop runs -/
  | running
  /-- the event loop has returned or panicked, the deferred function has not taken the lock -/
  | ended
  | gone
deriving DecidableEq, Repr

structure RgLoop where
  /-- the `user` object -/
  obj : Nat
  /-- `u.ID`, the row of the account -/
  row : Nat
  name : Str
  phase : RgPhase
deriving DecidableEq, Repr

structure RgState where
  /-- the table `User`: identifiers and names -/
  db : List (Nat × Str)
  /-- the largest identifier ever given -/
  lastRow : Nat
  /-- `s.users` -/
  users : GoMap Str Nat
  /-- the goroutines started since the bouncer was started -/
  loops : List RgLoop
  nextObj : Nat
deriving DecidableEq, Repr

inductive RgOp where
  /-- `createUser` (server.go:404-418) by an administrator, or for a client that has authenticated; `dbOk`: the
  database works -/
  | create (name : Str) (dbOk : Bool)
  /-- the event loop ends: it was asked to stop, it could not read the database, or it panicked -/
  | loopEnds (obj : Nat)
  /-- the deferred function (server.go:443-454) -/
  | forget (obj : Nat)
  /-- `DeleteUser`, once `u.stop` has returned (service.go:1212-1218) -/
  | delete (obj : Nat)
  /-- the process ends, in whatever way, and is started again (server.go:221-246); `order`: how the database lists
  the accounts -/
  | restart (order : List (Nat × Str))
deriving DecidableEq, Repr

/-- server.go:435-460 — `addUserLocked`. -/
def rgAdd (st : RgState) (acc : Nat × Str) : RgState :=
  { st with
    users := GoMap.set st.users acc.2 st.nextObj
    loops := st.loops ++ [⟨st.nextObj, acc.1, acc.2, .running⟩]
    nextObj := st.nextObj + 1 }

/-- The largest identifier in the table. -/
def rgMaxRow (db : List (Nat × Str)) : Nat := db.foldl (fun m a => Nat.max m a.1) 0

/-- The identifier of a new row.  SQLite (`reuse`; database/sqlite_schema.sql:2, `INTEGER PRIMARY KEY` without
`AUTOINCREMENT`) gives the largest identifier in the table plus one; PostgreSQL (database/postgres_schema.sql:2,
`SERIAL`) never gives an identifier again. -/
def rgNewRow (reuse : Bool) (st : RgState) : Nat := if reuse then rgMaxRow st.db + 1 else st.lastRow + 1

/-- server.go:404-418 — `createUser`; the column `username` is `UNIQUE` (database/sqlite_schema.sql:3).  The second
component tells whether it has succeeded. -/
def rgCreate (reuse : Bool) (st : RgState) (name : Str) (dbOk : Bool) : RgState × Bool :=
  match GoMap.get st.users name with
  | some _ => (st, false)
  | none =>
    if !dbOk || st.db.any (fun a => a.2 = name) then (st, false)
    else
      let row := rgNewRow reuse st
      (rgAdd { st with db := st.db ++ [(row, name)], lastRow := Nat.max st.lastRow row } (row, name), true)

/-- Change the phase of a goroutine. -/
def rgSetPhase (loops : List RgLoop) (obj : Nat) (p : RgPhase) : List RgLoop :=
  loops.map (fun l => if l.obj = obj then { l with phase := p } else l)

/-- One operation. -/
def rgStep (reuse : Bool) (st : RgState) : RgOp → RgState
  | .create name dbOk => (rgCreate reuse st name dbOk).1
  | .loopEnds obj =>
    match st.loops.find? (fun l => l.obj = obj) with
    | some l => if l.phase = .running then { st with loops := rgSetPhase st.loops obj .ended } else st
    | none => st
  | .forget obj =>
    match st.loops.find? (fun l => l.obj = obj) with
    | some l =>
      -- server.go:449-451: the entry is removed by its name
      if l.phase = .ended then
        { st with loops := rgSetPhase st.loops obj .gone, users := GoMap.del st.users l.name }
      else st
    | none => st
  | .delete obj =>
    match st.loops.find? (fun l => l.obj = obj) with
    | some l => if l.phase = .running then st else { st with db := st.db.filter (fun a => a.1 ≠ l.row) }
    | none => st
  | .restart order =>
    if order.isPerm st.db then
      order.foldl rgAdd { db := st.db, lastRow := st.lastRow, users := [], loops := [], nextObj := st.nextObj }
    else st

def rgRun (reuse : Bool) (st : RgState) (ops : List RgOp) : RgState := ops.foldl (rgStep reuse) st

/-- server.go:221-246 — the bouncer starts. -/
def rgStart (db : List (Nat × Str)) : RgState :=
  db.foldl rgAdd { db := db, lastRow := rgMaxRow db, users := [], loops := [], nextObj := 0 }

/-- server.go:514-535 — what a client that has authenticated gets: a user, a message that the account has not been
loaded, or a new account.  `onAuth`: the configuration creates accounts. -/
inductive RgLogin where
  | user (obj : Nat)
  | notLoaded
  | unknown
  | create
deriving DecidableEq, Repr

def rgLookup (onAuth : Bool) (st : RgState) (name : Str) : RgLogin :=
  match GoMap.get st.users name with
  | some o => .user o
  | none => if st.db.any (fun a => a.2 = name) then .notLoaded else if onAuth then .create else .unknown

end Verif.Model
