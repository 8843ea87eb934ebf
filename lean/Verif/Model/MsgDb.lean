import Verif.Model.SqlTime

/-! # Model of the message tables and of their queries

database/sqlite.go:1056-1303 and msgstore/db.go.  A table is a list of rows in the order of their row
identifiers.  The database engine is not modelled: a query is its meaning as a filter, a sort and a limit.
`ORDER BY` may put rows with equal keys in any order, so it is a parameter, `ord`, of which only the
specification is assumed.  The full-text index is a parameter too. -/

namespace Verif.Model

/-- A row of MessageTarget. -/
structure MsgTargetRow where
  id : Nat
  network : Nat
  target : Str
deriving DecidableEq, Repr

/-- A row of Message. -/
structure MsgRow where
  id : Nat
  target : Nat
  raw : Str
  time : Str
  sender : Str
  text : Option Str
deriving DecidableEq, Repr

/-- The two tables. -/
structure MsgDb where
  targets : List MsgTargetRow := []
  messages : List MsgRow := []
deriving DecidableEq, Repr

/-- The next row identifier of an `INTEGER PRIMARY KEY`: one more than the largest. -/
def nextRowId (ids : List Nat) : Nat := ids.foldl max 0 + 1

/-- A message to store: its text form, its instant, its sender and, for PRIVMSG and NOTICE, its text without
formatting (sqlite.go:1109-1128). -/
structure MsgIn where
  raw : Str
  t : Int
  sender : Str
  text : Option Str
deriving DecidableEq, Repr

/-- database/sqlite.go:1089-1097 — `INSERT INTO MessageTarget … ON CONFLICT DO NOTHING`. -/
def insertTarget (db : MsgDb) (network : Nat) (name : Str) : MsgDb :=
  if db.targets.any (fun t => decide (t.network = network ∧ t.target = name)) then db
  else { db with targets := db.targets ++ [⟨nextRowId (db.targets.map (·.id)), network, name⟩] }

/-- database/sqlite.go:1099-1145 — `INSERT INTO Message … SELECT id … FROM MessageTarget`: one row for every
target row that matches.  The time column is NOT NULL. -/
def insertMessage (db : MsgDb) (network : Nat) (name : Str) (m : MsgIn) : Option MsgDb :=
  match sqliteValue m.t with
  | none => none
  | some time =>
    some ((db.targets.filter (fun t => decide (t.network = network ∧ t.target = name))).foldl
      (fun db t => { db with messages := db.messages ++
        [⟨nextRowId (db.messages.map (·.id)), t.id, m.raw, time, m.sender, m.text⟩] }) db)

/-- database/sqlite.go:1077-1152 — `StoreMessages` for one message (msgstore/db.go:84-90); on an error the
transaction is rolled back. -/
def storeMessage (db : MsgDb) (network : Nat) (name : Str) (m : MsgIn) : MsgDb :=
  (insertMessage (insertTarget db network name) network name m).getD db

/-- database/database.go `MessageOptions`; the zero time stands for no bound. -/
structure MsgOptions where
  afterID : Nat := 0
  afterTime : Int := 0
  beforeTime : Int := 0
  limit : Nat
  events : Bool := false
  sender : Str := []
  text : Str := []
  takeLast : Bool := false
deriving DecidableEq, Repr

/-- A bound on a time column: `col > bound` (or `col < bound` with the arguments swapped) if there is one. -/
def timeAbove (bound : Int) (col : Str) : Bool :=
  match sqliteValue bound with
  | none => true
  | some b => decide (b < col)

/-- See `timeAbove`. -/
def timeBelow (bound : Int) (col : Str) : Bool :=
  match sqliteValue bound with
  | none => true
  | some b => decide (col < b)

/-- database/sqlite.go:1230-1256 — the `WHERE` clause of `ListMessages` for a pair of rows. -/
def msgWhere (fts : Str → Option Str → Bool) (network : Nat) (name : Str) (o : MsgOptions) (m : MsgRow)
    (t : MsgTargetRow) : Bool :=
  decide (m.target = t.id) && decide (t.network = network) && decide (t.target = name) &&
  (decide (o.afterID = 0) || decide (m.id > o.afterID)) &&
  timeAbove o.afterTime m.time && timeBelow o.beforeTime m.time &&
  (decide (o.sender = []) || decide (m.sender = o.sender)) &&
  (decide (o.text = []) || fts o.text m.text) &&
  (o.events || m.text.isSome)

/-- database/sqlite.go:1226-1303 — `ListMessages`.  `ord desc rows` sorts by time.  Parsing the stored text
back is not modelled. -/
def listMessages (fts : Str → Option Str → Bool) (ord : Bool → List MsgRow → List MsgRow) (db : MsgDb)
    (network : Nat) (name : Str) (o : MsgOptions) : List Str :=
  let rows := db.messages.flatMap (fun m => (db.targets.filter (msgWhere fts network name o m)).map (fun _ => m))
  let l := ((ord o.takeLast rows).take o.limit).map (·.raw)
  if o.takeLast then l.reverse else l

/-- database/sqlite.go:1056-1075 — `GetMessageLastID`. -/
def getMessageLastID (ord : Bool → List MsgRow → List MsgRow) (db : MsgDb) (network : Nat) (name : Str) : Nat :=
  let rows := db.messages.flatMap (fun m => (db.targets.filter (fun t =>
    decide (t.network = network ∧ t.target = name ∧ m.target = t.id))).map (fun _ => m))
  match ord true rows with
  | [] => 0
  | m :: _ => m.id

/-- database/sqlite.go:1158-1168 — the subquery of `ListMessageLastPerTarget`. -/
def latestTime (ord : Bool → List MsgRow → List MsgRow) (db : MsgDb) (events : Bool) (target : Nat) : Option Str :=
  ((ord true (db.messages.filter (fun m => decide (m.target = target) && (events || m.text.isSome)))).head?).map (·.time)

/-- A bound on a column that may be NULL: comparing NULL is not true. -/
def nullAbove (bound : Int) (col : Option Str) : Bool :=
  decide (bound = 0) || (match col with | none => false | some c => timeAbove bound c)

/-- See `nullAbove`. -/
def nullBelow (bound : Int) (col : Option Str) : Bool :=
  decide (bound = 0) || (match col with | none => false | some c => timeBelow bound c)

/-- database/sqlite.go:1154-1224 — `ListMessageLastPerTarget`; `ordT` sorts by the latest time. -/
def listLastPerTarget (ord : Bool → List MsgRow → List MsgRow)
    (ordT : Bool → List (Str × Option Str) → List (Str × Option Str)) (db : MsgDb) (network : Nat)
    (o : MsgOptions) : List (Str × Option Str) :=
  let rows := (db.targets.filter (fun t => decide (t.network = network))).map
    (fun t => (t.target, latestTime ord db o.events t.id))
  let rows := rows.filter (fun p => nullAbove o.afterTime p.2 && nullBelow o.beforeTime p.2)
  let l := (ordT o.takeLast rows).take o.limit
  if o.takeLast then l.reverse else l

/-- msgstore/db.go:123-135 — `LoadBeforeTime`. -/
def dbLoadBefore (start stop : Int) (limit : Nat) (events : Bool) : MsgOptions :=
  { afterTime := stop, beforeTime := start, limit := limit, events := events, takeLast := true }

/-- msgstore/db.go:137-148 — `LoadAfterTime`. -/
def dbLoadAfter (start stop : Int) (limit : Nat) (events : Bool) : MsgOptions :=
  { afterTime := start, beforeTime := stop, limit := limit, events := events }

/-- msgstore/db.go:66-81 — `LoadLatestID`. -/
def dbLoadLatest (id limit : Nat) : MsgOptions := { afterID := id, limit := limit, takeLast := true }

/-- msgstore/db.go:91-121 — `ListTargets`. -/
def dbListTargets (start stop : Int) (limit : Nat) (events : Bool) : MsgOptions :=
  if start < stop then { afterTime := start, beforeTime := stop, limit := limit, events := events }
  else { afterTime := stop, beforeTime := start, limit := limit, events := events, takeLast := true }

/-- msgstore/db.go:150-163 — `Search`. -/
def dbSearch (start stop : Int) (limit : Nat) (sender text : Str) : MsgOptions :=
  { afterTime := start, beforeTime := stop, limit := limit, sender := sender, text := text, takeLast := true }

end Verif.Model
