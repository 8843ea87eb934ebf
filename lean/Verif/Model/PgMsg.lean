import Verif.Model.MsgDb

/-! # Model of the message tables of a PostgreSQL database

database/postgres.go:801-1052 and database/postgres_schema.sql:90-112.  A table is a list of rows in the order
of insertion.  The database engine is not modelled: a query is its meaning as a filter, a sort and a limit.
Parameters: `ok`, the texts a TEXT column accepts (with the encoding UTF8: well-formed UTF-8 without NUL); `col`,
the value a `TIMESTAMP WITH TIME ZONE` column has for an instant (microseconds); `fts`, the full-text search; `ord`
and `ordT`, the sorts.  Each call is one step: its statements are those of one transaction. -/

namespace Verif.Model

/-- A row of "Message" (postgres_schema.sql:102-110). -/
structure PgRow where
  id : Nat
  target : Nat
  raw : Str
  time : Int
  sender : Str
  text : Option Str
deriving DecidableEq, Repr

/-- The rows of "Network" (identifiers only), "MessageTarget" and "Message", and the values the sequences of the
two SERIAL columns give out next. -/
structure PgMsgDb where
  networks : List Nat := []
  targets : List MsgTargetRow := []
  messages : List PgRow := []
  nextT : Nat := 1
  nextM : Nat := 1
deriving DecidableEq, Repr

/-- A message to store: as for SQLite, and whether its time tag can be read (postgres.go:862-880). -/
structure PgIn where
  m : MsgIn
  timeOK : Bool := true
deriving DecidableEq, Repr

/-- database/postgres.go:839-848 — `INSERT INTO "MessageTarget" … ON CONFLICT DO NOTHING`.  The sequence moves on
even when there is a conflict.  `none`: the statement fails (the network does not exist, or the name is not
accepted). -/
def pgInsertTarget (ok : Str → Bool) (db : PgMsgDb) (network : Nat) (name : Str) : Option PgMsgDb :=
  if ok name && db.networks.contains network then
    if db.targets.any (fun t => decide (t.network = network ∧ t.target = name)) then some { db with nextT := db.nextT + 1 }
    else some { db with
      nextT := db.nextT + 1
      targets := db.targets ++ [⟨db.nextT, network, name⟩] }
  else none

/-- Are the texts of a message accepted? -/
def pgAccepts (ok : Str → Bool) (m : MsgIn) : Bool :=
  ok m.raw && ok m.sender && (match m.text with | none => true | some x => ok x)

/-- database/postgres.go:861-892 — one round of the loop of `StoreMessages`: `INSERT INTO "Message" … SELECT id …
RETURNING id`, one row for every target row that matches; the identifier of the first one is read. -/
def pgInsertMsg (ok : Str → Bool) (col : Int → Int) (db : PgMsgDb) (network : Nat) (name : Str) (p : PgIn) :
    PgMsgDb × Option Nat :=
  if p.timeOK && pgAccepts ok p.m then
    let ts := db.targets.filter (fun t => decide (t.network = network ∧ t.target = name))
    let rows := (ts.zipIdx db.nextM).map (fun q => (⟨q.2, q.1.id, p.m.raw, col p.m.t, p.m.sender, p.m.text⟩ : PgRow))
    ({ db with
        messages := db.messages ++ rows
        nextM := db.nextM + ts.length }, (rows.head?).map (·.id))
  else (db, none)

/-- database/postgres.go:860-893 — the loop of `StoreMessages`. -/
def pgInsertAll (ok : Str → Bool) (col : Int → Int) (db : PgMsgDb) (network : Nat) (name : Str) :
    List PgIn → PgMsgDb × Option (List Nat)
  | [] => (db, some [])
  | p :: ps =>
    match pgInsertMsg ok col db network name p with
    | (db1, none) => (db1, none)
    | (db1, some id) =>
      match pgInsertAll ok col db1 network name ps with
      | (db2, none) => (db2, none)
      | (db2, some ids) => (db2, some (id :: ids))

/-- A transaction that is rolled back leaves the tables as they were; the sequences keep their values. -/
def pgRollback (db db' : PgMsgDb) : PgMsgDb :=
  { db with
    nextT := db'.nextT
    nextM := db'.nextM }

/-- database/postgres.go:825-897 — `StoreMessages`; `commit` says whether the final COMMIT succeeds.  The result
is the identifiers, or `none` for an error. -/
def pgStore (ok : Str → Bool) (col : Int → Int) (db : PgMsgDb) (network : Nat) (name : Str) (msgs : List PgIn)
    (commit : Bool) : PgMsgDb × Option (List Nat) :=
  if msgs = [] then (db, some [])
  else match pgInsertTarget ok db network name with
    | none => (db, none)
    | some db1 =>
      match pgInsertAll ok col db1 network name msgs with
      | (db2, none) => (pgRollback db db2, none)
      | (db2, some ids) => if commit then (db2, some ids) else (pgRollback db db2, none)

/-- database/postgres_schema.sql:92,104 — deleting a row of "Network" deletes its targets and their messages
(`ON DELETE CASCADE`). -/
def pgDeleteNetwork (db : PgMsgDb) (network : Nat) : PgMsgDb :=
  { db with
    networks := db.networks.filter (fun n => decide (n ≠ network))
    targets := db.targets.filter (fun t => decide (t.network ≠ network))
    messages := db.messages.filter (fun m =>
      !(db.targets.any (fun t => decide (t.id = m.target ∧ t.network = network)))) }

/-- `WHERE target = (SELECT id FROM "MessageTarget" WHERE network = $1 AND target = $2)`: nothing if there is no
such row, an error if there are several. -/
def pgOfTarget (db : PgMsgDb) (network : Nat) (name : Str) : Option (List PgRow) :=
  match db.targets.filter (fun t => decide (t.network = network ∧ t.target = name)) with
  | [] => some []
  | [t] => some (db.messages.filter (fun m => decide (m.target = t.id)))
  | _ => none

/-- database/postgres.go:801-823 — `GetMessageLastID`. -/
def pgLastID (ord : Bool → List PgRow → List PgRow) (db : PgMsgDb) (network : Nat) (name : Str) : Option Nat :=
  (pgOfTarget db network name).map (fun rows =>
    match ord true rows with
    | [] => 0
    | m :: _ => m.id)

/-- A bound on a time column, `col > $n` (postgres.go:925-929, 991-995); the zero time stands for no bound. -/
def pgAbove (col : Int → Int) (bound time : Int) : Bool := decide (bound = 0) || decide (col bound < time)

/-- A bound on a time column, `col < $n` (postgres.go:930-934, 996-1000). -/
def pgBelow (col : Int → Int) (bound time : Int) : Bool := decide (bound = 0) || decide (time < col bound)

/-- database/postgres.go:987-1012 — the other conditions of `ListMessages`. -/
def pgWhere (fts : Str → Option Str → Bool) (col : Int → Int) (o : MsgOptions) (m : PgRow) : Bool :=
  (decide (o.afterID = 0) || decide (m.id > o.afterID)) &&
  pgAbove col o.afterTime m.time && pgBelow col o.beforeTime m.time &&
  (decide (o.sender = []) || decide (m.sender = o.sender)) &&
  (decide (o.text = []) || fts o.text m.text) &&
  (o.events || m.text.isSome)

/-- database/postgres.go:973-1052 — `ListMessages`.  Parsing the stored text back is not modelled. -/
def pgListMessages (fts : Str → Option Str → Bool) (col : Int → Int) (ord : Bool → List PgRow → List PgRow)
    (db : PgMsgDb) (network : Nat) (name : Str) (o : MsgOptions) : Option (List Str) :=
  (pgOfTarget db network name).map (fun rows =>
    let l := ((ord o.takeLast (rows.filter (pgWhere fts col o))).take o.limit).map (·.raw)
    if o.takeLast then l.reverse else l)

/-- database/postgres.go:906-921 — the lateral subquery for a row of "MessageTarget", with the condition of the
join: at most one row. -/
def pgLateral (ord : Bool → List PgRow → List PgRow) (db : PgMsgDb) (events : Bool) (t : MsgTargetRow) : List PgRow :=
  ((ord true (db.messages.filter (fun m => decide (m.target = t.id) && (events || m.text.isSome)))).take 1).filter
    (fun l => decide (t.id = l.target))

/-- database/postgres.go:899-971 — `ListMessageLastPerTarget`; `ordT` sorts by the latest time. -/
def pgLastPerTarget (col : Int → Int) (ord : Bool → List PgRow → List PgRow)
    (ordT : Bool → List (Str × Int) → List (Str × Int)) (db : PgMsgDb) (network : Nat) (o : MsgOptions) :
    List (Str × Int) :=
  let rows := (db.targets.filter (fun t => decide (t.network = network))).flatMap
    (fun t => (pgLateral ord db o.events t).map (fun l => (t.target, l.time)))
  let rows := rows.filter (fun p => pgAbove col o.afterTime p.2 && pgBelow col o.beforeTime p.2)
  let l := (ordT o.takeLast rows).take o.limit
  if o.takeLast then l.reverse else l

/-- What is done to the database. -/
inductive PgMsgOp where
  /-- a network is added -/
  | addNetwork (network : Nat)
  /-- `DeleteNetwork` -/
  | deleteNetwork (network : Nat)
  /-- `StoreMessages` -/
  | store (network : Nat) (name : Str) (msgs : List PgIn) (commit : Bool)
deriving DecidableEq, Repr

/-- One call, with the identifiers it returns (`none` for an error). -/
def pgStep (ok : Str → Bool) (col : Int → Int) (db : PgMsgDb) : PgMsgOp → PgMsgDb × Option (List Nat)
  | .addNetwork n => (if db.networks.contains n then db else { db with networks := db.networks ++ [n] }, some [])
  | .deleteNetwork n => (pgDeleteNetwork db n, some [])
  | .store n name msgs commit => pgStore ok col db n name msgs commit

/-- A sequence of calls on an empty database, with their results. -/
def pgRun (ok : Str → Bool) (col : Int → Int) (ops : List PgMsgOp) : PgMsgDb × List (PgMsgOp × Option (List Nat)) :=
  ops.foldl (fun st op => ((pgStep ok col st.1 op).1, st.2 ++ [(op, (pgStep ok col st.1 op).2)])) ({}, [])

end Verif.Model
