import Verif.Model.PgDb
import Verif.Model.SqDb
import Verif.Model.GoStr
import Verif.Model.GoMap

/-! # Model of the program that moves the data to another database

contrib/migrate-db/main.go:35-158.  The source is what its list functions return; the destination is a database with a given
effect of each call: PostgreSQL (`Model/PgDb.lean`) or SQLite (`Model/SqDb.lean`).  The source does not change and its queries do not fail.  The command line, the opening of the
databases and what is logged are not modelled. -/

namespace Verif.Model

/-- What the source database returns. -/
structure MgSource where
  users : List PdUserRec
  networks : Nat → List NetRec
  channels : Nat → List ChanRec
  receipts : Nat → List PdReceipt
  reads : Nat → Str → Option PdRead := fun _ _ => none
  subs : Nat → Nat → List PdSub
  configs : List PdConfig := []

/-- A PostgreSQL database as the source. -/
def mgSourceOf (db : PdDb) : MgSource :=
  { users := pdListUsers db, networks := pdListNetworks db, channels := pdListChannels db,
    receipts := pdListReceipts db, reads := pdGetRead db, subs := pdListSubs db, configs := pdListConfigs db }

/-- An SQLite database as the source; what cannot be read is an error that ends the program. -/
def mgSourceOfSq (db : SqDb) : MgSource :=
  { users := (sqListUsers db).getD [], networks := sqListNetworks db, channels := sqListChannels db,
    receipts := sqListReceipts db, reads := fun n t => ((sqGetRead db n t).getD none),
    subs := fun u n => (sqListSubs db u n).getD [], configs := sqListConfigs db }

/-- The destination and the calls made so far. -/
abbrev MgSt (S : Type) := S × List (PdOp × Option Nat)

variable {S : Type}

/-- A call on the destination. -/
def mgCall (step : S → PdOp → S × Option Nat) (st : MgSt S) (op : PdOp) : MgSt S × Option Nat :=
  (((step st.1 op).1, st.2 ++ [(op, (step st.1 op).2)]), (step st.1 op).2)

/-- A call on the destination, `log.Fatalf` (false) if it fails. -/
def mgTry (step : S → PdOp → S × Option Nat) (st : MgSt S) (op : PdOp) : MgSt S × Bool :=
  ((mgCall step st op).1, (mgCall step st op).2.isSome)

/-- A `for … range` loop that ends the program when its body does. -/
def mgEach {α : Type} (f : MgSt S → α → MgSt S × Bool) : MgSt S → List α → MgSt S × Bool
  | st, [] => (st, true)
  | st, a :: l => match f st a with
    | (st, true) => mgEach f st l
    | (st, false) => (st, false)

/-- contrib/migrate-db/main.go:106-116 — the receipts of each client. -/
def mgGroup (rs : List PdReceipt) : GoMap Str (List PdReceipt) :=
  rs.foldl (fun m d => GoMap.set m d.client ((GoMap.get m d.client).getD [] ++ [{ d with id := 0 }])) []

/-- contrib/migrate-db/main.go:74-143 — one network; `ord` is the order in which Go goes through a map. -/
def mgNetwork (step : S → PdOp → S × Option Nat) (now : Int)
    (ord : GoMap Str (List PdReceipt) → GoMap Str (List PdReceipt)) (src : MgSource) (user : Nat) (st : MgSt S)
    (srcNetwork : NetRec) : MgSt S × Bool :=
  match mgCall step st (.storeNetwork user { srcNetwork with id := 0 }) with
  | (st, none) => (st, false)
  | (st, some dest) =>
    match mgEach (fun st c => mgTry step st (.storeChannel dest { c with id := 0 })) st (src.channels srcNetwork.id) with
    | (st, false) => (st, false)
    | (st, true) =>
      match mgEach (fun st p => mgTry step st (.storeReceipts dest p.1 p.2)) st
          (ord (mgGroup (src.receipts srcNetwork.id))) with
      | (st, false) => (st, false)
      | (st, true) =>
        mgEach (fun st s => mgTry step st (.storeSub now user dest { s with id := 0 })) st (src.subs user srcNetwork.id)

/-- contrib/migrate-db/main.go:59-72 — one user.  `StoreUser` sets `user.ID` to the identifier in the destination, and
the networks are then asked for with it. -/
def mgUser (step : S → PdOp → S × Option Nat) (now : Int)
    (ord : GoMap Str (List PdReceipt) → GoMap Str (List PdReceipt)) (src : MgSource) (st : MgSt S) (u : PdUserRec) :
    MgSt S × Bool :=
  match mgCall step st (.storeUser now { u with id := 0 }) with
  | (st, none) => (st, false)
  | (st, some id) => mgEach (mgNetwork step now ord src id) st (src.networks id)

/-- contrib/migrate-db/main.go:54-158 — the whole program, on an empty destination; false if it ended early. -/
def mgRun (step : S → PdOp → S × Option Nat) (now : Int)
    (ord : GoMap Str (List PdReceipt) → GoMap Str (List PdReceipt)) (src : MgSource) (init : S) : MgSt S × Bool :=
  match mgEach (mgUser step now ord src) (init, []) src.users with
  | (st, false) => (st, false)
  | (st, true) => mgEach (fun st c => mgTry step st (.storeConfig { c with id := 0 })) st src.configs

/-- database/database.go:73-82 — the kinds of databases. -/
inductive MgDriver where
  | sqlite
  | postgres
deriving DecidableEq, Repr

/-- database/database.go:73-82 — `Open`, up to the choice of the kind. -/
def mgDriver (driver : Str) : Option MgDriver :=
  if driver = b!"sqlite3" then some .sqlite else if driver = b!"postgres" then some .postgres else none

/-- contrib/migrate-db/main.go:35-51 — a database given on the command line: its kind and what its `Open` function is
given; `none`: the program ends with an error. -/
def mgNamed (arg : Str) : Option (MgDriver × Str) :=
  match splitByte 58 arg with
  | [driver, source] => (mgDriver driver).map (fun d => (d, source))
  | _ => none

end Verif.Model
