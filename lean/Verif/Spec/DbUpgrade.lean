import Verif.Model.DbUpgrade

/-! # What an upgrade of the database has to keep -/

namespace Verif.Spec
open Verif.Model

/-- `SELECT cs FROM t`; `none`: there is no such table or column. -/
def sqlSelect (db : SqlDb) (t : Str) (cs : List Str) : Option (List (List SqlVal)) :=
  match db.find? (fun tb => tb.name = t) with
  | none => none
  | some tb =>
    if cs.all (fun c => tb.cols.any (fun col => col.name = c)) then some (tb.rows.map (fun r => cs.map (sqlVal r)))
    else none

/-- Every query that could be made before, about columns other than those of `q`, has the same answer. -/
def KeepsBut (q : Str → Str → Prop) (old new : SqlDb) : Prop :=
  ∀ t cs rows, (∀ c ∈ cs, ¬ q t c) → sqlSelect old t cs = some rows → sqlSelect new t cs = some rows

/-- Every query that could be made before has the same answer. -/
def Keeps (old new : SqlDb) : Prop := KeepsBut (fun _ _ => False) old new

/-- The names of the tables and of their columns. -/
abbrev Layout := List (Str × List Str)

def Layout.table (l : Layout) (t : Str) : Bool := l.any (fun p => p.1 = t)
def Layout.col (l : Layout) (t c : Str) : Bool := l.any (fun p => decide (p.1 = t) && p.2.any (fun d => d = c))

/-- A statement as far as the names of tables and columns are concerned. -/
def layoutStep (l : Layout) : SqlStmt → Option Layout
  | .create n cols _ => if l.table n then none else some (l ++ [(n, cols.map (·.name))])
  | .addColumn t c _ =>
    if l.table t && !l.col t c.name && (!c.notNull || decide (c.dflt ≠ .null)) then
      some (l.map (fun p => if p.1 = t then (p.1, p.2 ++ [c.name]) else p))
    else none
  | .rebuild t cols _ _ _ =>
    if l.table t then some (l.map (fun p => if p.1 = t then (p.1, cols.map (·.name)) else p)) else none
  | .dropNotNull t c => if l.col t c then some l else none
  | .setNotNull t c => if l.col t c then some l else none
  | .setEnum t c _ => if l.col t c then some l else none
  | .deleteAll t => if l.table t then some l else none

def layoutRun : Layout → List SqlStmt → Option Layout
  | l, [] => some l
  | l, s :: ss => (layoutStep l s).bind (fun l' => layoutRun l' ss)

/-- The database has these tables with these columns, in any order. -/
def HasLayout (db : SqlDb) (l : Layout) : Prop :=
  ∀ t, hasTable db t = l.table t ∧ ∀ c, hasCol db t c = l.col t c

/-- The first version of SQLite databases (database/sqlite_test.go:11-45). -/
def sqliteV1 : Layout :=
  [(b!"User", [b!"username", b!"password"]),
   (b!"Network", [b!"id", b!"name", b!"user", b!"addr", b!"nick", b!"username", b!"realname", b!"pass",
      b!"sasl_mechanism", b!"sasl_plain_username", b!"sasl_plain_password"]),
   (b!"Channel", [b!"id", b!"network", b!"name", b!"key"])]

/-- The first version of PostgreSQL databases (database/postgres_test.go:9-68). -/
def postgresV1 : Layout :=
  [(b!"User", [b!"id", b!"username", b!"password", b!"admin", b!"realname"]),
   (b!"Network", [b!"id", b!"name", b!"user", b!"addr", b!"nick", b!"username", b!"realname", b!"pass",
      b!"connect_commands", b!"sasl_mechanism", b!"sasl_plain_username", b!"sasl_plain_password",
      b!"sasl_external_cert", b!"sasl_external_key", b!"enabled"]),
   (b!"Channel", [b!"id", b!"network", b!"name", b!"key", b!"detached", b!"detached_internal_msgid",
      b!"relay_detached", b!"reattach_on", b!"detach_after", b!"detach_on"]),
   (b!"DeliveryReceipt", [b!"id", b!"network", b!"target", b!"client", b!"internal_msgid"])]

/-- The tables and columns of version `v`. -/
def layoutAt (p : SqlProgram) (first : Layout) (v : Nat) : Layout :=
  if v = 0 then [] else (layoutRun first (p.migrations.take v).flatten).getD []

/-- A database of version `v`, with whatever rows. -/
def AtVersion (p : SqlProgram) (first : Layout) (st : SqlStore) : Prop :=
  HasLayout st.db (layoutAt p first st.version)

/-- Every network belongs to exactly one user, by name (databases of versions up to 7). -/
def Owned (db : SqlDb) : Prop :=
  ∃ us ns, sqlSelect db b!"Network" [b!"user"] = some us ∧ sqlSelect db b!"User" [b!"username"] = some ns ∧
    ∀ x ∈ us, x ≠ [.null] ∧ (ns.filter (fun y => y = x)).length = 1

end Verif.Spec
