import Verif.Model.SqlTime

/-! # Model of the time of a message

upstream.go:619-625, user.go:1294-1301 (the time the clients are shown), msgstore/fs.go:139-151, msgstore/znclog/writer.go:13-19,
msgstore/znclog/reader.go:14-25, 151-163 (log files), database/sqlite.go:1112-1140, 1278-1290 and database/postgres.go:861-872
(databases), msgstore/memory.go:85-102 (memory).

Instants are nanoseconds since Go's zero time, as in Model/SqlTime.  `parse` is `time.Parse` with the layout of the `time` tag
(the same layout as that of the SQLite columns); the local time zone is given by what `time.Location` says of it. -/

namespace Verif.Model

/-- What `Location.lookup` says of an instant (in seconds): the offset of local time in seconds, and the first instant and
the end of the period with this offset. -/
structure Zone where
  offset : Int → Int
  start : Int → Int
  stop : Int → Int

/-- Nanoseconds in a second. -/
def secNanos : Int := 1000000000

/-- Where messages are kept. -/
inductive StoreKind where
  | memory
  | files
  | sqlite
  | postgres
deriving DecidableEq, Repr

/-- user.go:1294-1301 — `FormatServerTime`: with log files times are cut off at the second. -/
def formatServerTime (kind : StoreKind) (t : Int) : Str :=
  sqliteFormat (if kind = .files then t - t % secNanos else t)

/-- upstream.go:619-625 — the `time` tag of a message from the server (other than a numeric) as it is kept and sent to the
clients; `tag`: the one the server has put on it. -/
def liveTag (parse : Str → Option Int) (kind : StoreKind) (tag : Option Str) (now : Int) : Str :=
  formatServerTime kind ((parse (tag.getD [])).getD now)

/-- Seconds of local time (`t.In(time.Local)`). -/
def localSec (z : Zone) (t : Int) : Int := t / secNanos + z.offset (t / secNanos)

/-- msgstore/fs.go:157-158 — the day of the file a line is written to. -/
def fileDay (z : Zone) (t : Int) : Int := localSec z t / 86400

/-- msgstore/znclog/writer.go:18 — the hour, minute and second of a line, as seconds. -/
def lineSec (z : Zone) (t : Int) : Int := localSec z t % 86400

/-- time `Date`, in the local time zone: the instant with this day and second of the day. -/
def goDate (z : Zone) (day sec : Int) : Int :=
  let u := day * 86400 + sec
  let off := z.offset u
  let off := if off ≠ 0 ∧ (u - off < z.start u ∨ z.stop u ≤ u - off) then z.offset (u - off) else off
  (u - off) * secNanos

/-- The instant a store has for a message with this tag, by which it selects and sorts messages; `none`: it is not kept
because of an error (memory: messages have no instant but their tag).  database/sqlite.go:214: the column is not null.  PostgreSQL
has microseconds. -/
def keptTime (parse : Str → Option Int) (z : Zone) (kind : StoreKind) (tag : Str) : Option Int :=
  (parse tag).bind fun t =>
    match kind with
    | .memory => some t
    | .files => some (goDate z (fileDay z t) (lineSec z t))
    | .sqlite => (sqliteValue t).bind sqliteParse
    | .postgres => some (t - t % 1000)

/-- The tag a message has when it comes from the store: with log files it is made from the line, otherwise it is kept. -/
def historyTag (parse : Str → Option Int) (z : Zone) (kind : StoreKind) (tag : Str) : Option Str :=
  match kind with
  | .memory => some tag
  | .files => (keptTime parse z .files tag).map sqliteFormat
  | .sqlite => (keptTime parse z .sqlite tag).map fun _ => tag
  | .postgres => (keptTime parse z .postgres tag).map fun _ => tag

end Verif.Model
