import Verif.Model.ZncLog
import Verif.Model.MsgDb
import Verif.Model.SearchText
import Verif.Model.LogPath

/-! # Model of migrate-logs

contrib/migrate-logs/main.go copies the log files of the networks of a database to the database.  The directory of the
logs is given by its contents.  Libraries: `sort.Strings`, `time.Date` in the local time zone and `irc.Message.String`
are parameters.  Not modelled: errors of the file system. -/

namespace Verif.Model

/-- `%0Nd` of `fmt.Sscanf`: at most `w` digits.  Simplification: a sign or leading spaces are an error here. -/
def scanDec (w : Nat) (s : Str) : Option (Nat × Str) :=
  let d := (s.take w).takeWhile isDigit
  if d = [] then none else some (digitsVal d, s.drop d.length)

/-- contrib/migrate-logs/main.go:81-86 — `Sscanf` with the format `%04d-%02d-%02d.log`; what follows is ignored. -/
def mlDate (name : Str) : Option (Nat × Nat × Nat) := do
  let (y, s) ← scanDec 4 name
  let s ← fixedByte 45 s
  let (m, s) ← scanDec 2 s
  let s ← fixedByte 45 s
  let (d, s) ← scanDec 2 s
  if hasPrefix b!".log" s then some (y, m, d) else none

/-- The lines of a text as `bufio.ScanLines` gives them: the last one may lack the line feed.  A carriage return
at the end, which it drops, is dropped in `mlRead`. -/
def mlLines (content : Str) : List Str :=
  let ls := splitByte 10 content
  (if ls.getLast? = some [] then ls.dropLast else ls)

/-- `bufio.MaxScanTokenSize`. -/
def mlMaxLine : Nat := 65536

/-- contrib/migrate-logs/main.go:92-105 — the messages of a file with their times of day; `none` is an error: a line
that is too long or one without a time. -/
def mlRead (own target : Str) : List Str → Option (List (LogMsg × (Nat × Nat × Nat)))
  | [] => some []
  | l :: ls =>
    if l.length ≥ mlMaxLine then none
    else match unmarshalLine (trimSuffix [13] l) target own true with
      | none => none
      | some (none, _) => mlRead own target ls
      | some (some m, t) => (mlRead own target ls).map ((m, t) :: ·)

/-- Libraries: the order of names, the instant of a date and a time of day, the text form of a message. -/
structure MlLib where
  srt : List Str → List Str
  clock : Nat × Nat × Nat → Nat × Nat × Nat → Int
  raw : LogMsg → Int → Str

/-- database/sqlite.go:1111-1140 — the columns of a message.  The instant goes through the `time` tag, which keeps
milliseconds; those of log files are whole seconds. -/
def mlColumns (lib : MlLib) (m : LogMsg) (t : Int) : MsgIn :=
  { raw := lib.raw m t, t := t, sender := m.source.name
    text := if (m.command = b!"PRIVMSG" ∨ m.command = b!"NOTICE") ∧ m.params.length > 1 then
      some (stripANSI (m.params.getD 1 [])) else none }

/-- database/sqlite.go:1111-1148 — the loop of `StoreMessages`. -/
def insertMessages (network : Nat) (name : Str) : List MsgIn → MsgDb → Option MsgDb
  | [], db => some db
  | m :: ms, db => match insertMessage db network name m with
    | none => none
    | some db => insertMessages network name ms db

/-- database/sqlite.go:1077-1152 — `StoreMessages`, one transaction; `false` is an error. -/
def storeMessages (db : MsgDb) (network : Nat) (name : Str) (ms : List MsgIn) : MsgDb × Bool :=
  if ms = [] then (db, true)
  else match insertMessages network name ms (insertTarget db network name) with
    | none => (db, false)
    | some db => (db, true)

/-- contrib/migrate-logs/main.go:78-111 — one file. -/
def mlFile (lib : MlLib) (network : Nat) (own target : Str) (db : MsgDb) (name content : Str) : MsgDb × Bool :=
  match mlDate name with
  | none => (db, false)
  | some date => match mlRead own target (mlLines content) with
    | none => (db, false)
    | some ms => storeMessages db network target (ms.map (fun p => mlColumns lib p.1 (lib.clock date p.2)))

/-- contrib/migrate-logs/main.go:78-112 — the files of a conversation, in the order of `names`. -/
def mlFiles (lib : MlLib) (network : Nat) (own target : Str) (files : List (Str × Str)) : List Str → MsgDb → MsgDb × Bool
  | [], db => (db, true)
  | name :: names, db =>
    match mlFile lib network own target db name ((files.lookup name).getD []) with
    | (db, false) => (db, false)
    | (db, true) => mlFiles lib network own target files names db

/-- contrib/migrate-logs/main.go:61-113 — the conversations of a network. -/
def mlTargets (lib : MlLib) (network : Nat) (own : Str) : List (Str × List (Str × Str)) → MsgDb → MsgDb × Bool
  | [], db => (db, true)
  | (target, files) :: rest, db =>
    match mlFiles lib network own target files (lib.srt (files.map (·.1))) db with
    | (db, false) => (db, false)
    | (db, true) => mlTargets lib network own rest db

/-- A network of the database, with the name of its user, its own name (`GetName`) and the nick of the user on it
(`database.GetNick`). -/
structure MlNetwork where
  user : Str
  name : Str
  id : Nat
  own : Str
deriving DecidableEq, Repr

/-- The directory of the logs: for the name of a directory of a user and one of a network the conversations, each a
directory of files; `none` if the directory does not exist. -/
abbrev MlTree := Str → Str → Option (List (Str × List (Str × Str)))

/-- contrib/migrate-logs/main.go:116-152, 41-60 — the networks of all users, in the order of `ListUsers` and
`ListNetworks`. -/
def migrateLogs (lib : MlLib) (tree : MlTree) : List MlNetwork → MsgDb → MsgDb × Bool
  | [], db => (db, true)
  | n :: ns, db =>
    match tree (escapeFilename n.user) (escapeFilename n.name) with
    | none => migrateLogs lib tree ns db
    | some targets => match mlTargets lib n.id n.own targets db with
      | (db, false) => (db, false)
      | (db, true) => migrateLogs lib tree ns db

end Verif.Model
