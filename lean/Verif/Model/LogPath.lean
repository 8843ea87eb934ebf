import Verif.Model.GoStr

/-! # Model of the log file paths (msgstore/fs.go) -/

namespace Verif.Model

/-- msgstore/fs.go:27-35 — `EscapeFilename`. -/
def escapeFilename (name : Str) : Str :=
  if name = b!"." then b!"-"
  else if name = b!".." then b!"--"
  else name.map (fun c => if c = 47 ∨ c = 92 then 45 else c)

/-- A calendar date (fs.go:37-39). -/
structure Date where
  year : Nat
  month : Nat
  day : Nat
deriving DecidableEq, Repr

/-- msgstore/fs.go:105-107 — the root directory of a user's store. -/
def fsRoot (root username : Str) : Str := joinPath [root, escapeFilename username]

/-- msgstore/fs.go:115 — the file name of a day. -/
def logFilename (d : Date) : Str :=
  padDec 4 d.year ++ b!"-" ++ padDec 2 d.month ++ b!"-" ++ padDec 2 d.day ++ b!".log"

/-- msgstore/fs.go:113-117 — `logPath`, with `root` the store's root. -/
def logPath (root network entity : Str) (d : Date) : Str :=
  joinPath [root, escapeFilename network, escapeFilename entity, logFilename d]

/-- msgstore/fs.go:547-549 — the directory that `RenameNetwork` moves. -/
def networkDir (root network : Str) : Str := joinPath [root, escapeFilename network]

end Verif.Model
