import Verif.Model.FsStore
import Verif.Model.LogPath
import Verif.Model.GoMap

/-! # Model of the log-file message store (msgstore/fs.go): files, renames, conversations, search

One store (the one of a user).  The disk has inodes, so that a file that is kept open stays the same file
when its directory is renamed.  A path is the network's directory, the conversation's directory and the
day; names are not empty (with an empty name a level collapses, C14).  Instants are nanoseconds since year 1
in a time zone that is whole seconds from UTC.  Errors of the system other than those written out, and
cancelled contexts, are not modelled.  Formatting and parsing of lines are the subject of C15. -/

namespace Verif.Model

variable {M : Type}

/-- msgstore/fs.go:113-117 — a log path below the root of the store: the escaped name of the network, the
escaped name of the conversation, and the day. -/
structure FsPath where
  net : Str
  ent : Str
  day : Nat
deriving DecidableEq, Repr

/-- An inode: what was written, and the time of the last modification. -/
structure FsNode (M : Type) where
  lines : List (FsLine M)
  mtime : Nat
deriving DecidableEq, Repr

/-- The log directory of a user. -/
structure FsDisk (M : Type) where
  paths : GoMap FsPath Nat := []
  nodes : List (FsNode M) := []
deriving DecidableEq, Repr

/-- msgstore/fs.go:76-79 — `fsMessageStoreFile`: an open file, the path it was opened with, its last use. -/
structure FsHandle where
  path : FsPath
  node : Nat
  lastUse : Nat
deriving DecidableEq, Repr

/-- msgstore/fs.go:85-91 — `fsMessageStore` with the directory it works on. -/
structure FsSt (M : Type) where
  disk : FsDisk M := {}
  files : GoMap Str FsHandle := []
deriving DecidableEq, Repr

/-- msgstore/fs.go:23 — `fsMessageStoreMaxFiles`. -/
def fsMaxFiles : Nat := 20

/-- msgstore/fs.go:113-117 — `logPath`; `D` is the length of a day. -/
def fsLogPath (D : Nat) (net ent : Str) (t : Nat) : FsPath := ⟨escapeFilename net, escapeFilename ent, t / D⟩

/-- msgstore/fs.go:163-171 — `os.MkdirAll` and `os.OpenFile` with `O_CREATE|O_APPEND`. -/
def fsOpen (disk : FsDisk M) (p : FsPath) (now : Nat) : FsDisk M × Nat :=
  match disk.paths.get p with
  | some i => (disk, i)
  | none => ({ paths := disk.paths.set p disk.nodes.length, nodes := disk.nodes ++ [⟨[], now⟩] }, disk.nodes.length)

/-- msgstore/fs.go:182-196 — close the files that were not used for the longest time; `srt` is
`sort.Slice` by `lastUse` on the keys of the map. -/
def fsEvict (srt : List (Str × FsHandle) → List (Str × FsHandle)) (files : GoMap Str FsHandle) : GoMap Str FsHandle :=
  if files.length > fsMaxFiles then
    ((srt files).take (files.length - fsMaxFiles)).foldl (fun fs e => fs.del e.1) files
  else files

/-- msgstore/fs.go:203 — a write to an open file. -/
def fsWrite (disk : FsDisk M) (i : Nat) (l : FsLine M) (now : Nat) : FsDisk M :=
  { disk with nodes := disk.nodes.modify i (fun n => ⟨n.lines ++ [l], now⟩) }

/-- msgstore/fs.go:157-178 — the file to write to: the one kept open for this target name if it was opened with
the same path, otherwise the one that is opened now. -/
def fsOpened (st : FsSt M) (ent : Str) (path : FsPath) (now : Nat) : FsDisk M × Nat :=
  match st.files.get ent with
  | some h => if h.path ≠ path then fsOpen st.disk path now else (st.disk, h.node)
  | none => fsOpen st.disk path now

/-- msgstore/fs.go:139-208 — `Append` at the instant `now` of a message whose line is `l`; `false` is an
error, when the file was closed before it is written to. -/
def fsAppendMsg (D : Nat) (srt : List (Str × FsHandle) → List (Str × FsHandle)) (st : FsSt M) (net ent : Str)
    (l : FsLine M) (now : Nat) : FsSt M × Bool :=
  let path := fsLogPath D net ent l.time
  let opened := fsOpened st ent path now
  let files := fsEvict srt (st.files.set ent ⟨path, opened.2, now⟩)
  match files.get ent with
  | none => ({ disk := opened.1, files := files }, false)
  | some h => ({ disk := fsWrite opened.1 h.node l now, files := files }, true)

/-- Whether the directory of a network exists. -/
def fsNetExists (disk : FsDisk M) (dir : Str) : Bool := disk.paths.any (fun e => decide (e.1.net = dir))

/-- msgstore/fs.go:547-555 — `RenameNetwork`. -/
def fsRenameNetwork (st : FsSt M) (old new : Str) : FsSt M × Bool :=
  let oldDir := escapeFilename old
  let newDir := escapeFilename new
  if fsNetExists st.disk newDir then (st, false)
  else if fsNetExists st.disk oldDir = false then (st, false)
  else
    ({ st with disk := { st.disk with
        paths := st.disk.paths.map (fun e => if e.1.net = oldDir then ({ e.1 with net := newDir }, e.2) else e) } },
      true)

/-- What happens to a store: `Append`, `RenameNetwork`, and the end of the store (210-218 `Close`) with the
creation of a new one on the same directory (105-111 `NewFSStore`). -/
inductive FsOp (M : Type) where
  | append (net ent : Str) (l : FsLine M) (now : Nat)
  | rename (old new : Str)
  | restart
deriving DecidableEq, Repr

/-- One operation and whether it succeeded. -/
def fsStep (D : Nat) (srt : List (Str × FsHandle) → List (Str × FsHandle)) (st : FsSt M) : FsOp M → FsSt M × Bool
  | .append net ent l now => fsAppendMsg D srt st net ent l now
  | .rename old new => fsRenameNetwork st old new
  | .restart => ({ st with files := [] }, true)

/-- The state after a list of operations, and the operations with their results. -/
def fsExec (D : Nat) (srt : List (Str × FsHandle) → List (Str × FsHandle)) (ops : List (FsOp M)) :
    FsSt M × List (FsOp M × Bool) :=
  ops.foldl (fun s op => ((fsStep D srt s.1 op).1, s.2 ++ [(op, (fsStep D srt s.1 op).2)])) ({}, [])

/-- msgstore/fs.go:224-233, 283-292 — the files that the queries about a conversation read. -/
def fsFilesOf (disk : FsDisk M) (net ent : Str) : FsFiles M := fun d =>
  match disk.paths.get ⟨escapeFilename net, escapeFilename ent, d⟩ with
  | none => []
  | some i => match disk.nodes[i]? with
    | none => []
    | some n => n.lines

/-- msgstore/fs.go:462-466 — the names in the directory of a network. -/
def fsTargetDirs (disk : FsDisk M) (dir : Str) : List Str :=
  ((disk.paths.filter (fun e => decide (e.1.net = dir))).map (·.1.ent)).eraseDups

/-- msgstore/fs.go:476-487 — the newest modification time in the directory of a conversation (0 is the zero
time). -/
def fsDirTime (disk : FsDisk M) (dir ent : Str) : Nat :=
  (disk.paths.filter (fun e => decide (e.1.net = dir ∧ e.1.ent = ent))).foldl
    (fun t e => match disk.nodes[e.2]? with
      | none => t
      | some n => if n.mtime > t then n.mtime else t) 0

/-- msgstore/fs.go:562-565 — `truncateSecond`. -/
def fsTruncSecond (t : Nat) : Nat := t - t % 1000000000

/-- msgstore/fs.go:567-572 — `isTimeBetween`. -/
def fsIsBetween (t start stop : Nat) : Bool :=
  let (a, b) := if stop < start then (stop, start) else (start, stop)
  decide (a < t) && decide (t < b)

/-- msgstore/fs.go:507-514 — the comparison given to `sort.Slice`. -/
def fsTargetLess (start stop : Nat) (x y : Str × Nat) : Bool :=
  if start < stop then decide (x.2 < y.2) else !decide (x.2 < y.2)

/-- msgstore/fs.go:445-522 — `ListTargets` (`events` is not used); `srt less` is `sort.Slice`. -/
def fsListTargets (srt : (Str × Nat → Str × Nat → Bool) → List (Str × Nat) → List (Str × Nat)) (disk : FsDisk M)
    (net : Str) (start stop limit : Nat) : List (Str × Nat) :=
  let dir := escapeFilename net
  if fsNetExists disk dir = false then []
  else
    let targets := ((fsTargetDirs disk dir).map (fun ent => (ent, fsTruncSecond (fsDirTime disk dir ent)))).filter
      (fun p => fsIsBetween p.2 start stop)
    let targets := srt (fsTargetLess start stop) targets
    if targets.length > limit then targets.take limit else targets

/-- `strings.Contains(s, sub)`. -/
def fsContains (sub : Str) : Str → Bool
  | [] => sub.isPrefixOf []
  | c :: s => sub.isPrefixOf (c :: s) || fsContains sub s

/-- msgstore/fs.go:526-534 — the selector of `Search`: `lower` is `strings.ToLower`, `name` and `text` give the
sender and the second parameter of a message. -/
def fsSearchSel (lower : Str → Str) (name text : M → Str) (sender query : Str) (m : M) : Bool :=
  if sender ≠ [] ∧ name m ≠ sender then false
  else if lower query ≠ [] ∧ fsContains (lower query) (lower (text m)) = false then false
  else true

/-- msgstore/fs.go:524-545 — `Search` (0 is the zero time). -/
def fsSearch (D : Nat) (lower : Str → Str) (name text : M → Str) (files : FsFiles M)
    (now start stop limit : Nat) (sender query : Str) : List (Option M) :=
  if start ≠ 0 then (fsGetAfter D files now start stop limit (fsSearchSel lower name text sender query)).map some
  else fsGetBefore D files now stop start limit (fsSearchSel lower name text sender query)

end Verif.Model
