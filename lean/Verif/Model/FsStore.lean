import Verif.Basic

/-! # Model of the log-file message store (msgstore/fs.go): history queries

Instants are nanoseconds since year 1 (so that Go's zero time is 0), in a time zone whose days all
last `D` nanoseconds (simplification: no daylight saving time).  The log of one target of one network is
a function from day numbers to files; a missing file is the empty file.  A file is a list of lines; a
line has its size in bytes including the newline, the instant `UnmarshalLine` computes for it, and the
parsed message if the line is one that the query accepts (`none`: skipped by `msg == nil`).  Lines that
`UnmarshalLine` rejects with an error do not occur (the store itself writes none); context cancellation
and I/O errors are not modelled.  The text format is the subject of C15. -/

namespace Verif.Model

/-- A line of a log file, as seen by the scanning loops. -/
structure FsLine (M : Type) where
  size : Nat
  time : Nat
  msg : Option M
deriving Repr, DecidableEq

/-- The files of one target, by day. -/
abbrev FsFiles (M : Type) := Nat → List (FsLine M)

variable {M : Type}

/-- msgstore/fs.go:24 — `fsMessageStoreMaxTries`. -/
def fsMaxTries : Nat := 100

/-- msgstore/fs.go:247-262 — the scanning loop of `parseMessagesBefore` on the history ring and its
cursor. -/
def fsBeforeLoop (ref endT limit : Nat) (sel : M → Bool) :
    List (FsLine M) → List (Option M) × Nat → List (Option M) × Nat
  | [], st => st
  | l :: ls, (ring, cur) =>
    match l.msg with
    | none => fsBeforeLoop ref endT limit sel ls (ring, cur)
    | some m =>
      if ¬ l.time > endT then fsBeforeLoop ref endT limit sel ls (ring, cur)
      else if ¬ l.time < ref then (ring, cur)
      else if sel m then
        fsBeforeLoop ref endT limit sel ls (ring.set (cur % limit) (some m), cur + 1)
      else fsBeforeLoop ref endT limit sel ls (ring, cur)

/-- msgstore/fs.go:267-280 — unrolling the ring. -/
def fsUnroll (limit : Nat) (st : List (Option M) × Nat) : List (Option M) :=
  let (ring, cur) := st
  let n := if cur < limit then cur else limit
  let start := (cur - n + limit) % limit
  if start + n ≤ limit then (ring.drop start).take n
  else ring.drop start ++ ring.take (n - (limit - start))

/-- msgstore/fs.go:240-245 — seek to `offset` and skip till the next newline: the lines left are those
that start after `offset` (`pos` is where the first line starts). -/
def fsSkipTo (offset : Nat) (pos : Nat) : List (FsLine M) → List (FsLine M)
  | [] => []
  | l :: ls => if pos > offset then l :: ls else fsSkipTo offset (pos + l.size) ls

/-- msgstore/fs.go:224-281 — `parseMessagesBefore` on the file of `ref`'s day; `afterOffset` is `none`
for -1.  `options.Limit` is positive (the callers' loops check `remaining > 0`). -/
def fsParseBefore (D : Nat) (files : FsFiles M) (ref endT limit : Nat) (afterOffset : Option Nat)
    (sel : M → Bool) : List (Option M) :=
  let lines := files (ref / D)
  let lines := match afterOffset with
    | none => lines
    | some o => fsSkipTo o 0 lines
  fsUnroll limit (fsBeforeLoop ref endT limit sel lines (List.replicate limit none, 0))

/-- msgstore/fs.go:294-310 — the scanning loop of `parseMessagesAfter`. -/
def fsAfterLoop (ref endT limit : Nat) (sel : M → Bool) : List (FsLine M) → List M → List M
  | [], history => history
  | l :: ls, history =>
    if ¬ history.length < limit then history
    else match l.msg with
      | none => fsAfterLoop ref endT limit sel ls history
      | some m =>
        if ¬ l.time > ref then fsAfterLoop ref endT limit sel ls history
        else if ¬ l.time < endT then history
        else if sel m then fsAfterLoop ref endT limit sel ls (history ++ [m])
        else fsAfterLoop ref endT limit sel ls history

/-- msgstore/fs.go:283-316 — `parseMessagesAfter`. -/
def fsParseAfter (D : Nat) (files : FsFiles M) (ref endT limit : Nat) (sel : M → Bool) : List M :=
  fsAfterLoop ref endT limit sel (files (ref / D)) []

/-- msgstore/fs.go:328-350 — the loop of `getBeforeTime`; `d` is the day of `start` (each iteration
moves `start` to the last nanosecond of the previous day).  The buffer `messages[remaining:]` is the
concatenation of the chunks. -/
def fsBeforeDays (D : Nat) (files : FsFiles M) (endT : Nat) (sel : M → Bool) :
    (d start remaining tries : Nat) → List (Option M)
  | d, start, remaining, tries =>
    if remaining > 0 ∧ tries < fsMaxTries ∧ endT < start then
      let buf := fsParseBefore D files start endT remaining none sel
      let tries := if buf.length = 0 then tries + 1 else 0
      match d with
      | 0 => buf
      | d + 1 =>
        fsBeforeDays D files endT sel d ((d + 1) * D - 1) (remaining - buf.length) tries ++ buf
    else []

/-- msgstore/fs.go:318-351 — `getBeforeTime` (`start` zero means now). -/
def fsGetBefore (D : Nat) (files : FsFiles M) (now start endT limit : Nat) (sel : M → Bool) :
    List (Option M) :=
  let start := if start = 0 then now else start
  fsBeforeDays D files endT sel (start / D) start limit 0

/-- msgstore/fs.go:366-388 — the loop of `getAfterTime`; `fuel` bounds the number of days left
(`fsGetAfter` passes one more than the number of days up to `end`). -/
def fsAfterDays (D : Nat) (files : FsFiles M) (endT : Nat) (sel : M → Bool) :
    (fuel start remaining tries : Nat) → List M
  | 0, _, _, _ => []
  | fuel + 1, start, remaining, tries =>
    if remaining > 0 ∧ tries < fsMaxTries ∧ start < endT then
      let buf := fsParseAfter D files start endT remaining sel
      let tries := if buf.length = 0 then tries + 1 else 0
      buf ++ fsAfterDays D files endT sel fuel ((start / D + 1) * D) (remaining - buf.length) tries
    else []

/-- msgstore/fs.go:357-389 — `getAfterTime` (`end` zero means now). -/
def fsGetAfter (D : Nat) (files : FsFiles M) (now start endT limit : Nat) (sel : M → Bool) : List M :=
  let endT := if endT = 0 then now else endT
  fsAfterDays D files endT sel (endT / D + 1 - start / D + 1) start limit 0

/-- A log-file message ID (fs.go:50-74): day and offset, `none` for the offset -1. -/
structure FsID where
  day : Nat
  offset : Option Nat
deriving DecidableEq, Repr

/-- msgstore/fs.go:415-442 — the loop of `LoadLatestID`; `d` is the day of `t`. -/
def fsLatestDays (D : Nat) (files : FsFiles M) (id : FsID) : (d t remaining tries : Nat) → List (Option M)
  | d, t, remaining, tries =>
    if remaining > 0 ∧ tries < fsMaxTries ∧ ¬ d < id.day then
      let offset := if d = id.day then id.offset else none
      let buf := fsParseBefore D files t 0 remaining offset (fun _ => true)
      let tries := if buf.length = 0 then tries + 1 else 0
      match d with
      | 0 => buf
      | d + 1 => fsLatestDays D files id d ((d + 1) * D - 1) (remaining - buf.length) tries ++ buf
    else []

/-- msgstore/fs.go:395-443 — `LoadLatestID` with the ID of this network and target (others are an
error).  The empty ID is day 0 without offset. -/
def fsLoadLatest (D : Nat) (files : FsFiles M) (now : Nat) (id : FsID) (limit : Nat) : List (Option M) :=
  fsLatestDays D files id (now / D) now limit 0

/-- Size of a file. -/
def fsFileSize (ls : List (FsLine M)) : Nat := (ls.map (·.size)).sum

/-- msgstore/fs.go:139-208 — `Append` of a line to the file of its day: new files and the ID, whose
offset is the size of the file before writing (lines 120-126). -/
def fsAppend (D : Nat) (files : FsFiles M) (l : FsLine M) : FsFiles M × FsID :=
  let d := l.time / D
  (fun d' => if d' = d then files d ++ [l] else files d', ⟨d, some (fsFileSize (files d))⟩)

/-- msgstore/fs.go:128-137 — `LastMsgID` at instant `t`: size minus one of the day's file, -1 if there is
none. -/
def fsLastMsgID (D : Nat) (files : FsFiles M) (t : Nat) : FsID :=
  let d := t / D
  if files d = [] then ⟨d, none⟩ else ⟨d, some (fsFileSize (files d) - 1)⟩

end Verif.Model
