import Verif.Model.SqDb
import Verif.Model.Flags
import Verif.Model.AuthDriver

/-! # Model of the program that manages accounts without the server

cmd/sojudb/main.go, with an SQLite database.  The arguments are those after the flags of the program (`-config`); the
configuration and the opening of the database are not modelled. -/

namespace Verif.Model

/-- Where the password comes from: a terminal (a line, or an error), or the bytes of the standard input. -/
inductive PwInput
  | terminal (line : Option Str)
  | stdin (bytes : Str)
deriving DecidableEq, Repr

/-- `bufio.ScanLines`: a carriage return before the line feed is dropped. -/
def pwDropCR (l : Str) : Str := if l.getLast? = some 13 then l.dropLast else l

/-- `bufio.Scanner.Scan`, once: the first line, the last one without line feed; `none` if there is none or if it does not
fit into 64 KiB.  (A read error after some bytes is taken for the end, as by the library.) -/
def pwScan (bytes : Str) : Option Str :=
  match cutStr [10] bytes with
  | some (l, _) => if l.length < 65536 then some (pwDropCR l) else none
  | none => if bytes = [] ∨ 65536 ≤ bytes.length then none else some (pwDropCR bytes)

/-- cmd/sojudb/main.go:116-146 — `readPassword`. -/
def readPassword : PwInput → Option Str
  | .terminal line => line
  | .stdin bytes =>
    match pwScan bytes with
    | none => none
    | some password => if password.length = 0 then none else some password

/-- cmd/sojudb/main.go:68-69 — the flags of `create-user`. -/
def sjFormal (name : Str) : Option (FlagDef Bool) :=
  if name = b!"admin" then some ⟨true, fun v _ => parseBool v⟩ else none

/-- cmd/sojudb/main.go:61-86 — `create-user`; the result is whether the program ends without an error.  (`-h` after the
name also ends it without one; here it is an error.) -/
def sjCreate (lib : BcryptLib) (salt : Nat) (now : Int) (input : PwInput) (db : SqDb) (args : List Str) : SqDb × Bool :=
  let username := args.head?.getD []
  if username = [] then (db, false)
  else
    match parseFlags sjFormal (args.drop 1) false with
    | none => (db, false)
    | some (admin, _) =>
      match readPassword input with
      | none => (db, false)
      | some password =>
        match lib.gen salt password with
        | none => (db, false)
        | some h =>
          let r := sqStoreUser db now { username := username, password := h, admin := admin, enabled := true, maxNetworks := -1 }
          (r.1, r.2.isSome)

/-- cmd/sojudb/main.go:87-109 — `change-password`. -/
def sjChange (lib : BcryptLib) (salt : Nat) (now : Int) (input : PwInput) (db : SqDb) (args : List Str) : SqDb × Bool :=
  let username := args.head?.getD []
  if username = [] then (db, false)
  else
    match sqGetUser db username with
    | none => (db, false)
    | some user =>
      match readPassword input with
      | none => (db, false)
      | some password =>
        match lib.gen salt password with
        | none => (db, false)
        | some h =>
          let r := sqStoreUser db now { user with password := h }
          (r.1, r.2.isSome)

/-- cmd/sojudb/main.go:60-115 — the command. -/
def sojudb (lib : BcryptLib) (salt : Nat) (now : Int) (input : PwInput) (db : SqDb) (args : List Str) : SqDb × Bool :=
  let cmd := args.head?.getD []
  if cmd = b!"create-user" then sjCreate lib salt now input db (args.drop 1)
  else if cmd = b!"change-password" then sjChange lib salt now input db (args.drop 1)
  else (db, decide (cmd = b!"help"))

end Verif.Model
