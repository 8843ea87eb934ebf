import Verif.Model.Url
import Verif.Model.Caps
import Verif.Model.GoMap

/-! # Model of the ident server (identd/identd.go) -/

namespace Verif.Model

/-- identd/identd.go:18-22: `identKey`. -/
structure IdentKey where
  remoteHost : Str
  remotePort : Int
  localPort : Int
  deriving DecidableEq, Repr

/-- identd/identd.go:40-47: `splitHostPort`. -/
def identSplit (addr : Str) : Option (Str × Int) :=
  match splitHostPort addr with
  | none => none
  | some (host, portStr) => if (atoi portStr).2 then some (host, (atoi portStr).1) else none

/-- identd/identd.go:24-38: `newIdentKey`. -/
def newIdentKey (remoteAddr localAddr : Str) : Option IdentKey :=
  match identSplit remoteAddr with
  | none => none
  | some (remoteHost, remotePort) =>
    match identSplit localAddr with
    | none => none
    | some (_, localPort) => some ⟨remoteHost, remotePort, localPort⟩

/-- identd/identd.go:50-53: the entries. -/
abbrev IdentEntries := GoMap IdentKey Str

/-- identd/identd.go:59-67: `Store`. -/
def identStore (entries : IdentEntries) (remoteAddr localAddr ident : Str) : IdentEntries :=
  match newIdentKey remoteAddr localAddr with
  | none => entries
  | some k => GoMap.set entries k ident

/-- identd/identd.go:69-77: `Delete`. -/
def identDelete (entries : IdentEntries) (remoteAddr localAddr : Str) : IdentEntries :=
  match newIdentKey remoteAddr localAddr with
  | none => entries
  | some k => GoMap.del entries k

/-- `strings.TrimSpace` (simplification: only ASCII white space). -/
def trimSpace (s : Str) : Str := ((s.dropWhile isSpaceByte).reverse.dropWhile isSpaceByte).reverse

/-- identd/identd.go:137-153: `parseIdentQuery`: local port, remote port. -/
def parseIdentQuery (l : Str) : Option (Int × Int) :=
  match cutStr b!"," l with
  | none => none
  | some (a, b) =>
    if (atoi (trimSpace a)).2 = false then none
    else if (atoi (trimSpace b)).2 = false then none
    else if (atoi (trimSpace a)).1 ≤ 0 ∨ (atoi (trimSpace b)).1 ≤ 0 then none
    else some ((atoi (trimSpace a)).1, (atoi (trimSpace b)).1)

/-- identd/identd.go:107-134: the answer to one line, and whether the server goes on reading. -/
def identAnswer (entries : IdentEntries) (remoteHost l : Str) : Str × Bool :=
  match parseIdentQuery l with
  | none => (l ++ b!" : ERROR : INVALID-PORT" ++ [13, 10], false)
  | some (localPort, remotePort) =>
    let ident := (GoMap.get entries ⟨remoteHost, remotePort, localPort⟩).getD []
    if ident = [] then (l ++ b!" : ERROR : NO-USER" ++ [13, 10], false)
    else (l ++ b!" : USERID : UNKNOWN : " ++ ident ++ [13, 10], true)

/-- identd/identd.go:89-135: `handle`: the lines a client sends, each with the entries at that moment, and the
answers. -/
def identHandle (remoteHost : Str) : List (Str × IdentEntries) → List Str
  | [] => []
  | (l, entries) :: rest =>
    if (identAnswer entries remoteHost l).2 then (identAnswer entries remoteHost l).1 :: identHandle remoteHost rest
    else [(identAnswer entries remoteHost l).1]

/-- `net.JoinHostPort`, which `net.TCPAddr.String` uses: hosts with colons are put in brackets. -/
def joinHostPort (host : Str) (port : Nat) : Str :=
  if 58 ∈ host then b!"[" ++ host ++ b!"]:" ++ itoa port else host ++ b!":" ++ itoa port

/-- A connection to a server: host and port of the server, host and port on this side, and the ident string of
the user (user.go:210-219). -/
structure IdentConn where
  remoteHost : Str
  remotePort : Nat
  localHost : Str
  localPort : Nat
  ident : Str
  deriving DecidableEq, Repr

/-- user.go:243-246: what happens when a connection begins and ends. -/
inductive IdentOp
  | opened (c : IdentConn)
  | closed (c : IdentConn)
  deriving DecidableEq, Repr

/-- user.go:244-245. -/
def identStep (entries : IdentEntries) : IdentOp → IdentEntries
  | .opened c => identStore entries (joinHostPort c.remoteHost c.remotePort) (joinHostPort c.localHost c.localPort) c.ident
  | .closed c => identDelete entries (joinHostPort c.remoteHost c.remotePort) (joinHostPort c.localHost c.localPort)

/-- A history of connections. -/
def identRun (ops : List IdentOp) : IdentEntries := ops.foldl identStep []

end Verif.Model
