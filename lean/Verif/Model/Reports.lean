import Verif.Model.Casemap
import Verif.Model.Flags
import Verif.Model.GoNum
import Verif.Model.GenMsg

/-! # Model of what the service reports

service.go: `channel status`, `network status`, `user status`, `server status` and `server notice`.  The order in which
Go iterates a map and `sort.Slice` are parameters.  `ctx.print` is a list of lines. -/

namespace Verif.Model

/-- database/database.go:244-256 — a saved channel, as far as it is reported. -/
structure RpChan where
  name : Str
  detached : Bool
deriving DecidableEq, Repr

/-- upstream.go:193-240 — a connection to a server: the nick there and the channels joined. -/
structure RpConn where
  nick : Str
  channels : CMMap Unit
deriving Repr

/-- user.go:149-161, database/database.go:157-170 — a network of a user. -/
structure RpNet where
  id : Nat
  name : Str
  addr : Str
  enabled : Bool
  channels : CMMap RpChan
  conn : Option RpConn
  lastError : Option Str
deriving Repr

/-- database/database.go:180-185 — `GetName`. -/
def RpNet.getName (n : RpNet) : Str := if n.name ≠ [] then n.name else n.addr

/-- user.go:574-584 — `getNetwork`. -/
def rpGetNetwork (nets : List RpNet) (name : Str) : Option RpNet :=
  nets.find? (fun n => decide (n.addr = name) || (decide (n.name ≠ []) && decide (n.name = name)))

/-- service.go:1301-1304 — the order in which channels are listed; `strings.ReplaceAll(…, "#", "")` removes these
characters. -/
def chanLess (a b : RpChan) : Bool :=
  strLt (a.name.filter (fun c => decide (c ≠ 35))) (b.name.filter (fun c => decide (c ≠ 35)))

/-- service.go:1306-1335 — the line of a channel; `all` tells that the channels of all networks are listed. -/
def chanLine (all : Bool) (net : RpNet) (ch : RpChan) : Str :=
  let name := if all then ch.name ++ b!"/" ++ net.getName else ch.name
  let status :=
    match net.conn with
    | some uc => if (uc.channels.get ch.name).isSome then b!"joined" else b!"parted"
    | none => b!"disconnected"
  let status := if ch.detached then status ++ b!", detached" else status
  name ++ b!" [" ++ status ++ b!"]"

/-- service.go:1295-1337 — `sendNetwork`; `sort` is `sort.Slice`. -/
def chanLines (sort : (RpChan → RpChan → Bool) → List RpChan → List RpChan) (all : Bool) (net : RpNet) : List Str :=
  (sort chanLess (net.channels.forEach.map (·.2))).map (chanLine all net)

/-- service.go:1286-1287 — the flag. -/
def statusFormal (name : Str) : Option (FlagDef Str) :=
  if name = b!"network" then some ⟨false, fun v _ => some v⟩ else none

/-- service.go:1280-1357 — `handleServiceChannelStatus`; `none` is an error.  `current` is the network of the
client. -/
def channelStatus (sort : (RpChan → RpChan → Bool) → List RpChan → List RpChan) (nets : List RpNet)
    (current : Option RpNet) (params : List Str) : Option (List Str) :=
  match parseFlags statusFormal params ((current.map RpNet.getName).getD []) with
  | none => none
  | some (networkName, rest) =>
    if rest.length > 0 then none
    else
      let lines :=
        if networkName = [] then some (nets.flatMap (chanLines sort true))
        else (rpGetNetwork nets networkName).map (chanLines sort false)
      lines.map (fun ls => if ls.length = 0 then [b!"No channel configured."] else ls)

/-- service.go:639-670 — the line of a network.  `nick` is the nick of the client that asks (empty if there is none)
and `current` the identifier of its network. -/
def netLine (nick : Str) (current : Option Nat) (net : RpNet) : Str :=
  let (status, details) : Str × Str :=
    match net.conn with
    | some uc =>
      (if nick ≠ [] ∧ nick ≠ uc.nick then b!"connected as " ++ uc.nick else b!"connected",
        itoa uc.channels.len ++ b!" channels")
    | none =>
      if net.enabled = false then (b!"disabled", [])
      else (b!"disconnected", net.lastError.getD [])
  let statuses := status :: (if current = some net.id then [b!"current"] else [])
  let name := if net.getName ≠ net.addr then net.getName ++ b!" (" ++ net.addr ++ b!")" else net.getName
  let s := name ++ b!" [" ++ joinStr b!", " statuses ++ b!"]"
  if details ≠ [] then s ++ b!": " ++ details else s

/-- service.go:632-680 — `handleServiceNetworkStatus`. -/
def networkStatus (nets : List RpNet) (nick : Str) (current : Option Nat) (params : List Str) : Option (List Str) :=
  if params.length ≠ 0 then none
  else if nets.length = 0 then some [b!"No network configured, add one with \"network create\"."]
  else some (nets.map (netLine nick current))

/-- database/database.go:90-100 — a user, as far as it is reported. -/
structure RpUser where
  username : Str
  admin : Bool
  enabled : Bool
  maxNetworks : Int
deriving DecidableEq, Repr

/-- service.go:975-995 — the line of a user with this number of networks. -/
def userLine (u : RpUser) (networks : Nat) : Str :=
  let attrs := (if u.admin then [b!"admin"] else []) ++ (if u.enabled = false then [b!"disabled"] else [])
  let line := if attrs.length > 0 then u.username ++ b!" (" ++ joinStr b!", " attrs ++ b!")" else u.username
  let line := line ++ b!": " ++ itoa networks ++ b!" networks"
  if u.maxNetworks ≥ 0 then line ++ b!" (" ++ itoaInt u.maxNetworks ++ b!" max)" else line

/-- service.go:974-996 — the lines of the users; `false` is an error of the database, which ends the list.  `count`
is the number of networks of a user in the database. -/
def userLines (count : Str → Option Nat) : List RpUser → List Str × Bool
  | [] => ([], true)
  | u :: us => match count u.username with
    | none => ([], false)
    | some n => let r := userLines count us; (userLine u n :: r.1, r.2)

/-- service.go:944-1002 — `handleUserStatus`; `users` is the map of the users of the server, in the order of the
iteration. -/
def userStatus (count : Str → Option Nat) (users : List RpUser) (params : List Str) : List Str × Bool :=
  match params with
  | [] =>
    let shown := users.take 50
    let r := userLines count shown
    if r.2 = true ∧ users.length > shown.length then
      (r.1 ++ [b!"(" ++ itoa (users.length - shown.length) ++ b!" more users omitted)"], true)
    else r
  | [username] =>
    match users.find? (fun u => decide (u.username = username)) with
    | none => ([], false)
    | some u => userLines count [u]
  | _ => ([], false)

/-- A user as `server notice` sees it: the clients connected, and whether the event reaches the event loop of the user
before the command is given up (`ctx.Done()`). -/
structure RpLoop where
  clients : List Nat
  reached : Bool
deriving DecidableEq, Repr

/-- service.go:1582-1618 — `handleServiceServerNotice`, and user.go:818-822: the clients the notice is sent to, and
the answer. -/
def serverNotice (loops : List RpLoop) : List Nat × Str :=
  let sent := loops.filter (·.reached)
  (sent.flatMap (·.clients),
    b!"sent to " ++ itoa sent.length ++ b!"/" ++ itoa loops.length ++ b!" downstream connections")

end Verif.Model
