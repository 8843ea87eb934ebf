import Verif.Model.Url
import Verif.Model.GoNum

/-! # Model of a user's networks

user.go:574-593, 956-1190; database/database.go:160-205; downstream.go:92-201, 1370-1440, 3072-3203;
service.go:493-729.  Flag parsing is not modelled: a command comes with the flags it carries.  A database
write may fail for any reason (including its uniqueness constraints); whether it does is part of the
operation. -/

namespace Verif.Model

/-- database/database.go:135-156 — `SASL`. -/
structure SaslRec where
  mechanism : Str := []
  plainUsername : Str := []
  plainPassword : Str := []
  certBlob : Str := []
  privKeyBlob : Str := []
deriving DecidableEq, Repr

/-- database/database.go:158-171 — `Network`. -/
structure NetRec where
  id : Nat := 0
  name : Str := []
  addr : Str
  nick : Str := []
  username : Str := []
  realname : Str := []
  pass : Str := []
  connectCommands : List Str := []
  certFP : Str := []
  sasl : SaslRec := {}
  autoAway : Bool := true
  enabled : Bool := true
deriving DecidableEq, Repr

/-- database/database.go:180-185 — `GetName`. -/
def NetRec.getName (n : NetRec) : Str := if n.name ≠ [] then n.name else n.addr

/-- database/database.go:187-205 — `URL`. -/
def netUrl (lib : UrlLib) (addr : Str) : Option Url :=
  let s := if (cutStr b!"://" addr).isNone then b!"ircs://" ++ addr else addr
  match urlParse lib s with
  | none => none
  | some u =>
    if u.scheme = b!"irc+unix" ∨ u.scheme = b!"unix" then some { u with path := u.host ++ u.path, host := [] }
    else some u

/-- upstream.go:246-346 — what `connectToUpstream` dials. -/
inductive Dial
  | tls (host : Str)
  | plain (host : Str)
  | unix (path : Str)
deriving DecidableEq, Repr

/-- upstream.go:246-346 (the default ports are left out). -/
def dialTarget (lib : UrlLib) (addr : Str) : Option Dial :=
  match netUrl lib addr with
  | none => none
  | some u =>
    if u.scheme = b!"ircs" then some (.tls u.host)
    else if u.scheme = b!"irc+insecure" then some (.plain u.host)
    else if u.scheme = b!"irc+unix" ∨ u.scheme = b!"unix" then some (.unix u.path)
    else none

/-- A user and their networks. -/
structure NwState where
  username : Str
  nick : Str
  realname : Str
  admin : Bool
  maxNetworks : Int
  /-- the configured limit (`MaxUserNetworks`) -/
  cfgMax : Int
  networks : List NetRec
deriving DecidableEq, Repr

/-- user.go:986-992 — the limit in force, `none` if there is none. -/
def NwState.limit (st : NwState) : Option Int :=
  let max := if st.maxNetworks < 0 then st.cfgMax else st.maxNetworks
  if max < 0 then none else some max

/-- user.go:993-998 — the number of enabled networks. -/
def NwState.enabledCount (st : NwState) : Nat := (st.networks.filter (fun n => n.enabled)).length

/-- user.go:985-1003 — `canEnableNewNetwork`. -/
def canEnableNewNetwork (st : NwState) : Bool :=
  match st.limit with
  | none => true
  | some max => !decide ((st.enabledCount : Int) ≥ max)

/-- user.go:1005-1042 — the checks on the URL of an address. -/
def checkUrl (admin : Bool) (u : Url) : Bool :=
  if u.user then false
  else if u.rawQuery ≠ [] then false
  else if u.fragment ≠ [] then false
  else if u.scheme = b!"ircs" ∨ u.scheme = b!"irc+insecure" then decide (u.host ≠ []) && decide (u.path = [])
  else if u.scheme = b!"irc+unix" ∨ u.scheme = b!"unix" then
    admin && decide (u.host = []) && decide (u.path ≠ [])
  else false

/-- user.go:1005-1056 — `checkNetwork`. -/
def checkNetwork (lib : UrlLib) (st : NwState) (r : NetRec) : Bool :=
  match netUrl lib r.addr with
  | none => false
  | some u =>
    checkUrl st.admin u && decide (r.getName ≠ []) && !hasPrefix b!"-" r.getName &&
    st.networks.all (fun net => !(decide (net.getName = r.getName) && decide (net.id ≠ r.id)))

/-- user.go:956-964 — `addNetwork`: append and sort by ID.  The list is sorted already and the IDs are
distinct, so this is an insertion. -/
def addNetwork : List NetRec → NetRec → List NetRec
  | [], n => [n]
  | m :: l, n => if n.id < m.id then n :: m :: l else m :: addNetwork l n

/-- user.go:966-983 — `removeNetwork` (the first one with this ID; the code compares pointers). -/
def removeNetwork : List NetRec → Nat → List NetRec
  | [], _ => []
  | m :: l, id => if m.id = id then l else m :: removeNetwork l id

/-- user.go:574-584 — `getNetwork`. -/
def getNetwork (st : NwState) (name : Str) : Option NetRec :=
  st.networks.find? (fun n => decide (n.addr = name) || (decide (n.name ≠ []) && decide (n.name = name)))

/-- user.go:586-593 — `getNetworkByID`. -/
def getNetworkByID (st : NwState) (id : Nat) : Option NetRec :=
  st.networks.find? (fun n => decide (n.id = id))

/-- user.go:1058-1085 — `createNetwork`.  `db` is the ID the database assigns, `none` if the write fails; an
ID in use (or 0) cannot be assigned. -/
def createNetwork (lib : UrlLib) (st : NwState) (r : NetRec) (enforceLimit : Bool) (db : Option Nat) :
    Option NwState :=
  if enforceLimit && r.enabled && !canEnableNewNetwork st then none
  else if !checkNetwork lib st r then none
  else match db with
  | none => none
  | some id =>
    if id = 0 ∨ (getNetworkByID st id).isSome then none
    else some { st with networks := addNetwork st.networks { r with id := id } }

/-- user.go:1087-1165 — `updateNetwork`, for a record with the ID of an existing network; `dbOk` says whether
the write succeeds. -/
def updateNetwork (lib : UrlLib) (st : NwState) (r : NetRec) (enforceLimit dbOk : Bool) : Option NwState :=
  if enforceLimit && r.enabled && !canEnableNewNetwork st then none
  else
    let r := if r.nick = st.nick then { r with nick := [] } else r
    let r := if r.realname = st.realname then { r with realname := [] } else r
    if !checkNetwork lib st r then none
    else if !dbOk then none
    else some { st with networks := addNetwork (removeNetwork st.networks r.id) r }

/-- user.go:1167-1190 — `deleteNetwork`. -/
def deleteNetwork (st : NwState) (id : Nat) (dbOk : Bool) : Option NwState :=
  if !dbOk then none else some { st with networks := removeNetwork st.networks id }

/-- service.go:509-515 — the flags of `network create` and `network update`. -/
structure NetFlags where
  addr : Option Str := none
  name : Option Str := none
  nick : Option Str := none
  username : Option Str := none
  pass : Option Str := none
  realname : Option Str := none
  certFP : Option Str := none
  autoAway : Option Bool := none
  enabled : Option Bool := none
  ignoreLimit : Bool := false
  connectCommands : List Str := []
deriving DecidableEq, Repr

/-- `hex.DecodeString` succeeds. -/
def isHex (s : Str) : Bool := decide (s.length % 2 = 0) && s.all (fun c => (hexDigitVal c).isSome)

/-- service.go:534-544 — the address flag. -/
def flagAddr (addr : Option Str) (r : NetRec) : Option NetRec :=
  match addr with
  | none => some r
  | some a => match cutStr b!"://" a with
    | some (scheme, _) =>
      if scheme = b!"ircs" ∨ scheme = b!"irc+insecure" ∨ scheme = b!"unix" then some { r with addr := a } else none
    | none => some { r with addr := a }

/-- service.go:545-550 — the name flag. -/
def flagName (name : Option Str) (r : NetRec) : Option NetRec :=
  match name with
  | none => some r
  | some n => if n = b!"*" then none else some { r with name := n }

/-- service.go:563-577 — the fingerprint flag. -/
def flagCertFP (fp : Option Str) (r : NetRec) : Option NetRec :=
  match fp with
  | none => some r
  | some fp =>
    let certFP := asciiLower (fp.filter (fun c => decide (c ≠ 58)))
    if !isHex certFP then none
    else if certFP.length = 0 then some { r with certFP := [] }
    else if certFP.length = 64 then some { r with certFP := b!"sha-256:" ++ certFP }
    else if certFP.length = 128 then some { r with certFP := b!"sha-512:" ++ certFP }
    else none

/-- service.go:584-598 — the connect-command flags; `ircOk` is whether `irc.ParseMessage` succeeds. -/
def flagConnectCommands (ircOk : Str → Bool) (cmds : List Str) (r : NetRec) : Option NetRec :=
  if cmds = [] then some r
  else if cmds = [[]] then some { r with connectCommands := [] }
  else if cmds.length > 20 then none
  else if cmds.all ircOk then some { r with connectCommands := cmds } else none

/-- service.go:533-601 — `networkFlagSet.update`. -/
def NetFlags.update (ircOk : Str → Bool) (fs : NetFlags) (r : NetRec) : Option NetRec := do
  let r ← flagAddr fs.addr r
  let r ← flagName fs.name r
  let r := { r with nick := fs.nick.getD r.nick, username := fs.username.getD r.username,
                        pass := fs.pass.getD r.pass, realname := fs.realname.getD r.realname }
  let r ← flagCertFP fs.certFP r
  let r := { r with autoAway := fs.autoAway.getD r.autoAway, enabled := fs.enabled.getD r.enabled }
  flagConnectCommands ircOk fs.connectCommands r

/-- The attributes of a BOUNCER command; `unknown` says whether there is another one. -/
structure NetAttrs where
  host : Option Str := none
  port : Option Str := none
  tls : Option Str := none
  name : Option Str := none
  nickname : Option Str := none
  username : Option Str := none
  realname : Option Str := none
  pass : Option Str := none
  unknown : Bool := false
deriving DecidableEq, Repr

/-- downstream.go:92-113 — `fillNetworkAddrAttrs`: host, port and tls. -/
def fillNetworkAddrAttrs (lib : UrlLib) (addr : Str) : NetAttrs :=
  match netUrl lib addr with
  | none => {}
  | some u =>
    if u.scheme = b!"ircs" ∨ u.scheme = b!"irc+insecure" then
      let tls := if u.scheme = b!"ircs" then b!"1" else b!"0"
      match splitHostPort u.host with
      | some (host, port) => { host := some host, port := some port, tls := some tls }
      | none => { host := some u.host, tls := some tls }
    else {}

/-- downstream.go:143-159 — `networkAddrFromAttrs`. -/
def networkAddrFromAttrs (attrs : NetAttrs) : Str :=
  let host := attrs.host.getD []
  if host = [] then []
  else
    let port := attrs.port.getD []
    let addr := if port ≠ [] then host ++ b!":" ++ port else host
    if attrs.tls.getD [] = b!"0" then b!"irc+insecure://" ++ addr else addr

/-- downstream.go:161-201 — `updateNetworkAttrs`. -/
def updateNetworkAttrs (lib : UrlLib) (r : NetRec) (attrs : NetAttrs) : Option NetRec :=
  if attrs.unknown then none
  else
    let r := { r with name := attrs.name.getD r.name, nick := attrs.nickname.getD r.nick,
                          username := attrs.username.getD r.username,
                          realname := attrs.realname.getD r.realname, pass := attrs.pass.getD r.pass }
    if attrs.host.isSome ∨ attrs.port.isSome ∨ attrs.tls.isSome then
      let old := fillNetworkAddrAttrs lib r.addr
      let addr := networkAddrFromAttrs
        { host := attrs.host.or old.host, port := attrs.port.or old.port, tls := attrs.tls.or old.tls }
      if addr = [] then none else some { r with addr := addr }
    else some r

/-- downstream.go:3103-3108 and 3150-3155 — defaults are not stored. -/
def wipeDefaults (st : NwState) (r : NetRec) : NetRec :=
  let r := if r.nick = st.username then { r with nick := [] } else r
  if r.realname = st.realname then { r with realname := [] } else r

/-- service.go:493-507 — `getNetworkFromArg`; `name` is the argument (empty if there is none) and `current`
the ID of the network of the client that runs the command. -/
def networkFromArg (st : NwState) (name : Str) (current : Option Nat) : Option NetRec :=
  if name = [] then current.bind (getNetworkByID st) else getNetwork st name

/-- What can happen to a user's networks.  `db`/`dbOk`: the outcome of the database write.  `admin`: whether
the service command is run by an administrator (service.go:616, 696). -/
inductive NwOp
  | svcCreate (admin : Bool) (flags : NetFlags) (db : Option Nat)
  | svcUpdate (admin : Bool) (name : Str) (current : Option Nat) (flags : NetFlags) (dbOk : Bool)
  | svcDelete (name : Str) (current : Option Nat) (dbOk : Bool)
  /-- BOUNCER ADDNETWORK by a client with this nick -/
  | bncAdd (nick : Str) (attrs : NetAttrs) (db : Option Nat)
  | bncChange (id : Nat) (attrs : NetAttrs) (dbOk : Bool)
  | bncDelete (id : Nat) (dbOk : Bool)
  /-- a client logs in for the named network, whose server can be reached or not -/
  | login (name nick : Str) (reachable : Bool) (db : Option Nat)
  /-- NICK and SETNAME by a client of the network; `capable`: the network is connected, and its server knows SETNAME -/
  | setNick (id : Nat) (nick : Str) (dbOk : Bool)
  | setRealname (id : Nat) (realname : Str) (capable dbOk : Bool)
  /-- new SASL settings (service.go:804-942, user.go:469-483, downstream.go:2569-2577) -/
  | setSasl (id : Nat) (sasl : SaslRec)
  /-- the user is changed (user.go:1192-1206) -/
  | setUser (nick realname : Str) (admin : Bool) (maxNetworks : Int)
  /-- a network is reconnected after a change of the user (user.go:1247-1253) -/
  | refresh (id : Nat) (dbOk : Bool)
  /-- the configuration is reloaded -/
  | setCfgMax (max : Int)
deriving DecidableEq, Repr

/-- The result of an operation: the new state if it succeeded. -/
def nwResult (st : NwState) : Option NwState → NwState × Bool
  | some st' => (st', true)
  | none => (st, false)

/-- Change the record of a network in place. -/
def mapNetwork (st : NwState) (id : Nat) (f : NetRec → NetRec) : NwState :=
  { st with networks := st.networks.map (fun n => if n.id = id then f n else n) }

/-- One operation; the Boolean says whether it succeeded. -/
def nwStep (lib : UrlLib) (ircOk : Str → Bool) (st : NwState) : NwOp → NwState × Bool
  -- service.go:603-630
  | .svcCreate admin flags db =>
    nwResult st (match flags.addr with
      | none => none
      | some a =>
        if flags.ignoreLimit && !admin then none
        else (flags.update ircOk { addr := a }).bind (fun r => createNetwork lib st r (!flags.ignoreLimit) db))
  -- service.go:682-712
  | .svcUpdate admin name current flags dbOk =>
    nwResult st (match networkFromArg st name current with
      | none => none
      | some net =>
        if flags.ignoreLimit && !admin then none
        else (flags.update ircOk net).bind (fun r =>
          updateNetwork lib st r (!flags.ignoreLimit && !net.enabled) dbOk))
  -- service.go:714-729
  | .svcDelete name current dbOk =>
    nwResult st (match networkFromArg st name current with
      | none => none
      | some net => deleteNetwork st net.id dbOk)
  -- downstream.go:3091-3117
  | .bncAdd nick attrs db =>
    nwResult st ((updateNetworkAttrs lib { addr := [], nick := nick } attrs).bind (fun r =>
      createNetwork lib st (wipeDefaults st r) true db))
  -- downstream.go:3124-3166
  | .bncChange id attrs dbOk =>
    nwResult st (match getNetworkByID st id with
      | none => none
      | some net => (updateNetworkAttrs lib net attrs).bind (fun r =>
          updateNetwork lib st (wipeDefaults st r) (!net.enabled) dbOk))
  -- downstream.go:3172-3195
  | .bncDelete id dbOk =>
    nwResult st (match getNetworkByID st id with
      | none => none
      | some net => deleteNetwork st net.id dbOk)
  -- downstream.go:1383-1439
  | .login name nick reachable db =>
    if name = [] then (st, true)
    else if name = b!"*" then (st, false)
    else match getNetwork st name with
    | some _ => (st, true)
    | none => nwResult st (if reachable then createNetwork lib st { addr := name, nick := nick } true db else none)
  -- downstream.go:1820-1840
  | .setNick id nick dbOk => if dbOk then (mapNetwork st id (fun n => { n with nick := nick }), true) else (st, false)
  -- downstream.go:1869-1891; the record in memory is not changed if the server is told (lines 1878-1885)
  | .setRealname id realname capable dbOk =>
    if capable then (st, dbOk)
    else nwResult st (match getNetworkByID st id with
      | none => none
      | some net => updateNetwork lib st
          { net with realname := if realname = st.realname then [] else realname } false dbOk)
  | .setSasl id sasl => (mapNetwork st id (fun n => { n with sasl := sasl }), true)
  | .setUser nick realname admin maxNetworks =>
    ({ st with nick := nick, realname := realname, admin := admin, maxNetworks := maxNetworks }, true)
  | .refresh id dbOk =>
    nwResult st (match getNetworkByID st id with
      | none => none
      | some net => updateNetwork lib st net false dbOk)
  | .setCfgMax max => ({ st with cfgMax := max }, true)

/-- A history. -/
def nwRun (lib : UrlLib) (ircOk : Str → Bool) (st : NwState) (ops : List NwOp) : NwState :=
  ops.foldl (fun st op => (nwStep lib ircOk st op).1) st

end Verif.Model
