import Verif.Model.Network
import Verif.Model.SavedChans
import Verif.Model.Service

/-! # Model of the service commands that change the settings of a user

service.go:493-942 (networks, certificates, SASL), 1057-1173 (the user's own record), 1355-1566 (channels);
user.go:1058-1253 (`createNetwork`, `updateNetwork`, `deleteNetwork`, `updateUser`).

The settings are held twice: in memory, where the event loop of the user works on them, and in the database.  A write
to the database may fail: `db i` is whether the write number `i` of the command succeeds.

Simplifications: the settings of one user; rows of the database are records; the commands that only print, and those
that concern other users, change nothing here and may report anything; connections only matter in that a network may
be connected or not. -/

namespace Verif.Model

/-- The settings of a user: database.User, database.Network and database.Channel (database/database.go:90-255). -/
structure CfUser where
  nw : NwState
  password : Str
  enabled : Bool
  /-- the channels, with the IDs of their networks -/
  chans : List (Nat × ChanRec)
deriving DecidableEq, Repr

structure CfState where
  mem : CfUser
  db : CfUser
deriving DecidableEq, Repr

/-- What the commands depend on. -/
structure CfEnv where
  url : UrlLib
  /-- `irc.ParseMessage` succeeds -/
  ircOk : Str → Bool
  /-- `time.ParseDuration`, in nanoseconds -/
  dur : Str → Option Int
  /-- `generateCertFP`: private key and certificate -/
  gen : Str → Int → Option (Str × Str)
  /-- the hash of a password -/
  hash : Str → Option Str
  /-- the order in which the tables of commands are iterated -/
  order : List (Str × SvcCmd) → List (Str × SvcCmd)
  /-- the case mapping of a network -/
  cm : Nat → CaseMapping
  /-- `isChannel` of the connection to a network, if there is one -/
  conn : Nat → Option (Str → Bool)
  /-- the connection to a network, if any, has negotiated `setname` -/
  setname : Nat → Bool
  /-- the answer of the message store -/
  lastID : Str
  /-- what the other commands report -/
  other : SvcHandler → List Str → Bool

/-- The record of the user. -/
def cfAccount (u : CfUser) : Account :=
  ⟨u.password, u.nw.nick, u.nw.realname, u.nw.admin, u.enabled, u.nw.maxNetworks⟩

/-- Replace the record of the user. -/
def cfSetAccount (u : CfUser) (a : Account) : CfUser :=
  let nw := { u.nw with nick := a.nick, realname := a.realname, admin := a.admin, maxNetworks := a.maxNetworks }
  { u with nw := nw, password := a.password, enabled := a.enabled }

/-- `StoreNetwork`: the row with this ID is replaced, or inserted. -/
def cfStoreNet (u : CfUser) (r : NetRec) : CfUser :=
  { u with nw := { u.nw with networks := addNetwork (removeNetwork u.nw.networks r.id) r } }

/-! ## Networks -/

/-- service.go:517-531 — the flags of `network create` and `network update`. -/
def netFormal (name : Str) : Option (FlagDef NetFlags) :=
  if name = b!"addr" then some ⟨false, fun v st => some { st with addr := some v }⟩
  else if name = b!"name" then some ⟨false, fun v st => some { st with name := some v }⟩
  else if name = b!"nick" then some ⟨false, fun v st => some { st with nick := some v }⟩
  else if name = b!"username" then some ⟨false, fun v st => some { st with username := some v }⟩
  else if name = b!"pass" then some ⟨false, fun v st => some { st with pass := some v }⟩
  else if name = b!"realname" then some ⟨false, fun v st => some { st with realname := some v }⟩
  else if name = b!"certfp" then some ⟨false, fun v st => some { st with certFP := some v }⟩
  else if name = b!"auto-away" then some ⟨false, fun v st => (parseBool v).map (fun x => { st with autoAway := some x })⟩
  else if name = b!"enabled" then some ⟨false, fun v st => (parseBool v).map (fun x => { st with enabled := some x })⟩
  else if name = b!"ignore-limit" then some ⟨true, fun v st => (parseBool v).map (fun x => { st with ignoreLimit := x })⟩
  else if name = b!"connect-command" then
    some ⟨false, fun v st => some { st with connectCommands := st.connectCommands ++ [v] }⟩
  else none

/-- service.go:603-630 — `network create`; `newId`: the ID the database would assign. -/
def cfNetCreate (env : CfEnv) (admin : Bool) (st : CfState) (params : List Str) (db : Nat → Bool) (newId : Nat) :
    CfState × Bool :=
  match parseFlags netFormal params {} with
  | none => (st, false)
  | some (fs, rest) =>
    if rest.length > 0 then (st, false)
    else
      match fs.addr with
      | none => (st, false)
      | some a =>
        if fs.ignoreLimit && !admin then (st, false)
        else
          match fs.update env.ircOk { addr := a } with
          | none => (st, false)
          | some r =>
            match createNetwork env.url st.mem.nw r (!fs.ignoreLimit) (if db 0 then some newId else none) with
            | none => (st, false)
            | some nw => (⟨{ st.mem with nw := nw }, cfStoreNet st.db { r with id := newId }⟩, true)

/-- user.go:1098-1105 — the record `updateNetwork` stores. -/
def cfWiped (nw : NwState) (r : NetRec) : NetRec :=
  let r := if r.nick = nw.nick then { r with nick := [] } else r
  if r.realname = nw.realname then { r with realname := [] } else r

/-- user.go:1087-1165 — `updateNetwork`, in memory and in the database. -/
def cfUpdateNet (env : CfEnv) (st : CfState) (r : NetRec) (enforce dbOk : Bool) : CfState × Bool :=
  match updateNetwork env.url st.mem.nw r enforce dbOk with
  | none => (st, false)
  | some nw => (⟨{ st.mem with nw := nw }, cfStoreNet st.db (cfWiped st.mem.nw r)⟩, true)

/-- service.go:682-712 — `network update`; `cur`: the network of the client. -/
def cfNetUpdate (env : CfEnv) (admin : Bool) (cur : Option Nat) (st : CfState) (params : List Str) (db : Nat → Bool) :
    CfState × Bool :=
  match networkFromArg st.mem.nw (popArg params).1 cur with
  | none => (st, false)
  | some net =>
    match parseFlags netFormal (popArg params).2 {} with
    | none => (st, false)
    | some (fs, rest) =>
      if rest.length > 0 then (st, false)
      else if fs.ignoreLimit && !admin then (st, false)
      else
        match fs.update env.ircOk net with
        | none => (st, false)
        | some r => cfUpdateNet env st r (!fs.ignoreLimit && !net.enabled) (db 0)

/-- A network and its channels disappear (user.go:966-983; database/sqlite.go:680-715, `DeleteNetwork`). -/
def cfRemoveNet (u : CfUser) (id : Nat) : CfUser :=
  let nw := { u.nw with networks := removeNetwork u.nw.networks id }
  { u with nw := nw, chans := u.chans.filter (fun c => c.1 ≠ id) }

/-- service.go:714-729, user.go:1167-1177 — `network delete`. -/
def cfNetDelete (cur : Option Nat) (st : CfState) (params : List Str) (db : Nat → Bool) : CfState × Bool :=
  if params.length ≠ 1 then (st, false)
  else
    match networkFromArg st.mem.nw (popArg params).1 cur with
    | none => (st, false)
    | some net => if !db 0 then (st, false) else (⟨cfRemoveNet st.mem net.id, cfRemoveNet st.db net.id⟩, true)

/-! ## Credentials -/

/-- The record of a network is changed in memory, and then stored (service.go:810-816, 899-905, 928-936). -/
def cfChangeNet (st : CfState) (net : NetRec) (f : NetRec → NetRec) (dbOk : Bool) : CfState × Bool :=
  let mem := { st.mem with nw := mapNetwork st.mem.nw net.id f }
  if dbOk then (⟨mem, cfStoreNet st.db (f net)⟩, true) else (⟨mem, st.db⟩, false)

/-- The flags of `certfp generate` (service.go:784-787). -/
structure CertFlags where
  network : Str := []
  keyType : Str := b!"rsa"
  bits : Int := 3072
deriving DecidableEq, Repr

/-- service.go:784-787. -/
def certFormal (name : Str) : Option (FlagDef CertFlags) :=
  if name = b!"network" then some ⟨false, fun v st => some { st with network := v }⟩
  else if name = b!"key-type" then some ⟨false, fun v st => some { st with keyType := v }⟩
  else if name = b!"bits" then some ⟨false, fun v st => (parseInt64 v).map (fun x => { st with bits := x })⟩
  else none

/-- service.go:783-821 — `certfp generate`. -/
def cfCertGenerate (env : CfEnv) (cur : Option Nat) (st : CfState) (params : List Str) (db : Nat → Bool) :
    CfState × Bool :=
  match parseFlags certFormal params {} with
  | none => (st, false)
  | some (fs, rest) =>
    if rest.length > 0 then (st, false)
    else if fs.bits ≤ 0 ∨ fs.bits > 8192 then (st, false)
    else
      match networkFromArg st.mem.nw fs.network cur with
      | none => (st, false)
      | some net =>
        match env.gen fs.keyType fs.bits with
        | none => (st, false)
        | some (priv, cert) =>
          let f := fun n : NetRec =>
            { n with sasl := { n.sasl with certBlob := cert, privKeyBlob := priv, mechanism := b!"EXTERNAL" } }
          cfChangeNet st net f (db 0)

/-- The flag `-network` (service.go:887, 916). -/
def networkFormal (name : Str) : Option (FlagDef Str) :=
  if name = b!"network" then some ⟨false, fun v _ => some v⟩ else none

/-- service.go:885-911 — `sasl set-plain`. -/
def cfSaslSet (cur : Option Nat) (st : CfState) (params : List Str) (db : Nat → Bool) : CfState × Bool :=
  match parseFlags networkFormal params [] with
  | some (name, [user, pass]) =>
    match networkFromArg st.mem.nw name cur with
    | none => (st, false)
    | some net =>
      let f := fun n : NetRec =>
        { n with sasl := { n.sasl with plainUsername := user, plainPassword := pass, mechanism := b!"PLAIN" } }
      cfChangeNet st net f (db 0)
  | _ => (st, false)

/-- service.go:913-942 — `sasl reset`. -/
def cfSaslReset (cur : Option Nat) (st : CfState) (params : List Str) (db : Nat → Bool) : CfState × Bool :=
  match parseFlags networkFormal params [] with
  | some (name, []) =>
    match networkFromArg st.mem.nw name cur with
    | none => (st, false)
    | some net => cfChangeNet st net (fun n => { n with sasl := {} }) (db 0)
  | _ => (st, false)

/-! ## Channels -/

/-- service.go:1371-1387 — the flags of `channel create` and `channel update`. -/
structure ChanFlags where
  detached : Option Bool := none
  relayDetached : Option Str := none
  reattachOn : Option Str := none
  detachAfter : Option Str := none
  detachOn : Option Str := none
deriving DecidableEq, Repr

/-- service.go:1377-1387. -/
def chanFormal (name : Str) : Option (FlagDef ChanFlags) :=
  if name = b!"detached" then some ⟨false, fun v st => (parseBool v).map (fun x => { st with detached := some x })⟩
  else if name = b!"relay-detached" then some ⟨false, fun v st => some { st with relayDetached := some v }⟩
  else if name = b!"reattach-on" then some ⟨false, fun v st => some { st with reattachOn := some v }⟩
  else if name = b!"detach-after" then some ⟨false, fun v st => some { st with detachAfter := some v }⟩
  else if name = b!"detach-on" then some ⟨false, fun v st => some { st with detachOn := some v }⟩
  else none

/-- service.go:1357-1369, database/database.go:236-242 — `parseFilter`. -/
def parseFilter (s : Str) : Option Nat :=
  if s = b!"default" then some 0
  else if s = b!"none" then some 1
  else if s = b!"highlight" then some 2
  else if s = b!"message" then some 3
  else none

/-- One step of `channelFlagSet.update`: what has been changed so far, and whether no error has occurred. -/
def chanFlagStep (flag : Option Str) (parse : Str → Option Nat) (set : ChanRec → Nat → ChanRec) (p : ChanRec × Bool) :
    ChanRec × Bool :=
  if !p.2 then p
  else
    match flag with
    | none => p
    | some s =>
      match parse s with
      | none => (p.1, false)
      | some v => (set p.1 v, true)

/-- service.go:1404-1410 — the duration must not be negative. -/
def parseDetachAfter (dur : Str → Option Int) (s : Str) : Option Nat :=
  match dur s with
  | none => none
  | some d => if d < 0 then none else some d.toNat

/-- service.go:1389-1419 — `channelFlagSet.update`: the record is changed flag by flag, up to the first error. -/
def chanFlagsUpdate (env : CfEnv) (fs : ChanFlags) (c : ChanRec) : ChanRec × Bool :=
  let p := chanFlagStep fs.relayDetached parseFilter (fun c v => { c with relayDetached := v }) (c, true)
  let p := chanFlagStep fs.reattachOn parseFilter (fun c v => { c with reattachOn := v }) p
  let p := chanFlagStep fs.detachAfter (parseDetachAfter env.dur) (fun c v => { c with detachAfter := v }) p
  chanFlagStep fs.detachOn parseFilter (fun c v => { c with detachOn := v }) p

/-- service.go:1421-1440 — `stripNetworkSuffix`. -/
def cfStripSuffix (cur : Option Nat) (st : CfState) (name : Str) : Option (Str × NetRec) :=
  match cur with
  | some id => (getNetworkByID st.mem.nw id).map (fun n => (name, n))
  | none =>
    match cutStr b!"/" name with
    | none => none
    | some (name, netName) => (st.mem.nw.networks.find? (fun n => n.getName = netName)).map (fun n => (name, n))

/-- Is this the channel with this name? (`network.channels`, whose keys are case-mapped) -/
def cfIsChan (env : CfEnv) (net : Nat) (name : Str) (c : Nat × ChanRec) : Bool :=
  c.1 = net && casemap (env.cm net) c.2.name = casemap (env.cm net) name

/-- `network.channels.Get`. -/
def cfGetChan (env : CfEnv) (u : CfUser) (net : Nat) (name : Str) : Option ChanRec :=
  (u.chans.find? (cfIsChan env net name)).map (·.2)

/-- `StoreChannel` for a row with this ID. -/
def cfStoreChan (u : CfUser) (net : Nat) (c : ChanRec) : CfUser :=
  { u with chans := u.chans.map (fun x => if x.1 = net ∧ x.2.id = c.id then (net, c) else x) }

/-- A record in memory is changed. -/
def cfSetChan (env : CfEnv) (u : CfUser) (net : Nat) (name : Str) (c : ChanRec) : CfUser :=
  { u with chans := u.chans.map (fun x => if cfIsChan env net name x then (net, c) else x) }

/-- service.go:1442-1492 — `channel create`; `newId`: the ID the database would assign. -/
def cfChanCreate (env : CfEnv) (cur : Option Nat) (st : CfState) (params : List Str) (db : Nat → Bool) (newId : Nat) :
    CfState × Bool :=
  match params with
  | [] => (st, false)
  | arg :: params =>
    match parseFlags chanFormal params {} with
    | none => (st, false)
    | some (fs, rest) =>
      if rest.length > 0 then (st, false)
      else
        match cfStripSuffix cur st arg with
        | none => (st, false)
        | some (name, net) =>
          if name = [] || hasIllegalChanChar name then (st, false)
          else if !((env.conn net.id).map (fun isChan => isChan name)).getD true then (st, false)
          else if (cfGetChan env st.mem net.id name).isSome then (st, false)
          else
            let p := chanFlagsUpdate env fs (newChanRec name [])
            if !p.2 then (st, false)
            else if db 0 then
              let c := { p.1 with id := newId }
              (⟨{ st.mem with chans := st.mem.chans ++ [(net.id, c)] },
                { st.db with chans := st.db.chans ++ [(net.id, c)] }⟩, true)
            else (⟨{ st.mem with chans := st.mem.chans ++ [(net.id, p.1)] }, st.db⟩, false)

/-- service.go:1521-1527 — the flag `-detached`. -/
def cfDetachFlag (env : CfEnv) (flag : Option Bool) (c : ChanRec) : ChanRec :=
  match flag with
  | none => c
  | some true => scDetachRec env.lastID c
  | some false => scAttachRec c

/-- service.go:1494-1540 — `channel update`: the record in memory is changed in place. -/
def cfChanUpdate (env : CfEnv) (cur : Option Nat) (st : CfState) (params : List Str) (db : Nat → Bool) :
    CfState × Bool :=
  match params with
  | [] => (st, false)
  | arg :: params =>
    match parseFlags chanFormal params {} with
    | none => (st, false)
    | some (fs, rest) =>
      if rest.length > 0 then (st, false)
      else
        match cfStripSuffix cur st arg with
        | none => (st, false)
        | some (name, net) =>
          match cfGetChan env st.mem net.id name with
          | none => (st, false)
          | some ch =>
            let p := chanFlagsUpdate env fs ch
            if !p.2 then (⟨cfSetChan env st.mem net.id name p.1, st.db⟩, false)
            else
              let c := cfDetachFlag env fs.detached p.1
              let mem := cfSetChan env st.mem net.id name c
              if db 0 then (⟨mem, cfStoreChan st.db net.id c⟩, true) else (⟨mem, st.db⟩, false)

/-- service.go:1542-1566, user.go:389-406 — `channel delete`. -/
def cfChanDelete (env : CfEnv) (cur : Option Nat) (st : CfState) (params : List Str) (db : Nat → Bool) :
    CfState × Bool :=
  match params with
  | [arg] =>
    match cfStripSuffix cur st arg with
    | none => (st, false)
    | some (name, net) =>
      match cfGetChan env st.mem net.id name with
      | none => (st, false)
      | some ch =>
        if !db 0 then (st, false)
        else
          (⟨{ st.mem with chans := st.mem.chans.filter (fun x => !cfIsChan env net.id name x) },
            { st.db with chans := st.db.chans.filter (fun x => !(decide (x.1 = net.id) && decide (x.2.id = ch.id))) }⟩,
            true)
  | _ => (st, false)

/-! ## The record of the user -/

/-- user.go:1247-1250 — the networks that have to be updated, one after the other; the last error is reported. -/
def cfRefresh (env : CfEnv) (db : Nat → Bool) : Nat → CfState → List NetRec → CfState × Bool
  | _, st, [] => (st, true)
  | i, st, net :: nets =>
    let p := cfUpdateNet env st net false (db i)
    let q := cfRefresh env db (i + 1) p.1 nets
    (q.1, p.2 && q.2)

/-- user.go:1221-1245 — the networks that use the real name of the user and cannot be told about the new one, or all
of them if the account is enabled or disabled. -/
def cfNeedUpdate (env : CfEnv) (enabledUpdated : Bool) (nets : List NetRec) : List NetRec :=
  nets.filter (fun n => enabledUpdated || (n.realname = [] && !((env.conn n.id).isSome && env.setname n.id)))

/-- user.go:1192-1253 — `updateUser`. -/
def cfUpdateUser (env : CfEnv) (st : CfState) (record : Account) (db : Nat → Bool) : CfState × Bool :=
  if !db 0 then (st, false)
  else
    let st' : CfState := ⟨cfSetAccount st.mem record, cfSetAccount st.db record⟩
    if st.mem.nw.realname ≠ record.realname ∨ st.mem.enabled ≠ record.enabled then
      cfRefresh env db 1 st' (cfNeedUpdate env (st.mem.enabled ≠ record.enabled) st.mem.nw.networks)
    else (st', true)

/-- service.go:1057-1173 — `user update` of the user's own record; the record of another user does not appear here. -/
def cfUserUpdate (env : CfEnv) (admin : Bool) (st : CfState) (params : List Str) (db : Nat → Bool) : CfState × Bool :=
  match parseFlags updateFormal (popArg params).2 .empty with
  | none => (st, false)
  | some (f, rest) =>
    if rest.length > 0 then (st, false)
    else if f.password.isSome = true ∧ f.disablePassword = true then (st, false)
    else if (popArg params).1 ≠ [] ∧ (popArg params).1 ≠ st.mem.nw.username then (st, env.other .userUpdate params)
    else if f.admin.isSome then (st, false)
    else if f.enabled.isSome then (st, false)
    else if f.maxNetworks.isSome && !admin then (st, false)
    else
      match f.password.map env.hash with
      | some none => (st, false)
      | some (some h) => cfUpdateUser env st (applyOwnUpdate (some h) f (cfAccount st.mem)) db
      | none => cfUpdateUser env st (applyOwnUpdate none f (cfAccount st.mem)) db

/-! ## Commands -/

/-- The handlers (service.go:210-367). -/
def cfHandle (env : CfEnv) (admin : Bool) (cur : Option Nat) (st : CfState) (db : Nat → Bool) (newId : Nat)
    (h : SvcHandler) (params : List Str) : CfState × Bool :=
  match h with
  | .networkCreate => cfNetCreate env admin st params db newId
  | .networkUpdate => cfNetUpdate env admin cur st params db
  | .networkDelete => cfNetDelete cur st params db
  | .certfpGenerate => cfCertGenerate env cur st params db
  | .saslSetPlain => cfSaslSet cur st params db
  | .saslReset => cfSaslReset cur st params db
  | .channelCreate => cfChanCreate env cur st params db newId
  | .channelUpdate => cfChanUpdate env cur st params db
  | .channelDelete => cfChanDelete env cur st params db
  | .userUpdate => cfUserUpdate env admin st params db
  | h => (st, env.other h params)

/-- service.go:127-167 — a command line, given by the user (`admin`: with the rights of an administrator) in a client
of network `cur`; the Boolean is whether no error is reported. -/
def cfCommand (env : CfEnv) (admin : Bool) (cur : Option Nat) (st : CfState) (words : List Str) (db : Nat → Bool)
    (newId : Nat) : CfState × Bool :=
  match handleServiceCommand env.order ⟨some st.mem.nw.username, admin⟩ words with
  | .refused _ => (st, false)
  | .listCommands => (st, true)
  | .run h params => cfHandle env admin cur st db newId h params

end Verif.Model
