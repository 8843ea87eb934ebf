import Verif.Model.PathMatch
import Verif.Model.UserIp
import Verif.Model.Flags

/-! # Model of the configuration (config/config.go, cmd/soju/main.go) -/

namespace Verif.Model

/-- config/config.go:120-144: the directives of the file, after the scfg decoder. Absent directives are empty
strings, empty lists or `none`. -/
structure RawConfig where
  listen : List Str
  hostname : Str
  title : Str
  motd : Str
  tls : Option (Str × Str)
  db : Option (Str × Str)
  messageStore : Option (List Str)
  log : Option (List Str)
  auth : List (List Str)
  fileUpload : Option (List Str)
  httpOrigin : List Str
  httpIngress : Str
  acceptProxyIp : List Str
  maxUserNetworks : Int
  upstreamUserIp : List Str
  disableInactiveUser : Str
  enableUserOnAuth : Str
  deriving DecidableEq, Repr

/-- config/config.go:75-95: `Server`. The delay is in nanoseconds. -/
structure ServerConfig where
  listen : List Str
  tls : Option (Str × Str)
  hostname : Str
  title : Str
  motdPath : Str
  db : Str × Str
  msgStore : Str × Str
  auth : List (Str × Str)
  fileUpload : Option (Str × Str)
  httpOrigins : List Str
  httpIngress : Str
  acceptProxyIps : List IpNet
  maxUserNetworks : Int
  upstreamUserIps : List IpNet
  disableInactiveUsersDelay : Int
  enableUsersOnAuth : Bool
  deriving DecidableEq, Repr

/-- Libraries: the name of the system, `net.ParseCIDR`, and the conversion of a number of days
(config/config.go:48-52, floating point). -/
structure ConfigLib where
  osHostname : Option Str
  parseCidr : Str → Option IpNet
  days : Str → Option Int

/-- config/config.go:31-41: `loopbackIPs`. -/
def loopbackIps : List IpNet :=
  [⟨[127, 0, 0, 0], cidrMask 8 4⟩, ⟨[0, 0, 0, 0, 0, 0, 0, 0, 0, 0, 0, 0, 0, 0, 0, 1], cidrMask 128 16⟩]

/-- config/config.go:22-29: `IPSet.Contains`. -/
def ipSetContains (set : List IpNet) (ip : List Byte) : Bool := set.any (fun n => netContains n ip)

/-- config/config.go:43-53: `parseDuration`. -/
def parseDays (lib : ConfigLib) (s : Str) : Option Int :=
  if hasSuffix b!"d" s = false then none else lib.days (trimSuffix b!"d" s)

/-- config/config.go:97-117: `Defaults`. -/
def configDefaults (lib : ConfigLib) : ServerConfig :=
  let hostname := lib.osHostname.getD b!"localhost"
  { listen := [], tls := none, hostname := hostname, title := [], motdPath := [],
    db := (b!"sqlite3", b!"soju.db"), msgStore := (b!"memory", []), auth := [(b!"internal", [])],
    fileUpload := none, httpOrigins := [], httpIngress := b!"https://" ++ hostname, acceptProxyIps := [],
    maxUserNetworks := -1, upstreamUserIps := [], disableInactiveUsersDelay := 0, enableUsersOnAuth := false }

/-- config/config.go:294-305: `parseDriverSource`. -/
def parseDriverSource (params : List Str) : Option (Str × Str) :=
  match params with
  | [driver] => some (driver, [])
  | [driver, source] => some (driver, source)
  | _ => none

/-- Check of a driver: one of `plain` without source, or one of `sourced` with a source. -/
def checkDriver (plain sourced : List Str) (ds : Str × Str) : Option (Str × Str) :=
  if ds.1 ∈ plain then (if ds.2 ≠ [] then none else some ds)
  else if ds.1 ∈ sourced then (if ds.2 = [] then none else some ds)
  else none

/-- config/config.go:177-195: the message store. -/
def loadMsgStore (params : List Str) : Option (Str × Str) :=
  (parseDriverSource params).bind (checkDriver [b!"memory", b!"db"] [b!"fs"])

/-- config/config.go:200-218: one authentication method. -/
def loadAuth (params : List Str) : Option (Str × Str) :=
  (parseDriverSource params).bind (checkDriver [b!"internal", b!"pam"] [b!"http", b!"oauth2"])

/-- config/config.go:220-233: file uploads. -/
def loadFileUpload (params : List Str) : Option (Str × Str) :=
  (parseDriverSource params).bind (checkDriver [] [b!"fs", b!"http"])

/-- A loop that returns on the first error. -/
def mapAll {α β : Type} (f : α → Option β) : List α → Option (List β)
  | [] => some []
  | a :: as =>
    match f a with
    | none => none
    | some b =>
      match mapAll f as with
      | none => none
      | some bs => some (b :: bs)

/-- config/config.go:246-256: `accept-proxy-ip`. -/
def loadProxyIps (lib : ConfigLib) (params : List Str) : Option (List IpNet) :=
  (mapAll (fun s => if s = b!"localhost" then some loopbackIps else (lib.parseCidr s).map (fun n => [n])) params).map
    List.flatten

/-- config/config.go:258-276: `upstream-user-ip`. -/
def loadUserIps (lib : ConfigLib) : Bool → Bool → List Str → Option (List IpNet)
  | _, _, [] => some []
  | has4, has6, s :: rest =>
    match lib.parseCidr s with
    | none => none
    | some n =>
      if ipTo4 n.ip = none then
        if has6 then none else (loadUserIps lib has4 true rest).map (n :: ·)
      else
        if has4 then none else (loadUserIps lib true has6 rest).map (n :: ·)

/-- config/config.go:277-285: `disable-inactive-user`. -/
def loadDelay (lib : ConfigLib) (s : Str) : Option Int :=
  if s = [] then some 0
  else
    match parseDays lib s with
    | none => none
    | some d => if d < 0 then none else some d

/-- config/config.go:286-292: `enable-user-on-auth`. -/
def loadEnable (s : Str) : Option Bool := if s = [] then some false else parseBool s

/-- An optional directive. -/
def loadOpt {α β : Type} (f : α → Option β) (dflt : β) : Option α → Option β
  | none => some dflt
  | some a => f a

/-- config/config.go:119-292: `Load`, after the decoding of the file; `none` is an error. -/
def loadConfig (lib : ConfigLib) (raw : RawConfig) : Option ServerConfig :=
  let d := configDefaults lib
  let hostname := if raw.hostname ≠ [] then raw.hostname else d.hostname
  match loadOpt loadMsgStore d.msgStore (if raw.messageStore.isNone then raw.log else raw.messageStore) with
  | none => none
  | some msgStore =>
    match mapAll loadAuth raw.auth with
    | none => none
    | some auth =>
      match loadOpt (fun p => (loadFileUpload p).map some) none raw.fileUpload with
      | none => none
      | some fileUpload =>
        if raw.httpOrigin.any (fun o => (pathMatch o o).isNone) then none
        else
          match loadProxyIps lib raw.acceptProxyIp with
          | none => none
          | some proxy =>
            match loadUserIps lib false false raw.upstreamUserIp with
            | none => none
            | some userIps =>
              match loadDelay lib raw.disableInactiveUser with
              | none => none
              | some delay =>
                match loadEnable raw.enableUserOnAuth with
                | none => none
                | some enable =>
                  some { listen := raw.listen, tls := raw.tls, hostname := hostname, title := raw.title,
                         motdPath := raw.motd, db := raw.db.getD d.db, msgStore := msgStore,
                         auth := if raw.auth ≠ [] then auth else d.auth, fileUpload := fileUpload,
                         httpOrigins := raw.httpOrigin,
                         httpIngress := if raw.httpIngress ≠ [] then raw.httpIngress else b!"https://" ++ hostname,
                         acceptProxyIps := proxy, maxUserNetworks := raw.maxUserNetworks, upstreamUserIps := userIps,
                         disableInactiveUsersDelay := delay, enableUsersOnAuth := enable }

/-- database/database.go:73-82: the drivers of `Open`. -/
def dbDriverKnown (driver : Str) : Bool := decide (driver = b!"sqlite3" ∨ driver = b!"postgres")

/-- cmd/soju/main.go:158-161: the bouncer starts if the file is accepted and the database is opened
(simplification: the rest of `Open`, the listeners and the certificates are left out). -/
def startConfig (lib : ConfigLib) (raw : RawConfig) : Option ServerConfig :=
  (loadConfig lib raw).bind (fun c => if dbDriverKnown c.db.1 then some c else none)

/-- A password authenticator and a token authenticator (auth/auth.go:10-21). -/
structure Authenticators where
  plain : Option (Str → Str → Bool)
  bearer : Option (Str → Option Str)

/-- auth/auth.go:27-38: `OAuthPlainAuthenticator.AuthPlain`: the password is a token, and must be one of this
user. -/
def oauthPlain (bearer : Str → Option Str) (username password : Str) : Bool :=
  decide (bearer password = some username)

/-- cmd/soju/main.go:81-98: the loop over the methods; `none` is an error. -/
def combineAuth : List Authenticators → Authenticators → Option Authenticators
  | [], acc => some acc
  | a :: rest, acc =>
    if a.plain.isSome && acc.plain.isSome then none
    else if a.bearer.isSome && acc.bearer.isSome then none
    else combineAuth rest ⟨if a.plain.isSome then a.plain else acc.plain,
      if a.bearer.isSome then a.bearer else acc.bearer⟩

/-- cmd/soju/main.go:81-103. -/
def loadAuthenticators (l : List Authenticators) : Option Authenticators :=
  (combineAuth l ⟨none, none⟩).map (fun a =>
    match a.bearer, a.plain with
    | some b, none => ⟨some (oauthPlain b), some b⟩
    | _, _ => a)

end Verif.Model
