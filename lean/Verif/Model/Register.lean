import Verif.Model.Caps

/-! # Model of the registration of a client connection

downstream.go:628-793 (`handleMessage`, `handleMessageUnregistered`), 930-1052 (`handleAuthenticate`,
`endSASL`), 1264-1368 (`unmarshalUsername`, `setAuthUsername`, `register`), 1712-1762
(`runUntilRegistered`).  The time-out of `runUntilRegistered`, which closes the connection, is not
modelled: a history that is cut short is a prefix of a longer one. -/

namespace Verif.Model

/-- Is the byte one of the separators of login names? -/
def isLoginSep (c : Byte) : Bool := c == 47 || c == 64

/-- `strings.IndexAny(s, "/@")`. -/
def firstSep : Str → Option Nat
  | [] => none
  | c :: s => if isLoginSep c then some 0 else (firstSep s).map (· + 1)

/-- `strings.LastIndexAny(s, "/@")`. -/
def lastSep : Str → Option Nat
  | [] => none
  | c :: s => match lastSep s with
    | some i => some (i + 1)
    | none => if isLoginSep c then some 0 else none

/-- downstream.go:1264-1288 — `unmarshalUsername`: user, client, network. -/
def unmarshalUsername (raw : Str) : Str × Str × Str :=
  let i := firstSep raw
  let j := lastSep raw
  let username := match i with | some i => raw.take i | none => raw
  let (client, network) : Str × Str := match j with
    | some j => if raw[j]? = some 64 then (raw.drop (j + 1), []) else ([], raw.drop (j + 1))
    | none => ([], [])
  let (client, network) : Str × Str := match i, j with
    | some i, some j =>
      if i < j then
        if raw[i]? = some 64 then ((raw.take j).drop (i + 1), network)
        else (client, (raw.take j).drop (i + 1))
      else (client, network)
    | _, _ => (client, network)
  (username, client, network)

/-- What registration reads of a user record. -/
structure AuthUser where
  admin : Bool
  enabled : Bool
deriving DecidableEq, Repr

/-- What the bouncer can ask while it handles one message: the authenticators, if configured
(auth/auth.go:10-22), and the user database.  They are parameters: every theorem is about all of them, and
they may change from one message to the next. -/
structure AuthEnv where
  plain : Option (Str → Str → Bool)
  oauth : Option (Str → Option Str)
  users : Str → Option AuthUser

/-- Library functions: base64 decoding, and the parsing of an OAUTHBEARER response (the client's user name
and its token). -/
structure SaslLib where
  decode : Str → Option Str
  oauthParse : Str → Option (Str × Str)

/-- downstream.go:300-312 — `downstreamSASL`: the mechanism and the response received so far. -/
structure DSasl where
  mechanism : Str
  pending : Str
deriving DecidableEq, Repr

/-- The fields of `downstreamConn` and `downstreamRegistration` used before registration completes. -/
structure RegState where
  caps : DCaps
  nick : Str
  username : Str
  pass : Str
  authUsername : Str
  networkName : Str
  clientName : Str
  networkID : Int
  sasl : Option DSasl
  impersonating : Bool
deriving DecidableEq, Repr

/-- How handling one message ends: normally, with an `ircError` (sent to the client), or with another error
or a panic (the connection is closed). -/
inductive Outcome
  | ok | ircError | fatal
deriving DecidableEq, Repr

/-- The credentials a completed SASL exchange yields. -/
inductive Creds
  | plain (identity username password : Str)
  | oauth (username token : Str)
  | anonymous
deriving DecidableEq, Repr

/-- go-sasl `plainServer.Next`: three parts separated by NUL. -/
def plainParse (resp : Str) : Option Creds :=
  match splitByte 0 resp with
  | [identity, username, password] => some (.plain identity username password)
  | _ => none

/-- downstream.go:930-1035 — `handleAuthenticate`: the new `dc.sasl`, the outcome, the credentials.
(Simplification: a failing SASL server gives a fatal error, downstream.go:1017.) -/
def handleAuthenticate (lib : SaslLib) (st : RegState) (params : List Str) :
    Option DSasl × Outcome × Option Creds :=
  if st.caps.reg.isEnabled b!"sasl" = false then (none, .ircError, none)
  else match params with
  | [] => (none, .ircError, none)
  | p :: _ =>
    if p = b!"*" then (none, .ircError, none)
    else match st.sasl with
    | none =>
      let mech := asciiUpper p
      if mech = b!"PLAIN" ∨ mech = b!"OAUTHBEARER" ∨ mech = b!"ANONYMOUS" then (some ⟨mech, []⟩, .ok, none)
      else (none, .ircError, none)
    | some s =>
      let chunk := if p = b!"+" then [] else p
      if s.pending.length + chunk.length > 10 * 1024 then (none, .ircError, none)
      else
        let pending := s.pending ++ chunk
        if chunk.length = 400 then (some { s with pending := pending }, .ok, none)
        else match lib.decode pending with
        | none => (none, .ircError, none)
        | some resp =>
          let creds := if s.mechanism = b!"PLAIN" then plainParse resp
            else if s.mechanism = b!"OAUTHBEARER" then (lib.oauthParse resp).map (fun p => .oauth p.1 p.2)
            else some .anonymous
          match creds with
          | none => (none, .fatal, none)
          | some c => (some { s with pending := [] }, .ok, some c)

/-- downstream.go:672-725 — checking the credentials: user, client, network, impersonating. -/
def checkCreds (env : AuthEnv) : Creds → Option (Str × Str × Str × Bool)
  | .plain identity user password =>
    let (username, client, network) := unmarshalUsername user
    match env.plain with
    | none => none
    | some auth =>
      if auth username password = false then none
      else if identity ≠ [] ∧ identity ≠ user then
        match env.users username with
        | none => none
        | some u =>
          if u.admin = false then none
          else
            let (username, client, network) := unmarshalUsername identity
            match env.users username with
            | none => none
            | some _ => some (username, client, network, true)
      else some (username, client, network, false)
  | .oauth user token =>
    match env.oauth with
    | none => none
    | some auth =>
      match auth token with
      | none => none
      | some username =>
        if user ≠ [] ∧ user ≠ username then none else some (username, [], [], false)
  | .anonymous => none

/-- downstream.go:1290-1294 — `setAuthUsername`. -/
def setAuthUsername (st : RegState) (username client network : Str) : RegState :=
  { st with clientName := client, authUsername := username, networkName := network }

/-- A message from the client, as far as registration is concerned. -/
structure RegMsg where
  command : Str
  params : List Str
deriving DecidableEq, Repr

/-- downstream.go:81-90 — `parseBouncerNetID`. -/
def parseBouncerNetID (s : Str) : Option Int :=
  match parseInt64 s with
  | some id => if id ≤ 0 then none else some id
  | none => none

/-- downstream.go:664-747 — the AUTHENTICATE command. -/
def regAuthenticate (lib : SaslLib) (env : AuthEnv) (st : RegState) (params : List Str) : RegState × Outcome :=
  match handleAuthenticate lib st params with
  | (sasl, .ok, some creds) =>
    let st := { st with sasl := sasl }
    match checkCreds env creds with
    | none => ({ st with sasl := none }, .ok)
    | some (username, client, network, imp) =>
      if username = [] then (st, .fatal)
      else ({ setAuthUsername st username client network with impersonating := imp, sasl := none }, .ok)
  | (sasl, out, _) => ({ st with sasl := sasl }, out)

/-- downstream.go:748-779 — the BOUNCER command before registration. -/
def regBouncer (st : RegState) (params : List Str) : RegState × Outcome :=
  match params with
  | [] => (st, .ircError)
  | sub :: rest =>
    if asciiUpper sub = b!"BIND" then
      match rest with
      | [] => (st, .ircError)
      | idStr :: _ =>
        if st.authUsername = [] then (st, .ircError)
        else match parseBouncerNetID idStr with
        | none => (st, .ircError)
        | some id => ({ st with networkID := id }, .ok)
    else (st, .ircError)

/-- downstream.go:628-793 — `handleMessage` of an unregistered connection.  (The away status set by AWAY
is modelled in `Verif.Model.Away`.) -/
def handleUnregistered (lib : SaslLib) (env : AuthEnv) (st : RegState) (msg : RegMsg) : RegState × Outcome :=
  if msg.command = b!"QUIT" then (st, .ok)
  else if msg.command = b!"NICK" then
    match msg.params with
    | n :: _ => ({ st with nick := n }, .ok)
    | [] => (st, .ircError)
  else if msg.command = b!"USER" then
    match msg.params with
    | u :: _ :: _ :: _ :: _ => ({ st with username := u }, .ok)
    | _ => (st, .ircError)
  else if msg.command = b!"PASS" then
    match msg.params with
    | p :: _ => ({ st with pass := p }, .ok)
    | [] => (st, .ircError)
  else if msg.command = b!"CAP" then
    match msg.params with
    | c :: args =>
      let r := handleCap st.caps c args
      ({ st with caps := r.1 }, if r.2 = [.failed] then .fatal else if r.2 = [.invalid] then .ircError else .ok)
    | [] => (st, .ircError)
  else if msg.command = b!"AUTHENTICATE" then regAuthenticate lib env st msg.params
  else if msg.command = b!"BOUNCER" then regBouncer st msg.params
  else if msg.command = b!"AWAY" then (st, .ok)
  else (st, .ircError)

/-- downstream.go:1296-1368 — `register`: `none` is an error, after which the connection is closed;
otherwise the user, the client name and the network name. -/
def register (env : AuthEnv) (st : RegState) : Option (Str × Str × Str) :=
  let auth : Option RegState :=
    if st.authUsername = [] then
      if st.pass = [] then none
      else match env.plain with
      | none => none
      | some f =>
        let (username, client, network) := unmarshalUsername st.username
        if f username st.pass = false then none else some (setAuthUsername st username client network)
    else some st
  match auth with
  | none => none
  | some st =>
    let (_, fallbackClient, fallbackNetwork) := unmarshalUsername st.username
    if st.clientName ≠ [] ∧ fallbackClient ≠ [] ∧ st.clientName ≠ fallbackClient then none
    else if st.networkName ≠ [] ∧ fallbackNetwork ≠ [] ∧ st.networkName ≠ fallbackNetwork then none
    else some (st.authUsername, if st.clientName = [] then fallbackClient else st.clientName,
      if st.networkName = [] then fallbackNetwork else st.networkName)

/-- A connection: still registering, registered (as which user, with which client and network names), or
closed. -/
inductive RegConn
  | pending (st : RegState)
  | registered (username client network : Str) (id : Int) (impersonating : Bool)
  | closed
deriving DecidableEq, Repr

/-- downstream.go:1732-1759 — one iteration of `runUntilRegistered`. -/
def regStep (lib : SaslLib) (c : RegConn) (ev : AuthEnv × RegMsg) : RegConn :=
  match c with
  | .pending st =>
    let (st, out) := handleUnregistered lib ev.1 st ev.2
    if out = .fatal then .closed
    else if st.nick = [] ∨ st.username = [] ∨ st.caps.negotiating = true then .pending st
    else match register ev.1 st with
    | some (u, c, n) => .registered u c n st.networkID st.impersonating
    | none => .closed
  | c => c

/-- downstream.go:367-400 — a new connection. -/
def newRegState (sasl : Str) (history : Bool) : RegState :=
  ⟨newDCaps sasl history, [], [], [], [], [], [], 0, none, false⟩

/-- A whole exchange. -/
def regRun (lib : SaslLib) (sasl : Str) (history : Bool) (evs : List (AuthEnv × RegMsg)) : RegConn :=
  evs.foldl (regStep lib) (.pending (newRegState sasl history))

end Verif.Model
