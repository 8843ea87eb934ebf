import Verif.Model.ChanView
import Verif.Model.Whox

/-! What the clients of one network are told about themselves: nick, user name and host, real name and
account of the upstream connection. The casemapping is fixed during a run; only clients bound to the network are
modelled, not the "bouncer" connections. Messages whose command is none of NICK, SETNAME, CHGHOST, 396,
900, 901 are left out: they change none of this, and a client does not read any of it from them. -/

namespace Verif.Model

/-- upstream.go:193-230 — the parts of `upstreamConn` used here; the last three say whether the connection
supports SASL PLAIN and has chghost and setname enabled. -/
structure IdConn where
  nick : Str
  username : Str
  hostname : Str
  realname : Str
  account : Str
  sasl : Bool
  chghost : Bool
  setname : Bool
deriving DecidableEq, Repr

/-- downstream.go:336-365 — `downstreamConn`: number, enabled capabilities, what it was told last, and
the messages sent to it. -/
structure IdClient where
  num : Nat
  chghost : Bool
  setname : Bool
  sasl : Bool
  nick : Str
  username : Str
  hostname : Str
  realname : Str
  account : Str
  out : List VMsg
deriving DecidableEq, Repr, Inhabited

/-- user.go:149-162 — the network: its connection, the nick and the real name to use (`GetNick`,
`GetRealname`), the real name used when the network has none of its own, the clients bound to it, and
the SETNAME commands sent to the server on this connection. -/
structure IdState where
  conn : Option IdConn
  wantNick : Str
  wantReal : Str
  dfltReal : Str
  clients : List IdClient
  asked : List Str
deriving DecidableEq, Repr

/-- The capabilities a client can enable or disable. -/
inductive IdCap | chghost | setname | sasl
deriving DecidableEq, Repr

/-- Events of the user goroutine that concern the identity. -/
inductive IdOp
  /-- `eventUpstreamConnected`: a connection that has registered -/
  | connected (uc : IdConn)
  /-- `eventUpstreamDisconnected` -/
  | disconnected
  /-- a message of the server -/
  | server (m : VMsg)
  /-- CAP ACK or CAP DEL of the server -/
  | upCaps (sasl chghost setname : Bool)
  /-- a client coming from `host` logs in having enabled these capabilities -/
  | login (num : Nat) (host : Str) (chghost setname sasl : Bool)
  | logout (num : Nat)
  /-- a client sends CAP REQ -/
  | capReq (num : Nat) (cap : IdCap) (on : Bool)
  /-- the settings are changed other than by a client of the network -/
  | setNick (nick : Str)
  | setReal (real dflt : Str)
  /-- a client sends NICK -/
  | cNick (nick : Str)
  /-- a client sends SETNAME -/
  | cSetname (num : Nat) (real : Str)
deriving DecidableEq, Repr

/-- go-irc (library, not in /repo) `ParsePrefix`: the user and the host of `nick!user@host`. -/
def idParsePrefix (s : Str) : Str × Str :=
  let p := cut 64 s
  (((cut 33 p.1).2).getD [], p.2.getD [])

/-- go-irc (library, not in /repo) `Prefix.String` of `dc.prefix()` (downstream.go:402-408). -/
def idPrefix (c : IdClient) : Str :=
  c.nick ++ (if c.username ≠ [] then b!"!" ++ c.username else []) ++
    (if c.hostname ≠ [] then b!"@" ++ c.hostname else [])

/-- downstream.go:518-523, 545-547 — `SendMessage`: SETNAME and CHGHOST only with the capability. -/
def idSend (c : IdClient) (m : VMsg) : IdClient :=
  if m.command = b!"SETNAME" ∧ c.setname = false then c
  else if m.command = b!"CHGHOST" ∧ c.chghost = false then c
  else { c with out := c.out ++ [m] }

/-- downstream.go:1075-1080, 1090-1112 — `updateSupportedCaps`, the two capabilities at stake; a capability that is
no longer supported is disabled. The CAP NEW and CAP DEL messages are left out. -/
def idSupportedCaps (conn : Option IdConn) (c : IdClient) : IdClient :=
  { c with
    chghost := c.chghost && conn.all (fun uc => uc.chghost)
    sasl := c.sasl && conn.any (fun uc => uc.sasl) }

/-- downstream.go:1138-1145 and 1466-1472 — the nick of a client of a network. -/
def idNickOf (conn : Option IdConn) (want : Str) : Str :=
  match conn with
  | some uc => uc.nick
  | none => want

/-- downstream.go:1193-1200 — the real name of a client of a network. -/
def idRealOf (conn : Option IdConn) (want : Str) : Str :=
  match conn with
  | some uc => uc.realname
  | none => want

/-- downstream.go:1137-1158 — `updateNick`. -/
def idUpdateNick (conn : Option IdConn) (want : Str) (c : IdClient) : IdClient :=
  let nick := idNickOf conn want
  if nick = c.nick then c
  else { idSend c ⟨c.nick, b!"NICK", [nick]⟩ with nick := nick }

/-- downstream.go:1160-1186 — `updateHost`. -/
def idUpdateHost (conn : Option IdConn) (c : IdClient) : IdClient :=
  match conn with
  | none => c
  | some uc =>
    if uc.hostname = [] then c
    else if uc.hostname = c.hostname ∧ uc.username = c.username then c
    else
      let c' := if c.chghost then idSend c ⟨c.nick, b!"CHGHOST", [uc.username, uc.hostname]⟩
        else if uc.hostname ≠ c.hostname then
          idSend c ⟨c.nick, b!"396", [c.nick, uc.hostname, b!"is now your visible host"]⟩
        else c
      { c' with hostname := uc.hostname, username := uc.username }

/-- downstream.go:1188-1210 — `updateRealname`. -/
def idUpdateRealname (conn : Option IdConn) (want : Str) (c : IdClient) : IdClient :=
  if c.setname = false then c
  else
    let real := idRealOf conn want
    if real ≠ c.realname then { idSend c ⟨c.nick, b!"SETNAME", [real]⟩ with realname := real }
    else c

/-- downstream.go:1212-1239 — `updateAccount` of a client bound to a network. -/
def idUpdateAccount (conn : Option IdConn) (c : IdClient) : IdClient :=
  match conn with
  | none => c
  | some uc =>
    if c.account = uc.account ∨ c.sasl = false then c
    else
      let c' := if uc.account ≠ [] then
          idSend c ⟨[], b!"900", [c.nick, idPrefix c, uc.account, b!"You are logged in as " ++ uc.account]⟩
        else idSend c ⟨[], b!"901", [c.nick, idPrefix c, b!"You are logged out"]⟩
      { c' with account := uc.account }

/-- user.go:652-662 — what is done for each client when the connection has registered. -/
def idConnected (conn : Option IdConn) (wantNick wantReal : Str) (c : IdClient) : IdClient :=
  idUpdateAccount conn (idUpdateRealname conn wantReal (idUpdateHost conn
    (idUpdateNick conn wantNick (idSupportedCaps conn c))))

/-- upstream.go:829-877, 1083-1126, 1127-1170 — the message of the server: the connection, and what is done
for each client. A message with too few parameters is an error and changes nothing. -/
def idServer (cm : CaseMapping) (uc : IdConn) (m : VMsg) : IdConn × (Option IdConn → IdClient → IdClient) :=
  let ours := decide (casemap cm m.source = casemap cm uc.nick)
  let keep : IdConn × (Option IdConn → IdClient → IdClient) := (uc, fun _ c => c)
  let forward : IdConn × (Option IdConn → IdClient → IdClient) := (uc, fun _ c => idSend c m)
  if m.command = b!"NICK" then
    match m.params with
    | n :: _ =>
      if ours then ({ uc with nick := n }, fun conn c => idUpdateNick conn [] c) else forward
    | _ => keep
  else if m.command = b!"SETNAME" then
    match m.params with
    | r :: _ =>
      if ours then ({ uc with realname := r }, fun conn c => idUpdateRealname conn [] c) else forward
    | _ => keep
  else if m.command = b!"CHGHOST" then
    match m.params with
    | u :: h :: _ =>
      if ours then ({ uc with username := u, hostname := h }, fun conn c => idUpdateHost conn c) else forward
    | _ => keep
  else if m.command = b!"900" then
    match m.params with
    | _ :: p :: a :: _ =>
      ({ uc with account := a, username := (idParsePrefix p).1, hostname := (idParsePrefix p).2 },
        fun conn c => idUpdateHost conn (idUpdateAccount conn c))
    | _ => keep
  else if m.command = b!"901" then
    match m.params with
    | _ :: p :: _ =>
      ({ uc with account := [], username := (idParsePrefix p).1, hostname := (idParsePrefix p).2 },
        fun conn c => idUpdateHost conn (idUpdateAccount conn c))
    | _ => keep
  else if m.command = b!"396" then
    match m.params with
    | _ :: r :: _ =>
      (match cut 64 r with
        | (u, some h) => { uc with username := u, hostname := h }
        | (_, none) => { uc with hostname := r },
        fun conn c => idUpdateHost conn c)
    | _ => keep
  else keep

/-- downstream.go:371-387, 1464-1473, 1482-1489, 1549-1551 — a client that logs in. -/
def idLogin (st : IdState) (num : Nat) (host : Str) (chghost setname sasl : Bool) : IdClient :=
  let c : IdClient := ⟨num, chghost, setname, sasl, b!"*", b!"~u", host, [], [], []⟩
  let c := idSupportedCaps st.conn c
  let nick := idNickOf st.conn st.wantNick
  let c := idSend { c with nick := nick } ⟨[], b!"001", [nick]⟩
  idUpdateAccount st.conn (idUpdateRealname st.conn st.wantReal (idUpdateHost st.conn c))

/-- downstream.go:854-916 — CAP REQ: a capability can be enabled if it is available, which for chghost and sasl
depends on the connection. -/
def idCapReq (conn : Option IdConn) (cap : IdCap) (on : Bool) (c : IdClient) : IdClient :=
  match cap with
  | .setname => { c with setname := on }
  | .chghost => if on = false ∨ conn.all (fun uc => uc.chghost) = true then { c with chghost := on } else c
  | .sasl => if on = false ∨ conn.any (fun uc => uc.sasl) = true then { c with sasl := on } else c

/-- user.go:895-908 — `handleUpstreamDisconnected`. -/
def idDisconnected (st : IdState) : IdState :=
  { st with conn := none, clients := st.clients.map (idSupportedCaps none) }

/-- downstream.go:1855-1905 — SETNAME of a client of the network (the database does not fail). With SETNAME on the upstream
connection the server is asked; only the record in the database is changed, not the one in memory. Without it the network is
updated, which disconnects it (user.go:1087-1165). -/
def idSetname (st : IdState) (c : IdClient) (real : Str) : IdState :=
  if c.realname = real then
    { st with clients := st.clients.map (fun d =>
        if d.num = c.num then idSend d ⟨d.nick, b!"SETNAME", [real]⟩ else d) }
  else
    let st' := { st with wantReal := if real = [] then st.dfltReal else real }
    match st.conn with
    | none => st'
    | some uc => if uc.setname then { st with asked := st.asked ++ [real] } else idDisconnected st'

/-- One event. -/
def idStep (cm : CaseMapping) (st : IdState) : IdOp → IdState
  -- user.go:645-662
  | .connected uc =>
    { st with conn := some uc, asked := [],
              clients := st.clients.map (idConnected (some uc) st.wantNick st.wantReal) }
  | .disconnected => idDisconnected st
  | .server m =>
    match st.conn with
    | none => st
    | some uc =>
      let r := idServer cm uc m
      { st with conn := some r.1, clients := st.clients.map (r.2 (some r.1)) }
  -- upstream.go:731-780
  | .upCaps sasl chghost setname =>
    match st.conn with
    | none => st
    | some uc =>
      let uc := { uc with sasl := sasl, chghost := chghost, setname := setname }
      { st with conn := some uc, clients := st.clients.map (idSupportedCaps (some uc)) }
  | .login num host chghost setname sasl =>
    if st.clients.any (fun c => c.num = num) then st
    else { st with clients := st.clients ++ [idLogin st num host chghost setname sasl] }
  | .logout num => { st with clients := st.clients.filter (fun c => c.num ≠ num) }
  | .capReq num cap on =>
    { st with clients := st.clients.map (fun c => if c.num = num then idCapReq st.conn cap on c else c) }
  | .setNick nick => { st with wantNick := nick }
  | .setReal real dflt => { st with wantReal := real, dfltReal := dflt }
  -- downstream.go:1800-1853: connected, NICK is passed on and the server answers
  | .cNick nick =>
    let st := { st with wantNick := nick }
    match st.conn with
    | some _ => st
    | none => { st with clients := st.clients.map (idUpdateNick none nick) }
  | .cSetname num real =>
    match st.clients.find? (fun c => c.num = num) with
    | none => st
    | some c => idSetname st c real

/-- The start: not connected, no client. -/
def idStart (wantNick wantReal dflt : Str) : IdState := ⟨none, wantNick, wantReal, dflt, [], []⟩

/-- A history. -/
def idRun (cm : CaseMapping) (st : IdState) (ops : List IdOp) : IdState := ops.foldl (idStep cm) st

end Verif.Model
