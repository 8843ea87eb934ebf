import Verif.Model.Caps
import Verif.Model.GenMsg
import Verif.Model.Base64

/-! # Model of the registration of the bouncer with a server

upstream.go:28-48 (table), 705-781 (`CAP`), 782-825 (`AUTHENTICATE`), 877-908 (end of a SASL exchange),
926-935 (`RPL_WELCOME`), 1757-1790 (refused commands, `FAIL`), 1822-1851 (nick in use), 1911-2046
(`handleSupportedCaps`, `updateCaps`, `supportsSASL`, `handleCapAck`, `register`), 2056-2083
(`runUntilRegistered`), user.go:701-709.

Not modelled here: what the other handlers do (they neither read nor write this state, except that before
registration an error of any of them ends the connection, and that `NICK` changes the nick of a registered
connection, see `Model/ChanView.lean`), and the exchanges that clients start themselves
(`Model/Creds.lean`). -/

namespace Verif.Model

/-- upstream.go:28-48 — `permanentUpstreamCaps`. -/
def permanentUpstreamCaps : List Str :=
  [b!"account-notify", b!"account-tag", b!"away-notify", b!"batch", b!"chghost", b!"extended-join",
   b!"extended-monitor", b!"invite-notify", b!"labeled-response", b!"message-tags", b!"multi-prefix",
   b!"sasl", b!"server-time", b!"setname", b!"draft/account-registration", b!"draft/extended-monitor"]

/-- The settings of the network that registration uses, as they are at the moment (database.Network; the
nick, user name and real name are those of `database.GetNick` and its likes). -/
structure UrNet where
  nick : Str
  username : Str
  realname : Str
  pass : Str
  /-- `SASL.Mechanism`: empty, "PLAIN" or "EXTERNAL". -/
  mech : Str
  /-- `SASL.Plain.Username` -/
  user : Str
  /-- `SASL.Plain.Password` -/
  password : Str
deriving DecidableEq, Repr

/-- The SASL clients of go-sasl that the bouncer uses. -/
inductive SaslClient where
  | plain (user password : Str)
  | external
deriving DecidableEq, Repr

/-- The initial response of a SASL client (go-sasl, `Start`; the authorization identity is empty).  Both
clients answer an error to any further challenge (`Next`). -/
def SaslClient.start : SaslClient → List Byte
  | .plain user password => [0] ++ user ++ [0] ++ password
  | .external => []

/-- upstream.go:195-240 — the fields of `upstreamConn` that registration uses. -/
structure UrState where
  caps : CapReg
  nick : Str
  /-- `saslClient` -/
  client : Option SaslClient
  /-- `saslStarted` -/
  started : Bool
  registered : Bool
deriving DecidableEq, Repr

/-- upstream.go:1911-1922 — `handleSupportedCaps`: one capability with its value. -/
def supportCap (cr : CapReg) (s : Str) : CapReg :=
  match cutStr b!"=" s with
  | some (k, v) => { cr with available := GoMap.set cr.available (asciiLower k) v }
  | none => { cr with available := GoMap.set cr.available (asciiLower s) [] }

/-- upstream.go:1911-1922 — `handleSupportedCaps`. -/
def handleSupportedCaps (cr : CapReg) (caps : Str) : CapReg := (fields caps).foldl supportCap cr

/-- upstream.go:1924-1940 — the capabilities `updateCaps` requests; `ord` is the order in which the range
loop visits `permanentUpstreamCaps`. -/
def requestedCaps (ord : List Str) (cr : CapReg) : List Str :=
  let l := ord.filter (fun c => cr.isAvailable c && !cr.isEnabled c)
  let echo := cr.isAvailable b!"labeled-response"
  if cr.isEnabled b!"echo-message" = false ∧ echo = true then l ++ [b!"echo-message"]
  else if cr.isEnabled b!"echo-message" = true ∧ echo = false then l ++ [b!"-echo-message"]
  else l

/-- upstream.go:1941-1947 — the request sent for these capabilities. -/
def capRequest (l : List Str) : List Msg :=
  if l = [] then [] else [⟨b!"CAP", [b!"REQ", joinSep 32 l]⟩]

/-- upstream.go:1949-1966 — `supportsSASL`. -/
def supportsSASL (cr : CapReg) (mech : Str) : Bool :=
  match GoMap.get cr.available b!"sasl" with
  | none => false
  | some v => if v = [] then true else (splitByte 44 v).any (fun m => decide (asciiLower m = asciiLower mech))

/-- upstream.go:1968-1973 — `requestSASL`. -/
def requestSASL (net : UrNet) (cr : CapReg) : Bool :=
  if net.mech = [] then false else supportsSASL cr net.mech

/-- upstream.go:1988-1998 — the SASL client for the mechanism of the network. -/
def saslClientFor (net : UrNet) : Option SaslClient :=
  if net.mech = b!"PLAIN" then some (.plain net.user net.password)
  else if net.mech = b!"EXTERNAL" then some .external
  else none

/-- upstream.go:1975-2012 — `handleCapAck`; the last component is false for an error. -/
def handleCapAck (net : UrNet) (st : UrState) (name : Str) (ok : Bool) : UrState × List Msg × Bool :=
  let st := { st with caps := st.caps.setEnabled name ok }
  if name = b!"sasl" then
    if requestSASL net st.caps = false then (st, [], true)
    else if ok = false then (st, [], true)
    else match saslClientFor net with
      | some cl => ({ st with client := some cl }, [⟨b!"AUTHENTICATE", [net.mech]⟩], true)
      | none => (st, [], false)
  else (st, [], true)

/-- upstream.go:748-753 — one word of CAP ACK or CAP NAK: the name and whether it is enabled. -/
def ackWord (ack : Bool) (w : Str) : Str × Bool :=
  if hasPrefix b!"-" w then (asciiLower (trimPrefix b!"-" w), false) else (asciiLower w, ack)

/-- upstream.go:748-757 — the loop over the words of CAP ACK or CAP NAK. -/
def ackLoop (net : UrNet) (ack : Bool) (st : UrState) : List Str → UrState × List Msg × Bool
  | [] => (st, [], true)
  | w :: ws =>
    let (name, on) := ackWord ack w
    let (st, out, ok) := handleCapAck net st name on
    if ok = false then (st, out, false)
    else
      let (st, out', ok) := ackLoop net ack st ws
      (st, out ++ out', ok)

/-- The message that ends the negotiation. -/
def capEnd : Msg := ⟨b!"CAP", [b!"END"]⟩

/-- upstream.go:712-737 — CAP LS; `params` are all the parameters of the message.  The test for a further
line looks at `msg.Params[len(subParams)-2]`, not at `subParams`. -/
def upCapLS (net : UrNet) (ord : List Str) (st : UrState) (params : List Str) : UrState × List Msg × Bool :=
  let sub := params.drop 2
  match sub.getLast? with
  | none => (st, [], false)
  | some caps =>
    let more := sub.length ≥ 2 ∧ params[sub.length - 2]? = some b!"*"
    let st := { st with caps := handleSupportedCaps st.caps caps }
    if more then (st, [], true)
    else
      let req := capRequest (requestedCaps ord st.caps)
      if requestSASL net st.caps then (st, req, true) else (st, req ++ [capEnd], true)

/-- upstream.go:705-781 — `CAP`. -/
def upCap (net : UrNet) (ord : List Str) (st : UrState) (params : List Str) : UrState × List Msg × Bool :=
  match params with
  | _ :: sub :: rest =>
    let sub := asciiUpper sub
    if sub = b!"LS" then upCapLS net ord st params
    else if sub = b!"ACK" ∨ sub = b!"NAK" then
      match rest with
      | [] => (st, [], false)
      | arg :: _ => ackLoop net (decide (sub = b!"ACK")) st (fields arg)
    else if sub = b!"NEW" then
      match rest with
      | [] => (st, [], false)
      | arg :: _ =>
        let st := { st with caps := handleSupportedCaps st.caps arg }
        (st, capRequest (requestedCaps ord st.caps), true)
    else if sub = b!"DEL" then
      match rest with
      | [] => (st, [], false)
      | arg :: _ => ({ st with caps := (fields arg).foldl CapReg.del st.caps }, [], true)
    else (st, [], true)
  | _ => (st, [], false)

/-- The message that aborts a SASL exchange. -/
def saslAbort : Msg := ⟨b!"AUTHENTICATE", [b!"*"]⟩

/-- upstream.go:782-825 — `AUTHENTICATE`. -/
def upAuthenticate (st : UrState) (params : List Str) : UrState × List Msg × Bool :=
  match st.client with
  | none => (st, [], false)
  | some cl =>
    match params with
    | [] => (st, [saslAbort], false)
    | c :: _ =>
      if c ≠ b!"+" ∧ (Base64.decode .std c).isNone = true then (st, [saslAbort], false)
      else if st.started then (st, [saslAbort], false)
      else ({ st with started := true }, generateSASL cl.start, true)

/-- upstream.go:877-908 — the numerics that end a SASL exchange: `ERR_NICKLOCKED`, `RPL_SASLSUCCESS`,
`ERR_SASLFAIL`, `ERR_SASLTOOLONG`, `ERR_SASLABORTED`. -/
def saslEndNumerics : List Str := [b!"902", b!"903", b!"904", b!"905", b!"906"]

/-- upstream.go:877-908 — the end of a SASL exchange. -/
def upSaslEnd (st : UrState) (params : List Str) : UrState × List Msg × Bool :=
  if params.length < 2 then (st, [], false)
  else
    let st := { st with client := none, started := false }
    (st, if st.registered then [] else [capEnd], true)

/-- upstream.go:1822-1848 — `ERR_NICKNAMEINUSE` before registration. -/
def upNickInUse (st : UrState) : UrState × List Msg × Bool :=
  if st.nick.length + 1 < 30 then
    let nick := st.nick ++ b!"_"
    ({ st with nick := nick }, [⟨b!"NICK", [nick]⟩], true)
  else (st, [], false)

/-- upstream.go:1757-1776 — the server does not accept a command (`ERR_UNKNOWNERROR`,
`ERR_UNKNOWNCOMMAND`, `ERR_NEEDMOREPARAMS`, `RPL_TRYAGAIN`). -/
def upRefused (st : UrState) (params : List Str) : UrState × List Msg × Bool :=
  match params with
  | _ :: cmd :: _ :: _ =>
    if cmd = b!"AUTHENTICATE" then ({ st with client := none, started := false }, [], true) else (st, [], true)
  | _ => (st, [], false)

/-- upstream.go:1849-1854 — the errors that end a connection before it is registered:
`ERR_PASSWDMISMATCH`, `ERR_ERRONEUSNICKNAME`, `ERR_NICKCOLLISION`, `ERR_UNAVAILRESOURCE`,
`ERR_NOPERMFORHOST`, `ERR_YOUREBANNEDCREEP`. -/
def registrationErrors : List Str := [b!"464", b!"432", b!"436", b!"437", b!"463", b!"465"]

/-- upstream.go:530-1861 — `handleMessage` for the messages other than CAP, as far as it concerns
registration; the last component is false for an error.  `JOIN` of the saved channels (upstream.go:935-945)
is `Model/GenMsg.lean`. -/
def upRegOther (st : UrState) (m : Msg) : UrState × List Msg × Bool :=
  if m.command = b!"AUTHENTICATE" then upAuthenticate st m.params
  else if m.command ∈ saslEndNumerics then upSaslEnd st m.params
  else if m.command = b!"001" then
    match m.params with
    | [] => (st, [], false)
    | nick :: _ => ({ st with nick := nick, registered := true }, [], true)
  else if m.command = b!"433" then
    if st.registered then (st, [], true) else upNickInUse st
  else if m.command ∈ registrationErrors then (st, [], st.registered)
  else if m.command = b!"400" ∨ m.command = b!"421" ∨ m.command = b!"461" ∨ m.command = b!"263" then
    upRefused st m.params
  else if m.command = b!"FAIL" then
    match m.params with
    | cmd :: code :: _ =>
      (st, [], st.registered || !(decide (cmd = b!"*" ∧ code = b!"ACCOUNT_REQUIRED")))
    | _ => (st, [], false)
  else (st, [], true)

/-- upstream.go:530-1861 — `handleMessage`, as far as it concerns registration; the last component is
false for an error. -/
def upRegister (net : UrNet) (ord : List Str) (st : UrState) (m : Msg) : UrState × List Msg × Bool :=
  if m.command = b!"CAP" then upCap net ord st m.params else upRegOther st m

/-- upstream.go:2020-2046 — `register`, and the state of a new connection (upstream.go:355-372). -/
def urStart (net : UrNet) : UrState × List Msg :=
  ({ caps := ⟨[], []⟩, nick := net.nick, client := none, started := false, registered := false },
   [⟨b!"CAP", [b!"LS", b!"302"]⟩] ++ (if net.pass ≠ [] then [⟨b!"PASS", [net.pass]⟩] else []) ++
   [⟨b!"NICK", [net.nick]⟩, ⟨b!"USER", [net.username, b!"0", b!"*", net.realname]⟩])

/-- A message of the server, with the settings of the network and the order of the range loop at the time. -/
structure UrOp where
  net : UrNet
  ord : List Str
  msg : Msg
deriving DecidableEq, Repr

/-- One message, and whether the connection goes on: upstream.go:2056-2070, before registration an error
ends it; user.go:701-709, afterwards it is only logged. -/
def urStep (st : UrState) (op : UrOp) : UrState × List Msg × Bool :=
  let (st', out, ok) := upRegister op.net op.ord st op.msg
  (st', out, ok || st.registered)

/-- All messages of the server: the state, unless the connection has been ended by an error, and everything
that was sent in answer. -/
def urRun (st : UrState) : List UrOp → Option UrState × List Msg
  | [] => (some st, [])
  | op :: ops =>
    let (st', out, go) := urStep st op
    if go then
      let (s, l) := urRun st' ops
      (s, out ++ l)
    else (none, out)

end Verif.Model
