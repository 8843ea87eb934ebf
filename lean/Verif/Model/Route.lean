import Verif.Model.Delivery
import Verif.Model.Filter
import Verif.Model.GoStr
import Verif.Model.Labels
import Verif.Model.Say
import Verif.Model.Whox

/-! # Model of the commands that are passed on to the server, or answered by the bouncer

downstream.go:30-62, 421-446, 629-647, 1765-1799, 2033-2386, 2521-2527, 2594-2610, 2624-2644, 3351-3369, user.go:804-817 and
upstream.go:2100-2119, 432-434: PING, PONG, USER, KICK, MODE, TOPIC, LIST, NAMES, WHO, WHOIS, INVITE, REGISTER, VERIFY,
INFO, QUIT and every command the bouncer does not know; for any number of clients and networks of one user.

Simplifications: the clients are registered (C27).  The commands of `rtElsewhere` are modelled elsewhere and have no
effect here.  What the bouncer knows of channels and people is given (C56, C75, C108, C110).  LIST, WHO, WHOIS, REGISTER
and VERIFY go to a queue (C17).  Numerics are given their source, and the tags a client has not asked for removed,
in C26.  Receipts of messages, which PONG carries, are in C21. -/

namespace Verif.Model

/-- What the bouncer knows of a channel it is in: what it answers to NAMES, TOPIC and MODE, the latter once it has the
modes. -/
structure RtChan where
  names : List Msg
  topic : List Msg
  modes : Option (List Msg)

/-- What the bouncer knows of a server. -/
structure RtFacts where
  messageTags : Bool
  labeled : Bool
  /-- draft/account-registration is enabled -/
  accountReg : Bool
  cm : CaseMapping
  /-- `uc.availableChannelTypes` -/
  chanTypes : Str
  /-- the token BOT of ISUPPORT -/
  bot : Option Str
  /-- `uc.modes` -/
  modes : Str
  /-- `uc.channels.Get` -/
  chan : Str → Option RtChan
  /-- the cached answer to WHO of a mask with these fields and token -/
  who : Str → Str → Str → Option (List Msg)

/-- A connection with a server. -/
structure RtConn where
  facts : RtFacts
  /-- `uc.nextLabelID` -/
  nextLabel : Nat
  /-- what was sent for commands of clients -/
  sent : List TMsg
  /-- what was put into the queue, with the client -/
  queued : List (Nat × TMsg)

structure RtClient where
  /-- `dc.id` -/
  id : Nat
  /-- the network, none for the bouncer itself -/
  net : Option Nat
  nick : Str
  realname : Str
  away : Bool
  /-- what it was sent -/
  out : List Msg
  /-- the bouncer has begun to close the connection -/
  closing : Bool

/-- The bouncer and the user. -/
structure RtEnv where
  hostname : Str
  username : Str
  admin : Bool
  /-- `dc.hostname` of a client -/
  host : Nat → Str

structure RtState where
  /-- the connections of the networks -/
  conns : Nat → Option RtConn
  clients : List RtClient

/-- What a command does: what the client is sent, what is sent to the server and what is put into the queue. -/
structure RtEffect where
  out : List Msg
  send : List TMsg
  queue : List TMsg
deriving DecidableEq, Repr

/-- Only a reply. -/
def rtReply (out : List Msg) : RtEffect := ⟨out, [], []⟩

/-- downstream.go:34-43 — `newUnknownCommandError`. -/
def rtUnknownCommand (cmd : Str) : Msg := ⟨b!"421", [b!"*", cmd, b!"Unknown command"]⟩

/-- downstream.go:45-50 — `newUnknownIRCError`. -/
def rtUnknownError (cmd text : Str) : Msg := ⟨b!"400", [b!"*", cmd, text]⟩

/-- downstream.go:52-61 — `newNeedMoreParamsError`. -/
def rtNeedMore (cmd : Str) : Msg := ⟨b!"461", [b!"*", cmd, b!"Not enough parameters"]⟩

/-- downstream.go:440 -/
def rtNoNetworkText : Str :=
  b!"Cannot interact with channels and users on the bouncer connection. Did you mean to use a specific network?"

/-- downstream.go:443 -/
def rtDisconnectedText : Str := b!"Disconnected from upstream network"

/-- downstream.go:438-446 — `upstreamForCommand`: the error, if there is no connection. -/
def rtNoUpstream (c : RtClient) (cmd : Str) : Msg :=
  match c.net with
  | none => rtUnknownError cmd rtNoNetworkText
  | some _ => rtUnknownError cmd rtDisconnectedText

/-- downstream.go:374-379, 1240-1247 — the case mapping a client is served with: that of its network, or ASCII. -/
def rtCm (c : RtClient) (cm : CaseMapping) : CaseMapping := if c.net.isSome then cm else .ascii

/-- upstream.go:432-434 — `isChannel`; channel types are ASCII characters. -/
def rtIsChannel (f : RtFacts) (name : Str) : Bool :=
  match name with
  | [] => false
  | ch :: _ => f.chanTypes.contains ch

/-- The commands modelled elsewhere. -/
def rtElsewhere : List Str :=
  [b!"CAP", b!"NICK", b!"SETNAME", b!"JOIN", b!"PART", b!"PRIVMSG", b!"NOTICE", b!"TAGMSG", b!"AUTHENTICATE",
   b!"AWAY", b!"MONITOR", b!"CHATHISTORY", b!"READ", b!"MARKREAD", b!"SEARCH", b!"BOUNCER", b!"WEBPUSH"]

/-- downstream.go:1768-1788 — PING. -/
def rtPing (env : RtEnv) (c : RtClient) (m : TMsg) : RtEffect :=
  match m.params with
  | [] => rtReply [rtNeedMore m.command]
  | source :: rest =>
    let destination := rest.headD []
    if destination ≠ [] ∧ destination ≠ env.hostname then
      rtReply [⟨b!"402", [c.nick, destination, b!"No such server"]⟩]
    else rtReply [⟨b!"PONG", [env.hostname, source]⟩]

/-- downstream.go:2040-2118 — MODE; `cm` is the mapping of the network. -/
def rtMode (cm : CaseMapping) (c : RtClient) (uc : Option RtConn) (m : TMsg) : RtEffect :=
  match m.params with
  | [] => rtReply [rtNeedMore m.command]
  | name :: rest =>
    let modeStr := rest.headD []
    if casemap (rtCm c cm) name = casemap (rtCm c cm) c.nick then
      if modeStr ≠ [] then
        match uc with
        | none => rtReply [rtNoUpstream c m.command]
        | some _ => ⟨[], [m], []⟩
      else
        let userMode := match uc with | some uc => uc.facts.modes | none => []
        rtReply [⟨b!"221", [c.nick, b!"+" ++ userMode]⟩]
    else
      match uc with
      | none => rtReply [rtNoUpstream c m.command]
      | some uc =>
        if rtIsChannel uc.facts name = false then
          rtReply [⟨b!"502", [c.nick, b!"Cannot change mode for other users"]⟩]
        else if modeStr ≠ [] then ⟨[], [⟨[], none, b!"MODE", name :: modeStr :: rest.tail⟩], []⟩
        else
          match uc.facts.chan name with
          | none => ⟨[], [m], []⟩
          | some ch =>
            match ch.modes with
            | none => rtReply []
            | some ms => rtReply ms

/-- downstream.go:2120-2145 — TOPIC. -/
def rtTopic (c : RtClient) (uc : Option RtConn) (m : TMsg) : RtEffect :=
  match m.params with
  | [] => rtReply [rtNeedMore m.command]
  | name :: rest =>
    match uc with
    | none => rtReply [rtNoUpstream c m.command]
    | some uc =>
      match rest with
      | topic :: _ => ⟨[], [⟨[], none, b!"TOPIC", [name, topic]⟩], []⟩
      | [] =>
        match uc.facts.chan name with
        | none => ⟨[], [m], []⟩
        | some ch => rtReply ch.topic

/-- downstream.go:2167-2178 — NAMES, one channel of the loop. -/
def rtNamesOne (f : RtFacts) (e : RtEffect) (name : Str) : RtEffect :=
  match f.chan name with
  | some ch => { e with out := e.out ++ ch.names }
  | none => { e with send := e.send ++ [⟨[], none, b!"NAMES", [name]⟩] }

/-- downstream.go:2153-2179 — NAMES. -/
def rtNames (c : RtClient) (uc : Option RtConn) (m : TMsg) : RtEffect :=
  match uc with
  | none => rtReply [rtNoUpstream c m.command]
  | some uc =>
    match m.params with
    | [] => rtReply [⟨b!"366", [c.nick, b!"*", b!"End of /NAMES list"]⟩]
    | list :: _ => (splitByte 44 list).foldl (rtNamesOne uc.facts) ⟨[], [], []⟩

/-- downstream.go:2182-2185 etc. — RPL_ENDOFWHO. -/
def rtEndOfWho (token : Str) : Msg := ⟨b!"315", [b!"*", token, b!"End of /WHO list"]⟩

/-- downstream.go:2180-2308 — WHO. -/
def rtWho (env : RtEnv) (cm : CaseMapping) (c : RtClient) (uc : Option RtConn) (m : TMsg) : RtEffect :=
  match m.params with
  | [] => rtReply [rtEndOfWho b!"*"]
  | mask :: rest =>
    let fields := (parseWHOXOptions (rest.headD [])).1
    let token := (parseWHOXOptions (rest.headD [])).2
    if c.net = none ∧ casemap (rtCm c cm) mask = casemap (rtCm c cm) c.nick then
      let flags := (if c.away then b!"G" else b!"H") ++ (if env.admin then b!"*" else [])
      rtReply [generateWHOXReply fields
        ⟨token, [], env.username, env.host c.id, env.hostname, c.nick, flags, env.username, c.realname⟩, rtEndOfWho mask]
    else if casemap (rtCm c cm) mask = b!"bouncerserv" then
      let flags := b!"H*" ++ match c.net, uc with
        | none, _ => b!"B"
        | some _, some uc => (match uc.facts.bot with | some v => if v.length = 1 then v else [] | none => [])
        | some _, none => []
      rtReply [generateWHOXReply fields
        ⟨token, [], b!"BouncerServ", b!"BouncerServ", env.hostname, b!"BouncerServ", flags, b!"BouncerServ",
          b!"soju bouncer service"⟩, rtEndOfWho mask]
    else if c.net = none then rtReply [rtEndOfWho mask]
    else
      match uc with
      | none => rtReply [rtNoUpstream c m.command]
      | some uc =>
        match uc.facts.who mask fields token with
        | some l => rtReply (l ++ [rtEndOfWho mask])
        | none => ⟨[], [], [m]⟩

/-- downstream.go:2317-2326 — the nick a WHOIS asks about: the first of the last list (of the first two parameters). -/
def rtWhoisMask (params : List Str) : Str :=
  (cut 44 (match params with
    | [] => []
    | [p] => p
    | _ :: p :: _ => p)).1

/-- downstream.go:2309-2386 — WHOIS. -/
def rtWhois (env : RtEnv) (cm : CaseMapping) (c : RtClient) (uc : Option RtConn) (m : TMsg) : RtEffect :=
  if m.params = [] then rtReply [⟨b!"431", [c.nick, b!"No nickname given"]⟩]
  else
    let mask := rtWhoisMask m.params
    if c.net = none ∧ casemap (rtCm c cm) mask = casemap (rtCm c cm) c.nick then
      rtReply ([⟨b!"311", [c.nick, c.nick, env.username, env.host c.id, b!"*", c.realname]⟩,
        ⟨b!"312", [c.nick, c.nick, env.hostname, b!"soju"]⟩] ++
        (if env.admin then [⟨b!"313", [c.nick, c.nick, b!"is a bouncer administrator"]⟩] else []) ++
        [⟨b!"330", [c.nick, c.nick, env.username, b!"is logged in as"]⟩,
         ⟨b!"318", [c.nick, c.nick, b!"End of /WHOIS list"]⟩])
    else if casemap (rtCm c cm) mask = b!"bouncerserv" then
      rtReply [⟨b!"311", [c.nick, b!"BouncerServ", b!"BouncerServ", b!"BouncerServ", b!"*", b!"soju bouncer service"]⟩,
        ⟨b!"312", [c.nick, b!"BouncerServ", env.hostname, b!"soju"]⟩,
        ⟨b!"313", [c.nick, b!"BouncerServ", b!"is the bouncer service"]⟩,
        ⟨b!"330", [c.nick, b!"BouncerServ", b!"BouncerServ", b!"is logged in as"]⟩,
        ⟨b!"335", [c.nick, b!"BouncerServ", b!"is a bot"]⟩,
        ⟨b!"318", [c.nick, b!"BouncerServ", b!"End of /WHOIS list"]⟩]
    else
      match uc with
      | none => rtReply [rtNoUpstream c m.command]
      | some _ => ⟨[], [], [m]⟩

/-- downstream.go:2594-2610 — REGISTER and VERIFY. -/
def rtRegister (uc : Option RtConn) (m : TMsg) : RtEffect :=
  if (m.command = b!"REGISTER" ∧ m.params.length < 3) ∨ (m.command = b!"VERIFY" ∧ m.params.length < 2) then
    rtReply [rtNeedMore m.command]
  else
    match uc with
    | some uc =>
      if uc.facts.accountReg then ⟨[], [], [m]⟩
      else rtReply [⟨b!"FAIL", [m.command, b!"TEMPORARILY_UNAVAILABLE", b!"*", b!"Upstream network account registration not supported"]⟩]
    | none => rtReply [⟨b!"FAIL", [m.command, b!"TEMPORARILY_UNAVAILABLE", b!"*", b!"Upstream network account registration not supported"]⟩]

/-- downstream.go:2624-2644 — INFO. -/
def rtInfo (c : RtClient) (uc : Option RtConn) (m : TMsg) : RtEffect :=
  match c.net, uc with
  | none, _ => rtReply [⟨b!"371", [c.nick, b!"soju <https://soju.im>"]⟩, ⟨b!"374", [c.nick, b!"End of INFO"]⟩]
  | some _, none => rtReply [⟨b!"421", [c.nick, m.command, rtDisconnectedText]⟩]
  | some _, some _ => ⟨[], [m], []⟩

/-- downstream.go:3351-3369 — any other command. -/
def rtDefault (c : RtClient) (uc : Option RtConn) (m : TMsg) : RtEffect :=
  match c.net, uc with
  | none, _ => rtReply [rtUnknownCommand m.command]
  | some _, none => rtReply [⟨b!"421", [b!"*", m.command, rtDisconnectedText]⟩]
  | some _, some _ => ⟨[], [m], []⟩

/-- downstream.go:1764-3371 — `handleMessageRegistered`; the errors it returns are sent to the client
(user.go:810-813).  `uc` is `dc.upstream()`. -/
def rtHandle (env : RtEnv) (cm : CaseMapping) (c : RtClient) (uc : Option RtConn) (m : TMsg) : RtEffect :=
  if m.command = b!"PING" then rtPing env c m
  else if m.command = b!"PONG" then
    if m.params = [] then rtReply [rtNeedMore m.command] else rtReply []
  else if m.command = b!"USER" then rtReply [⟨b!"462", [c.nick, b!"You may not reregister"]⟩]
  else if m.command = b!"KICK" ∨ m.command = b!"INVITE" then
    match uc with
    | none => rtReply [rtNoUpstream c m.command]
    | some _ => ⟨[], [m], []⟩
  else if m.command = b!"MODE" then rtMode cm c uc m
  else if m.command = b!"TOPIC" then rtTopic c uc m
  else if m.command = b!"LIST" then
    match uc with
    | none => rtReply [rtNoUpstream c m.command]
    | some _ => ⟨[], [], [m]⟩
  else if m.command = b!"NAMES" then rtNames c uc m
  else if m.command = b!"WHO" then rtWho env cm c uc m
  else if m.command = b!"WHOIS" then rtWhois env cm c uc m
  else if m.command = b!"REGISTER" ∨ m.command = b!"VERIFY" then rtRegister uc m
  else if m.command = b!"INFO" then rtInfo c uc m
  else if m.command ∈ rtElsewhere then rtReply []
  else rtDefault c uc m

/-- upstream.go:2100-2119 — `SendMessageLabeled` and `SendMessage`. -/
def rtSend (id : Nat) (uc : RtConn) (m : TMsg) : RtConn :=
  let tags := if uc.facts.labeled then GoMap.set m.tags b!"label" (mintLabel uc.nextLabel id).1 else m.tags
  let next := if uc.facts.labeled then (mintLabel uc.nextLabel id).2 else uc.nextLabel
  { uc with nextLabel := next, sent := uc.sent ++ [{ m with tags := if uc.facts.messageTags then tags else [] }] }

/-- The effect on the connection. -/
def rtApply (id : Nat) (e : RtEffect) (uc : RtConn) : RtConn :=
  let uc := e.send.foldl (rtSend id) uc
  { uc with queued := uc.queued ++ e.queue.map (fun m => (id, m)) }

/-- downstream.go:421-428 — `dc.upstream()`. -/
def rtUpstream (st : RtState) (c : RtClient) : Option RtConn :=
  match c.net with
  | none => none
  | some n => st.conns n

inductive RtOp where
  /-- the bouncer is connected with a server -/
  | connected (net : Nat) (facts : RtFacts)
  | disconnected (net : Nat)
  /-- the bouncer learns something of the server -/
  | learns (net : Nat) (facts : RtFacts)
  /-- a client has logged in -/
  | login (c : RtClient)
  /-- its connection has ended -/
  | logout (id : Nat)
  /-- a command -/
  | command (id : Nat) (m : TMsg)

/-- One event.  `cms` are the case mappings of the networks. -/
def rtStep (env : RtEnv) (cms : Nat → CaseMapping) (st : RtState) : RtOp → RtState
  | .connected net facts => { st with conns := fun n => if n = net then some ⟨facts, 0, [], []⟩ else st.conns n }
  | .disconnected net => { st with conns := fun n => if n = net then none else st.conns n }
  | .learns net facts =>
    { st with conns := fun n => if n = net then (st.conns n).map (fun uc => { uc with facts := facts }) else st.conns n }
  | .login c =>
    if st.clients.any (fun d => d.id = c.id) then st
    else { st with clients := st.clients ++ [{ c with out := [], closing := false }] }
  | .logout id => { st with clients := st.clients.filter (fun c => c.id ≠ id) }
  | .command id m =>
    match st.clients.find? (fun c => c.id = id) with
    | none => st
    | some c =>
      -- downstream.go:636-638, conn.go:232-249: what was sent before is written; then the connection is closed
      if m.command = b!"QUIT" then
        { st with clients := st.clients.map (fun d => if d.id = id then { d with closing := true } else d) }
      else
        let e := rtHandle env (cms (c.net.getD 0)) c (rtUpstream st c) m
        { conns := fun n => if c.net = some n then (st.conns n).map (rtApply id e) else st.conns n
          -- conn.go:216-226: nothing is written any more once the connection is being closed
          clients := st.clients.map (fun d =>
            if d.id = id then { d with out := d.out ++ if d.closing then [] else e.out } else d) }

/-- A history. -/
def rtRun (env : RtEnv) (cms : Nat → CaseMapping) (st : RtState) (ops : List RtOp) : RtState := ops.foldl (rtStep env cms) st

/-- The start. -/
def rtStart : RtState := ⟨fun _ => none, []⟩

end Verif.Model
