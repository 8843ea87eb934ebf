import Verif.Model.GoMap
import Verif.Model.GoStr
import Verif.Model.Casemap
import Verif.Model.Modes
import Verif.Model.GenMsg
import Verif.Model.Ctcp

/-! What the clients of one network are told about the nick and the channels of the upstream
connection: the upstream handlers that change the channels, the burst at login, and the detaching
and attaching of channels. The casemapping and the available memberships of the network are fixed
during a run. Messages whose command is none of 001, NICK, JOIN, PART, KICK, QUIT, TOPIC, 331, 332,
353, 366 are left out: they change neither the channels of the bouncer nor the view of a client. -/

namespace Verif.Model

/-- An IRC message with the nick of its source (the user and host parts and the tags are left out;
a message without source, to which `SendMessage` adds the name of the bouncer, has source `""`). -/
structure VMsg where
  source : Str
  command : Str
  params : List Str
deriving DecidableEq, Repr

/-- upstream.go:85-97 — `upstreamChannel`; `members` is keyed by the folded nick and holds the nick
with its memberships (modes, creation time, topic author and auto-detach timer left
out). -/
structure VcChan where
  name : Str
  status : Byte
  members : GoMap Str (Str × MembershipSet)
  topic : Str
  complete : Bool
deriving DecidableEq, Repr

/-- upstream.go:193-230 — the parts of `upstreamConn` used here. -/
structure VcConn where
  nick : Str
  chans : GoMap Str VcChan
deriving DecidableEq, Repr

/-- downstream.go:336-365 — `downstreamConn`: number, nick, capabilities, and the messages sent so
far. -/
structure VcClient where
  num : Nat
  nick : Str
  extJoin : Bool
  multiPrefix : Bool
  noNames : Bool
  out : List VMsg
deriving DecidableEq, Repr

/-- user.go:149-162 — the network: its connection, the nick to use (`GetNick`), the saved
channels (name and `Detached`, by folded name) and the clients bound to it. -/
structure VcState where
  conn : Option VcConn
  wantNick : Str
  records : GoMap Str (Str × Bool)
  clients : List VcClient
deriving DecidableEq, Repr

/-- Events of the user goroutine that concern the network. -/
inductive VcOp where
  /-- `eventUpstreamConnected`: a connection registered with this nick -/
  | connected (nick : Str)
  /-- `eventUpstreamDisconnected` -/
  | disconnected
  /-- `eventUpstreamMessage`; `dc` is the number of the client whose label the message carries, 0 if
  none -/
  | server (m : VMsg) (dc : Nat)
  /-- a client logs in -/
  | login (num : Nat) (extJoin multiPrefix noNames : Bool)
  /-- a client leaves -/
  | logout (num : Nat)
  /-- a client sends `JOIN name` -/
  | cJoin (name : Str)
  /-- a client sends `PART name :detach` -/
  | cDetach (name : Str)
  /-- a client sends `PART name` -/
  | cPart (name : Str)
  /-- `network.detach` and `network.attach` from elsewhere: timers, relayed highlights, the service -/
  | detach (name : Str)
  | attach (name : Str)
  /-- the service command `channel create`: the channel is saved -/
  | save (name : Str)
  /-- the service command `channel delete`: the channel is forgotten -/
  | forget (name : Str)
  /-- the nick to use is changed from elsewhere: the account, the service, BOUNCER CHANGENETWORK (an update of the network also
  disconnects it) -/
  | setNick (nick : Str)
  /-- a client sends `NICK nick` -/
  | cNick (num : Nat) (nick : Str)
  /-- a client sends `NAMES name` -/
  | cNames (num : Nat) (name : Str)
  /-- a client sends `TOPIC name` -/
  | cTopic (num : Nat) (name : Str)
  /-- a MODE or 324 message gives a member other memberships (over-approximates
  `applyChannelModes`, which is modelled in `Verif.Model.Modes`) -/
  | setModes (name nick : Str) (ms : MembershipSet)
deriving DecidableEq, Repr

/-- downstream.go:512-515 — `SendMessage`: a JOIN loses the extended-join parameters unless the
capability is enabled (the filters on other commands and on tags are left out). -/
def VcClient.send (c : VcClient) (m : VMsg) : VcClient :=
  if m.command = b!"JOIN" ∧ c.extJoin = false then
    { c with out := c.out ++ [{ m with params := m.params.take 1 }] }
  else { c with out := c.out ++ [m] }

/-- A sequence of `SendMessage`. -/
def VcClient.sendAll (c : VcClient) (ms : List VMsg) : VcClient := ms.foldl VcClient.send c

/-- upstream.go:440-444, 406-413 — `forwardMessage` and `forwardMsgByID`. -/
def vcForward (st : VcState) (dc : Nat) (m : VMsg) : VcState :=
  { st with clients := st.clients.map fun c => if dc ≠ 0 ∧ dc ≠ c.num then c else c.send m }

/-- upstream.go:2190-2192 and the check at 1517-1518 — `ch != nil && ch.Detached`. -/
def vcDetached (cm : CaseMapping) (st : VcState) (name : Str) : Bool :=
  match st.records.get (casemap cm name) with
  | some r => r.2
  | none => false

/-- upstream.go:2184-2203 — `produce`; the message is stored elsewhere and none of these messages
has an origin. -/
def vcProduce (cm : CaseMapping) (st : VcState) (target : Str) (m : VMsg) : VcState :=
  if vcDetached cm st target then st else vcForward st 0 m

/-- downstream.go:1137-1158 — `updateNick`, `nick` being the nick of the connection or the one to
use. -/
def vcUpdateNick (nick : Str) (c : VcClient) : VcClient :=
  if nick = c.nick then c
  else { c.send ⟨c.nick, b!"NICK", [nick]⟩ with nick := nick }

/-- downstream.go:3465-3484 — `sendTopic` (RPL_TOPICWHOTIME left out). -/
def vcTopicMsgs (c : VcClient) (ch : VcChan) : List VMsg :=
  if ch.topic ≠ [] then [⟨[], b!"332", [c.nick, ch.name, ch.topic]⟩]
  else [⟨[], b!"331", [c.nick, ch.name, b!"No topic is set"]⟩]

/-- downstream.go:3486-3498 — `sendNames`; the order of the map is the order of the list. -/
def vcNamesMsgs (c : VcClient) (ch : VcChan) : List VMsg :=
  (generateNamesReply ch.name ch.status
    (ch.members.map fun e => formatMemberPrefix e.2.2 c.multiPrefix ++ e.2.1)).map
      fun m => ⟨[], m.command, m.params⟩

/-- downstream.go:3426-3463 — `forwardChannel` after its check (read markers left out). -/
def vcChannelMsgs (c : VcClient) (ch : VcChan) : List VMsg :=
  (if ch.topic ≠ [] then vcTopicMsgs c ch else []) ++ (if c.noNames then [] else vcNamesMsgs c ch)

/-- upstream.go:1204-1210 — a channel just joined. -/
def vcFresh (name : Str) : VcChan := ⟨name, 0, [], [], false⟩

/-- xirc/casemapping.go:105-117 — `Set` of the map of members: a nick that is there keeps the letters it was first seen with. -/
def vcMember (cm : CaseMapping) (members : GoMap Str (Str × MembershipSet)) (nick : Str) (ms : MembershipSet) :
    GoMap Str (Str × MembershipSet) :=
  members.set (casemap cm nick)
    ((match members.get (casemap cm nick) with
      | some e => e.1
      | none => nick), ms)

/-- upstream.go:1105-1112 — a NICK in one channel. -/
def vcRename (cm : CaseMapping) (old new : Str) (ch : VcChan) : VcChan :=
  match ch.members.get (casemap cm old) with
  | some e =>
    { ch with members := vcMember cm (ch.members.del (casemap cm old)) new e.2 }
  | none => ch

/-- upstream.go:1083-1127 — NICK. -/
def vcNick (cm : CaseMapping) (st : VcState) (conn : VcConn) (m : VMsg) : VcState :=
  match m.params with
  | new :: _ =>
    let me := decide (casemap cm conn.nick = casemap cm m.source)
    let chans := conn.chans.map fun e => (e.1, vcRename cm m.source new e.2)
    if me then
      { st with conn := some ⟨new, chans⟩, clients := st.clients.map (vcUpdateNick new) }
    else vcForward { st with conn := some ⟨conn.nick, chans⟩ } 0 m
  | [] => st

/-- upstream.go:1202-1228 — the loop of JOIN; an unknown channel ends it with an error. -/
def vcJoinLoop (cm : CaseMapping) (m : VMsg) : List Str → VcState → VcConn → VcState
  | [], st, _ => st
  | name :: rest, st, conn =>
    if casemap cm conn.nick = casemap cm m.source then
      let conn' := { conn with chans := conn.chans.set (casemap cm name) (vcFresh name) }
      vcJoinLoop cm m rest
        (vcProduce cm { st with conn := some conn' } name { m with params := name :: m.params.drop 1 })
        conn'
    else
      match conn.chans.get (casemap cm name) with
      | some ch =>
        let ch' := { ch with members := vcMember cm ch.members m.source [] }
        let conn' := { conn with chans := conn.chans.set (casemap cm name) ch' }
        vcJoinLoop cm m rest
          (vcProduce cm { st with conn := some conn' } name { m with params := name :: m.params.drop 1 })
          conn'
      | none => st

/-- upstream.go:1235-1261 — the loop of PART. -/
def vcPartLoop (cm : CaseMapping) (m : VMsg) : List Str → VcState → VcConn → VcState
  | [], st, _ => st
  | name :: rest, st, conn =>
    if casemap cm conn.nick = casemap cm m.source then
      let conn' := { conn with chans := conn.chans.del (casemap cm name) }
      vcPartLoop cm m rest
        (vcProduce cm { st with conn := some conn' } name { m with params := name :: m.params.drop 1 })
        conn'
    else
      match conn.chans.get (casemap cm name) with
      | some ch =>
        let ch' := { ch with members := ch.members.del (casemap cm m.source) }
        let conn' := { conn with chans := conn.chans.set (casemap cm name) ch' }
        vcPartLoop cm m rest
          (vcProduce cm { st with conn := some conn' } name { m with params := name :: m.params.drop 1 })
          conn'
      | none => st

/-- upstream.go:1262-1289 — KICK. -/
def vcKick (cm : CaseMapping) (st : VcState) (conn : VcConn) (m : VMsg) : VcState :=
  match m.params with
  | name :: user :: _ =>
    if casemap cm conn.nick = casemap cm user then
      vcProduce cm { st with conn := some { conn with chans := conn.chans.del (casemap cm name) } } name m
    else
      match conn.chans.get (casemap cm name) with
      | some ch =>
        let ch' := { ch with members := ch.members.del (casemap cm user) }
        vcProduce cm { st with conn := some { conn with chans := conn.chans.set (casemap cm name) ch' } }
          name m
      | none => st
  | _ => st

/-- upstream.go:1290-1306 — QUIT. -/
def vcQuit (cm : CaseMapping) (st : VcState) (conn : VcConn) (m : VMsg) : VcState :=
  let chans := conn.chans.map fun e =>
    (e.1, { e.2 with members := e.2.members.del (casemap cm m.source) })
  let st' := { st with conn := some { conn with chans := chans } }
  if m.source ≠ conn.nick then vcForward st' 0 m else st'

/-- upstream.go:1307-1321 — RPL_TOPIC and RPL_NOTOPIC. -/
def vcTopicReply (cm : CaseMapping) (st : VcState) (conn : VcConn) (m : VMsg) (dc : Nat) : VcState :=
  match m.params with
  | _ :: name :: topic :: _ =>
    match conn.chans.get (casemap cm name) with
    | none => vcForward st dc m
    | some ch =>
      let t := if m.command = b!"332" then topic else []
      { st with conn := some { conn with chans := conn.chans.set (casemap cm name) { ch with topic := t } } }
  | _ => st

/-- upstream.go:1322-1339 — TOPIC. -/
def vcTopic (cm : CaseMapping) (st : VcState) (conn : VcConn) (m : VMsg) : VcState :=
  match m.params with
  | name :: rest =>
    match conn.chans.get (casemap cm name) with
    | none => st
    | some ch =>
      let t := match rest with
        | t :: _ => t
        | [] => []
      vcProduce cm
        { st with conn := some { conn with chans := conn.chans.set (casemap cm name) { ch with topic := t } } }
        ch.name m
  | _ => st

/-- upstream.go:2014-2018 — `splitSpace`. -/
def splitSpace (s : Str) : List Str := (splitByte 32 s).filter (fun w => !w.isEmpty)

/-- upstream.go:1496-1499 — the loop of RPL_NAMREPLY. -/
def vcAddNames (cm : CaseMapping) (avail : List Membership) (ch : VcChan) (words : List Str) : VcChan :=
  words.foldl (fun ch s =>
    let r := parseMembershipPrefix avail s
    { ch with members := vcMember cm ch.members r.2 r.1 }) ch

/-- upstream.go:1477-1499 — RPL_NAMREPLY; `none` is the panic of `ParseChannelStatus` on an empty
string. -/
def vcNamReply (cm : CaseMapping) (avail : List Membership) (st : VcState) (conn : VcConn) (m : VMsg)
    (dc : Nat) : Option VcState :=
  match m.params with
  | _ :: status :: name :: members :: _ =>
    match conn.chans.get (casemap cm name) with
    | none => some (vcForward st dc m)
    | some ch =>
      match parseChannelStatus status with
      | none => none
      | some none => some st
      | some (some s) =>
        let ch' := vcAddNames cm avail { ch with status := s } (splitSpace members)
        some { st with conn := some { conn with chans := conn.chans.set (casemap cm name) ch' } }
  | _ => some st

/-- upstream.go:1500-1523 — RPL_ENDOFNAMES. -/
def vcEndOfNames (cm : CaseMapping) (st : VcState) (conn : VcConn) (m : VMsg) (dc : Nat) : VcState :=
  match m.params with
  | _ :: name :: _ =>
    match conn.chans.get (casemap cm name) with
    | none => vcForward st dc m
    | some ch =>
      if ch.complete then st
      else
        let ch' := { ch with complete := true }
        let st' := { st with conn := some { conn with chans := conn.chans.set (casemap cm name) ch' } }
        if vcDetached cm st name then st'
        else { st' with clients := st'.clients.map fun c => c.sendAll (vcChannelMsgs c ch') }
  | _ => st

/-- upstream.go:583-1523 — `handleMessage` for the commands that concern channels and nicks. -/
def vcServer (cm : CaseMapping) (avail : List Membership) (st : VcState) (conn : VcConn) (m : VMsg)
    (dc : Nat) : Option VcState :=
  if m.command = b!"NICK" then some (vcNick cm st conn m)
  else if m.command = b!"JOIN" then
    match m.params with
    | names :: _ => some (vcJoinLoop cm m (splitByte 44 names) st conn)
    | [] => some st
  else if m.command = b!"PART" then
    match m.params with
    | names :: _ => some (vcPartLoop cm m (splitByte 44 names) st conn)
    | [] => some st
  else if m.command = b!"KICK" then some (vcKick cm st conn m)
  else if m.command = b!"QUIT" then some (vcQuit cm st conn m)
  else if m.command = b!"331" ∨ m.command = b!"332" then some (vcTopicReply cm st conn m dc)
  else if m.command = b!"TOPIC" then some (vcTopic cm st conn m)
  else if m.command = b!"353" then vcNamReply cm avail st conn m dc
  else if m.command = b!"366" then some (vcEndOfNames cm st conn m dc)
  else some st

/-- user.go:320-352 — `detach` of a record with this name. -/
def vcDetach (cm : CaseMapping) (st : VcState) (name : Str) (r : Str × Bool) : VcState :=
  if r.2 then st
  else
    { st with
      records := st.records.set (casemap cm name) (r.1, true)
      clients := st.clients.map fun c => c.send ⟨c.nick, b!"PART", [r.1, b!"Detach"]⟩ }

/-- user.go:366-370, downstream.go:2138, 2169 — `net.conn.channels.Get(name)`, if connected. -/
def vcChan? (cm : CaseMapping) (st : VcState) (name : Str) : Option VcChan :=
  match st.conn with
  | some conn => conn.chans.get (casemap cm name)
  | none => none

/-- downstream.go:3427 — the channel is joined and its list of members has not ended. -/
def vcPartial (cm : CaseMapping) (st : VcState) (name : Str) : Bool :=
  match vcChan? cm st name with
  | some ch => !ch.complete
  | none => false

/-- user.go:373-380 — what `attach` sends to one client. -/
def vcAttachMsgs (cm : CaseMapping) (st : VcState) (name : Str) (r : Str × Bool) (c : VcClient) :
    List VMsg :=
  ⟨c.nick, b!"JOIN", [r.1]⟩ ::
    match vcChan? cm st name with
    | some ch => vcChannelMsgs c ch
    | none => []

/-- user.go:354-387 — `attach`; `none` is the panic of `forwardChannel` (downstream.go:3427-3429),
which needs a client to happen; the replay of stored messages is left out. -/
def vcAttach (cm : CaseMapping) (st : VcState) (name : Str) (r : Str × Bool) : Option VcState :=
  if !r.2 then some st
  else
    if vcPartial cm st name && !st.clients.isEmpty then none
    else
      some { st with
        records := st.records.set (casemap cm name) (r.1, false)
        clients := st.clients.map fun c => c.sendAll (vcAttachMsgs cm st name r c) }

/-- downstream.go:1581-1607 — the channels in the burst at login. -/
def vcBurst (cm : CaseMapping) (st : VcState) (conn : VcConn) (c : VcClient) : List VMsg :=
  conn.chans.flatMap fun e =>
    if e.2.complete = false ∨ vcDetached cm st e.2.name then []
    else ⟨c.nick, b!"JOIN", [e.2.name]⟩ :: vcChannelMsgs c e.2

/-- downstream.go:1442-1607 — `welcome` of a client of this network (extended-join parameters and
the other messages left out). -/
def vcWelcome (cm : CaseMapping) (st : VcState) (num : Nat) (extJoin multiPrefix noNames : Bool) :
    VcState :=
  let nick := match st.conn with
    | some conn => conn.nick
    | none => st.wantNick
  let c : VcClient := ⟨num, nick, extJoin, multiPrefix, noNames, []⟩
  let burst := match st.conn with
    | some conn => vcBurst cm st conn c
    | none => []
  { st with
    clients := st.clients ++ [c.sendAll (⟨[], b!"001", [nick, b!"Welcome to soju, " ++ nick]⟩ :: burst)] }

/-- The event loop of the user; `none` is a panic. user.go:643-672, 895-931;
downstream.go:1800-1853 (NICK, the checks of the name left out), 1956-1975 (JOIN), 1985-2032 (PART),
2138-2144 (TOPIC), 2167-2178 (NAMES); service.go:1457-1491, 1542-1566; user.go:389-407. -/
def vcStep (cm : CaseMapping) (avail : List Membership) (st : VcState) : VcOp → Option VcState
  | .connected nick =>
    some { st with conn := some ⟨nick, []⟩, clients := st.clients.map (vcUpdateNick nick) }
  | .disconnected => some { st with conn := none }
  | .server m dc =>
    match st.conn with
    | some conn => vcServer cm avail st conn m dc
    | none => some st
  | .login num ej mp nn => some (vcWelcome cm st num ej mp nn)
  | .logout num => some { st with clients := st.clients.filter fun c => c.num ≠ num }
  | .cJoin name =>
    match st.conn with
    | some _ =>
      match st.records.get (casemap cm name) with
      | some r => vcAttach cm st name r
      | none => some { st with records := st.records.set (casemap cm name) (name, false) }
    | none => some st
  | .cDetach name =>
    match st.conn with
    | some _ =>
      match st.records.get (casemap cm name) with
      | some r => some (vcDetach cm st name r)
      | none => some { st with records := st.records.set (casemap cm name) (name, true) }
    | none => some st
  | .cPart name =>
    match st.conn with
    | some _ => some { st with records := st.records.del (casemap cm name) }
    | none => some st
  | .detach name =>
    match st.records.get (casemap cm name) with
    | some r => some (vcDetach cm st name r)
    | none => some st
  | .attach name =>
    match st.records.get (casemap cm name) with
    | some r => vcAttach cm st name r
    | none => some st
  | .save name =>
    match st.records.get (casemap cm name) with
    | some _ => some st
    | none => some { st with records := st.records.set (casemap cm name) (name, false) }
  | .forget name => some { st with records := st.records.del (casemap cm name) }
  | .setNick nick => some { st with wantNick := nick }
  | .cNick num nick =>
    let st' := { st with wantNick := nick }
    match st.conn with
    | some _ => some st'
    | none =>
      some { st' with clients := st'.clients.map fun c => if c.num = num then vcUpdateNick nick c else c }
  | .cNames num name =>
    match vcChan? cm st name with
    | some ch =>
      some { st with clients := st.clients.map fun c =>
        if c.num = num then c.sendAll (vcNamesMsgs c ch) else c }
    | none => some st
  | .cTopic num name =>
    match vcChan? cm st name with
    | some ch =>
      some { st with clients := st.clients.map fun c =>
        if c.num = num then c.sendAll (vcTopicMsgs c ch) else c }
    | none => some st
  | .setModes name nick ms =>
    match st.conn with
    | some conn =>
      match conn.chans.get (casemap cm name) with
      | some ch =>
        match ch.members.get (casemap cm nick) with
        | some e =>
          let ch' := { ch with members := ch.members.set (casemap cm nick) (e.1, ms.filter (· ∈ avail)) }
          some { st with conn := some { conn with chans := conn.chans.set (casemap cm name) ch' } }
        | none => some st
      | none => some st
    | none => some st

/-- A run of the event loop. -/
def vcRun (cm : CaseMapping) (avail : List Membership) : VcState → List VcOp → Option VcState
  | st, [] => some st
  | st, op :: ops =>
    match vcStep cm avail st op with
    | some st' => vcRun cm avail st' ops
    | none => none

/-- The network before its first connection. -/
def vcInit (wantNick : Str) (records : GoMap Str (Str × Bool)) : VcState := ⟨none, wantNick, records, []⟩

end Verif.Model
