import Verif.Model.Casemap
import Verif.Model.Ctcp
import Verif.Model.Labels
import Verif.Model.ReadMarker

/-! # Model of message routing and logging (upstream.go:634-704, 2100-2203; downstream.go:2387-2520) -/

namespace Verif.Model

/-- What message routing depends on, for one upstream connection. -/
structure UpEnv where
  cm : CaseMapping
  /-- uc.nick -/
  nick : Str
  /-- uc.serverPrefix.Name -/
  serverName : Str
  registered : Bool
  /-- uc.availableStatusMsg -/
  statusMsg : Str
  /-- joined channels: folded name ↦ name, folded nicks of the members (uc.channels) -/
  joined : GoMap Str (Str × List Str)
  /-- folded names of the detached saved channels (uc.network.channels) -/
  detached : List Str

/-- upstream.go:436-438 (`isOurNick`), user.go:206-208 (`equalCasemap`). -/
def UpEnv.same (env : UpEnv) (a b : Str) : Bool := decide (casemap env.cm a = casemap env.cm b)

/-- A PRIVMSG, NOTICE or TAGMSG received from the server.  `context` is the value of the
`+draft/channel-context` tag. -/
structure ChatMsg where
  sender : Str
  command : Str
  target : Str
  text : Str
  tags : List Str
  context : Option Str
deriving DecidableEq, Repr

/-- Where a received message goes. -/
inductive Route where
  /-- dropped: from or to the bouncer's own service -/
  | skip
  /-- forwarded, belongs to no buffer -/
  | server
  /-- forwarded and logged in a buffer; `direct`: a private message -/
  | buffer (name : Str) (direct : Bool)
deriving DecidableEq, Repr

/-- upstream.go:646-673 — the buffer of a received message. -/
def routeMessage (env : UpEnv) (m : ChatMsg) : Route :=
  let target := stripStatusMsg env.statusMsg m.target
  if env.same m.sender b!"BouncerServ" then .skip
  else if env.same target b!"BouncerServ" then .skip
  else if !env.registered || env.same m.sender env.serverName || decide (target = b!"*") || hasPrefix b!"$" target then
    .server
  else
    let direct := env.same target env.nick
    let bufferName := if direct then m.sender else target
    match m.context with
    | none => .buffer bufferName direct
    | some t => match GoMap.get env.joined (casemap env.cm t) with
      | some (name, members) =>
        if casemap env.cm m.sender ∈ members then .buffer name false else .buffer bufferName direct
      | none => .buffer bufferName direct

/-- upstream.go:51-56. -/
def storableMessageTags : List Str := [b!"+draft/react", b!"+react"]

/-- upstream.go:2125-2152 — the log `appendLog` writes to, if any.  `hasStore`: uc.user.msgStore != nil.
The target handed to the store is the folded name. -/
def logTarget (cm : CaseMapping) (hasStore : Bool) (entity command : Str) (tags : List Str) : Option Str :=
  if !hasStore then none
  else if command = b!"TAGMSG" ∧ ¬ (tags.any (fun t => decide (t ∈ storableMessageTags))) then none
  else if hasPrefix b!"$" entity then none
  else if casemap cm entity = b!"nickserv" then none
  else some (casemap cm entity)

/-- A client connection as seen by message delivery. -/
structure DClient where
  id : Nat
  network : Option Nat
  name : Str
  echo : Bool
  chathistory : Bool
deriving DecidableEq, Repr

/-- upstream.go:2184-2203 — `produce`, the loop over the clients of the network: `true` when the message
is sent to the client, `false` when its history is only advanced.  `fromUs`: the prefix is our nick. -/
def produceTo (clients : List DClient) (net : Nat) (detached fromUs : Bool) (originID : Nat) : List (Nat × Bool) :=
  (clients.filter (fun d => decide (d.network = some net))).map (fun d =>
    let echo := decide (d.id = originID) && fromUs
    (d.id, !detached && (!echo || d.echo)))

/-- upstream.go:2184-2203 — `produce`: the log written to and the clients reached. -/
def produce (env : UpEnv) (hasStore : Bool) (clients : List DClient) (net : Nat) (target sender command : Str)
    (tags : List Str) (originID : Nat) : Option Str × List (Nat × Bool) :=
  (if target = [] then none else logTarget env.cm hasStore target command tags,
    produceTo clients net (decide (casemap env.cm target ∈ env.detached)) (env.same sender env.nick) originID)

/-- upstream.go:634-704 — a received message with the downstream ID of its label (0: none): what is logged
and which clients get it (a detached channel's relay is modelled in Detach). -/
def receiveMessage (env : UpEnv) (hasStore : Bool) (clients : List DClient) (net : Nat) (m : ChatMsg)
    (downstreamID : Nat) : Option Str × List (Nat × Bool) :=
  match routeMessage env m with
  | .skip => (none, [])
  | .server => produce env hasStore clients net [] m.sender m.command m.tags 0
  | .buffer name _ => produce env hasStore clients net name m.sender m.command m.tags downstreamID

/-- The capabilities of the upstream server that matter for sending. -/
structure UpCaps where
  echoMessage : Bool
  labeledResponse : Bool
  messageTags : Bool
deriving DecidableEq, Repr

/-- upstream.go:2100-2119 — the label that is actually on the wire: `SendMessageLabeled` attaches it with
labeled-response, `SendMessage` removes all tags without message-tags. -/
def wireLabel (caps : UpCaps) (downstreamID nextLabelID : Nat) : Option Str :=
  if caps.labeledResponse && caps.messageTags then some (labelOf downstreamID nextLabelID) else none

/-- downstream.go:2475-2519 — a client's PRIVMSG/NOTICE/TAGMSG to one target that is neither a bouncer-wide
broadcast nor the bouncer's service: the label sent upstream, and, if the server does not echo messages,
what is logged and who gets a copy. -/
def sendMessage (env : UpEnv) (caps : UpCaps) (hasStore : Bool) (clients : List DClient) (net : Nat)
    (sender : DClient) (name command : Str) (tags : List Str) (nextLabelID : Nat) :
    Option Str × (Option Str × List (Nat × Bool)) :=
  (wireLabel caps sender.id nextLabelID,
    if caps.echoMessage then (none, [])
    else produce env hasStore clients net name env.nick command tags sender.id)

end Verif.Model
