import Verif.Model.Delivery
import Verif.Model.Filter
import Verif.Model.GoStr

/-! # Model of what becomes of the messages of a client

downstream.go:2387-2520 (PRIVMSG, NOTICE and TAGMSG), irc.go:210-230 (`parseMessageParams`, `copyClientTags`),
upstream.go:2100-2119 (`SendMessageLabeled`, `SendMessage`) and conn.go:118-160 (the goroutine that writes).

The map of tags is made once and shared by the messages to all the targets of a command: `SendMessageLabeled` writes the
label to it while the goroutine of the connection reads it to write an earlier message.  So the two are modelled as a
transition system.

Simplifications: the channel of the connection is not bounded and the connection does not end (C33); what a client gets
goes through the filter of C26; the connection of the network does not change while the command is handled (a command
of the service can change it). -/

namespace Verif.Model

/-- The connection to the server of the network of the client. -/
structure SayConn where
  caps : UpCaps
  cm : CaseMapping
  /-- `uc.nick`, `uc.username`, `uc.hostname` -/
  self : Prefix
  /-- `uc.account`, empty if there is none -/
  account : Str
deriving DecidableEq, Repr

/-- The client, and what else matters. -/
structure SayEnv where
  /-- `dc.id` -/
  id : Nat
  /-- the name of the bouncer -/
  hostname : Str
  admin : Bool
  /-- `dc.network != nil` -/
  bound : Bool
  conn : Option SayConn
  cm : CaseMapping
  /-- `dc.prefix()` -/
  self : Prefix
  /-- the client has echo-message -/
  echo : Bool
  /-- the time, as it is formatted, when so many targets are left -/
  now : Nat → Str

/-- irc.go:222-230 — `copyClientTags`. -/
def copyClientTags (tags : GoMap Str Str) : GoMap Str Str := tags.filter (fun p => hasPrefix b!"+" p.1)

/-- service.go:23-35 — `servicePrefix`. -/
def servicePrefix : Prefix := ⟨b!"BouncerServ", b!"BouncerServ", b!"BouncerServ"⟩

/-- What the command does besides messages to the server. -/
inductive SayOut where
  /-- an error: not allowed to send to everyone -/
  | notAllowed (name : Str)
  /-- an error: no network, or no connection to its server -/
  | notConnected
  /-- to all clients of all users -/
  | broadcast (m : TMsg)
  /-- to the client itself -/
  | toClient (m : TMsg)
  /-- a command for the service -/
  | service (text : Str)
  /-- a text that may contain credentials (C51) -/
  | nickServ (text : Str)
  /-- into the log and to the clients of the network (C19, C20) -/
  | produced (target : Str) (m : TMsg)
  /-- the channel is in use (C61) -/
  | active (target : Str)
deriving DecidableEq, Repr

/-- A message in the channel of the connection to the server; `tagged`: its tags are the shared map, else it has none. -/
structure SayQueued where
  command : Str
  params : List Str
  tagged : Bool
deriving DecidableEq, Repr

structure SaySys where
  /-- the command of the client -/
  msg : TMsg
  /-- the targets the loop has not come to -/
  pending : List Str
  /-- the shared map -/
  tags : GoMap Str Str
  /-- `uc.nextLabelID` -/
  nextLabel : Nat
  out : List SayOut
  queue : List SayQueued
  /-- the message that is being written to the server -/
  writing : Option TMsg
  /-- what has been written -/
  wire : List TMsg
  /-- the map was written by one goroutine while it was read by another -/
  raced : Bool
deriving DecidableEq, Repr

/-- downstream.go:2388-2399 — the command of a client before the loop; `none` is ERR_NEEDMOREPARAMS. -/
def sayStart (nextLabel : Nat) (msg : TMsg) : Option SaySys :=
  if msg.params.length < (if msg.command ≠ b!"TAGMSG" then 2 else 1) then none
  else some ⟨msg, splitByte 44 (msg.params.headD []), copyClientTags msg.tags, nextLabel, [], [], none, [], false⟩

/-- downstream.go:2388-2397 — the text. -/
def sayText (msg : TMsg) : Str := (msg.params.drop 1).headD []

/-- downstream.go:2402-2405, 2481-2484, 2496-2499 — the parameters of the message to one target. -/
def sayParams (msg : TMsg) (name : Str) : List Str :=
  if msg.command ≠ b!"TAGMSG" then [name, sayText msg] else [name]

/-- upstream.go:2100-2119, downstream.go:2486-2490 — `SendMessageLabeled` and `SendMessage`. -/
def saySend (env : SayEnv) (uc : SayConn) (st : SaySys) (name : Str) : SaySys :=
  let st :=
    if uc.caps.labeledResponse then
      { st with
        tags := GoMap.set st.tags b!"label" (mintLabel st.nextLabel env.id).1
        nextLabel := (mintLabel st.nextLabel env.id).2
        raced := st.raced || (st.writing.isSome && uc.caps.messageTags) }
    else st
  { st with queue := st.queue ++ [⟨st.msg.command, sayParams st.msg name, uc.caps.messageTags⟩] }

/-- downstream.go:2501-2516 — the message as other clients see it, if the server does not echo it. -/
def sayEcho (env : SayEnv) (uc : SayConn) (st : SaySys) (name : Str) : TMsg :=
  let tags := GoMap.set st.tags b!"time" (env.now st.pending.length)
  let tags := if uc.account ≠ [] then GoMap.set tags b!"account" uc.account else tags
  ⟨tags, some uc.self, st.msg.command, sayParams st.msg name⟩

/-- downstream.go:2401-2519 — the loop comes to this target; `st` has the targets after it. -/
def sayTarget (env : SayEnv) (st : SaySys) (name : Str) : SaySys :=
  let params := sayParams st.msg name
  -- 2407-2431
  if name = b!"$" ++ env.hostname ∨ (name = b!"$*" ∧ env.bound = false) then
    if env.admin = false then { st with pending := [], out := st.out ++ [.notAllowed name] }
    else
      { st with out := st.out ++
          [.broadcast ⟨GoMap.set st.tags b!"time" (env.now st.pending.length), some servicePrefix, st.msg.command, params⟩] }
  -- 2433-2441
  else if env.bound = false ∧ casemap env.cm name = casemap env.cm env.self.name then
    { st with out := st.out ++ [.toClient ⟨st.msg.tags, some env.self, st.msg.command, params⟩] }
  -- 2443-2470
  else if casemap env.cm name = b!"bouncerserv" then
    { st with out := st.out ++
        (if env.echo then
          [.toClient ⟨GoMap.set st.tags b!"time" (env.now st.pending.length), some env.self, st.msg.command, params⟩] else []) ++
        (if st.msg.command = b!"PRIVMSG" then [.service (sayText st.msg)] else []) }
  else
    -- 2472-2475, 438-446
    match (if env.bound then env.conn else none) with
    | none => { st with pending := [], out := st.out ++ [.notConnected] }
    | some uc =>
      -- 2477-2479
      let st := if st.msg.command = b!"PRIVMSG" ∧ casemap uc.cm name = b!"nickserv" then
          { st with out := st.out ++ [.nickServ (sayText st.msg)] } else st
      let st := saySend env uc st name
      -- 2492-2517
      let st := if uc.caps.echoMessage = false then { st with out := st.out ++ [.produced name (sayEcho env uc st name)] } else st
      -- 2519
      { st with out := st.out ++ [.active name] }

inductive SayOp where
  /-- the event loop handles the next target -/
  | loop
  /-- the goroutine of the connection takes a message and starts to write it -/
  | take
  /-- it has written it -/
  | written
deriving DecidableEq, Repr

/-- One step; `none`: it is not possible now. -/
def sayStep (env : SayEnv) (st : SaySys) : SayOp → Option SaySys
  | .loop =>
    match st.pending with
    | [] => none
    | name :: rest => some (sayTarget env { st with pending := rest } name)
  -- conn.go:135-155; the tags are read from the shared map
  | .take =>
    match st.writing, st.queue with
    | none, q :: rest =>
      some { st with queue := rest, writing := some ⟨if q.tagged then st.tags else [], none, q.command, q.params⟩ }
    | _, _ => none
  | .written =>
    match st.writing with
    | some m => some { st with writing := none, wire := st.wire ++ [m] }
    | none => none

/-- A schedule: every step must be possible when it is made. -/
def sayRun (env : SayEnv) (st : SaySys) : List SayOp → Option SaySys
  | [] => some st
  | op :: ops => (sayStep env st op).bind (fun st' => sayRun env st' ops)

end Verif.Model
