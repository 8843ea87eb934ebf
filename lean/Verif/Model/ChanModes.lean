import Verif.Model.Modes
import Verif.Model.GenMsg

/-! # Model of the modes of a channel as the clients hear of them

upstream.go:1339-1435, downstream.go:2040-2118: one channel of one network, with the clients of this network.  The nicks
and topics of the channel, other channels, errors that are answered to a client, and channels whose list of members is not
complete are left out (`ChanView`).  The clients name the channel as the server does. -/

namespace Verif.Model

/-- upstream.go:86-99 — the parts of `upstreamChannel` used here. -/
structure CoChan where
  st : ChanModeState
  created : Str

/-- A client of the network: its nick and what it was sent. -/
structure CoClient where
  num : Nat
  nick : Str
  out : List Msg
deriving DecidableEq, Repr

/-- The channel, if the bouncer is on it, whether it is detached, the clients, and what was sent to the server, by the
bouncer (`none`) or for a client. -/
structure CoState where
  chan : Option CoChan
  detached : Bool
  clients : List CoClient
  sent : List (Option Nat × Msg)

/-- Events. -/
inductive CoOp
  /-- the user joins the channel -/
  | joined
  /-- the user leaves it -/
  | left
  /-- members come, go or change their nicks: these are the members then -/
  | members (members : CMMap MembershipSet)
  /-- MODE of the server -/
  | mode (modes : Str) (args : List Str)
  /-- RPL_CHANNELMODEIS: its first parameter, and those after the channel -/
  | modeIs (nick : Str) (rest : List Str)
  /-- RPL_CREATIONTIME -/
  | created (nick time : Str)
  | detach
  | attach
  | login (num : Nat) (nick : Str)
  | logout (num : Nat)
  /-- a client sends MODE for the channel, with these parameters after its name -/
  | cMode (num : Nat) (rest : List Str)

/-- upstream.go `forwardMessage` (to all clients of the network). -/
def coForward (st : CoState) (m : Msg) : CoState :=
  { st with clients := st.clients.map (fun c => { c with out := c.out ++ [m] }) }

/-- upstream.go:1356-1371 — MODE for a channel (logging left out). -/
def coMode (env : ModeEnv) (name : Str) (st : CoState) (modes : Str) (args : List Str) : CoState :=
  match st.chan with
  | none => st
  | some ch =>
    let r := applyChannelModes env ch.st modes args
    let st := { st with chan := some { ch with st := r.1 } }
    if r.2 = false then st
    else if st.detached then st
    else coForward st ⟨b!"MODE", name :: modes :: args⟩

/-- upstream.go:1388-1415 — RPL_CHANNELMODEIS; without a channel it goes to the client that asked (left out). -/
def coModeIs (env : ModeEnv) (name : Str) (st : CoState) (nick : Str) (rest : List Str) : CoState :=
  match st.chan with
  | none => st
  | some ch =>
    let first := ch.st.modes.isNone
    let r := applyChannelModes env { ch.st with modes := some [] } (rest.head?.getD []) rest.tail
    let st := { st with chan := some { ch with st := r.1 } }
    if r.2 = false then st
    else if first && !st.detached then coForward st ⟨b!"324", nick :: name :: rest⟩
    else st

/-- upstream.go:1416-1435 — RPL_CREATIONTIME. -/
def coCreated (name : Str) (st : CoState) (nick time : Str) : CoState :=
  match st.chan with
  | none => st
  | some ch =>
    let first := decide (ch.created = [])
    let st := { st with chan := some { ch with created := time } }
    if first && !st.detached then coForward st ⟨b!"329", [nick, name, time]⟩ else st

/-- downstream.go:2079-2118 — MODE of a client for a channel; `ord` is the iteration order of the map of modes. -/
def coClientMode (ord : GoMap Byte Str → GoMap Byte Str) (name : Str) (st : CoState) (c : CoClient) (rest : List Str) : CoState :=
  let modeStr := rest.head?.getD []
  if modeStr ≠ [] then { st with sent := st.sent ++ [(some c.num, ⟨b!"MODE", name :: modeStr :: rest.tail⟩)] }
  else
    match st.chan with
    | none => { st with sent := st.sent ++ [(some c.num, ⟨b!"MODE", name :: rest⟩)] }
    | some ch =>
      match ch.st.modes with
      | none => st
      | some m =>
        let f := formatChannelModes (ord m)
        let out := ⟨b!"324", c.nick :: name :: f.1 :: f.2⟩ :: (if ch.created ≠ [] then [⟨b!"329", [c.nick, name, ch.created]⟩] else [])
        { st with clients := st.clients.map (fun d => if d.num = c.num then { d with out := d.out ++ out } else d) }

/-- One event. -/
def coStep (env : ModeEnv) (ord : GoMap Byte Str → GoMap Byte Str) (cm : CaseMapping) (name : Str) (st : CoState) : CoOp → CoState
  -- upstream.go:1204-1226: what is known of the channel is forgotten, and its modes are asked for
  | .joined =>
    let st := { st with chan := some ⟨⟨CMMap.new cm, none⟩, []⟩, sent := st.sent ++ [(none, ⟨b!"MODE", [name]⟩)] }
    if st.detached then st else coForward st ⟨b!"JOIN", [name]⟩
  -- upstream.go:1236-1258
  | .left =>
    let st := { st with chan := none }
    if st.detached then st else coForward st ⟨b!"PART", [name]⟩
  | .members members => { st with chan := st.chan.map (fun ch => { ch with st := { ch.st with members := members } }) }
  | .mode modes args => coMode env name st modes args
  | .modeIs nick rest => coModeIs env name st nick rest
  | .created nick time => coCreated name st nick time
  -- user.go:320-352
  | .detach => if st.detached then st else coForward { st with detached := true } ⟨b!"PART", [name, b!"Detach"]⟩
  -- user.go:354-387
  | .attach => if !st.detached then st else coForward { st with detached := false } ⟨b!"JOIN", [name]⟩
  -- downstream.go:1583-1610
  | .login num nick =>
    if st.clients.any (fun c => c.num = num) then st
    else { st with clients := st.clients ++ [⟨num, nick, if st.chan.isSome && !st.detached then [⟨b!"JOIN", [name]⟩] else []⟩] }
  | .logout num => { st with clients := st.clients.filter (fun c => c.num ≠ num) }
  | .cMode num rest =>
    match st.clients.find? (fun c => c.num = num) with
    | none => st
    | some c => coClientMode ord name st c rest

/-- A history. -/
def coRun (env : ModeEnv) (ord : GoMap Byte Str → GoMap Byte Str) (cm : CaseMapping) (name : Str) (detached : Bool) (ops : List CoOp) :
    CoState :=
  ops.foldl (coStep env ord cm name) ⟨none, detached, [], []⟩

end Verif.Model
