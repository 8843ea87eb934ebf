import Verif.Model.GoNum
import Verif.Model.Whox

/-! # Model of the topic of a channel, its author and its time, as the clients hear of them

upstream.go:1307-1338, 1434-1459, downstream.go:2120-2145, 3426-3484: one channel of one network, with the clients of this
network.  Members and modes of the channel, other channels, the storing of messages and capabilities are left out
(`ChanView`, `ChanModes`).  The clients name the channel as the server does. -/

namespace Verif.Model

/-- gopkg.in/irc.v4 `ParsePrefix` followed by `Prefix.String` (used at upstream.go:1446 and downstream.go:3473): the part after
the first `@` is the host, the part after the first `!` before it is the user, and empty parts are not written. -/
def canonSource (s : Str) : Str :=
  let a := cut 64 s
  let n := cut 33 a.1
  let part (sep : Byte) (o : Option Str) : Str := match o with
    | some v => if v = [] then [] else sep :: v
    | none => []
  n.1 ++ part 33 n.2 ++ part 64 a.2

/-- `time.Time{}.Unix()`: the time of a topic that was never set (upstream.go:90). -/
def zeroUnix : Int := -62135596800

/-- upstream.go:85-97 — the parts of `upstreamChannel` used here; the author is kept as it is written, the time in seconds. -/
structure ToChan where
  topic : Str
  who : Option Str
  time : Int
  complete : Bool
deriving DecidableEq, Repr

/-- A message to a client: its source, its time (the `time` tag, for messages of the server), command and parameters. -/
structure ToMsg where
  source : Str
  tag : Int
  command : Str
  params : List Str
deriving DecidableEq, Repr

/-- A message of the bouncer (the tag is of no account). -/
def ToMsg.own (command : Str) (params : List Str) : ToMsg := ⟨[], 0, command, params⟩

/-- A client of the network: its nick and what it was sent. -/
structure ToClient where
  num : Nat
  nick : Str
  out : List ToMsg
deriving DecidableEq, Repr

/-- The channel, if the bouncer is on it, whether it is detached, the clients, and what was passed on to the server for
them. -/
structure ToState where
  chan : Option ToChan
  detached : Bool
  clients : List ToClient
  sent : List (Nat × List Str)
deriving DecidableEq, Repr

/-- Events. -/
inductive ToOp
  /-- the user joins the channel -/
  | joined
  /-- RPL_ENDOFNAMES -/
  | namesEnd
  /-- the user leaves it -/
  | left
  /-- RPL_TOPIC, or RPL_NOTOPIC (`none`) -/
  | topicIs (topic : Option Str)
  /-- RPL_TOPICWHOTIME: its parameters -/
  | whoTime (nick who time : Str)
  /-- TOPIC of the server: its source, the topic if there is a second parameter, the time of its tag, and the time it is now -/
  | topic (source : Str) (topic : Option Str) (tag now : Int)
  | detach
  | attach
  | login (num : Nat) (nick : Str)
  | logout (num : Nat)
  /-- a client sends TOPIC for the channel, with a topic or without -/
  | cTopic (num : Nat) (topic : Option Str)
deriving DecidableEq, Repr

/-- upstream.go:440-444 — `forwardMessage`, to all clients of the network. -/
def toForward (st : ToState) (m : ToMsg) : ToState :=
  { st with clients := st.clients.map (fun c => { c with out := c.out ++ [m] }) }

/-- downstream.go:3465-3484 — `sendTopic`. -/
def toTopicMsgs (name nick : Str) (ch : ToChan) : List ToMsg :=
  if ch.topic ≠ [] then
    .own b!"332" [nick, name, ch.topic] :: (match ch.who with
      | some who => [.own b!"333" [nick, name, who, itoaInt ch.time]]
      | none => [])
  else [.own b!"331" [nick, name, b!"No topic is set"]]

/-- downstream.go:3426-3434 — `forwardChannel`, as far as the topic goes. -/
def toChannelMsgs (name nick : Str) (ch : ToChan) : List ToMsg :=
  if ch.topic ≠ [] then toTopicMsgs name nick ch else []

/-- upstream.go:1307-1321 — RPL_TOPIC and RPL_NOTOPIC; without a channel they go to the client that asked (left out). -/
def toTopicIs (st : ToState) (topic : Option Str) : ToState :=
  { st with chan := st.chan.map (fun ch => { ch with topic := topic.getD [] }) }

/-- upstream.go:1434-1459 — RPL_TOPICWHOTIME; without a channel it goes to the client that asked (left out). -/
def toWhoTime (name : Str) (st : ToState) (nick who time : Str) : ToState :=
  match st.chan with
  | none => st
  | some ch =>
    let first := ch.who.isNone
    let ch := { ch with who := some (canonSource who) }
    match parseInt64 time with
    | none => { st with chan := some ch }
    | some sec =>
      let st := { st with chan := some { ch with time := sec } }
      if first && !st.detached then toForward st ⟨[], 0, b!"333", [nick, name, who, time]⟩ else st

/-- upstream.go:1322-1338 — TOPIC. -/
def toTopic (name : Str) (st : ToState) (source : Str) (topic : Option Str) (tag now : Int) : ToState :=
  match st.chan with
  | none => st
  | some ch =>
    let ch := match topic with
      | some t => { ch with topic := t, who := some source, time := now }
      | none => { ch with topic := [] }
    let st := { st with chan := some ch }
    if st.detached then st else toForward st ⟨source, tag, b!"TOPIC", name :: topic.toList⟩

/-- downstream.go:2120-2145 — TOPIC of a client. -/
def toClientTopic (name : Str) (st : ToState) (c : ToClient) (topic : Option Str) : ToState :=
  match topic with
  | some t => { st with sent := st.sent ++ [(c.num, [name, t])] }
  | none =>
    match st.chan with
    | none => { st with sent := st.sent ++ [(c.num, [name])] }
    | some ch =>
      { st with clients := st.clients.map (fun d =>
          if d.num = c.num then { d with out := d.out ++ toTopicMsgs name d.nick ch } else d) }

/-- One event. -/
def toStep (name : Str) (st : ToState) : ToOp → ToState
  -- upstream.go:1204-1226
  | .joined =>
    let st := { st with chan := some ⟨[], none, zeroUnix, false⟩ }
    if st.detached then st else toForward st (.own b!"JOIN" [name])
  -- upstream.go:1500-1523
  | .namesEnd =>
    match st.chan with
    | none => st
    | some ch =>
      if ch.complete then st
      else
        let ch := { ch with complete := true }
        let st := { st with chan := some ch }
        if st.detached then st
        else { st with clients := st.clients.map (fun c => { c with out := c.out ++ toChannelMsgs name c.nick ch }) }
  -- upstream.go:1236-1258
  | .left =>
    let st := { st with chan := none }
    if st.detached then st else toForward st (.own b!"PART" [name])
  | .topicIs topic => toTopicIs st topic
  | .whoTime nick who time => toWhoTime name st nick who time
  | .topic source topic tag now => toTopic name st source topic tag now
  -- user.go:320-352
  | .detach => if st.detached then st else toForward { st with detached := true } (.own b!"PART" [name, b!"Detach"])
  -- user.go:354-387; a channel whose list of members is not complete makes `forwardChannel` panic, here nothing happens
  | .attach =>
    if !st.detached then st
    else
      match st.chan with
      | none => toForward { st with detached := false } (.own b!"JOIN" [name])
      | some ch =>
        if !ch.complete then st
        else { st with
          detached := false
          clients := st.clients.map (fun c => { c with out := c.out ++ .own b!"JOIN" [name] :: toChannelMsgs name c.nick ch }) }
  -- downstream.go:1583-1610
  | .login num nick =>
    if st.clients.any (fun c => c.num = num) then st
    else
      let out := match st.chan with
        | none => []
        | some ch => if ch.complete && !st.detached then .own b!"JOIN" [name] :: toChannelMsgs name nick ch else []
      { st with clients := st.clients ++ [⟨num, nick, out⟩] }
  | .logout num => { st with clients := st.clients.filter (fun c => c.num ≠ num) }
  | .cTopic num topic =>
    match st.clients.find? (fun c => c.num = num) with
    | none => st
    | some c => toClientTopic name st c topic

/-- A history. -/
def toRun (name : Str) (detached : Bool) (ops : List ToOp) : ToState := ops.foldl (toStep name) ⟨none, detached, [], []⟩

end Verif.Model
