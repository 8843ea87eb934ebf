import Verif.Model.Route

/-! # What becomes of the commands of a client: specification (C117) -/

namespace Verif.Spec
open Verif.Model

/-- The commands that have a meaning for the bouncer itself.  (The model has the list of those it leaves out.) -/
def bouncerCommands : List Str :=
  [b!"CAP", b!"PING", b!"PONG", b!"USER", b!"NICK", b!"SETNAME", b!"JOIN", b!"PART", b!"MODE", b!"TOPIC", b!"LIST",
   b!"NAMES", b!"WHO", b!"WHOIS", b!"PRIVMSG", b!"NOTICE", b!"TAGMSG", b!"AUTHENTICATE", b!"REGISTER", b!"VERIFY",
   b!"AWAY", b!"MONITOR", b!"CHATHISTORY", b!"READ", b!"MARKREAD", b!"SEARCH", b!"BOUNCER", b!"WEBPUSH", b!"QUIT"]

/-- The commands which other properties are about. -/
def otherProperties : List Str :=
  [b!"CAP", b!"NICK", b!"SETNAME", b!"JOIN", b!"PART", b!"PRIVMSG", b!"NOTICE", b!"TAGMSG", b!"AUTHENTICATE",
   b!"AWAY", b!"MONITOR", b!"CHATHISTORY", b!"READ", b!"MARKREAD", b!"SEARCH", b!"BOUNCER", b!"WEBPUSH"]

/-- The client with this number. -/
def rtClient (st : RtState) (id : Nat) : Option RtClient := st.clients.find? (fun c => c.id = id)

/-- What a client has been sent. -/
def rtHeard (st : RtState) (id : Nat) : List Msg :=
  match rtClient st id with
  | some c => c.out
  | none => []

/-- What the server of a network has been sent for clients on this connection. -/
def rtSent (st : RtState) (n : Nat) : List TMsg :=
  match st.conns n with
  | some uc => uc.sent
  | none => []

/-- What was put into the queue for the server of a network. -/
def rtQueued (st : RtState) (n : Nat) : List (Nat × TMsg) :=
  match st.conns n with
  | some uc => uc.queued
  | none => []

/-- The message is the command of the client as it was given; the source too, and the tags, if the server understands
tags, except for the label, which is the bouncer's. -/
structure AsGiven (messageTags labeled : Bool) (given passed : TMsg) : Prop where
  command : passed.command = given.command
  params : passed.params = given.params
  source : passed.source = given.source
  tags : messageTags = true → ∀ k, k ≠ b!"label" → GoMap.get passed.tags k = GoMap.get given.tags k
  unlabeled : messageTags = true → labeled = false → passed.tags = given.tags
  plain : messageTags = false → passed.tags = []

/-- The message to the server is a part of what the client asked for: the same command, of a NAMES one of its channels,
of a TOPIC the channel and the topic. -/
def PartOf (given passed : TMsg) : Prop :=
  passed.command = given.command ∧
    (passed.params = given.params ∨
     (given.command = b!"NAMES" ∧ ∃ list rest name, given.params = list :: rest ∧ name ∈ splitByte 44 list ∧ passed.params = [name]) ∨
     (given.command = b!"TOPIC" ∧ passed.params = given.params.take 2))

/-- Client `id` of network `n` is answered by the bouncer, and the server is not bothered. -/
structure Answered (st st' : RtState) (id n : Nat) : Prop where
  heard : ∃ l, l ≠ [] ∧ rtHeard st' id = rtHeard st id ++ l
  sent : rtSent st' n = rtSent st n
  queued : rtQueued st' n = rtQueued st n

/-- The command is passed on, once, and the bouncer itself says nothing. -/
structure PassedOn (st st' : RtState) (id n : Nat) (m : TMsg) : Prop where
  heard : rtHeard st' id = rtHeard st id
  sent : ∃ m', PartOf m m' ∧ rtSent st' n = rtSent st n ++ [m']
  queued : rtQueued st' n = rtQueued st n

/-- The command is put into the queue, once and as it is, and the bouncer itself says nothing. -/
structure PutOff (st st' : RtState) (id n : Nat) (m : TMsg) : Prop where
  heard : rtHeard st' id = rtHeard st id
  sent : rtSent st' n = rtSent st n
  queued : rtQueued st' n = rtQueued st n ++ [(id, m)]

/-- What the bouncer knows of channels can be said: there is at least one line (C75, C108, C110). -/
def HasAnswers (f : RtFacts) : Prop :=
  ∀ name ch, f.chan name = some ch → ch.names ≠ [] ∧ ch.topic ≠ [] ∧ ∀ l, ch.modes = some l → l ≠ []

end Verif.Spec
