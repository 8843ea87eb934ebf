import Verif.Model.Passing
import Verif.Proof.Casemap

/-! # What the server says is passed on: specification (C119) -/

namespace Verif.Spec
open Verif.Model Verif.Proof

/-- The rest of the lines a server greets with: counts of users and channels, and the message of the day. -/
def greetingLines : List Str :=
  [b!"240", b!"246", b!"247", b!"250", b!"251", b!"252", b!"253", b!"254", b!"255", b!"265", b!"266", b!"372", b!"375"]

/-- The end of the message of the day, or that there is none. -/
def greetingEnds : List Str := [b!"376", b!"422"]

/-- Refusals that end the connection when they come before the server's welcome. -/
def loginRefusals : List Str := [b!"432", b!"436", b!"437", b!"463", b!"464", b!"465"]

/-- Replies to what the bouncer itself says: it answers AWAY, and greets its clients, in its own words. -/
def ownReplies : List Str := [b!"001", b!"002", b!"003", b!"305", b!"306", b!"ACK"]

/-- What other properties are about. -/
def otherTopics : List Str :=
  [-- the connection itself
   b!"PING", b!"CAP", b!"AUTHENTICATE", b!"396", b!"900", b!"901", b!"902", b!"903", b!"904", b!"905", b!"906",
   b!"004", b!"005", b!"433", b!"BATCH",
   -- messages of users
   b!"NOTICE", b!"PRIVMSG", b!"TAGMSG",
   -- users and channels
   b!"NICK", b!"SETNAME", b!"CHGHOST", b!"JOIN", b!"PART", b!"KICK", b!"QUIT", b!"TOPIC", b!"MODE", b!"221", b!"324", b!"329",
   b!"331", b!"332", b!"333", b!"353", b!"366", b!"730", b!"731", b!"734",
   -- replies to queries
   b!"REGISTER", b!"VERIFY", b!"FAIL", b!"263", b!"276", b!"307", b!"311", b!"312", b!"313", b!"315", b!"317", b!"318", b!"319",
   b!"320", b!"321", b!"322", b!"323", b!"330", b!"338", b!"352", b!"354", b!"378", b!"379", b!"400", b!"401", b!"402", b!"421",
   b!"461", b!"671"]

/-- Two names are the same to a server. -/
def SameTo (cm : CaseMapping) (x y : Str) : Prop := SameName (sysOf cm) x y

/-- The server has welcomed the bouncer. -/
def WelcomeIn (past : List PsOp) : Prop := ∃ env l m, PsOp.msg env l m ∈ past ∧ m.command = b!"001" ∧ m.params ≠ []

/-- The greeting is over. -/
def GreetingOver (past : List PsOp) : Prop := ∃ env l m, PsOp.msg env l m ∈ past ∧ m.command ∈ greetingEnds

/-- The user is invited to a channel that is saved, but that the bouncer is not in. -/
def CallsBack (env : PsEnv) (m : Msg) : Prop :=
  m.command = b!"INVITE" ∧ ∃ nick channel l, m.params = nick :: channel :: l ∧ SameTo env.cm env.nick nick ∧
    (∀ c ∈ env.joined, ¬SameTo env.cm c channel) ∧ ∃ c ∈ env.saved, SameTo env.cm c.1 channel

/-- The user is invited. -/
def Invites (env : PsEnv) (m : Msg) : Prop :=
  m.command = b!"INVITE" ∧ ∃ nick channel l, m.params = nick :: channel :: l ∧ SameTo env.cm env.nick nick

/-- Somebody else is invited. -/
def InvitesOther (env : PsEnv) (m : Msg) : Prop :=
  m.command = b!"INVITE" ∧ ∃ nick channel l, m.params = nick :: channel :: l ∧ ¬SameTo env.cm env.nick nick

/-- A message is due to a client, after what came before.  `lbl` is the client the message answers, 0 if it says none. -/
inductive IsDue (past : List PsOp) (env : PsEnv) (lbl : Nat) (m : Msg) (id : Nat) (notify : Bool) : Prop where
  | greeting (h1 : m.command ∈ greetingLines ∨ m.command ∈ greetingEnds) (h2 : GreetingOver past) (h3 : lbl = 0 ∨ lbl = id)
  | refusal (h1 : m.command ∈ loginRefusals) (h2 : WelcomeIn past) (h3 : lbl = 0 ∨ lbl = id)
  | inviting (h1 : m.command = b!"341") (h2 : 3 ≤ m.params.length) (h3 : lbl = 0 ∨ lbl = id)
  | away (h : m.command = b!"AWAY")
  | account (h1 : m.command = b!"ACCOUNT") (h2 : m.params ≠ [])
  | invited (h1 : Invites env m) (h2 : ¬CallsBack env m)
  | invitation (h1 : InvitesOther env m) (h2 : notify = true)
  | rest (h1 : m.command ∉ otherTopics ++ greetingLines ++ greetingEnds ++ loginRefusals ++ ownReplies)
      (h2 : m.command ∉ [b!"341", b!"AWAY", b!"ACCOUNT", b!"INVITE", b!"ERROR"]) (h3 : lbl = 0 ∨ lbl = id)

/-- What a client is to hear in the course of a history, after a past. -/
inductive IsToHear (id : Nat) (notify : Bool) : List PsOp → List PsOp → List Msg → Prop where
  | nil (past) : IsToHear id notify past [] []
  | due (past env lbl m ops h) (h1 : IsDue past env lbl m id notify)
      (h2 : IsToHear id notify (past ++ [.msg env lbl m]) ops h) : IsToHear id notify past (.msg env lbl m :: ops) (m :: h)
  | kept (past env lbl m ops h) (h1 : ¬IsDue past env lbl m id notify)
      (h2 : IsToHear id notify (past ++ [.msg env lbl m]) ops h) : IsToHear id notify past (.msg env lbl m :: ops) h
  | login (past i n ops h) (h1 : i ≠ id) (h2 : IsToHear id notify (past ++ [.login i n]) ops h) :
      IsToHear id notify past (.login i n :: ops) h
  | gone (past i ops h) (h1 : i ≠ id) (h2 : IsToHear id notify (past ++ [.gone i]) ops h) :
      IsToHear id notify past (.gone i :: ops) h

/-- The command to join one channel, with its key if it has one. -/
def joinLine (name key : Str) : Msg := ⟨b!"JOIN", if key = [] then [name] else [name, key]⟩

end Verif.Spec
