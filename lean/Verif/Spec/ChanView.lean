import Verif.Model.ChanView
import Verif.Spec.GenMsg

/-! How an IRC client reads the messages it receives: its own nick, and for one channel whether it is
in it, who else is, and the topic. The same reader is applied to the messages of the server (what a
client connected directly would know) and to the messages the bouncer sends. Nicks and channels are
compared after folding with the casemapping of the network. -/

namespace Verif.Spec
open Verif.Model

/-- What a client knows about one channel, and its own nick. -/
structure View where
  nick : Str
  joined : Bool
  /-- the list of members has been received to its end -/
  listed : Bool
  topic : Str
  /-- the members, by folded nick -/
  members : Str → Bool

/-- A client that has just registered under a nick. -/
def View.fresh (nick : Str) : View := ⟨nick, false, false, [], fun _ => false⟩

/-- A name in a 353 reply without the symbols of its ranks. -/
def bareName (syms : Str) (w : Str) : Str := w.dropWhile (· ∈ syms)

/-- The names in a 353 reply. -/
def nameWords (s : Str) : List Str := (splitSep 32 s).filter (· ≠ [])

/-- A client reads one message. `k` is the folded name of the channel, `syms` are the symbols of the
ranks on the network. Messages that concern another channel, and members of a channel the client is
not in, are passed over. -/
def readMsg (cm : CaseMapping) (syms : Str) (k : Str) (v : View) (m : VMsg) : View :=
  let who := casemap cm m.source
  let self := decide (who = casemap cm v.nick)
  let here := fun (name : Str) => decide (casemap cm name = k)
  if m.command = b!"001" then
    match m.params with
    | nick :: _ => { v with nick := nick }
    | _ => v
  else if m.command = b!"NICK" then
    match m.params with
    | nick :: _ =>
      { v with
        nick := if self then nick else v.nick
        members := fun x =>
          if x = casemap cm nick then v.members who || v.members x
          else if x = who then false
          else v.members x }
    | _ => v
  else if m.command = b!"JOIN" then
    match m.params with
    | name :: _ =>
      if here name then
        if self then { v with joined := true, listed := false, topic := [], members := fun _ => false }
        else if v.joined then { v with members := fun x => if x = who then true else v.members x }
        else v
      else v
    | _ => v
  else if m.command = b!"PART" then
    match m.params with
    | name :: _ =>
      if here name then
        if self then { v with joined := false, listed := false, topic := [], members := fun _ => false }
        else { v with members := fun x => if x = who then false else v.members x }
      else v
    | _ => v
  else if m.command = b!"KICK" then
    match m.params with
    | name :: user :: _ =>
      if here name then
        if casemap cm user = casemap cm v.nick then
          { v with joined := false, listed := false, topic := [], members := fun _ => false }
        else { v with members := fun x => if x = casemap cm user then false else v.members x }
      else v
    | _ => v
  else if m.command = b!"QUIT" then
    { v with members := fun x => if x = who then false else v.members x }
  else if m.command = b!"TOPIC" then
    match m.params with
    | [name] => if here name ∧ v.joined then { v with topic := [] } else v
    | name :: topic :: _ => if here name ∧ v.joined then { v with topic := topic } else v
    | _ => v
  else if m.command = b!"331" then
    match m.params with
    | _ :: name :: _ => if here name ∧ v.joined then { v with topic := [] } else v
    | _ => v
  else if m.command = b!"332" then
    match m.params with
    | _ :: name :: topic :: _ => if here name ∧ v.joined then { v with topic := topic } else v
    | _ => v
  else if m.command = b!"353" then
    match m.params with
    | _ :: _ :: name :: names :: _ =>
      if here name ∧ v.joined then
        { v with members := fun x =>
            v.members x || (nameWords names).any fun w => casemap cm (bareName syms w) = x }
      else v
    | _ => v
  else if m.command = b!"366" then
    match m.params with
    | _ :: name :: _ => if here name ∧ v.joined then { v with listed := true } else v
    | _ => v
  else v

/-- What the messages sent to a client amount to. -/
def viewOf (cm : CaseMapping) (syms k : Str) (log : List VMsg) : View :=
  log.foldl (readMsg cm syms k) (View.fresh [])

/-- What a client connected directly, in place of the bouncer, knows; `none` while there is no
connection. A new connection starts afresh, and only the messages of the server count. -/
def directStep (cm : CaseMapping) (syms k : Str) : Option View → VcOp → Option View
  | _, .connected nick => some (View.fresh nick)
  | _, .disconnected => none
  | some v, .server m _ => some (readMsg cm syms k v m)
  | v, _ => v

def directView (cm : CaseMapping) (syms k : Str) (ops : List VcOp) : Option View :=
  ops.foldl (directStep cm syms k) none

/-- A nick as a server sends it. -/
def NickOk (syms : Str) (n : Str) : Prop := n ≠ [] ∧ 32 ∉ n ∧ ∀ c, n.head? = some c → c ∉ syms

/-- What a client relies on from a server, given what it knows of the channel: it is welcomed only
once; a JOIN or PART names one channel; a user is not told of the own QUIT; 353 replies are well-formed
with ranks in decreasing order; the replies that describe a channel come once, between the own JOIN
and the 366, and do not take back a topic that has been announced. -/
structure Orderly (cm : CaseMapping) (syms k : Str) (v : View) (m : VMsg) : Prop where
  welcome : m.command ≠ b!"001"
  nick : m.command = b!"NICK" → ∃ n rest, m.params = n :: rest ∧ NickOk syms n
  join : m.command = b!"JOIN" → NickOk syms m.source ∧
    ∃ name rest, m.params = name :: rest ∧ 44 ∉ name
  part : m.command = b!"PART" → ∃ name rest, m.params = name :: rest ∧ 44 ∉ name
  quit : m.command = b!"QUIT" → casemap cm m.source ≠ casemap cm v.nick
  notopic : m.command = b!"331" → ∃ me name text rest, m.params = me :: name :: text :: rest ∧
    (casemap cm name = k → v.joined = true → v.listed = false ∧ v.topic = [])
  topic : m.command = b!"332" → ∃ me name text rest, m.params = me :: name :: text :: rest ∧
    (casemap cm name = k → v.joined = true → v.listed = false ∧ text ≠ [])
  names : m.command = b!"353" → ∃ me status name words rest,
    m.params = me :: [status] :: name :: words :: rest ∧
    (status = 61 ∨ status = 64 ∨ status = 42) ∧
    (casemap cm name = k → v.joined = true → v.listed = false) ∧
    ∀ w ∈ nameWords words, ∃ ranks n, w = ranks ++ n ∧ ranks.Sublist syms ∧ NickOk syms n

/-- Every message of the server in a history is orderly for a client connected directly. -/
def OrderlyRun (cm : CaseMapping) (syms k : Str) (ops : List VcOp) : Prop :=
  ∀ pre m dc post v, ops = pre ++ VcOp.server m dc :: post → directView cm syms k pre = some v →
    Orderly cm syms k v m

/-- The channel is saved as detached. -/
def SavedDetached (k : Str) (st : VcState) : Prop := ∃ name, st.records.get k = some (name, true)

/-- `P` holds of every event of a history, with the state of the bouncer and the knowledge of a direct
client before it. -/
def EachStep (cm : CaseMapping) (avail : List Membership) (k : Str) (init : VcState) (ops : List VcOp)
    (P : VcState → Option View → VcOp → Prop) : Prop :=
  ∀ pre op post st, ops = pre ++ op :: post → vcRun cm avail init pre = some st →
    P st (directView cm (avail.map (·.pfx)) k pre) op

/-- The channel is not left, by PART or by the service, while it is detached. -/
def NoPartDetached (cm : CaseMapping) (k : Str) (st : VcState) (_ : Option View) (op : VcOp) : Prop :=
  ∀ name, op = .cPart name ∨ op = .forget name → casemap cm name = k → ¬ SavedDetached k st

/-- No client logs in between the JOIN of the bouncer and the end of the list of members, unless the
channel is detached. -/
def NoLoginHalfway (k : Str) (st : VcState) (d : Option View) (op : VcOp) : Prop :=
  ∀ n e m nn v, op = .login n e m nn → d = some v → v.joined = true → ¬ SavedDetached k st →
    v.listed = true

/-- The bouncer does not connect to the server while clients are there, and the channel is attached
only while the bouncer is in it. -/
def Steady (cm : CaseMapping) (k : Str) (st : VcState) (d : Option View) (op : VcOp) : Prop :=
  (∀ n, op = .connected n → st.clients = []) ∧
  ∀ name, op = .attach name ∨ op = .cJoin name → casemap cm name = k → SavedDetached k st →
    ∃ v, d = some v ∧ v.joined = true

end Verif.Spec
