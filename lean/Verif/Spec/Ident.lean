import Verif.Model.Ident

/-! What the server of a network says about the user, computed from the events alone, and how a client
reads the messages it receives. -/

namespace Verif.Spec
open Verif.Model

/-- Who one is on a network. -/
structure Ident where
  nick : Str
  user : Str
  host : Str
  real : Str
  account : Str
deriving DecidableEq, Repr

/-- The host in `nick!user@host` or `user@host`: what follows the first `@`. -/
def hostPart (s : Str) : Str := (s.dropWhile (· ≠ 64)).drop 1

/-- What comes before the first `@`. -/
def beforeAt (s : Str) : Str := s.takeWhile (· ≠ 64)

/-- The user in `nick!user@host`. -/
def userPart (s : Str) : Str := ((beforeAt s).dropWhile (· ≠ 33)).drop 1

/-- The server says something; `me` is who one is so far. -/
def serverSays (cm : CaseMapping) (me : Ident) (m : VMsg) : Ident :=
  let self := casemap cm m.source = casemap cm me.nick
  match m.command, m.params with
  | b!"NICK", n :: _ => if self then { me with nick := n } else me
  | b!"SETNAME", r :: _ => if self then { me with real := r } else me
  | b!"CHGHOST", u :: h :: _ => if self then { me with user := u, host := h } else me
  | b!"900", _ :: p :: a :: _ => { me with account := a, user := userPart p, host := hostPart p }
  | b!"901", _ :: p :: _ => { me with account := [], user := userPart p, host := hostPart p }
  | b!"396", _ :: r :: _ =>
    if 64 ∈ r then { me with user := beforeAt r, host := hostPart r } else { me with host := r }
  | _, _ => me

/-- Who one is on the network after an event, if there is a connection. -/
def whoStep (cm : CaseMapping) (me : Option Ident) : IdOp → Option Ident
  | .connected uc => some ⟨uc.nick, uc.username, uc.hostname, uc.realname, uc.account⟩
  | .disconnected => none
  | .server m => me.map (serverSays cm · m)
  | _ => me

/-- A client reads a message; `me` is who it believes to be. -/
def clientReads (cm : CaseMapping) (me : Ident) (m : VMsg) : Ident :=
  let self := casemap cm m.source = casemap cm me.nick
  match m.command, m.params with
  | b!"001", n :: _ => { me with nick := n }
  | b!"NICK", n :: _ => if self then { me with nick := n } else me
  | b!"SETNAME", r :: _ => if self then { me with real := r } else me
  | b!"CHGHOST", u :: h :: _ => if self then { me with user := u, host := h } else me
  | b!"396", _ :: h :: _ => { me with host := h }
  | b!"900", _ :: _ :: a :: _ => { me with account := a }
  | b!"901", _ => { me with account := [] }
  | _, _ => me

/-- What a client that connected from `host` believes after reading the messages: at first that it is `~u` at
the address it came from, without real name and not logged in. -/
def believes (cm : CaseMapping) (host : Str) (out : List VMsg) : Ident :=
  out.foldl (clientReads cm) ⟨b!"*", b!"~u", host, [], []⟩

/-- The client never enables the capability after having logged in. -/
def NotEnabledLater (num : Nat) (cap : IdCap) (ops : List IdOp) : Prop := IdOp.capReq num cap true ∉ ops

/-- Who one is on the network after a history, if there is a connection. -/
def identity (cm : CaseMapping) (ops : List IdOp) : Option Ident := ops.foldl (whoStep cm) none

end Verif.Spec
