import Verif.Model.NetView

/-! # What a client knows of the networks (doc/ext/bouncer-networks.md) -/

namespace Verif.Spec
open Verif.Model

/-- The attributes of each network known to a client; an absent attribute is `""`. -/
abbrev NetsView := Nat → Option (Str → Str)

/-- Attributes of a message replace those known; an attribute without a value has been removed. -/
def overwrite : (Str → Str) → List (Str × Str) → Str → Str
  | f, [] => f
  | f, (k, v) :: rest => overwrite (fun k' => if k' = k then v else f k') rest

/-- Reading `BOUNCER NETWORK`. -/
def readNet (v : NetsView) (m : NvMsg) : NetsView := fun id =>
  if id = m.id then
    match m.attrs with
    | none => none
    | some attrs => some (overwrite ((v id).getD (fun _ => [])) attrs)
  else v id

/-- What a client knows from the messages it received. -/
def netsView (out : List NvMsg) : NetsView := out.foldl readNet (fun _ => none)

/-- The first of some strings that is not empty. -/
def firstOf : List Str → Str
  | [] => []
  | s :: rest => if s = [] then firstOf rest else s

/-- The attributes of a network (doc/ext/bouncer-networks.md, "Standard network attributes"). The nick is the
one configured for the network, or else that of the user, or else the name of the user; likewise for the
real name. `host`, `port` and `tls` come from the URL of the server, `irc+insecure` meaning no TLS. -/
inductive AttrOf (lib : UrlLib) (u : NvUser) (n : NvNet) : Str → Str → Prop
  | name : AttrOf lib u n b!"name" (firstOf [n.rec'.name, n.rec'.addr])
  | connected : n.conn = true → AttrOf lib u n b!"state" b!"connected"
  | disconnected : n.conn = false → AttrOf lib u n b!"state" b!"disconnected"
  | nickname : AttrOf lib u n b!"nickname" (firstOf [n.rec'.nick, u.nick, u.username])
  | username : n.rec'.username ≠ [] → AttrOf lib u n b!"username" n.rec'.username
  | realname (v : Str) : v = firstOf [n.rec'.realname, u.realname, n.rec'.nick, u.nick, u.username] → v ≠ [] →
      AttrOf lib u n b!"realname" v
  | error (e : Str) : n.err = some e → AttrOf lib u n b!"error" e
  | tls (url : Url) : netUrl lib n.rec'.addr = some url → url.scheme = b!"ircs" → AttrOf lib u n b!"tls" b!"1"
  | noTls (url : Url) : netUrl lib n.rec'.addr = some url → url.scheme = b!"irc+insecure" →
      AttrOf lib u n b!"tls" b!"0"
  | host (url : Url) (h p : Str) : netUrl lib n.rec'.addr = some url →
      url.scheme ∈ [b!"ircs", b!"irc+insecure"] → splitHostPort url.host = some (h, p) → AttrOf lib u n b!"host" h
  | port (url : Url) (h p : Str) : netUrl lib n.rec'.addr = some url →
      url.scheme ∈ [b!"ircs", b!"irc+insecure"] → splitHostPort url.host = some (h, p) → AttrOf lib u n b!"port" p
  | bareHost (url : Url) : netUrl lib n.rec'.addr = some url →
      url.scheme ∈ [b!"ircs", b!"irc+insecure"] → splitHostPort url.host = none →
      AttrOf lib u n b!"host" url.host

/-- Events that change the attribute without a connection of the network being made or lost, and that the
bouncer does not announce. -/
def Silent (k : Str) : NvOp → Prop
  | .userNick _ => k = b!"nickname" ∨ k = b!"realname"
  | .netNick _ _ => k = b!"nickname" ∨ k = b!"realname"
  | .userRealname _ => k = b!"realname"
  | _ => False

/-- An event of the goroutine of a network that was replaced or removed in the meantime. -/
def Stale (st : NvState) : NvOp → Prop
  | .connected obj => ∀ n ∈ st.networks, n.obj ≠ obj
  | .error obj _ => ∀ n ∈ st.networks, n.obj ≠ obj
  | _ => False

/-- No event of the history is stale. -/
def NoneStale (lib : UrlLib) (init : NvState) (ops : List NvOp) : Prop :=
  ∀ pre op post, ops = pre ++ op :: post → ¬ Stale (nvRun lib init pre) op

end Verif.Spec
