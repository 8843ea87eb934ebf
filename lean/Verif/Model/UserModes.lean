import Verif.Model.Modes
import Verif.Model.GenMsg

/-! # Model of the modes of the user on a network, and of what the clients are told of them

upstream.go:1339-1388, downstream.go:1536-1547 and 2040-2072; one network and the connections to the bouncer itself.
Errors that are answered to a client, and messages that have nothing to do with user modes, are left out. -/

namespace Verif.Model

/-- upstream.go:200, 213 — the parts of `upstreamConn` used here. -/
structure UmConn where
  nick : Str
  modes : UserModes
deriving DecidableEq, Repr

/-- downstream.go:336-365 — `downstreamConn`: `network` is false for a connection to the bouncer itself; `out` is what it
was sent. -/
structure UmClient where
  num : Nat
  network : Bool
  nick : Str
  out : List Msg
deriving DecidableEq, Repr

/-- user.go:149-162, 515-530 — the connection of the network, the name of the user and whether they are an administrator,
the nick to use, the clients, and what was passed on to the server for a client. -/
structure UmState where
  conn : Option UmConn
  username : Str
  admin : Bool
  wantNick : Str
  clients : List UmClient
  sent : List (Nat × Msg)
deriving DecidableEq, Repr

/-- Events of the user goroutine. -/
inductive UmOp
  /-- a connection that has registered with this nick -/
  | connected (nick : Str)
  | disconnected
  /-- the server changes the nick of the user -/
  | nick (nick : Str)
  /-- MODE of the server, for a name that is not a channel -/
  | mode (name modes : Str)
  /-- RPL_UMODEIS of the server -/
  | umodeis (name : Str) (modes : Option Str)
  | login (num : Nat) (network : Bool)
  | logout (num : Nat)
  /-- a client sends MODE -/
  | cMode (num : Nat) (name : Str) (rest : List Str)
  | setAdmin (admin : Bool)
deriving DecidableEq, Repr

/-- downstream.go:431-436, for a client of the network or of the bouncer. -/
def umUpstream (st : UmState) (c : UmClient) : Option UmConn := if c.network then st.conn else none

/-- upstream.go `forwardMessage` (to all clients of the network). -/
def umForward (st : UmState) (m : Msg) : UmState :=
  { st with clients := st.clients.map (fun c => if c.network then { c with out := c.out ++ [m] } else c) }

/-- downstream.go:1466-1472, 1536-1547 — the part of `welcome` on modes. -/
def umWelcome (st : UmState) (num : Nat) (network : Bool) : UmClient :=
  let nick := if network then (match st.conn with | some uc => uc.nick | none => st.wantNick) else st.username
  let c : UmClient := ⟨num, network, nick, []⟩
  let out := match umUpstream st c with
    | some uc => [⟨b!"221", [nick, b!"+" ++ uc.modes]⟩]
    | none => []
  { c with out := out ++ if !network && st.admin then [⟨b!"221", [nick, b!"+o"]⟩] else [] }

/-- upstream.go:1339-1354 — MODE for a name that is not a channel. -/
def umMode (st : UmState) (uc : UmConn) (name modes : Str) : UmState :=
  if name ≠ uc.nick then st
  else
    let r := UserModes.apply uc.modes modes
    let st := { st with conn := some { uc with modes := r.1 } }
    if r.2 then umForward st ⟨b!"MODE", [name, modes]⟩ else st

/-- upstream.go:1373-1388 — RPL_UMODEIS. -/
def umUmodeis (st : UmState) (uc : UmConn) (name : Str) (modes : Option Str) : UmState :=
  let r := UserModes.apply [] (modes.getD [])
  let st := { st with conn := some { uc with modes := r.1 } }
  if r.2 then umForward st ⟨b!"221", name :: modes.toList⟩ else st

/-- downstream.go:2040-2072 — MODE of a client for its own nick. -/
def umClientMode (cm : CaseMapping) (st : UmState) (c : UmClient) (name : Str) (rest : List Str) : UmState :=
  let cm := if c.network then cm else .ascii
  if casemap cm name ≠ casemap cm c.nick then st
  else if rest.head?.getD [] ≠ [] then
    match umUpstream st c with
    | none => st
    | some _ => { st with sent := st.sent ++ [(c.num, ⟨b!"MODE", name :: rest⟩)] }
  else
    let userMode := match umUpstream st c with | some uc => uc.modes | none => []
    { st with clients := st.clients.map (fun d =>
        if d.num = c.num then { d with out := d.out ++ [⟨b!"221", [d.nick, b!"+" ++ userMode]⟩] } else d) }

/-- One event. -/
def umStep (cm : CaseMapping) (st : UmState) : UmOp → UmState
  -- user.go:645-662; a new `upstreamConn` has no modes (upstream.go:232-290)
  | .connected nick =>
    { st with conn := some ⟨nick, []⟩, sent := [],
              clients := st.clients.map (fun c => if c.network then { c with nick := nick } else c) }
  | .disconnected => { st with conn := none }
  -- upstream.go:829-877
  | .nick nick =>
    match st.conn with
    | none => st
    | some uc =>
      { st with conn := some { uc with nick := nick },
                clients := st.clients.map (fun c => if c.network then { c with nick := nick } else c) }
  | .mode name modes =>
    match st.conn with
    | none => st
    | some uc => umMode st uc name modes
  | .umodeis name modes =>
    match st.conn with
    | none => st
    | some uc => umUmodeis st uc name modes
  | .login num network =>
    if st.clients.any (fun c => c.num = num) then st
    else { st with clients := st.clients ++ [umWelcome st num network] }
  | .logout num => { st with clients := st.clients.filter (fun c => c.num ≠ num) }
  | .cMode num name rest =>
    match st.clients.find? (fun c => c.num = num) with
    | none => st
    | some c => umClientMode cm st c name rest
  -- user.go:1192-1220
  | .setAdmin admin => { st with admin := admin }

/-- A history. -/
def umRun (cm : CaseMapping) (st : UmState) (ops : List UmOp) : UmState := ops.foldl (umStep cm) st

/-- The start: not connected, no client. -/
def umStart (username wantNick : Str) (admin : Bool) : UmState := ⟨none, username, admin, wantNick, [], []⟩

end Verif.Model
