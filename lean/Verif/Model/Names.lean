import Verif.Model.GoStr

/-! # Model of the nick and the real name the servers of the networks are told

user.go:1020-1260, downstream.go:1800-1905, upstream.go:2020-2045, database/database.go:207-232: the settings of the account and
of its networks, in memory and in the database, and what each server was last told. The answers of the servers (a nick that is
taken, NICK and SETNAME messages) are left out, and so are the other settings. -/

namespace Verif.Model

/-- A connection to a server: the nick and the real name it was last told, whether the event loop knows of it (the
registration has succeeded: user.go:255, 645), and whether SETNAME is enabled. -/
structure NmConn where
  nick : Str
  real : Str
  up : Bool
  setname : Bool
deriving DecidableEq, Repr

/-- A network: its own nick and real name in memory and in the database, and its connection. -/
structure NmNet where
  id : Nat
  nick : Str
  real : Str
  storedNick : Str
  storedReal : Str
  conn : Option NmConn
deriving DecidableEq, Repr

/-- The account: its name, nick, real name and whether it is enabled, and its networks. -/
structure NmState where
  username : Str
  nick : Str
  real : Str
  enabled : Bool
  nets : List NmNet
deriving DecidableEq, Repr

/-- Events. -/
inductive NmOp
  /-- a network is created -/
  | create (id : Nat) (nick real : Str) (ok : Bool)
  /-- a network is deleted -/
  | delete (id : Nat) (ok : Bool)
  /-- a connection to the server of the network is made; it starts to register -/
  | dial (id : Nat)
  /-- the event loop learns that the registration has succeeded -/
  | registered (id : Nat)
  /-- the server enables or disables SETNAME -/
  | caps (id : Nat) (setname : Bool)
  /-- the connection is lost -/
  | lost (id : Nat)
  /-- the account is updated; `ok` tells of which networks the update would succeed -/
  | userUpdate (nick real : Str) (enabled dbOk : Bool) (ok : Nat → Bool)
  /-- a network is updated -/
  | netUpdate (id : Nat) (nick real : Str) (ok : Bool)
  /-- a client of the network sends NICK -/
  | cNick (id : Nat) (nick : Str) (dbOk : Bool)
  /-- a client of the network sends SETNAME; `known` is the real name the client was told -/
  | cSetname (id : Nat) (known real : Str) (ok : Bool)
  /-- the bouncer is restarted -/
  | restart

/-- database/database.go:207-215 — `GetNick`. -/
def nmNick (st : NmState) (n : NmNet) : Str :=
  if n.nick ≠ [] then n.nick else if st.nick ≠ [] then st.nick else st.username

/-- database/database.go:224-232 — `GetRealname`. -/
def nmReal (st : NmState) (n : NmNet) : Str :=
  if n.real ≠ [] then n.real else if st.real ≠ [] then st.real else nmNick st n

/-- Change the network with this id. -/
def nmSet (st : NmState) (id : Nat) (f : NmNet → NmNet) : NmState :=
  { st with nets := st.nets.map (fun n => if n.id = id then f n else n) }

/-- user.go:1098-1162 — a network with its record updated: what equals the setting of the account is wiped, the record is
stored, the connection is closed. -/
def nmUpdated (st : NmState) (nick real : Str) (n : NmNet) : NmNet :=
  let nick := if nick = st.nick then [] else nick
  let real := if real = st.real then [] else real
  { n with nick := nick, real := real, storedNick := nick, storedReal := real, conn := none }

/-- user.go:1087-1165 — `updateNetwork`; `ok` tells whether the record is valid and can be stored. -/
def nmUpdateNetwork (st : NmState) (id : Nat) (nick real : Str) (ok : Bool) : NmState × Bool :=
  if ok then (nmSet st id (nmUpdated st nick real), true) else (st, false)

/-- user.go:1207-1220 — the new nick of the account goes to a server. -/
def nmTellNick (st : NmState) (n : NmNet) : NmNet :=
  if n.nick ≠ [] then n
  else { n with conn := n.conn.map (fun c => if c.up then { c with nick := nmNick st n } else c) }

/-- user.go:1222-1247 — the real name of the account, or whether it is enabled, has changed: the server is told, or the network
is to be updated. -/
def nmTellReal (realUpdated enabledUpdated : Bool) (st : NmState) (n : NmNet) : NmNet × Bool :=
  if realUpdated && !enabledUpdated then
    if n.real ≠ [] then (n, false)
    else
      match n.conn with
      | none => (n, true)
      | some c =>
        if c.up && c.setname then ({ n with conn := some { c with real := nmReal st n } }, false)
        else (n, true)
  else (n, true)

/-- user.go:1203-1220 — the new settings of the account are in force, and the nick was told. -/
def nmSettings (st : NmState) (nick real : Str) (enabled : Bool) : NmState :=
  { username := st.username
    nick := nick
    real := real
    enabled := enabled
    nets := if st.nick = nick then st.nets else st.nets.map (nmTellNick { st with nick := nick }) }

/-- user.go:1222-1256 — the real name was told, or networks were updated. -/
def nmReconnect (realUpdated enabledUpdated : Bool) (ok : Nat → Bool) (st : NmState) : NmState × Bool :=
  let todo := st.nets.map (nmTellReal realUpdated enabledUpdated st)
  ({ st with nets := todo.map (fun t => if t.2 && ok t.1.id then nmUpdated st t.1.nick t.1.real t.1 else t.1) },
    todo.all (fun t => !t.2 || ok t.1.id))

/-- user.go:1192-1265 — `updateUser`. -/
def nmUpdateUser (st : NmState) (nick real : Str) (enabled dbOk : Bool) (ok : Nat → Bool) : NmState × Bool :=
  if dbOk = false then (st, false)
  else if st.real = real ∧ st.enabled = enabled then (nmSettings st nick real enabled, true)
  else nmReconnect (st.real != real) (st.enabled != enabled) ok (nmSettings st nick real enabled)

/-- downstream.go:1800-1853 — NICK of a client of the network. The service's nick and illegal nicks are refused before. -/
def nmClientNick (st : NmState) (id : Nat) (nick : Str) (dbOk : Bool) : NmState × Bool :=
  if nick = [] ∨ dbOk = false then (st, false)
  else
    (nmSet st id (fun n =>
      { n with nick := nick, storedNick := nick, storedReal := n.real,
               conn := n.conn.map (fun c => if c.up then { c with nick := nick } else c) }), true)

/-- downstream.go:1855-1905 — SETNAME of a client of the network. -/
def nmClientSetname (st : NmState) (id : Nat) (known real : Str) (ok : Bool) : NmState × Bool :=
  if known = real then (st, true)
  else
    match st.nets.find? (fun n => n.id = id) with
    | none => (st, false)
    | some n =>
      let own := if real = st.real then [] else real
      match n.conn with
      | some c =>
        if c.up && c.setname then
          (nmSet st id (fun n =>
            { n with conn := some { c with real := real },
                     storedNick := if ok then n.nick else n.storedNick,
                     storedReal := if ok then own else n.storedReal }), ok)
        else nmUpdateNetwork st id n.nick own ok
      | none => nmUpdateNetwork st id n.nick own ok

/-- One event; whether what was asked for is reported to be done. -/
def nmStep (st : NmState) : NmOp → NmState × Bool
  -- user.go:1057-1085
  | .create id nick real ok =>
    if ok = false ∨ st.nets.any (fun n => n.id = id) = true then (st, false)
    else ({ st with nets := st.nets ++ [⟨id, nick, real, nick, real, none⟩] }, true)
  -- user.go:1167-1190
  | .delete id ok =>
    if ok then ({ st with nets := st.nets.filter (fun n => n.id ≠ id) }, true) else (st, false)
  -- upstream.go:2020-2045
  | .dial id =>
    (nmSet st id (fun n =>
      if n.conn.isSome then n else { n with conn := some ⟨nmNick st n, nmReal st n, false, false⟩ }), true)
  -- user.go:645-648
  | .registered id => (nmSet st id (fun n => { n with conn := n.conn.map (fun c => { c with up := true }) }), true)
  | .caps id setname => (nmSet st id (fun n => { n with conn := n.conn.map (fun c => { c with setname := setname }) }), true)
  -- user.go:895-897
  | .lost id => (nmSet st id (fun n => { n with conn := none }), true)
  | .userUpdate nick real enabled dbOk ok => nmUpdateUser st nick real enabled dbOk ok
  | .netUpdate id nick real ok => nmUpdateNetwork st id nick real ok
  | .cNick id nick dbOk => nmClientNick st id nick dbOk
  | .cSetname id known real ok => nmClientSetname st id known real ok
  -- user.go:563-600
  | .restart => ({ st with nets := st.nets.map (fun n => { n with nick := n.storedNick, real := n.storedReal, conn := none }) }, true)

/-- The account after these events. -/
def nmRun (st : NmState) (ops : List NmOp) : NmState := ops.foldl (fun st op => (nmStep st op).1) st

end Verif.Model
