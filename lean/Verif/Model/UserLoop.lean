/-! # Model of a disabled account: the event loop of one user, its networks and its clients

user.go:221-318 (the goroutine of a network), user.go:595-893 (the event loop), user.go:956-1165 (adding, removing
and updating networks), user.go:1192-1267 (updating the account), downstream.go:628-646 and 1764-1860 (commands of
clients) and server.go:464-512 (the goroutine of a client).

Three kinds of goroutines take turns: the one of each network, which dials, registers and reports to the loop; the
one of each client, which authenticates and then forwards what the client sends; and the loop itself.  Any
interleaving is allowed; the events of one network are handled in the order it has sent them.

Simplifications: the channel of events is not bounded; the attributes of a network are its number, whether it is
enabled and the kind of its address; a network that is created when a client logs in with an unknown network name
(downstream.go:1396-1433) is a `create` command before that login. -/

namespace Verif.Model

/-- The address of a network, as `checkNetwork` (user.go:1005-1055) sees it. -/
inductive UlAddr where
  | internet
  /-- a local socket: only for administrators (user.go:1029-1032) -/
  | socket
  /-- any other objection of `checkNetwork` -/
  | invalid
deriving DecidableEq, Repr

/-- Where the goroutine of a network is (user.go:221-312). -/
inductive UlGor where
  /-- started, line 268 not yet reached -/
  | fresh
  /-- at the top of the loop (line 280) -/
  | idle
  /-- line 280 is passed, there is no connection -/
  | dialing
  /-- connected, not registered (lines 231-255) -/
  | conn
  /-- registered, reading messages (lines 257-262) -/
  | reg
  /-- ended -/
  | done
deriving DecidableEq, Repr

/-- A `network` object, with its goroutine. -/
structure UlNet where
  /-- the object -/
  obj : Nat
  /-- its number in the database -/
  id : Nat
  enabled : Bool
  addr : UlAddr
  /-- `net.stopped` is closed -/
  stopped : Bool
  /-- `net.conn != nil` -/
  conn : Bool
  gor : UlGor
  /-- the events this goroutine has sent and the loop has not handled: connected (`true`), disconnected -/
  pend : List Bool
deriving DecidableEq, Repr

/-- A client that has authenticated. -/
structure UlClient where
  id : Nat
  /-- the version of the password it has used -/
  pw : Nat
  /-- its connection event has been handled -/
  seen : Bool
  /-- `dc.user != nil` -/
  user : Bool
  /-- it is in `u.downstreamConns` -/
  listed : Bool
  /-- `dc.isClosed()` -/
  closed : Bool
  /-- the object `dc.network` -/
  net : Option Nat
deriving DecidableEq, Repr

structure UlState where
  enabled : Bool
  admin : Bool
  /-- the version of the stored password -/
  pw : Nat
  /-- `u.networks` -/
  nets : List UlNet
  /-- the networks that were removed; their goroutines may still run -/
  old : List UlNet
  clients : List UlClient
  nextObj : Nat
  nextId : Nat
  /-- the loop has panicked -/
  crashed : Bool
deriving DecidableEq, Repr

/-- user.go:1005-1055 — may a network have this address? -/
def ulCheck (admin : Bool) : UlAddr → Bool
  | .internet => true
  | .socket => admin
  | .invalid => false

/-- user.go:163-186 and 956-964 — a new object, whose goroutine has just been started. -/
def ulNewNet (obj id : Nat) (enabled : Bool) (addr : UlAddr) : UlNet :=
  ⟨obj, id, enabled, addr, false, false, .fresh, []⟩

/-- user.go:595-640 — the loop starts with the networks of the database. -/
def ulStart (enabled admin : Bool) (recs : List (Nat × Bool × UlAddr)) (nextId : Nat) : UlState :=
  { enabled := enabled, admin := admin, pw := 0,
    nets := recs.zipIdx.map (fun p => ulNewNet p.2 p.1.1 p.1.2.1 p.1.2.2),
    old := [], clients := [], nextObj := recs.length, nextId := nextId, crashed := false }

/-! ## The goroutine of a network -/

/-- What the goroutine of a network does next. -/
inductive UlGStep where
  /-- lines 268-270: give up if the account or the network is disabled -/
  | start
  /-- lines 280-282: give up if the network has been stopped -/
  | top
  /-- line 231: the connection is established -/
  | dialled
  /-- lines 253-257: registration is complete, the loop is told -/
  | registered
  /-- an error, or the network has been stopped (lines 237-240); `again`: line 305 is not reached -/
  | fail (again : Bool)
deriving DecidableEq, Repr

/-- user.go:221-312. -/
def ulGor (accEnabled : Bool) (s : UlGStep) (n : UlNet) : UlNet :=
  match s, n.gor with
  | .start, .fresh => { n with gor := if !accEnabled || !n.enabled then .done else .idle }
  | .top, .idle => { n with gor := if n.stopped then .done else .dialing }
  | .dialled, .dialing => { n with gor := .conn }
  | .registered, .conn => { n with gor := .reg, pend := n.pend ++ [true] }
  | .fail again, .dialing => { n with gor := if again then .idle else .done }
  | .fail again, .conn => { n with gor := if again then .idle else .done }
  | .fail _, .reg => { n with gor := .idle, pend := n.pend ++ [false] }
  | _, _ => n

/-- user.go:643-672, 895-899 — the loop handles an event of a network. -/
def ulEvent (n : UlNet) : UlNet :=
  match n.pend with
  | [] => n
  | b :: rest => { n with conn := b, pend := rest }

/-! ## The loop -/

/-- The networks with this object. -/
def ulMapObj (obj : Nat) (f : UlNet → UlNet) (l : List UlNet) : List UlNet :=
  l.map (fun n => if n.obj = obj then f n else n)

/-- user.go:966-985 — `removeNetwork`: the network is stopped, the clients bound to it are closed. -/
def ulRemove (st : UlState) (n : UlNet) : UlState :=
  { st with
    nets := st.nets.filter (fun m => m.id ≠ n.id),
    old := { n with stopped := true } :: st.old,
    clients := st.clients.map (fun c => if c.listed = true ∧ c.net = some n.obj then { c with closed := true } else c) }

/-- user.go:1058-1085 — `createNetwork`.  `dbOk`: the database stores the record. -/
def ulCreate (st : UlState) (enabled : Bool) (addr : UlAddr) (dbOk : Bool) : UlState :=
  if !ulCheck st.admin addr || !dbOk then st
  else { st with nets := st.nets ++ [ulNewNet st.nextObj st.nextId enabled addr],
                 nextObj := st.nextObj + 1, nextId := st.nextId + 1 }

/-- user.go:1087-1165 — `updateNetwork`: stop the network, patch the clients, put a new object in its place (the
networks are sorted by their numbers).  `none`: an error. -/
def ulUpdate (st : UlState) (id : Nat) (enabled : Bool) (addr : UlAddr) (dbOk : Bool) : Option UlState :=
  match st.nets.find? (fun n => n.id = id) with
  | none => none
  | some n =>
    if !ulCheck st.admin addr || !dbOk then none
    else some { st with
      nets := st.nets.map (fun m => if m.id = id then ulNewNet st.nextObj id enabled addr else m),
      old := { n with stopped := true, conn := false } :: st.old,
      clients := st.clients.map (fun c =>
        if c.listed = true ∧ c.net = some n.obj then { c with net := some st.nextObj } else c),
      nextObj := st.nextObj + 1 }

/-- user.go:1167-1190 — `deleteNetwork`. -/
def ulDelete (st : UlState) (id : Nat) (dbOk : Bool) : UlState :=
  match st.nets.find? (fun n => n.id = id) with
  | none => st
  | some n => if !dbOk then st else ulRemove st n

/-- user.go:1246-1251 — update the networks one by one; errors do not stop the loop, but are remembered. -/
def ulUpdateAll (dbNet : Nat → Bool) : List UlNet → UlState → UlState × Bool
  | [], st => (st, true)
  | n :: rest, st =>
    match ulUpdate st n.id n.enabled n.addr (dbNet n.id) with
    | none => ((ulUpdateAll dbNet rest st).1, false)
    | some st' => ulUpdateAll dbNet rest st'

/-- Close the clients of the account (user.go:1258-1263 and 840-844). -/
def ulCloseAll (st : UlState) : UlState :=
  { st with clients := st.clients.map (fun c => if c.listed = true then { c with closed := true } else c) }

/-- The answer to an update of the account. -/
inductive UlAnswer where
  | ok
  /-- the account has not been stored (user.go:1201-1203) -/
  | refused
  /-- the account has been stored, a network could not be updated (user.go:1246-1254) -/
  | netErr
deriving DecidableEq, Repr

/-- A change of the record of the account. -/
structure UlChange where
  enabled : Option Bool := none
  admin : Option Bool := none
  password : Bool := false
  realname : Bool := false
deriving DecidableEq, Repr

/-- user.go:1193-1204 — the new record of the account. -/
def ulStored (st : UlState) (ch : UlChange) : UlState :=
  let pw := if ch.password then st.pw + 1 else st.pw
  { st with enabled := ch.enabled.getD st.enabled, admin := ch.admin.getD st.admin, pw := pw }

/-- user.go:1221-1255 — update the networks that need it, in the account `st` whose record was that of `before`;
`false`: there was an error. -/
def ulUpdateNets (before st : UlState) (ch : UlChange) (dbNet : Nat → Bool) (skip : UlNet → Bool) : UlState × Bool :=
  let enabledUpdated := decide (before.enabled ≠ st.enabled)
  if ch.realname || enabledUpdated then
    ulUpdateAll dbNet (st.nets.filter (fun n => enabledUpdated || !skip n)) st
  else (st, true)

/-- user.go:1192-1267 — `updateUser`.  `dbUser`, `dbNet`: does the database store the account, a network?
`skip`: this network need not be updated if only the real name has changed (user.go:1225-1240). -/
def ulUpdateUser (st : UlState) (ch : UlChange) (dbUser : Bool) (dbNet : Nat → Bool) (skip : UlNet → Bool) :
    UlState × UlAnswer :=
  if !dbUser then (st, .refused)
  else
    let r := ulUpdateNets st (ulStored st ch) ch dbNet skip
    if !r.2 then (r.1, .netErr)
    else if r.1.enabled then (r.1, .ok)
    else (ulCloseAll r.1, .ok)

/-- The commands of clients (downstream.go:1764-3260), as far as they matter here. -/
inductive UlCmd where
  /-- does not read `dc.user`: `CAP`, `PING`, `PONG`, `USER` (lines 1766-1799), and what is rejected before that -/
  | plain
  /-- reads `dc.user` -/
  | other
  /-- `SETNAME` of a client that is not bound to a network (lines 1892-1896) -/
  | realname (dbUser : Bool) (dbNet skip : List Nat)
  | create (enabled : Bool) (addr : UlAddr) (dbOk : Bool)
  | update (id : Nat) (enabled : Bool) (addr : UlAddr) (dbOk : Bool)
  | delete (id : Nat) (dbOk : Bool)
deriving DecidableEq, Repr

/-- A command is executed for the account. -/
def ulExec (st : UlState) : UlCmd → UlState × Option UlAnswer
  | .plain => (st, none)
  | .other => (st, none)
  | .realname dbUser dbNet skip =>
    let r := ulUpdateUser st { realname := true } dbUser (fun i => dbNet.contains i) (fun n => skip.contains n.id)
    (r.1, some r.2)
  | .create enabled addr dbOk => (ulCreate st enabled addr dbOk, none)
  | .update id enabled addr dbOk => ((ulUpdate st id enabled addr dbOk).getD st, none)
  | .delete id dbOk => (ulDelete st id dbOk, none)

/-- What happens. -/
inductive UlOp where
  | net (obj : Nat) (s : UlGStep)
  | netEvent (obj : Nat)
  /-- a client has given the password of the account (server.go:488-495) -/
  | auth (client : Nat)
  /-- the loop handles its connection event (user.go:721-779); `bind`: the network it has asked for, `fail`: the
  request for a network fails (downstream.go:1368-1437); `dbUser`, `dbNet` as in `ulUpdateUser` -/
  | login (client : Nat) (bind : Option Nat) (fail : Bool) (dbUser : Bool) (dbNet : List Nat)
  | cmd (client : Nat) (c : UlCmd)
  /-- the connection of the client is closed -/
  | hangup (client : Nat)
  /-- the loop handles its disconnection event (user.go:780-804) -/
  | gone (client : Nat)
  /-- `user update` by an administrator (user.go:823-845), or the scan for inactive accounts -/
  | account (ch : UlChange) (dbUser : Bool) (dbNet : List Nat)
  /-- `user run` by an administrator (user.go:848-874) -/
  | adminRun (c : UlCmd)
deriving DecidableEq, Repr

/-- Change a client. -/
def ulMapClient (id : Nat) (f : UlClient → UlClient) (l : List UlClient) : List UlClient :=
  l.map (fun c => if c.id = id then f c else c)

/-- user.go:731-740 — the account is enabled, if the configuration says so (`onAuth`). -/
def ulEnableOnAuth (onAuth : Bool) (st : UlState) (dbUser : Bool) (dbNet : List Nat) : UlState × Option UlAnswer :=
  if !st.enabled && onAuth then
    let r := ulUpdateUser st { enabled := some true } dbUser (fun i => dbNet.contains i) (fun _ => false)
    (r.1, some r.2)
  else (st, none)

/-- user.go:741-779 — the client is turned away, fails to get its network, or is let in. -/
def ulAdmit (st : UlState) (bind : Option Nat) (fail : Bool) (c : UlClient) : UlClient :=
  if !st.enabled then { c with seen := true }
  else if fail then { c with seen := true, user := true }
  else
    let net := bind.bind (fun id => (st.nets.find? (fun n => n.id = id)).map (·.obj))
    { c with seen := true, user := true, listed := true, net := net }

/-- user.go:721-779 — a client has logged in.  `onAuth`: the configuration enables accounts on authentication. -/
def ulLogin (onAuth : Bool) (st : UlState) (client : Nat) (bind : Option Nat) (fail dbUser : Bool) (dbNet : List Nat) :
    UlState × Option UlAnswer :=
  let r := ulEnableOnAuth onAuth st dbUser dbNet
  ({ r.1 with clients := ulMapClient client (ulAdmit r.1 bind fail) r.1.clients }, r.2)

/-- user.go:805-819, downstream.go:628-646 — a command of a client.  A client whose `dc.user` is nil has completed
its registration (downstream.go:1364), so its commands are handled, and a command that reads the account panics. -/
def ulCmd (st : UlState) (client : Nat) (c : UlCmd) : UlState × Option UlAnswer :=
  match st.clients.find? (fun x => x.id = client) with
  | none => (st, none)
  | some x =>
    if !x.seen || x.closed then (st, none)
    else if !x.user then (if c = .plain then (st, none) else ({ st with crashed := true }, none))
    else ulExec st c

/-- One step, and the answer to an update of the account. -/
def ulStep (onAuth : Bool) (st : UlState) (op : UlOp) : UlState × Option UlAnswer :=
  match op with
  | .net obj s =>
    ({ st with nets := ulMapObj obj (ulGor st.enabled s) st.nets, old := ulMapObj obj (ulGor st.enabled s) st.old }, none)
  | .auth client =>
    -- every connection has its own number (server.go:475)
    if st.clients.any (fun c => c.id = client) then (st, none)
    else ({ st with clients := st.clients ++ [⟨client, st.pw, false, false, false, false, none⟩] }, none)
  | .hangup client => ({ st with clients := ulMapClient client (fun c => { c with closed := true }) st.clients }, none)
  | op =>
    if st.crashed then (st, none)
    else
      match op with
      | .netEvent obj => ({ st with nets := ulMapObj obj ulEvent st.nets, old := ulMapObj obj ulEvent st.old }, none)
      | .login client bind fail dbUser dbNet =>
        -- the event is sent once (server.go:507)
        if st.clients.any (fun c => c.id = client ∧ c.seen = false) then ulLogin onAuth st client bind fail dbUser dbNet
        else (st, none)
      | .cmd client c => ulCmd st client c
      | .gone client =>
        ({ st with clients := ulMapClient client (fun c => { c with listed := false, closed := true }) st.clients }, none)
      | .account ch dbUser dbNet =>
        let r := ulUpdateUser st ch dbUser (fun i => dbNet.contains i) (fun _ => false)
        (if ch.password then ulCloseAll r.1 else r.1, some r.2)
      | .adminRun c => ulExec st c
      | _ => (st, none)

/-- A run. -/
def ulRun (onAuth : Bool) (st : UlState) : List UlOp → UlState × List UlAnswer
  | [] => (st, [])
  | op :: ops =>
    let r := ulStep onAuth st op
    let rest := ulRun onAuth r.1 ops
    (rest.1, r.2.toList ++ rest.2)

end Verif.Model
