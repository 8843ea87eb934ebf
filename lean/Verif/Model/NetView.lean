import Verif.Model.Network

/-! # Model of the notifications about networks

user.go:636-705, 895-953, 1052-1190; downstream.go:92-141, 1569-1581, 3084-3098. The attributes of a
BOUNCER message are a list here; writing them as message tags is left to the library (go-irc
`Tags.String`). -/

namespace Verif.Model

/-- database/database.go:98-112 — the parts of `User` used here. -/
structure NvUser where
  username : Str
  nick : Str
  realname : Str
deriving DecidableEq, Repr

/-- user.go:149-162 — a `network` object: `obj` tells it from the other objects there have been (an update
replaces the object), `conn` whether it has a connection, `err` its last error. -/
structure NvNet where
  obj : Nat
  rec' : NetRec
  conn : Bool
  err : Option Str
deriving DecidableEq, Repr

/-- `BOUNCER NETWORK <id> <attributes>`; `none` stands for `*`. -/
structure NvMsg where
  id : Nat
  attrs : Option (List (Str × Str))
deriving DecidableEq, Repr

/-- A client, whether it enabled soju.im/bouncer-networks-notify, and the BOUNCER NETWORK messages sent to
it. -/
structure NvClient where
  num : Nat
  notify : Bool
  out : List NvMsg
deriving DecidableEq, Repr

/-- The loop of a user. `old` are the network objects that were replaced or removed: their goroutines may
still send events. -/
structure NvState where
  user : NvUser
  networks : List NvNet
  old : List NvNet
  nextObj : Nat
  nextId : Nat
  clients : List NvClient
deriving DecidableEq, Repr

/-- The events of the loop that concern networks. -/
inductive NvOp
  /-- `createNetwork` succeeds -/
  | create (r : NetRec)
  /-- `updateNetwork` succeeds -/
  | update (r : NetRec)
  /-- `deleteNetwork` succeeds -/
  | delete (id : Nat)
  /-- events of the goroutine of a network object -/
  | connected (obj : Nat)
  | disconnected (obj : Nat)
  | error (obj : Nat) (text : Str)
  /-- `updateUser` changes the nick or the real name; the networks it reconnects are updates that follow -/
  | userNick (nick : Str)
  | userRealname (realname : Str)
  /-- a client of the network sends NICK -/
  | netNick (id : Nat) (nick : Str)
  | login (num : Nat) (notify : Bool)
  | logout (num : Nat)
  /-- a client enables or disables the capability after registration -/
  | capReq (num : Nat) (on : Bool)
  /-- a client sends BOUNCER LISTNETWORKS -/
  | list (num : Nat)
deriving DecidableEq, Repr

/-- database/database.go:207-215 — `GetNick`. -/
def nvNick (u : NvUser) (r : NetRec) : Str :=
  if r.nick ≠ [] then r.nick else if u.nick ≠ [] then u.nick else u.username

/-- database/database.go:224-232 — `GetRealname`. -/
def nvRealname (u : NvUser) (r : NetRec) : Str :=
  if r.realname ≠ [] then r.realname else if u.realname ≠ [] then u.realname else nvNick u r

/-- downstream.go:115-141 — `getNetworkAttrs`. -/
def getNetworkAttrs (lib : UrlLib) (u : NvUser) (n : NvNet) : List (Str × Str) :=
  let addr := fillNetworkAddrAttrs lib n.rec'.addr
  [(b!"name", n.rec'.getName), (b!"state", if n.conn then b!"connected" else b!"disconnected"),
   (b!"nickname", nvNick u n.rec')] ++
  (if n.rec'.username ≠ [] then [(b!"username", n.rec'.username)] else []) ++
  (if nvRealname u n.rec' ≠ [] then [(b!"realname", nvRealname u n.rec')] else []) ++
  n.err.toList.map (fun v => (b!"error", v)) ++
  addr.tls.toList.map (fun v => (b!"tls", v)) ++
  addr.host.toList.map (fun v => (b!"host", v)) ++
  addr.port.toList.map (fun v => (b!"port", v))

/-- Send a message to the clients that asked for notifications. -/
def nvSend (m : NvMsg) (c : NvClient) : NvClient := if c.notify then { c with out := c.out ++ [m] } else c

/-- user.go:932-953 — `notifyBouncerNetworkState`. -/
def nvNotify (st : NvState) (id : Nat) (attrs : List (Str × Str)) : NvState :=
  if st.networks.any (fun n => n.rec'.id = id) then
    { st with clients := st.clients.map (nvSend ⟨id, some attrs⟩) }
  else st

/-- Change a network object, current or not. -/
def nvModify (st : NvState) (obj : Nat) (f : NvNet → NvNet) : NvState :=
  { st with
    networks := st.networks.map (fun n => if n.obj = obj then f n else n)
    old := st.old.map (fun n => if n.obj = obj then f n else n) }

/-- user.go:895-931 — `handleUpstreamDisconnected`. -/
def nvDisconnected (st : NvState) (obj : Nat) : NvState :=
  let st := nvModify st obj (fun n => { n with conn := false })
  match st.networks.find? (fun n => n.obj = obj) with
  | none => st
  | some n => nvNotify st n.rec'.id [(b!"state", b!"disconnected")]

/-- The batch of downstream.go:1570-1580 and 3085-3095. -/
def nvBatch (lib : UrlLib) (st : NvState) : List NvMsg :=
  st.networks.map (fun n => ⟨n.rec'.id, some (getNetworkAttrs lib st.user n)⟩)

/-- user.go:1098-1105 — a nick or real name that is the default is not kept. -/
def nvWipe (u : NvUser) (r : NetRec) : NetRec :=
  { r with nick := if r.nick = u.nick then [] else r.nick,
           realname := if r.realname = u.realname then [] else r.realname }

/-- One event. An update or a deletion of a network that does not exist panics in the code; the callers look the
network up first, so it is ignored here. -/
def nvStep (lib : UrlLib) (st : NvState) : NvOp → NvState
  -- user.go:1052-1085, 956-964: the database assigns the next identifier
  | .create r =>
    let n : NvNet := ⟨st.nextObj, { r with id := st.nextId }, false, none⟩
    let st := { st with networks := st.networks ++ [n], nextObj := st.nextObj + 1, nextId := st.nextId + 1 }
    nvNotify st n.rec'.id (getNetworkAttrs lib st.user n)
  -- user.go:1087-1165
  | .update r =>
    match st.networks.find? (fun n => n.rec'.id = r.id) with
    | none => st
    | some net =>
      let new : NvNet := ⟨st.nextObj, nvWipe st.user r, false, none⟩
      let st := if net.conn then nvDisconnected st net.obj else st
      let st := { st with
        networks := st.networks.map (fun n => if n.obj = net.obj then new else n)
        old := { net with conn := false } :: st.old
        nextObj := st.nextObj + 1 }
      nvNotify st new.rec'.id (getNetworkAttrs lib st.user new)
  -- user.go:1167-1190
  | .delete id =>
    match st.networks.find? (fun n => n.rec'.id = id) with
    | none => st
    | some net =>
      { st with
        networks := st.networks.filter (fun n => n.obj ≠ net.obj)
        old := net :: st.old
        clients := st.clients.map (nvSend ⟨id, none⟩) }
  -- user.go:644-669
  | .connected obj =>
    let st := nvModify st obj (fun n => { n with conn := true, err := none })
    match (st.networks ++ st.old).find? (fun n => n.obj = obj) with
    | none => st
    | some n => nvNotify st n.rec'.id [(b!"state", b!"connected"), (b!"error", [])]
  -- user.go:670-671
  | .disconnected obj => nvDisconnected st obj
  -- user.go:672-700
  | .error obj text =>
    let st := nvModify st obj (fun n => { n with err := some text })
    match (st.networks ++ st.old).find? (fun n => n.obj = obj) with
    | none => st
    | some n => nvNotify st n.rec'.id [(b!"error", text)]
  -- user.go:1192-1220
  | .userNick nick => { st with user := { st.user with nick := nick } }
  | .userRealname realname => { st with user := { st.user with realname := realname } }
  -- downstream.go:1838-1839
  | .netNick id nick =>
    { st with networks := st.networks.map (fun n =>
        if n.rec'.id = id then { n with rec' := { n.rec' with nick := nick } } else n) }
  -- downstream.go:1569-1581, user.go:763
  | .login num notify =>
    { st with clients := st.clients ++ [⟨num, notify, if notify then nvBatch lib st else []⟩] }
  -- user.go:781-792
  | .logout num => { st with clients := st.clients.filter (fun c => c.num ≠ num) }
  -- downstream.go:880-902
  | .capReq num on =>
    { st with clients := st.clients.map (fun c => if c.num = num then { c with notify := on } else c) }
  -- downstream.go:3084-3095
  | .list num =>
    { st with clients := st.clients.map (fun c =>
        if c.num = num then { c with out := c.out ++ nvBatch lib st } else c) }

/-- A run of the loop. -/
def nvRun (lib : UrlLib) (st : NvState) (ops : List NvOp) : NvState := ops.foldl (nvStep lib) st

/-- user.go:597-640 — the loop starts with the networks in the database. -/
def nvInit (u : NvUser) (recs : List NetRec) (nextId : Nat) : NvState :=
  ⟨u, recs.zipIdx.map (fun p => ⟨p.2, p.1, false, none⟩), [], recs.length, nextId, []⟩

end Verif.Model
