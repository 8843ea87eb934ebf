import Verif.Model.Casemap

/-! # Model of the tables of names of a network and of its case mapping

A network has a case mapping (`network.casemap`) and keeps names in several tables: saved channels, delivery
receipts, push targets; its connection keeps the channels with their members, the known users and the monitored
nicks; each client keeps its monitored nicks, its mapping and its folded nick (user.go:150-187, 408-424,
640-664, 722-726, 894-895, 1120-1142; upstream.go:354-371, 974-983, 1029-1037, 1203-1222;
downstream.go:374-381, 1132-1158, 1466-1473, 1241-1250, 1552, 2661-2706).

Simplifications: one network, with the clients that are bound to it; the values in the tables are left out, except
for the members of a channel. -/

namespace Verif.Model

/-- The order in which Go iterates over a map: some permutation of its entries. -/
structure FoldOrder where
  names : List (Str × CMEntry Unit) → List (Str × CMEntry Unit)
  chans : List (Str × CMEntry (CMMap Unit)) → List (Str × CMEntry (CMMap Unit))

/-- upstream.go:207-233 — a connection to the server: its tables of names, whether `isupport["CASEMAPPING"]` is
set, and `gotMotd`. -/
structure FoldConn where
  channels : CMMap (CMMap Unit)
  users : CMMap Unit
  monitored : CMMap Unit
  announced : Bool
  gotMotd : Bool

/-- downstream.go:341-366 — a client bound to the network. -/
structure FoldClient where
  id : Nat
  cm : CaseMapping
  nick : Str
  nickCM : Str
  monitored : CMMap Unit

/-- user.go:149-161 — a network; `dialed` is the connection that is not registered yet (user.go:231-254). -/
structure FoldNet where
  cm : CaseMapping
  channels : CMMap Unit
  delivered : CMMap Unit
  pushTargets : CMMap Unit
  conn : Option FoldConn
  dialed : Option FoldConn
  clients : List FoldClient

/-- irc.go:232 — `stdCaseMapping`. -/
def stdCaseMapping : CaseMapping := .rfc1459

/-- user.go:163-187 — `newNetwork`, with the names of the saved channels. -/
def foldNewNet (channels : List Str) : FoldNet where
  cm := stdCaseMapping
  channels := channels.foldl (fun m n => m.set n ()) (CMMap.new .ascii)
  delivered := CMMap.new .ascii
  pushTargets := CMMap.new .ascii
  conn := none
  dialed := none
  clients := []

/-- upstream.go:354-371 — `connectToUpstream`: the tables of a new connection. -/
def foldNewConn : FoldConn where
  channels := CMMap.new stdCaseMapping
  users := CMMap.new stdCaseMapping
  monitored := CMMap.new stdCaseMapping
  announced := false
  gotMotd := false

/-- downstream.go:1241-1250 — `downstreamConn.updateCasemapping`, for a client with a network. -/
def foldClient (ord : FoldOrder) (cm : CaseMapping) (dc : FoldClient) : FoldClient :=
  { dc with cm := cm, nickCM := casemap cm dc.nick, monitored := dc.monitored.setCaseMapping (ord.names dc.monitored.m) cm }

/-- `SetCaseMapping` on the members of a channel (user.go:415-417): the value is a pointer, the entry stays. -/
def foldMembers (ord : FoldOrder) (cm : CaseMapping) (t : CMMap (CMMap Unit)) : CMMap (CMMap Unit) :=
  { t with m := t.m.map (fun p => (p.1, { p.2 with value := p.2.value.setCaseMapping (ord.names p.2.value.m) cm })) }

/-- user.go:413-420 — the part of `updateCasemapping` that is about the connection. -/
def foldConn (ord : FoldOrder) (cm : CaseMapping) (uc : FoldConn) : FoldConn :=
  { uc with
    channels := foldMembers ord cm (uc.channels.setCaseMapping (ord.chans uc.channels.m) cm)
    users := uc.users.setCaseMapping (ord.names uc.users.m) cm
    monitored := uc.monitored.setCaseMapping (ord.names uc.monitored.m) cm }

/-- user.go:408-424 — `network.updateCasemapping`. -/
def foldUpdate (ord : FoldOrder) (st : FoldNet) (cm : CaseMapping) : FoldNet :=
  { st with
    cm := cm
    channels := st.channels.setCaseMapping (ord.names st.channels.m) cm
    delivered := st.delivered.setCaseMapping (ord.names st.delivered.m) cm
    pushTargets := st.pushTargets.setCaseMapping (ord.names st.pushTargets.m) cm
    conn := st.conn.map (foldConn ord cm)
    clients := st.clients.map (foldClient ord cm) }

/-- The tables whose entries are not tables. -/
inductive FoldTable where
  | channels | delivered | pushTargets | users | monitored
deriving DecidableEq, Repr

/-- The tables of the connection. -/
def FoldConn.onTable (uc : FoldConn) (t : FoldTable) (f : CMMap Unit → CMMap Unit) : FoldConn :=
  match t with
  | .users => { uc with users := f uc.users }
  | .monitored => { uc with monitored := f uc.monitored }
  | _ => uc

/-- An operation on one of the tables; those of the connection are there only while there is one. -/
def FoldNet.onTable (st : FoldNet) (t : FoldTable) (f : CMMap Unit → CMMap Unit) : FoldNet :=
  match t with
  | .channels => { st with channels := f st.channels }
  | .delivered => { st with delivered := f st.delivered }
  | .pushTargets => { st with pushTargets := f st.pushTargets }
  | t => { st with conn := st.conn.map (fun uc => uc.onTable t f) }

/-- upstream.go:974-983 — the mapping for the value of the CASEMAPPING token; `none` when it has none. -/
def foldParse (value : Option Str) : CaseMapping :=
  match parseCaseMapping (value.getD []) with
  | some cm => cm
  | none => .rfc1459

/-- downstream.go:374-381, user.go:722-726, downstream.go:1466-1473, 1552 — a client of the network logs in. -/
def foldLogin (ord : FoldOrder) (st : FoldNet) (id : Nat) (nick : Str) : FoldNet :=
  let dc : FoldClient := ⟨id, .ascii, nick, casemap .ascii nick, CMMap.new .ascii⟩
  let dc := { dc with monitored := dc.monitored.setCaseMapping (ord.names dc.monitored.m) st.cm }
  { st with clients := st.clients ++ [foldClient ord st.cm dc] }

/-- A change of one client. -/
def foldOn (st : FoldNet) (id : Nat) (f : FoldClient → FoldClient) : FoldNet :=
  { st with clients := st.clients.map (fun dc => if dc.id = id then f dc else dc) }

/-- What happens to the network. -/
inductive FoldOp where
  /-- a name is put in a table, or taken out of it -/
  | put (t : FoldTable) (name : Str)
  | drop (t : FoldTable) (name : Str)
  /-- the user joins or leaves a channel -/
  | joined (channel : Str)
  | left (channel : Str)
  /-- somebody joins or leaves a channel -/
  | member (channel nick : Str)
  | noMember (channel nick : Str)
  | login (id : Nat) (nick : Str)
  | logout (id : Nat)
  /-- the nick of a client changes -/
  | nick (id : Nat) (nick : Str)
  /-- `MONITOR +`, `MONITOR -` and `MONITOR C` by a client -/
  | monitor (id : Nat) (name : Str)
  | unmonitor (id : Nat) (name : Str)
  | clear (id : Nat)
  /-- a connection to the server is opened -/
  | dialed
  /-- the server announces its mapping before it has accepted the connection -/
  | early (value : Option Str)
  /-- the server accepts the connection -/
  | welcome
  /-- the server announces its mapping -/
  | announce (value : Option Str)
  /-- the server ends its greeting, or a later message of the day -/
  | endOfMotd
  | disconnected
  /-- the settings of the network are changed -/
  | updated
  /-- the bouncer is restarted; the saved channels are read back -/
  | restarted
deriving DecidableEq, Repr

/-- One event. -/
def foldStep (ord : FoldOrder) (st : FoldNet) : FoldOp → FoldNet
  | .put t n => st.onTable t (fun c => c.set n ())
  | .drop t n => st.onTable t (fun c => c.del n)
  -- upstream.go:1203-1211
  | .joined ch => { st with conn := st.conn.map (fun uc => { uc with channels := uc.channels.set ch (CMMap.new st.cm) }) }
  -- upstream.go:1238-1239, 1268-1269
  | .left ch => { st with conn := st.conn.map (fun uc => { uc with channels := uc.channels.del ch }) }
  -- upstream.go:1218-1222
  | .member ch nick => { st with conn := st.conn.map (fun uc =>
      match uc.channels.get ch with
      | some ms => { uc with channels := uc.channels.set ch (ms.set nick ()) }
      | none => uc) }
  -- upstream.go:1248-1252, 1277-1281
  | .noMember ch nick => { st with conn := st.conn.map (fun uc =>
      match uc.channels.get ch with
      | some ms => { uc with channels := uc.channels.set ch (ms.del nick) }
      | none => uc) }
  | .login id nick => foldLogin ord st id nick
  -- user.go:778-788
  | .logout id => { st with clients := st.clients.filter (fun dc => decide (dc.id ≠ id)) }
  -- downstream.go:1156-1157
  | .nick id nick => foldOn st id (fun dc => { dc with nick := nick, nickCM := casemap dc.cm nick })
  -- downstream.go:2676, 2699
  | .monitor id n => foldOn st id (fun dc => { dc with monitored := dc.monitored.set n () })
  | .unmonitor id n => foldOn st id (fun dc => { dc with monitored := dc.monitored.del n })
  -- downstream.go:2703-2704
  | .clear id => foldOn st id (fun dc => { dc with monitored := CMMap.new st.cm })
  -- user.go:231
  | .dialed => { st with dialed := some foldNewConn }
  -- upstream.go:974-983 within upstream.go:2056-2069, before `network.conn` is set
  | .early v =>
    match st.dialed with
    | some uc => { foldUpdate ord st (foldParse v) with dialed := some { uc with announced := v.isSome } }
    | none => st
  -- user.go:644-664
  | .welcome =>
    match st.dialed with
    | some uc => { st with conn := some uc, dialed := none, clients := st.clients.map (foldClient ord st.cm) }
    | none => st
  -- upstream.go:974-983
  | .announce v =>
    match st.conn with
    | some uc => foldUpdate ord { st with conn := some { uc with announced := v.isSome } } (foldParse v)
    | none => st
  -- upstream.go:1029-1037
  | .endOfMotd =>
    match st.conn with
    | some uc =>
      if uc.gotMotd then st
      else if uc.announced then { st with conn := some { uc with gotMotd := true } }
      else foldUpdate ord { st with conn := some { uc with gotMotd := true } } stdCaseMapping
    | none => st
  -- user.go:895
  | .disconnected => { st with conn := none }
  -- user.go:1122-1142
  | .updated => { foldNewNet (st.channels.forEach.map (·.1)) with clients := st.clients }
  -- user.go:613-637; simplification: the saved channels are those in memory (C58)
  | .restarted => foldNewNet (st.channels.forEach.map (·.1))

/-- A history, oldest event first. -/
def foldRun (ord : FoldOrder) (st : FoldNet) (ops : List FoldOp) : FoldNet := ops.foldl (foldStep ord) st

end Verif.Model
