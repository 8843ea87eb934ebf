import Verif.Model.Casemap
import Verif.Model.Db
import Verif.Model.GoStr

/-! # Model of the channels saved for a network

The channels of a network are kept in memory (`network.channels`) and in the Channel table.  They are changed by
the commands of the clients (downstream.go:1914-2032), by the service (service.go:1442-1566) and by detaching
and attaching (user.go:320-387, 704-720, upstream.go:1857-1869).  The server's own JOIN, PART and KICK messages
(upstream.go:1172-1289) change the channels of the connection, never the saved ones.

Simplifications: one network; the other networks only appear as rows of the table.  The only error of the
database is a violated constraint.  Go's iteration order of the map is the order of the list. -/

namespace Verif.Model

/-- user.go:150-161 — what is kept about the channels of a network. -/
structure ScState where
  /-- the case mapping of `network.channels` -/
  cm : CaseMapping
  /-- `network.channels` -/
  mem : GoMap Str ChanRec
  /-- the whole Channel table -/
  rows : List ChannelRow
  /-- `network.conn != nil` -/
  conn : Bool
  /-- the channels of the networks this one has replaced, newest first: timers of their connections may still be
  waiting to be handled -/
  old : List (CaseMapping × GoMap Str ChanRec) := []
deriving DecidableEq, Repr

/-- The settings `channel create` and `channel update` change (service.go:1389-1419). -/
structure ChanSettings where
  relayDetached : Nat
  reattachOn : Nat
  detachAfter : Nat
  detachOn : Nat
deriving DecidableEq, Repr

/-- database.Channel{Name: name, Key: key} — every other field is zero. -/
def newChanRec (name key : Str) : ChanRec := ⟨0, name, key, false, [], 0, 0, 0, 0⟩

/-- downstream.go:219 — `strings.ContainsAny(name, illegalChanChars)`. -/
def hasIllegalChanChar (name : Str) : Bool := name.any (fun c => c == 32 || c == 44 || c == 7)

/-- `strings.EqualFold(reason, "detach")`: none of the letters has a non-ASCII form. -/
def isDetachReason (reason : Str) : Bool := casemap .ascii reason == b!"detach"

/-- `network.channels.Set` followed by `StoreChannel`, which sets the ID of a new record
(downstream.go:1979-1983, 2011-2015, service.go:1477-1481). -/
def scPut (net : Nat) (st : ScState) (k : Str) (c : ChanRec) : ScState :=
  match dbStoreChannel st.rows net c with
  | some (rows, id) => { st with mem := GoMap.set st.mem k { c with id := id }, rows := rows }
  | none => { st with mem := GoMap.set st.mem k c }

/-- user.go:320-335 — `detach`; `lastID` is the answer of the message store. -/
def scDetachRec (lastID : Str) (c : ChanRec) : ChanRec :=
  if c.detached then c else { c with detached := true, detachedMsgID := lastID }

/-- user.go:354-363 — `attach`. -/
def scAttachRec (c : ChanRec) : ChanRec :=
  if c.detached then { c with detached := false, detachedMsgID := [] } else c

/-- downstream.go:1930-1983 — one channel of a client's JOIN. -/
def scJoin1 (isChan : Str → Bool) (net : Nat) (st : ScState) (p : Str × Str) : ScState :=
  let name := p.1
  let key := p.2
  if name = [] || hasIllegalChanChar name then st
  else if !isChan name then st
  else
    match GoMap.get st.mem (casemap st.cm name) with
    | some ch =>
      scPut net st (casemap st.cm name) (scAttachRec { ch with key := if key ≠ [] then key else ch.key })
    | none => scPut net st (casemap st.cm name) (newChanRec name key)

/-- downstream.go:1930-1934 — the names with the key at the same position, if there is one. -/
def scPairs : List Str → List Str → List (Str × Str)
  | [], _ => []
  | n :: ns, keys => (n, (keys.head?).getD []) :: scPairs ns keys.tail

/-- downstream.go:1925-1928 — the keys. -/
def scKeyList : Option Str → List Str
  | some s => splitByte 44 s
  | none => []

/-- downstream.go:1914-1984 — JOIN by a client; `upstreamForCommand` needs a connection. -/
def scJoin (isChan : Str → Bool) (net : Nat) (st : ScState) (names : Str) (keys : Option Str) : ScState :=
  if st.conn then
    (scPairs (splitByte 44 names) (scKeyList keys)).foldl (scJoin1 isChan net) st
  else st

/-- user.go:389-406 — `deleteChannel`. -/
def scDelete (st : ScState) (name : Str) : ScState :=
  match GoMap.get st.mem (casemap st.cm name) with
  | none => st
  | some ch => { st with rows := dbDeleteChannel st.rows ch.id, mem := GoMap.del st.mem (casemap st.cm name) }

/-- downstream.go:2001-2015 — one channel of a PART whose reason is "detach". -/
def scDetach1 (net : Nat) (lastID : Str) (st : ScState) (name : Str) : ScState :=
  match GoMap.get st.mem (casemap st.cm name) with
  | some ch => scPut net st (casemap st.cm name) (scDetachRec lastID ch)
  | none => scPut net st (casemap st.cm name) { newChanRec name [] with detached := true }

/-- downstream.go:1985-2032 — PART by a client. -/
def scPart (net : Nat) (lastID : Str) (st : ScState) (names reason : Str) : ScState :=
  if st.conn then
    if isDetachReason reason then (splitByte 44 names).foldl (scDetach1 net lastID) st
    else (splitByte 44 names).foldl scDelete st
  else st

/-- service.go:1405-1418 — the flags of `channel create` and `channel update` (given all together). -/
def scConfigure (conf : ChanSettings) (c : ChanRec) : ChanRec :=
  { c with relayDetached := conf.relayDetached, reattachOn := conf.reattachOn, detachAfter := conf.detachAfter,
           detachOn := conf.detachOn }

/-- service.go:1460-1481 — `channel create`. -/
def scCreate (isChan : Str → Bool) (net : Nat) (st : ScState) (name : Str) (conf : ChanSettings) : ScState :=
  if name = [] || hasIllegalChanChar name then st
  else if st.conn && !isChan name then st
  else
    match GoMap.get st.mem (casemap st.cm name) with
    | some _ => st
    | none => scPut net st (casemap st.cm name) (scConfigure conf (newChanRec name []))

/-- service.go:1513-1536 — `channel update`; `detached` is the value of the flag. -/
def scUpdate (net : Nat) (lastID : Str) (st : ScState) (name : Str) (conf : ChanSettings) (detached : Option Bool) :
    ScState :=
  match GoMap.get st.mem (casemap st.cm name) with
  | none => st
  | some ch =>
    let ch1 := scConfigure conf ch
    let ch2 := match detached with
      | some true => scDetachRec lastID ch1
      | some false => scAttachRec ch1
      | none => ch1
    scPut net st (casemap st.cm name) ch2

/-- user.go:704-720 — the time without messages after which a channel is detached has passed. -/
def scAutoDetach (net : Nat) (lastID : Str) (st : ScState) (name : Str) : ScState :=
  match GoMap.get st.mem (casemap st.cm name) with
  | none => st
  | some ch => if ch.detached then st else scPut net st (casemap st.cm name) (scDetachRec lastID ch)

/-- user.go:710-719, 1129-1161 — the same for a timer of a connection of a network that has been replaced since:
`uc.network` is the old network, and only the table is changed.  The records of the old network are those of the time
of the replacement. -/
def scLateDetach (net : Nat) (lastID : Str) (st : ScState) (i : Nat) (name : Str) : ScState :=
  match st.old[i]? with
  | none => st
  | some (cm, mem) =>
    match GoMap.get mem (casemap cm name) with
    | none => st
    | some ch =>
      if ch.detached then st
      else
        let c := scDetachRec lastID ch
        match dbStoreChannel st.rows net c with
        | some (rows, id) =>
          { st with rows := rows, old := st.old.set i (cm, GoMap.set mem (casemap cm name) { c with id := id }) }
        | none => { st with old := st.old.set i (cm, GoMap.set mem (casemap cm name) c) }

/-- upstream.go:1863-1868 — a message in a detached channel attaches it. -/
def scReattach (net : Nat) (st : ScState) (name : Str) : ScState :=
  match GoMap.get st.mem (casemap st.cm name) with
  | none => st
  | some ch => if ch.detached then scPut net st (casemap st.cm name) (scAttachRec ch) else st

/-- user.go:170-174, xirc/casemapping.go:129-136 — a map filled with records. -/
def scFill (cm : CaseMapping) (l : List ChanRec) : GoMap Str ChanRec :=
  l.foldl (fun m c => GoMap.set m (casemap cm c.name) c) []

/-- user.go:613-625 and 163-186 — the records are read when the user's loop starts. -/
def scLoad (net : Nat) (rows : List ChannelRow) : ScState :=
  { cm := .ascii, mem := scFill .ascii (dbListChannels rows net), rows := rows, conn := false }

/-- What happens to a network. -/
inductive ScOp where
  /-- a client's `JOIN names [keys]` -/
  | join (names : Str) (keys : Option Str)
  /-- a client's `PART names [reason]`; `lastID` is the newest message of the store -/
  | part (names reason lastID : Str)
  /-- `channel create` -/
  | create (name : Str) (conf : ChanSettings)
  /-- `channel update` -/
  | update (name : Str) (conf : ChanSettings) (detached : Option Bool) (lastID : Str)
  /-- `channel delete` -/
  | delete (name : Str)
  | autoDetach (name lastID : Str)
  /-- the same for a timer of a connection of the `i`-th network this one has replaced -/
  | lateDetach (i : Nat) (name lastID : Str)
  | reattach (name : Str)
  /-- the server says that the user joined, parted or was kicked -/
  | serverJoin (name : Str)
  | serverPart (name : Str)
  | serverKick (name : Str)
  | connected
  | disconnected
  /-- the server announces its case mapping -/
  | casemapping (cm : CaseMapping)
  /-- the settings of the network are changed -/
  | networkUpdated
  /-- the bouncer is restarted -/
  | restarted
deriving Repr

/-- One event of the user's loop. -/
def scStep (isChan : Str → Bool) (net : Nat) (st : ScState) : ScOp → ScState
  | .join names keys => scJoin isChan net st names keys
  | .part names reason lastID => scPart net lastID st names reason
  | .create name conf => scCreate isChan net st name conf
  | .update name conf detached lastID => scUpdate net lastID st name conf detached
  | .delete name => scDelete st name
  | .autoDetach name lastID => scAutoDetach net lastID st name
  | .lateDetach i name lastID => scLateDetach net lastID st i name
  | .reattach name => scReattach net st name
  -- upstream.go:1198-1227 (JOIN), 1236-1260 (PART), 1268-1288 (KICK): only `uc.channels`
  | .serverJoin _ => st
  | .serverPart _ => st
  | .serverKick _ => st
  -- user.go:643-650
  | .connected => { st with conn := true }
  -- user.go:895-896
  | .disconnected => { st with conn := false }
  -- user.go:408-410
  | .casemapping cm => { st with cm := cm, mem := scFill cm (st.mem.map (·.2)) }
  -- user.go:1122-1127, 1133-1136
  | .networkUpdated =>
    { st with cm := .ascii, mem := scFill .ascii (st.mem.map (·.2)), conn := false, old := (st.cm, st.mem) :: st.old }
  | .restarted => scLoad net st.rows

/-- A history, oldest event first. -/
def scRun (isChan : Str → Bool) (net : Nat) (st : ScState) (ops : List ScOp) : ScState :=
  ops.foldl (scStep isChan net) st

/-- upstream.go:932-938 — the channels and keys given to `GenerateJoin` once registered. -/
def scRejoin (st : ScState) : List (Str × Str) := st.mem.map (fun p => (p.2.name, p.2.key))

end Verif.Model
