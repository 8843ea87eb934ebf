import Verif.Model.Backlog

/-! # Model of detached channels (user.go:320-387, 464-467, 709-719; upstream.go:85-115, 676-704, 1172-1289,
1857-1869, 2184-2248; downstream.go:1662-1710, 1914-2032, 2519; service.go:1494-1540)

One saved channel of one network.  What is modelled of the message store is as in Backlog: a message ID is a
position in the log of the channel's PRIVMSGs and NOTICEs.  The output is what every client attached to the
network is sent (one that has not enabled draft/chathistory). -/

namespace Verif.Model

/-- database/database.go:234-242. -/
inductive MsgFilter where
  | default
  | none
  | highlight
  | message
deriving DecidableEq, Repr

/-- The settings of a saved channel, database/database.go:244-256. -/
structure ChanConf where
  relayDetached : MsgFilter
  reattachOn : MsgFilter
  detachAfter : Nat
  detachOn : MsgFilter
deriving DecidableEq, Repr

/-- upstream.go:85-97 — a joined channel: whether RPL_ENDOFNAMES has been received, and the time at which
its auto-detach timer goes off. -/
structure UChan where
  complete : Bool
  timer : Option Nat
deriving DecidableEq, Repr

/-- What the attached clients are sent about the channel. -/
inductive DtOut where
  /-- the `i`-th message of the log, as it arrives -/
  | send (i : Nat)
  /-- a TAGMSG, as it arrives -/
  | sendTag
  /-- a notice by the bouncer's service quoting the `i`-th message -/
  | relay (highlight : Bool) (i : Nat)
  /-- the `i`-th message of the log, from the store -/
  | replay (i : Nat)
  /-- PART -/
  | part
  /-- JOIN -/
  | join
  /-- topic, read marker and names -/
  | chanState
deriving DecidableEq, Repr

/-- One saved channel. -/
structure DtState (M : Type) where
  conf : ChanConf
  /-- some client is attached to the network -/
  clients : Bool
  detached : Bool
  /-- DetachedInternalMsgID -/
  mark : Option Nat
  log : List M
  /-- the joined channel, if the network is connected and the channel joined -/
  joined : Option UChan
  /-- running timers of joined-channel objects that have been dropped -/
  stray : List Nat
  /-- eventChannelDetach events in the user's event queue -/
  queued : Nat
  now : Nat
deriving DecidableEq, Repr

variable {M : Type}

/-- upstream.go:99-115 — `updateAutoDetach` (`0`: only stop the timer).  A timer that has already fired has
its event in the queue, which stopping does not remove. -/
def updateAutoDetach (now dur : Nat) (u : UChan) : UChan :=
  { u with timer := if dur = 0 then .none else some (now + dur) }

/-- upstream.go:2238-2248 — `updateChannelAutoDetach`. -/
def updateChannelAutoDetach (st : DtState M) : DtState M :=
  if st.detached then st
  else { st with joined := st.joined.map (updateAutoDetach st.now st.conf.detachAfter) }

/-- user.go:320-352 — `detach`. -/
def detach (st : DtState M) : DtState M × List DtOut :=
  if st.detached then (st, [])
  else
    ({ st with detached := true, mark := some st.log.length, joined := st.joined.map (updateAutoDetach st.now 0) },
      if st.clients then [.part] else [])

/-- user.go:354-387, downstream.go:3426-3429, 1662-1696 — `attach`; `none` is a panic. -/
def attach (limit : Nat) (st : DtState M) : Option (DtState M × List DtOut) :=
  if !st.detached then some (st, [])
  else
    let st' := updateChannelAutoDetach { st with detached := false, mark := Option.none }
    if st.clients then
      match st.joined with
      | some u =>
        if u.complete then
          some (st', [.join, .chanState] ++ (match st.mark with
            | some p => (latestAfter st.log.length p limit).map .replay
            | Option.none => []))
        else Option.none
      | Option.none =>
        some (st', [.join] ++ (match st.mark with
          | some p => (latestAfter st.log.length p limit).map .replay
          | Option.none => []))
    else some (st', [])

/-- user.go:464-467 — `detachedMessageNeedsRelay`. -/
def detachedMessageNeedsRelay (f : MsgFilter) (highlight : Bool) : Bool :=
  decide (f = .message) || ((decide (f = .highlight) || decide (f = .default)) && highlight)

/-- upstream.go:2184-2203 — `produce`. -/
def dtProduce (st : DtState M) (m : M) : DtState M × List DtOut :=
  ({ st with log := st.log ++ [m] }, if st.clients && !st.detached then [.send st.log.length] else [])

/-- upstream.go:1857-1869 — `handleDetachedMessage`. -/
def handleDetachedMessage (limit : Nat) (st : DtState M) (highlight : Bool) : Option (DtState M × List DtOut) :=
  let relay := if st.clients && detachedMessageNeedsRelay st.conf.relayDetached highlight then
    [DtOut.relay highlight st.log.length] else []
  if st.conf.reattachOn = .message ∨ (st.conf.reattachOn = .highlight ∧ highlight) then
    (attach limit st).map (fun r => (r.1, relay ++ r.2))
  else some (st, relay)

/-- upstream.go:676-704 — a PRIVMSG or NOTICE for the channel. -/
def dtReceive (limit : Nat) (st : DtState M) (m : M) (self highlight : Bool) : Option (DtState M × List DtOut) :=
  if self then some (dtProduce st m)
  else
    (if st.detached then handleDetachedMessage limit st highlight else some (st, [])).map (fun r =>
      let st' := if r.1.conf.detachOn = .message ∨ r.1.conf.detachOn = .default ∨
          (r.1.conf.detachOn = .highlight ∧ highlight) then updateChannelAutoDetach r.1 else r.1
      let p := dtProduce st' m
      (p.1, r.2 ++ p.2))

/-- What happens to the channel. -/
inductive DtOp (M : Type) where
  /-- a PRIVMSG or NOTICE from the server; `self`: sent by our nick -/
  | recv (m : M) (self highlight : Bool)
  /-- a TAGMSG from the server (not one that is kept) -/
  | recvTag
  /-- a message sent by a client, to a server without echo-message -/
  | own (m : M)
  /-- PART with the reason "detach" -/
  | cmdDetach
  /-- JOIN by a client -/
  | cmdAttach
  /-- channel update, without -detached -/
  | configure (conf : ChanConf)
  /-- JOIN, RPL_ENDOFNAMES, PART and KICK of our nick by the server -/
  | srvJoin
  | srvEndOfNames
  | srvPart
  | srvKick
  /-- the connection to the server is lost -/
  | disconnect
  /-- the settings of the network are changed: a new network object, with a copy of the channel's record, takes
  the place of the old one -/
  | update
  /-- time passes, timers go off -/
  | tick (n : Nat)
  /-- the event loop processes an eventChannelDetach -/
  | deliver

/-- Timers that are due fire: upstream.go:109-114 queues an event. -/
def dtTick (st : DtState M) (n : Nat) : DtState M :=
  let now := st.now + n
  let due := match st.joined with
    | some ⟨_, some d⟩ => decide (d ≤ now)
    | _ => false
  { st with
    now := now
    joined := if due then st.joined.map (fun u => { u with timer := Option.none }) else st.joined
    stray := st.stray.filter (fun d => decide (now < d))
    queued := st.queued + (if due then 1 else 0) + (st.stray.filter (fun d => decide (d ≤ now))).length }

/-- The timer of a joined-channel object that is dropped without being stopped. -/
def dropTimer (st : DtState M) : List Nat :=
  (st.joined.bind (·.timer)).toList ++ st.stray

/-- One event; `none` is a panic. -/
def dtStep (limit : Nat) (st : DtState M) : DtOp M → Option (DtState M × List DtOut)
  | .recv m self highlight => dtReceive limit st m self highlight
  | .recvTag => some (st, if st.clients && !st.detached then [.sendTag] else [])
  -- downstream.go:2517, 2519
  | .own m =>
    let r := dtProduce st m
    some (updateChannelAutoDetach r.1, r.2)
  -- downstream.go:2002-2005
  | .cmdDetach => some (detach st)
  -- downstream.go:1966-1973
  | .cmdAttach => attach limit st
  -- service.go:1518, 1530-1532
  | .configure conf => some (updateChannelAutoDetach { st with conf := conf }, [])
  -- upstream.go:1203-1211: a new object replaces the old one, if any
  | .srvJoin => some (updateChannelAutoDetach { st with joined := some ⟨false, Option.none⟩, stray := dropTimer st }, [])
  -- upstream.go:1500-1523
  | .srvEndOfNames =>
    some ({ st with joined := st.joined.map (fun u => { u with complete := true }) },
      if st.clients && !st.detached && st.joined.any (fun u => !u.complete) then [.chanState] else [])
  -- upstream.go:1238-1240: the timer is stopped
  | .srvPart => some ({ st with joined := Option.none }, [])
  -- upstream.go:1268-1270: the timer is not stopped
  | .srvKick => some ({ st with joined := Option.none, stray := dropTimer st }, [])
  -- user.go:901-903
  | .disconnect => some ({ st with joined := Option.none }, [])
  -- user.go:1122-1161: the record is copied (1124-1127), the connection dropped (1133-1137).  A timer of the old
  -- connection, or an event it has queued, now acts on the record of the old network object (user.go:709-719);
  -- what that does to the database is modelled in SavedChans (`scLateDetach`)
  | .update => some ({ st with joined := Option.none, stray := [], queued := 0 }, [])
  | .tick n => some (dtTick st n, [])
  -- user.go:709-719
  | .deliver =>
    if st.queued = 0 then some (st, [])
    else some (detach { st with queued := st.queued - 1 })

/-- A history; `none` if some event makes the user's goroutine panic. -/
def dtRun (limit : Nat) (st : DtState M) : List (DtOp M) → Option (DtState M × List DtOut)
  | [] => some (st, [])
  | op :: ops =>
    match dtStep limit st op with
    | Option.none => Option.none
    | some r => (dtRun limit r.1 ops).map (fun r' => (r'.1, r.2 ++ r'.2))

end Verif.Model
