import Verif.Model.Backoff
import Verif.Model.UpReg

/-! # Model of the goroutine that keeps a network connected

user.go:196-203 (`isStopped`), 221-318 (`runConn`, `run`, `stop`), upstream.go:57-83 (`registrationError`), 2056-2098
(`runUntilRegistered`, `readMessages`) and, for what clients are told, user.go:643-690 and 895-930.

The time is a number of nanoseconds.  Each step is one thing the goroutine does, or something that happens to it: an
answer of the server, the clock, the network being removed.  `time.Sleep` wakes at its time or later.  Texts of errors
that come from the library (dialling, reading) are parameters.  The limit of a minute for connecting
(user.go:228) is a failure to dial.  What other goroutines of the account do is `Model/UserLoop.lean`. -/

namespace Verif.Model

/-- The settings of a network that its goroutine uses: those of the registration, `ConnectCommands`, and the
parameters of the delays (server.go:31-33). -/
structure RcConf where
  net : UrNet
  commands : List Str
  min : Nat
  max : Nat
  jitter : Nat

/-- Where the goroutine is. -/
inductive RcPhase where
  /-- started (user.go:267) -/
  | fresh
  /-- at the top of the loop (user.go:281) -/
  | top
  /-- user.go:285-289, sleeping until this time; until now, if there is nothing to wait for -/
  | sleep (until' : Nat)
  /-- user.go:231 -/
  | dial
  /-- user.go:252-255, upstream.go:2056-2070 -/
  | reg (st : UrState)
  /-- user.go:257: it has to send `eventUpstreamConnected` -/
  | tellConn
  /-- user.go:262 -/
  | reading
  /-- user.go:258-260: it has to send `eventUpstreamDisconnected`; the error, if `readMessages` has failed -/
  | tellDisc (err : Option Str)
  /-- user.go:301: it has to send `eventUpstreamConnectionError`; is the error temporary? -/
  | tellErr (text : Str) (temp : Bool)
  | ended
deriving DecidableEq, Repr

/-- What there is to say about the past: an attempt to connect begins, and how attempts end. -/
inductive RcItem where
  | attempt (at' : Nat)
  /-- the server has accepted the registration -/
  | welcomed
  /-- the server has refused it with this message -/
  | refused (m : Msg)
  /-- any other error before the registration is complete -/
  | failed (text : Str)
  /-- the connection is lost after the registration -/
  | lost (text : Str)
  /-- the server has closed the connection after the registration -/
  | closed
deriving DecidableEq, Repr

structure RcState where
  now : Nat
  /-- `net.stopped` is closed -/
  stopped : Bool
  /-- the context is cancelled (user.go:272-276) -/
  cancelled : Bool
  phase : RcPhase
  back : Backoffer
  /-- the zero time, before the first attempt, is `none` -/
  lastTry : Option Nat
  log : List RcItem
  /-- what has been sent on the connection, if there is one -/
  sent : List Msg
  /-- the errors that were reported to the loop, and the connections (`none`) -/
  told : List (Option Str)
deriving DecidableEq, Repr

/-- What happens. -/
inductive RcOp where
  | tick (d : Nat)
  /-- user.go:314-318, by the event loop -/
  | stop
  /-- user.go:273-276, by another goroutine -/
  | cancel
  /-- user.go:267-270; `on`: the account and the network are enabled -/
  | start (on : Bool)
  /-- user.go:282-286; `r`: the random part of the delay -/
  | top (r : Nat)
  /-- user.go:288-291 -/
  | wake
  | dialled
  | dialFailed (text : Str)
  /-- a message of the server during the registration; `text`: the error, if the message cannot be handled -/
  | server (ord : List Str) (m : Msg) (text : Str)
  /-- reading fails, also at the end of the data before the registration is complete -/
  | lost (text : Str)
  /-- the end of the data (upstream.go:2088-2089) -/
  | eof
  /-- the loop takes the event -/
  | sent
deriving DecidableEq, Repr

/-- upstream.go:65-70 — `Reason`. -/
def regReason (m : Msg) : Str := m.params.getLast?.getD m.command

/-- upstream.go:61-63 — `Error`. -/
def regErrorText (m : Msg) : Str := b!"registration error (" ++ m.command ++ b!"): " ++ regReason m

/-- upstream.go:72-83 — `Temporary`; `none`: the program panics. -/
def regTemporary (m : Msg) : Option Bool :=
  if m.command = b!"464" ∨ m.command = b!"432" then some false
  else if m.command = b!"FAIL" then m.params[1]?.map (fun c => decide (c ≠ b!"ACCOUNT_REQUIRED"))
  else some true

/-- upstream.go:1777-1785, 1818-1848 — is the error with which this message ends the connection (see `upRegister`) a
`registrationError`? -/
def isRegError (m : Msg) : Bool :=
  decide (m.command = b!"433" ∧ 2 ≤ m.params.length) || decide (m.command ∈ registrationErrors) ||
  decide (m.command = b!"FAIL" ∧ 2 ≤ m.params.length)

/-- user.go:254, 301, upstream.go:2066-2067 — the text of the event for an error during the registration. -/
def regFailText (text : Str) : Str := b!"connection error: failed to register: " ++ text

/-- user.go:262-265, 301. -/
def readFailText (text : Str) : Str := b!"connection error: failed to handle messages: " ++ text

/-- user.go:231-234, 301. -/
def dialFailText (text : Str) : Str := b!"connection error: failed to connect: " ++ text

/-- upstream.go:2062-2069, user.go:252-302 — the message ends the registration with an error.  A panic of
`Temporary` ends the program: `none`. -/
def rcRefuse (st : RcState) (m : Msg) (text : Str) : Option RcState :=
  if isRegError m then
    match regTemporary m with
    | some temp => some { st with phase := .tellErr (regFailText (regErrorText m)) temp, log := st.log ++ [.refused m] }
    | none => none
  else some { st with phase := .tellErr (regFailText text) true, log := st.log ++ [.failed text] }

/-- upstream.go:2056-2083 — a message during the registration; once it is complete the connect commands are sent
(`parse`: go-irc `ParseMessage`). -/
def rcServer (parse : Str → Option Msg) (cf : RcConf) (st : RcState) (ur : UrState) (ord : List Str) (m : Msg) (text : Str) :
    Option RcState :=
  let r := upRegister cf.net ord ur m
  if r.2.2 = false then rcRefuse { st with sent := st.sent ++ r.2.1 } m text
  else if r.1.registered then
    some { st with phase := .tellConn, log := st.log ++ [.welcomed],
                   sent := st.sent ++ r.2.1 ++ cf.commands.filterMap parse }
  else some { st with phase := .reg r.1, sent := st.sent ++ r.2.1 }

/-- user.go:285 — the time until which to sleep, after the delay `d` of the back-off. -/
def rcUntil (st : RcState) (d : Nat) : Nat :=
  match st.lastTry with
  | none => st.now
  | some t => Nat.max st.now (t + d)

/-- user.go:257-265, 293-310 — an event has been taken by the loop. -/
def rcSent (st : RcState) : Option RcState :=
  match st.phase with
  | .tellConn => some { st with phase := .reading, told := st.told ++ [none] }
  | .tellDisc none => some { st with phase := .top, back := st.back.reset }
  | .tellDisc (some text) => some { st with phase := .tellErr (readFailText text) true }
  | .tellErr text temp =>
    some { st with phase := if temp then .top else .ended, told := st.told ++ [some text] }
  | _ => none

/-- user.go:221-318 — one step; `none`: it cannot be taken. -/
def rcStep (parse : Str → Option Msg) (cf : RcConf) (st : RcState) : RcOp → Option RcState
  | .tick d => some { st with now := st.now + d }
  | .stop => some { st with stopped := true }
  | .cancel => if st.stopped then some { st with cancelled := true } else none
  | .start on =>
    match st.phase with
    | .fresh => some { st with phase := if on then .top else .ended }
    | _ => none
  | .top r =>
    match st.phase with
    | .top =>
      if st.stopped then some { st with phase := .ended }
      else
        let n := st.back.next r
        some { st with phase := .sleep (rcUntil st n.2), back := n.1 }
    | _ => none
  | .wake =>
    match st.phase with
    | .sleep u =>
      if u ≤ st.now then
        some { st with phase := .dial, lastTry := some st.now, log := st.log ++ [.attempt st.now] }
      else none
    | _ => none
  | .dialled =>
    match st.phase with
    | .dial =>
      if st.cancelled then none
      else
        let r := urStart cf.net
        some { st with phase := .reg r.1, sent := r.2 }
    | _ => none
  | .dialFailed text =>
    match st.phase with
    | .dial => some { st with phase := .tellErr (dialFailText text) true, log := st.log ++ [.failed text] }
    | _ => none
  | .server ord m text =>
    match st.phase with
    | .reg ur => rcServer parse cf st ur ord m text
    | _ => none
  | .lost text =>
    match st.phase with
    | .reg _ => some { st with phase := .tellErr (regFailText text) true, log := st.log ++ [.failed text] }
    | .reading => some { st with phase := .tellDisc (some text), log := st.log ++ [.lost text] }
    | _ => none
  | .eof =>
    match st.phase with
    | .reading => some { st with phase := .tellDisc none, log := st.log ++ [.closed] }
    | _ => none
  | .sent => rcSent st

/-- A run; `none` if a step cannot be taken. -/
def rcRun (parse : Str → Option Msg) (cf : RcConf) (st : RcState) : List RcOp → Option RcState
  | [] => some st
  | op :: ops =>
    match rcStep parse cf st op with
    | some st' => rcRun parse cf st' ops
    | none => none

/-- user.go:956-964, 279 — the goroutine is started at time `t`. -/
def rcInit (cf : RcConf) (t : Nat) : RcState :=
  ⟨t, false, false, .fresh, Backoffer.new cf.min cf.max cf.jitter, none, [], [], []⟩

/-! ## What clients are told -/

/-- The events of a network, in the order in which the loop handles them. -/
inductive RcEvent where
  | connected
  /-- user.go:895-930; `found`: the network has not been removed -/
  | disconnected (found : Bool)
  | error (text : Str)
  /-- the network is removed or replaced -/
  | stop
deriving DecidableEq, Repr

/-- A notice of the service to the clients of the network, without the name of the network. -/
inductive RcNotice where
  /-- "connected to …" -/
  | connected
  /-- "disconnected from …" -/
  | disconnected
  /-- "failed connecting/registering to …: " and this text -/
  | failed (text : Str)
deriving DecidableEq, Repr

/-- user.go:149-162 — `lastError` and `stopped`. -/
structure RcView where
  lastError : Option Str
  stopped : Bool
deriving DecidableEq, Repr

/-- user.go:643-690, 895-930 — an event, and the notices to a client of the network; `bn`: the client has enabled
soju.im/bouncer-networks. -/
def rcNotify (bn : Bool) (v : RcView) : RcEvent → RcView × List RcNotice
  | .connected => ({ v with lastError := none }, if bn then [] else [.connected])
  | .disconnected found => (v, if found ∧ v.lastError = none ∧ bn = false then [.disconnected] else [])
  | .error text =>
    ({ v with lastError := some text }, if v.stopped = false ∧ v.lastError ≠ some text then [.failed text] else [])
  | .stop => ({ v with stopped := true }, [])

/-- All events. -/
def rcNotices (bn : Bool) (v : RcView) : List RcEvent → List RcNotice
  | [] => []
  | e :: es => (rcNotify bn v e).2 ++ rcNotices bn (rcNotify bn v e).1 es

end Verif.Model
