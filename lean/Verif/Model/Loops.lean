/-! # Model of the event loops of several users and of what they wait for

user.go:595-893 (the event loop, whose channel has 64 places, user.go:559), service.go:1103-1134 (`user update` of
another user), service.go:1232-1279 (`user run`), user.go:823-874 (their events), downstream.go:2412-2430 and
service.go:1604-1612 (broadcasts), server.go:420-433 (`forEachUser`, `getUser`), downstream.go:628-633 (commands of
clients are given ten seconds).

A loop handles one event at a time.  While it executes a command it may have to wait: for the lock of the table of
users, for a place in the channel of another user, for the answer of another loop.  The steps of the loops
interleave in any way.

Simplifications: users are numbered, and none is created; a broadcast visits them in the order of their
numbers; commands that concern nobody else only print lines. -/

namespace Verif.Model

/-- A service command, or a message that makes a loop wait. -/
inductive LpCmd where
  /-- concerns no other user, prints some lines -/
  | plain (lines : Nat)
  /-- `user update <t>` (service.go:1051-1173) -/
  | update (t : Nat)
  /-- `user run <t> <command>` (service.go:1232-1279) -/
  | run (t : Nat) (c : LpCmd)
  /-- `user delete <t>` (service.go:1175-1225) -/
  | delete (t : Nat)
  /-- `server notice` (`svc`), or a message to all users of the bouncer -/
  | broadcast (svc : Bool)
deriving DecidableEq, Repr

/-- An event of a loop. -/
inductive LpEv where
  /-- a client sends a command -/
  | msg (c : LpCmd)
  /-- `eventUserUpdate`; `r`: the channel of the answer -/
  | upd (r : Nat)
  /-- `eventUserRun`; `r`: the channel of the messages -/
  | run (r : Nat) (c : LpCmd)
  | bcast
  /-- `eventStop` -/
  | stop
deriving DecidableEq, Repr

/-- What a loop is doing.  `k`: the command is executed for a `user run` whose messages go to this channel. -/
inductive LpSt where
  /-- waits for an event (user.go:642) -/
  | idle
  /-- waits for `s.lock` (server.go:420-433); `timed`: the context of the command has a deadline -/
  | lookup (c : LpCmd) (timed : Bool) (k : Option Nat)
  /-- waits for a place in the channel of `t` (service.go:1123-1127, 1254-1258) -/
  | sending (t : Nat) (ev : LpEv) (timed : Bool) (k : Option Nat)
  /-- waits for the answer to an update (service.go:1129) -/
  | waitUpd (r : Nat) (k : Option Nat)
  /-- waits for the messages of a command (service.go:1259-1278) -/
  | waitRun (r : Nat) (timed : Bool) (k : Option Nat)
  /-- has this many messages to send for a `user run`, the last one being the result (user.go:863-874) -/
  | printing (r : Nat) (n : Nat)
  /-- waits for the end of the loop of `t` (user.go:1279-1284) -/
  | waitDone (t : Nat) (timed : Bool) (k : Option Nat)
  /-- sends a broadcast to these users, with the lock held; `timed`: a deadline ends the wait -/
  | casting (rest : List Nat) (timed : Bool) (k : Option Nat)
  /-- has panicked, or has been stopped -/
  | dead
deriving DecidableEq, Repr

structure LpLoop where
  queue : List LpEv
  st : LpSt
deriving DecidableEq, Repr

structure LpState where
  loops : List LpLoop
  /-- the updates that have been answered; the channel has one place (service.go:1115), so that answering does not
  wait -/
  answered : List Nat
  /-- the messages in the channels of `user run`, and whether it is the last one; each channel has one place
  (service.go:1249) -/
  chan : List (Nat × Bool)
  lock : Option Nat
  /-- the number of the next channel -/
  next : Nat
deriving DecidableEq, Repr

/-- A command has been executed. -/
def lpFin : Option Nat → LpSt
  | none => .idle
  | some r => .printing r 1

/-- Loop `u` starts to execute a command. -/
def lpStart (u : Nat) (timed : Bool) (k : Option Nat) : LpCmd → LpSt
  | .plain n =>
    match k with
    | none => .idle
    | some r => .printing r (n + 1)
  | .update t => if t = u then lpFin k else .lookup (.update t) timed k
  | .run t c => if t = u then lpStart u timed k c else .lookup (.run t c) timed k
  | .delete t => .lookup (.delete t) timed k
  | .broadcast svc => .lookup (.broadcast svc) timed k

inductive LpOp where
  /-- a client of `u` sends a command -/
  | arrive (u : Nat) (c : LpCmd)
  /-- `u` takes an event -/
  | take (u : Nat)
  /-- `u` gets the lock of the table of users -/
  | look (u : Nat)
  /-- `u` has sent its event -/
  | send (u : Nat)
  /-- the deadline of the command of `u` passes before its event is sent -/
  | giveUp (u : Nat)
  /-- the deadline of the command of `u` passes before its event is handled -/
  | timeOut (u : Nat)
  /-- `u` gets the answer to its update -/
  | answer (u : Nat)
  /-- `u` sees that the loop it has stopped has ended -/
  | done (u : Nat)
  /-- `u` gets a message -/
  | recv (u : Nat)
  /-- `u` sends a message -/
  | print (u : Nat)
  /-- `u` sends its broadcast to the next user -/
  | cast (u : Nat)
  /-- `u` panics while it handles an event -/
  | crash (u : Nat)
deriving DecidableEq, Repr

/-- Put loop `u` into another state. -/
def lpSet (st : LpState) (u : Nat) (l : LpLoop) (s : LpSt) : LpState :=
  { st with loops := st.loops.set u { l with st := s } }

/-- Is this user in the table? -/
def lpKnown (st : LpState) (t : Nat) : Bool :=
  match st.loops[t]? with
  | none => false
  | some l => l.st ≠ .dead

/-- Put an event into the channel of `t`, if there is a place. -/
def lpPush (cap : Nat) (st : LpState) (t : Nat) (ev : LpEv) : Option LpState :=
  match st.loops[t]? with
  | none => none
  | some l =>
    if l.queue.length < cap then some { st with loops := st.loops.set t { l with queue := l.queue ++ [ev] } } else none

/-- The first message in channel `r`. -/
def lpGet (chan : List (Nat × Bool)) (r : Nat) : Option Bool := (chan.find? (fun m => m.1 = r)).map (·.2)

/-- The channel without its message. -/
def lpDrop (chan : List (Nat × Bool)) (r : Nat) : List (Nat × Bool) := chan.eraseP (fun m => m.1 = r)

/-- user.go:642-890 — loop `u` takes an event. -/
def lpTake (st : LpState) (u : Nat) (l : LpLoop) : Option LpState :=
  match l.st, l.queue with
  | .idle, ev :: rest =>
    let l' := { l with queue := rest }
    match ev with
    -- downstream.go:632: ten seconds
    | .msg c => some (lpSet st u l' (lpStart u true none c))
    | .upd r => some { lpSet st u l' .idle with answered := r :: st.answered }
    -- user.go:849: no deadline
    | .run r c => some (lpSet st u l' (lpStart u false (some r) c))
    | .bcast => some (lpSet st u l' .idle)
    -- user.go:875-890
    | .stop => some (lpSet st u l' .dead)
  | _, _ => none

/-- server.go:420-433, service.go:1110-1122, 1243-1253, downstream.go:2427 — loop `u` has the lock. -/
def lpLook (st : LpState) (u : Nat) (l : LpLoop) : Option LpState :=
  match l.st with
  | .lookup c timed k =>
    if st.lock.isSome then none
    else
      match c with
      | .update t =>
        if lpKnown st t then
          some { lpSet st u l (.sending t (.upd st.next) timed k) with next := st.next + 1 }
        else some (lpSet st u l (lpFin k))
      | .run t c =>
        if lpKnown st t then
          some { lpSet st u l (.sending t (.run st.next c) timed k) with next := st.next + 1 }
        else some (lpSet st u l (lpFin k))
      | .delete t =>
        if lpKnown st t then
          -- service.go:1203-1209: one's own deletion has no deadline
          some (lpSet st u l (.sending t .stop (timed && t ≠ u) k))
        else some (lpSet st u l (lpFin k))
      | .broadcast svc =>
        some { lpSet st u l (.casting (List.range st.loops.length) (svc && timed) k) with lock := some u }
      | .plain _ => some (lpSet st u l (lpFin k))
  | _ => none

/-- What `u` waits for once its event is sent. -/
def lpSent (t : Nat) (timed : Bool) (k : Option Nat) : LpEv → LpSt
  | .upd r => .waitUpd r k
  | .run r _ => .waitRun r timed k
  | .stop => .waitDone t timed k
  | _ => lpFin k

/-- service.go:1123-1127, 1254-1258, user.go:1270-1277. -/
def lpSend (cap : Nat) (st : LpState) (u : Nat) (l : LpLoop) : Option LpState :=
  match l.st with
  | .sending t ev timed k => lpPush cap (lpSet st u l (lpSent t timed k ev)) t ev
  | _ => none

/-- service.go:1124, 1255, 1607, user.go:1275 — the deadline has passed. -/
def lpGiveUp (st : LpState) (u : Nat) (l : LpLoop) : Option LpState :=
  match l.st with
  | .sending _ _ timed k => if timed then some (lpSet st u l (lpFin k)) else none
  | .casting _ timed k => if timed then some { lpSet st u l (lpFin k) with lock := none } else none
  | _ => none

/-- service.go:1261-1270, user.go:1282 — the deadline has passed; the event has been sent and will be handled. -/
def lpTimeOut (st : LpState) (u : Nat) (l : LpLoop) : Option LpState :=
  match l.st with
  | .waitRun _ timed k => if timed then some (lpSet st u l (lpFin k)) else none
  | .waitDone _ timed k => if timed then some (lpSet st u l (lpFin k)) else none
  | _ => none

/-- Has the loop of `t` ended? -/
def lpEnded (st : LpState) (t : Nat) : Bool :=
  match st.loops[t]? with
  | none => false
  | some l => l.st = .dead

/-- user.go:1271, 1280 — the loop that is being stopped has ended. -/
def lpDone (st : LpState) (u : Nat) (l : LpLoop) : Option LpState :=
  match l.st with
  | .sending t .stop _ k => if lpEnded st t then some (lpSet st u l (lpFin k)) else none
  | .waitDone t _ k => if lpEnded st t then some (lpSet st u l (lpFin k)) else none
  | _ => none

/-- service.go:1129. -/
def lpAnswer (st : LpState) (u : Nat) (l : LpLoop) : Option LpState :=
  match l.st with
  | .waitUpd r k => if st.answered.contains r then some (lpSet st u l (lpFin k)) else none
  | _ => none

/-- service.go:1271-1277. -/
def lpRecv (st : LpState) (u : Nat) (l : LpLoop) : Option LpState :=
  match l.st with
  | .waitRun r timed k =>
    match lpGet st.chan r with
    | none => none
    | some final =>
      let s := if final then lpFin k else .waitRun r timed k
      some { lpSet st u l s with chan := lpDrop st.chan r }
  | _ => none

/-- user.go:859-874. -/
def lpPrint (st : LpState) (u : Nat) (l : LpLoop) : Option LpState :=
  match l.st with
  | .printing r n =>
    match lpGet st.chan r with
    | some _ => none
    | none =>
      let s := if n ≤ 1 then .idle else .printing r (n - 1)
      some { lpSet st u l s with chan := st.chan ++ [(r, decide (n ≤ 1))] }
  | _ => none

/-- downstream.go:2427-2429, service.go:1604-1612. -/
def lpCast (cap : Nat) (st : LpState) (u : Nat) (l : LpLoop) : Option LpState :=
  match l.st with
  | .casting [] _ k => some { lpSet st u l (lpFin k) with lock := none }
  | .casting (t :: rest) timed k =>
    let st' := lpSet st u l (.casting rest timed k)
    if lpKnown st t then lpPush cap st' t .bcast else some st'
  | _ => none

/-- server.go:440-462 — loop `u` panics while it handles an event. -/
def lpCrash (st : LpState) (u : Nat) (l : LpLoop) : Option LpState :=
  match l.st, l.queue with
  | .idle, _ :: rest => some (lpSet st u { l with queue := rest } .dead)
  | _, _ => none

/-- One step; `cap`: the size of the channel of a loop; `none`: this step cannot be taken. -/
def lpStep (cap : Nat) (st : LpState) : LpOp → Option LpState
  | .arrive u c => lpPush cap st u (.msg c)
  | .take u => (st.loops[u]?).bind (lpTake st u)
  | .look u => (st.loops[u]?).bind (lpLook st u)
  | .send u => (st.loops[u]?).bind (lpSend cap st u)
  | .giveUp u => (st.loops[u]?).bind (lpGiveUp st u)
  | .timeOut u => (st.loops[u]?).bind (lpTimeOut st u)
  | .answer u => (st.loops[u]?).bind (lpAnswer st u)
  | .done u => (st.loops[u]?).bind (lpDone st u)
  | .recv u => (st.loops[u]?).bind (lpRecv st u)
  | .print u => (st.loops[u]?).bind (lpPrint st u)
  | .cast u => (st.loops[u]?).bind (lpCast cap st u)
  | .crash u => (st.loops[u]?).bind (lpCrash st u)

/-- A run; steps that cannot be taken are not taken. -/
def lpRun (cap : Nat) (st : LpState) : List LpOp → LpState
  | [] => st
  | op :: ops => lpRun cap ((lpStep cap st op).getD st) ops

/-- `n` users, nothing to do. -/
def lpInit (n : Nat) : LpState := ⟨List.replicate n ⟨[], .idle⟩, [], [], none, 0⟩

end Verif.Model
