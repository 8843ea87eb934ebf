/-! # Model of the end of the bouncer

server.go:379-402 (`Shutdown`), 227-246 (the goroutine that disables inactive accounts), 404-460 (`createUser`,
`addUserLocked`), 464-512 (`Handle`), 630-660 (`Serve`), 718-732 (`disableInactiveUsersLoop`), user.go:642 and 876-888
(the event loop and `eventStop`), cmd/soju/main.go:450-464 (the signals).

`Shutdown` closes the listeners, sends `eventStop` to every user with the lock of the server held, waits for the
goroutines counted by `stopWG` and closes the database.  Everything else goes on in the meantime, in any order.

Simplifications: a loop is in the table of users until its deferred function has run (shown for C54).  An event is
handled at once, or needs the lock of the server once (`getUser`, `user status`, `createUser`); commands that wait for
the loop of another user are the subject of C55.  A goroutine that has the lock for a moment only is one step.  The
goroutine that disables inactive accounts waits for the lock, and for other things for at most a minute
(server.go:739), which is not modelled. -/

namespace Verif.Model

/-- An event in the channel of a user. -/
inductive SdEv where
  | plain
  /-- handling it needs the lock of the server -/
  | table
  /-- `eventStop` -/
  | stop
deriving DecidableEq, Repr

/-- Where the goroutine of a user is (server.go:442-457). -/
inductive SdAt where
  /-- waits for an event (user.go:642) -/
  | idle
  /-- is handling an event and waits for the lock of the server -/
  | wantLock
  /-- `run` has returned or panicked, the deferred function waits for the lock (server.go:449) -/
  | ended
  | gone
deriving DecidableEq, Repr

structure SdLoop where
  queue : List SdEv := []
  at_ : SdAt := .idle
  /-- `eventStop` was handled and the database accepted the delivery receipts (user.go:881-888) -/
  saved : Bool := false
deriving DecidableEq, Repr

/-- A goroutine in `Serve` (server.go:630-660). -/
inductive SdListener where
  | serving
  /-- the listener was closed, `Accept` will tell so -/
  | closed
  | gone
deriving DecidableEq, Repr

/-- The goroutine that disables inactive accounts (server.go:718-732). -/
inductive SdJanitor where
  | sleeping
  | wantLock
  | gone
deriving DecidableEq, Repr

/-- Where `Shutdown` is (server.go:379-402). -/
inductive SdPhase where
  /-- not called -/
  | up
  /-- has the lock, and has to send `eventStop` to these users (391-393) -/
  | stopping (rest : List Nat)
  /-- in `stopWG.Wait` (397) -/
  | waiting
  /-- `Wait` has returned -/
  | waited
  /-- the database is closed -/
  | down
deriving DecidableEq, Repr

structure SdState where
  phase : SdPhase := .up
  /-- the goroutines of the users, in the order they were started; a user is its position -/
  loops : List SdLoop := []
  listeners : List SdListener := []
  janitor : SdJanitor := .sleeping
deriving DecidableEq, Repr

/-- user.go:559 — the places in the channel of a user. -/
def sdCap : Nat := 64

/-- Whether the lock of the server is free: only `Shutdown` waits while it has it. -/
def sdFree (st : SdState) : Bool :=
  match st.phase with
  | .stopping _ => false
  | _ => true

/-- Whether the database is open (server.go:399). -/
def sdOpen (st : SdState) : Bool := decide (st.phase ≠ .down)

/-- Whether `stopCh` is closed (server.go:382). -/
def sdCalled (st : SdState) : Bool := decide (st.phase ≠ .up)

/-- The users in the table. -/
def sdUsers (st : SdState) : List Nat :=
  (List.range st.loops.length).filter (fun o => match st.loops[o]? with
    | some l => decide (l.at_ ≠ .gone)
    | none => false)

/-- `stopWG` has nothing to wait for: the users (server.go:440, 453), the listeners (640, 647), the goroutine that
disables inactive accounts (239-243). -/
def sdQuiet (st : SdState) : Bool :=
  st.loops.all (fun l => decide (l.at_ = .gone)) && st.listeners.all (fun l => decide (l = .gone)) &&
    decide (st.janitor = .gone)

inductive SdOp where
  /-- `Shutdown` is called, gets the lock and closes the listeners; `order`: how Go lists the map of users -/
  | call (order : List Nat)
  /-- it sends `eventStop` to the next user -/
  | sendStop
  /-- it releases the lock -/
  | unlock
  /-- `stopWG.Wait` returns -/
  | waitEnds
  /-- it closes the database and returns -/
  | closeDb
  /-- the loop of `o` takes its next event -/
  | take (o : Nat)
  /-- the loop of `o` gets the lock it waits for -/
  | look (o : Nat)
  /-- the deferred function of `o` gets the lock and ends -/
  | forget (o : Nat)
  /-- `Accept` fails because the listener is closed, `Serve` returns -/
  | serveEnds (i : Nat)
  /-- the goroutine that disables inactive accounts gets the lock -/
  | janitorLook
  /-- it sees that `stopCh` is closed -/
  | janitorEnds
  /-- a client, a server or another user sends an event to `o` -/
  | arrive (o : Nat) (ev : SdEv)
  /-- the loop of `o` panics, or cannot read the database -/
  | crash (o : Nat)
  /-- an account is created, by an administrator or for a client that has authenticated -/
  | create
  /-- `Serve` is called -/
  | serve
  /-- `Accept` fails otherwise -/
  | serveFails (i : Nat)
  /-- four hours have passed and there are inactive accounts -/
  | janitorWakes
deriving DecidableEq, Repr

/-- Change the loop of `o`. -/
def sdSet (st : SdState) (o : Nat) (l : SdLoop) : SdState := { st with loops := st.loops.set o l }

/-- One step; `none`: the goroutine cannot do it now. -/
def sdStep (st : SdState) : SdOp → Option SdState
  -- server.go:382-393
  | .call order =>
    if st.phase = .up ∧ order.isPerm (sdUsers st) = true then
      some { st with
        phase := .stopping order
        listeners := st.listeners.map (fun l => if l = .serving then .closed else l) }
    else none
  -- server.go:392
  | .sendStop =>
    match st.phase with
    | .stopping (o :: rest) =>
      match st.loops[o]? with
      | some l =>
        if l.queue.length < sdCap then some { sdSet st o { l with queue := l.queue ++ [.stop] } with phase := .stopping rest }
        else none
      | none => none
    | _ => none
  -- server.go:394
  | .unlock => if st.phase = .stopping [] then some { st with phase := .waiting } else none
  -- server.go:397
  | .waitEnds => if st.phase = .waiting ∧ sdQuiet st = true then some { st with phase := .waited } else none
  -- server.go:399-401
  | .closeDb => if st.phase = .waited then some { st with phase := .down } else none
  -- user.go:642, 876-888
  | .take o =>
    match st.loops[o]? with
    | some ⟨.plain :: q, .idle, s⟩ => some (sdSet st o ⟨q, .idle, s⟩)
    | some ⟨.table :: q, .idle, s⟩ => some (sdSet st o ⟨q, .wantLock, s⟩)
    | some ⟨.stop :: q, .idle, _⟩ => some (sdSet st o ⟨q, .ended, sdOpen st⟩)
    | _ => none
  -- server.go:420-433
  | .look o =>
    match st.loops[o]? with
    | some ⟨q, .wantLock, s⟩ => if sdFree st then some (sdSet st o ⟨q, .idle, s⟩) else none
    | _ => none
  -- server.go:449-453
  | .forget o =>
    match st.loops[o]? with
    | some ⟨q, .ended, s⟩ => if sdFree st then some (sdSet st o ⟨q, .gone, s⟩) else none
    | _ => none
  -- server.go:642-653
  | .serveEnds i =>
    if st.listeners[i]? = some .closed ∧ sdFree st = true then some { st with listeners := st.listeners.set i .gone } else none
  -- server.go:757-771
  | .janitorLook =>
    if st.janitor = .wantLock ∧ sdFree st = true then some { st with janitor := .sleeping } else none
  -- server.go:723-725
  | .janitorEnds =>
    if st.janitor = .sleeping ∧ sdCalled st = true then some { st with janitor := .gone } else none
  -- server.go:505-509
  | .arrive o ev =>
    match st.loops[o]? with
    | some l => if l.queue.length < sdCap then some (sdSet st o { l with queue := l.queue ++ [ev] }) else none
    | none => none
  -- server.go:444-447, user.go:604-637
  | .crash o =>
    match st.loops[o]? with
    | some ⟨q, .idle, s⟩ => some (sdSet st o ⟨q, .ended, s⟩)
    | _ => none
  -- server.go:404-418; the flag `shutdown` was looked at when the client connected (471-473), not here
  | .create => if sdFree st && sdOpen st then some { st with loops := st.loops ++ [{}] } else none
  -- server.go:636-640
  | .serve => if sdFree st then some { st with listeners := st.listeners ++ [.serving] } else none
  -- server.go:654-656
  | .serveFails i =>
    if st.listeners[i]? = some .serving ∧ sdFree st = true then some { st with listeners := st.listeners.set i .gone } else none
  -- server.go:726
  | .janitorWakes => if st.janitor = .sleeping then some { st with janitor := .wantLock } else none

/-- A schedule: every step must be possible when it is made. -/
def sdRun (st : SdState) : List SdOp → Option SdState
  | [] => some st
  | op :: ops => (sdStep st op).bind (fun st' => sdRun st' ops)

end Verif.Model
