import Verif.Model.GenMsg

/-! # Model of how long the bouncer waits for clients to log in and for servers to let it in

downstream.go:1712-1761 (`runUntilRegistered`), conn.go:122-185, 216-250 (the queue of a connection, its writer and its
shutdown), user.go:221-266 (`runConn`), upstream.go:240-243, 1991-2083 (`connectToUpstream`, `register`,
`runUntilRegistered`), 923-942 (the saved channels are joined), server.go:34-40.

Time is in seconds.  Simplifications: a goroutine that can go on does so at once: the clock stands still until all
goroutines wait for something (`ptIdle`, `pvIdle`), and no deadline is skipped.  What the messages of a client do while it
logs in is left open: the goroutine of the client may send anything at any time, and may log the client in or refuse it at
any time (C27).  The rate limit of connections to servers (C114) is left out: the writer may take a message at any time. -/

namespace Verif.Model

/-- conn.go:122 — the capacity of the queue of a connection. -/
def ptCap : Nat := 64

/-- downstream.go:1724-1728. -/
def timedOutMsg : Msg := ⟨b!"ERROR", [b!"Connection registration timed out"]⟩

/-! ## Clients -/

/-- The context of `runUntilRegistered`. -/
inductive PtCtx where
  | live
  | expired
  /-- `runUntilRegistered` has returned -/
  | cancelled
deriving DecidableEq, Repr

/-- downstream.go:1717-1731 — the goroutine that waits for the deadline. -/
inductive PtWatch where
  | waiting
  /-- `SendMessage`, until this time -/
  | warning (until_ : Nat)
  /-- `Shutdown`, until this time -/
  | shutting (until_ : Nat)
  | over
deriving DecidableEq, Repr

/-- conn.go:132-167 — the goroutine that writes. -/
inductive PtWriter where
  | idle
  /-- `WriteMessage`, with this deadline -/
  | writing (m : Msg) (until_ : Nat)
deriving DecidableEq, Repr

/-- The goroutine that serves the client. -/
inductive PtMain where
  | registering
  | registered
  | refused
deriving DecidableEq, Repr

structure PtState where
  now : Nat
  deadline : Nat
  ctx : PtCtx
  watch : PtWatch
  main : PtMain
  /-- `none` asks the writer to close the connection -/
  queue : List (Option Msg)
  writer : PtWriter
  closed : Bool
  /-- what the client was sent -/
  sent : List Msg
  /-- a message could not be written, or the queue had no place for the warning -/
  troubled : Bool
deriving DecidableEq, Repr

inductive PtOp where
  | tick (d : Nat)
  /-- the goroutine of the client sends a message (conn.go:216-230) -/
  | say (m : Msg)
  /-- downstream.go:1746-1747 -/
  | register
  /-- downstream.go:1733-1735, 1742, 1748-1754 -/
  | refuse
  /-- the deadline of the context has passed -/
  | expire
  /-- downstream.go:1718-1720 -/
  | notice
  /-- downstream.go:1723-1727 -/
  | warn
  /-- conn.go:227-228 -/
  | noPlace
  /-- downstream.go:1728, conn.go:234-240 -/
  | shut
  /-- conn.go:241-248 -/
  | force
  /-- conn.go:141-148 -/
  | take
  /-- conn.go:158 succeeds -/
  | wrote
  /-- conn.go:158-161 fails -/
  | stuck
  /-- the client closes the connection -/
  | hangUp
deriving DecidableEq, Repr

/-- downstream.go:1713, server.go:40 — a client has connected. -/
def ptInit (now : Nat) : PtState := ⟨now, now + 30, .live, .waiting, .registering, [], .idle, false, [], false⟩

/-- All goroutines wait, and time may pass up to this moment. -/
def ptIdle (st : PtState) (d : Nat) : Prop :=
  (st.ctx = .live → st.now + d ≤ st.deadline) ∧
  ¬(st.ctx = .expired ∧ st.watch = .waiting) ∧
  (∀ u, st.watch = .warning u ∨ st.watch = .shutting u → st.closed = false ∧ st.queue.length = ptCap ∧ st.now + d ≤ u) ∧
  (st.closed = false → st.writer = .idle → st.queue = []) ∧
  (∀ m u, st.closed = false → st.writer = .writing m u → st.now + d ≤ u)

instance (st : PtState) (d : Nat) : Decidable (ptIdle st d) := by
  unfold ptIdle
  have h1 : Decidable (∀ u, st.watch = .warning u ∨ st.watch = .shutting u →
      st.closed = false ∧ st.queue.length = ptCap ∧ st.now + d ≤ u) := by
    cases h : st.watch with
    | waiting => exact isTrue (fun u hu => by rcases hu with e | e <;> cases e)
    | over => exact isTrue (fun u hu => by rcases hu with e | e <;> cases e)
    | warning v =>
      refine decidable_of_iff (st.closed = false ∧ st.queue.length = ptCap ∧ st.now + d ≤ v) ⟨?_, fun h => h v (.inl rfl)⟩
      intro h u hu; rcases hu with e | e <;> cases e; exact h
    | shutting v =>
      refine decidable_of_iff (st.closed = false ∧ st.queue.length = ptCap ∧ st.now + d ≤ v) ⟨?_, fun h => h v (.inr rfl)⟩
      intro h u hu; rcases hu with e | e <;> cases e; exact h
  have h2 : Decidable (∀ m u, st.closed = false → st.writer = .writing m u → st.now + d ≤ u) := by
    cases h : st.writer with
    | idle => exact isTrue (fun m u _ e => by cases e)
    | writing m v =>
      refine decidable_of_iff (st.closed = false → st.now + d ≤ v) ⟨?_, fun h hc => h m v hc rfl⟩
      intro h m' u hc e; cases e; exact h hc
  infer_instance

/-- downstream.go:1714 — `cancel` when `runUntilRegistered` returns. -/
def ptCancel : PtCtx → PtCtx
  | .live => .cancelled
  | c => c

/-- One step; `none`: it cannot be taken. -/
def ptStep (st : PtState) : PtOp → Option PtState
  | .tick d => if ptIdle st d then some { st with now := st.now + d } else none
  | .say m =>
    if st.closed then some st
    else if st.queue.length < ptCap then some { st with queue := st.queue ++ [some m] } else none
  | .register => if st.main = .registering then some { st with main := .registered, ctx := ptCancel st.ctx } else none
  | .refuse => if st.main = .registering then some { st with main := .refused, ctx := ptCancel st.ctx } else none
  | .expire => if st.ctx = .live ∧ st.deadline ≤ st.now then some { st with ctx := .expired } else none
  | .notice =>
    if st.watch = .waiting then
      match st.ctx with
      | .live => none
      | .expired => some { st with watch := .warning (st.now + 3) }
      | .cancelled => some { st with watch := .over }
    else none
  | .warn =>
    match st.watch with
    | .warning u =>
      if st.closed then some { st with watch := .shutting u }
      else if st.queue.length < ptCap then some { st with watch := .shutting u, queue := st.queue ++ [some timedOutMsg] }
      else none
    | _ => none
  | .noPlace =>
    match st.watch with
    | .warning u => if u ≤ st.now then some { st with watch := .shutting u, troubled := true } else none
    | _ => none
  | .shut =>
    match st.watch with
    | .shutting _ =>
      if st.closed then some { st with watch := .over }
      else if st.queue.length < ptCap then some { st with watch := .over, queue := st.queue ++ [none] }
      else none
    | _ => none
  | .force =>
    match st.watch with
    | .shutting u => if u ≤ st.now then some { st with watch := .over, closed := true, troubled := true } else none
    | _ => none
  | .take =>
    if st.closed then none
    else
      match st.writer, st.queue with
      | .idle, some m :: q => some { st with writer := .writing m (st.now + 10), queue := q }
      | .idle, none :: q => some { st with closed := true, queue := q }
      | _, _ => none
  | .wrote =>
    match st.writer with
    | .writing m _ => if st.closed then none else some { st with writer := .idle, sent := st.sent ++ [m] }
    | _ => none
  | .stuck =>
    match st.writer with
    | .writing _ _ => some { st with writer := .idle, closed := true, troubled := true }
    | _ => none
  | .hangUp => some { st with closed := true, troubled := true }

/-- A run; `none` if a step cannot be taken. -/
def ptRun (st : PtState) : List PtOp → Option PtState
  | [] => some st
  | op :: ops => match ptStep st op with
    | some st' => ptRun st' ops
    | none => none

/-! ## Servers -/

/-- user.go:231-262. -/
inductive PvPhase where
  | dialling
  /-- waits for the server's welcome -/
  | registering
  /-- sends these (upstream.go:931-941, 2073-2080) -/
  | speaking (todo : List Msg)
  | reading
  | failed
deriving DecidableEq, Repr

structure PvState where
  now : Nat
  start : Nat
  phase : PvPhase
  queue : List Msg
  /-- written by the writer -/
  sent : List Msg
  /-- when `runUntilRegistered` has returned -/
  ready : Nat
deriving DecidableEq, Repr

inductive PvOp where
  | tick (d : Nat)
  | dialled
  | dialFailed
  /-- the server's welcome; `joins` are the lines that join the saved channels, `commands` the connect commands -/
  | welcome (joins commands : List Msg)
  /-- conn.go:222-223 -/
  | put
  /-- conn.go:226-227: the context has expired -/
  | drop
  | finish
  /-- the writer writes a message -/
  | write
  /-- reading fails -/
  | lost
deriving DecidableEq, Repr

/-- user.go:228 -/
def pvInit (now : Nat) : PvState := ⟨now, now, .dialling, [], [], 0⟩

/-- Time may pass: dialling ends after 15 seconds (upstream.go:243, server.go:34), and messages are queued at once if there
is room; nothing limits how long a welcome is waited for. -/
def pvIdle (st : PvState) (d : Nat) : Prop :=
  match st.phase with
  | .dialling => st.now + d ≤ st.start + 15
  | .speaking todo => todo ≠ [] ∧ st.queue.length = ptCap ∧ st.now + d ≤ st.start + 60
  | _ => True

instance (st : PvState) (d : Nat) : Decidable (pvIdle st d) := by
  unfold pvIdle; cases st.phase <;> infer_instance

/-- One step; `none`: it cannot be taken. -/
def pvStep (st : PvState) : PvOp → Option PvState
  | .tick d => if pvIdle st d then some { st with now := st.now + d } else none
  | .dialled => if st.phase = .dialling then some { st with phase := .registering } else none
  | .dialFailed => if st.phase = .dialling then some { st with phase := .failed } else none
  | .welcome joins commands =>
    if st.phase = .registering then some { st with phase := .speaking (joins ++ commands) } else none
  | .put =>
    match st.phase with
    | .speaking (m :: todo) =>
      if st.queue.length < ptCap then some { st with phase := .speaking todo, queue := st.queue ++ [m] } else none
    | _ => none
  | .drop =>
    match st.phase with
    | .speaking (_ :: todo) => if st.start + 60 ≤ st.now then some { st with phase := .speaking todo } else none
    | _ => none
  | .finish => if st.phase = .speaking [] then some { st with phase := .reading, ready := st.now } else none
  | .write =>
    match st.queue with
    | m :: q => some { st with queue := q, sent := st.sent ++ [m] }
    | [] => none
  | .lost => some { st with phase := .failed }

/-- A run. -/
def pvRun (st : PvState) : List PvOp → Option PvState
  | [] => some st
  | op :: ops => match pvStep st op with
    | some st' => pvRun st' ops
    | none => none

end Verif.Model
