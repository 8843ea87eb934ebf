import Verif.Model.GoStr

/-! # Model of the loops that accept connections (server.go, identd/identd.go)

What the listener of the operating system answers, one call of `Accept` after the other, is a list: when it is used up,
the loop waits.  Durations are in milliseconds. -/

namespace Verif.Model

/-- An answer of `Accept` of the listener: a connection, an error that is `Temporary()`, `net.ErrClosed`, another error. -/
inductive AcRes where
  | conn (id : Nat)
  | temporary
  | closed
  | failed
deriving DecidableEq, Repr

/-- What is seen of the loop: it sleeps, it starts a goroutine that serves a connection, it returns, without or with an
error. -/
inductive AcEvent where
  | sleep (ms : Nat)
  | serve (id : Nat)
  | returned (err : Bool)
deriving DecidableEq, Repr

/-- server.go:122-131 — the next delay. -/
def nextDelay (delay : Nat) : Nat :=
  let d := if delay = 0 then 5 else delay * 2
  if d > 1000 then 1000 else d

/-- server.go:118-143 — `retryListener.Accept`: what it does before it returns, the delay it leaves, and its result with
the answers that are left; `none` while it waits. -/
def retryAccept (delay : Nat) : List AcRes → List AcEvent × Nat × Option (AcRes × List AcRes)
  | [] => ([], delay, none)
  | .temporary :: rest =>
    let r := retryAccept (nextDelay delay) rest
    (.sleep (nextDelay delay) :: r.1, r.2)
  | r :: rest => ([], 0, some (r, rest))

theorem retryAccept_length (delay : Nat) (l : List AcRes) (r : AcRes) (rest : List AcRes)
    (h : (retryAccept delay l).2.2 = some (r, rest)) : rest.length < l.length := by
  induction l generalizing delay with
  | nil => cases h
  | cons x l ih =>
    cases x with
    | temporary => exact Nat.lt_trans (ih (nextDelay delay) h) (by simp)
    | conn id => have := Option.some.inj h; cases this; simp
    | closed => have := Option.some.inj h; cases this; simp
    | failed => have := Option.some.inj h; cases this; simp

/-- server.go:624-655 — `Serve` (with `closedErr = false`), and identd/identd.go:79-88 with the listener of
cmd/soju/main.go:332 — `Identd.Serve` (with `closedErr = true`: it takes a closed listener for an error).  The set of
listeners and the wait group are in `Shutdown`. -/
def acServe (closedErr : Bool) (delay : Nat) (l : List AcRes) : List AcEvent :=
  match h : (retryAccept delay l).2.2 with
  | none => (retryAccept delay l).1
  | some (.conn id, rest) => (retryAccept delay l).1 ++ .serve id :: acServe closedErr (retryAccept delay l).2.1 rest
  | some (.closed, _) => (retryAccept delay l).1 ++ [.returned closedErr]
  | some (_, _) => (retryAccept delay l).1 ++ [.returned true]
termination_by l.length
decreasing_by exact retryAccept_length _ _ _ _ h

end Verif.Model
