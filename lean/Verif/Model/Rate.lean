import Verif.Basic

/-! # Model of the rate at which messages are written (conn.go:141-173, with golang.org/x/time/rate)

The goroutine that writes the messages of a connection waits for a `rate.Limiter` before each of them, unless rate limiting
is off. Times are nanoseconds. The limiter is modelled exactly, without the rounding of its floating-point numbers: its
tokens are counted in the time it takes to get them. -/

namespace Verif.Model

/-- server.go:36 — `upstreamMessageDelay`: 2 seconds. -/
def upstreamMessageDelay : Nat := 2000000000

/-- server.go:37 — `upstreamMessageBurst`. -/
def upstreamMessageBurst : Nat := 10

/-- rate.Limiter: the tokens left (negative: promised already) at the time of the last update. -/
structure Limiter where
  credit : Int
  last : Int
deriving DecidableEq, Repr

/-- rate `NewLimiter`: it starts with all its tokens. -/
def limNew (delay burst : Nat) (now : Int) : Limiter := ⟨(burst : Int) * delay, now⟩

/-- rate `reserveN` and `advance` for one token at time `t`: the limiter, and how long to wait. -/
def limReserve (delay burst : Nat) (l : Limiter) (t : Int) : Limiter × Int :=
  let last := if t < l.last then t else l.last
  let c := min ((burst : Int) * delay) (l.credit + (t - last)) - delay
  (⟨c, t⟩, if c < 0 then -c else 0)

/-- The goroutine: its limiter, the time at which it turns to the next message, and the times at which it has written
messages, with whether each had to wait for the limiter. -/
structure WriterRate where
  lim : Limiter
  now : Int
  sent : List (Int × Bool)
deriving Repr

/-- A message: how long the goroutine has to wait until there is one, whether rate limiting is on (`c.rateLimit`), and how
long the write takes. -/
structure RateOp where
  idle : Nat
  limited : Bool
  took : Nat
deriving DecidableEq, Repr

/-- conn.go:145-166 — a message is written. -/
def wrStep (delay burst : Nat) (st : WriterRate) (op : RateOp) : WriterRate :=
  let t := st.now + op.idle
  if op.limited then
    let r := limReserve delay burst st.lim t
    { lim := r.1, now := t + r.2 + op.took, sent := st.sent ++ [(t + r.2, true)] }
  else { st with now := t + op.took, sent := st.sent ++ [(t, false)] }

/-- A connection, from its start. -/
def wrRun (delay burst : Nat) (now : Int) (ops : List RateOp) : WriterRate :=
  ops.foldl (wrStep delay burst) ⟨limNew delay burst now, now, []⟩

end Verif.Model
