import Verif.Basic

/-! # Model of rate.go -/

namespace Verif.Model

/-- rate.go:9-13 — `backoffer`; durations are nanosecond counts.  Simplification: unbounded naturals
instead of `int64` (C06 also bounds every intermediate value, so nothing can overflow). -/
structure Backoffer where
  min : Nat
  max : Nat
  jitter : Nat
  n : Nat
deriving DecidableEq, Repr

namespace Backoffer

/-- rate.go:15-17 — `newBackoffer`. -/
def new (min max jitter : Nat) : Backoffer := ⟨min, max, jitter, 0⟩

/-- rate.go:19-21 — `Reset`. -/
def reset (b : Backoffer) : Backoffer := { b with n := 0 }

/-- rate.go:23-40 — `Next`; `r` is the result of `rand.Int63n(jitter)` (`r < jitter`), ignored when
`jitter = 0` or on the first call. -/
def next (b : Backoffer) (r : Nat) : Backoffer × Nat :=
  if b.n = 0 then ({ b with n := 1 }, 0)
  else
    let d := b.n * b.min
    let (b', d') := if d > b.max then (b, b.max) else ({ b with n := b.n * 2 }, d)
    (b', if b.jitter ≠ 0 then d' + r else d')

/-- A use of the backoffer. -/
inductive Op where
  | reset
  | next (r : Nat)

/-- Run a history of uses; the output is the list of delays returned, oldest first. -/
def run (b : Backoffer) : List Op → Backoffer × List Nat
  | [] => (b, [])
  | .reset :: ops => run b.reset ops
  | .next r :: ops =>
    let (b', d) := b.next r
    let (b'', ds) := run b' ops
    (b'', d :: ds)

end Backoffer
end Verif.Model
