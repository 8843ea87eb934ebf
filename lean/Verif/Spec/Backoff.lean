import Verif.Basic

/-! # Specification: capped exponential backoff -/

namespace Verif.Spec

/-- Delay before attempt number `k` since the last reset, without jitter: none, then `min`, `2·min`,
`4·min`, ... capped at `max`. -/
def backoffDelay (min max k : Nat) : Nat :=
  match k with
  | 0 => 0
  | k + 1 => Nat.min (2 ^ k * min) max

end Verif.Spec
