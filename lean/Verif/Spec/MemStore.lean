import Verif.Basic

/-! # Specification: a message log per target -/

namespace Verif.Spec

/-- The log of one target: the messages stored for it, oldest first, out of a history of
`(target, message)` appends. -/
def logOf {K M : Type} [DecidableEq K] (keep : M → Bool) (hist : List (K × M)) (k : K) : List M :=
  (hist.filter (fun p => decide (p.1 = k) && keep p.2)).map Prod.snd

/-- The last `n` elements. -/
def lastN {M : Type} (n : Nat) (l : List M) : List M := l.drop (l.length - n)

end Verif.Spec
