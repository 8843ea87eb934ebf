import Verif.Spec.MemStore

/-! # Specification: windows of a chronological log

A log is a list of `(instant, message)` pairs, oldest first. -/

namespace Verif.Spec

/-- The messages strictly between two instants that satisfy a condition, oldest first. -/
def window {M : Type} (lo hi : Nat) (sel : M → Bool) (log : List (Nat × M)) : List M :=
  (log.filter (fun e => decide (lo < e.1) && decide (e.1 < hi) && sel e.2)).map Prod.snd

/-- A log that is in chronological order. -/
def Chronological {M : Type} (log : List (Nat × M)) : Prop := log.Pairwise (fun a b => a.1 ≤ b.1)

end Verif.Spec
