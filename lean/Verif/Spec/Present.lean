import Verif.Model.NetView
import Verif.Model.ChanView

/-! The clients that are connected, from what they did. -/

namespace Verif.Spec
open Verif.Model

/-- The clients that have logged in and not left. -/
def nvLoggedIn (ops : List NvOp) : List Nat :=
  ops.foldl (fun l op => match op with
    | .login num _ => l ++ [num]
    | .logout num => l.filter (fun n => decide (n ≠ num))
    | _ => l) []

/-- The clients that have logged in and not left. -/
def vcLoggedIn (ops : List VcOp) : List Nat :=
  ops.foldl (fun l op => match op with
    | .login num _ _ _ => l ++ [num]
    | .logout num => l.filter (fun n => decide (n ≠ num))
    | _ => l) []

end Verif.Spec
