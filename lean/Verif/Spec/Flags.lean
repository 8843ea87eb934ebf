import Verif.Model.GoStr

/-! # How flags of service commands are written -/

namespace Verif.Spec
open Verif.Model

/-- How a truth value is written. -/
def boolWord (v : Bool) : Str := if v then b!"true" else b!"false"

/-- The last of the values that are given. -/
def lastGiven {α β : Type} (f : α → Option β) (l : List α) : Option β := (l.filterMap f).getLast?

end Verif.Spec
