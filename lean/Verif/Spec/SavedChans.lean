import Verif.Spec.Casemap
import Verif.Spec.GenMsg

/-! # Specification: the channels a user is in

A user is in the channels they asked to join and did not ask to leave since; the key of a channel is the last one
they gave. -/

namespace Verif.Spec

/-- A request of the user about a channel. -/
inductive ChanRequest where
  /-- join, with a key or the empty string -/
  | join (name key : Str)
  | leave (name : Str)
deriving DecidableEq, Repr

/-- The key of the channel `q`, if the user is in it; the requests are given most recent first. -/
def askedKey (s : CaseSys) (q : Str) : List ChanRequest → Option Str
  | [] => none
  | .join n key :: older =>
    if SameName s n q then some (if key = [] then (askedKey s q older).getD [] else key) else askedKey s q older
  | .leave n :: older => if SameName s n q then none else askedKey s q older

/-- A name a channel may have: not empty, without space, comma or bell (RFC 2812 §1.3). -/
def ChanNameOK (name : Str) : Prop := name ≠ [] ∧ 32 ∉ name ∧ 44 ∉ name ∧ 7 ∉ name

instance (name : Str) : Decidable (ChanNameOK name) := by unfold ChanNameOK; infer_instance

end Verif.Spec
