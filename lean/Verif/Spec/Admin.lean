import Verif.Model.Admin

/-! Specification for C88: what a connection to the administration socket does. -/

namespace Verif.Spec
open Verif.Model

/-- A command every IRC client begins with. -/
def fromIrcClient (m : VMsg) : Bool :=
  m.command ∈ [b!"CAP", b!"NICK", b!"USER", b!"PASS"]

/-- The command lines of a connection: those before the first message of an IRC client. -/
def adminLines : List VMsg → List Str
  | [] => []
  | m :: ms =>
    if fromIrcClient m then []
    else if m.command = b!"BOUNCERSERV" then m.params.take 1 ++ adminLines ms
    else adminLines ms

/-- The effect of command lines, one after the other, each with the rights of an administrator and on behalf of no
user; a line whose quotes do not match has no effect. -/
def effect {S : Type} (svc : SvcCtx → S → List Str → S × List Str × Option Str) (st : S) : List Str → S
  | [] => st
  | l :: ls =>
    match splitWords l with
    | some words => effect svc (svc ⟨none, true⟩ st words).1 ls
    | none => effect svc st ls

end Verif.Spec
