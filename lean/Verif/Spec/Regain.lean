import Verif.Model.Regain

/-! # What getting the wanted nick back means, from what has happened -/

namespace Verif.Spec
open Verif.Model

/-- What can be told from the events alone, for the current connection. -/
structure GnView where
  /-- the nick the user wants -/
  want : Str
  /-- the nick the server says we have -/
  held : Option Str
  /-- whether we have had the wanted nick since we connected -/
  had : Bool
  /-- whether the server supports MONITOR -/
  monitor : Bool
  /-- whether the message of the day is over -/
  motd : Bool
  /-- whether there is no MONITOR, and since the end of the message of the day the wanted nick has always been the
  same, we have not had it, and no tick of the clock was lost -/
  trying : Bool
deriving DecidableEq, Repr

/-- Two spellings of the same nick. -/
def SameNick (cm : CaseMapping) (a b : Str) : Prop := casemap cm a = casemap cm b

instance (cm : CaseMapping) (a b : Str) : Decidable (SameNick cm a b) := inferInstanceAs (Decidable (_ = _))

/-- The server gives us this nick. -/
def GnView.renamed (cm : CaseMapping) (v : GnView) (new : Str) : GnView :=
  { v with
    held := some new
    had := v.had || decide (SameNick cm new v.want)
    trying := v.trying && !decide (SameNick cm new v.want) }

/-- The user wants another nick. -/
def GnView.wants (v : GnView) (nick : Str) : GnView :=
  { v with want := nick, trying := v.trying && decide (nick = v.want) }

/-- One event. -/
def gnSee (cm : CaseMapping) (v : GnView) : GnOp → GnView
  | .registered taken nick =>
    match v.held with
    | some _ => v
    | none => { v with held := some nick, had := !taken, monitor := false, motd := false, trying := false }
  | .disconnected => { v with held := none, trying := false }
  | .isupport m => if v.held.isSome then { v with monitor := m } else v
  | .motdEnd =>
    match v.held with
    | none => v
    | some nick =>
      if v.motd then v
      else { v with motd := true, trying := !v.monitor && !decide (SameNick cm nick v.want) }
  | .serverNick old new =>
    match v.held with
    | none => v
    | some nick => if SameNick cm nick old then v.renamed cm new else v
  | .clientNick nick => v.wants nick
  | .setWant nick => v.wants nick
  | .deliver false => { v with trying := false }
  | _ => v

/-- All events so far. -/
def gnView (cm : CaseMapping) (want : Str) (ops : List GnOp) : GnView :=
  ops.foldl (gnSee cm) ⟨want, none, false, false, false, false⟩

/-- Whether the server gives us the nick `n`. -/
def GnView.given (cm : CaseMapping) (v : GnView) (n : Str) : GnOp → Bool
  | .serverNick old new =>
    match v.held with
    | some nick => decide (SameNick cm nick old ∧ SameNick cm n new)
    | none => false
  | _ => false

/-- The attempt that waits for an answer after an event and what the bouncer did about it: an attempt by the clock
waits until the server gives us the nick, or says that it is in use, or the connection ends. -/
def gnOpenStep (cm : CaseMapping) (v : GnView) (cur : Option Str) (e : GnOp × List GnOut) : Option Str :=
  match e with
  | (.handle, .regain n :: _) => some n
  | (.disconnected, _) => none
  | (op, _) =>
    match cur with
    | none => none
    | some n =>
      if v.given cm n op then none
      else match op with
        | .inUse m => if SameNick cm n m then none else some n
        | _ => some n

/-- All events, with what the bouncer did. -/
def gnTrack (cm : CaseMapping) (want : Str) (tr : List (GnOp × List GnOut)) : GnView × Option Str :=
  tr.foldl (fun s e => (gnSee cm s.1 e.1, gnOpenStep cm s.1 s.2 e)) (⟨want, none, false, false, false, false⟩, none)

/-- The attempt that waits for an answer. -/
def gnOpen (cm : CaseMapping) (want : Str) (tr : List (GnOp × List GnOut)) : Option Str := (gnTrack cm want tr).2

/-- Nicks are not empty. -/
def _root_.Verif.Model.GnOp.Named : GnOp → Prop
  | .clientNick nick => nick ≠ []
  | .setWant nick => nick ≠ []
  | .serverNick _ new => new ≠ []
  | _ => True

instance : (op : GnOp) → Decidable op.Named
  | .clientNick _ => inferInstanceAs (Decidable (_ ≠ _))
  | .setWant _ => inferInstanceAs (Decidable (_ ≠ _))
  | .serverNick _ _ => inferInstanceAs (Decidable (_ ≠ _))
  | .registered .. | .disconnected | .isupport _ | .motdEnd | .inUse _ | .refused _ | .monReply .. | .fire | .deliver _
  | .handle => inferInstanceAs (Decidable True)

end Verif.Spec
