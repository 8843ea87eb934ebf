import Verif.Model.Loops

/-! # When administrative commands end

An order of the users such that every command waits only for users below the one who executes it; what it means that
nothing is left to do. -/

namespace Verif.Spec

open Verif.Model

/-- The command, executed by the loop of `u`, only waits for users below `u`. -/
def lpBelow (rank : Nat → Nat) (u : Nat) : LpCmd → Prop
  | .plain _ => True
  | .update t => t = u ∨ rank t < rank u
  | .run t c => (t = u ∨ rank t < rank u) ∧ lpBelow rank t c
  | .delete _ => False
  | .broadcast _ => False

/-- Clients only send such commands, no command is timed out after it has been sent to another loop, and no loop
crashes. -/
def lpAllowed (rank : Nat → Nat) : LpOp → Prop
  | .arrive u c => lpBelow rank u c
  | .timeOut _ => False
  | .crash _ => False
  | _ => True

/-- Not the arrival of a command: a step the loops take by themselves. -/
def LpInternal (rank : Nat → Nat) (op : LpOp) : Prop := (∀ u c, op ≠ .arrive u c) ∧ lpAllowed rank op

/-- All steps of `ops` are taken, one after the other. -/
def LpExec (cap : Nat) : LpState → List LpOp → LpState → Prop
  | st, [], st' => st = st'
  | st, op :: ops, st' => ∃ m, lpStep cap st op = some m ∧ LpExec cap m ops st'

/-- All loops wait for events and there is none. -/
def LpQuiet (st : LpState) : Prop := ∀ l ∈ st.loops, l.st = .idle ∧ l.queue = []

end Verif.Spec
