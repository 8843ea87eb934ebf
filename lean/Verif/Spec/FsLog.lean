import Verif.Model.FsLog
import Verif.Spec.LogPath

/-! # Specification: the logs that a history of operations should leave

What a conversation's log must hold is read off the operations and their results alone. -/

namespace Verif.Spec
open Verif.Model

variable {M : Type}

/-- The log of every conversation (network name, target name): the lines with the instant of their writing. -/
abbrev FsLogs (M : Type) := Str → Str → List (FsLine M × Nat)

/-- A message that was appended is the last line of the log of its conversation; a network that was renamed
takes its logs along; nothing else changes. -/
def logsStep (logs : FsLogs M) : FsOp M × Bool → FsLogs M
  | (.append net ent l now, true) => fun n e => if n = net ∧ e = ent then logs n e ++ [(l, now)] else logs n e
  | (.rename old new, true) => fun n e => if n = new then logs old e else if n = old then [] else logs n e
  | _ => logs

/-- The logs after a history. -/
def logsOf (tr : List (FsOp M × Bool)) : FsLogs M := tr.foldl logsStep (fun _ _ => [])

/-- A rename gives up a name; opening the store anew forgets the names given up. -/
def givenStep (g : List Str) : FsOp M × Bool → List Str
  | (.rename old _, true) => old :: g
  | (.restart, _) => []
  | _ => g

/-- The names that networks have given up since the store was opened. -/
def givenUp (tr : List (FsOp M × Bool)) : List Str := tr.foldl givenStep []

/-- No message is logged for a network whose name another network has given up since the store was opened. -/
def NoReuse (tr : List (FsOp M × Bool)) : Prop :=
  ∀ a net ent l now ok b, tr = a ++ (.append net ent l now, ok) :: b → net ∉ givenUp a

/-- A name that is its own directory name. -/
def FsName (s : Str) : Prop := PlainName s ∧ 92 ∉ s

instance (s : Str) : Decidable (FsName s) := by unfold FsName; infer_instance

/-- All the names of an operation are their own directory names. -/
def FsNamesOK : FsOp M → Prop
  | .append net ent _ _ => FsName net ∧ FsName ent
  | .rename old new => FsName old ∧ FsName new
  | .restart => True

instance (op : FsOp M) : Decidable (FsNamesOK op) := by cases op <;> unfold FsNamesOK <;> infer_instance

/-- The clock readings of a list of operations. -/
def fsTimes (ops : List (FsOp M)) : List Nat := ops.filterMap (fun op => match op with
  | .append _ _ _ now => some now
  | _ => none)

/-- The clock starts after the zero time and advances between two messages. -/
def FsClock (ops : List (FsOp M)) : Prop := (fsTimes ops).Pairwise (· < ·) ∧ ∀ t ∈ fsTimes ops, 0 < t

instance (ops : List (FsOp M)) : Decidable (FsClock ops) := by unfold FsClock; infer_instance

/-- What `sort.Slice` by last use promises. -/
def LruSort (srt : List (Str × FsHandle) → List (Str × FsHandle)) : Prop :=
  ∀ l, (srt l).Perm l ∧ (srt l).Pairwise (fun a b => a.2.lastUse ≤ b.2.lastUse)

/-- A strict weak order. -/
def StrictWeak {α : Type} (less : α → α → Bool) : Prop :=
  (∀ x, less x x = false) ∧ (∀ x y z, less x y = true → less y z = true → less x z = true) ∧
  ∀ x y z, less x y = false → less y z = false → less x z = false

/-- What `sort.Slice` promises: the same elements; and, if the comparison is a strict weak order on what it
compares — elements at different positions — then they are in that order. -/
def SliceSort {α : Type} (srt : (α → α → Bool) → List α → List α) : Prop :=
  ∀ less l, (srt less l).Perm l ∧
    ∀ less', StrictWeak less' → l.Pairwise (fun x y => less x y = less' x y ∧ less y x = less' y x) →
      (srt less l).Pairwise (fun x y => less' y x = false)

/-- `win` are the first `limit` elements of `all` in the order `le`. -/
def FirstBy {α : Type} (le : α → α → Prop) (all : List α) (limit : Nat) (win : List α) : Prop :=
  ∃ rest, (win ++ rest).Perm all ∧ (win ++ rest).Pairwise le ∧ win.length = min limit all.length

/-- The last line of a conversation was written at `w`. -/
def LastWrite (tr : List (FsOp M × Bool)) (net ent : Str) (w : Nat) : Prop :=
  ∃ before l, logsOf tr net ent = before ++ [(l, w)]

/-- The second in which an instant lies. -/
def InSecond (t w : Nat) : Prop := t % 1000000000 = 0 ∧ t ≤ w ∧ w < t + 1000000000

/-- Strictly between two instants, whichever is the earlier. -/
def Between (t a b : Nat) : Prop := (a < t ∧ t < b) ∨ (b < t ∧ t < a)

end Verif.Spec
