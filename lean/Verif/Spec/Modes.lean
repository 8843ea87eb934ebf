import Verif.Spec.Casemap

/-! # Specification: mode strings and ranked memberships -/

namespace Verif.Spec

/-- Split a mode string into (letter, granted?) pairs under the current sign; `none` if a letter
comes before any sign. -/
def signedLetters (sign : Option Bool) : Str → Option (List (Byte × Bool))
  | [] => some []
  | 43 :: s => signedLetters (some true) s       -- '+'
  | 45 :: s => signedLetters (some false) s      -- '-'
  | c :: s =>
    match sign with
    | none => none
    | some b => (signedLetters sign s).map ((c, b) :: ·)

/-- What the last change to `x` was, if any, in a list of (item, granted?) changes, oldest first. -/
def lastChange {α : Type} [DecidableEq α] (x : α) : List (α × Bool) → Option Bool
  | [] => none
  | (y, b) :: l =>
    match lastChange x l with
    | some r => some r
    | none => if y = x then some b else none

/-- An item is held after some changes if it was granted last, or was held before and not touched. -/
def heldAfter {α : Type} [DecidableEq α] (before : Bool) (x : α) (l : List (α × Bool)) : Bool :=
  match lastChange x l with
  | some b => b
  | none => before

/-- How a mode letter treats arguments. -/
inductive LetterKind where
  | membership      -- status of a member: argument is the nick
  | list            -- type A
  | always          -- type B
  | onSet           -- type C
  | flag            -- type D
  | unknown         -- not advertised by the server
deriving DecidableEq, Repr

/-- Does a letter of this kind take an argument under this sign? -/
def takesArg : LetterKind → Bool → Bool
  | .membership, _ => true
  | .list, _ => true
  | .always, _ => true
  | .onSet, plus => plus
  | .flag, _ => false
  | .unknown, _ => false

/-- A mode change with the argument it owns: the letter at position `i` owns argument number
"how many letters before `i` take one". -/
structure Change where
  letter : Byte
  plus : Bool
  arg : Option Str
deriving DecidableEq, Repr

/-- Attribute the arguments to the letters, position by position. -/
def attributed (kind : Byte → LetterKind) (letters : List (Byte × Bool)) (args : List Str) :
    List Change :=
  letters.mapIdx (fun i l =>
    { letter := l.1
      plus := l.2
      arg := if takesArg (kind l.1) l.2 then
               args[(letters.take i).countP (fun l => takesArg (kind l.1) l.2)]?
             else none })

/-- Value of the channel mode `c` after the changes (oldest first): set modes have the argument they
own (empty if none), removed modes are absent; list, membership and unknown letters do nothing. -/
def modeAfter (kind : Byte → LetterKind) (c : Byte) (before : Option Str) : List Change → Option Str
  | [] => before
  | ch :: l =>
    let now :=
      if ch.letter = c ∧ (kind c = .always ∨ kind c = .onSet ∨ kind c = .flag) then
        if ch.plus then some (ch.arg.getD []) else none
      else before
    modeAfter kind c now l

/-- The status changes that concern the member `q`: (mode letter, granted?), oldest first. -/
def statusChanges (kind : Byte → LetterKind) (same : Str → Str → Bool) (q : Str)
    (l : List Change) : List (Byte × Bool) :=
  l.filterMap (fun c =>
    match kind c.letter, c.arg with
    | .membership, some a => if same a q then some (c.letter, c.plus) else none
    | _, _ => none)

end Verif.Spec
