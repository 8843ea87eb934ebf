import Verif.Basic

/-! # Specification: IRC case mappings and case-insensitive maps

Independent of the model: the letter pairs are listed as the IRC specifications list them. -/

namespace Verif.Spec

/-- Which names a mapping identifies, character by character.  RFC 1459 §2.2: "the characters {}|
are considered to be the lower case equivalents of the characters []\", plus `~`/`^`; every
mapping identifies `A-Z` with `a-z`. -/
inductive CaseSys where | ascii | rfc1459 | rfc1459Strict
deriving DecidableEq, Repr

/-- `upperLower s x y`: `x` is the upper case form of the distinct lower case character `y`. -/
def upperLower : CaseSys → Byte → Byte → Prop
  | .ascii, x, y => 65 ≤ x ∧ x ≤ 90 ∧ y = x + 32
  | .rfc1459Strict, x, y =>
      (65 ≤ x ∧ x ≤ 90 ∧ y = x + 32) ∨ (x = 91 ∧ y = 123) ∨ (x = 93 ∧ y = 125) ∨ (x = 92 ∧ y = 124)
  | .rfc1459, x, y =>
      (65 ≤ x ∧ x ≤ 90 ∧ y = x + 32) ∨ (x = 91 ∧ y = 123) ∨ (x = 93 ∧ y = 125) ∨ (x = 92 ∧ y = 124)
        ∨ (x = 94 ∧ y = 126)

/-- Two characters are the same up to case. -/
def sameChar (s : CaseSys) (x y : Byte) : Prop := x = y ∨ upperLower s x y ∨ upperLower s y x

/-- Two names are the same up to case: same length, same characters up to case. -/
def SameName (s : CaseSys) : Str → Str → Prop
  | [], [] => True
  | x :: xs, y :: ys => sameChar s x y ∧ SameName s xs ys
  | _, _ => False

instance (s : CaseSys) (x y : Byte) : Decidable (upperLower s x y) := by
  cases s <;> unfold upperLower <;> infer_instance

instance (s : CaseSys) (x y : Byte) : Decidable (sameChar s x y) := by
  unfold sameChar; infer_instance

instance decSameName (s : CaseSys) : (a b : Str) → Decidable (SameName s a b)
  | [], [] => .isTrue trivial
  | x :: xs, y :: ys =>
    have := decSameName s xs ys
    inferInstanceAs (Decidable (sameChar s x y ∧ SameName s xs ys))
  | [], _ :: _ => .isFalse id
  | _ :: _, [] => .isFalse id

/-- What happened to a case-insensitive map. -/
inductive MapEvent (V : Type) where
  | stored (name : Str) (value : V)
  | deleted (name : Str)

variable {V : Type}

/-- The value a lookup of `q` must return; the history is given most recent event first. -/
def lastValue (s : CaseSys) (q : Str) : List (MapEvent V) → Option V
  | [] => none
  | .stored n v :: h => if SameName s n q then some v else lastValue s q h
  | .deleted n :: h => if SameName s n q then none else lastValue s q h

/-- The spelling under which the name `q` is currently known: the one used by the store that
created the entry (most recent event first). -/
def spelling (s : CaseSys) (q : Str) : List (MapEvent V) → Option Str
  | [] => none
  | .stored n _ :: h =>
    if SameName s n q then
      match spelling s q h with
      | some k => some k
      | none => some n
    else spelling s q h
  | .deleted n :: h => if SameName s n q then none else spelling s q h

end Verif.Spec
