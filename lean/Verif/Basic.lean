import Lean

/-!
# Basic vocabulary of the model

Go strings are byte sequences.  A byte (and, where the code iterates over runes, a
Unicode code point) is modelled as a natural number, so that every theorem is about *all*
sequences of numbers and in particular about all sequences of bytes; where `< 256`
matters (encodings) the theorem says so explicitly.
-/

namespace Verif

/-- A byte of a Go `string`/`[]byte`, or a rune where the Go code ranges over runes. -/
notation "Byte" => Nat

/-- A Go `string`. -/
abbrev Str := List Byte

open Lean in
/-- `b!"abc"` is the list of code points of the literal (its bytes, if it is ASCII),
expanded at elaboration time to a list literal of numerals. -/
macro:max "b!" s:str : term => do
  let cs : Array (TSyntax `term) :=
    (s.getString.toList.map (fun c => (Syntax.mkNumLit (toString c.toNat) : TSyntax `term))).toArray
  `(([$cs,*] : List Nat))

example : b!"aB~" = [97, 66, 126] := rfl

end Verif
