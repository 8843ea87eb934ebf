import Verif.Model.GoStr

/-! # Model of the detection of highlights (irc.go:234-282)

Texts are sequences of characters (simplification: texts and nicks are valid UTF-8, in which a search of bytes
is a search of characters). -/

namespace Verif.Model

/-- The classes of characters of Go's `unicode` package. -/
structure RuneLib where
  letter : Nat → Bool
  number : Nat → Bool
  space : Nat → Bool

/-- irc.go:234-241: `isWordBoundary`. -/
def isWordBoundary (lib : RuneLib) (r : Nat) : Bool :=
  if r = 45 ∨ r = 95 ∨ r = 124 then false else !lib.letter r && !lib.number r

/-- `strings.LastIndexFunc(text, unicode.IsSpace)`: the text from the last space on. -/
def fromLastSpace (lib : RuneLib) : List Nat → Option (List Nat)
  | [] => none
  | c :: s =>
    match fromLastSpace lib s with
    | some t => some t
    | none => if lib.space c then some (c :: s) else none

/-- irc.go:253-260: a character of a scheme. -/
def isSchemeChar (r : Nat) : Bool :=
  if r = 43 ∨ r = 45 ∨ r = 46 then true
  else decide (48 ≤ r ∧ r ≤ 57) || decide (97 ≤ r ∧ r ≤ 122) || decide (65 ≤ r ∧ r ≤ 90)

/-- irc.go:243-261: `isURIPrefix`; U+FFFD is what is decoded from the empty string. -/
def isURIPrefix (lib : RuneLib) (text : List Nat) : Bool :=
  match cutStr b!"://" ((fromLastSpace lib text).getD text) with
  | none => false
  | some (before, _) => isSchemeChar (before.getLast?.getD 65533)

/-- irc.go:268-281: the loop of `isHighlight`. The first argument bounds the number of turns. -/
def highlightLoop (lib : RuneLib) (nick : List Nat) : Nat → List Nat → Bool
  | 0, _ => false
  | f + 1, text =>
    match cutStr nick text with
    | none => false
    | some (before, after) =>
      if isWordBoundary lib (before.getLast?.getD 65533) && isWordBoundary lib (after.head?.getD 65533) &&
          !isURIPrefix lib before then true
      else highlightLoop lib nick f after

/-- irc.go:263-282: `isHighlight`; `none` is the panic of an empty nick. -/
def isHighlight (lib : RuneLib) (text nick : List Nat) : Option Bool :=
  if nick = [] then none else some (highlightLoop lib nick (text.length + 1) text)

/-- user.go:448-462: `network.isHighlight`, on the command, sender, text and nick of the user. The text is the
second parameter. -/
def networkIsHighlight (lib : RuneLib) (command : Str) (sender : List Nat) (params : List (List Nat)) (nick : List Nat) :
    Option Bool :=
  if command ≠ b!"PRIVMSG" ∧ command ≠ b!"NOTICE" then some false
  else if sender = nick then some false
  else isHighlight lib (params.getD 1 []) nick

end Verif.Model
