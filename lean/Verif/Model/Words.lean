import Verif.Model.GoStr

/-! # Model of the word splitting of service commands (service.go, cmd/sojuctl/main.go)

A command line is a list of runes here (`for _, r := range s`), given by their code points: the decoding of
UTF-8 is not modelled. -/

namespace Verif.Model

/-- `unicode.IsSpace` of Go's standard library: the code points with the White_Space property. -/
def isSpaceRune (r : Nat) : Bool :=
  decide ((9 ≤ r ∧ r ≤ 13) ∨ r = 32 ∨ r = 0x85 ∨ r = 0xA0 ∨ r = 0x1680 ∨ (0x2000 ≤ r ∧ r ≤ 0x200a) ∨
    r = 0x2028 ∨ r = 0x2029 ∨ r = 0x202f ∨ r = 0x205f ∨ r = 0x3000)

/-- service.go:74-79: the local variables of `splitWords`. -/
structure SplitState where
  words : List Str
  lastWord : Str
  escape : Bool
  prev : Nat
  wordDelim : Nat
  deriving DecidableEq, Repr

/-- service.go:74-79: their initial values. -/
def SplitState.start : SplitState := ⟨[], [], false, 32, 32⟩

/-- service.go:82-110: the body of the loop, without the assignment to `prev`. -/
def splitBody (st : SplitState) (r : Nat) : SplitState :=
  if st.escape then { st with lastWord := st.lastWord ++ [r], escape := false }
  else if r = 92 then { st with escape := true }
  else if st.wordDelim = 32 ∧ isSpaceRune r = true then
    if isSpaceRune st.prev = false then { st with words := st.words ++ [st.lastWord], lastWord := [] } else st
  else if r = st.wordDelim then { st with wordDelim := 32 }
  else if r = 34 ∨ r = 39 then
    if st.wordDelim = 32 then { st with wordDelim := r }
    else { st with lastWord := st.lastWord ++ [r] }
  else { st with lastWord := st.lastWord ++ [r] }

/-- service.go:81-113: one iteration of the loop. -/
def splitStep (st : SplitState) (r : Nat) : SplitState := { splitBody st r with prev := r }

/-- service.go:115-124: what happens after the loop. -/
def splitEnd (st : SplitState) : Option (List Str) :=
  if st.wordDelim ≠ 32 then none
  else if st.escape then none
  else some (if isSpaceRune st.prev = false then st.words ++ [st.lastWord] else st.words)

/-- service.go:74-125: `splitWords`; `none` is an error. -/
def splitWords (s : Str) : Option (List Str) := splitEnd (s.foldl splitStep .start)

/-- A hexadecimal digit, in lower case. -/
def lowerHexDigit (n : Nat) : Nat := if n < 10 then 48 + n else 87 + n

/-- The last `k` hexadecimal digits of `n`. -/
def hexDigits : Nat → Nat → Str
  | 0, _ => []
  | k + 1, n => hexDigits k (n / 16) ++ [lowerHexDigit (n % 16)]

/-- `appendEscapedRune` of Go's strconv, for a double quote; `isPrint` is `strconv.IsPrint`. -/
def quoteRune (isPrint : Nat → Bool) (r : Nat) : Str :=
  if r = 34 ∨ r = 92 then [92, r]
  else if isPrint r then [r]
  else if r = 7 then b!"\\a" else if r = 8 then b!"\\b" else if r = 12 then b!"\\f"
  else if r = 10 then b!"\\n" else if r = 13 then b!"\\r" else if r = 9 then b!"\\t"
  else if r = 11 then b!"\\v"
  else if r < 32 ∨ r = 127 then b!"\\x" ++ hexDigits 2 r
  else if r < 0x10000 then b!"\\u" ++ hexDigits 4 r
  else b!"\\U" ++ hexDigits 8 r

/-- `strconv.Quote` of Go's standard library, on valid UTF-8. -/
def goQuote (isPrint : Nat → Bool) (w : Str) : Str := [34] ++ w.flatMap (quoteRune isPrint) ++ [34]

/-- cmd/sojuctl/main.go:99-108: `quoteWords`. -/
def quoteWords (isPrint : Nat → Bool) (words : List Str) : Str :=
  words.foldl (fun s w => (if s.length > 0 then s ++ [32] else s) ++ goQuote isPrint w) []

end Verif.Model
