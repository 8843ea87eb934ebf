import Verif.Model.GoStr
import Verif.Model.GoNum

/-! # Model of the search text of messages and of full-text queries (database/utils.go, database/sqlite.go) -/

namespace Verif.Model

/-- database/utils.go:11-13: a hexadecimal digit. -/
def isHexDigit (c : Byte) : Bool := decide ((48 ≤ c ∧ c ≤ 57) ∨ (97 ≤ c ∧ c ≤ 102) ∨ (65 ≤ c ∧ c ≤ 70))

/-- database/utils.go:5-19: `startsHexColor`. The code goes over runes; a byte of a multi-byte rune is
refused just like the rune. -/
def startsHexColor (s : Str) : Bool := decide (6 ≤ s.length) && (s.take 6).all isHexDigit

/-- database/utils.go:22: the formatting controls. -/
def fmtControls : List Byte := [0x02, 0x1D, 0x1F, 0x1E, 0x11, 0x16, 0x0F, 0x03, 0x04]

/-- database/utils.go:34-39: skip one or two digits at the beginning (`i++` once or twice); nothing is
skipped if the first character is no digit. -/
def skipDigits : Str → Str
  | d :: e :: rest => if isDigit d then (if isDigit e then rest else e :: rest) else d :: e :: rest
  | [d] => if isDigit d then [] else [d]
  | [] => []

/-- database/utils.go:33-45: what remains after the arguments of a color control. -/
def skipColor (s : Str) : Str :=
  if (s.head?.map isDigit).getD false = false then s
  else
    match skipDigits s with
    | c :: d :: rest => if c = 44 ∧ isDigit d = true then skipDigits (d :: rest) else c :: d :: rest
    | rest => rest

/-- database/utils.go:46-53: what remains after the arguments of a hexadecimal color control. -/
def skipHexColor (s : Str) : Str :=
  if startsHexColor s = false then s
  else
    match s.drop 6 with
    | c :: rest => if c = 44 ∧ startsHexColor rest = true then rest.drop 6 else c :: rest
    | [] => []

theorem skipDigits_le (s : Str) : (skipDigits s).length ≤ s.length := by
  match s with
  | [] => simp [skipDigits]
  | [d] => simp only [skipDigits]; split <;> simp
  | d :: e :: rest =>
    simp only [skipDigits]
    split
    · split
      · simp only [List.length_cons]; omega
      · simp
    · simp

theorem skipColor_le (s : Str) : (skipColor s).length ≤ s.length := by
  unfold skipColor
  have h := skipDigits_le s
  split
  · simp
  · split
    · next c d rest he =>
      rw [he] at h
      split
      · have := skipDigits_le (d :: rest)
        simp only [List.length_cons] at h this ⊢
        omega
      · exact h
    · exact h

theorem skipHexColor_le (s : Str) : (skipHexColor s).length ≤ s.length := by
  unfold skipHexColor
  have hd : (s.drop 6).length ≤ s.length := by rw [List.length_drop]; omega
  split
  · simp
  · split
    · next c rest he =>
      rw [he] at hd
      split
      · simp only [List.length_drop, List.length_cons] at hd ⊢; omega
      · exact hd
    · simp

/-- database/utils.go:28-57: the loop of `stripANSI`, on what remains of the string. -/
def stripLoop : Str → Str
  | [] => []
  | c :: rest =>
    if c = 0x02 ∨ c = 0x1D ∨ c = 0x1F ∨ c = 0x1E ∨ c = 0x11 ∨ c = 0x16 ∨ c = 0x0F then stripLoop rest
    else if c = 0x03 then stripLoop (skipColor rest)
    else if c = 0x04 then stripLoop (skipHexColor rest)
    else c :: stripLoop rest
termination_by s => s.length
decreasing_by
  all_goals simp only [List.length_cons]
  · omega
  · have := skipColor_le rest; omega
  · have := skipHexColor_le rest; omega
  · omega

/-- database/utils.go:21-59: `stripANSI`. -/
def stripANSI (s : Str) : Str :=
  if s.any (fun c => decide (c ∈ fmtControls)) = false then s else stripLoop s

/-- `strings.FieldsFunc` of Go's standard library: the maximal runs of characters that satisfy `tok`; `cur`
is the run being read. -/
def fieldsFrom (tok : Nat → Bool) (cur : Str) : Str → List Str
  | [] => if cur = [] then [] else [cur]
  | c :: s =>
    if tok c then fieldsFrom tok (cur ++ [c]) s
    else (if cur = [] then [] else [cur]) ++ fieldsFrom tok [] s

/-- database/sqlite.go:1305: `ftsQueryTokenEscaper`: every double quote is doubled. -/
def doubleQuotes (s : Str) : Str := s.flatMap (fun c => if c = 34 then [34, 34] else [c])

/-- database/sqlite.go:1307-1346: `quoteFTSQuery`, over runes; `tok` tells the letters, digits and private
use characters (`unicode.In(r, unicode.L, unicode.N, unicode.Co)`). -/
def quoteFTSQuery (tok : Nat → Bool) (query : Str) : Str :=
  (fieldsFrom tok [] query).foldl
    (fun sb t => (if sb.length > 0 then sb ++ [32] else sb) ++ [34] ++ doubleQuotes t ++ [34]) []

end Verif.Model
