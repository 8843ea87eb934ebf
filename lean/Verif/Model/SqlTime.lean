import Verif.Model.GoStr
import Verif.Model.ReadMarker

/-! # Model of the time columns of the database

database/sqlite.go:25-59, with the parts of the Go time package they use: the conversion of an instant to a
calendar date and back, `Format` and `Parse` for the layout `2006-01-02T15:04:05.000Z`.  Instants are
nanoseconds since Go's zero time (0001-01-01T00:00:00Z), as in Model/ReadMarker.lean. -/

namespace Verif.Model

/-- time `isLeap`. -/
def isLeapYear (y : Nat) : Bool := decide (y % 4 = 0 ∧ (y % 100 ≠ 0 ∨ y % 400 = 0))

/-- time `daysBefore`: days of a non-leap year before each month (counted from 0). -/
def daysBeforeMonth (m : Nat) : Nat := [0, 31, 59, 90, 120, 151, 181, 212, 243, 273, 304, 334, 365].getD m 365

/-- time `absDate`, the year and the day of the year.  Days and years are counted from a year that is 1 modulo
400 (here −399). -/
def absYearDay (d : Nat) : Nat × Nat :=
  let n400 := d / 146097
  let d := d - 146097 * n400
  let n100 := d / 36524
  let n100 := n100 - n100 / 4
  let d := d - 36524 * n100
  let n4 := d / 1461
  let d := d - 1461 * n4
  let n1 := d / 365
  let n1 := n1 - n1 / 4
  (400 * n400 + 100 * n100 + 4 * n4 + n1, d - 365 * n1)

/-- time `absDate`, the month (from 1) and the day of the month. -/
def monthDay (leap : Bool) (yday : Nat) : Nat × Nat :=
  if leap && decide (yday = 59) then (2, 29)
  else
    let day := if leap && decide (yday > 59) then yday - 1 else yday
    let month := day / 31
    let stop := daysBeforeMonth (month + 1)
    if day ≥ stop then (month + 2, day - stop + 1) else (month + 1, day - daysBeforeMonth month + 1)

/-- time `daysSinceEpoch`. -/
def absYearStart (y : Nat) : Nat :=
  let n400 := y / 400
  let y := y - 400 * n400
  let n100 := y / 100
  let y := y - 100 * n100
  let n4 := y / 4
  146097 * n400 + 36524 * n100 + 1461 * n4 + 365 * (y - 4 * n4)

/-- time `Date`: the day of a year (counted from −399), month and day. -/
def absDay (y m d : Nat) : Nat :=
  absYearStart y + daysBeforeMonth (m - 1) + (if isLeapYear (y + 1) && decide (m ≥ 3) then 1 else 0) + (d - 1)

/-- The calendar date of a day: year, month, day. -/
def absDate (abs : Nat) : Nat × Nat × Nat :=
  let p := absYearDay abs
  (p.1 - 399, monthDay (isLeapYear (p.1 + 1)) p.2)

/-- Nanoseconds in a day. -/
def dayNanos : Int := 86400000000000

/-- `t.UTC().Format(sqliteTimeLayout)` for years 0 to 9999. -/
def sqliteFormat (t : Int) : Str :=
  let date := absDate (t / dayNanos + 146097).toNat
  let ms := ((t % dayNanos) / 1000000).toNat
  padDec 4 date.1 ++ b!"-" ++ padDec 2 date.2.1 ++ b!"-" ++ padDec 2 date.2.2 ++ b!"T" ++ padDec 2 (ms / 3600000) ++ b!":" ++
    padDec 2 (ms / 60000 % 60) ++ b!":" ++ padDec 2 (ms / 1000 % 60) ++ b!"." ++ padDec 3 (ms % 1000) ++ b!"Z"

/-- database/sqlite.go:53-58 — `Value`: the column value, `none` for NULL. -/
def sqliteValue (t : Int) : Option Str := if t = 0 then none else some (sqliteFormat t)

/-- A number of a fixed number of digits. -/
def fixedNum (w : Nat) (s : Str) : Option (Nat × Str) :=
  let d := s.take w
  if d.length = w ∧ d.all (fun c => decide (48 ≤ c ∧ c ≤ 57)) then
    some (d.foldl (fun a c => a * 10 + (c - 48)) 0, s.drop w)
  else none

/-- A literal character of a layout. -/
def fixedByte (c : Byte) : Str → Option Str
  | [] => none
  | x :: s => if x = c then some s else none

/-- time `daysIn`. -/
def daysInMonth (leap : Bool) (m : Nat) : Nat :=
  if leap && decide (m = 2) then 29 else daysBeforeMonth m - daysBeforeMonth (m - 1)

/-- `time.Parse(sqliteTimeLayout, s)`.  Simplification: of the leniencies of `Parse` (extra fractional digits)
none is kept, as the bouncer never writes such texts. -/
def sqliteParse (s : Str) : Option Int := do
  let (y, s) ← fixedNum 4 s
  let s ← fixedByte 45 s
  let (m, s) ← fixedNum 2 s
  let s ← fixedByte 45 s
  let (d, s) ← fixedNum 2 s
  let s ← fixedByte 84 s
  let (hh, s) ← fixedNum 2 s
  let s ← fixedByte 58 s
  let (mm, s) ← fixedNum 2 s
  let s ← fixedByte 58 s
  let (ss, s) ← fixedNum 2 s
  let s ← fixedByte 46 s
  let (ms, s) ← fixedNum 3 s
  let s ← fixedByte 90 s
  if s = [] ∧ 1 ≤ m ∧ m ≤ 12 ∧ 1 ≤ d ∧ d ≤ daysInMonth (isLeapYear y) m ∧ hh < 24 ∧ mm < 60 ∧ ss < 60 then
    some (((absDay (y + 399) m d : Nat) - 146097 : Int) * dayNanos +
      ((((hh * 60 + mm) * 60 + ss) * 1000 + ms : Nat) : Int) * 1000000)
  else none

/-- database/sqlite.go:37-51 — `Scan`. -/
def sqliteScan : Option Str → Option Int
  | none => some 0
  | some s => sqliteParse s

end Verif.Model
