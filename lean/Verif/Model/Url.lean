import Verif.Model.GoStr
import Verif.Model.Whox

/-! # Model of the parts of net/url and net that network addresses go through

`url.Parse` and `net.SplitHostPort` are library functions; they are modelled after the Go standard library
because the checks of user.go:1005-1042 are about their results.  The syntax of host names is left to a
parameter. -/

namespace Verif.Model

/-- The fields of `url.URL` the bouncer looks at; `user` says whether `User` is not nil. -/
structure Url where
  scheme : Str
  user : Bool
  host : Str
  path : Str
  rawQuery : Str
  fragment : Str
deriving DecidableEq, Repr

/-- What is left open of net/url: the validation and unescaping of the host, and of user names. -/
structure UrlLib where
  parseHost : Str → Option Str
  validUserinfo : Str → Bool

/-- An ASCII letter. -/
def isAlpha (c : Byte) : Bool := decide ((97 ≤ c ∧ c ≤ 122) ∨ (65 ≤ c ∧ c ≤ 90))

/-- Value of a hexadecimal digit. -/
def hexDigitVal (c : Byte) : Option Nat :=
  if 48 ≤ c ∧ c ≤ 57 then some (c - 48)
  else if 97 ≤ c ∧ c ≤ 102 then some (c - 97 + 10)
  else if 65 ≤ c ∧ c ≤ 70 then some (c - 65 + 10)
  else none

/-- net/url `unescape` for paths and fragments. -/
def pctDecode : Str → Option Str
  | [] => some []
  | 37 :: a :: b :: s => do
    let x ← hexDigitVal a
    let y ← hexDigitVal b
    let r ← pctDecode s
    pure ((x * 16 + y) :: r)
  | c :: s => if c = 37 then none else (pctDecode s).map (c :: ·)

/-- net/url `getScheme`: `none` is the error "missing protocol scheme"; otherwise the scheme (empty if
there is none) and the rest.  `pre` is what has been read. -/
def getSchemeLoop (raw : Str) (pre : Str) : Str → Option (Str × Str)
  | [] => some ([], raw)
  | c :: s =>
    if isAlpha c then getSchemeLoop raw (pre ++ [c]) s
    else if (decide (48 ≤ c ∧ c ≤ 57)) || c == 43 || c == 45 || c == 46 then
      if pre = [] then some ([], raw) else getSchemeLoop raw (pre ++ [c]) s
    else if c = 58 then (if pre = [] then none else some (pre, s))
    else some ([], raw)

/-- net/url `getScheme`. -/
def getScheme (raw : Str) : Option (Str × Str) := getSchemeLoop raw [] raw

/-- The part before the last `x` and the part after it. -/
def cutLast (x : Byte) : Str → Option (Str × Str)
  | [] => none
  | c :: s => match cutLast x s with
    | some (a, b) => some (c :: a, b)
    | none => if c = x then some ([], s) else none

/-- net/url `parseAuthority`: whether there is user information, and the host. -/
def parseAuthority (lib : UrlLib) (authority : Str) : Option (Bool × Str) :=
  match cutLast 64 authority with
  | none => (lib.parseHost authority).map (fun h => (false, h))
  | some (userinfo, h) =>
    match lib.parseHost h with
    | none => none
    | some host => if lib.validUserinfo userinfo then some (true, host) else none

/-- net/url `parse`: what precedes the first "?" and the raw query. -/
def cutQuery (rest : Str) : Str × Str :=
  match cutStr b!"?" rest with
  | some (a, b) => (a, b)
  | none => (rest, [])

/-- net/url `parse` (not via a request), on what precedes the first "#". -/
def urlParseNoFrag (lib : UrlLib) (raw : Str) : Option Url :=
  if raw.any (fun c => decide (c < 32 ∨ c = 127)) then none
  else if raw = b!"*" then some ⟨[], false, [], b!"*", [], []⟩
  else match getScheme raw with
  | none => none
  | some (scheme, rest) =>
    let scheme := asciiLower scheme
    let query := (cutQuery rest).2
    let rest := (cutQuery rest).1
    if hasPrefix b!"/" rest = false ∧ scheme ≠ [] then some ⟨scheme, false, [], [], query, []⟩
    else if hasPrefix b!"/" rest = false ∧ 58 ∈ rest.takeWhile (fun c => decide (c ≠ 47)) then none
    else if (scheme ≠ [] ∨ hasPrefix b!"///" rest = false) ∧ hasPrefix b!"//" rest then
      let r := rest.drop 2
      let authority := r.takeWhile (fun c => decide (c ≠ 47))
      let path := r.dropWhile (fun c => decide (c ≠ 47))
      match parseAuthority lib authority, pctDecode path with
      | some (user, host), some p => some ⟨scheme, user, host, p, query, []⟩
      | _, _ => none
    else (pctDecode rest).map (fun p => ⟨scheme, false, [], p, query, []⟩)

/-- `url.Parse`. -/
def urlParse (lib : UrlLib) (raw : Str) : Option Url :=
  match cutStr b!"#" raw with
  | none => urlParseNoFrag lib raw
  | some (u, frag) =>
    match urlParseNoFrag lib u, pctDecode frag with
    | some url, some f => some { url with fragment := f }
    | _, _ => none

/-- `net.SplitHostPort`; `none` is an error. -/
def splitHostPort (s : Str) : Option (Str × Str) :=
  match cutLast 58 s with
  | none => none
  | some (h, port) =>
    match s with
    | 91 :: t =>
      let host := t.takeWhile (fun c => decide (c ≠ 93))
      if h = 91 :: host ++ [93] ∧ 91 ∉ host ∧ 93 ∉ port ∧ 91 ∉ port then some (host, port) else none
    | _ => if 58 ∈ h ∨ 91 ∈ h ∨ 93 ∈ h ∨ 91 ∈ port ∨ 93 ∈ port then none else some (h, port)

end Verif.Model
