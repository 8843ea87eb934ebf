import Verif.Basic

/-! # The Go string functions used by the code

Models of functions of Go's `strings`, `strconv`, `fmt` and `path/filepath` packages, by their
documented behaviour.  They are library code, not part of /repo; each comment names the function. -/

namespace Verif.Model

/-- `strings.HasPrefix(s, p)`. -/
def hasPrefix (p s : Str) : Bool := p.isPrefixOf s

/-- `strings.HasSuffix(s, p)`. -/
def hasSuffix (p s : Str) : Bool := p.isSuffixOf s

/-- `strings.TrimPrefix(s, p)`. -/
def trimPrefix (p s : Str) : Str := if hasPrefix p s then s.drop p.length else s

/-- `strings.TrimSuffix(s, p)`. -/
def trimSuffix (p s : Str) : Str := if hasSuffix p s then s.take (s.length - p.length) else s

/-- `strings.SplitN(s, sep, 2)` with a non-empty separator: the two parts, or `none` if there is only
one. -/
def cutStr (sep : Str) : Str → Option (Str × Str)
  | [] => none
  | c :: s =>
    if sep.isPrefixOf (c :: s) then some ([], (c :: s).drop sep.length)
    else (cutStr sep s).map (fun p => (c :: p.1, p.2))

/-- `strings.Split(s, sep)` with a separator of one byte. -/
def splitByte (sep : Byte) : Str → List Str
  | [] => [[]]
  | c :: s =>
    if c = sep then [] :: splitByte sep s
    else
      match splitByte sep s with
      | [] => [[c]]
      | x :: xs => (c :: x) :: xs

/-- `strings.Join(l, sep)`. -/
def joinStr (sep : Str) : List Str → Str
  | [] => []
  | [x] => x
  | x :: y :: xs => x ++ sep ++ joinStr sep (y :: xs)

/-- `strings.TrimLeft(s, cutset)` for ASCII cutsets. -/
def trimLeft (cutset s : Str) : Str := s.dropWhile (fun c => decide (c ∈ cutset))

/-- `strings.TrimRight(s, cutset)` for ASCII cutsets. -/
def trimRight (cutset s : Str) : Str := (s.reverse.dropWhile (fun c => decide (c ∈ cutset))).reverse

/-- `strings.Trim(s, cutset)` for ASCII cutsets. -/
def trimBoth (cutset s : Str) : Str := trimRight cutset (trimLeft cutset s)

/-- ASCII upper case of one byte. -/
def upperByte (c : Byte) : Byte := if 97 ≤ c ∧ c ≤ 122 then c - 32 else c

/-- `strings.ToUpper`, on ASCII letters only (simplification: the non-ASCII letters are left alone). -/
def asciiUpper (s : Str) : Str := s.map upperByte

/-- Decimal digits of `n`, with at most `fuel` of them. -/
def digitsAux : Nat → Nat → Str
  | 0, _ => []
  | fuel + 1, n => if n < 10 then [48 + n] else digitsAux fuel (n / 10) ++ [48 + n % 10]

/-- `strconv.Itoa` / `%d` for non-negative numbers. -/
def itoa (n : Nat) : Str := digitsAux (n + 1) n

/-- `%0wd` for non-negative numbers: pad with zeros to width `w`. -/
def padDec (w n : Nat) : Str := List.replicate (w - (itoa n).length) 48 ++ itoa n

/-- `filepath.Clean` on Unix, the loop over components: `.` and empty components vanish, `..` removes
the previous component, is kept at the front of a relative path and vanishes at the root. -/
def cleanComps (rooted : Bool) (acc : List Str) (c : Str) : List Str :=
  if c = [] ∨ c = b!"." then acc
  else if c = b!".." then
    if acc = [] then (if rooted then [] else [c])
    else if acc.getLast? = some b!".." then acc ++ [c]
    else acc.dropLast
  else acc ++ [c]

/-- The components of `filepath.Clean(p)`. -/
def cleanList (p : Str) : List Str :=
  (splitByte 47 p).foldl (cleanComps (p.head? = some 47)) []

/-- `filepath.Clean` on Unix. -/
def cleanPath (p : Str) : Str :=
  let out := (if p.head? = some 47 then b!"/" else []) ++ joinStr b!"/" (cleanList p)
  if out = [] then b!"." else out

/-- `filepath.Join` on Unix: skip leading empty elements, join with slashes, clean. -/
def joinPath : List Str → Str
  | [] => []
  | e :: es => if e = [] then joinPath es else cleanPath (joinStr b!"/" (e :: es))

end Verif.Model
