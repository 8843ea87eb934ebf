import Verif.Basic

/-! # Model of `path.Match` of Go's standard library, and of the check of origins
(fileupload/fileupload.go:108-118)

Strings are sequences of characters here (simplification: invalid UTF-8 is not modelled). Recursions are
bounded by a first argument; the length of the pattern is enough. -/

namespace Verif.Model

/-- path/match.go `getEsc`: a possibly escaped character of a class, and the rest; `none` is a bad pattern. -/
def getEsc (chunk : List Nat) : Option (Nat × List Nat) :=
  match chunk with
  | [] => none
  | c :: rest =>
    if c = 45 ∨ c = 93 then none
    else if c = 92 then
      match rest with
      | [] => none
      | d :: rest' => if rest' = [] then none else some (d, rest')
    else if rest = [] then none
    else some (c, rest)

/-- path/match.go `matchChunk`: the loop over the ranges of a class: whether character `r` is in one of them,
and the rest of the pattern. -/
def classLoop : Nat → List Nat → Nat → Nat → Bool → Option (Bool × List Nat)
  | 0, _, _, _, _ => none
  | f + 1, chunk, r, nrange, found =>
    if chunk.head? = some 93 ∧ nrange > 0 then some (found, chunk.drop 1)
    else
      match getEsc chunk with
      | none => none
      | some (lo, chunk1) =>
        if chunk1.head? = some 45 then
          match getEsc (chunk1.drop 1) with
          | none => none
          | some (hi, chunk2) => classLoop f chunk2 r (nrange + 1) (found || decide (lo ≤ r ∧ r ≤ hi))
        else classLoop f chunk1 r (nrange + 1) (found || decide (lo ≤ r ∧ r ≤ lo))

/-- path/match.go `matchChunk`: `none` is a bad pattern; otherwise what is left of the string, or `none` if it
does not match. The string is also `none` once the match has failed: the rest of the pattern is only checked. -/
def matchChunkAux : Nat → List Nat → Option (List Nat) → Option (Option (List Nat))
  | 0, chunk, s => if chunk = [] then some s else none
  | f + 1, chunk, s =>
    match chunk with
    | [] => some s
    | c :: rest =>
      let s := if s = some [] then none else s
      if c = 91 then
        let negated := decide (rest.head? = some 94)
        let body := if rest.head? = some 94 then rest.drop 1 else rest
        match classLoop (body.length + 1) body ((s.getD []).headD 0) 0 false with
        | none => none
        | some (found, rest') =>
          matchChunkAux f rest' (if found = negated then none else s.map (List.drop 1))
      else if c = 63 then
        matchChunkAux f rest (if (s.getD []).head? = some 47 then none else s.map (List.drop 1))
      else if c = 92 then
        match rest with
        | [] => none
        | d :: rest' => matchChunkAux f rest' (if (s.getD []).head? = some d then s.map (List.drop 1) else none)
      else matchChunkAux f rest (if (s.getD []).head? = some c then s.map (List.drop 1) else none)

/-- path/match.go `matchChunk`. -/
def matchChunk (chunk s : List Nat) : Option (Option (List Nat)) := matchChunkAux chunk.length chunk (some s)

/-- path/match.go `scanChunk`: the index loop that looks for the end of the chunk. -/
def scanEnd : Bool → List Nat → List Nat × List Nat
  | _, [] => ([], [])
  | inrange, c :: rest =>
    if c = 92 then
      match rest with
      | [] => ([92], [])
      | d :: rest' => (92 :: d :: (scanEnd inrange rest').1, (scanEnd inrange rest').2)
    else if c = 91 then (c :: (scanEnd true rest).1, (scanEnd true rest).2)
    else if c = 93 then (c :: (scanEnd false rest).1, (scanEnd false rest).2)
    else if c = 42 ∧ inrange = false then ([], c :: rest)
    else (c :: (scanEnd inrange rest).1, (scanEnd inrange rest).2)

/-- path/match.go `scanChunk`: whether there are stars at the front, the next chunk, the rest. -/
def scanChunk (pattern : List Nat) : Bool × List Nat × List Nat :=
  (decide (pattern.head? = some 42), scanEnd false (pattern.dropWhile (fun c => decide (c = 42))))

/-- path/match.go `Match`: the loop that looks for a match of the chunk after a star; `last` says that no
pattern is left after the chunk. -/
def starLoop (chunk : List Nat) (last : Bool) : List Nat → Option (Option (List Nat))
  | [] => some none
  | c :: name =>
    if c = 47 then some none
    else
      match matchChunk chunk name with
      | none => none
      | some (some t) => if last = true ∧ t ≠ [] then starLoop chunk last name else some (some t)
      | some none => starLoop chunk last name

/-- path/match.go `Match`: the check of the rest of the pattern after a mismatch. -/
def restOk : Nat → List Nat → Bool
  | 0, _ => true
  | f + 1, pattern =>
    if pattern = [] then true
    else (matchChunk (scanChunk pattern).2.1 []).isSome && restOk f (scanChunk pattern).2.2

/-- path/match.go `Match`: what follows the search for the chunk after a star: go on after it, or report a
mismatch after the check of the rest of the pattern. -/
def matchTail (next : List Nat → Option Bool) (ok : Bool) (found : Option (Option (List Nat))) : Option Bool :=
  match found with
  | none => none
  | some (some t) => next t
  | some none => if ok then some false else none

/-- path/match.go `Match`; `none` is `ErrBadPattern`. -/
def pathMatchAux : Nat → List Nat → List Nat → Option Bool
  | 0, _, name => some (decide (name = []))
  | f + 1, pattern, name =>
    if pattern = [] then some (decide (name = []))
    else
      let star := (scanChunk pattern).1
      let chunk := (scanChunk pattern).2.1
      let rest := (scanChunk pattern).2.2
      if star = true ∧ chunk = [] then some (decide (47 ∉ name))
      else
        match matchChunk chunk name with
        | none => none
        | some (some t) =>
          if t = [] ∨ rest ≠ [] then pathMatchAux f rest t
          else
            matchTail (pathMatchAux f rest) (restOk pattern.length rest)
              (if star then starLoop chunk (decide (rest = [])) name else some none)
        | some none =>
          matchTail (pathMatchAux f rest) (restOk pattern.length rest)
            (if star then starLoop chunk (decide (rest = [])) name else some none)

/-- path/match.go `Match`. -/
def pathMatch (pattern name : List Nat) : Option Bool := pathMatchAux pattern.length pattern name

/-- fileupload/fileupload.go:108-118: `checkOrigin`; `none` is a panic. -/
def checkOrigin : List (List Nat) → List Nat → Option Bool
  | [], _ => some false
  | origin :: rest, reqOrigin =>
    match pathMatch origin reqOrigin with
    | none => none
    | some true => some true
    | some false => checkOrigin rest reqOrigin

end Verif.Model
