import Verif.Model.Words
import Verif.Model.SearchText

/-! # Model of the parser for ZNC configuration files (contrib/znc-import/main.go)

The file is a list of runes, as in `Model.Words`: the decoding of UTF-8 is not modelled.  Where the code reads single
bytes it looks for ASCII characters only, which is the same.  Errors of the file system are left out: `none` is a
file that is rejected.  The line number, which only occurs in messages, is left out. -/

namespace Verif.Model

/-- contrib/znc-import/main.go:266-271 — `zncSection`.  Simplification: the map from keys to lists of values is kept as
the list of pairs in the order of the file. -/
inductive ZncSection
  | mk (typ name : Str) (values : List (Str × Str)) (children : List ZncSection)

/-- contrib/znc-import/main.go:267 — the field `Type`. -/
def ZncSection.typ : ZncSection → Str | .mk t _ _ _ => t

/-- contrib/znc-import/main.go:268 — the field `Name`. -/
def ZncSection.name : ZncSection → Str | .mk _ n _ _ => n

/-- contrib/znc-import/main.go:269 — the field `Values`. -/
def ZncSection.values : ZncSection → List (Str × Str) | .mk _ _ v _ => v

/-- contrib/znc-import/main.go:270 — the field `Children`. -/
def ZncSection.children : ZncSection → List ZncSection | .mk _ _ _ c => c

/-- contrib/znc-import/main.go:273-279 — `ForEach`: the sections it calls the function with. -/
def zncEach (s : ZncSection) (typ : Str) : List ZncSection := s.children.filter (fun c => decide (c.typ = typ))

/-- contrib/znc-import/main.go:281-288 — `zncValues`, `Get`: the first value of the key, or nothing. -/
def zncGet (values : List (Str × Str)) (k : Str) : Str :=
  match values.filter (fun p => decide (p.1 = k)) with
  | [] => []
  | p :: _ => p.2

/-- contrib/znc-import/main.go:446-464 — `readWord`: the word before the delimiter, and the rest. -/
def zncWord (delim : Nat) : Str → Option (Str × Str)
  | [] => none
  | c :: s =>
    if c = delim then some ([], s)
    else if c = 10 then none
    else (zncWord delim s).map (fun r => (c :: r.1, r.2))

/-- contrib/znc-import/main.go:436-444 — `expectRune`: the rest. -/
def zncExpect (r : Nat) : Str → Option Str
  | [] => none
  | c :: s => if c = r then some s else none

/-- contrib/znc-import/main.go:367-381 — `skipSpace`. -/
def zncSkipSpace (s : Str) : Str := s.dropWhile isSpaceRune

/-- contrib/znc-import/main.go:391-402 — the loop of `skipComment`. -/
def zncSkipLine : Str → Str
  | [] => []
  | c :: s => if c = 10 then s else zncSkipLine s

/-- contrib/znc-import/main.go:383-403 — `skipComment`. -/
def zncSkipComment (s : Str) : Option Str := (zncExpect 47 s).bind (fun s => (zncExpect 47 s).map zncSkipLine)

/-- contrib/znc-import/main.go:405-415 — `sectionHeader`: the type, the name and the rest. -/
def zncHeader (s : Str) : Option (Str × Str × Str) :=
  match zncExpect 60 s with
  | none => none
  | some s => match zncWord 32 s with
    | none => none
    | some (typ, s) => match zncWord 62 s with
      | none => none
      | some (name, s) => some (typ, name, s)

/-- contrib/znc-import/main.go:417-425 — `sectionFooter`: the type and the rest. -/
def zncFooter (s : Str) : Option (Str × Str) :=
  (zncExpect 60 s).bind (fun s => (zncExpect 47 s).bind (fun s => zncWord 62 s))

/-- `strings.TrimSpace` (library), on runes. -/
def trimSpaceRunes (s : Str) : Str := ((s.dropWhile isSpaceRune).reverse.dropWhile isSpaceRune).reverse

/-- contrib/znc-import/main.go:427-434 — `keyValuePair`: the key, the value and the rest. -/
def zncPair (s : Str) : Option (Str × Str × Str) :=
  match zncWord 61 s with
  | none => none
  | some (k, s) => match zncWord 10 s with
    | none => none
    | some (v, s) => some (trimSpaceRunes k, trimSpaceRunes v, s)

/-- contrib/znc-import/main.go:311-365 — `sectionBody`: the values, the children and the rest.  The first argument is a
bound on the number of iterations and calls, for which the length of the text is enough.  A single rune that is left
is not read if it is a single byte (`Peek(2)` reports the end of the file); otherwise it is a key without a value. -/
def zncBody : Nat → List (Str × Str) → List ZncSection → Str → Option (List (Str × Str) × List ZncSection × Str)
  | 0, _, _, _ => none
  | n + 1, vs, cs, s =>
    match zncSkipSpace s with
    | [] => some (vs, cs, [])
    | [c] => if c < 128 then some (vs, cs, [c]) else none
    | c :: d :: s =>
      if c = 60 then
        if d = 47 then some (vs, cs, c :: d :: s)
        else match zncHeader (c :: d :: s) with
          | none => none
          | some (typ, name, s) => match zncBody n [] [] s with
            | none => none
            | some (cvs, ccs, s) => match zncFooter s with
              | none => none
              | some (footer, s) =>
                if footer ≠ typ then none else zncBody n vs (cs ++ [.mk typ name cvs ccs]) s
      else if c = 47 ∧ d = 47 then
        match zncSkipComment (c :: d :: s) with
        | none => none
        | some s => zncBody n vs cs s
      else match zncPair (c :: d :: s) with
        | none => none
        | some (k, v, s) => zncBody n (vs ++ [(k, v)]) cs s

/-- contrib/znc-import/main.go:78-82 — the whole file. -/
def zncParse (s : Str) : Option ZncSection :=
  (zncBody (s.length + 1) [] [] s).map (fun r => .mk [] [] r.1 r.2.1)

/-- contrib/znc-import/main.go:241-264, 182 — `importNetworkServer`, and the URL as a text: the address and the
password.  `strings.Fields` is `FieldsFunc` with the white space; `esc` is the escaping of a host by net/url. -/
def zncServer (esc : Str → Str) (s : Str) : Option (Str × Str) :=
  match fieldsFrom (fun c => !isSpaceRune c) [] s with
  | host :: port :: more =>
    some (if hasPrefix b!"+" port then b!"ircs://" ++ esc (host ++ b!":" ++ port.drop 1)
      else b!"irc+insecure://" ++ esc (host ++ b!":" ++ port), more.headD [])
  | _ => none

end Verif.Model
