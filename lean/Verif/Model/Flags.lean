import Verif.Model.GoStr
import Verif.Model.GoNum

/-! # Model of Go's flag package, as used by the service commands (service.go:417-491) -/

namespace Verif.Model

/-- A defined flag: whether it is boolean (`IsBoolFlag`), and what setting it does to the variables. -/
structure FlagDef (σ : Type) where
  isBool : Bool
  set : Str → σ → Option σ

/-- `flag.FlagSet.parseOne`: the name and value of a flag argument `-name`, `--name`, `-name=value`,
`--name=value`, minuses already removed. The first character is never taken for the equals sign. -/
def flagNameValue (name : Str) : Str × Option Str :=
  match name with
  | [] => ([], none)
  | c :: rest =>
    match cutStr [61] rest with
    | some (n, v) => (c :: n, some v)
    | none => (name, none)

/-- `flag.FlagSet.Parse` of Go's standard library: `none` is an error, otherwise the variables and the
remaining arguments. -/
def parseFlags {σ : Type} (formal : Str → Option (FlagDef σ)) : List Str → σ → Option (σ × List Str)
  | [], st => some (st, [])
  | s :: args, st =>
    if s.length < 2 ∨ s.head? ≠ some 45 then some (st, s :: args)
    else if s = [45, 45] then some (st, args)
    else
      let name := if hasPrefix [45, 45] s then s.drop 2 else s.drop 1
      if name = [] ∨ name.head? = some 45 ∨ name.head? = some 61 then none
      else
        match formal (flagNameValue name).1, (flagNameValue name).2 with
        | none, _ => none
        | some f, some v =>
          match f.set v st with
          | none => none
          | some st' => parseFlags formal args st'
        | some f, none =>
          if f.isBool then
            match f.set b!"true" st with
            | none => none
            | some st' => parseFlags formal args st'
          else
            match args with
            | [] => none
            | v :: args' =>
              match f.set v st with
              | none => none
              | some st' => parseFlags formal args' st'

/-- `strconv.ParseBool` of Go's standard library. -/
def parseBool (s : Str) : Option Bool :=
  if s = b!"1" ∨ s = b!"t" ∨ s = b!"T" ∨ s = b!"true" ∨ s = b!"TRUE" ∨ s = b!"True" then some true
  else if s = b!"0" ∨ s = b!"f" ∨ s = b!"F" ∨ s = b!"false" ∨ s = b!"FALSE" ∨ s = b!"False" then some false
  else none

/-- service.go:1050-1055: `popArg`. -/
def popArg (params : List Str) : Str × List Str :=
  match params with
  | p :: rest => if hasPrefix b!"-" p then ([], params) else (p, rest)
  | [] => ([], [])

end Verif.Model
