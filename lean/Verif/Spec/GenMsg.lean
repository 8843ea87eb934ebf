import Verif.Basic

/-! # Specification: reading back lists packed into IRC lines -/

namespace Verif.Spec

/-- Split a parameter at a separator (`"a,b"` ↦ `["a","b"]`, `""` ↦ `[""]`). -/
def splitSep (sep : Byte) : Str → List Str
  | [] => [[]]
  | c :: s =>
    if c = sep then [] :: splitSep sep s
    else
      match splitSep sep s with
      | [] => [[c]]
      | x :: xs => (c :: x) :: xs

/-- A comma- or space-separated list parameter; the empty parameter is the empty list. -/
def listParam (sep : Byte) (s : Str) : List Str := if s = [] then [] else splitSep sep s

/-- Pair channels with keys by position; channels without a key get the empty key. -/
def padZip : List Str → List Str → List (Str × Str)
  | [], _ => []
  | c :: cs, [] => (c, []) :: padZip cs []
  | c :: cs, k :: ks => (c, k) :: padZip cs ks

/-- How an IRC server reads the parameters of `JOIN <channels> [<keys>]` (RFC 2812 §3.2.1). -/
def joinTargets : List Str → List (Str × Str)
  | [chans] => padZip (splitSep 44 chans) []
  | [chans, keys] => padZip (splitSep 44 chans) (splitSep 44 keys)
  | _ => []

/-- Length of a line made of a command and parameters separated by single spaces, without the final
CR LF. -/
def lineLength (command : Str) (params : List Str) : Nat :=
  command.length + (params.map (fun p => 1 + p.length)).sum

/-- Hexadecimal digit value. -/
def hexVal (c : Byte) : Option Nat :=
  if 48 ≤ c ∧ c ≤ 57 then some (c - 48)
  else if 65 ≤ c ∧ c ≤ 70 then some (c - 55)
  else if 97 ≤ c ∧ c ≤ 102 then some (c - 87)
  else none

/-- How a client decodes an ISUPPORT value: `\xHH` stands for the byte HH. -/
def isupportDecode : Str → Str
  | 92 :: 120 :: h :: l :: s =>
    match hexVal h, hexVal l with
    | some a, some b => (a * 16 + b) :: isupportDecode s
    | _, _ => 92 :: isupportDecode (120 :: h :: l :: s)
  | c :: s => c :: isupportDecode s
  | [] => []
termination_by s => s.length

end Verif.Spec
