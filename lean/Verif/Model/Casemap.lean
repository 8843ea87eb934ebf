import Verif.Model.GoMap

/-! # Model of xirc/casemapping.go -/

namespace Verif.Model

/-- xirc/casemapping.go:49-55 — the three `CaseMapping` values.  Simplification: Go uses a
function type; only these three functions ever inhabit it (`ParseCaseMapping`). -/
inductive CaseMapping where
  | ascii | rfc1459 | rfc1459Strict
deriving DecidableEq, Repr

/-- xirc/casemapping.go:3-11, loop body of `casemapASCII`: `'A' <= r && r <= 'Z'` becomes
`r + 'a' - 'A'` (65..90 ↦ 97..122). -/
def casemapASCIIByte (r : Byte) : Byte :=
  if 65 ≤ r ∧ r ≤ 90 then r + 97 - 65 else r

/-- xirc/casemapping.go:13-29, loop body of `casemapRFC1459`. -/
def casemapRFC1459Byte (r : Byte) : Byte :=
  if 65 ≤ r ∧ r ≤ 90 then r + 97 - 65
  else if r = 123 then 91        -- '{' ↦ '['
  else if r = 125 then 93        -- '}' ↦ ']'
  else if r = 92 then 124        -- '\' ↦ '|'
  else if r = 126 then 94        -- '~' ↦ '^'
  else r

/-- xirc/casemapping.go:31-45, loop body of `casemapRFC1459Strict`. -/
def casemapRFC1459StrictByte (r : Byte) : Byte :=
  if 65 ≤ r ∧ r ≤ 90 then r + 97 - 65
  else if r = 123 then 91
  else if r = 125 then 93
  else if r = 92 then 124
  else r

/-- xirc/casemapping.go:3-45 — the fold functions rewrite each byte independently. -/
def casemap : CaseMapping → Str → Str
  | .ascii, name => name.map casemapASCIIByte
  | .rfc1459, name => name.map casemapRFC1459Byte
  | .rfc1459Strict, name => name.map casemapRFC1459StrictByte

/-- xirc/casemapping.go:57-68 — `ParseCaseMapping`; `none` is the nil function. -/
def parseCaseMapping (s : Str) : Option CaseMapping :=
  if s = b!"ascii" then some .ascii
  else if s = b!"rfc1459" then some .rfc1459
  else if s = b!"rfc1459-strict" then some .rfc1459Strict
  else none

/-- xirc/casemapping.go:75-78 — `caseMappingEntry`. -/
structure CMEntry (V : Type) where
  originalKey : Str
  value : V
deriving DecidableEq, Repr

/-- xirc/casemapping.go:70-73 — `CaseMappingMap`.  The Go map `m` is an association list from
folded key to entry; the list order stands for one (arbitrary) Go iteration order. -/
structure CMMap (V : Type) where
  m : GoMap Str (CMEntry V)
  cm : CaseMapping
deriving Repr

namespace CMMap
variable {V : Type}

/-- xirc/casemapping.go:80-85 — `NewCaseMappingMap`. -/
def new (cm : CaseMapping) : CMMap V := ⟨[], cm⟩

/-- xirc/casemapping.go:87-90 — `Has`. -/
def has (c : CMMap V) (name : Str) : Bool := (GoMap.get c.m (casemap c.cm name)).isSome

/-- xirc/casemapping.go:92-94 — `Len`. -/
def len (c : CMMap V) : Nat := c.m.length

/-- xirc/casemapping.go:96-103 — `Get`; the Go zero value for a missing key is `none`. -/
def get (c : CMMap V) (name : Str) : Option V :=
  (GoMap.get c.m (casemap c.cm name)).map (·.value)

/-- xirc/casemapping.go:105-117 — `Set`: a present entry keeps its original key. -/
def set (c : CMMap V) (name : Str) (value : V) : CMMap V :=
  let nameCM := casemap c.cm name
  match GoMap.get c.m nameCM with
  | none => { c with m := GoMap.set c.m nameCM ⟨name, value⟩ }
  | some entry => { c with m := GoMap.set c.m nameCM { entry with value := value } }

/-- xirc/casemapping.go:119-121 — `Del`. -/
def del (c : CMMap V) (name : Str) : CMMap V :=
  { c with m := GoMap.del c.m (casemap c.cm name) }

/-- xirc/casemapping.go:123-127 — `ForEach`: the (key, value) pairs passed to the callback. -/
def forEach (c : CMMap V) : List (Str × V) :=
  c.m.map (fun p => (p.2.originalKey, p.2.value))

/-- xirc/casemapping.go:129-136 — `SetCaseMapping`.  `order` is the order in which the Go map
iteration visits the entries (any permutation of `c.m`). -/
def setCaseMapping (_c : CMMap V) (order : List (Str × CMEntry V)) (cm' : CaseMapping) : CMMap V :=
  { m := order.foldl (fun m p => GoMap.set m (casemap cm' p.2.originalKey) p.2) [], cm := cm' }

/-- Operations on a `CaseMappingMap` under a fixed mapping. -/
inductive Op (V : Type) where
  | set (name : Str) (value : V)
  | del (name : Str)
deriving Repr

/-- One operation. -/
def step (c : CMMap V) : Op V → CMMap V
  | .set n v => c.set n v
  | .del n => c.del n

/-- A history of operations, oldest first. -/
def run (cm : CaseMapping) (ops : List (Op V)) : CMMap V := ops.foldl step (new cm)

/-- Every state a `CaseMappingMap` can be in: created, stored to, deleted from, and re-keyed with
`SetCaseMapping` under any iteration order. -/
inductive Reach : CMMap V → Prop
  | new (cm : CaseMapping) : Reach (new cm)
  | set {c : CMMap V} (n : Str) (v : V) : Reach c → Reach (c.set n v)
  | del {c : CMMap V} (n : Str) : Reach c → Reach (c.del n)
  | recase {c : CMMap V} (order : List (Str × CMEntry V)) (cm' : CaseMapping) :
      order.Perm c.m → Reach c → Reach (c.setCaseMapping order cm')

end CMMap
end Verif.Model
