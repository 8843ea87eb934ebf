import Verif.Model.GoMap
import Verif.Model.GoNum

/-! # Model of labelled responses (upstream.go:406-413, 583-613, 1049-1082, 2110-2119) -/

namespace Verif.Model

/-- upstream.go:2115 — `fmt.Sprintf("sd-%d-%d", downstreamID, uc.nextLabelID)`. -/
def labelOf (downstreamID offset : Nat) : Str := b!"sd-" ++ itoa downstreamID ++ b!"-" ++ itoa offset

/-- upstream.go:2110-2119 — the label `SendMessageLabeled` attaches and the next value of the (uint64)
counter, for a server with labeled-response. -/
def mintLabel (nextLabelID downstreamID : Nat) : Str × Nat :=
  (labelOf downstreamID nextLabelID, (nextLabelID + 1) % 2 ^ 64)

/-- The labels of a sequence of messages sent for the given clients. -/
def mintLabels (nextLabelID : Nat) : List Nat → List Str
  | [] => []
  | d :: ds => (mintLabel nextLabelID d).1 :: mintLabels (mintLabel nextLabelID d).2 ds

/-- Spaces skipped by `%d` in fmt.Sscanf (simplification: ASCII ones only; CR LF and LF, which make Sscanf
fail, are not treated as spaces). -/
def scanSpace (c : Byte) : Bool := decide (c = 9 ∨ c = 11 ∨ c = 12 ∨ c = 13 ∨ c = 32)

/-- One `%d` of fmt.Sscanf into a uint64: skips spaces, reads the longest run of digits. -/
def scanUint (s : Str) : Option (Nat × Str) :=
  let s := s.dropWhile scanSpace
  (parseUint64 (s.takeWhile isDigit)).map (fun n => (n, s.dropWhile isDigit))

/-- upstream.go:605-612 — `fmt.Sscanf(label, "sd-%d-%d", …)`: the downstream ID, or an error.  Sscanf does
not look at what follows the second number. -/
def scanLabel (label : Str) : Option Nat :=
  if hasPrefix b!"sd-" label then
    match scanUint (label.drop 3) with
    | some (d, 45 :: rest) => (scanUint rest).map (fun _ => d)
    | _ => none
  else none

/-- The labels of the open batches: `uc.batches` restricted to its Label fields. -/
abbrev BatchLabels := GoMap Str Str

/-- upstream.go:584-601 — the label of a message: its own, or that of its batch; `none` if the batch is
unknown (an absent label is the empty string). -/
def messageLabel (batches : BatchLabels) (label batch : Option Str) : Option Str :=
  let l := label.getD []
  match batch with
  | none => some l
  | some b => match GoMap.get batches b with
    | none => none
    | some bl => some (if l = [] then bl else l)

/-- upstream.go:583-613 — the downstream ID of a message (0: none); `none` is a refused message. -/
def messageDownstream (batches : BatchLabels) (label batch : Option Str) : Option Nat :=
  match messageLabel batches label batch with
  | none => none
  | some l => if l = [] then some 0 else scanLabel l

/-- upstream.go:1049-1082 — a BATCH message with reference tag `ref` and tags `label`, `batch`, accepted by
the checks above; `none` is a refused message.  `opens`: the parameter starts with `+` (else `-`). -/
def handleBatch (batches : BatchLabels) (opens : Bool) (ref : Str) (label batch : Option Str) : Option BatchLabels :=
  match messageLabel batches label batch, messageDownstream batches label batch with
  | some l, some _ =>
    if opens then
      match GoMap.get batches ref with
      | some _ => none
      | none => some (GoMap.set batches ref l)
    else
      match GoMap.get batches ref with
      | some _ => some (GoMap.del batches ref)
      | none => none
  | _, _ => none

/-- upstream.go:402-413, user.go:188-195 — `forEachDownstreamByID`: the clients (ID, network) reached. -/
def forEachByID (clients : List (Nat × Option Nat)) (net id : Nat) : List Nat :=
  ((clients.filter (fun d => decide (d.2 = some net))).filter (fun d => !(decide (id ≠ 0 ∧ id ≠ d.1)))).map (·.1)

end Verif.Model
