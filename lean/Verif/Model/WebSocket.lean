import Verif.Model.GenMsg
import Verif.Model.GoStr

/-! # Model of the WebSocket transport (conn.go) -/

namespace Verif.Model

/-- unicode/utf8 (library): is this a continuation byte? -/
def utf8Cont (b : Option Byte) (lo hi : Byte) : Bool :=
  match b with
  | some b => decide (lo ≤ b ∧ b ≤ hi)
  | none => false

/-- unicode/utf8 `DecodeRuneInString` (library): the width of what begins here; 1 for what is not well-formed (and for
ASCII). -/
def utf8Width (s : Str) : Nat :=
  match s with
  | [] => 0
  | c :: r =>
    if 0xC2 ≤ c ∧ c ≤ 0xDF then (if utf8Cont r[0]? 0x80 0xBF then 2 else 1)
    else if 0xE0 ≤ c ∧ c ≤ 0xEF then
      (if utf8Cont r[0]? (if c = 0xE0 then 0xA0 else 0x80) (if c = 0xED then 0x9F else 0xBF) && utf8Cont r[1]? 0x80 0xBF then 3 else 1)
    else if 0xF0 ≤ c ∧ c ≤ 0xF4 then
      (if utf8Cont r[0]? (if c = 0xF0 then 0x90 else 0x80) (if c = 0xF4 then 0x8F else 0xBF) && utf8Cont r[1]? 0x80 0xBF &&
        utf8Cont r[2]? 0x80 0xBF then 4 else 1)
    else 1

/-- strings `ToValidUTF8` (library) with the replacement character: the loop; `invalid` is whether the byte before belonged
to an ill-formed sequence.  The fast path for what is well-formed gives the same result and is left out. -/
def toValidLoop (invalid : Bool) : Str → Str
  | [] => []
  | c :: s =>
    if c < 0x80 then c :: toValidLoop false s
    else if utf8Width (c :: s) = 1 then (if invalid then [] else [0xEF, 0xBF, 0xBD]) ++ toValidLoop true s
    else c :: s.take (utf8Width (c :: s) - 1) ++ toValidLoop false (s.drop (utf8Width (c :: s) - 1))
termination_by s => s.length
decreasing_by all_goals simp <;> omega

/-- conn.go:67-76 — `WriteMessage`: the text frame for a message whose `String()` is `line`.  The deadline is left out. -/
def wsWrite (line : Str) : Str := toValidLoop false line

/-- What `websocket.Conn.Read` returns: a frame, or an error with its close status. -/
inductive WsRead where
  | frame (b : Str)
  | error (status : Nat)
deriving DecidableEq, Repr

/-- What `ReadMessage` returns: a message, the end, or an error. -/
inductive WsResult where
  | msg (m : Msg)
  | eof
  | error
deriving DecidableEq, Repr

/-- irc.v4 `ParseMessage` (library), for lines without tags and source: line breaks at the end are cut off, the text after
the first ` :` is the last parameter, the other words are the command and the first parameters.  The command is not put in
upper case. -/
def ircParse (line : Str) : Option Msg :=
  let line := (line.reverse.dropWhile (fun c => c = 10 ∨ c = 13)).reverse
  let cut := cutColon line
  match (splitByte 32 cut.1).filter (· ≠ []) ++ cut.2.toList with
  | [] => none
  | c :: ps => some ⟨c, ps⟩
where
  /-- strings `SplitN(line, " :", 2)`. -/
  cutColon : Str → Str × Option Str
  | [] => ([], none)
  | 32 :: 58 :: t => ([], some t)
  | c :: t => ((c :: (cutColon t).1), (cutColon t).2)

/-- conn.go:48-65 — `ReadMessage`; the statuses 1000 and 1001 are `StatusNormalClosure` and `StatusGoingAway`. -/
def wsRead : WsRead → WsResult
  | .error status => if status = 1000 ∨ status = 1001 then .eof else .error
  | .frame b =>
    match ircParse b with
    | some m => .msg m
    | none => .error

end Verif.Model
