import Verif.Model.GoStr
import Verif.Model.Modes

/-! # Model of the message helpers of xirc/xirc.go and of upstream.go's prefix parsing -/

namespace Verif.Model

/-- xirc/xirc.go:52-70 — `ParseCTCPMessage` on the command and parameters of a message.
`strings.ToUpper` is modelled on ASCII letters. -/
def parseCTCP (command : Str) (params : List Str) : Option (Str × Str) :=
  if ¬ (command = b!"PRIVMSG" ∨ command = b!"NOTICE") then none
  else match params with
    | _ :: text :: _ =>
      if ¬ hasPrefix [1] text then none
      else
        let text := trimBoth [1] text
        match cutStr b!" " text with
        | none => some (asciiUpper text, [])
        | some (word, rest) => some (asciiUpper word, rest)
    | _ => none

/-- xirc/xirc.go:80-90 — `ParseChannelStatus`: outer `none` is the index-out-of-range panic on the empty
string, inner `none` the returned error. -/
def parseChannelStatus (s : Str) : Option (Option Byte) :=
  match s with
  | [] => none
  | [c] => if c = 61 ∨ c = 64 ∨ c = 42 then some (some c) else some none
  | _ => some none

/-- upstream.go:646-647 — the STATUSMSG sigils are stripped from a message target. -/
def stripStatusMsg (available target : Str) : Str := trimLeft available target

/-- irc.go:198-208 — `stripMemberPrefixes` (on bytes; the code converts each rune to a byte, which is
the same on ASCII flags). -/
def stripMemberPrefixes (memberships : List Membership) (flags : Str) : Str :=
  flags.filter (fun c => !memberships.any (fun m => decide (c = m.pfx)))

end Verif.Model
