import Verif.Basic

/-! # Specification: the events that the log records

Written from the IRC protocol, not from the log code. -/

namespace Verif.Spec

/-- What somebody does in a conversation. -/
inductive Event where
  | text (t : Str)
  | notice (t : Str)
  | action (t : Str)
  | join
  | part (reason : Str)
  | quit (reason : Str)
  | nick (new : Str)
  | kick (who reason : Str)
  | topic (t : Str)
  | mode (args : List Str)
deriving DecidableEq, Repr

/-- The command of the IRC message of an event. -/
def Event.command : Event → Str
  | .text _ => b!"PRIVMSG"
  | .notice _ => b!"NOTICE"
  | .action _ => b!"PRIVMSG"
  | .join => b!"JOIN"
  | .part _ => b!"PART"
  | .quit _ => b!"QUIT"
  | .nick _ => b!"NICK"
  | .kick _ _ => b!"KICK"
  | .topic _ => b!"TOPIC"
  | .mode _ => b!"MODE"

/-- A list with the reason unless it is empty. -/
def withReason (l : List Str) (reason : Str) : List Str := if reason = [] then l else l ++ [reason]

/-- The parameters of the IRC message of an event in `target`. -/
def Event.params (target : Str) : Event → List Str
  | .text t => [target, t]
  | .notice t => [target, t]
  | .action t => [target, 1 :: b!"ACTION " ++ t ++ [1]]
  | .join => [target]
  | .part r => withReason [target] r
  | .quit r => withReason [] r
  | .nick new => [new]
  | .kick who r => withReason [target, who] r
  | .topic t => [target, t]
  | .mode args => target :: args

/-- The first word of a CTCP-framed text in capitals is ACTION. -/
def isAction (t : Str) : Prop :=
  t.head? = some 1 ∧
  ((t.dropWhile (· = 1)).takeWhile (fun c => decide (c ≠ 32 ∧ c ≠ 1))).map
    (fun c => if 97 ≤ c ∧ c ≤ 122 then c - 32 else c) = b!"ACTION"

/-- Well-formed events: names, modes and host masks contain no space (IRC middle parameters), a message
that is not an action is not framed as one. -/
def Event.WF : Event → Prop
  | .text t => ¬ isAction t
  | .action t => t.getLast? ≠ some 1
  | .kick who _ => 32 ∉ who ∧ who ≠ b!"Joins:" ∧ who ≠ b!"Parts:" ∧ who ≠ b!"Quits:"
  | .mode args => args ≠ [] ∧ ∀ a ∈ args, 32 ∉ a
  | _ => True

/-- Is it a text message? (The others are events, only returned on demand.) -/
def Event.isText : Event → Bool
  | .text _ | .notice _ | .action _ => true
  | _ => false

end Verif.Spec
