import Verif.Model.Ctcp

/-! # Model of the ZNC log format (msgstore/znclog) -/

namespace Verif.Model

/-- The source of a message (`irc.Prefix`). -/
structure Source where
  name : Str
  user : Str := []
  host : Str := []
deriving DecidableEq, Repr

/-- The parts of a message that the log format deals with. -/
structure LogMsg where
  source : Source
  command : Str
  params : List Str
deriving DecidableEq, Repr

/-- The `i`-th parameter if there is one, else the empty string (`if len(msg.Params) > i`). -/
def paramOr (params : List Str) (i : Nat) : Str := params.getD i []

/-- msgstore/znclog/writer.go:23-67 — `formatMessage`.  The comment there says that it assumes a
well-formed message; a missing mandatory parameter would panic and is the empty string here.
`strings.ToUpper` is modelled on ASCII letters. -/
def formatMessage (m : LogMsg) : Str :=
  let cmd := asciiUpper m.command
  if cmd = b!"NICK" then b!"*** " ++ m.source.name ++ b!" is now known as " ++ paramOr m.params 0
  else if cmd = b!"JOIN" then
    b!"*** Joins: " ++ m.source.name ++ b!" (" ++ m.source.user ++ b!"@" ++ m.source.host ++ b!")"
  else if cmd = b!"PART" then
    b!"*** Parts: " ++ m.source.name ++ b!" (" ++ m.source.user ++ b!"@" ++ m.source.host ++ b!") ("
      ++ paramOr m.params 1 ++ b!")"
  else if cmd = b!"KICK" then
    b!"*** " ++ paramOr m.params 1 ++ b!" was kicked by " ++ m.source.name ++ b!" ("
      ++ paramOr m.params 2 ++ b!")"
  else if cmd = b!"QUIT" then
    b!"*** Quits: " ++ m.source.name ++ b!" (" ++ m.source.user ++ b!"@" ++ m.source.host ++ b!") ("
      ++ paramOr m.params 0 ++ b!")"
  else if cmd = b!"TOPIC" then
    b!"*** " ++ m.source.name ++ b!" changes topic to '" ++ paramOr m.params 1 ++ b!"'"
  else if cmd = b!"MODE" then
    b!"*** " ++ m.source.name ++ b!" sets mode: " ++ joinStr b!" " (m.params.drop 1)
  else if cmd = b!"NOTICE" then b!"-" ++ m.source.name ++ b!"- " ++ paramOr m.params 1
  else if cmd = b!"PRIVMSG" then
    match parseCTCP m.command m.params with
    | some (c, params) =>
      if c = b!"ACTION" then b!"* " ++ m.source.name ++ b!" " ++ params
      else b!"<" ++ m.source.name ++ b!"> " ++ paramOr m.params 1
    | none => b!"<" ++ m.source.name ++ b!"> " ++ paramOr m.params 1
  else []

/-- msgstore/znclog/writer.go:13-19 — `MarshalLine` at hour, minute, second. -/
def marshalLine (m : LogMsg) (h mi s : Nat) : Str :=
  let t := formatMessage m
  if t = [] then []
  else b!"[" ++ padDec 2 h ++ b!":" ++ padDec 2 mi ++ b!":" ++ padDec 2 s ++ b!"] " ++ t

/-- Two decimal digits. -/
def twoDigits (a b : Byte) : Option Nat :=
  if 48 ≤ a ∧ a ≤ 57 ∧ 48 ≤ b ∧ b ≤ 57 then some ((a - 48) * 10 + (b - 48)) else none

/-- msgstore/znclog/reader.go:17-24 — the timestamp prefix.  Simplification: `Sscanf` with `%02d` also
accepts a single digit or a sign, which the writer never produces; here they are an error. -/
def parseTimestamp : Str → Option ((Nat × Nat × Nat) × Str)
  | 91 :: h1 :: h2 :: 58 :: m1 :: m2 :: 58 :: s1 :: s2 :: 93 :: 32 :: rest => do
    let h ← twoDigits h1 h2
    let m ← twoDigits m1 m2
    let s ← twoDigits s1 s2
    pure ((h, m, s), rest)
  | _ => none

/-- `strings.TrimSuffix(strings.TrimPrefix(s, open), close)`. -/
def unwrap (o c s : Str) : Str := trimSuffix c (trimPrefix o s)

/-- `r := strings.TrimPrefix(rem, p); r != rem`. -/
def stripped (p s : Str) : Option Str := if trimPrefix p s ≠ s then some (trimPrefix p s) else none

/-- `strings.SplitN(s, " ", 3)`. -/
def split3 (s : Str) : List Str :=
  match cutStr b!" " s with
  | none => [s]
  | some (a, r) =>
    match cutStr b!" " r with
    | none => [a, r]
    | some (b, c) => [a, b, c]

/-- reader.go:36-73 — the "Joins:", "Parts:" and "Quits:" events; `kind` is that word. -/
def parseHostEvent (kind rest entity : Str) : Option LogMsg :=
  let args := split3 rest
  if args.length < 2 then none
  else
    let nick := args.getD 0 []
    let mask := unwrap b!"(" b!")" (args.getD 1 [])
    match cutStr b!"@" mask with
    | none => none
    | some (user, host) =>
      let src : Source := ⟨nick, user, host⟩
      let reason := if args.length > 2 then unwrap b!"(" b!")" (args.getD 2 []) else []
      if kind = b!"Joins:" then some ⟨src, b!"JOIN", [entity]⟩
      else if kind = b!"Parts:" then
        some ⟨src, b!"PART", if reason ≠ [] then [entity, reason] else [entity]⟩
      else some ⟨src, b!"QUIT", if reason ≠ [] then [reason] else []⟩

/-- reader.go:74-116 — the other events. -/
def parseNickEvent (nick rem entity : Str) : Option LogMsg :=
  match stripped b!"is now known as " rem with
  | some r => some ⟨⟨nick, [], []⟩, b!"NICK", [r]⟩
  | none =>
    match stripped b!"was kicked by " rem with
    | some r =>
      match cutStr b!" " r with
      | none => none
      | some (kicker, reason) =>
        let reason := unwrap b!"(" b!")" reason
        some ⟨⟨kicker, [], []⟩, b!"KICK", if reason ≠ [] then [entity, nick, reason] else [entity, nick]⟩
    | none =>
      match stripped b!"changes topic to " rem with
      | some r => some ⟨⟨nick, [], []⟩, b!"TOPIC", [entity, unwrap b!"'" b!"'" r]⟩
      | none =>
        match stripped b!"sets mode: " rem with
        | some r => some ⟨⟨nick, [], []⟩, b!"MODE", entity :: splitByte 32 r⟩
        | none => none

/-- reader.go:118-146 — text messages; `nickOf` is `database.GetNick(user, network)`. -/
def parseText (line entity ownNick : Str) : Option LogMsg :=
  let r : Option (Str × Str × Str) :=
    if hasPrefix b!"<" line then
      (cutStr b!"> " (line.drop 1)).map (fun p => (b!"PRIVMSG", p.1, p.2))
    else if hasPrefix b!"-" line then
      (cutStr b!"- " (line.drop 1)).map (fun p => (b!"NOTICE", p.1, p.2))
    else if hasPrefix b!"* " line then
      (cutStr b!" " (line.drop 2)).map
        (fun p => (b!"PRIVMSG", p.1, [1] ++ b!"ACTION " ++ p.2 ++ [1]))
    else none
  r.map (fun p =>
    let (cmd, sender, text) := p
    let entity := if entity = sender then ownNick else entity
    ⟨⟨sender, [], []⟩, cmd, [entity, text]⟩)

/-- msgstore/znclog/reader.go:16-162 — `UnmarshalLine`: outer `none` is the malformed timestamp error,
inner `none` is the nil message.  The date part of the result is the caller's `ref` date; the time of day
is returned here. -/
def unmarshalLine (line entity ownNick : Str) (events : Bool) :
    Option (Option LogMsg × Nat × Nat × Nat) := do
  let (t, line) ← parseTimestamp line
  let msg :=
    if events && hasPrefix b!"*** " line then
      match cutStr b!" " (line.drop 4) with
      | none => none
      | some (w, rest) =>
        if w = b!"Joins:" ∨ w = b!"Parts:" ∨ w = b!"Quits:" then parseHostEvent w rest entity
        else parseNickEvent w rest entity
    else parseText line entity ownNick
  pure (msg, t)

end Verif.Model
