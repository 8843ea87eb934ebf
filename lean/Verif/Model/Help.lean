import Verif.Model.Service
import Verif.Model.GenMsg

/-! # Model of the help of the service (service.go) -/

namespace Verif.Model

/-- service.go:211-366: the usage and the description of each command. -/
def svcTexts : SvcHandler → Str × Str
  | .help => (b!"[command]",
      b!"print help message")
  | .networkCreate => (b!"-addr <addr> [-name name] [-username username] [-pass pass] [-realname realname] [-certfp fingerprint] [-nick nick] [-auto-away auto-away] [-enabled enabled] [-ignore-limit ignore-limit] [-connect-command command]...",
      b!"add a new network")
  | .networkStatus => (b!"",
      b!"show a list of saved networks and their current status")
  | .networkUpdate => (b!"[name] [-addr addr] [-name name] [-username username] [-pass pass] [-realname realname] [-certfp fingerprint] [-nick nick] [-auto-away auto-away] [-enabled enabled] [-ignore-limit ignore-limit] [-connect-command command]...",
      b!"update a network")
  | .networkDelete => (b!"[name]",
      b!"delete a network")
  | .networkQuote => (b!"[name] <command>",
      b!"send a raw line to a network")
  | .certfpGenerate => (b!"[-key-type rsa|ecdsa|ed25519] [-bits N] [-network name]",
      b!"generate a new self-signed certificate, defaults to using RSA-3072 key")
  | .certfpFingerprints => (b!"[-network name]",
      b!"show fingerprints of certificate")
  | .saslStatus => (b!"[-network name]",
      b!"show SASL status")
  | .saslSetPlain => (b!"[-network name] <username> <password>",
      b!"set SASL PLAIN credentials")
  | .saslReset => (b!"[-network name]",
      b!"disable SASL authentication and remove stored credentials")
  | .userStatus => (b!"[username]",
      b!"show a list of users and their current status")
  | .userCreate => (b!"-username <username> -password <password> [-disable-password] [-admin true|false] [-nick <nick>] [-realname <realname>] [-enabled true|false]  [-max-networks <max-networks>]",
      b!"create a new soju user")
  | .userUpdate => (b!"[username] [-password <password>] [-disable-password] [-admin true|false] [-nick <nick>] [-realname <realname>] [-enabled true|false] [-max-networks <max-networks>]",
      b!"update a user")
  | .userDelete => (b!"<username> [confirmation token]",
      b!"delete a user")
  | .userRun => (b!"<username> <command>",
      b!"run a command as another user")
  | .channelStatus => (b!"[-network name]",
      b!"show a list of saved channels and their current status")
  | .channelCreate => (b!"<name> [-detached <true|false>] [-relay-detached <default|none|highlight|message>] [-reattach-on <default|none|highlight|message>] [-detach-after <duration>] [-detach-on <default|none|highlight|message>]",
      b!"create a channel")
  | .channelUpdate => (b!"<name> [-detached <true|false>] [-relay-detached <default|none|highlight|message>] [-reattach-on <default|none|highlight|message>] [-detach-after <duration>] [-detach-on <default|none|highlight|message>]",
      b!"update a channel")
  | .channelDelete => (b!"<name>",
      b!"delete a channel")
  | .serverStatus => (b!"",
      b!"show server statistics")
  | .serverNotice => (b!"<notice>",
      b!"broadcast a notice to all connected bouncer users")
  | .serverDebug => (b!"<true|false>",
      b!"enable/disable debug logging to stderr (will leak sensitive information)")

/-- service.go:199-206: `Names` (the entries in the order of their names), by insertion. -/
def svcInsert (e : Str × SvcCmd) : List (Str × SvcCmd) → List (Str × SvcCmd)
  | [] => [e]
  | x :: l => if strLt x.1 e.1 then x :: svcInsert e l else e :: x :: l

/-- service.go:199-206. -/
def svcSorted (cmds : List (Str × SvcCmd)) : List (Str × SvcCmd) := cmds.foldr svcInsert []

/-- service.go:369-386: `appendServiceCommandSetHelp`; each line is the list of its words.  The table is two levels deep,
and `depth` bounds the recursion. -/
def helpLines (admin global : Bool) : Nat → List (Str × SvcCmd) → List Str → List (List Str)
  | 0, _, _ => []
  | depth + 1, cmds, pre => (svcSorted cmds).flatMap (fun e =>
      if e.2.admin && !admin then []
      else if !e.2.global && global then []
      else if e.2.children.length = 0 then [pre ++ [e.1]]
      else helpLines admin global depth e.2.children (pre ++ [e.1]))

/-- service.go:154, 398, 412: the list of commands that is printed. -/
def helpList (ls : List (List Str)) : Str := b!"available commands: " ++ joinStr b!", " (ls.map (joinStr b!" "))

/-- service.go:400-406: the help of one command (`handle` is set for every command without children). -/
def helpText (words : List Str) (cmd : SvcCmd) : Str :=
  let t := (cmd.handle.map svcTexts).getD ([], [])
  joinStr b!" " words ++ (if t.1 ≠ [] then b!" " ++ t.1 else []) ++ b!": " ++ t.2

/-- service.go:388-415: `handleServiceHelp`: what is printed, or the error. -/
def handleServiceHelp (order : List (Str × SvcCmd) → List (Str × SvcCmd)) (ctx : SvcCtx) (params : List Str) :
    Except SvcError Str :=
  if params.length > 0 then
    match svcGet order serviceCommands params with
    | .error e => .error e
    | .ok (cmd, rest) =>
      let words := params.take (params.length - rest.length)
      if cmd.children.length > 0 then .ok (helpList (helpLines ctx.admin ctx.user.isNone 2 cmd.children words))
      else .ok (helpText words cmd)
  else .ok (helpList (helpLines ctx.admin ctx.user.isNone 2 serviceCommands []))

/-- service.go:135-167: what a line prints if it asks for help: the command `help`, or the name of a group (151-156). -/
def svcHelpOutput (order : List (Str × SvcCmd) → List (Str × SvcCmd)) (ctx : SvcCtx) (words : List Str) :
    Option (Except SvcError Str) :=
  match handleServiceCommand order ctx words with
  | .run .help params => some (handleServiceHelp order ctx params)
  | .listCommands =>
    match svcGet order serviceCommands words with
    | .ok (cmd, _) => some (.ok (helpList (helpLines ctx.admin ctx.user.isNone 2 cmd.children words)))
    | .error _ => none
  | _ => none

end Verif.Model
