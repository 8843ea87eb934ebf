import Verif.Model.Flags
import Verif.Model.GoMap

/-! # Model of the service commands (service.go)

The lookup of a command, the checks made before it runs, and the commands on accounts. The handlers of the
other commands are named but their effects are not modelled here (see `Model/Network.lean`): none of them
touches an account record. -/

namespace Verif.Model

/-- service.go:211-366: the handlers of the command table. -/
inductive SvcHandler
  | help
  | networkCreate | networkStatus | networkUpdate | networkDelete | networkQuote
  | certfpGenerate | certfpFingerprints
  | saslStatus | saslSetPlain | saslReset
  | userStatus | userCreate | userUpdate | userDelete | userRun
  | channelStatus | channelCreate | channelUpdate | channelDelete
  | serverStatus | serverNotice | serverDebug
  deriving DecidableEq, Repr

/-- service.go:51-58: `serviceCommand`, without the help texts. A command set is the list of the entries of
the map. -/
inductive SvcCmd where
  | mk (handle : Option SvcHandler) (children : List (Str × SvcCmd)) (admin global : Bool)

namespace SvcCmd

/-- service.go:54. -/
def handle : SvcCmd → Option SvcHandler
  | mk h _ _ _ => h

/-- service.go:55. -/
def children : SvcCmd → List (Str × SvcCmd)
  | mk _ c _ _ => c

/-- service.go:56. -/
def admin : SvcCmd → Bool
  | mk _ _ a _ => a

/-- service.go:57. -/
def global : SvcCmd → Bool
  | mk _ _ _ g => g

end SvcCmd

/-- A command that is reserved neither to administrators nor to users. -/
def svcLeaf (h : SvcHandler) (admin global : Bool) : SvcCmd := .mk (some h) [] admin global

/-- service.go:210-367: the table of the commands. -/
def serviceCommands : List (Str × SvcCmd) := [
  (b!"help", svcLeaf .help false true),
  (b!"network", .mk none [
    (b!"create", svcLeaf .networkCreate false false),
    (b!"status", svcLeaf .networkStatus false false),
    (b!"update", svcLeaf .networkUpdate false false),
    (b!"delete", svcLeaf .networkDelete false false),
    (b!"quote", svcLeaf .networkQuote false false)] false false),
  (b!"certfp", .mk none [
    (b!"generate", svcLeaf .certfpGenerate false false),
    (b!"fingerprint", svcLeaf .certfpFingerprints false false)] false false),
  (b!"sasl", .mk none [
    (b!"status", svcLeaf .saslStatus false false),
    (b!"set-plain", svcLeaf .saslSetPlain false false),
    (b!"reset", svcLeaf .saslReset false false)] false false),
  (b!"user", .mk none [
    (b!"status", svcLeaf .userStatus true true),
    (b!"create", svcLeaf .userCreate true true),
    (b!"update", svcLeaf .userUpdate false true),
    (b!"delete", svcLeaf .userDelete false true),
    (b!"run", svcLeaf .userRun true true)] false true),
  (b!"channel", .mk none [
    (b!"status", svcLeaf .channelStatus false false),
    (b!"create", svcLeaf .channelCreate false false),
    (b!"update", svcLeaf .channelUpdate false false),
    (b!"delete", svcLeaf .channelDelete false false)] false false),
  (b!"server", .mk none [
    (b!"status", svcLeaf .serverStatus true true),
    (b!"notice", svcLeaf .serverNotice true true),
    (b!"debug", svcLeaf .serverDebug true true)] true false)]

/-- Why a command is not run. -/
inductive SvcError
  | noCommand | ambiguous | notFound | mustBeAdmin | mustBeUser | noHandler
  deriving DecidableEq, Repr

/-- service.go:179-187: the loop over the command set, in the order of the iteration; `cmd` is the command
found so far. -/
def prefixLoop (name : Str) : List (Str × SvcCmd) → Option SvcCmd → Except SvcError (Option SvcCmd)
  | [], cmd => .ok cmd
  | (k, c) :: rest, cmd =>
    if hasPrefix name k = false then prefixLoop name rest cmd
    else if cmd.isSome then .error .ambiguous
    else prefixLoop name rest (some c)

/-- service.go:174-191: find one command of a set; `order` is the order in which the map is iterated. -/
def svcFind (order : List (Str × SvcCmd) → List (Str × SvcCmd)) (cmds : List (Str × SvcCmd)) (name : Str) :
    Except SvcError SvcCmd :=
  match GoMap.get cmds name with
  | some c => .ok c
  | none =>
    match prefixLoop name (order cmds) none with
    | .error e => .error e
    | .ok none => .error .notFound
    | .ok (some c) => .ok c

/-- service.go:169-197: `serviceCommandSet.Get`. -/
def svcGet (order : List (Str × SvcCmd) → List (Str × SvcCmd)) :
    List (Str × SvcCmd) → List Str → Except SvcError (SvcCmd × List Str)
  | _, [] => .error .noCommand
  | cmds, name :: params =>
    match svcFind order cmds name with
    | .error e => .error e
    | .ok c => if params = [] ∨ c.children = [] then .ok (c, params) else svcGet order c.children params

/-- service.go:41-49: the parts of `serviceContext` the checks depend on: the name of the user, if any, and
whether they act as an administrator. -/
structure SvcCtx where
  user : Option Str
  admin : Bool
  deriving DecidableEq, Repr

/-- What a command line leads to. -/
inductive SvcOutcome
  | refused (e : SvcError)
  | listCommands
  | run (h : SvcHandler) (params : List Str)
  deriving DecidableEq, Repr

/-- service.go:135-167: `handleServiceCommand`, up to the call of the handler. -/
def handleServiceCommand (order : List (Str × SvcCmd) → List (Str × SvcCmd)) (ctx : SvcCtx)
    (words : List Str) : SvcOutcome :=
  match svcGet order serviceCommands words with
  | .error e => .refused e
  | .ok (cmd, params) =>
    if cmd.admin && !ctx.admin then .refused .mustBeAdmin
    else if !cmd.global && ctx.user.isNone then .refused .mustBeUser
    else
      match cmd.handle with
      | some h => .run h params
      | none => if cmd.children.length > 0 then .listCommands else .refused .noHandler

/-! ## Accounts -/

/-- database/database.go:90-100: the fields of `User` the service commands deal with. `password` is the
hash. -/
structure Account where
  password : Str
  nick : Str
  realname : Str
  admin : Bool
  enabled : Bool
  maxNetworks : Int
  deriving DecidableEq, Repr

/-- database/database.go:102-108: `NewUser`. -/
def Account.new : Account := ⟨[], [], [], false, true, -1⟩

/-- Library functions: bcrypt (`User.SetPassword`, which can fail) and the confirmation token, the first
three bytes of the SHA-1 of the name (service.go:1181-1182). -/
structure AcctLib where
  hash : Str → Option Str
  token : Str → Str

/-- service.go:1005-1013: the flags of `user create`. -/
structure CreateFlags where
  username : Str
  password : Str
  disablePassword : Bool
  nick : Str
  realname : Str
  admin : Bool
  enabled : Bool
  maxNetworks : Int
  deriving DecidableEq, Repr

/-- service.go:1006-1013. -/
def createFormal (name : Str) : Option (FlagDef CreateFlags) :=
  if name = b!"username" then some ⟨false, fun v st => some { st with username := v }⟩
  else if name = b!"password" then some ⟨false, fun v st => some { st with password := v }⟩
  else if name = b!"disable-password" then
    some ⟨true, fun v st => (parseBool v).map (fun x => { st with disablePassword := x })⟩
  else if name = b!"nick" then some ⟨false, fun v st => some { st with nick := v }⟩
  else if name = b!"realname" then some ⟨false, fun v st => some { st with realname := v }⟩
  else if name = b!"admin" then some ⟨true, fun v st => (parseBool v).map (fun x => { st with admin := x })⟩
  else if name = b!"enabled" then
    some ⟨true, fun v st => (parseBool v).map (fun x => { st with enabled := x })⟩
  else if name = b!"max-networks" then
    some ⟨false, fun v st => (parseInt64 v).map (fun x => { st with maxNetworks := x })⟩
  else none

/-- service.go:1058-1069: the flags of `user update`. -/
structure UpdateFlags where
  password : Option Str
  disablePassword : Bool
  nick : Option Str
  realname : Option Str
  admin : Option Bool
  enabled : Option Bool
  maxNetworks : Option Int
  deriving DecidableEq, Repr

/-- No flag given. -/
def UpdateFlags.empty : UpdateFlags := ⟨none, false, none, none, none, none, none⟩

/-- service.go:1063-1069. Flags with pointer values are not boolean flags of the flag package. -/
def updateFormal (name : Str) : Option (FlagDef UpdateFlags) :=
  if name = b!"password" then some ⟨false, fun v st => some { st with password := some v }⟩
  else if name = b!"disable-password" then
    some ⟨true, fun v st => (parseBool v).map (fun x => { st with disablePassword := x })⟩
  else if name = b!"nick" then some ⟨false, fun v st => some { st with nick := some v }⟩
  else if name = b!"realname" then some ⟨false, fun v st => some { st with realname := some v }⟩
  else if name = b!"admin" then
    some ⟨false, fun v st => (parseBool v).map (fun x => { st with admin := some x })⟩
  else if name = b!"enabled" then
    some ⟨false, fun v st => (parseBool v).map (fun x => { st with enabled := some x })⟩
  else if name = b!"max-networks" then
    some ⟨false, fun v st => (parseInt64 v).map (fun x => { st with maxNetworks := some x })⟩
  else none

/-- The accounts known to the server, by name (server.go: `Server.users` and the table User, taken as one). -/
abbrev Accounts := GoMap Str Account

/-- How a command on accounts ends: done, refused, never (the handler waits for the event loop it runs in),
or handed over to another user's event loop with the rights of an administrator. -/
inductive AcctResult
  | done
  | refused
  | hangs
  | runAs (username : Str) (params : List Str)
  deriving DecidableEq, Repr

/-- service.go:1004-1048: `handleUserCreate`, and server.go:404-418: `createUser`; `dbOk` tells whether the
database accepts the record. -/
def handleUserCreate (lib : AcctLib) (users : Accounts) (params : List Str) (dbOk : Bool) :
    Accounts × AcctResult :=
  match parseFlags createFormal params ⟨[], [], false, [], [], false, true, -1⟩ with
  | none => (users, .refused)
  | some (f, rest) =>
    if rest.length > 0 then (users, .refused)
    else if f.username = [] then (users, .refused)
    else if f.password ≠ [] ∧ f.disablePassword = true then (users, .refused)
    else if f.password = [] ∧ f.disablePassword = false then (users, .refused)
    else
      match (if f.disablePassword then some [] else lib.hash f.password) with
      | none => (users, .refused)
      | some pw =>
        if (GoMap.get users f.username).isSome then (users, .refused)
        else if dbOk then
          (GoMap.set users f.username
            { Account.new with
              password := pw, nick := f.nick, realname := f.realname,
              admin := f.admin, enabled := f.enabled, maxNetworks := f.maxNetworks },
            .done)
        else (users, .refused)

/-- user.go:823-837: the update made by `eventUserUpdate`. -/
def applyOtherUpdate (hashed : Option Str) (f : UpdateFlags) (a : Account) : Account :=
  { a with
    password := hashed.getD a.password
    admin := f.admin.getD a.admin
    enabled := f.enabled.getD a.enabled
    maxNetworks := f.maxNetworks.getD a.maxNetworks }

/-- service.go:1141-1162: the update of the user's own record. -/
def applyOwnUpdate (hashed : Option Str) (f : UpdateFlags) (a : Account) : Account :=
  { a with
    password := if f.disablePassword then [] else hashed.getD a.password
    nick := f.nick.getD a.nick
    realname := f.realname.getD a.realname
    maxNetworks := f.maxNetworks.getD a.maxNetworks }

/-- user.go:1192-1204: the part of `updateUser` that deals with the record: the record is replaced if the
database accepts it. What follows concerns networks and connections (see C59, C60). -/
def updateAccount (users : Accounts) (name : Str) (f : Account → Account) (dbOk : Bool) :
    Accounts × AcctResult :=
  match GoMap.get users name with
  | none => (users, .refused)
  | some a => if dbOk then (GoMap.set users name (f a), .done) else (users, .refused)

/-- service.go:1057-1173: `handleUserUpdate`. -/
def handleUserUpdate (lib : AcctLib) (ctx : SvcCtx) (users : Accounts) (params : List Str) (dbOk : Bool) :
    Accounts × AcctResult :=
  match parseFlags updateFormal (popArg params).2 .empty with
  | none => (users, .refused)
  | some (f, rest) =>
    if rest.length > 0 then (users, .refused)
    else if (popArg params).1 = [] ∧ ctx.user = none then (users, .refused)
    else if f.password.isSome = true ∧ f.disablePassword = true then (users, .refused)
    else if (popArg params).1 ≠ [] ∧ ctx.user ≠ some (popArg params).1 then
      if !ctx.admin then (users, .refused)
      else if f.nick.isSome then (users, .refused)
      else if f.realname.isSome then (users, .refused)
      else
        match f.password.map lib.hash with
        | some none => (users, .refused)
        | some (some h) => updateAccount users (popArg params).1 (applyOtherUpdate (some h) f) dbOk
        | none => updateAccount users (popArg params).1
            (applyOtherUpdate (if f.disablePassword then some [] else none) f) dbOk
    else
      if f.admin.isSome then (users, .refused)
      else if f.enabled.isSome then (users, .refused)
      else if f.maxNetworks.isSome && !ctx.admin then (users, .refused)
      else
        match f.password.map lib.hash with
        | some none => (users, .refused)
        | some (some h) => updateAccount users (ctx.user.getD []) (applyOwnUpdate (some h) f) dbOk
        | none => updateAccount users (ctx.user.getD []) (applyOwnUpdate none f) dbOk

/-- service.go:1175-1225: `handleUserDelete`. The handler runs in the event loop of `ctx.user`, and
`user.stop` (user.go:1269-1285) waits for the event loop of the deleted user to end: it never does if they
are the same. -/
def handleUserDelete (lib : AcctLib) (ctx : SvcCtx) (users : Accounts) (params : List Str) (dbOk : Bool) :
    Accounts × AcctResult :=
  if params.length ≠ 1 ∧ params.length ≠ 2 then (users, .refused)
  else
    let username := params.headD []
    let self := decide (ctx.user = some username)
    if !ctx.admin && !self then (users, .refused)
    else if (GoMap.get users username).isNone then (users, .refused)
    else
      match params.drop 1 with
      | [] => (users, .done)
      | token :: _ =>
        if token ≠ lib.token username then (users, .refused)
        else if self then (users, .hangs)
        else if dbOk then (GoMap.del users username, .done)
        else (users, .refused)

/-- service.go:1232-1278: `handleUserRun`: the command is run by the event loop of the named user, with the
rights of an administrator (user.go:848-874); at once if it is the same user. -/
def handleUserRun (users : Accounts) (params : List Str) : AcctResult :=
  match params with
  | username :: p :: rest => if (GoMap.get users username).isNone then .refused else .runAs username (p :: rest)
  | _ => .refused

/-- service.go:127-167: a command line of a context: what happens to the accounts. -/
def serviceStep (lib : AcctLib) (order : List (Str × SvcCmd) → List (Str × SvcCmd)) (ctx : SvcCtx)
    (users : Accounts) (words : List Str) (dbOk : Bool) : Accounts × AcctResult :=
  match handleServiceCommand order ctx words with
  | .run .userCreate params => handleUserCreate lib users params dbOk
  | .run .userUpdate params => handleUserUpdate lib ctx users params dbOk
  | .run .userDelete params => handleUserDelete lib ctx users params dbOk
  | .run .userRun params => (users, handleUserRun users params)
  | .run _ _ => (users, .done)
  | .listCommands => (users, .done)
  | .refused _ => (users, .refused)

/-- A command line given to the service: by a client of a user (downstream.go:2455-2470, with the rights of
that user's account at that moment), or on the administration socket (server.go:591-603). -/
inductive SvcLine
  | client (username : Str)
  | adminSocket
  deriving DecidableEq, Repr

/-- What the server has to do: the accounts, and the commands queued with `user run` in the event loops. -/
structure SvcState where
  users : Accounts
  queued : List (Str × List Str)
  deriving DecidableEq, Repr

/-- The rights of a line: those of the account. -/
def lineCtx (st : SvcState) : SvcLine → SvcCtx
  | .client name => ⟨some name, ((GoMap.get st.users name).map (·.admin)).getD false⟩
  | .adminSocket => ⟨none, true⟩

/-- An operation of the server. -/
inductive SvcOp
  | line (from_ : SvcLine) (words : List Str) (dbOk : Bool)
  | runQueued (i : Nat) (dbOk : Bool)
  deriving DecidableEq, Repr

/-- The queue after a command. -/
def queueResult (q : List (Str × List Str)) : AcctResult → List (Str × List Str)
  | .runAs name params => q ++ [(name, params)]
  | _ => q

/-- One operation: a line is received, or one of the queued commands is run by its user's event loop
(user.go:848-874). -/
def svcStep (lib : AcctLib) (order : List (Str × SvcCmd) → List (Str × SvcCmd)) (st : SvcState) :
    SvcOp → SvcState
  | .line l words dbOk =>
    let r := serviceStep lib order (lineCtx st l) st.users words dbOk
    ⟨r.1, queueResult st.queued r.2⟩
  | .runQueued i dbOk =>
    match st.queued[i]? with
    | none => st
    | some (name, params) =>
      let r := serviceStep lib order ⟨some name, true⟩ st.users params dbOk
      ⟨r.1, queueResult (st.queued.eraseIdx i) r.2⟩

/-- A history. -/
def svcRun (lib : AcctLib) (order : List (Str × SvcCmd) → List (Str × SvcCmd)) (st : SvcState)
    (ops : List SvcOp) : SvcState := ops.foldl (svcStep lib order) st

end Verif.Model
