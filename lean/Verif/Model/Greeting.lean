import Verif.Model.Isupport
import Verif.Model.History
import Verif.Model.UserModes

/-! # Model of the greeting of a client (downstream.go, `welcome`)

The message source (`dc.srv.prefix()`, downstream.go:540-545) and the tags are left out. -/

namespace Verif.Model

/-- server.go:143-160 — the settings of the server that the greeting shows. -/
structure GrConfig where
  hostname : Str
  title : Str
  motd : Str
  upload : Bool
  ingress : Str
deriving DecidableEq, Repr

/-- The connection of the network: what ISUPPORT governs, whether `message-tags` is enabled, the nick and the modes. -/
structure GrConn where
  is : IsState
  tags : Bool
  nick : Str
  modes : UserModes
deriving DecidableEq, Repr

/-- What `welcome` looks at: the network, if there is one (number, connection, the nick to use), the user (name,
administrator, whether the message store keeps a history that can be asked for), the capability `soju.im/webpush` and the
public key for it. -/
structure GrClient where
  network : Option (Nat × Option GrConn × Str)
  username : Str
  admin : Bool
  history : Bool
  webpush : Bool
  vapid : Str
deriving DecidableEq, Repr

/-- downstream.go:431-436 — `upstream`. -/
def GrClient.upstream (c : GrClient) : Option GrConn := c.network.bind (·.2.1)

/-- downstream.go:1466-1472. -/
def GrClient.nick (c : GrClient) : Str :=
  match c.upstream with
  | some uc => uc.nick
  | none => match c.network with
    | some n => n.2.2
    | none => c.username

/-- downstream.go:258-262. -/
def permanentIsupport : List Str := [b!"soju.im/SAFERATE"]

/-- downstream.go:1475-1519 — the tokens; `order` is the iteration order of `passthroughIsupport`. -/
def greetTokens (cfg : GrConfig) (c : GrClient) (order : List Str) : List Str :=
  permanentIsupport ++
  (match c.network with
    | some n => [b!"BOUNCER_NETID=" ++ itoa n.1]
    | none => [b!"BOT=B", b!"CASEMAPPING=ascii"]) ++
  (if c.network.isNone && decide (cfg.title ≠ []) then [b!"NETWORK=" ++ cfg.title] else []) ++
  (if c.network.isNone then [b!"WHOX", b!"CHANTYPES=", b!"LINELEN=4096"] else []) ++
  (if c.history && c.network.isSome then [b!"CHATHISTORY=" ++ itoa chatHistoryLimit.toNat, b!"MSGREFTYPES=timestamp"] else []) ++
  (if c.webpush then [b!"VAPID=" ++ c.vapid] else []) ++
  (if cfg.upload then [b!"soju.im/FILEHOST=" ++ cfg.ingress ++ b!"/uploads"] else []) ++
  (match c.upstream with
    | some uc =>
      (if (GoMap.get uc.is.isupport b!"CLIENTTAGDENY").isNone && !uc.tags then [b!"CLIENTTAGDENY=*"] else []) ++
        welcomeTokens uc.is order
    | none => [])

/-- xirc/genmsg.go:116-138 — `GenerateMOTD`. -/
def generateMOTD (motd : Str) : List Msg :=
  [⟨b!"375", [b!"*", b!"- Message of the Day -"]⟩] ++
  (splitByte 10 motd).map (fun l => ⟨b!"372", [b!"*", l]⟩) ++
  [⟨b!"376", [b!"*", b!"End of /MOTD command."]⟩]

/-- downstream.go:1554-1568. -/
def greetMotd (cfg : GrConfig) (c : GrClient) : List Msg :=
  if decide (cfg.motd ≠ []) && c.network.isNone then generateMOTD cfg.motd
  else [⟨b!"422", [c.nick, if c.network.isSome then b!"Use /motd to read the message of the day" else b!"No MOTD"]⟩]

/-- downstream.go:1442-1568 — the greeting up to the message of the day; `identity` are the messages of `updateHost`,
`updateRealname` and `updateAccount` (`Ident`). -/
def greeting (cfg : GrConfig) (c : GrClient) (order : List Str) (identity : List Msg) : List Msg :=
  [⟨b!"001", [c.nick, b!"Welcome to soju, " ++ c.nick]⟩,
   ⟨b!"002", [c.nick, b!"Your host is " ++ cfg.hostname]⟩,
   ⟨b!"004", [c.nick, cfg.hostname, b!"soju", b!"aiwroO", b!"OovaimnqpsrtklbeI"]⟩] ++
  generateIsupport (greetTokens cfg c order) ++
  (match c.upstream with
    | some uc => [⟨b!"221", [c.nick, b!"+" ++ uc.modes]⟩]
    | none => []) ++
  (if c.network.isNone && c.admin then [⟨b!"221", [c.nick, b!"+o"]⟩] else []) ++
  identity ++
  greetMotd cfg c

/-- upstream.go:947-1048 — what every client of the network is sent while the server goes on. -/
def isRelay (st : IsState) : List IsOp → List Msg
  | [] => []
  | .isupport l :: ops => (handleIsupport st l).2 ++ isRelay (handleIsupport st l).1 ops
  | .motd :: ops => isRelay (endOfMotd st) ops

end Verif.Model
