import Verif.Model.GenMsg

/-! # Model of xirc/whox.go -/

namespace Verif.Model

/-- xirc/whox.go:12 — `whoxFields`, "tcuihsnfdlaor". -/
def whoxFields : List Byte := b!"tcuihsnfdlaor"

/-- xirc/whox.go:14-24 — `WHOXInfo`. -/
structure WHOXInfo where
  token : Str := []
  channel : Str := []
  username : Str := []
  hostname : Str := []
  server : Str := []
  nickname : Str := []
  flags : Str := []
  account : Str := []
  realname : Str := []
deriving DecidableEq, Repr

/-- xirc/whox.go:41-47 and 98-104 — hostname as sent. -/
def whoxHostname (h : Str) : Str := if h.head? = some 58 then 48 :: h else h

/-- xirc/whox.go:31-34 and 106-109 — channel as sent. -/
def whoxChannel (c : Str) : Str := if c = [] then b!"*" else c

/-- xirc/whox.go:26-71 — `WHOXInfo.get`. -/
def WHOXInfo.get (info : WHOXInfo) (k : Byte) : Str :=
  if k = 116 then info.token                       -- t
  else if k = 99 then whoxChannel info.channel     -- c
  else if k = 117 then info.username               -- u
  else if k = 105 then b!"255.255.255.255"         -- i
  else if k = 104 then whoxHostname info.hostname  -- h
  else if k = 115 then info.server                 -- s
  else if k = 110 then info.nickname               -- n
  else if k = 102 then info.flags                  -- f
  else if k = 100 then b!"0"                       -- d
  else if k = 108 then b!"0"                       -- l
  else if k = 97 then                              -- a
    (if info.account ≠ [] ∧ info.account ≠ b!"*" then info.account else b!"0")
  else if k = 111 then b!"0"                       -- o
  else if k = 114 then info.realname               -- r
  else []

/-- xirc/whox.go:73-94 — `WHOXInfo.set`. -/
def WHOXInfo.set (info : WHOXInfo) (k : Byte) (v : Str) : WHOXInfo :=
  if k = 116 then { info with token := v }
  else if k = 99 then { info with channel := v }
  else if k = 117 then { info with username := v }
  else if k = 104 then { info with hostname := v }
  else if k = 115 then { info with server := v }
  else if k = 110 then { info with nickname := v }
  else if k = 102 then { info with flags := v }
  else if k = 97 then { info with account := v }
  else if k = 114 then { info with realname := v }
  else info

/-- xirc/whox.go:96-134 — `GenerateWHOXReply` (RPL_WHOREPLY is 352, RPL_WHOSPCRPL is 354). -/
def generateWHOXReply (fields : Str) (info : WHOXInfo) : Msg :=
  if fields = [] then
    ⟨b!"352", [b!"*", whoxChannel info.channel, info.username, whoxHostname info.hostname, info.server,
      info.nickname, info.flags, b!"0 " ++ info.realname]⟩
  else
    ⟨b!"354", b!"*" :: ((whoxFields.filter (fun f => decide (f ∈ fields))).map info.get)⟩

/-- xirc/whox.go:163-174 — the loop of `ParseWHOXReply`; `none` is the "missing value" error. -/
def parseWHOXLoop (fields : Str) : List Byte → WHOXInfo → List Str → Option WHOXInfo
  | [], info, _ => some info
  | f :: fs, info, values =>
    if f ∉ fields then parseWHOXLoop fields fs info values
    else match values with
      | [] => none
      | v :: values => parseWHOXLoop fields fs (info.set f v) values

/-- xirc/whox.go:149-177 — `ParseWHOXReply`. -/
def parseWHOXReply (msg : Msg) (fields : Str) : Option WHOXInfo :=
  if msg.command ≠ b!"354" then none
  else match msg.params with
    | [] => none
    | _ :: values => parseWHOXLoop fields whoxFields {} values

/-- `strings.SplitN(s, sep, 2)` for a one-byte separator: the part before the first occurrence and, if
there is one, the part after it. -/
def cut (sep : Byte) (s : Str) : Str × Option Str :=
  match s with
  | [] => ([], none)
  | c :: s => if c = sep then ([], some s) else ((c :: (cut sep s).1), (cut sep s).2)

/-- `strings.ToLower` restricted to ASCII (the code only looks for ASCII letters in the result). -/
def asciiLower (s : Str) : Str := s.map (fun c => if 65 ≤ c ∧ c ≤ 90 then c + 32 else c)

/-- xirc/whox.go:136-147 — `ParseWHOXOptions`: fields and token. -/
def parseWHOXOptions (options : Str) : Str × Str :=
  match cut 37 options with
  | (_, none) => ([], [])
  | (_, some rest) =>
    let (f, tok) := cut 44 rest
    let fields := asciiLower f
    (fields, match tok with
      | some t => if 116 ∈ fields then t else []
      | none => [])

/-- upstream.go:1524-1553 — how the bouncer reads an RPL_WHOREPLY (without the member prefixes that
`stripMemberPrefixes` removes from the flags): username, host, server, nick, flags, realname. -/
def parseWhoReply (msg : Msg) : Option WHOXInfo :=
  match msg.params with
  | _ :: _ :: username :: host :: server :: nick :: flags :: trailing :: _ =>
    match cut 32 trailing with
    | (_, some realname) => some { username, hostname := host, server, nickname := nick, flags, realname }
    | _ => none
  | _ => none

end Verif.Model
