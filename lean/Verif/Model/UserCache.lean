import Verif.Model.Casemap

/-! # What the bouncer remembers about other users

`upstreamConn.users`, the cache that answers WHO without asking the server, and the parts of the
server message handlers that maintain it.

Simplifications: the case-mapping maps (`xirc.CaseMappingMap`, modelled in `Model/Casemap`) are plain
maps keyed by the folded name, and the case mapping does not change during a history; the channel
membership prefixes are left out (`Model/Modes`); the `BOT` token of the ISUPPORT reply and the
`away-notify` capability are fixed during a history; a message the handler refuses for want of
parameters does not reach this part. -/

namespace Verif.Model

/-- upstream.go:124-132 — `upstreamUser`. -/
structure UUser where
  nick : Str := []
  user : Str := []
  host : Str := []
  server : Str := []
  flags : Str := []
  account : Str := []
  real : Str := []
  deriving DecidableEq, Repr

/-- The columns of a WHO reply that are cached. -/
inductive WhoField | user | host | server | flags | account | real
  deriving DecidableEq, Repr

/-- The value of a column (fields of `upstreamUser`, upstream.go:124-132). -/
def UUser.get (u : UUser) : WhoField → Str
  | .user => u.user | .host => u.host | .server => u.server
  | .flags => u.flags | .account => u.account | .real => u.real

/-- upstream.go:134-161 — one iteration of `hasWHOXFields`: 110 'n', 117 'u', 104 'h', 115 's', 102 'f',
97 'a', 114 'r', and the static fields 't', 'c', 'i', 'd', 'l', 'o'. -/
def hasWHOXField (u : UUser) (c : Byte) : Bool :=
  if c = 110 then u.nick ≠ []
  else if c = 117 then u.user ≠ []
  else if c = 104 then u.host ≠ []
  else if c = 115 then u.server ≠ []
  else if c = 102 then u.flags ≠ []
  else if c = 97 then u.account ≠ []
  else if c = 114 then u.real ≠ []
  else c ∈ [116, 99, 105, 100, 108, 111]

/-- upstream.go:134-161 — `hasWHOXFields`. -/
def hasWHOXFields (u : UUser) (fields : Str) : Bool := fields.all (hasWHOXField u)

/-- upstream.go:163-185 — one field of `updateFrom`. -/
def orOld (new old : Str) : Str := if new ≠ [] then new else old

/-- upstream.go:163-185 — `updateFrom`. -/
def updateFrom (u upd : UUser) : UUser :=
  { nick := orOld upd.nick u.nick, user := orOld upd.user u.user, host := orOld upd.host u.host
    server := orOld upd.server u.server, flags := orOld upd.flags u.flags
    account := orOld upd.account u.account, real := orOld upd.real u.real }

/-- The state of an upstream connection the cache depends on (upstream.go:187-238): our nick, the
cached users by folded nick, the joined channels by folded name with the folded nicks of their
members, the monitored nicks, folded. -/
structure UcState where
  nick : Str
  users : GoMap Str UUser := []
  chans : GoMap Str (List Str) := []
  monitored : List Str := []
  deriving DecidableEq, Repr

/-- What does not change during a history: the case mapping, whether `away-notify` and
`account-notify` are enabled and the bot flag of the server. -/
structure UcEnv where
  cm : CaseMapping
  awayNotify : Bool
  accountNotify : Bool
  bot : Option Str

/-- upstream.go:436-438 — `isOurNick`. -/
def ucOurs (e : UcEnv) (st : UcState) (n : Str) : Bool := casemap e.cm st.nick = casemap e.cm n

/-- upstream.go:2452-2465 — `shouldCacheUserInfo`, for a folded nick. -/
def shouldCache (e : UcEnv) (st : UcState) (k : Str) : Bool :=
  if casemap e.cm st.nick = k then true
  else if k ∈ st.monitored then true
  else st.chans.any (fun p => k ∈ p.2)

/-- upstream.go:2430-2450 — `cacheUserInfo`; `none` is the panic on an empty nick. -/
def cacheUser (e : UcEnv) (st : UcState) (n : Str) (info : UUser) : Option UcState :=
  if n = [] then none
  else match GoMap.get st.users (casemap e.cm n) with
    | none =>
      let info := if info.nick ≠ [] then info else { info with nick := n }
      some { st with users := GoMap.set st.users (casemap e.cm info.nick) info }
    | some u =>
      let u' := updateFrom u info
      if info.nick ≠ [] ∧ n ≠ info.nick then
        some { st with users := GoMap.set (GoMap.del st.users (casemap e.cm n)) (casemap e.cm u'.nick) u' }
      else some { st with users := GoMap.set st.users (casemap e.cm n) u' }

/-- `if !uc.shouldCacheUserInfo(nick) { uc.users.Del(nick) }` (upstream.go:1245-1247, 1255-1257,
1273-1275, 1284-1286, 2312-2314), for a folded nick. -/
def dropUnseen (e : UcEnv) (st : UcState) (k : Str) : UcState :=
  if shouldCache e st k then st else { st with users := GoMap.del st.users k }

/-- What the server says about users. -/
inductive UcOp
  /-- NICK -/
  | nick (src new : Str)
  /-- SETNAME -/
  | setname (src real : Str)
  /-- CHGHOST -/
  | chghost (src user host : Str)
  /-- JOIN with the user and host of the source, whether it has the bot tag, and the account and real
  name of extended-join -/
  | join (src user host : Str) (bot : Bool) (ext : Option (Str × Str)) (chans : List Str)
  /-- PART -/
  | part (src : Str) (chans : List Str)
  /-- KICK -/
  | kick (chan user : Str)
  /-- QUIT -/
  | quit (src : Str)
  /-- RPL_NAMREPLY, with the membership prefixes removed from the nicks -/
  | names (chan : Str) (nicks : List Str)
  /-- RPL_WHOREPLY or RPL_WHOSPCRPL for a WHO of a client still connected, with the membership prefixes
  removed from the flags; empty columns were not asked for -/
  | who (info : UUser)
  /-- RPL_MONONLINE and RPL_MONOFFLINE, with the nicks of the targets -/
  | monitor (nicks : List Str) (online : Bool)
  /-- AWAY -/
  | away (src : Str) (away : Bool)
  /-- ACCOUNT -/
  | account (src account : Str)
  /-- the clients stopped monitoring these nicks -/
  | unmonitor (nicks : List Str)
  deriving Repr

/-- upstream.go:1083-1123 — NICK. -/
def ucNick (e : UcEnv) (st : UcState) (src new : Str) : Option UcState :=
  let st1 : UcState := if ucOurs e st src then { st with nick := new } else st
  let rename (ms : List Str) : List Str :=
    if casemap e.cm src ∈ ms then
      ms.filter (· ≠ casemap e.cm src) ++ [casemap e.cm new]
    else ms
  let st2 : UcState := { st1 with chans := st1.chans.map (fun p => (p.1, rename p.2)) }
  cacheUser e st2 src { nick := new }

/-- upstream.go:1178-1200 — the user information of a JOIN. -/
def joinInfo (e : UcEnv) (user host : Str) (bot : Bool) (ext : Option (Str × Str)) : UUser :=
  { user := user, host := host
    flags := if e.awayNotify then b!"H" ++ (if bot then e.bot.getD [] else []) else []
    account := (match ext with | some (a, _) => a | none => [])
    real := (match ext with | some (_, r) => r | none => []) }

/-- upstream.go:1494-1498 — the members of RPL_NAMREPLY; upstream.go:1221 with one nick. -/
def addMembers (e : UcEnv) (ms : List Str) (nicks : List Str) : List Str :=
  nicks.foldl (fun ms n => if casemap e.cm n ∈ ms then ms else ms ++ [casemap e.cm n]) ms

/-- upstream.go:1203-1227 — the loop of JOIN over the channels; an unknown channel ends it. -/
def ucJoinLoop (e : UcEnv) (st : UcState) (src : Str) : List Str → UcState
  | [] => st
  | c :: cs =>
    if ucOurs e st src then
      ucJoinLoop e { st with chans := GoMap.set st.chans (casemap e.cm c) [] } src cs
    else match GoMap.get st.chans (casemap e.cm c) with
      | none => st
      | some ms =>
        let ms' := addMembers e ms [src]
        ucJoinLoop e { st with chans := GoMap.set st.chans (casemap e.cm c) ms' } src cs

/-- upstream.go:1234-1248, 1267-1276 — we left a channel: it is forgotten with the members it alone
made visible. -/
def ucLeave (e : UcEnv) (st : UcState) (c : Str) : UcState :=
  match GoMap.get st.chans (casemap e.cm c) with
  | none => st
  | some ms => ms.foldl (dropUnseen e) { st with chans := GoMap.del st.chans (casemap e.cm c) }

/-- upstream.go:1249-1258, 1277-1287 — someone else left a channel; `none` is the unknown-channel
error. -/
def ucGone (e : UcEnv) (st : UcState) (c n : Str) : Option UcState :=
  match GoMap.get st.chans (casemap e.cm c) with
  | none => none
  | some ms =>
    some (dropUnseen e
      { st with chans := GoMap.set st.chans (casemap e.cm c) (ms.filter (· ≠ casemap e.cm n)) }
      (casemap e.cm n))

/-- upstream.go:1234-1261 — the loop of PART. -/
def ucPartLoop (e : UcEnv) (st : UcState) (src : Str) : List Str → UcState
  | [] => st
  | c :: cs =>
    if ucOurs e st src then ucPartLoop e (ucLeave e st c) src cs
    else match ucGone e st c src with
      | none => st
      | some st' => ucPartLoop e st' src cs

/-- upstream.go:1295-1302 — QUIT. -/
def ucQuit (e : UcEnv) (st : UcState) (src : Str) : UcState :=
  { st with
    chans := st.chans.map (fun p => (p.1, p.2.filter (· ≠ casemap e.cm src)))
    users := GoMap.del st.users (casemap e.cm src) }

/-- upstream.go:1721-1725 — the away flag of AWAY: 72 is 'H', 71 is 'G'. -/
def awayFlags (away : Bool) (flags : Str) : Str :=
  flags.map (fun c => if away then (if c = 72 then 71 else c) else (if c = 71 then 72 else c))

/-- upstream.go:2310-2315 — the end of `updateMonitor` for one nick. -/
def unmonitorOne (e : UcEnv) (st : UcState) (n : Str) : UcState :=
  dropUnseen e { st with monitored := st.monitored.filter (· ≠ casemap e.cm n) } (casemap e.cm n)

/-- upstream.go:1083-1306, 1477-1586, 1653-1664, 1716-1741, 2310-2315 — the effect of each message on the
cache; `none` is the panic of `cacheUserInfo`. -/
def ucStep (e : UcEnv) (st : UcState) : UcOp → Option UcState
  | .nick src new => ucNick e st src new
  | .setname src real => cacheUser e st src { real := real }
  | .chghost _ _ _ => some st
  | .join src user host bot ext chans =>
    match cacheUser e st src (joinInfo e user host bot ext) with
    | none => none
    | some st' => some (ucJoinLoop e st' src chans)
  | .part src chans => some (ucPartLoop e st src chans)
  | .kick chan user =>
    if ucOurs e st user then some (ucLeave e st chan)
    else some ((ucGone e st chan user).getD st)
  | .quit src => some (ucQuit e st src)
  | .names chan nicks =>
    match GoMap.get st.chans (casemap e.cm chan) with
    | none => some st
    | some ms => some { st with chans := GoMap.set st.chans (casemap e.cm chan) (addMembers e ms nicks) }
  | .who info => if shouldCache e st (casemap e.cm info.nick) then cacheUser e st info.nick info else some st
  | .monitor nicks _ => some { st with monitored := addMembers e st.monitored nicks }
  | .away src away =>
    match GoMap.get st.users (casemap e.cm src) with
    | none => some st
    | some u =>
      if u.flags ≠ [] then cacheUser e st src { flags := awayFlags away u.flags } else some st
  | .account src account => cacheUser e st src { account := account }
  | .unmonitor nicks => some (nicks.foldl (unmonitorOne e) st)

/-- A history; `none` once the handler has panicked. -/
def ucRun (e : UcEnv) (st : UcState) (ops : List UcOp) : Option UcState :=
  ops.foldl (fun s op => s.bind (fun s => ucStep e s op)) (some st)

/-- upstream.go:2399-2424 — the members of a channel, if all are cached with the fields asked for. -/
def cachedMembers (st : UcState) (fields : Str) : List Str → Option (List UUser)
  | [] => some []
  | n :: ns =>
    match GoMap.get st.users n with
    | none => none
    | some u => if hasWHOXFields u fields then (cachedMembers st fields ns).map (u :: ·) else none

/-- upstream.go:2383-2428 — `getCachedWHO`. -/
def getCachedWHO (e : UcEnv) (st : UcState) (mask fields : Str) : Option (List UUser) :=
  let fields := if fields = [] then b!"cuhsnfdr" else fields
  if 97 ∈ fields ∧ e.accountNotify = false then none
  else if 102 ∈ fields ∧ e.awayNotify = false then none
  else match GoMap.get st.users (casemap e.cm mask) with
    | some u => if hasWHOXFields u fields then some [u] else none
    | none =>
      match GoMap.get st.chans (casemap e.cm mask) with
      | none => none
      | some ms => cachedMembers st fields ms

/-- downstream.go:2267-2300 — the cached answer to WHO, without the rendering of the flags; the outer
`none` is the nil dereference of a channel (2283-2284) or of a member (2285) that is not there.
`types` are the channel types of the server (upstream.go:433-435). -/
def answerWHO (e : UcEnv) (types : Str) (st : UcState) (mask fields : Str) :
    Option (Option (List UUser)) :=
  match getCachedWHO e st mask fields with
  | none => some none
  | some l =>
    if mask.head?.any (· ∈ types) then
      match GoMap.get st.chans (casemap e.cm mask) with
      | none => if l = [] then some (some l) else none
      | some ms => if l.all (fun u => casemap e.cm u.nick ∈ ms) then some (some l) else none
    else some (some l)

end Verif.Model
