import Verif.Model.Modes
import Verif.Model.GenMsg

/-! # Model of the server's ISUPPORT tokens

upstream.go:947-1043 and downstream.go:1501-1520.  `strings.ToUpper` is taken on ASCII letters. -/

namespace Verif.Model

/-- irc.go:173 -/
def stdChannelTypes : Str := b!"#&+!"

/-- downstream.go:264-298 — `passthroughIsupport`. -/
def passthroughIsupport : List Str :=
  [b!"ACCOUNTEXTBAN", b!"AWAYLEN", b!"BOT", b!"CASEMAPPING", b!"CHANLIMIT", b!"CHANMODES", b!"CHANNELLEN",
   b!"CHANTYPES", b!"CLIENTTAGDENY", b!"ELIST", b!"EXCEPTS", b!"EXTBAN", b!"HOSTLEN", b!"INVEX", b!"KICKLEN",
   b!"LINELEN", b!"MAXLIST", b!"MAXTARGETS", b!"MODES", b!"MONITOR", b!"NAMELEN", b!"NETWORK", b!"NICKLEN",
   b!"PREFIX", b!"SAFELIST", b!"STATUSMSG", b!"TARGMAX", b!"TOPICLEN", b!"USERLEN", b!"UTF8ONLY", b!"WHOX"]

/-- The part of `upstreamConn` (upstream.go:202-206, conn.go:126) and of its network (`casemap`) that ISUPPORT
governs. -/
structure IsState where
  isupport : GoMap Str (Option Str) := []
  casemap : CaseMapping
  chanModes : GoMap Byte ModeType := stdChannelModes
  chanTypes : Str := stdChannelTypes
  statusMsg : Str := []
  memberships : List Membership := stdMemberships
  rateLimit : Bool := true
  gotMotd : Bool := false
deriving DecidableEq, Repr

/-- upstream.go:974-1010 — the `switch` over the parameter; the Boolean is an error. -/
def isupportSwitch (st : IsState) (parameter value : Str) (negate : Bool) : IsState × Bool :=
  if parameter = b!"CASEMAPPING" then
    ({ st with casemap := (parseCaseMapping value).getD .rfc1459 }, false)
  else if parameter = b!"CHANMODES" then
    if negate = false then
      match handleChanModes value with
      | none => (st, true)
      | some m => ({ st with chanModes := m }, false)
    else ({ st with chanModes := stdChannelModes }, false)
  else if parameter = b!"CHANTYPES" then
    ({ st with chanTypes := if negate = false then value else stdChannelTypes }, false)
  else if parameter = b!"STATUSMSG" then
    ({ st with statusMsg := if negate = false then value else [] }, false)
  else if parameter = b!"PREFIX" then
    if negate = false then
      match handleMemberships value with
      | none => (st, true)
      | some m => ({ st with memberships := m }, false)
    else ({ st with memberships := stdMemberships }, false)
  else if parameter = b!"SOJU.IM/SAFERATE" then ({ st with rateLimit := negate }, false)
  else (st, false)

/-- upstream.go:953-1018 — one token: the new state, the token passed on to the clients (if any), and whether
there was an error.  As in the code, the parameter of a negated token keeps its `-`. -/
def isupportToken (st : IsState) (token : Str) : IsState × Option Str × Bool :=
  let negate := hasPrefix b!"-" token
  let tok := if negate then token.drop 1 else token
  let cut := if negate then none else cutStr b!"=" token
  let parameter := asciiUpper (match cut with | some (p, _) => p | none => token)
  let value := match cut with | some (_, v) => v | none => []
  let m := match cut with
    | some (_, v) => GoMap.set st.isupport parameter (some v)
    | none => if negate then GoMap.del st.isupport parameter else GoMap.set st.isupport parameter none
  let r := isupportSwitch { st with isupport := m } parameter value negate
  (r.1, if r.2 = false ∧ parameter ∈ passthroughIsupport then some tok else none, r.2)

/-- upstream.go:952-1018 — the loop over the tokens of a message; it stops at an error. -/
def isupportTokens (st : IsState) : List Str → IsState × List Str × Bool
  | [] => (st, [], false)
  | t :: l =>
    let r := isupportToken st t
    if r.2.2 then (r.1, [], true)
    else
      let r' := isupportTokens r.1 l
      (r'.1, (match r.2.1 with | some x => x :: r'.2.1 | none => r'.2.1), r'.2.2)

/-- upstream.go:947-1026 — RPL_ISUPPORT with the given tokens (the parameters between the nick and the trailing
text): the new state and the messages sent to every client, none after an error. -/
def handleIsupport (st : IsState) (tokens : List Str) : IsState × List Msg :=
  let r := isupportTokens st tokens
  (r.1, if r.2.2 then [] else generateIsupport r.2.1)

/-- upstream.go:1027-1048 — the end of the message of the day (without the timer that regains the nick). -/
def endOfMotd (st : IsState) : IsState :=
  if st.gotMotd then st
  else
    { st with
      gotMotd := true
      casemap := match GoMap.get st.isupport b!"CASEMAPPING" with
        | some (some _) => st.casemap
        | _ => .rfc1459 }

/-- A message of the server. -/
inductive IsOp where
  | isupport (tokens : List Str)
  | motd
deriving DecidableEq, Repr

/-- One message. -/
def isStep (st : IsState) : IsOp → IsState
  | .isupport l => (handleIsupport st l).1
  | .motd => endOfMotd st

/-- A connection: the server's messages in order.  `cm` is the case mapping the network had before. -/
def isRun (cm : CaseMapping) (ops : List IsOp) : IsState := ops.foldl isStep { casemap := cm }

/-- downstream.go:1508-1519 — the tokens a client that connects later is told, for the iteration order `order`. -/
def welcomeTokens (st : IsState) (order : List Str) : List Str :=
  order.filterMap (fun k => match GoMap.get st.isupport k with
    | none => none
    | some (some v) => some (k ++ b!"=" ++ v)
    | some none => some k)

end Verif.Model
